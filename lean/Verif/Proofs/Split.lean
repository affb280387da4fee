import Verif.Spec.Pieces
import Verif.Proofs.ObsList

/-!
# The items of a list are read independently
-/

namespace Rfc5322

open Spec

variable {env : Env} {Q : Rule → Prop}

/-! ## The context of a preferred derivation -/

/-- Only the remainders that can occur matter. -/
theorem preferred_congrOn {K L : List Char → Prop} {g s ts s'} (h : Preferred K g s ts s')
    (e : ∀ ts x, Derives g s ts x → (K x ↔ L x)) : Preferred L g s ts s' := by
  induction h generalizing L with
  | eps h => exact .eps ((e _ _ .eps).mp h)
  | eof h => exact .eof ((e _ _ .eof).mp h)
  | t hm h => exact .t hm ((e _ _ (.t hm)).mp h)
  | seq h1 h2 ih1 ih2 =>
    refine .seq (ih1 fun ts x hx => ?_) (ih2 fun us x hx => e _ _ (.seq (Preferred.derives h1).1 hx))
    constructor
    · rintro ⟨us, y, hy, hK⟩; exact ⟨us, y, hy, (e _ _ (.seq hx hy)).mp hK⟩
    · rintro ⟨us, y, hy, hK⟩; exact ⟨us, y, hy, (e _ _ (.seq hx hy)).mpr hK⟩
  | first _ ih => exact .first (ih fun ts x hx => e _ _ (.altL hx))
  | second hn _ ih =>
    refine .second ?_ (ih fun ts x hx => e _ _ (.altR hx))
    rintro ⟨us, y, hy, hK⟩
    exact hn ⟨us, y, hy, (e _ _ (.altL hy)).mpr hK⟩
  | again h1 h2 ih1 ih2 =>
    refine .again (ih1 fun ts x hx => ?_) (ih2 fun us x hx => e _ _ (.starCons (Preferred.derives h1).1 hx))
    constructor
    · rintro ⟨us, y, hy, hK⟩; exact ⟨us, y, hy, (e _ _ (.starCons hx hy)).mp hK⟩
    · rintro ⟨us, y, hy, hK⟩; exact ⟨us, y, hy, (e _ _ (.starCons hx hy)).mpr hK⟩
  | stop hn h =>
    refine .stop ?_ ((e _ _ .starNil).mp h)
    rintro ⟨us, y, hy, hK⟩
    refine hn ⟨us, y, hy, ?_⟩
    cases hy with
    | seq h1 h2 => exact (e _ _ (.starCons h1 h2)).mpr hK
  | rule _ ih => exact .rule (ih fun ts x hx => e _ _ (.rule hx))
  | comment _ ih => exact .comment (ih fun ts x hx => e _ _ (.comment hx))

/-- Expressions that do not ask for the end of the input. -/
def G.noEof : G → Bool
  | .eof => false
  | .seq a b => a.noEof && b.noEof
  | .alt a b => a.noEof && b.noEof
  | .star a => a.noEof
  | .rule _ a => a.noEof
  | _ => true

/-- What is derived does not depend on what follows. -/
theorem derives_frame {g s ts s'} (h : Derives g s ts s') : g.noEof = true → ∃ u, s = u ++ s' ∧ ∀ x, Derives g (u ++ x) ts x := by
  induction h with
  | eps => exact fun _ => ⟨[], rfl, fun x => .eps⟩
  | eof => exact fun h => by cases h
  | @t k c s hm => exact fun _ => ⟨[c], rfl, fun x => .t hm⟩
  | seq _ _ ih1 ih2 =>
    intro hg
    simp only [G.noEof, Bool.and_eq_true] at hg
    obtain ⟨u, rfl, hu⟩ := ih1 hg.1
    obtain ⟨v, rfl, hv⟩ := ih2 hg.2
    exact ⟨u ++ v, by simp, fun x => by rw [List.append_assoc]; exact .seq (hu _) (hv x)⟩
  | altL _ ih =>
    intro hg
    simp only [G.noEof, Bool.and_eq_true] at hg
    obtain ⟨u, rfl, hu⟩ := ih hg.1
    exact ⟨u, rfl, fun x => .altL (hu x)⟩
  | altR _ ih =>
    intro hg
    simp only [G.noEof, Bool.and_eq_true] at hg
    obtain ⟨u, rfl, hu⟩ := ih hg.2
    exact ⟨u, rfl, fun x => .altR (hu x)⟩
  | starNil => exact fun _ => ⟨[], rfl, fun x => .starNil⟩
  | starCons _ _ ih1 ih2 =>
    intro hg
    obtain ⟨u, rfl, hu⟩ := ih1 hg
    obtain ⟨v, rfl, hv⟩ := ih2 hg
    exact ⟨u ++ v, by simp, fun x => by rw [List.append_assoc]; exact .starCons (hu _) (hv x)⟩
  | rule _ ih =>
    intro hg
    obtain ⟨u, rfl, hu⟩ := ih hg
    exact ⟨u, rfl, fun x => .rule (hu x)⟩
  | comment _ ih =>
    intro _
    obtain ⟨u, rfl, hu⟩ := ih (by decide)
    exact ⟨u, rfl, fun x => .comment (hu x)⟩

/-- `K₂` is `K₁` with `r` behind. -/
def Shifted (r : List Char) (K₁ K₂ : List Char → Prop) : Prop := (∀ x, K₁ x ↔ K₂ (x ++ r)) ∧ ∀ y, K₂ y → ∃ x, y = x ++ r

theorem Shifted.completes {r : List Char} {K₁ K₂ : List Char → Prop} (h : Shifted r K₁ K₂) {g : G} (hg : g.noEof = true) :
    Shifted r (Completes g K₁) (Completes g K₂) := by
  refine ⟨fun x => ⟨?_, ?_⟩, ?_⟩
  · rintro ⟨ts, s', hd, hK⟩
    obtain ⟨u, rfl, hu⟩ := derives_frame hd hg
    exact ⟨ts, s' ++ r, by rw [List.append_assoc]; exact hu _, (h.1 s').mp hK⟩
  · rintro ⟨ts, s', hd, hK⟩
    obtain ⟨y, rfl⟩ := h.2 _ hK
    obtain ⟨u, e, hu⟩ := derives_frame hd hg
    rw [← List.append_assoc] at e
    obtain rfl := List.append_cancel_right e
    exact ⟨ts, y, hu y, (h.1 y).mpr hK⟩
  · rintro y ⟨ts, s', hd, hK⟩
    obtain ⟨y, rfl⟩ := h.2 _ hK
    obtain ⟨u, rfl, hu⟩ := derives_frame hd hg
    exact ⟨u ++ y, by simp⟩

theorem preferred_frame {K₁ g s ts s'} (h : Preferred K₁ g s ts s') : g.noEof = true → ∀ {K₂ : List Char → Prop} {r : List Char}, Shifted r K₁ K₂ →
    Preferred K₂ g (s ++ r) ts (s' ++ r) := by
  induction h with
  | eps h => exact fun _ _ _ hs => .eps ((hs.1 _).mp h)
  | eof h => exact fun h => by cases h
  | t hm h => exact fun _ _ _ hs => .t hm ((hs.1 _).mp h)
  | seq h1 h2 ih1 ih2 =>
    intro hg K₂ r hs
    simp only [G.noEof, Bool.and_eq_true] at hg
    exact .seq (ih1 hg.1 (hs.completes hg.2)) (ih2 hg.2 hs)
  | first _ ih =>
    intro hg K₂ r hs
    simp only [G.noEof, Bool.and_eq_true] at hg
    exact .first (ih hg.1 hs)
  | second hn _ ih =>
    intro hg K₂ r hs
    simp only [G.noEof, Bool.and_eq_true] at hg
    exact .second (fun hc => hn (((hs.completes hg.1).1 _).mpr hc)) (ih hg.2 hs)
  | again h1 h2 ih1 ih2 =>
    intro hg K₂ r hs
    exact .again (ih1 hg (hs.completes hg)) (ih2 hg hs)
  | stop hn h =>
    intro hg K₂ r hs
    exact .stop (fun hc => hn (((hs.completes (by simpa [G.noEof] using hg)).1 _).mpr hc)) ((hs.1 _).mp h)
  | rule _ ih => exact fun hg _ _ hs => .rule (ih hg hs)
  | comment _ ih => exact fun hg _ _ hs => .comment (ih (by decide) hs)

/-! ## Pieces -/

theorem part_skeleton {t s} (h : ∀ r, skeleton (t ++ r) = s ++ skeleton r) : skeleton t = s ∧ Mode.after .top t = .top := by
  have h0 : skeleton t = s := by simpa [skeleton, skeletonFrom] using h []
  refine ⟨h0, ?_⟩
  have h1 : skeletonFrom (Mode.after .top t) ['x'] = ['x'] := by
    have := h ['x']
    rw [skeleton, skeletonFrom_append, ← skeleton, h0] at this
    exact List.append_cancel_left this
  match he : Mode.after .top t with
  | .top => rfl
  | .comment d true => rw [he] at h1; cases h1
  | .comment d false => rw [he] at h1; simp [skeletonFrom] at h1
  | .quoted true => rw [he] at h1; cases h1
  | .quoted false => rw [he] at h1; simp [skeletonFrom] at h1
  | .literal => rw [he] at h1; simp [skeletonFrom] at h1

theorem part_top {t s} (h : Part t s) : skeleton t = s ∧ Mode.after .top t = .top := part_skeleton h.1

theorem piecesFrom_ne_nil : ∀ (m : Mode) (t : List Char), piecesFrom m t ≠ []
  | _, [] => by simp [piecesFrom]
  | m, c :: r => by
    rw [piecesFrom]
    split
    · simp
    · split <;> simp

theorem piecesFrom_none : ∀ {t : List Char} {m : Mode}, (∀ c ∈ skeletonFrom m t, isSep c = false) → piecesFrom m t = [t]
  | [], _, _ => rfl
  | c :: t, m, h => by
    obtain ⟨s, h1, h2, h3, h4⟩ := skeletonFrom_cons m c
    rw [h1] at h
    have : ¬ (m.isTop && isSep c) = true := by
      intro hc
      rw [Bool.and_eq_true] at hc
      have := h c (by simp [h3 hc.1 hc.2])
      rw [hc.2] at this; cases this
    rw [piecesFrom, if_neg this, piecesFrom_none fun c hc => h c (by simp [hc])]

theorem piecesFrom_sep : ∀ {t : List Char} {m : Mode} {c : Char} {r}, (∀ c ∈ skeletonFrom m t, isSep c = false) → Mode.after m t = .top → isSep c = true →
    piecesFrom m (t ++ c :: r) = t :: piecesFrom .top r
  | [], m, c, r, _, hm, hc => by
    have : m = .top := hm
    subst this
    rw [List.nil_append, piecesFrom, if_pos (by simp [hc, Mode.isTop])]
  | d :: t, m, c, r, h, hm, hc => by
    obtain ⟨s, h1, h2, h3, h4⟩ := skeletonFrom_cons m d
    rw [h1] at h
    have : ¬ (m.isTop && isSep d) = true := by
      intro hc
      rw [Bool.and_eq_true] at hc
      have := h d (by simp [h3 hc.1 hc.2])
      rw [hc.2] at this; cases this
    rw [List.cons_append, piecesFrom, if_neg this, piecesFrom_sep (t := t) (fun c hc => h c (by simp [hc])) hm hc]

theorem pieces_part {t s} (h : Part t s) : pieces t = [t] := by
  refine piecesFrom_none ?_
  rw [← skeleton, (part_top h).1]; exact h.2

theorem pieces_part_sep {t s} (h : Part t s) {c : Char} (hc : isSep c = true) (r) : pieces (t ++ c :: r) = t :: pieces r := by
  refine piecesFrom_sep ?_ (part_top h).2 hc
  rw [← skeleton, (part_top h).1]; exact h.2

theorem pieces_rest {t s r} (h : Part t s) (hr : Rest r) : ∃ ps, pieces (t ++ r) = t :: ps := by
  cases r with
  | nil => exact ⟨[], by rw [List.append_nil, pieces_part h]⟩
  | cons c r => exact ⟨_, pieces_part_sep h (hr c r rfl) r⟩

/-- An item is determined by the text. -/
theorem address_forced {t r t' r' : List Char} {as as'} (h : Address env t as) (h' : Address env t' as') (e : t ++ r = t' ++ r')
    (hr : Rest r) (hr' : Rest r') (hn : Tame (t ++ r)) : r' = r := by
  obtain ⟨⟨s, hs, _⟩, _⟩ := address_part h hn.left
  obtain ⟨⟨s', hs', _⟩, _⟩ := address_part h' (e ▸ hn : Tame (t' ++ r')).left
  obtain ⟨ps, hp⟩ := pieces_rest hs hr
  obtain ⟨ps', hp'⟩ := pieces_rest hs' hr'
  rw [e, hp'] at hp
  injection hp with h1 _
  subst h1
  exact (List.append_cancel_left e).symm

/-! ## An item on its own -/

/-- `t` is an item and `a` is what it is read as when nothing else is there. -/
def Alone (env : Env) (t : List Char) (a : Addr) : Prop :=
  Picks (· = []) plainK env Gr.address t [] (addList [a])

theorem Alone.address {t a} (h : Alone env t a) : ∃ as, Address env t as := by
  obtain ⟨ts, hp, _⟩ := h
  obtain ⟨t', _, e, ⟨as, ha, _⟩, _⟩ := (means_address (Q := anyK) (env := env)).sound (Preferred.derives hp).1
  rw [List.append_cancel_right e]
  exact ⟨as, ha⟩

theorem Alone.split {t a r} (h : Alone env t a) (hr : Rest r) (hn : Tame (t ++ r)) : Tame r := by
  obtain ⟨as, ha⟩ := h.address
  exact (Tame.split ha hr hn).2

theorem exists_alone {t as} (h : Address env t as) (hn : Tame t) : ∃ a, Alone env t a := by
  obtain ⟨ts, s', hp⟩ := exists_preferred (g := Gr.address) (K := (· = [])) (s := t ++ []) (by decide)
    (completes_of_means (means_address (Q := anyK) (env := env)) ⟨as, h, rfl⟩ rfl)
  obtain ⟨hd, rfl⟩ := Preferred.derives hp
  obtain ⟨t', f, e, ⟨bs, hb, rfl⟩, h2, h3⟩ := (means_address (Q := plainK) (env := env)).sound hd
  obtain rfl := List.append_cancel_right e
  obtain ⟨_, hl⟩ := address_part hb hn
  match bs, hl with
  | [a], _ => exact ⟨a, ts, hp, h2, h3⟩

/-- In a list the item is read as on its own. -/
theorem Alone.picks {t a r} (h : Alone env t a) (hn : Tame (t ++ r)) {K : List Char → Prop} (hr : Rest r) (hK : K r)
    (hK' : ∀ y, K y → Rest y) : Picks K plainK env Gr.address t r (addList [a]) := by
  obtain ⟨as, ha⟩ := h.address
  obtain ⟨ts, hp, h2, h3⟩ := h
  refine ⟨ts, ?_, h2, h3⟩
  have h1 : Preferred (· = r) Gr.address ((t ++ []) ++ r) ts ([] ++ r) :=
    preferred_frame hp (by decide) ⟨fun x => by simp, fun y hy => ⟨[], by simpa using hy⟩⟩
  rw [List.append_nil, List.nil_append] at h1
  refine preferred_congrOn h1 fun us x hx => ⟨fun e => e ▸ hK, fun hx' => ?_⟩
  obtain ⟨t', _, e, ⟨as', ha', _⟩, _⟩ := (means_address (Q := anyK) (env := env)).sound hx
  exact address_forced ha ha' e hr (hK' x hx') hn

/-! ## Lists of items -/

/-- Items, each after a separator. -/
inductive AloneTail (env : Env) : List Char → List Addr → Prop where
  | nil : AloneTail env [] []
  | item {c t a r bs} : isSep c = true → Alone env t a → AloneTail env r bs → AloneTail env (c :: (t ++ r)) (a :: bs)

theorem AloneTail.rest {r bs} (h : AloneTail env r bs) : Rest r := by
  cases h with
  | nil => exact .nil
  | item hc => exact .cons hc

/-- The end of the input. -/
def AtEnd : List Char → Prop := Completes .eof (· = [])
theorem atEnd_nil : AtEnd [] := ⟨_, _, .eof, rfl⟩
theorem AtEnd.nil {x} (h : AtEnd x) : x = [] := by
  obtain ⟨_, _, hd, _⟩ := h
  cases hd; rfl

theorem completes_star_rest {g : G} {y : List Char} (hg : ∀ s ts x, Derives g s ts x → ∃ c z, s = c :: z ∧ isSep c = true)
    (h : Completes (.star g) AtEnd y) : Rest y := by
  obtain ⟨ts, s', hd, hK⟩ := h
  cases hd with
  | starNil => rw [hK.nil]; exact .nil
  | starCons h1 _ =>
    obtain ⟨c, z, rfl, hc⟩ := hg _ _ _ h1
    exact .cons hc

theorem rest_of_means {g : G} {L : Lang} (hm : Means anyK nenv g L) (h : ∀ t f, L t f → t = [','] ∨ t = [';']) {b : G} {s ts x}
    (hd : Derives (g ⬝ b) s ts x) : ∃ c z, s = c :: z ∧ isSep c = true := by
  cases hd with
  | seq h1 _ =>
    obtain ⟨t, f, e, hl, _⟩ := hm.sound h1
    subst e
    rcases h t f hl with rfl | rfl
    · exact ⟨',', _, rfl, rfl⟩
    · exact ⟨';', _, rfl, rfl⟩

theorem strictSep {s ts x} (h : Derives ((.t .Comma ‖ .t .Semicolon) ⬝ Gr.address) s ts x) : ∃ c z, s = c :: z ∧ isSep c = true := by
  cases h with
  | seq h1 h2 =>
    cases h1 with
    | altL h => exact rest_of_means means_comma (by rintro t f ⟨rfl, _⟩; exact .inl rfl) (.seq h h2)
    | altR h => exact rest_of_means means_semicolon (by rintro t f ⟨rfl, _⟩; exact .inr rfl) (.seq h h2)

theorem commaSep {b s ts x} (h : Derives (.t .Comma ⬝ b) s ts x) : ∃ c z, s = c :: z ∧ isSep c = true :=
  rest_of_means means_comma (by rintro t f ⟨rfl, _⟩; exact .inl rfl) h

theorem picks_tail {r bs} (h : AloneTail env r bs) (hn : Tame r) :
    Picks AtEnd plainK env (.star ((.t .Comma ‖ .t .Semicolon) ⬝ Gr.address)) r [] (addList bs) := by
  induction h with
  | nil =>
    have stop : Takes plainK env (.star ((.t .Comma ‖ .t .Semicolon) ⬝ Gr.address)) [] [] id :=
      .stop (NoDer.seq_left (.alt (noDer_tok' means_comma .nil) (noDer_tok' means_semicolon .nil)))
    exact (stop _ atEnd_nil).cast (funext fun p => by rw [acts_addList.nil])
  | @item c t a r bs hc ht hr ih =>
    have h2 := ih (ht.split hr.rest (hn.tail hc))
    have h1 := ht.picks (r := r) (hn.tail hc) hr.rest (K := Completes (.star ((.t .Comma ‖ .t .Semicolon) ⬝ Gr.address)) AtEnd)
      (by simpa using h2.completes) fun y hy => completes_star_rest (fun _ _ _ h => strictSep h) hy
    have hs : Takes plainK env (.t .Comma ‖ .t .Semicolon) [c] (t ++ r) id := by
      simp only [isSep, Bool.or_eq_true, beq_iff_eq] at hc
      rcases hc with rfl | rfl
      · exact (Takes.tok comma_matches).altL
      · exact (Takes.tok semicolon_matches).altR (noDer_tok' means_comma (.cons rfl))
    have h3 := Picks.seq (hs _ h1.completes) h1
    have h4 := Picks.again (u := r) (r := []) (by simpa using h3) h2
    exact (h4.text (by simp)).cast (funext fun p => by simp [acts_addList.add])

theorem picks_strict {t a r bs} (h : Alone env t a) (hr : AloneTail env r bs) (hn : Tame (t ++ r)) :
    Picks AtEnd plainK env (Gr.address ⬝ .star ((.t .Comma ‖ .t .Semicolon) ⬝ Gr.address)) (t ++ r) [] (addList (a :: bs)) := by
  have h2 := picks_tail hr (h.split hr.rest hn)
  have h1 := h.picks (r := r) hn hr.rest (K := Completes (.star ((.t .Comma ‖ .t .Semicolon) ⬝ Gr.address)) AtEnd)
      (by simpa using h2.completes) fun y hy => completes_star_rest (fun _ _ _ h => strictSep h) hy
  exact (Picks.seq (u := r) (r := []) (by simpa using h1) h2).cast (funext fun p => by simp [acts_addList.add])

/-- As an item of a list. -/
def AloneItem (env : Env) (t : List Char) (as : List Addr) : Prop := ∃ a, Alone env t a ∧ as = [a]

theorem picks_commaTail {r bs} (h : CommaTail (AloneItem env) r bs) (hn : Tame r) :
    Picks AtEnd plainK env (.star (.t .Comma ⬝ (Gr.address ‖ Gr.cfws ‖ .eps))) r [] (addList bs) := by
  induction h with
  | nil =>
    have stop : Takes plainK env (.star (.t .Comma ⬝ (Gr.address ‖ Gr.cfws ‖ .eps))) [] [] id :=
      .stop (NoDer.seq_left (noDer_tok' means_comma .nil))
    exact (stop _ atEnd_nil).cast (funext fun p => by rw [acts_addList.nil])
  | @item t as r bs hi hr ih =>
    obtain ⟨a, ht, rfl⟩ := hi
    have h2 := ih (ht.split (CommaTail.rest hr) (hn.tail rfl))
    have h1 := ht.picks (r := r) (hn.tail rfl) (CommaTail.rest hr) (K := Completes (.star (.t .Comma ⬝ (Gr.address ‖ Gr.cfws ‖ .eps))) AtEnd)
      (by simpa using h2.completes) fun y hy => completes_star_rest (fun _ _ _ h => commaSep h) hy
    have h1' := h1.altL (b := Gr.cfws ‖ .eps)
    have h3 := Picks.seq (Picks.tok (Q := plainK) (env := env) (r := t ++ r) comma_matches h1'.completes) h1'
    have h4 := Picks.again (u := r) (r := []) (by simpa using h3) h2
    exact (h4.text (by simp)).cast (funext fun p => by simp [acts_addList.add])
  | @empty t r bs ht hr ih =>
    have h2 := ih ((hn.tail rfl).right (s := []) (skeleton_cfws ht) (CommaTail.rest hr))
    have hf := commaTail_follow hr
    have hs : Heads solid r := hf.follow rfl rfl
    have hn : NoDer Gr.address (t ++ r) := by
      refine noDer_address_skip fun c x hx => ?_
      rw [skip_end ht hs] at hx
      have := hf _ _ hx
      rcases follow_iff.mp this with rfl | rfl <;> rfl
    have h1 : Takes plainK env (Gr.address ‖ Gr.cfws ‖ .eps) t r id := by
      refine .altR hn ?_
      by_cases hne : t = []
      · subst hne
        exact .altR (noDer_cfws (by simpa using hs)) .eps
      · exact (takes_cfws ⟨ht, hne⟩ (by simpa using hs)).altL
    have h3 : Takes plainK env _ _ _ _ := (Takes.tok (r := t ++ r) comma_matches).seq h1
    have h4 := Picks.again (u := r) (r := []) (by simpa using h3 _ (by simpa using h2.completes)) h2
    exact (h4.text (by simp)).cast (funext fun p => by simp)

theorem picks_obs {h t a r bs} (hh : Commas h) (ht : Alone env t a) (hr : CommaTail (AloneItem env) r bs) (hn : Tame (h ++ (t ++ r))) :
    Picks AtEnd plainK env Gr.obsAddrList (h ++ (t ++ r)) [] (addList (a :: bs)) := by
  have h2 := picks_commaTail hr (ht.split (CommaTail.rest hr) (hn.commas hh))
  have h1 := ht.picks (r := r) (hn.commas hh) (CommaTail.rest hr) (K := Completes (.star (.t .Comma ⬝ (Gr.address ‖ Gr.cfws ‖ .eps))) AtEnd)
      (by simpa using h2.completes) fun y hy => completes_star_rest (fun _ _ _ h => commaSep h) hy
  have h3 := Picks.seq (u := r) (r := []) (by simpa using h1) h2
  obtain ⟨_, ha⟩ := ht.address
  obtain ⟨c, x, hs, hc⟩ := address_skip ha r
  have h0 : Takes plainK env (.star (.opt Gr.cfws ⬝ .t .Comma)) h ((t ++ r) ++ []) id := takes_commas hh (by simpa using hs) hc
  exact (Picks.silent (q := .obsAddrList) rfl (Picks.seq (h0 _ h3.completes) h3)).cast (funext fun p => by simp [acts_addList.add])

/-! ## The results of the calls -/

theorem picks_withEof {g : G} {t f} (h : Picks AtEnd Q env g t [] f) : ∃ ts, Preferred (· = []) (g ⬝ .eof) t (ts ++ [.eof]) [] ∧ Eff Q env ts f := by
  obtain ⟨ts, hp, _, hf⟩ := h
  rw [List.append_nil] at hp
  exact ⟨ts, .seq hp (.eof rfl), hf⟩

theorem call_strict (P : Predictor) {input : Bytes} {t a r bs} (hne : input ≠ []) (e : tokens input = t ++ r) (h : Alone env t a) (hr : AloneTail env r bs)
    (hn : Tame (t ++ r)) : parseAddressList P env input = .ok (some (a :: bs), none) := by
  obtain ⟨ts, hp, hf⟩ := picks_withEof (picks_strict h hr hn)
  exact result_of_preferred P hne rfl (.first (preferred_assoc (e ▸ hp))) hf

theorem call_obs (P : Predictor) {input : Bytes} {h t a r bs} (hne : input ≠ []) (e : tokens input = h ++ (t ++ r)) (hh : Commas h) (ht : Alone env t a)
    (hr : CommaTail (AloneItem env) r bs) (hn : Tame (h ++ (t ++ r))) (hs : ∀ as, ¬ StrictList nenv (h ++ (t ++ r)) as) :
    parseAddressList P env input = .ok (some (a :: bs), none) := by
  obtain ⟨ts, hp, hf⟩ := picks_withEof (picks_obs hh ht hr hn)
  exact result_of_preferred P hne rfl (.second (e ▸ not_strict hs) (e ▸ hp)) hf

theorem call_alone (P : Predictor) {input : Bytes} {t a} (hne : input ≠ []) (e : tokens input = t) (h : Alone env t a) (hn : Tame t) :
    parseAddressList P env input = .ok (some [a], none) :=
  call_strict P (r := []) hne (by rw [e, List.append_nil]) h .nil (by simpa using hn)

/-! ## From the pieces to the structure and back -/

/-- Element by element. -/
inductive Each {α β : Type} (R : α → β → Prop) : List α → List β → Prop where
  | nil : Each R [] []
  | cons {a as b bs} : R a b → Each R as bs → Each R (a :: as) (b :: bs)

theorem Each.imp {α β : Type} {R S : α → β → Prop} {as : List α} {bs : List β} (h : Each R as bs) (hi : ∀ a ∈ as, ∀ b, R a b → S a b) : Each S as bs := by
  induction h with
  | nil => exact .nil
  | cons h _ ih => exact .cons (hi _ (by simp) _ h) (ih fun a ha => hi a (by simp [ha]))

theorem Each.map {α β γ : Type} {f : α → γ} {g : β → γ} {as : List α} {bs : List β} (h : Each (fun a b => f a = g b) as bs) : as.map f = bs.map g := by
  induction h with
  | nil => rfl
  | cons h _ ih => simp [h, ih]

theorem Each.ofMap {α β γ : Type} {f : α → γ} {g : β → γ} : ∀ {as : List α} {bs : List β}, as.map f = bs.map g → Each (fun a b => f a = g b) as bs
  | [], [], _ => .nil
  | [], _ :: _, h => by cases h
  | _ :: _, [], h => by cases h
  | _ :: _, _ :: _, h => by injection h with h1 h2; exact .cons h1 (ofMap h2)

theorem Each.append {α β : Type} {R : α → β → Prop} {as as' : List α} {bs bs' : List β} (h : Each R as bs) (h' : Each R as' bs') :
    Each R (as ++ as') (bs ++ bs') := by
  induction h with
  | nil => exact h'
  | cons h _ ih => exact .cons h ih

theorem Each.length {α β : Type} {R : α → β → Prop} {as : List α} {bs : List β} (h : Each R as bs) : as.length = bs.length := by
  induction h with
  | nil => rfl
  | cons _ _ ih => simp [ih]

theorem piecesFrom_cases : ∀ (t : List Char) (m : Mode), (piecesFrom m t = [t] ∧ ∀ c ∈ skeletonFrom m t, isSep c = false) ∨
    ∃ p c r, t = p ++ c :: r ∧ isSep c = true ∧ piecesFrom m t = p :: pieces r ∧ Mode.after m p = .top ∧ ∀ c ∈ skeletonFrom m p, isSep c = false
  | [], m => .inl ⟨rfl, by simp [skeletonFrom]⟩
  | c :: t, m => by
    obtain ⟨s, h1, h2, h3, h4⟩ := skeletonFrom_cons m c
    by_cases hc : (m.isTop && isSep c) = true
    · rw [Bool.and_eq_true] at hc
      have hm : m = .top := by
        cases m with
        | top => rfl
        | _ => exact absurd hc.1 (by simp [Mode.isTop])
      subst hm
      refine .inr ⟨[], c, t, rfl, hc.2, ?_, rfl, by simp [skeletonFrom]⟩
      rw [piecesFrom, if_pos (by simp [hc])]; rfl
    · have hsep : ∀ d ∈ s, isSep d = false := by
        intro d hd
        rcases h2 with rfl | rfl
        · cases hd
        · rw [List.mem_singleton] at hd
          subst hd
          by_cases hs : isSep d = true
          · exact absurd (by simp [hs, h4 hs rfl]) hc
          · simpa using hs
      rcases piecesFrom_cases t (m.next c) with ⟨ih1, ih2⟩ | ⟨p, d, r, rfl, hd, ih1, ih2, ih3⟩
      · refine .inl ⟨by rw [piecesFrom, if_neg hc, ih1], fun d hd => ?_⟩
        rw [h1, List.mem_append] at hd
        rcases hd with hd | hd
        · exact hsep d hd
        · exact ih2 d hd
      · refine .inr ⟨c :: p, d, r, rfl, hd, by rw [piecesFrom, if_neg hc, ih1], ih2, fun e he => ?_⟩
        rw [h1, List.mem_append] at he
        rcases he with he | he
        · exact hsep e he
        · exact ih3 e he

theorem pieces_cases (t : List Char) : (pieces t = [t] ∧ ∀ c ∈ skeleton t, isSep c = false) ∨
    ∃ p c r, t = p ++ c :: r ∧ isSep c = true ∧ pieces t = p :: pieces r ∧ Part p (skeleton p) := by
  rcases piecesFrom_cases t .top with h | ⟨p, c, r, h1, h2, h3, h4, h5⟩
  · exact .inl h
  · refine .inr ⟨p, c, r, h1, h2, h3, fun x => ?_, h5⟩
    rw [skeleton, skeletonFrom_append, h4]; rfl

/-- The items are the skeletons of the pieces. -/
theorem items_pieces (t : List Char) : items t = (pieces t).map skeleton := by
  rcases pieces_cases t with ⟨h1, h2⟩ | ⟨p, c, r, rfl, hc, h3, h4⟩
  · rw [h1, items, splitSeps_none h2]; rfl
  · rw [h3, items, h4.1, skeleton_sep hc, splitSeps_sep h4.2 hc, ← items, items_pieces r]; rfl
termination_by t.length
decreasing_by subst_vars; simp; omega

theorem pieces_mem {t p : List Char} (h : p ∈ pieces t) : pieces p = [p] ∧ p <:+: t := by
  rcases pieces_cases t with ⟨h1, h2⟩ | ⟨q, c, r, rfl, hc, h3, h4⟩
  · rw [h1, List.mem_singleton] at h
    subst h
    exact ⟨h1, List.infix_refl _⟩
  · rw [h3, List.mem_cons] at h
    rcases h with rfl | h
    · exact ⟨pieces_part h4, [], _, rfl⟩
    · obtain ⟨h5, x, y, e⟩ := pieces_mem h
      exact ⟨h5, q ++ c :: x, y, by rw [← e]; simp⟩
termination_by t.length
decreasing_by subst_vars; simp; omega

theorem after_append : ∀ (t : List Char) (m : Mode) (u), m.after (t ++ u) = (m.after t).after u
  | [], _, _ => rfl
  | c :: t, m, u => by rw [List.cons_append, Mode.after, after_append t, Mode.after]

theorem pieces_top {t p : List Char} (ht : Mode.after .top t = .top) (h : p ∈ pieces t) : Mode.after .top p = .top := by
  rcases pieces_cases t with ⟨h1, h2⟩ | ⟨q, c, r, rfl, hc, h3, h4⟩
  · rw [h1, List.mem_singleton] at h
    exact h ▸ ht
  · rw [h3, List.mem_cons] at h
    rcases h with rfl | h
    · exact (part_top h4).2
    · refine pieces_top (t := r) ?_ h
      rw [after_append, (part_top h4).2, Mode.after] at ht
      simp only [isSep, Bool.or_eq_true, beq_iff_eq] at hc
      rcases hc with rfl | rfl <;> exact ht
termination_by t.length
decreasing_by subst_vars; simp; omega

theorem Tame.piece {t p : List Char} (h : Tame t) (hp : p ∈ pieces t) : Tame p := by
  rcases pieces_cases t with ⟨h1, h2⟩ | ⟨q, c, r, rfl, hc, h3, h4⟩
  · rw [h1, List.mem_singleton] at hp
    exact hp ▸ h
  · rw [h3, List.mem_cons] at hp
    rcases hp with rfl | hp
    · exact h.left
    · exact Tame.piece ((h.right h4.1 (.cons hc)).tail hc) hp
termination_by t.length
decreasing_by subst_vars; simp; omega

theorem part_full {t s} (h : Part t s) (hne : s ≠ []) : isEmptyPiece t = false := by
  rw [isEmptyPiece, (part_top h).1]
  cases s with
  | nil => exact absurd rfl hne
  | cons => rfl

theorem part_empty {t} (h : OptCfws t) : isEmptyPiece t = true := by rw [isEmptyPiece, (part_top (Part.cfws h)).1]; rfl

/-- The pieces that are not just white space and comments. -/
def fulls (ps : List (List Char)) : List (List Char) := ps.filter fun p => !isEmptyPiece p

theorem fulls_full {p ps} (h : isEmptyPiece p = false) : fulls (p :: ps) = p :: fulls ps := by simp [fulls, h]
theorem fulls_empty {p ps} (h : isEmptyPiece p = true) : fulls (p :: ps) = fulls ps := by simp [fulls, h]

/-- The structure found by the grammar, item by item. -/
theorem sepTail_alone {r bs} (h : SepTail env r bs) (hn : Tame r) : ∃ cs ps, AloneTail env r cs ∧ Each (Alone env) (fulls ps) cs ∧
    (∀ p ∈ ps, isEmptyPiece p = true → OptCfws p) ∧
    ∀ t s, Part t s → pieces (t ++ r) = t :: ps := by
  induction h with
  | nil => exact ⟨[], [], .nil, .nil, by simp, fun t s h => by rw [List.append_nil, pieces_part h]⟩
  | @item sep t as r bs hsep hi hr ih =>
    have hsep' : isSep sep = true := by rcases hsep with rfl | rfl <;> rfl
    obtain ⟨l1, l2⟩ := Tame.split hi (SepTail.rest hr) (hn.tail hsep')
    obtain ⟨cs, ps, h1, h2, h0, h3⟩ := ih l2
    obtain ⟨⟨u, hu, hne⟩, _⟩ := address_part hi l1
    obtain ⟨a, ha⟩ := exists_alone hi l1
    exact ⟨a :: cs, t :: ps, .item hsep' ha h1, by rw [fulls_full (part_full hu hne)]; exact .cons ha h2,
      List.forall_mem_cons.mpr ⟨fun h => absurd h (by simp [part_full hu hne]), h0⟩,
      fun x s hx => by rw [pieces_part_sep hx hsep', h3 t u hu]⟩

theorem commaTail_alone {r bs} (h : CommaTail (Address env) r bs) (hn : Tame r) : ∃ cs ps, CommaTail (AloneItem env) r cs ∧ Each (Alone env) (fulls ps) cs ∧
    (∀ p ∈ ps, isEmptyPiece p = true → OptCfws p) ∧
    ∀ t s, Part t s → pieces (t ++ r) = t :: ps := by
  induction h with
  | nil => exact ⟨[], [], .nil, .nil, by simp, fun t s h => by rw [List.append_nil, pieces_part h]⟩
  | @item t as r bs hi hr ih =>
    obtain ⟨l1, l2⟩ := Tame.split hi (CommaTail.rest hr) (hn.tail rfl)
    obtain ⟨cs, ps, h1, h2, h0, h3⟩ := ih l2
    obtain ⟨⟨u, hu, hne⟩, _⟩ := address_part hi l1
    obtain ⟨a, ha⟩ := exists_alone hi l1
    exact ⟨[a] ++ cs, t :: ps, .item ⟨a, ha, rfl⟩ h1, by rw [fulls_full (part_full hu hne)]; exact .cons ha h2,
      List.forall_mem_cons.mpr ⟨fun h => absurd h (by simp [part_full hu hne]), h0⟩,
      fun x s hx => by rw [pieces_part_sep hx rfl, h3 t u hu]⟩
  | @empty t r bs ht hr ih =>
    obtain ⟨cs, ps, h1, h2, h0, h3⟩ := ih ((hn.tail rfl).right (s := []) (skeleton_cfws ht) (CommaTail.rest hr))
    exact ⟨cs, t :: ps, .empty ht h1, by rw [fulls_empty (part_empty ht)]; exact h2,
      List.forall_mem_cons.mpr ⟨fun _ => ht, h0⟩,
      fun x s hx => by rw [pieces_part_sep hx rfl, h3 t [] (.cfws ht)]⟩

theorem commas_pieces {h : List Char} (hh : Commas h) (r) : fulls (pieces (h ++ r)) = fulls (pieces r) ∧
    ((∀ p ∈ pieces r, isEmptyPiece p = true → OptCfws p) → ∀ p ∈ pieces (h ++ r), isEmptyPiece p = true → OptCfws p) := by
  induction hh with
  | nil => exact ⟨rfl, id⟩
  | @cons t x ht _ ih =>
    rw [List.append_assoc, List.cons_append, pieces_part_sep (.cfws ht) rfl, fulls_empty (part_empty ht), ih.1]
    exact ⟨rfl, fun h => List.forall_mem_cons.mpr ⟨fun _ => ht, ih.2 h⟩⟩

/-- The structure does not depend on the decoder. -/
theorem strict_env {env' : Env} {t as} (h : StrictList env t as) : ∃ bs, StrictList env' t bs := by
  obtain ⟨ts, hd, _⟩ := (means_strictList (Q := anyK) (env := env)).complete ⟨as, h, rfl⟩ []
  obtain ⟨u, _, e, ⟨l, hl, _⟩, _⟩ := (means_strictList (Q := anyK) (env := env')).sound hd
  rw [List.append_cancel_right e]
  exact ⟨l, hl⟩

/-- What a call returns for an accepted list is what its items are read as on their own. -/
theorem call_each (P : Predictor) {input : Bytes} {t as} (hne : input ≠ []) (e : tokens input = t) (h : AddressList env t as) (hn : Tame t) :
    ∃ l, parseAddressList P env input = .ok (some l, none) ∧ Each (Alone env) (fullPieces t) l ∧ ∀ p ∈ pieces t, isEmptyPiece p = true → OptCfws p := by
  by_cases hs : ∃ bs, StrictList env t bs
  · obtain ⟨_, u, cs, r, bs, hu, hr, rfl, rfl⟩ := hs
    obtain ⟨l1, l2⟩ := Tame.split hu (SepTail.rest hr) hn
    obtain ⟨⟨s, hs, hne'⟩, _⟩ := address_part hu l1
    obtain ⟨a, ha⟩ := exists_alone hu l1
    obtain ⟨ds, ps, h1, h2, h0, h3⟩ := sepTail_alone hr l2
    refine ⟨a :: ds, call_strict P hne e ha h1 hn, ?_, ?_⟩
    · rw [fullPieces, ← fulls, h3 u s hs, fulls_full (part_full hs hne')]
      exact .cons ha h2
    · rw [h3 u s hs]
      exact List.forall_mem_cons.mpr ⟨fun h => absurd h (by simp [part_full hs hne']), h0⟩
  · rcases addressList_iff.mp h with h | h
    · exact absurd ⟨_, h⟩ hs
    · obtain ⟨h, u, cs, r, bs, hh, hu, hr, rfl, rfl⟩ := h
      obtain ⟨l1, l2⟩ := Tame.split hu (CommaTail.rest hr) (hn.commas hh)
      obtain ⟨⟨s, hs', hne'⟩, _⟩ := address_part hu l1
      obtain ⟨a, ha⟩ := exists_alone hu l1
      obtain ⟨ds, ps, h1, h2, h0, h3⟩ := commaTail_alone hr l2
      refine ⟨a :: ds, call_obs P hne e hh ha h1 hn ?_, ?_, ?_⟩
      · intro as has
        exact hs (strict_env has)
      · rw [fullPieces, ← fulls, (commas_pieces hh _).1, h3 u s hs', fulls_full (part_full hs' hne')]
        exact .cons ha h2
      · refine (commas_pieces hh _).2 ?_
        rw [h3 u s hs']
        exact List.forall_mem_cons.mpr ⟨fun h => absurd h (by simp [part_full hs' hne']), h0⟩

theorem addressList_aligned {t as} (h : AddressList env t as) (hn : Tame t) : Aligned t (skeleton t) := addressList_app h hn

theorem addressList_top {t as} (h : AddressList env t as) (hn : Tame t) : Mode.after .top t = .top :=
  (part_skeleton (addressList_app h hn)).2

theorem piecesFrom_append : ∀ {t : List Char} {m : Mode} {c : Char} {u}, m.after t = .top → isSep c = true →
    piecesFrom m (t ++ c :: u) = piecesFrom m t ++ pieces u
  | [], m, c, u, hm, hc => by
    have : m = .top := hm
    subst this
    show piecesFrom .top (c :: u) = [[]] ++ pieces u
    rw [piecesFrom.eq_def]
    simp [hc, Mode.isTop, pieces]
  | d :: t, m, c, u, hm, hc => by
    rw [List.cons_append, piecesFrom, piecesFrom]
    split
    · rename_i h
      rw [Bool.and_eq_true] at h
      have hm' : m.next d = .top := by
        cases m with
        | top =>
          have := h.2
          simp only [isSep, Bool.or_eq_true, beq_iff_eq] at this
          rcases this with rfl | rfl <;> rfl
        | _ => exact absurd h.1 (by simp [Mode.isTop])
      rw [Mode.after, hm'] at hm
      rw [piecesFrom_append hm hc]; rfl
    · rw [piecesFrom_append (t := t) hm hc]
      obtain ⟨p, ps, hp⟩ := List.exists_cons_of_ne_nil (piecesFrom_ne_nil (m.next d) t)
      rw [hp]; rfl

/-! ## Putting a list together -/

/-- All pieces are items. -/
theorem aloneTail_of (t : List Char) {l} (h : Each (Alone env) (pieces t) l) : ∃ u a r bs, t = u ++ r ∧ l = a :: bs ∧ Alone env u a ∧ AloneTail env r bs := by
  rcases pieces_cases t with ⟨h1, _⟩ | ⟨p, c, r, rfl, hc, h3, _⟩
  · rw [h1] at h
    cases h with
    | cons h h' => cases h'; exact ⟨t, _, [], [], by simp, rfl, h, .nil⟩
  · rw [h3] at h
    cases h with
    | cons h h' =>
      obtain ⟨u, a, x, bs, rfl, rfl, h5, h6⟩ := aloneTail_of r h'
      exact ⟨p, _, c :: (u ++ x), a :: bs, rfl, rfl, h, .item hc h5 h6⟩
termination_by t.length
decreasing_by subst_vars; simp; omega

theorem sep_comma {c : Char} (h : isSep c = true) (h' : c ≠ ';') : c = ',' := by
  simp only [isSep, Bool.or_eq_true, beq_iff_eq] at h
  rcases h with h | h
  · exact h
  · exact absurd h h'

/-- What follows a comma, with empty pieces. -/
theorem commaTail_of (t : List Char) {l} (h : Each (Alone env) (fulls (pieces t)) l) (he : ∀ p ∈ pieces t, isEmptyPiece p = true → OptCfws p)
    (hs : ';' ∉ skeleton t) : CommaTail (AloneItem env) (',' :: t) l := by
  rcases pieces_cases t with ⟨h1, _⟩ | ⟨p, c, r, rfl, hc, h3, h4⟩
  · rw [h1] at h he
    by_cases hp : isEmptyPiece t = true
    · rw [fulls_empty hp] at h
      cases h
      have := CommaTail.empty (Item := AloneItem env) (he t (by simp) hp) .nil
      rwa [List.append_nil] at this
    · rw [fulls_full (by simpa using hp)] at h
      cases h with
      | cons h h' =>
        cases h'
        have := CommaTail.item (Item := AloneItem env) ⟨_, h, rfl⟩ .nil
        rwa [List.append_nil] at this
  · rw [h4.1, List.mem_append, skeleton_sep hc, List.mem_cons, not_or, not_or] at hs
    have hc' := sep_comma hc fun e => hs.2.1 e.symm
    subst hc'
    rw [h3] at h he
    have he' : ∀ p ∈ pieces r, isEmptyPiece p = true → OptCfws p := fun p hp => he p (by simp [hp])
    by_cases hp : isEmptyPiece p = true
    · rw [fulls_empty hp] at h
      exact .empty (he p (by simp) hp) (commaTail_of r h he' hs.2.2)
    · rw [fulls_full (by simpa using hp)] at h
      cases h with
      | cons h h' => exact .item ⟨_, h, rfl⟩ (commaTail_of r h' he' hs.2.2)
termination_by t.length
decreasing_by all_goals (subst_vars; simp; omega)

theorem obs_of (t : List Char) {l} (h : Each (Alone env) (fulls (pieces t)) l) (he : ∀ p ∈ pieces t, isEmptyPiece p = true → OptCfws p)
    (hs : ';' ∉ skeleton t) (hl : l ≠ []) : ∃ h u a r bs, t = h ++ (u ++ r) ∧ l = a :: bs ∧ Commas h ∧ Alone env u a ∧ CommaTail (AloneItem env) r bs := by
  rcases pieces_cases t with ⟨h1, _⟩ | ⟨p, c, r, rfl, hc, h3, h4⟩
  · rw [h1] at h he
    by_cases hp : isEmptyPiece t = true
    · rw [fulls_empty hp] at h
      cases h
      exact absurd rfl hl
    · rw [fulls_full (by simpa using hp)] at h
      cases h with
      | cons h h' => cases h'; exact ⟨[], t, _, [], [], by simp, rfl, .nil, h, .nil⟩
  · rw [h4.1, List.mem_append, skeleton_sep hc, List.mem_cons, not_or, not_or] at hs
    have hc' := sep_comma hc fun e => hs.2.1 e.symm
    subst hc'
    rw [h3] at h he
    have he' : ∀ p ∈ pieces r, isEmptyPiece p = true → OptCfws p := fun p hp => he p (by simp [hp])
    by_cases hp : isEmptyPiece p = true
    · rw [fulls_empty hp] at h
      obtain ⟨x, u, a, y, bs, rfl, rfl, hx, hu, hy⟩ := obs_of r h he' hs.2.2 hl
      exact ⟨p ++ ',' :: x, u, a, y, bs, by simp, rfl, .cons (he p (by simp) hp) hx, hu, hy⟩
    · rw [fulls_full (by simpa using hp)] at h
      cases h with
      | cons h h' => exact ⟨[], p, _, ',' :: r, _, rfl, rfl, .nil, h, commaTail_of r h' he' hs.2.2⟩
termination_by t.length
decreasing_by all_goals (subst_vars; simp; omega)

/-- A list of acceptable items is accepted. -/
theorem call_of_each (P : Predictor) {input : Bytes} {t l} (hne : input ≠ []) (e : tokens input = t) (hn : Tame t)
    (h : Each (Alone env) (fullPieces t) l) (hl : l ≠ []) (he : ∀ p ∈ pieces t, isEmptyPiece p = true → OptCfws p)
    (hs : (∃ p ∈ pieces t, isEmptyPiece p = true) → ';' ∉ skeleton t) : parseAddressList P env input = .ok (some l, none) := by
  by_cases hp : ∃ p ∈ pieces t, isEmptyPiece p = true
  · obtain ⟨x, u, a, r, bs, rfl, rfl, hx, hu, hr⟩ := obs_of t h he (hs hp) hl
    refine call_obs P hne e hx hu hr hn fun as has => ?_
    obtain ⟨p, hp1, hp2⟩ := hp
    have := (strict_items has hn).1
    rw [items_pieces] at this
    refine this (skeleton p) (List.mem_map.mpr ⟨p, hp1, rfl⟩) ?_
    simpa [isEmptyPiece] using hp2
  · have hall : fullPieces t = pieces t := by
      refine List.filter_eq_self.mpr fun p hpm => ?_
      cases hc : isEmptyPiece p with
      | true => exact absurd ⟨p, hpm, hc⟩ hp
      | false => rfl
    rw [hall] at h
    obtain ⟨u, a, r, bs, rfl, rfl, hu, hr⟩ := aloneTail_of t h
    exact call_strict P hne e hu hr hn

/-- Calls with single items. -/
theorem alone_iff_call (P : Predictor) {t : List Char} {a : Addr} (hn : Tame t) (hp : pieces t = [t]) (hf : isEmptyPiece t = false) (hb : ∀ c ∈ t, bmp c = true) :
    parseAddressList P env (encode t) = .ok (some [a], none) ↔ Alone env t a := by
  have hne : encode t ≠ [] := encode_ne_nil (by rintro rfl; cases hf)
  have e : tokens (encode t) = t := by rw [tokens_encode, dropAstral_of hb]
  constructor
  · intro h
    rcases parseAddressList_spec P env hne with ⟨l, hl, _⟩ | ⟨_, h'⟩
    · rw [e] at hl
      obtain ⟨l', h1, h2, _⟩ := call_each P hne e hl hn
      rw [h] at h1
      injection h1 with h1
      injection h1 with h1 _
      injection h1 with h1
      subst h1
      have : fullPieces t = [t] := by rw [fullPieces, hp]; simp [hf]
      rw [this] at h2
      cases h2 with
      | cons h _ => exact h
    · rw [h] at h'; cases h'
  · intro h
    exact call_alone P hne e h hn

end Rfc5322
