import Verif.Proofs.Stuff

/-!
# Display names with periods and at signs
-/

namespace Rfc5322

open Spec

variable {env : Env} {Q : Rule → Prop}

theorem atomRun_run {t v} (h : AtomRun env t v) : EncodedRun env t v := by
  induction h with
  | one h _ hb => exact .one h hb
  | cons h _ hb _ ih => exact .cons h hb ih

theorem cfws_head_ne {b r : List Char} (hb : OptCfws b) (hr : r.head? ≠ some '?') : (b ++ r).head? ≠ some '?' := by
  cases b with
  | nil => exact hr
  | cons c b =>
    intro h
    simp at h
    subst h
    exact cfws_ne (a := []) OptCfws.nil hb (by decide) rfl

theorem heads_head {p : Char → Bool} {r : List Char} {c : Char} (h : Heads p r) (hc : p c = false) : r.head? ≠ some c := by
  cases r with
  | nil => simp
  | cons d r => rintro e; simp at e; subst e; rw [h.head] at hc; cases hc

theorem encodedWord_last {t : List Char} (h : EncodedWord t) : t.getLast? = some '=' := by
  obtain ⟨cs, en, tx, _, _, _, _, _, _, rfl⟩ := h
  rw [show '=' :: '?' :: (cs ++ '?' :: (en ++ '?' :: (tx ++ ['?', '=']))) = ('=' :: '?' :: (cs ++ '?' :: (en ++ '?' :: (tx ++ ['?'])))) ++ ['='] by simp]
  exact List.getLast?_concat

theorem atomRun_stuff' {p : Char → Bool} {t v e s} (hp : ∀ c, isAtext c = true → p c = true) (h : AtomRun env t v) (hs : Stuff p e s)
    (hq : t.getLast? = some '=' → s.head? ≠ some '?') : Stuff p e (t ++ s) := by
  induction h with
  | @one t b ht hx hb =>
    rw [List.append_assoc]
    refine .addEnc ht (fun c hc => hp c (hx c hc)) ?_ (.addCfws hb hs)
    cases b with
    | nil => exact hq (by simpa using encodedWord_last ht)
    | cons c b =>
      intro h
      simp at h
      subst h
      exact cfws_ne (a := []) OptCfws.nil hb (by decide) rfl
  | cons ht hx hb hr ih =>
    obtain ⟨y, rfl⟩ := encRun_head (atomRun_run hr)
    rw [List.append_assoc, List.append_assoc]
    refine .addEnc ht (fun c hc => hp c (hx c hc)) (cfws_head_ne hb (by simp)) (.addCfws hb (ih fun h => hq ?_))
    rw [List.getLast?_append, List.getLast?_append, h]; rfl

theorem atomRun_stuff {t v e s} (h : AtomRun env t v) (hs : Stuff isAtext e s) (hq : t.getLast? = some '=' → s.head? ≠ some '?') : Stuff isAtext e (t ++ s) :=
  atomRun_stuff' (fun _ h => h) h hs hq

theorem barrier_noWord {c : Char} (h : barrier c = true) : noWord c = true := by
  obtain ⟨h1, h2, h3⟩ := barrier_iff.mp h
  exact noWord_iff.mpr ⟨solid_iff.mpr h2, h1.1, h3⟩

def isPunct : Piece → Bool
  | .punct _ => true
  | .word _ => false

theorem pieces_nil {t ps} (h : NamePieces env t ps) (e : t = []) : ps = [] := by
  cases h with
  | nil => rfl
  | atom ht _ _ _ _ => simp [ht.1] at e
  | quoted ht _ _ => obtain ⟨y, rfl⟩ := quotedString_head ht; simp at e
  | encoded ht _ _ _ => obtain ⟨y, rfl⟩ := encRun_head (atomRun_run ht); simp at e
  | dot _ _ => cases e
  | «at» _ _ => cases e

/-- Up to the first `.` or `@`. -/
theorem pieces_stuff {t ps} (h : NamePieces env t ps) (hp : ps.any isPunct = true) (r : List Char) :
    ∃ c x, (c = '.' ∨ c = '@') ∧ Stuff isAtext (c :: x) (t ++ r) := by
  induction h with
  | nil => cases hp
  | @atom t b x ps ht hn hb hx h ih =>
    obtain ⟨c, y, hc, hs⟩ := ih (by simpa [isPunct] using hp)
    refine ⟨c, y, hc, ?_⟩
    rw [List.append_assoc, List.append_assoc]
    refine .addChars ht.2 hn ?_ (.addCfws hb hs)
    cases b with
    | nil =>
      cases x with
      | nil => rw [pieces_nil h rfl] at hp; cases hp
      | cons d x => intro e; simp at e; subst e; exact absurd (hx rfl '?' (by simp)) (by decide)
    | cons d b =>
      intro e
      simp at e
      subst e
      exact cfws_ne (a := []) OptCfws.nil hb (by decide) rfl
  | quoted ht hb _ ih =>
    obtain ⟨c, y, hc, hs⟩ := ih (by simpa [isPunct] using hp)
    exact ⟨c, y, hc, by rw [List.append_assoc, List.append_assoc]; exact .quoted ht (.addCfws hb hs)⟩
  | @encoded t x v ps ht _ hq h ih =>
    obtain ⟨c, y, hc, hs⟩ := ih (by simpa [isPunct] using hp)
    refine ⟨c, y, hc, ?_⟩
    rw [List.append_assoc]
    refine atomRun_stuff ht hs ?_
    cases x with
    | nil => rw [pieces_nil h rfl] at hp; cases hp
    | cons d x => exact hq
  | dot _ _ _ => exact ⟨'.', _, .inl rfl, .done⟩
  | «at» _ _ _ => exact ⟨'@', _, .inr rfl, .done⟩

/-- Words alone do not get past it. -/
theorem words_stop {a t r : List Char} {ps} (ha : OptCfws a) (h : NamePieces env t ps) (hp : ps.any isPunct = true) {K : List Char → Prop}
    (hK : ∀ s, K s → ∃ b c x, OptCfws b ∧ barrier c = true ∧ s = b ++ c :: x) : ¬ Completes (.plus Gr.word) K (a ++ (t ++ r)) := by
  intro hc
  obtain ⟨c, x, hcx, hs⟩ := pieces_stuff h hp r
  have hs := Stuff.addCfws ha hs
  have hw := walls_atext (e := c :: x) (.cons (by rcases hcx with rfl | rfl <;> decide))
  obtain ⟨t', _, r', e, ⟨t₁, _, t₂, _, ⟨v, hv, _⟩, hst, rfl, _⟩, hK'⟩ := completes_means (means_word (Q := anyK) (env := nenv)).plus hc
  rw [e, List.append_assoc] at hs
  have star : ∀ {t f}, Lang.star (.value (Word nenv) fun v => deliver (.word v)) t f → ∀ {s}, Stuff isAtext (c :: x) (t ++ s) → Stuff isAtext (c :: x) s := by
    intro t f h
    induction h with
    | nil => exact fun h => h
    | cons h _ ih =>
      intro s hs
      obtain ⟨v, hv, _⟩ := h
      rw [List.append_assoc] at hs
      exact ih (Stuff.word_inv hw hv hs)
  have hs := star hst (Stuff.word_inv hw hv hs)
  obtain ⟨b, d, y, hb, hd, rfl⟩ := hK _ hK'
  have hd' := noWord_iff.mp (barrier_noWord hd)
  have := Stuff.end_inv hw (Stuff.cfws_inv hw hb hs) hd'.2.1 hd'.1 hd'.2.2
  injection this with h1 _
  subst h1
  rcases hcx with rfl | rfl <;> exact absurd hd (by decide)

/-! ## The second form -/

theorem pieces_heads {t r : List Char} {ps} (h : NamePieces env t ps) (hr : Heads barrier r) : Heads solid (t ++ r) := by
  cases h with
  | nil => exact hr.mono fun c h => (noWord_iff.mp (barrier_noWord h)).1
  | atom ht _ _ _ _ => rw [List.append_assoc]; exact atom_heads ht
  | quoted ht _ _ => rw [List.append_assoc]; exact quoted_heads ht
  | encoded ht _ _ _ => obtain ⟨y, rfl⟩ := encRun_head (atomRun_run ht); exact .cons rfl
  | dot _ _ => exact .cons rfl
  | «at» _ _ => exact .cons rfl

/-- The first word, after CFWS. -/
theorem takes_pieces_word {a t r : List Char} {v ps} (ha : OptCfws a) (h : NamePieces env t (.word v :: ps)) (hr : Heads barrier r) :
    ∃ u x, t = u ++ x ∧ NamePieces env x ps ∧ Takes Q env Gr.word (a ++ u) (x ++ r) (deliver (.word v)) := by
  have hr' : Heads noWord r := hr.mono fun c h => barrier_noWord h
  cases h with
  | @atom t b x _ ht hn hb hx h =>
    refine ⟨t ++ b, x, by simp, h, ?_⟩
    have hbr : Heads (fun c => !isAtext c) (b ++ (x ++ r)) := by
      by_cases hne : b = []
      · subst hne
        cases x with
        | nil => exact hr'.mono fun c h => by simp [(noWord_iff.mp h).2.1]
        | cons c x => exact .cons (by simp [hx rfl c (by simp)])
      · exact cfws_heads hb hne _
    exact takes_word_atom ha ht hb (pieces_heads h hr) hbr (noEncHere_atom ht.1 (fun hp => hn hp.isInfix) hbr)
  | @quoted t b x _ _ ht hb h =>
    exact ⟨t ++ b, x, by simp, h, takes_word_quoted ha ht hb (pieces_heads h hr)⟩
  | @encoded t x _ _ ht hn _ h =>
    exact ⟨t, x, rfl, h, takes_word_encoded ha (atomRun_run ht) (pieces_heads h hr) (noEncHere_prefix hn hr')⟩

theorem noDer_unspaced {r : List Char} (hr : Heads (fun c => c != '.' && c != '@') r) : NoDer Gr.unspaced r := by
  refine noDer_means (means_unspaced (Q := anyK) (env := nenv)) ?_
  rintro t _ r' ⟨v, ⟨rfl, _⟩ | ⟨rfl, _⟩, _⟩ e
  · exact absurd (hr _ _ e) (by decide)
  · exact absurd (hr _ _ e) (by decide)

theorem takes_dot {r : List Char} : Takes (· = .displayName) env Gr.unspaced ['.'] r (addPieces [.punct b!"."]) := by
  have eff : ∀ v, deliver (.unspaced v) = addPieces [.punct v] := by intro v; funext p; cases p <;> rfl
  exact (Takes.push (q := .unspaced) (mk := .unspaced b!".") (Q' := anyK) rfl rfl trivial ((Takes.tok period_matches).altL (b := .t .At))
    (fun ts w h => by simp only [enterRule, h]; rfl)).cast fun p => by rw [← eff]; rfl

theorem takes_atSign {r : List Char} : Takes (· = .displayName) env Gr.unspaced ['@'] r (addPieces [.punct b!"@"]) := by
  have eff : ∀ v, deliver (.unspaced v) = addPieces [.punct v] := by intro v; funext p; cases p <;> rfl
  exact (Takes.push (q := .unspaced) (mk := .unspaced b!"@") (Q' := anyK) rfl rfl trivial
    ((Takes.tok at_matches).altR (noDer_tok' means_period (.cons rfl))) (fun ts w h => by simp only [enterRule, h]; rfl)).cast fun p => by rw [← eff]; rfl

theorem cfws_noPunct {w r : List Char} (hw : OptCfws w) (hne : w ≠ []) : Heads (fun c => c != '.' && c != '@') (w ++ r) := by
  obtain ⟨c, x, rfl⟩ := List.exists_cons_of_ne_nil hne
  refine .cons ?_
  have : solid c = true → False := fun hc => cfws_ne (a := []) OptCfws.nil hw hc rfl
  simp only [Bool.and_eq_true, bne_iff_ne, ne_eq]
  exact ⟨by rintro rfl; exact this rfl, by rintro rfl; exact this rfl⟩

/-- The rest of the name, after CFWS that may belong to a word or not. -/
theorem takes_tail {t r : List Char} {ps} (h : NamePieces env t ps) (hr : Heads barrier r) : ∀ {w : List Char}, OptCfws w →
    Takes (· = .displayName) env (.star (Gr.word ‖ Gr.unspaced ‖ Gr.cfws)) (w ++ t) r (addPieces ps) := by
  have hr' : Heads noWord r := hr.mono fun c h => barrier_noWord h
  have pl : ∀ r, r = Rule.displayName → plainK r := by rintro _ rfl; exact plainK_of rfl
  -- CFWS that cannot belong to a word
  have lead : ∀ {w u : List Char} {ps}, OptCfws w → Heads noWord (u ++ r) →
      Takes (· = .displayName) env (.star (Gr.word ‖ Gr.unspaced ‖ Gr.cfws)) u r (addPieces ps) →
      Takes (· = .displayName) env (.star (Gr.word ‖ Gr.unspaced ‖ Gr.cfws)) (w ++ u) r (addPieces ps) := by
    intro w u ps hw hu ht
    by_cases hne : w = []
    · subst hne; exact ht
    · have h1 : Takes (· = .displayName) env (Gr.word ‖ Gr.unspaced ‖ Gr.cfws) w (u ++ r) id :=
        .altR (noDer_word hw hu) (.altR (noDer_unspaced (cfws_noPunct hw hne))
          ((takes_cfws ⟨hw, hne⟩ (hu.mono fun c h => (noWord_iff.mp h).1)).mono pl))
      exact h1.again ht
  induction ps generalizing t with
  | nil =>
    intro w hw
    cases h
    have stop : Takes (· = .displayName) env (.star (Gr.word ‖ Gr.unspaced ‖ Gr.cfws)) [] r (addPieces []) := by
      refine (Takes.stop (.alt (noDer_word (a := []) OptCfws.nil hr') (.alt (noDer_unspaced ?_) (noDer_cfws ?_)))).cast fun p => by rw [addPieces_nil]
      · exact hr.mono fun c h => by have := (barrier_iff.mp h).1; simp [this.2]
      · exact hr'.mono fun c h => (noWord_iff.mp h).1
    exact lead hw hr' stop
  | cons p ps ih =>
    intro w hw
    cases p with
    | word v =>
      obtain ⟨u, y, rfl, hy, ht⟩ := takes_pieces_word (Q := anyK) hw h hr
      have h1 := (word_piece ht).altL (b := Gr.unspaced ‖ Gr.cfws)
      exact ((h1.again (ih hy (w := []) OptCfws.nil)).text (by simp)).cast fun p => by simp [addPieces_add]
    | punct v =>
      cases h with
      | @dot b x _ hb hx =>
        refine lead hw (.cons (by decide)) ?_
        have hn : NoDer Gr.word (['.'] ++ (b ++ x ++ r)) := noDer_word (a := []) OptCfws.nil (.cons (by decide))
        have h1 := Takes.altR hn ((takes_dot (env := env) (r := b ++ x ++ r)).altL (b := Gr.cfws))
        exact (h1.again (ih hx hb)).cast fun p => by simp [addPieces_add]
      | @«at» b x _ hb hx =>
        refine lead hw (.cons (by decide)) ?_
        have hn : NoDer Gr.word (['@'] ++ (b ++ x ++ r)) := noDer_word (a := []) OptCfws.nil (.cons (by decide))
        have h1 := Takes.altR hn ((takes_atSign (env := env) (r := b ++ x ++ r)).altL (b := Gr.cfws))
        exact (h1.again (ih hx hb)).cast fun p => by simp [addPieces_add]

theorem pieces_phrase {t ps} (h : NamePieces env t ps) (hp : ps.any isPunct = false) : ∃ vs, ps = vs.map .word ∧ Phrase env t vs := by
  induction h with
  | nil => exact ⟨[], rfl, .nil⟩
  | atom ht hn hb hx _ ih =>
    obtain ⟨vs, rfl, h⟩ := ih (by simpa [isPunct] using hp)
    exact ⟨_ :: vs, rfl, .atom ht (fun hp => hn hp.isInfix) hb hx h⟩
  | quoted ht hb _ ih =>
    obtain ⟨vs, rfl, h⟩ := ih (by simpa [isPunct] using hp)
    exact ⟨_ :: vs, rfl, .quoted ht hb h⟩
  | encoded ht hn _ _ ih =>
    obtain ⟨vs, rfl, h⟩ := ih (by simpa [isPunct] using hp)
    exact ⟨_ :: vs, rfl, .encoded (atomRun_run ht) hn h⟩
  | dot _ _ _ => simp [isPunct] at hp
  | «at» _ _ _ => simp [isPunct] at hp

/-- A name, when what must follow starts with something that cannot be part of it. -/
theorem picks_displayName {a t r : List Char} {v ps} {K : List Char → Prop} (ha : OptCfws a) (h : NamePieces env t (.word v :: ps)) (hr : Heads barrier r)
    (hK : K r) (hb : ∀ s, K s → ∃ b c x, OptCfws b ∧ barrier c = true ∧ s = b ++ c :: x) :
    Picks K Q env Gr.displayName (a ++ t) r (setName (renderName (.word v :: ps))) := by
  have eff : ∀ v u, deliver (.displayName v u) = setName v := by intro v u; funext p; cases p <;> rfl
  cases hp : (Piece.word v :: ps).any isPunct with
  | false =>
    obtain ⟨vs, e, h'⟩ := pieces_phrase h hp
    have := takes_displayName (Q := Q) ha h' (by rintro rfl; cases e) (hr.mono fun c h => barrier_noWord h) K hK
    rw [wordsName, ← e] at this
    exact this
  | true =>
    have hn := words_stop (r := r) ha h hp hb
    obtain ⟨u, x, rfl, hx, hw⟩ := takes_pieces_word (Q := anyK) ha h hr
    have h1 := (word_piece hw).seq (takes_tail hx hr (w := []) OptCfws.nil)
    have h2 := Picks.altR (a := .plus Gr.word) (by simpa using hn) (h1 K hK)
    exact ((Picks.push (q := .displayName) (Q' := (· = .displayName)) (mk := .displayName [] false) rfl rfl rfl h2 (fun _ _ _ => rfl)).text (by simp)).cast
      (funext fun p => by simp only [addPieces, eff]; rfl)

theorem takes_nameAddr_pieces {a n t r : List Char} {w ps v} (ha : OptCfws a) (hn : NamePieces env n (.word w :: ps)) (h : ClearAngle env t v)
    (hr : Heads solid r) : Takes Q env Gr.nameAddr (a ++ (n ++ t)) r (setBox ⟨renderName (.word w :: ps), v⟩) := by
  have eff : ∀ n a, deliver (.nameAddr n a) = setBox ⟨n, a⟩ := by intro v a; funext p; cases p <;> rfl
  intro K hK
  have h2 := takes_angleAddr (Q := anyK) (a := []) OptCfws.nil h hr K hK
  have hb : Heads barrier (t ++ r) := by obtain ⟨y, rfl⟩ := clearAngle_head h; exact .cons (by decide)
  have h1 : Picks (Completes Gr.angleAddr K) anyK env (.opt Gr.displayName) (a ++ n) (([] ++ t) ++ r) _ :=
    (picks_displayName ha hn (by simpa using hb) h2.completes (by
      intro s hs
      obtain ⟨u, _, x, rfl, ⟨v, hv, _⟩, _⟩ := completes_means (means_angleAddr (Q := anyK) (env := nenv)) hs
      cases hv with
      | null ha _ => exact ⟨_, '<', _, ha, by decide, by simp; rfl⟩
      | addr ha _ _ => exact ⟨_, '<', _, ha, by decide, by simp; rfl⟩
      | routed ha _ _ _ => exact ⟨_, '<', _, ha, by decide, by simp; rfl⟩)).altL (b := .eps)
  exact ((Picks.push (q := .nameAddr) (mk := .nameAddr [] []) (Q' := anyK) rfl rfl trivial (Picks.seq h1 h2)
    (fun _ _ _ => rfl)).text (by simp)).cast (funext fun p => congrFun (eff _ _) p)

end Rfc5322
