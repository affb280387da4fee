import Verif.Proofs.ScanList

/-!
# The derivations chosen for lists with empty items and groups
-/

namespace Rfc5322.Scan

open Spec

variable {env : Env} {text : List Char} {K : List Char → Prop} {Q : Rule → Prop}

/-! ## Items separated by commas -/

/-- Texts with their values. -/
abbrev Items := List (List Char × List Addr)

/-- Separated by commas. -/
def join (l : Items) : List Char := [','].intercalate (l.map (·.1))

/-- Each behind a comma. -/
def tails (l : Items) : List Char := l.flatMap fun i => ',' :: i.1

theorem join_one (i : List Char × List Addr) : join [i] = i.1 := by simp [join, List.intercalate]

theorem join_cons (i j : List Char × List Addr) (l : Items) : join (i :: j :: l) = i.1 ++ ',' :: join (j :: l) := by
  simp [join, List.intercalate, List.intersperse]

theorem join_tails (i : List Char × List Addr) (l : Items) : join (i :: l) = i.1 ++ tails l := by
  induction l generalizing i with
  | nil => simp [join_one, tails]
  | cons j l ih => rw [join_cons, ih]; simp [tails]

/-- A mailbox. -/
def Box (env : Env) (i : List Char × List Addr) : Prop := ∃ a, ClearBox env i.1 a ∧ i.2 = [a] ∧ ∃ s, Aligned i.1 s ∧ Firm s

/-- Nothing. -/
def Gap (i : List Char × List Addr) : Prop := OptCfws i.1 ∧ i.2 = []

/-- A member of a group may be missing. -/
def Member (env : Env) (i : List Char × List Addr) : Prop := Box env i ∨ Gap i

/-! ## What follows a group -/

/-- Whatever follows is separated, and no member is missing there. -/
def Fine (text : List Char) (K : List Char → Prop) : Prop := ∀ pre x, text = pre ++ x → K x → Rest x ∧ gapped .item false (skeleton x) = false

theorem groupEnd_gapped (hs : Rfc.Old.SureQuotes text) (hf : Fine text K) {pre x : List Char} (e : text = pre ++ x) (h : Completes Gr.groupEnd K x) :
    gapped .item false (skeleton x) = false := by
  obtain ⟨ts, y, hder, hK⟩ := h
  have m := ((means_dquote (Q := plainK) (env := nenv)).qopt).qseq (((means_semicolon (Q := plainK) (env := nenv)).qopt).qseq (means_optCfws (env := nenv)))
  obtain ⟨t, _, rfl, ⟨⟨q, s, hq, ⟨d, c, hd, hc, rfl⟩, rfl⟩, _⟩, _⟩ := m.sound hder
  obtain ⟨hr, hg⟩ := hf (pre ++ (q ++ (d ++ c))) y (by rw [e]; simp) hK
  rcases hq with rfl | rfl
  · rcases hd with rfl | rfl
    · simpa [skeleton_cfws hc] using hg
    · rw [show [] ++ ([';'] ++ c) ++ y = ';' :: (c ++ y) by simp, skeleton_sep rfl]
      simp [gapped]
  · exfalso
    rcases hd with rfl | rfl
    · obtain ⟨x, hx, h1, h2⟩ := hs.2 pre c y (by rw [e]; simp) hc
      cases y with
      | nil => cases hx
      | cons y r =>
        cases hx
        rcases sep_cases (hr _ _ rfl) with rfl | rfl
        · exact h1 rfl
        · exact h2 rfl
    · obtain ⟨x, hx, h1, h2⟩ := hs.2 pre [] (';' :: (c ++ y)) (by rw [e]; simp) OptCfws.nil
      cases hx
      exact h2 rfl

theorem box_gapped {t r : List Char} {a} (h : Mailbox env t a) (hm : AtomWords t) {p : Spot} (hp : p ≠ .angle)
    (hg : gapped .item false (skeleton r) = false) : gapped p false (skeleton (t ++ r)) = false := by
  obtain ⟨s, h1, h2⟩ := mailbox_shape h hm
  rw [h1]
  rcases gapped_shape h2 false hp with h | h
  · rw [h, hg]
  · exact h _

theorem boxes_gapped {s s' : List Char} {ts} (h : Derives (.star (.t .Comma ⬝ Gr.mailbox)) s ts s') (hm : AtomWords s)
    (hg : gapped .item false (skeleton s') = false) : gapped .item false (skeleton s) = false := by
  generalize e : G.star (.t .Comma ⬝ Gr.mailbox) = g at h
  induction h with
  | starNil => exact hg
  | starCons h1 _ _ ih =>
    cases e
    cases h1 with
    | seq h2 h3 =>
      obtain ⟨_, _, rfl, ⟨rfl, _⟩, _⟩ := (means_comma (Q := plainK) (env := nenv)).sound h2
      obtain ⟨t, _, rfl, ⟨_, ⟨a, ha, _⟩, _⟩, _⟩ := (means_mailbox (Q := anyK) (env := nenv)).sound h3
      have hm' : AtomWords (t ++ _) := AtomWords.right (t := [',']) hm
      have := box_gapped ha hm'.left (p := .start) (by simp) (ih hm'.right hg rfl)
      rw [List.singleton_append, skeleton_sep rfl]
      simpa [gapped] using this
  | _ => cases e

/-- Mailboxes without gaps. -/
theorem noGaps (hs : Rfc.Old.SureQuotes text) (hm : AtomWords text) (hf : Fine text K) {pre x : List Char} (e : text = pre ++ x)
    (hx : gapped .start false (skeleton x) = true) : ¬ Completes (Gr.mailbox ⬝ .star (.t .Comma ⬝ Gr.mailbox)) (Completes Gr.groupEnd K) x := by
  intro h
  obtain ⟨ts, y, h1, us, z, h2, h3⟩ := completes_seq h
  have hm' : AtomWords x := hm.mono ⟨pre, [], by rw [e]; simp⟩
  obtain ⟨t, _, rfl, ⟨_, ⟨a, ha, _⟩, _⟩, _⟩ := (means_mailbox (Q := anyK) (env := nenv)).sound h1
  obtain ⟨u, _, e', _⟩ := ((means_comma (Q := plainK) (env := nenv)).seq (means_mailbox (Q := plainK) (env := nenv))).star.sound h2
  have h4 := groupEnd_gapped hs hf (pre := pre ++ t ++ u) (x := z) (by rw [e, e']; simp) h3
  have := box_gapped ha hm'.left (p := .start) (by simp) (boxes_gapped h2 hm'.right h4)
  rw [hx] at this
  cases this

/-! ## Members -/

theorem gapped_members : ∀ {l : Items} {g : Bool} {z : List Char}, l ≠ [] → (∀ i ∈ l, Member env i) → (g = true ∨ ∃ i ∈ l, Gap i) →
    gapped .start g (skeleton (join l ++ ';' :: z)) = true
  | [i], g, z, _, hl, hg => by
    rw [join_one]
    rcases hl i (by simp) with ⟨a, h1, h2, s, h3, h4⟩ | ⟨h1, h2⟩
    · have hg' : g = true := by
        rcases hg with h | ⟨j, hj, h⟩
        · exact h
        · simp at hj
          subst hj
          rw [h.2] at h2
          cases h2
      rw [h3, gapped_firm h4 _ (by simp), skeleton_sep rfl]
      simp [gapped, hg']
    · rw [skeleton_cfws h1, skeleton_sep rfl]
      simp [gapped]
  | i :: j :: l, g, z, _, hl, hg => by
    have ih := fun g' => gapped_members (l := j :: l) (g := g') (z := z) (by simp) (fun k hk => hl k (by simp [hk]))
    rw [join_cons, List.append_assoc, List.cons_append]
    rcases hl i (by simp) with ⟨a, h1, h2, s, h3, h4⟩ | ⟨h1, h2⟩
    · rw [h3, gapped_firm h4 _ (by simp), skeleton_sep rfl]
      have := ih g (by
        rcases hg with h | ⟨k, hk, h⟩
        · exact .inl h
        · rcases List.mem_cons.mp hk with rfl | hk
          · rw [h.2] at h2; cases h2
          · exact .inr ⟨k, hk, h⟩)
      simpa [gapped] using this
    · rw [skeleton_cfws h1, skeleton_sep rfl]
      have := ih true (.inl rfl)
      simpa [gapped] using this

theorem commas_gapped {h w z : List Char} (hh : Commas h) (hw : OptCfws w) (g) : gapped .start g (skeleton (h ++ (w ++ ';' :: z))) = true := by
  induction hh generalizing g with
  | nil => rw [List.nil_append, skeleton_cfws hw, skeleton_sep rfl]; simp [gapped]
  | cons ht _ ih =>
    rw [List.append_assoc, skeleton_cfws ht, List.cons_append, skeleton_sep rfl]
    simpa [gapped] using ih true

theorem members_tail {l : Items} (hl : ∀ i ∈ l, Member env i) : CommaTail (BoxItem env) (tails l) (l.flatMap (·.2)) := by
  induction l with
  | nil => exact .nil
  | cons i l ih =>
    have ih := ih fun k hk => hl k (by simp [hk])
    rw [List.flatMap_cons]
    rcases hl i (by simp) with ⟨a, h1, h2, _⟩ | ⟨h1, h2⟩
    · exact .item ⟨a, h1, h2⟩ ih
    · rw [h2]; exact .empty h1 ih

theorem members_boxes {l : Items} (hne : l ≠ []) (hl : ∀ i ∈ l, Box env i) : ClearBoxes env (join l) (l.flatMap (·.2)) := by
  induction l with
  | nil => exact absurd rfl hne
  | cons i l ih =>
    obtain ⟨a, h1, h2, _⟩ := hl i (by simp)
    cases l with
    | nil => rw [join_one]; simpa [h2] using ClearBoxes.one h1
    | cons j l =>
      have := ih (by simp) fun k hk => hl k (by simp [hk])
      rw [join_cons, List.flatMap_cons, h2]
      exact .cons h1 this

/-- Commas in front. -/
theorem leading {l : Items} (hl : ∀ i ∈ l, Gap i) : ∃ h, Commas h ∧ (l ≠ [] → h ≠ []) ∧ ∀ i k, join (l ++ i :: k) = h ++ join (i :: k) := by
  induction l with
  | nil => exact ⟨[], .nil, by simp, fun _ _ => rfl⟩
  | cons j l ih =>
    obtain ⟨h, h1, h2, h3⟩ := ih fun k hk => hl k (by simp [hk])
    refine ⟨j.1 ++ ',' :: h, .cons (hl j (by simp)).1 h1, by simp, fun i k => ?_⟩
    rw [List.cons_append, List.append_assoc, List.cons_append, ← h3]
    cases l with
    | nil => exact join_cons _ _ _
    | cons m l => exact join_cons _ _ _

theorem gaps_values {l : Items} (hl : ∀ i ∈ l, Gap i) : l.flatMap (·.2) = [] := by
  rw [List.flatMap_eq_nil_iff]
  exact fun i hi => (hl i hi).2

/-- The items up to the first that is there. -/
theorem split_gaps {P : List Char × List Addr → Prop} {l : Items} (hl : ∀ i ∈ l, P i ∨ Gap i) :
    (∀ i ∈ l, Gap i) ∨ ∃ l₁ i l₂, l = l₁ ++ i :: l₂ ∧ (∀ i ∈ l₁, Gap i) ∧ P i := by
  induction l with
  | nil => exact .inl (by simp)
  | cons i l ih =>
    rcases hl i (by simp) with h | h
    · exact .inr ⟨[], i, l, rfl, by simp, h⟩
    · rcases ih fun k hk => hl k (by simp [hk]) with h' | ⟨l₁, j, l₂, rfl, h1, h2⟩
      · refine .inl fun k hk => ?_
        rcases List.mem_cons.mp hk with rfl | hk
        · exact h
        · exact h' k hk
      · refine .inr ⟨i :: l₁, j, l₂, rfl, fun k hk => ?_, h2⟩
        rcases List.mem_cons.mp hk with rfl | hk
        · exact h
        · exact h1 k hk

theorem picks_members {l : Items} {pre z : List Char} (hs : Rfc.Old.SureQuotes text) (hm : AtomWords text) (hf : Fine text K) (hne : l ≠ [])
    (hl : ∀ i ∈ l, Member env i) (e : text = pre ++ (join l ++ ';' :: z)) (hK : Completes Gr.groupEnd K (';' :: z)) :
    Picks (Completes Gr.groupEnd K) (· = .group) env (.opt Gr.groupList) (join l) (';' :: z) (addGroup (l.flatMap (·.2))) := by
  have hz : Semi (';' :: z) := .cons rfl
  have hs' : Heads solid (';' :: z) := hz.solid
  have effM : ∀ as, deliver (.mailboxList as) = addGl as := by intro v; funext p; cases p <;> rfl
  have eff : ∀ as, deliver (.groupList as) = addGroup as := by intro v; funext p; cases p <;> rfl
  rcases split_gaps hl with hall | ⟨l₁, i, l₂, rfl, h1, hi⟩
  · rw [gaps_values hall]
    obtain ⟨l', i, rfl⟩ := (List.eq_nil_or_concat l).resolve_left hne
    rw [List.concat_eq_append] at *
    obtain ⟨h, hh, hh', hj⟩ := leading (l := l') fun k hk => hall k (by simp [hk])
    have hw := (hall i (by simp)).1
    rw [hj, join_one] at *
    by_cases hl' : l' = []
    · subst hl'
      have : h = [] := by
        have := hj i []
        rw [List.nil_append] at this
        simpa using this
      subst this
      exact takes_members (.none hw) hz _ hK
    · have h2 := noDer_mailboxList_commas hh hw hz
      have h3 : ¬ Completes Gr.cfws (Completes Gr.groupEnd K) (h ++ i.1 ++ ';' :: z) := by
        rintro ⟨ts, x, hder, hx⟩
        obtain ⟨u, _, e', ⟨hu, _⟩, _⟩ := (means_cfws (env := nenv)).sound hder
        have h4 := groupEnd_gapped hs hf (pre := pre ++ u) (x := x) (by rw [e, e']; simp) hx
        rw [← skeleton_cfws hu.1, ← e', List.append_assoc] at h4
        cases hh with
        | nil => exact hh' hl' rfl
        | @cons t y ht hy =>
          rw [List.append_assoc, skeleton_cfws ht, List.cons_append, skeleton_sep rfl] at h4
          have h5 := commas_gapped (z := z) hy hw false
          simp only [gapped, if_true] at h4
          rw [h5] at h4
          cases h4
      have h4 : Picks (Completes Gr.groupEnd K) plainK env (Gr.mailboxList ‖ Gr.cfws ‖ Gr.obsGroupList) (h ++ i.1) (';' :: z) id :=
        .altR (not_completes (by simpa using h2)) (.altR h3 (takes_obsGroupList hh (hh' hl') hw hz _ hK))
      exact ((Picks.push (q := .groupList) (mk := .groupList []) (Q' := plainK) rfl rfl (plainK_of rfl) h4 (fun _ _ _ => rfl)).altL (b := .eps)).cast
        (by rw [show (id (Node.groupList [])) = .groupList [] from rfl, eff])
  · by_cases hgap : ∃ j ∈ l₁ ++ i :: l₂, Gap j
    · have hn := noGaps hs hm hf e (gapped_members hne hl (.inr hgap))
      obtain ⟨h, hh, _, hj⟩ := leading h1
      obtain ⟨a, ha, h2, _⟩ := hi
      have ht : CommaTail (BoxItem env) (tails l₂) (l₂.flatMap (·.2)) := members_tail fun k hk => hl k (by simp [hk])
      have ev : (l₁ ++ i :: l₂).flatMap (·.2) = a :: l₂.flatMap (·.2) := by rw [List.flatMap_append, gaps_values h1, List.flatMap_cons, h2]; rfl
      rw [hj, join_tails] at *
      rw [ev]
      have h3 : Picks (Completes Gr.groupEnd K) anyK env _ _ _ _ := Picks.altR hn (takes_obsMbox hh ha ht hz _ hK)
      have h4 : Picks (Completes Gr.groupEnd K) plainK env Gr.mailboxList _ _ _ := .push (Q' := anyK) (mk := .mailboxList []) rfl rfl trivial h3 (fun _ _ _ => rfl)
      exact ((h4.altL (b := Gr.cfws ‖ Gr.obsGroupList)).push (q := .groupList) (mk := .groupList []) (Q' := plainK) rfl rfl (plainK_of rfl) (fun _ _ _ => rfl)).altL (b := .eps) |>.cast
        (by simp [addMbl, effM, addGl, eff])
    · refine takes_members (.boxes (members_boxes hne fun k hk => (hl k hk).resolve_right fun h => hgap ⟨k, hk, h⟩)) hz _ hK

/-! ## Groups -/

/-- A group with its semicolon. -/
def GroupOf (env : Env) (i : List Char × List Addr) : Prop :=
  ∃ a n l w, OptCfws a ∧ GroupName env n ∧ (∃ s, Hush (a ++ n) s) ∧ l ≠ [] ∧ (∀ m ∈ l, Member env m) ∧ OptCfws w ∧
    i.1 = a ++ (n ++ ':' :: (join l ++ ';' :: w)) ∧ i.2 = l.flatMap (·.2)

/-- A mailbox or a group. -/
def Entry (env : Env) (i : List Char × List Addr) : Prop := Box env i ∨ GroupOf env i

theorem picks_group {i : List Char × List Addr} {pre r : List Char} (hs : Rfc.Old.SureQuotes text) (hm : AtomWords text) (hf : Fine text K) (h : GroupOf env i)
    (e : text = pre ++ (i.1 ++ r)) (hp : Lead pre) (hK : K r) (hr : Heads follow r) : Picks K Q env Gr.address i.1 r (addList i.2) := by
  have eff : ∀ as, deliver (.group as) = addAddress as := by intro v; funext p; cases p <;> rfl
  have effA : ∀ as, deliver (.address as) = addList as := by intro v; funext p; cases p <;> rfl
  have pl : ∀ r, r = Rule.group → plainK r := by rintro _ rfl; exact plainK_of rfl
  obtain ⟨a, n, l, w, ha, hn, _, hne, hl, hw, e1, e2⟩ := h
  have hno := noDer_mailbox_groupText (r := join l ++ (';' :: (w ++ r))) (GroupText.mk ha hn (.plain (.none OptCfws.nil)) : GroupText env _ _)
  obtain ⟨nw, ps, hn, hat⟩ := hn
  rw [e1] at e ⊢
  rw [e2]
  have h5 : Takes (· = .group) env (.opt (.t .DQuote)) [] ([';'] ++ w ++ r) id := .optNil (noDer_tok' means_dquote (.cons rfl))
  have h6 : Takes (· = .group) env (.opt (.t .Semicolon) ⬝ .opt Gr.cfws) ([';'] ++ w) r id :=
    ((Takes.tok semicolon_matches).altL (b := .eps)).seq ((takes_optCfws hw (hr.follow rfl rfl)).mono pl)
  have h56 := (h5.seq h6) K hK
  have h4 := picks_members (pre := pre ++ (a ++ (n ++ [':']))) (z := w ++ r) hs hm hf hne hl (by rw [e]; simp) (by simpa using h56.completes)
  have h4' := Picks.seq (by simpa using h4) h56
  have h7 : Picks K (· = .group) env _ _ r _ := Picks.seq (Picks.tok (c := ':') colon_matches h4'.completes) h4'
  have h2 := (picks_displayName (Q := anyK) ha hn (r := ([':'] ++ (join l ++ ([] ++ ([';'] ++ w)))) ++ r) (.cons (by decide)) h7.completes (by
    rintro s ⟨ts, s', hd, _⟩
    cases hd with
    | seq h1 _ =>
      obtain ⟨t, _, e, ⟨rfl, _⟩, _⟩ := (means_colon (Q := plainK) (env := nenv)).sound h1
      exact ⟨[], ':', _, OptCfws.nil, by decide, e⟩)).weaken (Q' := (· = .group)) (f' := id) (fun _ => rfl) (fun p hp => ⟨trivial, by
    cases p with
    | group xs => rfl
    | _ => simp [Node.kind] at hp⟩)
  have h8 := Picks.seq h2 h7
  have firm : FirmQuote (a ++ n ++ ([':'] ++ (join l ++ ([] ++ ([';'] ++ w)))) ++ r) := by
    intro x hx
    have e' : text = pre ++ '"' :: x := by rw [e, ← hx]; simp
    exact ⟨hs.1 _ _ e' hp, tameWords_of_atomWords (hm.mono ⟨pre ++ ['"'], [], by rw [e']; simp⟩)⟩
  have h1 : Picks _ (· = .group) env (.opt (.t .DQuote)) [] _ id := .optNil (firm_dquote firm) h8.completes
  have h := Picks.seq h1 h8
  have hg : Picks K anyK env Gr.group (a ++ (n ++ ':' :: (join l ++ ';' :: w))) r (addAddress (l.flatMap (·.2))) :=
    ((Picks.push (q := .group) (mk := .group []) (Q' := (· = .group)) rfl rfl rfl h (fun _ _ _ => rfl)).text (by simp)).cast
      (funext fun p => congrFun (eff _) p)
  have h9 : Picks K anyK env (Gr.mailbox ‖ Gr.group) _ _ _ := .altR (not_completes (by simpa using hno)) hg
  exact (Picks.push (q := .address) (mk := .address []) (Q' := anyK) rfl rfl trivial h9 (fun _ _ _ => rfl)).cast (by simp [addAddress, effA])

theorem picks_entry {i : List Char × List Addr} {pre r : List Char} (hs : Rfc.Old.SureQuotes text) (hm : AtomWords text) (hf : Fine text K) (h : Entry env i)
    (e : text = pre ++ (i.1 ++ r)) (hp : Lead pre) (hK : K r) (hr : Heads follow r) : Picks K Q env Gr.address i.1 r (addList i.2) := by
  rcases h with ⟨a, h1, h2, _⟩ | h
  · rw [h2]; exact takes_item (.box h1) hr _ hK
  · exact picks_group hs hm hf h e hp hK hr

/-! ## Lists without empty items -/

theorem fine_more (hs : Rfc.Old.SureQuotes text) (hm : AtomWords text) : Fine text More := by
  intro pre x e hx
  obtain ⟨t, v, r, e', h1, h2⟩ := completes_value (means_sepTail (Q := plainK) (env := nenv)) hx
  rw [h2.nil, List.append_nil] at e'
  subst e'
  exact ⟨SepTail.rest h1, gapped_sepTail hs hm h1 e⟩

theorem tails_follow (l : Items) : Heads follow (tails l) := by
  cases l with
  | nil => exact .nil
  | cons i l => exact .cons rfl

theorem picks_tails (hs : Rfc.Old.SureQuotes text) (hm : AtomWords text) : ∀ {l : Items} {pre : List Char}, (∀ i ∈ l, Entry env i) → text = pre ++ tails l →
    Picks AtEnd plainK env (.star ((.t .Comma ‖ .t .Semicolon) ⬝ Gr.address)) (tails l) [] (addList (l.flatMap (·.2)))
  | [], _, _, _ => Picks.cast ((Takes.stop (Q := plainK) (env := env) (NoDer.seq_left (.alt (noDer_tok' means_comma .nil) (noDer_tok' means_semicolon .nil)))) _ atEnd_nil)
      (funext fun p => by rw [List.flatMap_nil, acts_addList.nil])
  | i :: l, pre, hl, e => by
    have e' : text = (pre ++ [',']) ++ (i.1 ++ tails l) := by rw [e]; simp [tails]
    have ih := picks_tails hs hm (l := l) (pre := pre ++ ',' :: i.1) (fun k hk => hl k (by simp [hk])) (by rw [e']; simp)
    have h1 : Picks More plainK env Gr.address i.1 (tails l) (addList i.2) :=
      picks_entry hs hm (fine_more hs hm) (hl i (by simp)) e' (.sep (.inl rfl)) (by simpa using ih.completes) (tails_follow l)
    have h2 : Takes plainK env (.t .Comma ‖ .t .Semicolon) [','] (i.1 ++ tails l) id := (Takes.tok comma_matches).altL
    have h3 := Picks.seq (h2 _ h1.completes) h1
    have h4 := Picks.again (u := tails l) (r := []) (by simpa using h3) ih
    exact (h4.text (by simp [tails])).cast (funext fun p => by simp [acts_addList.add])

theorem picks_strict (hs : Rfc.Old.SureQuotes text) (hm : AtomWords text) {l : Items} (hne : l ≠ []) (hl : ∀ i ∈ l, Entry env i) (e : text = join l) :
    Picks AtEnd plainK env (Gr.address ⬝ .star ((.t .Comma ‖ .t .Semicolon) ⬝ Gr.address)) text [] (addList (l.flatMap (·.2))) := by
  obtain ⟨i, l, rfl⟩ := List.exists_cons_of_ne_nil hne
  rw [join_tails] at e
  have h1 := picks_tails hs hm (l := l) (pre := i.1) (fun k hk => hl k (by simp [hk])) e
  have h2 : Picks More plainK env Gr.address i.1 (tails l) (addList i.2) :=
    picks_entry (pre := []) hs hm (fine_more hs hm) (hl i (by simp)) (by simpa using e) .nil (by simpa using h1.completes) (tails_follow l)
  exact ((Picks.seq (r := []) (by simpa using h2) h1).text e.symm).cast (funext fun p => by simp [acts_addList.add])

/-! ## Lists with empty items -/

/-- More items or gaps, and then the end. -/
abbrev Later : List Char → Prop := Completes (.star (.t .Comma ⬝ (Gr.address ‖ Gr.cfws ‖ .eps))) AtEnd

theorem fine_later (hs : Rfc.Old.SureQuotes text) (hm : AtomWords text) : Fine text Later := by
  intro pre x e hx
  obtain ⟨t, v, r, e', h1, h2⟩ := completes_value (means_commaTail acts_addList (means_address (env := nenv))) hx
  rw [h2.nil, List.append_nil] at e'
  subst e'
  exact ⟨CommaTail.rest h1, gapped_commaTail hs hm h1 e _ (by simp)⟩

theorem picks_obsTails (hs : Rfc.Old.SureQuotes text) (hm : AtomWords text) : ∀ {l : Items} {pre : List Char}, (∀ i ∈ l, Entry env i ∨ Gap i) → text = pre ++ tails l →
    Picks AtEnd plainK env (.star (.t .Comma ⬝ (Gr.address ‖ Gr.cfws ‖ .eps))) (tails l) [] (addList (l.flatMap (·.2)))
  | [], _, _, _ => Picks.cast ((Takes.stop (Q := plainK) (env := env) (NoDer.seq_left (noDer_tok' means_comma .nil))) _ atEnd_nil)
      (funext fun p => by rw [List.flatMap_nil, acts_addList.nil])
  | i :: l, pre, hl, e => by
    have e' : text = (pre ++ [',']) ++ (i.1 ++ tails l) := by rw [e]; simp [tails]
    have ih := picks_obsTails hs hm (l := l) (pre := pre ++ ',' :: i.1) (fun k hk => hl k (by simp [hk])) (by rw [e']; simp)
    have h1 : Picks Later plainK env (Gr.address ‖ Gr.cfws ‖ .eps) i.1 (tails l) (addList i.2) := by
      rcases hl i (by simp) with h | ⟨h, h'⟩
      · exact (picks_entry hs hm (fine_later hs hm) h e' (.sep (.inl rfl)) (by simpa using ih.completes) (tails_follow l)).altL
      · have hf := tails_follow l
        have hsol : Heads solid (tails l) := hf.follow rfl rfl
        have hn : NoDer Gr.address (i.1 ++ tails l) := by
          refine noDer_address_skip fun c x hx => ?_
          rw [skip_end h hsol] at hx
          have := hf _ _ hx
          rcases follow_iff.mp this with rfl | rfl <;> rfl
        have ht : Takes plainK env (Gr.address ‖ Gr.cfws ‖ .eps) i.1 (tails l) id := by
          refine .altR hn ?_
          by_cases hne : i.1 = []
          · rw [hne]
            exact .altR (noDer_cfws (by simpa using hsol)) .eps
          · exact (takes_cfws ⟨h, hne⟩ hsol).altL
        exact (ht _ (by simpa using ih.completes)).cast (funext fun p => by rw [h', acts_addList.nil])
    have h3 : Picks Later plainK env (.t .Comma ⬝ (Gr.address ‖ Gr.cfws ‖ .eps)) ([','] ++ i.1) (tails l) _ := Picks.seq (Picks.tok comma_matches h1.completes) h1
    have h4 := Picks.again (u := tails l) (r := []) (by simpa using h3) ih
    exact (h4.text (by simp [tails])).cast (funext fun p => by simp [acts_addList.add])

theorem lead_commas {h : List Char} (hh : Commas h) : Lead h := by
  induction hh with
  | nil => exact .nil
  | @cons t r _ _ ih =>
    rcases List.eq_nil_or_concat r with rfl | ⟨r, d, rfl⟩
    · exact .sep (.inl rfl)
    · intro c hc
      rw [List.concat_eq_append] at ih hc
      refine ih c ?_
      have e : t ++ ',' :: (r ++ [d]) = (t ++ ',' :: r) ++ [d] := by simp
      rw [e, List.getLast?_concat] at hc
      rw [List.getLast?_concat]
      exact hc

theorem picks_obs (hs : Rfc.Old.SureQuotes text) (hm : AtomWords text) {l : Items} (hl : ∀ i ∈ l, Entry env i ∨ Gap i) (he : ∃ i ∈ l, ¬ Gap i) (e : text = join l) :
    Picks AtEnd plainK env Gr.obsAddrList text [] (addList (l.flatMap (·.2))) := by
  rcases split_gaps hl with h | ⟨l₁, i, l₂, rfl, h1, hi⟩
  · obtain ⟨i, hi, h'⟩ := he
    exact absurd (h i hi) h'
  · obtain ⟨h, hh, hh', hj⟩ := leading h1
    rw [hj, join_tails] at e
    have hp := lead_commas hh
    have h2 := picks_obsTails hs hm (l := l₂) (pre := h ++ i.1) (fun k hk => hl k (by simp [hk])) (by rw [e]; simp)
    have h3 : Picks Later plainK env Gr.address i.1 (tails l₂) (addList i.2) :=
      picks_entry hs hm (fine_later hs hm) hi e hp (by simpa using h2.completes) (tails_follow l₂)
    obtain ⟨t, v, r, e', ha, _⟩ := completes_value (means_address (Q := plainK) (env := env)) h3.completes
    obtain ⟨c, x, hx, hc⟩ := address_skip ha r
    rw [← e'] at hx
    have h4 := Picks.seq (r := []) (by simpa using h3) h2
    have h5 : Takes plainK env (.star (.opt Gr.cfws ⬝ .t .Comma)) h (i.1 ++ tails l₂ ++ []) id := takes_commas hh (by simpa using hx) hc
    have h6 := Picks.silent (q := .obsAddrList) rfl (Picks.seq (h5 _ h4.completes) h4)
    refine (h6.text e.symm).cast (funext fun p => ?_)
    rw [List.flatMap_append, gaps_values h1, List.flatMap_cons]
    simp [acts_addList.add]

theorem whole_members : ∀ {l : Items} (x : List Char), (∀ i ∈ l, Member env i) → whole .group (skeleton (join l ++ x)) = whole .group (skeleton x)
  | [], _, _ => rfl
  | [i], x, h => by
    rw [join_one]
    rcases h i (by simp) with ⟨a, h1, h2, s, h3, h4⟩ | ⟨h1, h2⟩
    · rw [h3, whole_firm h4 (.inr (.inr rfl))]; rfl
    · rw [skeleton_cfws h1]
  | i :: j :: l, x, h => by
    have ih := whole_members (l := j :: l) x fun k hk => h k (by simp [hk])
    rw [join_cons, List.append_assoc, List.cons_append]
    rcases h i (by simp) with ⟨a, h1, h2, s, h3, h4⟩ | ⟨h1, h2⟩
    · rw [h3, whole_firm h4 (.inr (.inr rfl)), skeleton_sep rfl, if_pos rfl, whole_next (q := .group) rfl, ih]
    · rw [skeleton_cfws h1, skeleton_sep rfl, whole_next (q := .group) rfl, ih]

theorem whole_entry {i : List Char × List Addr} (h : Entry env i) (r : List Char) : whole .start (skeleton (i.1 ++ r)) = whole .item (skeleton r) := by
  rcases h with ⟨a, h1, h2, s, h3, h4⟩ | ⟨a, n, l, w, ha, hn, ⟨s, hs, hs'⟩, hne, hl, hw, e1, e2⟩
  · rw [h3, whole_firm h4 (.inl rfl)]; rfl
  · have e : i.1 ++ r = (a ++ n) ++ ':' :: (join l ++ ';' :: (w ++ r)) := by rw [e1]; simp
    rw [e, hs, skeleton_stays rfl, whole_colon hs' (.inl rfl), whole_members _ hl, skeleton_sep rfl, whole_next (q := .item) rfl, skeleton_cfws hw]

theorem entry_not_gap {i : List Char × List Addr} (h : Entry env i) : ¬ Gap i := by
  intro hg
  have h1 := whole_entry h []
  rw [skeleton_cfws hg.1] at h1
  cases h1

theorem text_ne_nil {l : Items} (h : ∃ i ∈ l, Entry env i) : join l ≠ [] := by
  obtain ⟨i, hi, h⟩ := h
  obtain ⟨l₁, l₂, rfl⟩ := List.append_of_mem hi
  have hne : i.1 ≠ [] := by
    intro e
    have h1 := whole_entry h []
    rw [e] at h1
    cases h1
  cases l₁ with
  | nil => rw [List.nil_append, join_tails]; simp [hne]
  | cons j l₁ =>
    rw [List.cons_append, join_tails]
    simp [tails]

/-- Some item is missing. -/
theorem whole_gap : ∀ {l : Items}, (∀ i ∈ l, Entry env i ∨ Gap i) → (∃ i ∈ l, Gap i ∧ ¬ Entry env i) → whole .start (skeleton (join l)) = false
  | [], _, h => by obtain ⟨i, hi, _⟩ := h; cases hi
  | [i], _, h => by
    obtain ⟨j, hj, h, _⟩ := h
    simp at hj
    subst hj
    rw [join_one, ← List.append_nil j.1, skeleton_cfws h.1]
    rfl
  | i :: j :: l, hl, h => by
    rw [join_cons]
    rcases hl i (by simp) with hi | hi
    · have ih := whole_gap (l := j :: l) (fun k hk => hl k (by simp [hk])) (by
        obtain ⟨k, hk, h1, h2⟩ := h
        rcases List.mem_cons.mp hk with rfl | hk
        · exact absurd hi h2
        · exact ⟨k, hk, h1, h2⟩)
      rw [whole_entry hi, skeleton_sep rfl, whole_next (q := .start) rfl, ih]
    · rw [skeleton_cfws hi.1, skeleton_sep rfl]
      rfl

/-- The value of a list with empty items and groups. -/
theorem parse_items (P : Predictor) {l : Items} (hs : Rfc.Old.SureQuotes (join l)) (hm : AtomWords (join l)) (hl : ∀ i ∈ l, Entry env i ∨ Gap i)
    (he : ∃ i ∈ l, Entry env i) : parseAddressList P env (encode (join l)) = .ok (goSlice (l.flatMap (·.2)), none) := by
  have hne : l ≠ [] := by rintro rfl; obtain ⟨i, hi, _⟩ := he; cases hi
  by_cases hg : ∀ i ∈ l, Entry env i
  · have hpick := picks_strict hs hm hne hg rfl
    obtain ⟨ts, hp, hf⟩ := picks_withEof hpick
    have hb : ∀ c ∈ join l, bmp c = true := by
      obtain ⟨t', e, hb⟩ := derives_bmp (Preferred.derives hp).1
      rw [List.append_nil] at e
      exact e ▸ hb
    have e : tokens (encode (join l)) = join l := by rw [tokens_encode, dropAstral_of hb]
    refine result_of_preferred P (encode_ne_nil (text_ne_nil he)) rfl (.first (preferred_assoc ?_)) hf
    rw [e]
    exact hp
  · have hgap : ∃ i ∈ l, Gap i ∧ ¬ Entry env i := by
      have := Classical.not_forall.mp hg
      obtain ⟨i, hi⟩ := this
      obtain ⟨h1, h2⟩ := Classical.not_imp.mp hi
      exact ⟨i, h1, (hl i h1).resolve_left h2, h2⟩
    have hpick := picks_obs hs hm hl (by obtain ⟨i, hi, h⟩ := he; exact ⟨i, hi, entry_not_gap h⟩) rfl
    obtain ⟨ts, hp, hf⟩ := picks_withEof hpick
    have hb : ∀ c ∈ join l, bmp c = true := by
      obtain ⟨t', e, hb⟩ := derives_bmp (Preferred.derives hp).1
      rw [List.append_nil] at e
      exact e ▸ hb
    have e : tokens (encode (join l)) = join l := by rw [tokens_encode, dropAstral_of hb]
    have hn : ∀ as, ¬ StrictList nenv (join l) as := by
      intro as h
      have h1 := whole_strict hs hm h
      rw [whole_gap hl hgap] at h1
      cases h1
    refine result_of_preferred P (encode_ne_nil (text_ne_nil he)) rfl (.second (e.symm ▸ not_strict hn) ?_) hf
    rw [e]
    exact hp

end Rfc5322.Scan
