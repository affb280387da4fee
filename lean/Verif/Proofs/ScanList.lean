import Verif.Proofs.Scan
import Verif.Spec.RfcObsolete

/-!
# What the automata say about the readings of this package
-/

namespace Rfc5322.Scan

open Spec

variable {env : Env} {text : List Char}

/-- What stands in front of an item. -/
def Lead (pre : List Char) : Prop := ∀ c ∈ pre.getLast?, c = ',' ∨ c = ';'

theorem Lead.nil : Lead [] := by intro c h; cases h
theorem Lead.sep {x : List Char} {c : Char} (h : c = ',' ∨ c = ';') : Lead (x ++ [c]) := by
  intro d hd
  rw [List.getLast?_append] at hd
  cases hd
  exact h

/-- A quotation mark is not overlooked. -/
theorem no_lead {pre n z : List Char} {v} (hs : Rfc.Old.SureQuotes text) (hm : AtomWords text) (hn : DisplayName env n v)
    (e : text = pre ++ '"' :: (n ++ ':' :: z)) (hp : Lead pre) : False := by
  refine hs.1 _ _ e hp ?_
  obtain ⟨s, h, _⟩ := displayName_hush hn (hm.mono ⟨pre ++ ['"'], ':' :: z, by rw [e]; simp⟩)
  rw [h, skeleton_stays rfl]
  simp

/-- A group without stray quotation marks. -/
def Plain (env : Env) (t : List Char) (as : List Addr) : Prop :=
  ∃ n nv b e c, DisplayName env n nv ∧ GroupBody env b as ∧ (e = [] ∨ e = [';']) ∧ OptCfws c ∧ t = n ++ ':' :: (b ++ (e ++ c))

theorem group_plain {pre t r : List Char} {as} (hs : Rfc.Old.SureQuotes text) (hm : AtomWords text) (h : Group env t as)
    (e : text = pre ++ (t ++ r)) (hp : Lead pre) (hr : Rest r) : Plain env t as := by
  obtain ⟨q, n, nv, b, q', d, c, hq, hn, hb, hq', hd, hc, rfl⟩ := h
  rcases hq with rfl | rfl
  · rcases hq' with rfl | rfl
    · exact ⟨n, nv, b, d, c, hn, hb, hd, hc, by simp⟩
    · exfalso
      rcases hd with rfl | rfl
      · obtain ⟨x, hx, h1, h2⟩ := hs.2 (pre ++ n ++ ':' :: b) c r (by rw [e]; simp) hc
        cases r with
        | nil => cases hx
        | cons y r =>
          cases hx
          rcases sep_cases (hr _ _ rfl) with rfl | rfl
          · exact h1 rfl
          · exact h2 rfl
      · obtain ⟨x, hx, h1, h2⟩ := hs.2 (pre ++ n ++ ':' :: b) [] (';' :: (c ++ r)) (by rw [e]; simp) OptCfws.nil
        cases hx
        exact h2 rfl
  · exact (no_lead hs hm hn (pre := pre) (z := b ++ (q' ++ (d ++ c)) ++ r) (by rw [e]; simp) hp).elim

/-! ## Lists without empty items -/

theorem whole_commas {h : List Char} (hh : Commas h) (r) : whole .group (skeleton (h ++ r)) = whole .group (skeleton r) := by
  induction hh with
  | nil => rfl
  | @cons t h ht _ ih => rw [List.append_assoc, skeleton_cfws ht, List.cons_append, skeleton_sep rfl, whole_next (q := .group) rfl, ih]

theorem whole_box {t : List Char} {a} (h : Mailbox env t a) (hm : AtomWords t) (r) : whole .group (skeleton (t ++ r)) = whole .group (skeleton r) := by
  obtain ⟨s, hs, h'⟩ := mailbox_shape h hm
  obtain ⟨q, _, h2, h3⟩ := whole_shape h' (p := .group) (.inr (.inr rfl))
  rw [hs, h3, h2 rfl]

theorem whole_body {b : List Char} {as} (h : GroupBody env b as) (hm : AtomWords b) (r) : whole .group (skeleton (b ++ r)) = whole .group (skeleton r) := by
  cases h with
  | list h =>
    obtain ⟨h, t, a, x, bs, hh, ht, hx, rfl, rfl⟩ := h
    have tail : ∀ {x bs}, CommaTail (MailboxItem env) x bs → AtomWords x → whole .group (skeleton (x ++ r)) = whole .group (skeleton r) := by
      intro x bs hx hm
      induction hx with
      | nil => rfl
      | @item t as x bs ht _ ih =>
        obtain ⟨a, ht, rfl⟩ := ht
        rw [List.cons_append, skeleton_sep rfl, whole_next (q := .group) rfl, List.append_assoc, whole_box ht hm.tail.left, ih hm.tail.right]
      | @empty t x bs ht _ ih =>
        rw [List.cons_append, skeleton_sep rfl, whole_next (q := .group) rfl, List.append_assoc, skeleton_cfws ht, ih hm.tail.right]
    rw [List.append_assoc, whole_commas hh, List.append_assoc, whole_box ht hm.right.left, tail hx hm.right.right]
  | empty hh ht => rw [List.append_assoc, whole_commas hh, skeleton_cfws ht]

theorem whole_address {pre t r : List Char} {as} (hs : Rfc.Old.SureQuotes text) (hm : AtomWords text) (h : Address env t as)
    (e : text = pre ++ (t ++ r)) (hp : Lead pre) (hr : Rest r) {p : Place} (hp' : p.Open) :
    ∃ q : Place, q.Settled ∧ whole p (skeleton (t ++ r)) = whole q (skeleton r) := by
  have hm' : AtomWords t := hm.mono ⟨pre, r, by rw [e]; simp⟩
  cases h with
  | mailbox h =>
    obtain ⟨s, h1, h2⟩ := mailbox_shape h hm'
    obtain ⟨q, h3, _, h4⟩ := whole_shape h2 hp'
    exact ⟨q, h3, by rw [h1, h4]⟩
  | group h =>
    obtain ⟨n, nv, b, d, c, hn, hb, hd, hc, rfl⟩ := group_plain hs hm h e hp hr
    obtain ⟨s, h1, h2⟩ := displayName_hush hn hm'.left
    have h3 : whole p (skeleton ((n ++ ':' :: (b ++ (d ++ c))) ++ r)) = whole .group (skeleton (d ++ (c ++ r))) := by
      rw [List.append_assoc, h1, List.cons_append, skeleton_stays rfl, whole_colon h2 hp', List.append_assoc, whole_body hb hm'.right.tail.left, List.append_assoc]
    rcases hd with rfl | rfl
    · exact ⟨.group, .inr rfl, by rw [h3, List.nil_append, skeleton_cfws hc]⟩
    · exact ⟨.item, .inl rfl, by rw [h3, List.singleton_append, skeleton_sep rfl, whole_next (q := .item) rfl, skeleton_cfws hc]⟩

theorem whole_sepTail {r : List Char} {bs} (hs : Rfc.Old.SureQuotes text) (hm : AtomWords text) (h : SepTail env r bs) : ∀ {pre : List Char}, text = pre ++ r →
    ∀ {p : Place}, p.Settled → whole p (skeleton r) = true := by
  induction h with
  | nil => rintro _ _ p (rfl | rfl) <;> rfl
  | @item sep t as r bs hsep ht hr ih =>
    intro pre e p hp
    have hsep' : isSep sep = true := by rcases hsep with rfl | rfl <;> rfl
    obtain ⟨p', hp', h1⟩ : ∃ p' : Place, p'.Open ∧ ∀ x, whole p (sep :: x) = whole p' x := by
      rcases hp with rfl | rfl <;> rcases hsep with rfl | rfl
      · exact ⟨.start, .inl rfl, fun x => whole_next rfl x⟩
      · exact ⟨.item, .inr (.inl rfl), fun x => whole_next rfl x⟩
      · exact ⟨.group, .inr (.inr rfl), fun x => whole_next rfl x⟩
      · exact ⟨.item, .inr (.inl rfl), fun x => whole_next rfl x⟩
    have e' : text = (pre ++ [sep]) ++ (t ++ r) := by rw [e]; simp
    obtain ⟨q, hq, h2⟩ := whole_address hs hm ht e' (.sep hsep) (SepTail.rest hr) hp'
    rw [skeleton_sep hsep', h1, h2]
    exact ih (pre := pre ++ [sep] ++ t) (by rw [e']; simp) hq

/-- A list as in the current syntax has no empty items. -/
theorem whole_strict {as} (hs : Rfc.Old.SureQuotes text) (hm : AtomWords text) (h : StrictList env text as) : whole .start (skeleton text) = true := by
  obtain ⟨t, as, r, bs, ht, hr, rfl, rfl⟩ := h
  obtain ⟨q, hq, h⟩ := whole_address (pre := []) hs hm ht rfl .nil (SepTail.rest hr) (.inl rfl)
  rw [h]
  exact whole_sepTail hs hm hr rfl hq

/-! ## Missing members -/

/-- At the beginning of a member; within one; between angle brackets. -/
inductive Spot where
  | start | item | angle
  deriving DecidableEq

/-- The first colon or semicolon outside angle brackets is a semicolon, and a member is missing before it (or was: `gap`). -/
def gapped : Spot → (gap : Bool) → List Char → Bool
  | _, _, [] => false
  | .start, gap, c :: r => if c = ',' then gapped .start true r else if c = ';' then true else if c = ':' then false else
      if c = '<' then gapped .angle gap r else gapped .item gap r
  | .item, gap, c :: r => if c = ',' then gapped .start gap r else if c = ';' then gap else if c = ':' then false else
      if c = '<' then gapped .angle gap r else gapped .item gap r
  | .angle, gap, c :: r => if c = '>' then gapped .item gap r else gapped .angle gap r

theorem gapped_hushed : ∀ {s : List Char}, (∀ c ∈ s, hushed c = true) → ∀ {p : Spot} (g), p ≠ .angle →
    ∃ q : Spot, q ≠ .angle ∧ (s ≠ [] → q = .item) ∧ (s = [] → q = p) ∧ ∀ r, gapped p g (s ++ r) = gapped q g r
  | [], _, p, _, hp => ⟨p, hp, by simp, by simp, fun _ => rfl⟩
  | c :: s, h, p, g, hp => by
    have hc : ((((c ≠ ',' ∧ c ≠ ';') ∧ c ≠ ':') ∧ c ≠ '<') ∧ c ≠ '>') := by simpa [hushed] using h c (by simp)
    have step : ∀ r, gapped p g (c :: r) = gapped .item g r := by
      intro r
      cases p with
      | start => simp [gapped, hc]
      | item => simp [gapped, hc]
      | angle => exact absurd rfl hp
    obtain ⟨q, h1, h2, h3, h4⟩ := gapped_hushed (s := s) (fun c hc => h c (by simp [hc])) (p := .item) g (by simp)
    refine ⟨q, h1, fun _ => ?_, by simp, fun r => by rw [List.cons_append, step, h4]⟩
    by_cases hs : s = []
    · exact h3 hs
    · exact h2 hs

theorem gapped_angle : ∀ {q : List Char} {g}, '>' ∉ q → ∀ r, gapped .angle g (q ++ r) = gapped .angle g r
  | [], _, _, _ => rfl
  | c :: q, g, h, r => by
    simp only [List.mem_cons, not_or] at h
    rw [List.cons_append, gapped, if_neg (Ne.symm h.1), gapped_angle h.2]

theorem gapped_firm {s : List Char} (h : Firm s) {p : Spot} (g) (hp : p ≠ .angle) (r) : gapped p g (s ++ r) = gapped .item g r := by
  cases h with
  | @angle n a hn ha =>
    obtain ⟨q, h1, _, _, h4⟩ := gapped_hushed hn g hp
    rw [List.append_assoc, h4, List.cons_append]
    have e : ∀ x, gapped q g ('<' :: x) = gapped .angle g x := by
      cases q with
      | angle => exact absurd rfl h1
      | _ => intro x; simp [gapped]
    rw [e, List.append_assoc, gapped_angle ha]
    simp [gapped]
  | bare hn hne =>
    obtain ⟨q, _, h2, _, h4⟩ := gapped_hushed hn g hp
    rw [h4, h2 hne]

theorem gapped_colon {s : List Char} (hs : ∀ c ∈ s, hushed c = true) {p : Spot} (g) (hp : p ≠ .angle) (r) : gapped p g (s ++ ':' :: r) = false := by
  obtain ⟨q, h1, _, _, h4⟩ := gapped_hushed hs g hp
  rw [h4]
  cases q with
  | angle => exact absurd rfl h1
  | _ => simp [gapped]

theorem gapped_shape {s : List Char} (h : Shape s) {p : Spot} (g) (hp : p ≠ .angle) :
    (∀ r, gapped p g (s ++ r) = gapped .item g r) ∨ ∀ r, gapped p g (s ++ r) = false := by
  cases h with
  | firm h => exact .inl (gapped_firm h g hp)
  | port hn hd => exact .inr fun r => by rw [List.append_assoc, List.cons_append, gapped_colon hn g hp]

theorem gapped_address {pre t r : List Char} {as} (hs : Rfc.Old.SureQuotes text) (hm : AtomWords text) (h : Address env t as)
    (e : text = pre ++ (t ++ r)) (hp : Lead pre) {p : Spot} (g) (hp' : p ≠ .angle) :
    gapped p g (skeleton (t ++ r)) = gapped .item g (skeleton r) ∨ gapped p g (skeleton (t ++ r)) = false := by
  have hm' : AtomWords t := hm.mono ⟨pre, r, by rw [e]; simp⟩
  cases h with
  | mailbox h =>
    obtain ⟨s, h1, h2⟩ := mailbox_shape h hm'
    rw [h1]
    exact (gapped_shape h2 g hp').imp (· _) (· _)
  | group h =>
    obtain ⟨q, n, nv, b, q', d, c, hq, hn, hb, hq', hd, hc, rfl⟩ := h
    rcases hq with rfl | rfl
    · obtain ⟨s, h1, h2⟩ := displayName_hush hn hm'.right.left
      refine .inr ?_
      rw [List.nil_append, List.append_assoc, h1, List.cons_append, skeleton_stays rfl, gapped_colon h2 g hp']
    · exact (no_lead hs hm hn (pre := pre) (z := b ++ (q' ++ (d ++ c)) ++ r) (by rw [e]; simp) hp).elim

theorem gapped_sepTail {r : List Char} {bs} (hs : Rfc.Old.SureQuotes text) (hm : AtomWords text) (h : SepTail env r bs) : ∀ {pre : List Char}, text = pre ++ r →
    gapped .item false (skeleton r) = false := by
  induction h with
  | nil => exact fun _ => rfl
  | @item sep t as r bs hsep ht hr ih =>
    intro pre e
    have e' : text = (pre ++ [sep]) ++ (t ++ r) := by rw [e]; simp
    rcases hsep with rfl | rfl
    · rw [skeleton_sep rfl]
      have h1 : ∀ x, gapped .item false (',' :: x) = gapped .start false x := fun x => by simp [gapped]
      rw [h1]
      rcases gapped_address hs hm ht e' (.sep (.inl rfl)) (p := .start) false (by simp) with h | h
      · rw [h]
        exact ih (pre := pre ++ [','] ++ t) (by rw [e']; simp)
      · exact h
    · rw [skeleton_sep rfl]
      simp [gapped]

theorem gapped_commaTail {r : List Char} {bs} (hs : Rfc.Old.SureQuotes text) (hm : AtomWords text) (h : CommaTail (Address env) r bs) : ∀ {pre : List Char}, text = pre ++ r →
    ∀ {p : Spot} g, p ≠ .angle → gapped p g (skeleton r) = false := by
  have comma : ∀ {p : Spot} {g}, p ≠ .angle → ∃ g', ∀ x, gapped p g (',' :: x) = gapped .start g' x := by
    intro p g hp
    cases p with
    | angle => exact absurd rfl hp
    | start => exact ⟨true, fun x => by simp [gapped]⟩
    | item => exact ⟨g, fun x => by simp [gapped]⟩
  induction h with
  | nil => intro _ _ p g _; cases p <;> rfl
  | @item t as r bs ht hr ih =>
    intro pre e p g hp
    have e' : text = (pre ++ [',']) ++ (t ++ r) := by rw [e]; simp
    obtain ⟨g', h1⟩ := comma (g := g) hp
    rw [skeleton_sep rfl, h1]
    rcases gapped_address hs hm ht e' (.sep (.inl rfl)) (p := .start) g' (by simp) with h | h
    · rw [h]
      exact ih (pre := pre ++ [','] ++ t) (by rw [e']; simp) _ (by simp)
    · exact h
  | @empty t r bs ht hr ih =>
    intro pre e p g hp
    obtain ⟨g', h1⟩ := comma (g := g) hp
    rw [skeleton_sep rfl, h1, skeleton_cfws ht]
    exact ih (pre := pre ++ ',' :: t) (by rw [e]; simp) _ (by simp)

end Rfc5322.Scan
