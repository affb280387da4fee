import Verif.Proofs.RfcObsolete

/-!
# The meaning of the obsolete syntax of RFC 5322 covers its grammar
-/

namespace Rfc5322.Rfc.Old

open Name Abnf

/-- White space and control characters always have a value. -/
structure Style.Total (S : Style) : Prop where
  inner : ∀ f, ∃ u, S.inner f u
  last : ∀ f, ∃ u, S.last f u
  control : ∀ c, ∃ u, S.control c u

section
variable {S : Style}

theorem quoted_exists (hS : S.Total) {x y} (h : Many (Derivable restricted (opt FWS ⬝ qcontent)) x) (hy : Is (opt FWS) y) : ∃ v, Quoted S (x ++ y) v := by
  induction h with
  | nil => obtain ⟨u, hu⟩ := hS.last y; exact ⟨u, .done hy hu⟩
  | @cons t r h _ ih =>
    obtain ⟨v, hv⟩ := ih
    obtain ⟨f, c, rfl, hf, hc⟩ := d_seq.mp h
    obtain ⟨u, hu⟩ := hS.inner f
    rw [d_rule] at hc
    rcases d_alt.mp hc with hc | hc
    · obtain ⟨c, rfl, _⟩ := (cls_qtext _).mp (acc hc)
      exact ⟨_, by simpa using Quoted.char hf hu hc hv⟩
    · rw [d_rule] at hc
      rcases d_alt.mp hc with hc | hc
      · obtain ⟨y, z, rfl, h1, h2⟩ := d_seq.mp hc
        rw [d_punct '\\' (by decide)] at h1
        subst h1
        obtain ⟨c, rfl, _⟩ := (cls_quotable _).mp (acc h2)
        exact ⟨_, by simpa using Quoted.pair hf hu h2 hv⟩
      · obtain ⟨y, z, rfl, h1, h2⟩ := d_seq.mp (d_rule.mp hc)
        rw [d_punct '\\' (by decide)] at h1
        subst h1
        obtain ⟨c, rfl, _⟩ := (cls_obsqp _).mp (acc h2)
        obtain ⟨w, hw⟩ := hS.control c
        exact ⟨_, by simpa using Quoted.control hf hu hc hw hv⟩

theorem quotedString_inv (hS : S.Total) {x} (h : Is «quoted-string» x) :
    ∃ a q v b, Is (opt CFWS) a ∧ Quoted S q v ∧ Is (opt CFWS) b ∧ x = a ++ ('"' :: (q ++ '"' :: b)) := by
  rw [Is, d_rule] at h
  obtain ⟨a, x, rfl, ha, h⟩ := d_seq.mp h
  obtain ⟨q1, x, rfl, h1, h⟩ := d_seq.mp h
  obtain ⟨y, x, rfl, h2, h⟩ := d_seq.mp h
  obtain ⟨z, x, rfl, h3, h⟩ := d_seq.mp h
  obtain ⟨q2, b, rfl, h4, hb⟩ := d_seq.mp h
  replace h1 := dq.mp h1
  replace h4 := dq.mp h4
  subst h1 h4
  obtain ⟨v, hv⟩ := quoted_exists hS (d_many.mp h2) h3
  exact ⟨a, y ++ z, v, b, ha, hv, hb, by simp⟩

theorem word_exists (hS : S.Total) {x} (h : Is word x) : ∃ v, Word S x v := by
  rw [Is, d_rule] at h
  rcases d_alt.mp h with h | h
  · rw [d_rule] at h
    obtain ⟨a, x, rfl, ha, h⟩ := d_seq.mp h
    obtain ⟨t, b, rfl, ht, hb⟩ := d_seq.mp h
    exact ⟨_, .atom ha ht hb⟩
  · obtain ⟨a, q, v, b, h1, h2, h3, rfl⟩ := quotedString_inv hS h
    exact ⟨_, .quoted h1 h2 h3⟩

theorem cfws_last {b : List Char} (hb : Spec.OptCfws b) {c} (hc : c ∈ b.getLast?) : Spec.isAtext c = false := by
  have fws : ∀ {f}, Spec.OptFws f → ∀ c ∈ f.getLast?, Spec.isAtext c = false := by
    have wsp : ∀ {c}, Spec.isWsp c = true → Spec.isAtext c = false := by
      intro c h
      simp only [Spec.isWsp, Bool.or_eq_true, beq_iff_eq] at h
      rcases h with rfl | rfl <;> decide
    intro f hf c hc
    rcases hf with rfl | hf
    · simp at hc
    · cases hf with
      | plain _ h => exact wsp (h c (List.mem_of_getLast? hc))
      | @folded v w _ hne h =>
        rw [show v ++ '\r' :: '\n' :: w = (v ++ ['\r', '\n']) ++ w by simp] at hc
        rcases last_append hc with hc | ⟨e, _⟩
        · exact wsp (h c (List.mem_of_getLast? hc))
        · exact absurd e hne
  obtain ⟨r, f, hr, hf, rfl⟩ := hb
  rcases last_append hc with h | ⟨_, h⟩
  · exact fws hf c h
  · clear hc
    induction hr with
    | nil => simp at h
    | @cons f t r hf ht _ ih =>
      rcases last_append h with hc | ⟨_, hc⟩
      · rcases last_append hc with hc | ⟨_, hc⟩
        · exact ih hc
        · obtain ⟨xs, f, _, _, rfl⟩ := ht
          rw [show '(' :: (xs ++ (f ++ [')'])) = ('(' :: (xs ++ f)) ++ [')'] by simp, List.getLast?_append] at hc
          cases hc; decide
      · exact fws hf c hc

/-- A word in front of other parts; atoms that touch are one. -/
theorem phrase_cons {t v r ps} (h : Word S t v) (hr : Parts S r ps) : ∃ ps', Phrase S (t ++ r) ps' := by
  by_cases hs : Touch t r
  · obtain ⟨c, hc, d, hd, hc', hd'⟩ := hs
    replace hc' := is_atext hc'
    replace hd' := is_atext hd'
    -- the word is an atom with nothing behind it
    have h1 : ∃ a, Is (opt CFWS) a ∧ Is (some1 atext) v ∧ t = a ++ v := by
      cases h with
      | @atom a _ b ha ht hb =>
        rcases last_append hc with hc | ⟨e, _⟩
        · rcases last_append hc with hc | ⟨e, hc⟩
          · rw [cfws_last (r_cfws hb) hc] at hc'; cases hc'
          · subst e; exact ⟨a, ha, ht, by simp⟩
        · exact absurd (List.append_eq_nil_iff.mp e).1 (is_atom ht).1
      | @quoted a q v b ha hq hb =>
        rw [show a ++ '"' :: (q ++ '"' :: b) = (a ++ '"' :: (q ++ ['"'])) ++ b by simp] at hc
        rcases last_append hc with hc | ⟨_, hc⟩
        · rw [cfws_last (r_cfws hb) hc] at hc'; cases hc'
        · rw [show a ++ '"' :: (q ++ ['"']) = (a ++ '"' :: q) ++ ['"'] by simp, List.getLast?_append] at hc
          cases hc; exact absurd hc' (by decide)
    obtain ⟨a, ha, hv, rfl⟩ := h1
    cases hr with
    | nil => simp at hd
    | period => cases hd; exact absurd hd' (by decide)
    | @cfws t r ps ht _ =>
      have ht := r_cfws (d_opt.mpr (.inr ht))
      rcases head_append hd with hd | ⟨e, _⟩
      · rw [cfws_head ht hd] at hd'; cases hd'
      · subst e
        have := acc ‹Is CFWS []›
        exact absurd rfl (d_CFWS.mp this).2
    | @word t' w r' ps h' hs hr =>
      have hd1 : d ∈ t'.head? := by
        rcases head_append hd with hd | ⟨e, _⟩
        · exact hd
        · exact absurd e (word_ne_nil h')
      have h2 : ∃ b, Is (some1 atext) w ∧ Is (opt CFWS) b ∧ t' = w ++ b := by
        cases h' with
        | @atom a _ b ha ht hb =>
          rcases head_append hd1 with hd | ⟨e, _⟩
          · rw [cfws_head (r_cfws ha) hd] at hd'; cases hd'
          · subst e; exact ⟨b, ht, hb, rfl⟩
        | @quoted a q v b ha hq hb =>
          rcases head_append hd1 with hd | ⟨e, hd⟩
          · rw [cfws_head (r_cfws ha) hd] at hd'; cases hd'
          · cases hd; exact absurd hd' (by decide)
      have merge : ∀ {w}, Is (some1 atext) w → Is (some1 atext) (v ++ w) := by
        intro w hw
        obtain ⟨y, z, rfl, h3, h4⟩ := d_some1.mp hv
        refine d_some1.mpr ⟨y, z ++ w, by simp, h3, ?_⟩
        obtain ⟨y', z', rfl, h5, h6⟩ := d_some1.mp hw
        have : Many (Derivable restricted atext) (y' ++ z') := .cons h5 h6
        clear h3 hv hw hc h
        induction h4 with
        | nil => exact this
        | cons h _ ih => rw [List.append_assoc]; exact .cons h ih
      obtain ⟨b, hw, hb, rfl⟩ := h2
      have := Phrase.mk (.atom ha (merge hw) hb) (fun ⟨c, hc, d, hd, hcd⟩ => hs ⟨c, ?_, d, hd, hcd⟩) hr
      · exact ⟨_, by simpa using this⟩
      rw [show a ++ (v ++ w ++ b) = (a ++ v) ++ (w ++ b) by simp] at hc
      rcases last_append hc with hc | ⟨e, _⟩
      · exact hc
      · exact absurd e (word_ne_nil h')
  · exact ⟨_, .mk h hs hr⟩

theorem Phrase.parts {t ps} (h : Phrase S t ps) : Parts S t ps := by
  cases h with
  | mk h1 h2 h3 => exact .word h1 h2 h3

theorem parts_exist (hS : S.Total) {x} (h : Many (Derivable restricted (word / text c!"." / CFWS)) x) : ∃ ps, Parts S x ps := by
  induction h with
  | nil => exact ⟨[], .nil⟩
  | cons h _ ih =>
    obtain ⟨ps, hr⟩ := ih
    rcases d_alt.mp h with h | h
    · obtain ⟨v, hv⟩ := word_exists hS h
      obtain ⟨ps', h⟩ := phrase_cons hv hr
      exact ⟨_, h.parts⟩
    · rcases d_alt.mp h with h | h
      · rw [d_punct '.' (by decide)] at h
        subst h
        exact ⟨_, .period hr⟩
      · exact ⟨_, .cfws h hr⟩

theorem phrase_exists (hS : S.Total) {x} (h : Is phrase x) : ∃ ps, Phrase S x ps := by
  have key : ∀ {y z}, Is word y → Many (Derivable restricted (word / text c!"." / CFWS)) z → ∃ ps, Phrase S (y ++ z) ps := by
    intro y z h1 h2
    obtain ⟨v, hv⟩ := word_exists hS h1
    obtain ⟨ps, hps⟩ := parts_exist hS h2
    exact phrase_cons hv hps
  rcases d_alt.mp (d_rule.mp h) with h | h
  · obtain ⟨y, z, rfl, h1, h2⟩ := d_some1.mp h
    exact key h1 (h2.mono fun x h => .left h)
  · obtain ⟨y, z, rfl, h1, h2⟩ := d_seq.mp (d_rule.mp h)
    exact key h1 (d_many.mp h2)

/-- A dot-atom is words with periods between them. -/
theorem dotAtom_words {a t b} (ha : Is (opt CFWS) a) (ht : Is «dot-atom-text» t) (hb : Is (opt CFWS) b) : ∃ v, LocalPart S (a ++ (t ++ b)) v := by
  obtain ⟨y, z, rfl, h1, h2⟩ := d_seq.mp (d_rule.mp ht)
  replace h2 := d_many.mp h2
  clear ht
  induction h2 generalizing a y with
  | nil => exact ⟨_, by simpa using LocalPart.one (.atom (S := S) ha h1 hb)⟩
  | @cons x r hx _ ih =>
    obtain ⟨p, y', rfl, h3, h4⟩ := d_seq.mp hx
    rw [d_punct '.' (by decide)] at h3
    subst h3
    obtain ⟨v, hv⟩ := ih (a := []) optNil y' h4
    exact ⟨_, by simpa using LocalPart.more (.atom (S := S) (b := []) ha h1 optNil) hv⟩

theorem localPart_exists (hS : S.Total) {x} (h : Is «local-part» x) : ∃ v, LocalPart S x v := by
  replace h := d_rule.mp h
  rcases d_alt.mp h with h' | h'
  all_goals clear h
  all_goals (have h := h'; clear h')
  · obtain ⟨a, x, rfl, ha, h⟩ := d_seq.mp (d_rule.mp h)
    obtain ⟨t, b, rfl, ht, hb⟩ := d_seq.mp h
    exact dotAtom_words ha ht hb
  · rcases d_alt.mp h with h' | h'
    all_goals clear h
    all_goals (have h := h'; clear h')
    · obtain ⟨a, q, v, b, h1, h2, h3, rfl⟩ := quotedString_inv hS h
      exact ⟨_, .one (.quoted h1 h2 h3)⟩
    · obtain ⟨y, z, rfl, h1, h2⟩ := d_seq.mp (d_rule.mp h)
      replace h2 := d_many.mp h2
      clear h
      induction h2 generalizing y with
      | nil => obtain ⟨v, hv⟩ := word_exists hS h1; exact ⟨_, by simpa using LocalPart.one hv⟩
      | @cons x r hx _ ih =>
        obtain ⟨p, y', rfl, h3, h4⟩ := d_seq.mp hx
        rw [d_punct '.' (by decide)] at h3
        subst h3
        obtain ⟨v, hv⟩ := word_exists hS h1
        obtain ⟨u, hu⟩ := ih y' h4
        exact ⟨_, by simpa using LocalPart.more hv hu⟩

theorem domain_exists {x} (h : Is domain x) : ∃ v, Domain x v := by
  rcases d_alt.mp (d_rule.mp h) with h | h
  · obtain ⟨a, x, rfl, ha, h⟩ := d_seq.mp (d_rule.mp h)
    obtain ⟨t, b, rfl, ht, hb⟩ := d_seq.mp h
    exact ⟨_, .dotAtom ha ht hb⟩
  · rcases d_alt.mp h with h | h
    · obtain ⟨a, x, rfl, ha, h⟩ := d_seq.mp (d_rule.mp h)
      obtain ⟨q1, x, rfl, h1, h⟩ := d_seq.mp h
      obtain ⟨y, x, rfl, h2, h⟩ := d_seq.mp h
      obtain ⟨z, x, rfl, h3, h⟩ := d_seq.mp h
      obtain ⟨q2, b, rfl, h4, hb⟩ := d_seq.mp h
      rw [d_punct '[' (by decide)] at h1
      rw [d_punct ']' (by decide)] at h4
      subst h1 h4
      have := Domain.literal ha (.seq h2 h3) hb
      exact ⟨_, by simpa using this⟩
    · exact absurd (d_rule.mp h) d_nothing

theorem addrSpec_exists (hS : S.Total) {x} (h : Is «addr-spec» x) : ∃ v, AddrSpec S x v := by
  obtain ⟨l, x, rfl, hl, h⟩ := d_seq.mp (d_rule.mp h)
  obtain ⟨q, d, rfl, h1, hd⟩ := d_seq.mp h
  rw [d_punct '@' (by decide)] at h1
  subst h1
  obtain ⟨u, hu⟩ := localPart_exists hS hl
  obtain ⟨v, hv⟩ := domain_exists hd
  exact ⟨_, .mk hu hv⟩

theorem mailbox_exists (hS : S.Total) {x} (h : Is mailbox x) : ∃ v, Mailbox S x v := by
  have key : ∀ {n a r t b}, Is (opt «display-name») n → Is (opt CFWS) a → Is (opt «obs-route») r → Is «addr-spec» t → Is (opt CFWS) b →
      ∃ v, Mailbox S (n ++ (a ++ '<' :: (r ++ (t ++ '>' :: b)))) v := by
    intro n a r t b hn ha hr ht hb
    obtain ⟨v, hv⟩ := addrSpec_exists hS ht
    rcases d_opt.mp hn with rfl | hn
    · exact ⟨_, .angle ha hr hv hb⟩
    · obtain ⟨vs, hvs⟩ := phrase_exists hS (d_rule.mp hn)
      exact ⟨_, .named hvs ha hr hv hb⟩
  rcases d_alt.mp (d_rule.mp h) with h | h
  · obtain ⟨n, x, rfl, hn, h⟩ := d_seq.mp (d_rule.mp h)
    rcases d_alt.mp (d_rule.mp h) with h | h
    · obtain ⟨a, x, rfl, ha, h⟩ := d_seq.mp h
      obtain ⟨q1, x, rfl, h1, h⟩ := d_seq.mp h
      obtain ⟨t, x, rfl, ht, h⟩ := d_seq.mp h
      obtain ⟨q2, b, rfl, h2, hb⟩ := d_seq.mp h
      rw [d_punct '<' (by decide)] at h1
      rw [d_punct '>' (by decide)] at h2
      subst h1 h2
      exact key (r := []) hn ha optNil ht hb
    · obtain ⟨a, x, rfl, ha, h⟩ := d_seq.mp (d_rule.mp h)
      obtain ⟨q1, x, rfl, h1, h⟩ := d_seq.mp h
      obtain ⟨r, x, rfl, hr, h⟩ := d_seq.mp h
      obtain ⟨t, x, rfl, ht, h⟩ := d_seq.mp h
      obtain ⟨q2, b, rfl, h2, hb⟩ := d_seq.mp h
      rw [d_punct '<' (by decide)] at h1
      rw [d_punct '>' (by decide)] at h2
      subst h1 h2
      exact key hn ha (d_opt.mpr (.inr hr)) ht hb
  · obtain ⟨v, hv⟩ := addrSpec_exists hS h
    exact ⟨_, .bare hv⟩

end

/-! ## Lists -/

section
variable {Item : List Char → List Box → Prop} {e : Abnf}

theorem slots_one {t v} (h : Item t v ∨ Is (opt CFWS) t ∧ v = []) : Slots Item t [(t, v)] :=
  ⟨by simp, by simpa using h, by simp [List.intercalate]⟩

theorem slots_cons {t v r l} (h : Item t v ∨ Is (opt CFWS) t ∧ v = []) (hr : Slots Item r l) : Slots Item (t ++ ',' :: r) ((t, v) :: l) := by
  obtain ⟨h1, h2, rfl⟩ := hr
  refine ⟨by simp, ?_, ?_⟩
  · intro i hi
    rcases List.mem_cons.mp hi with rfl | hi
    · exact h
    · exact h2 i hi
  · obtain ⟨j, l, rfl⟩ := List.exists_cons_of_ne_nil h1
    rw [List.map_cons (l := j :: l), List.map_cons (l := l), intercalate_cons]

/-- Induction over slots. -/
theorem slots_rec {P : List Char → List (List Char × List Box) → Prop}
    (h1 : ∀ t v, (Item t v ∨ Is (opt CFWS) t ∧ v = []) → P t [(t, v)])
    (h2 : ∀ t v r l, (Item t v ∨ Is (opt CFWS) t ∧ v = []) → Slots Item r l → P r l → P (t ++ ',' :: r) ((t, v) :: l)) :
    ∀ {x l}, Slots Item x l → P x l := by
  intro x l h
  obtain ⟨hne, hi, rfl⟩ := h
  induction l with
  | nil => exact absurd rfl hne
  | cons i l ih =>
    obtain ⟨t, v⟩ := i
    cases l with
    | nil => simpa [List.intercalate] using h1 t v (hi (t, v) (by simp))
    | cons j l =>
      rw [List.map_cons, List.map_cons, intercalate_cons, ← List.map_cons]
      have hi' : ∀ i ∈ j :: l, Item i.1 i.2 ∨ Is (opt CFWS) i.1 ∧ i.2 = [] := fun i h => hi i (by simp [h])
      exact h2 _ _ _ _ (hi (t, v) (by simp)) ⟨by simp, hi', rfl⟩ (ih (by simp) hi')

/-- What may stand between the commas. -/
theorem slot_iff (he : ∀ x, Is e x ↔ ∃ vs, Item x vs) {x} : Is (opt (e / CFWS)) x ↔ ∃ v, Item x v ∨ Is (opt CFWS) x ∧ v = [] := by
  constructor
  · intro h
    rcases d_opt.mp h with rfl | h
    · exact ⟨[], .inr ⟨optNil, rfl⟩⟩
    · rcases d_alt.mp h with h | h
      · obtain ⟨v, hv⟩ := (he _).mp h; exact ⟨v, .inl hv⟩
      · exact ⟨[], .inr ⟨d_opt.mpr (.inr h), rfl⟩⟩
  · rintro ⟨v, h | ⟨h, rfl⟩⟩
    · exact d_opt.mpr (.inr (.left ((he _).mpr ⟨v, h⟩)))
    · rcases d_opt.mp h with rfl | h
      · exact optNil
      · exact d_opt.mpr (.inr (.right h))

/-- A list with its tail. -/
theorem slots_tail (he : ∀ x, Is e x ↔ ∃ vs, Item x vs) {x} :
    (∃ l, Slots Item x l) ↔ ∃ y z, x = y ++ z ∧ Is (opt (e / CFWS)) y ∧ Many (Derivable restricted (text c!"," ⬝ opt (e / CFWS))) z := by
  constructor
  · rintro ⟨l, h⟩
    refine slots_rec (P := fun x _ => ∃ y z, x = y ++ z ∧ Is (opt (e / CFWS)) y ∧ Many (Derivable restricted (text c!"," ⬝ opt (e / CFWS))) z) ?_ ?_ h
    · intro t v h; exact ⟨t, [], by simp, (slot_iff he).mpr ⟨v, h⟩, .nil⟩
    · rintro t v r l h _ ⟨y, z, rfl, h1, h2⟩
      exact ⟨t, ',' :: (y ++ z), rfl, (slot_iff he).mpr ⟨v, h⟩, .cons (x := ',' :: y) (.seq (x := [',']) pr_ h1) h2⟩
  · rintro ⟨y, z, rfl, h1, h2⟩
    induction h2 generalizing y with
    | nil => obtain ⟨v, hv⟩ := (slot_iff he).mp h1; exact ⟨_, by simpa using slots_one hv⟩
    | @cons t r ht _ ih =>
      obtain ⟨c, y', rfl, h3, h4⟩ := d_seq.mp ht
      rw [d_punct ',' (by decide)] at h3
      subst h3
      obtain ⟨v, hv⟩ := (slot_iff he).mp h1
      obtain ⟨l, hl⟩ := ih y' h4
      exact ⟨_, by simpa using slots_cons hv hl⟩

/-- Lists with at least one item. -/
theorem obsList_iff (he : ∀ x, Is e x ↔ ∃ vs, Item x vs) {x} :
    Is (many (opt CFWS ⬝ text c!",") ⬝ e ⬝ many (text c!"," ⬝ opt (e / CFWS))) x ↔ ∃ l, Slots Item x l ∧ ∃ i ∈ l, Item i.1 i.2 := by
  constructor
  · intro h
    obtain ⟨a, x, rfl, ha, h'⟩ := d_seq.mp h
    clear h
    obtain ⟨t, z, rfl, ht, hz⟩ := d_seq.mp h'
    clear h'
    obtain ⟨v, hv⟩ := (he _).mp ht
    replace ha := d_many.mp ha
    have key : ∃ l, Slots Item (t ++ z) l ∧ ∃ i ∈ l, Item i.1 i.2 := by
      have hz := d_many.mp hz
      cases hz with
      | nil => exact ⟨_, by simpa using slots_one (.inl hv), (t, v), by simp, hv⟩
      | @cons y r hy hr =>
        obtain ⟨c, y', rfl, h3, h4⟩ := d_seq.mp hy
        rw [d_punct ',' (by decide)] at h3
        subst h3
        obtain ⟨l, hl⟩ := (slots_tail he).mpr ⟨y', r, rfl, h4, hr⟩
        exact ⟨_, by simpa using slots_cons (.inl hv) hl, (t, v), by simp, hv⟩
    induction ha with
    | nil => exact key
    | @cons y r hy _ ih =>
      obtain ⟨w, c, rfl, h3, h4⟩ := d_seq.mp hy
      rw [d_punct ',' (by decide)] at h4
      subst h4
      obtain ⟨l, hl, i, hi, hii⟩ := ih
      exact ⟨_, by simpa using slots_cons (.inr ⟨h3, rfl⟩) hl, i, by simp [hi], hii⟩
  · rintro ⟨l, h, hi⟩
    revert hi
    refine slots_rec (P := fun x l => (∃ i ∈ l, Item i.1 i.2) → Is (many (opt CFWS ⬝ text c!",") ⬝ e ⬝ many (text c!"," ⬝ opt (e / CFWS))) x) ?_ ?_ h
    · rintro t v _ ⟨i, hi, h⟩
      rw [List.mem_singleton] at hi
      subst hi
      refine d_seq.mpr ⟨[], t, by simp, d_many.mpr .nil, ?_⟩
      exact d_seq.mpr ⟨t, [], by simp, (he _).mpr ⟨v, h⟩, d_many.mpr .nil⟩
    · rintro t v r l h hr ih ⟨i, hi, h'⟩
      by_cases ht : ∃ v, Item t v
      · obtain ⟨y, z, rfl, h1, h2⟩ := (slots_tail he).mp ⟨l, hr⟩
        refine d_seq.mpr ⟨[], t ++ ',' :: (y ++ z), by simp, d_many.mpr .nil, ?_⟩
        exact .seq ((he _).mpr ht) (d_many.mpr (.cons (x := ',' :: y) (.seq (x := [',']) pr_ h1) h2))
      · have hc : Is (opt CFWS) t := by
          rcases h with h | h
          · exact absurd ⟨v, h⟩ ht
          · exact h.1
        have hi : i ∈ l := by
          rcases List.mem_cons.mp hi with rfl | hi
          · exact absurd ⟨_, h'⟩ ht
          · exact hi
        obtain ⟨a, z, rfl, ha, hz⟩ := d_seq.mp (ih ⟨i, hi, h'⟩)
        have : Is (opt CFWS ⬝ text c!",") (t ++ [',']) := .seq hc pr_
        have := Derivable.seq (d_many.mpr (.cons this (d_many.mp ha))) hz
        simpa using this

/-- Lists without gaps are such lists. -/
theorem plain_obs {x} (h : Is (e ⬝ many (text c!"," ⬝ e)) x) : Is (many (opt CFWS ⬝ text c!",") ⬝ e ⬝ many (text c!"," ⬝ opt (e / CFWS))) x := by
  obtain ⟨y, z, rfl, h1, h2⟩ := d_seq.mp h
  refine d_seq.mpr ⟨[], y ++ z, by simp, d_many.mpr .nil, .seq h1 (d_many.mpr ((d_many.mp h2).mono fun x h => ?_))⟩
  obtain ⟨c, t, rfl, h3, h4⟩ := d_seq.mp h
  exact .seq h3 (d_opt.mpr (.inr (.left h4)))

end

section
variable {S : Style}

/-- The members of a group. -/
def Member (S : Style) (t : List Char) (vs : List Box) : Prop := ∃ v, Mailbox S t v ∧ vs = [v]

theorem member_iff (hS : S.Total) (x) : Is mailbox x ↔ ∃ vs, Member S x vs :=
  ⟨fun h => by obtain ⟨v, h⟩ := mailbox_exists hS h; exact ⟨_, v, h, rfl⟩, fun ⟨_, _, h, _⟩ => mailbox_derives h⟩

theorem member_derives {x vs} (h : Member S x vs) : Is mailbox x := by obtain ⟨v, h, _⟩ := h; exact mailbox_derives h

theorem groupList_exists (hS : S.Total) {x} (h : Is (opt «group-list») x) : ∃ l, Slots (Member S) x l := by
  rcases d_opt.mp h with rfl | h
  · exact ⟨_, slots_one (v := []) (.inr ⟨optNil, rfl⟩)⟩
  · rcases d_alt.mp (d_rule.mp h) with h | h
    · have : Is (many (opt CFWS ⬝ text c!",") ⬝ mailbox ⬝ many (text c!"," ⬝ opt (mailbox / CFWS))) x := by
        rcases d_alt.mp (d_rule.mp h) with h | h
        · exact plain_obs h
        · exact d_rule.mp h
      obtain ⟨l, h, _⟩ := (obsList_iff (member_iff hS)).mp this
      exact ⟨l, h⟩
    · rcases d_alt.mp h with h | h
      · exact ⟨_, slots_one (v := []) (.inr ⟨d_opt.mpr (.inr h), rfl⟩)⟩
      · obtain ⟨y, w, rfl, h1, h2⟩ := d_seq.mp (d_rule.mp h)
        obtain ⟨y, z, rfl, h1, h3⟩ := d_some1.mp h1
        have key : ∀ {z}, Many (Derivable restricted (opt CFWS ⬝ text c!",")) z → ∃ l, Slots (Member S) (z ++ w) l := by
          intro z h3
          induction h3 with
          | nil => exact ⟨_, slots_one (v := []) (.inr ⟨h2, rfl⟩)⟩
          | @cons y r hy _ ih =>
            obtain ⟨a, c, rfl, h4, h5⟩ := d_seq.mp hy
            rw [d_punct ',' (by decide)] at h5
            subst h5
            obtain ⟨l, hl⟩ := ih
            exact ⟨_, by simpa using slots_cons (v := []) (.inr ⟨h4, rfl⟩) hl⟩
        exact key (.cons h1 h3)

theorem slot_derives {e : Abnf} {Item : List Char → List Box → Prop} (he : ∀ x vs, Item x vs → Is e x) {x l} (h : Slots Item x l) : Slots (fun t _ => Is e t) x l :=
  ⟨h.1, fun i hi => (h.2.1 i hi).imp_left (he _ _), h.2.2⟩

theorem groupList_derives {x l} (h : Slots (Member S) x l) : Is (opt «group-list») x := by
  have h := slot_derives (fun _ _ => member_derives) h
  by_cases hi : ∃ i ∈ l, Is mailbox i.1
  · exact d_opt.mpr (.inr (.rule (.left (.rule (.right (.rule ((obsList_iff (Item := fun t _ => Is mailbox t) fun x => ⟨fun h => ⟨[], h⟩, fun ⟨_, h⟩ => h⟩).mpr ⟨l, h, hi⟩)))))))
  · have key : Is (opt CFWS) x ∨ Is (some1 (opt CFWS ⬝ text c!",") ⬝ opt CFWS) x := by
      revert hi
      refine slots_rec (P := fun x l => (¬ ∃ i ∈ l, Is mailbox i.1) → Is (opt CFWS) x ∨ Is (some1 (opt CFWS ⬝ text c!",") ⬝ opt CFWS) x) ?_ ?_ h
      · intro t v h hi
        rcases h with h | h
        · exact absurd ⟨_, List.mem_singleton.mpr rfl, h⟩ hi
        · exact .inl h.1
      · intro t v r l h _ ih hi
        right
        have ht : Is (opt CFWS) t := by
          rcases h with h | h
          · exact absurd ⟨_, List.mem_cons_self .., h⟩ hi
          · exact h.1
        have htc : Is (opt CFWS ⬝ text c!",") (t ++ [',']) := .seq ht pr_
        rcases ih (fun ⟨i, h1, h2⟩ => hi ⟨i, by simp [h1], h2⟩) with ih | ih
        · have := Derivable.seq (d_some1.mpr ⟨t ++ [','], [], (List.append_nil _).symm, htc, .nil⟩) ih
          simpa using this
        · obtain ⟨y, z, rfl, h1, h2⟩ := d_seq.mp ih
          obtain ⟨y, y', rfl, h1, h3⟩ := d_some1.mp h1
          have := Derivable.seq (d_some1.mpr ⟨t ++ [','], y ++ y', rfl, htc, .cons h1 h3⟩) h2
          simpa using this
    rcases key with h | h
    · rcases d_opt.mp h with rfl | h
      · exact optNil
      · exact d_opt.mpr (.inr (.rule (.right (.left h))))
    · exact d_opt.mpr (.inr (.rule (.right (.right (.rule h)))))

theorem address_iff (hS : S.Total) (x) : Is address x ↔ ∃ vs, Address S x vs := by
  constructor
  · intro h
    rcases d_alt.mp (d_rule.mp h) with h | h
    · obtain ⟨v, hv⟩ := mailbox_exists hS h; exact ⟨_, .box hv⟩
    · obtain ⟨n, x, rfl, hn, h⟩ := d_seq.mp (d_rule.mp h)
      obtain ⟨q1, x, rfl, h1, h⟩ := d_seq.mp h
      obtain ⟨m, x, rfl, hm, h⟩ := d_seq.mp h
      obtain ⟨q2, b, rfl, h2, hb⟩ := d_seq.mp h
      rw [d_punct ':' (by decide)] at h1
      rw [d_punct ';' (by decide)] at h2
      subst h1 h2
      obtain ⟨ws, hws⟩ := phrase_exists hS (d_rule.mp hn)
      obtain ⟨l, hl⟩ := groupList_exists hS hm
      exact ⟨_, .group hws hl hb⟩
  · rintro ⟨vs, h⟩
    cases h with
    | box h => exact .rule (.left (mailbox_derives h))
    | group hn hm hb =>
      exact .rule (.right (.rule (.seq (.rule (phrase_derives hn)) (.seq (pr_ (d := ':')) (.seq (groupList_derives hm) (.seq (pr_ (d := ';')) hb))))))

theorem addressList_iff (hS : S.Total) {x} : Is «address-list» x ↔ ∃ l, AddressList S x l := by
  constructor
  · intro h
    refine (obsList_iff (address_iff hS)).mp ?_
    rcases d_alt.mp (d_rule.mp h) with h | h
    · exact plain_obs h
    · exact d_rule.mp h
  · intro h
    exact .rule (.right (.rule ((obsList_iff (address_iff hS)).mpr h)))

end

/-! ## Comparing -/

/-- Whatever has a value in `A` has the same one in `B`. -/
structure Style.Le (A B : Style) : Prop where
  inner : ∀ f u, A.inner f u → B.inner f u
  last : ∀ f u, A.last f u → B.last f u
  control : ∀ c u, A.control c u → B.control c u

section
variable {A B : Style} (le : A.Le B)
include le

theorem Quoted.mono {q v} (h : Quoted A q v) : Quoted B q v := by
  induction h with
  | char hf hu hc _ ih => exact .char hf (le.inner _ _ hu) hc ih
  | pair hf hu hc _ ih => exact .pair hf (le.inner _ _ hu) hc ih
  | control hf hu hc hw _ ih => exact .control hf (le.inner _ _ hu) hc (le.control _ _ hw) ih
  | done hf hu => exact .done hf (le.last _ _ hu)

theorem Word.mono {t v} (h : Word A t v) : Word B t v := by
  cases h with
  | atom ha ht hb => exact .atom ha ht hb
  | quoted ha hq hb => exact .quoted ha (hq.mono le) hb

theorem Parts.mono {t v} (h : Parts A t v) : Parts B t v := by
  induction h with
  | nil => exact .nil
  | word h hs _ ih => exact .word (h.mono le) hs ih
  | period _ ih => exact .period ih
  | cfws h _ ih => exact .cfws h ih

theorem Phrase.mono {t v} (h : Phrase A t v) : Phrase B t v := by
  cases h with
  | mk h hs hr => exact .mk (h.mono le) hs (hr.mono le)

theorem LocalPart.mono {t v} (h : LocalPart A t v) : LocalPart B t v := by
  induction h with
  | one h => exact .one (h.mono le)
  | more h _ ih => exact .more (h.mono le) ih

theorem AddrSpec.mono {t v} (h : AddrSpec A t v) : AddrSpec B t v := by
  cases h with
  | mk h1 h2 => exact .mk (h1.mono le) h2

theorem Mailbox.mono {t v} (h : Mailbox A t v) : Mailbox B t v := by
  cases h with
  | named hn ha hr ht hb => exact .named (hn.mono le) ha hr (ht.mono le) hb
  | angle ha hr ht hb => exact .angle ha hr (ht.mono le) hb
  | bare h => exact .bare (h.mono le)

theorem Address.mono {t v} (h : Address A t v) : Address B t v := by
  cases h with
  | box h => exact .box (h.mono le)
  | group hn hm hb =>
    exact .group (hn.mono le) ⟨hm.1, fun i hi => (hm.2.1 i hi).imp_left fun ⟨v, h1, h2⟩ => ⟨v, h1.mono le, h2⟩, hm.2.2⟩ hb

theorem AddressList.mono {t v} (h : AddressList A t v) : AddressList B t v := by
  obtain ⟨⟨h1, h2, h3⟩, i, hi, h4⟩ := h
  exact ⟨⟨h1, fun i hi => (h2 i hi).imp_left (·.mono le), h3⟩, i, hi, h4.mono le⟩

end

theorem tidy_rfc : tidyStyle.Le rfcStyle where
  inner f u h := by
    obtain ⟨h1, h2, rfl⟩ := h
    refine (List.filter_eq_self.mpr ?_).symm
    intro c hc
    have h3 : c ≠ '\r' := by rintro rfl; exact h1 hc
    have h4 : c ≠ '\n' := by rintro rfl; exact h2 hc
    simp [h3, h4]
  last f u h := by obtain ⟨rfl, rfl⟩ := h; rfl
  control _ _ h := h.elim

theorem tidy_go : tidyStyle.Le goStyle where
  inner _ _ h := h.2.2
  last _ _ h := h.2
  control _ _ h := h.elim

theorem rfc_total : rfcStyle.Total := ⟨fun _ => ⟨_, rfl⟩, fun _ => ⟨_, rfl⟩, fun _ => ⟨_, rfl⟩⟩
theorem go_total : goStyle.Total := ⟨fun _ => ⟨_, rfl⟩, fun _ => ⟨_, rfl⟩, fun _ => ⟨_, rfl⟩⟩

end Rfc5322.Rfc.Old
