import Verif.Proofs.Greedy

/-!
# Quoted strings, domain literals and encoded words can be read in one way only
-/

namespace Rfc5322

open Spec

/-! ## Quoted strings -/

/-- Reading a quoted string after its opening quote: the value and what follows the closing quote.
`pend` is white space not yet known to be inside. -/
def readQuoted (pend : List Char) : List Char → Bytes × List Char
  | [] => ([], [])
  | [c] => if c = '"' then ([], []) else ([], [c])
  | c :: d :: r =>
    if c = '"' then ([], d :: r)
    else if c = '\\' then
      (utf8 pend ++ ((if isQuotable d then utf8 [d] else []) ++ (readQuoted [] r).1), (readQuoted [] r).2)
    else if isBlank c then readQuoted (pend ++ [c]) (d :: r)
    else (utf8 (pend ++ [c]) ++ (readQuoted [] (d :: r)).1, (readQuoted [] (d :: r)).2)

theorem readQuoted_close (pend r : List Char) : readQuoted pend ('"' :: r) = ([], r) := by
  cases r <;> simp [readQuoted]

theorem readQuoted_blanks {w : List Char} (h : ∀ c ∈ w, isBlank c = true) (pend : List Char) {r} (hr : r ≠ []) :
    readQuoted pend (w ++ r) = readQuoted (pend ++ w) r := by
  induction w generalizing pend with
  | nil => simp
  | cons c w ih =>
    have hc := h c (by simp)
    have h1 : c ≠ '"' := by rintro rfl; exact absurd hc (by decide)
    obtain ⟨d, x, e⟩ := List.exists_cons_of_ne_nil (l := w ++ r) (by simp [hr])
    rw [List.cons_append, e, readQuoted, if_neg h1, if_neg (blank_in hc).1, if_pos hc, ← e,
      ih (fun c hc => h c (by simp [hc]))]
    simp

theorem readQuoted_char {c : Char} (hc : isQtext c = true) (pend : List Char) {r} (hr : r ≠ []) :
    readQuoted pend (c :: r) = (utf8 (pend ++ [c]) ++ (readQuoted [] r).1, (readQuoted [] r).2) := by
  have h1 : c ≠ '"' := by rintro rfl; exact absurd hc (by decide)
  have h2 : c ≠ '\\' := by rintro rfl; exact absurd hc (by decide)
  have h3 : isBlank c = false := by
    cases h : isBlank c with
    | false => rfl
    | true => rcases blank_iff.mp h with rfl | rfl | rfl | rfl <;> exact absurd hc (by decide)
  obtain ⟨d, x, rfl⟩ := List.exists_cons_of_ne_nil hr
  rw [readQuoted, if_neg h1, if_neg h2, if_neg (by simp [h3])]

theorem readQuoted_pair {c : Char} (pend r : List Char) :
    readQuoted pend ('\\' :: c :: r) =
      (utf8 pend ++ ((if isQuotable c then utf8 [c] else []) ++ (readQuoted [] r).1), (readQuoted [] r).2) := by
  rw [readQuoted, if_neg (by decide), if_pos rfl]

theorem obs_not_quotable {c : Char} (h : isObsQuoted c = true) : isQuotable c = false := by
  revert h
  refine char_ext (P := fun c => isObsQuoted c = true → isQuotable c = false) (by decide +kernel) (fun c hc h => ?_) c
  simp only [isObsQuoted, isCtl_ge hc, Bool.or_false, Bool.or_eq_true, beq_iff_eq] at h
  rcases h with (h | h) | h
  · omega
  · subst h; exact absurd hc (by decide)
  · subst h; exact absurd hc (by decide)

theorem readQuoted_text {x v} (h : QuotedText x v) : ∀ {f : List Char} (r), OptFws f →
    readQuoted [] (x ++ (f ++ '"' :: r)) = (v, r) := by
  induction h with
  | nil =>
    intro f r hf
    rw [List.nil_append, readQuoted_blanks (optFws_blank hf) [] (by simp), readQuoted_close]
  | char hg hc _ ih =>
    intro f r hf
    rw [List.append_assoc, readQuoted_blanks (optFws_blank hg) [] (by simp), List.cons_append,
      readQuoted_char hc _ (by simp), ih r hf]
    simp
  | pair hg hc _ ih =>
    intro f r hf
    rw [List.append_assoc, readQuoted_blanks (optFws_blank hg) [] (by simp), List.cons_append, List.cons_append,
      readQuoted_pair, ih r hf, if_pos hc]
    simp [utf8_append]
  | obsPair hg hc _ ih =>
    intro f r hf
    rw [List.append_assoc, readQuoted_blanks (optFws_blank hg) [] (by simp), List.cons_append, List.cons_append,
      readQuoted_pair, ih r hf, if_neg (by simp [obs_not_quotable hc])]
    simp

/-- A quoted string can be read in one way only. -/
theorem quotedString_unique {t t' r r' : List Char} {v v'} (h : QuotedString t v) (h' : QuotedString t' v')
    (e : t ++ r = t' ++ r') : t' = t ∧ r' = r ∧ v' = v := by
  obtain ⟨x, f, hx, hf, rfl⟩ := h
  obtain ⟨x', f', hx', hf', rfl⟩ := h'
  have e' : x ++ (f ++ '"' :: r) = x' ++ (f' ++ '"' :: r') := by simpa using e
  have h1 := readQuoted_text hx r hf
  have h2 := readQuoted_text hx' r' hf'
  rw [e', h2] at h1
  injection h1 with h1 h3
  subst h1; subst h3
  exact ⟨(List.append_cancel_right e).symm, rfl, rfl⟩

theorem greedy_quotedString {t v r} (h : QuotedString t v) : Greedy Gr.quotedString t r :=
  greedy_forced (by decide) (means_quotedString (Q := plainK) (env := nenv)) ⟨v, h, rfl⟩ (by
    rintro t' f' r' ⟨v', h', _⟩ e
    exact (quotedString_unique h h' e).2.1)

theorem quotedString_value {t v v'} (h : QuotedString t v) (h' : QuotedString t v') : v' = v :=
  (quotedString_unique (r := []) (r' := []) h h' rfl).2.2

theorem quotedString_head {t v} (h : QuotedString t v) : ∃ y, t = '"' :: y := by
  obtain ⟨x, f, _, _, rfl⟩ := h; exact ⟨_, rfl⟩

/-! ## Splitting at the first occurrence of a character -/

theorem split_at {d : Char} {x x' r r' : List Char} (h : d ∉ x) (h' : d ∉ x') (e : x ++ d :: r = x' ++ d :: r') :
    x = x' ∧ r = r' := by
  induction x generalizing x' with
  | nil =>
    cases x' with
    | nil => injection e with _ e; exact ⟨rfl, e⟩
    | cons c x' => injection e with e _; subst e; simp at h'
  | cons c x ih =>
    cases x' with
    | nil => injection e with e _; subst e; simp at h
    | cons c' x' =>
      injection e with e1 e2
      simp only [List.mem_cons, not_or] at h h'
      obtain ⟨rfl, rfl⟩ := ih h.2 h'.2 e2
      exact ⟨by rw [e1], rfl⟩

/-! ## Domain literals -/

theorem literalItems_no {x} (h : LiteralItems x) : ']' ∉ x := by
  induction h with
  | nil => simp
  | char hf hc _ ih =>
    rw [List.mem_append, List.mem_cons]
    rintro (h | h | h)
    · exact absurd (optFws_blank hf _ h) (by decide)
    · subst h; exact absurd hc (by decide)
    · exact ih h

theorem domainLiteral_unique {t t' r r' : List Char} (h : DomainLiteral t) (h' : DomainLiteral t')
    (e : t ++ r = t' ++ r') : r' = r := by
  obtain ⟨x, f, hx, hf, rfl⟩ := h
  obtain ⟨x', f', hx', hf', rfl⟩ := h'
  have hn : ∀ {x f : List Char}, LiteralItems x → OptFws f → ']' ∉ x ++ f := by
    intro x f hx hf
    rw [List.mem_append]
    rintro (h | h)
    · exact literalItems_no hx h
    · exact absurd (optFws_blank hf _ h) (by decide)
  have e' : (x ++ f) ++ ']' :: r = (x' ++ f') ++ ']' :: r' := by simpa using e
  exact (split_at (hn hx hf) (hn hx' hf') e').2.symm

theorem greedy_domainLiteral {t r} (h : DomainLiteral t) : Greedy Gr.domainLiteral t r :=
  greedy_forced (by decide) (means_domainLiteral (Q := plainK) (env := nenv)) ⟨_, ⟨h, rfl⟩, rfl⟩ (by
    rintro t' f' r' ⟨v', ⟨h', _⟩, _⟩ e
    exact domainLiteral_unique h h' e)

theorem domainLiteral_head {t} (h : DomainLiteral t) : ∃ y, t = '[' :: y := by
  obtain ⟨x, f, _, _, rfl⟩ := h; exact ⟨_, rfl⟩

/-! ## Encoded words -/

theorem encodedWord_unique {t t' r r' : List Char} (h : EncodedWord t) (h' : EncodedWord t')
    (e : t ++ r = t' ++ r') : t' = t ∧ r' = r := by
  obtain ⟨cs, en, tx, _, _, _, h1, h2, h3, rfl⟩ := h
  obtain ⟨cs', en', tx', _, _, _, h1', h2', h3', rfl⟩ := h'
  have tk : ∀ {x : List Char}, (∀ c ∈ x, isTokenChar c = true) → '?' ∉ x := fun h hm => absurd (h _ hm) (by decide)
  have ec : ∀ {x : List Char}, (∀ c ∈ x, isEncodedChar c = true) → '?' ∉ x := fun h hm => absurd (h _ hm) (by decide)
  have e' : cs ++ '?' :: (en ++ '?' :: (tx ++ '?' :: '=' :: r)) = cs' ++ '?' :: (en' ++ '?' :: (tx' ++ '?' :: '=' :: r')) := by
    simpa using e
  obtain ⟨rfl, e1⟩ := split_at (tk h1) (tk h1') e'
  obtain ⟨rfl, e2⟩ := split_at (tk h2) (tk h2') e1
  obtain ⟨rfl, e3⟩ := split_at (ec h3) (ec h3') e2
  injection e3 with _ e3
  exact ⟨rfl, e3.symm⟩

theorem greedy_encodedWord {t r} (h : EncodedWord t) : Greedy Gr.encodedWord t r :=
  greedy_forced (by decide) (means_encodedWord' (Q := plainK) (env := nenv)) ⟨_, ⟨h, rfl⟩, rfl⟩ (by
    rintro t' f' r' ⟨v', ⟨h', _⟩, _⟩ e
    exact (encodedWord_unique h h' e).2)

theorem encodedWord_head {t} (h : EncodedWord t) : ∃ y, t = '=' :: '?' :: y := by
  obtain ⟨cs, en, tx, _, _, _, _, _, _, rfl⟩ := h; exact ⟨_, rfl⟩

end Rfc5322
