import Verif.Spec.Skeleton
import Verif.Spec.Pieces
import Verif.Proofs.Source
import Verif.Proofs.Strip
import Verif.Proofs.Greedy
import Verif.Proofs.Quoted
import Verif.Proofs.ClearApi

/-!
# The items of an accepted list
-/

namespace Rfc5322

open Spec

variable {env : Env}

theorem remover_skeleton : Remover (fun d => skeletonFrom (match d with | 0 => .top | d + 1 => .comment d false)) where
  blank {c} r h d := by
    have := blank_in h
    cases d with
    | zero => simp [skeletonFrom, h]
    | succ d => simp only [skeletonFrom, if_neg this.1, if_neg this.2.1, if_neg this.2.2]
  open' d r := by cases d <;> simp [skeletonFrom, isBlank]
  close d r := by cases d <;> simp [skeletonFrom]
  pair d c r := by simp [skeletonFrom]
  char d r h1 h2 h3 := by simp only [skeletonFrom, if_neg h1, if_neg h2, if_neg h3]

theorem skeleton_cfws {x : List Char} (h : OptCfws x) (r) : skeleton (x ++ r) = skeleton r := remover_skeleton.cfws h 0 r

/-- Characters that stay. -/
def stays (c : Char) : Bool := !isBlank c && c != '(' && c != '"' && c != '['

theorem skeleton_stays {c : Char} (h : stays c = true) (r) : skeleton (c :: r) = c :: skeleton r := by
  simp only [stays, Bool.and_eq_true, Bool.not_eq_true', bne_iff_ne, ne_eq] at h
  obtain ⟨⟨⟨h1, h2⟩, h3⟩, h4⟩ := h
  simp [skeleton, skeletonFrom, h1, h2, h3, h4]

theorem skeletonFrom_quoted {x : List Char} {v} (h : QuotedText x v) : ∀ r, skeletonFrom (.quoted false) (x ++ r) = skeletonFrom (.quoted false) r := by
  have fws : ∀ {w : List Char}, OptFws w → ∀ r, skeletonFrom (.quoted false) (w ++ r) = skeletonFrom (.quoted false) r := by
    intro w hw r
    have := optFws_blank hw
    clear hw
    induction w with
    | nil => rfl
    | cons c w ih =>
      have hc := this c (by simp)
      have h1 : c ≠ '\\' := by rintro rfl; cases hc
      have h2 : c ≠ '"' := by rintro rfl; cases hc
      rw [List.cons_append, skeletonFrom, if_neg h1, if_neg h2]
      exact ih fun c hc => this c (by simp [hc])
  induction h with
  | nil => exact fun _ => rfl
  | @char f c x v hf hc _ ih =>
    intro r
    have h1 : c ≠ '\\' := by rintro rfl; exact absurd hc (by decide)
    have h2 : c ≠ '"' := by rintro rfl; exact absurd hc (by decide)
    rw [List.append_assoc, fws hf, List.cons_append, skeletonFrom, if_neg h1, if_neg h2, ih]
  | pair hf hc _ ih =>
    intro r
    rw [List.append_assoc, fws hf, List.cons_append, skeletonFrom, if_pos rfl, List.cons_append, skeletonFrom, ih]
  | obsPair hf hc _ ih =>
    intro r
    rw [List.append_assoc, fws hf, List.cons_append, skeletonFrom, if_pos rfl, List.cons_append, skeletonFrom, ih]

theorem skeleton_quoted {t v} (h : QuotedString t v) (r) : skeleton (t ++ r) = '"' :: skeleton r := by
  obtain ⟨x, f, hx, hf, rfl⟩ := h
  have e : '"' :: (x ++ (f ++ ['"'])) ++ r = '"' :: (x ++ (f ++ ('"' :: r))) := by simp
  rw [e, skeleton, skeletonFrom, if_neg (by decide), if_neg (by decide), if_pos rfl, skeletonFrom_quoted hx]
  have := optFws_blank hf
  congr 1
  clear hf e
  induction f with
  | nil => rw [List.nil_append, skeletonFrom, if_neg (by decide), if_pos rfl]; rfl
  | cons c w ih =>
    have hc := this c (by simp)
    have h1 : c ≠ '\\' := by rintro rfl; cases hc
    have h2 : c ≠ '"' := by rintro rfl; cases hc
    rw [List.cons_append, skeletonFrom, if_neg h1, if_neg h2]
    exact ih fun c hc => this c (by simp [hc])

theorem skeletonFrom_literal : ∀ {x : List Char}, ']' ∉ x → ∀ r, skeletonFrom .literal (x ++ r) = skeletonFrom .literal r
  | [], _, _ => rfl
  | c :: x, h, r => by
    simp only [List.mem_cons, not_or] at h
    rw [List.cons_append, skeletonFrom, if_neg (Ne.symm h.1)]
    exact skeletonFrom_literal h.2 r

theorem skeleton_literal {t} (h : DomainLiteral t) (r) : skeleton (t ++ r) = '[' :: skeleton r := by
  obtain ⟨x, f, hx, hf, rfl⟩ := h
  have hf' : ']' ∉ f := fun hm => absurd (optFws_blank hf _ hm) (by decide)
  have e : '[' :: (x ++ (f ++ [']'])) ++ r = '[' :: (x ++ (f ++ (']' :: r))) := by simp
  rw [e, skeleton, skeletonFrom, if_neg (by decide), if_neg (by decide), if_neg (by decide), if_pos rfl,
    skeletonFrom_literal (literalItems_no hx), skeletonFrom_literal hf', skeletonFrom, if_pos rfl]
  rfl

/-- `t` contributes a part without separators. -/
def Part (t s : List Char) : Prop := (∀ r, skeleton (t ++ r) = s ++ skeleton r) ∧ ∀ c ∈ s, isSep c = false

theorem Part.append {t u s v} (h1 : Part t s) (h2 : Part u v) : Part (t ++ u) (s ++ v) := by
  refine ⟨fun r => by rw [List.append_assoc, h1.1, h2.1, List.append_assoc], fun c hc => ?_⟩
  rcases List.mem_append.mp hc with hc | hc
  · exact h1.2 c hc
  · exact h2.2 c hc

theorem Part.nil : Part [] [] := ⟨fun _ => rfl, by simp⟩
theorem Part.cfws {t} (h : OptCfws t) : Part t [] := ⟨fun r => skeleton_cfws h r, by simp⟩
theorem Part.quoted {t v} (h : QuotedString t v) : Part t ['"'] := ⟨fun r => skeleton_quoted h r, by decide⟩
theorem Part.literal {t} (h : DomainLiteral t) : Part t ['['] := ⟨fun r => skeleton_literal h r, by decide⟩
theorem Part.char {c} (h : stays c = true) (h' : isSep c = false) : Part [c] [c] :=
  ⟨fun r => skeleton_stays h r, by simpa using h'⟩
theorem Part.cons {c t s} (h : stays c = true) (h' : isSep c = false) (ht : Part t s) : Part (c :: t) (c :: s) := (Part.char h h').append ht
theorem Part.around {a t b s} (ha : OptCfws a) (ht : Part t s) (hb : OptCfws b) : Part (a ++ (t ++ b)) s := by
  simpa using (Part.cfws ha).append (ht.append (.cfws hb))

theorem Part.wordChars : ∀ {t : List Char}, (∀ c ∈ t, wordChar c = true) → Part t t
  | [], _ => .nil
  | c :: t, h => by
    have hc := h c (by simp)
    refine .cons ?_ ?_ (wordChars fun c hc => h c (by simp [hc]))
    · simp only [wordChar, Bool.or_eq_true, beq_iff_eq] at hc
      rcases hc with (hc | rfl) | rfl
      · have h1 := solid_iff.mp (atext_solid hc)
        have h2 : c ≠ '"' := by rintro rfl; exact absurd hc (by decide)
        have h3 : c ≠ '[' := by rintro rfl; exact absurd hc (by decide)
        simp [stays, h1, h2, h3]
      · rfl
      · rfl
    · have h1 : c ≠ ',' := by rintro rfl; exact absurd hc (by decide)
      have h2 : c ≠ ';' := by rintro rfl; exact absurd hc (by decide)
      simp [isSep, h1, h2]

theorem Part.atom {t} (h : Atom t) : Part t t := .wordChars fun c hc => by simp [wordChar, h.2 c hc]
theorem Part.dotAtom {t} (h : DotAtom t) : Part t t := .wordChars (dotAtom_wordChars h)

theorem _root_.Rfc5322.Spec.TameWords.mono {t u : List Char} (h : TameWords t) (hu : u <:+: t) : TameWords u := fun w hw hi => h w hw (hi.trans hu)
theorem _root_.Rfc5322.Spec.TameWords.left {t u : List Char} (h : TameWords (t ++ u)) : TameWords t := h.mono ⟨[], u, rfl⟩
theorem _root_.Rfc5322.Spec.TameWords.right {t u : List Char} (h : TameWords (t ++ u)) : TameWords u := h.mono ⟨t, [], by simp⟩
theorem _root_.Rfc5322.Spec.TameWords.tail {c : Char} {u : List Char} (h : TameWords (c :: u)) : TameWords u := TameWords.right (t := [c]) h

/-- A text without `=?` has no encoded words at all. -/
theorem tameWords_of_noMark {t : List Char} (h : ¬ c!"=?" <:+: t) : TameWords t := fun w hw hi => by
  obtain ⟨cs, en, tx, _, _, _, _, _, _, rfl⟩ := hw
  exact absurd (List.IsInfix.trans ⟨[], _, rfl⟩ hi) h

/-- The text up to its `n`-th question mark. -/
def upTo : Nat → List Char → List Char
  | 0, _ => []
  | _, [] => []
  | n + 1, c :: r => c :: (if c = '?' then upTo n r else upTo (n + 1) r)

theorem upTo_skip {n : Nat} : ∀ {x : List Char}, '?' ∉ x → ∀ r, upTo (n + 1) (x ++ r) = x ++ upTo (n + 1) r
  | [], _, _ => rfl
  | c :: x, h, r => by
    simp only [List.mem_cons, not_or] at h
    rw [List.cons_append, upTo, if_neg (Ne.symm h.1), upTo_skip h.2]
    rfl

/-- All the places where an encoded word might begin are looked at. -/
def tameCheck : List Char → Bool
  | [] => true
  | c :: r => (!(c == '=' && r.head? == some '?') || (upTo 4 (c :: r)).any isBlank || (upTo 4 (c :: r)).all fun c => !(c!",;(\"[").contains c) && tameCheck r

theorem tameWords_of_check : ∀ {t : List Char}, tameCheck t = true → TameWords t := by
  have key : ∀ {x w y : List Char}, EncodedWord w → tameCheck (x ++ (w ++ y)) = true → ∀ c ∈ w, c ∉ c!",;(\"[" := by
    intro x w y hw h
    induction x with
    | cons c x ih => rw [List.cons_append, tameCheck, Bool.and_eq_true] at h; exact ih h.2
    | nil =>
      have hv := encodedWord_visible hw
      obtain ⟨cs, en, tx, _, _, _, h1, h2, h3, rfl⟩ := hw
      have q1 : '?' ∉ cs := fun hm => absurd (h1 _ hm) (by decide)
      have q2 : '?' ∉ en := fun hm => absurd (h2 _ hm) (by decide)
      have q3 : '?' ∉ tx := fun hm => absurd (h3 _ hm) (by decide)
      have e : '=' :: '?' :: (cs ++ '?' :: (en ++ '?' :: (tx ++ ['?', '=']))) ++ y =
          '=' :: '?' :: (cs ++ '?' :: (en ++ '?' :: (tx ++ '?' :: '=' :: y))) := by simp
      rw [List.nil_append, e, tameCheck, Bool.and_eq_true] at h
      have h := h.1
      simp only [List.head?_cons, beq_self_eq_true, Bool.and_self, Bool.not_true, Bool.false_or, Bool.or_eq_true, List.any_eq_true, List.all_eq_true, upTo,
        if_neg (show '=' ≠ '?' by decide), if_true, upTo_skip q1, upTo_skip q2, upTo_skip q3] at h
      replace h := h.resolve_left (by
        rintro ⟨c, hc, hb⟩
        have := hv c (by
          simp only [List.mem_cons, List.mem_append, List.not_mem_nil, or_false] at hc ⊢
          rcases hc with hc | hc | hc | hc | hc | hc | hc | hc <;> simp [hc])
        simp only [isBlank, Bool.or_eq_true, beq_iff_eq] at hb
        rcases hb with ((rfl | rfl) | rfl) | rfl <;> exact absurd this (by decide))
      intro c hc
      have := h c
      simp only [List.mem_cons, List.mem_append, List.not_mem_nil, or_false] at hc
      rcases hc with hc | hc | hc | hc | hc | hc | hc | hc | hc <;> first
        | (subst hc; decide)
        | (have := h c (by simp [hc]); simpa using this)
  rintro t h w hw ⟨x, y, rfl⟩
  rw [List.append_assoc] at h
  exact key hw h

theorem Part.chars : ∀ {t : List Char}, (∀ c ∈ t, stays c = true ∧ isSep c = false) → Part t t
  | [], _ => .nil
  | c :: t, h => .cons (h c (by simp)).1 (h c (by simp)).2 (chars fun c hc => h c (by simp [hc]))

theorem encodedWord_part {t} (h : EncodedWord t) (hn : TameWords t) : Part t t := by
  refine .chars fun c hc => ?_
  have h1 := hn t h List.infix_rfl c hc
  have h2 : isBlank c = false := by
    have := encodedWord_visible h c hc
    cases hb : isBlank c with
    | false => rfl
    | true =>
      simp only [isBlank, Bool.or_eq_true, beq_iff_eq] at hb
      rcases hb with ((rfl | rfl) | rfl) | rfl <;> exact absurd this (by decide)
  simp only [List.mem_cons, List.not_mem_nil, or_false, not_or] at h1
  refine ⟨?_, by simp [isSep, h1]⟩
  simp [stays, h1, h2]

theorem encodedWord_ne {t} (h : EncodedWord t) : t ≠ [] := by
  obtain ⟨cs, en, tx, _, _, _, _, _, _, rfl⟩ := h
  simp

theorem encodedWords_part {t v} (h : EncodedWords env t v) (hn : TameWords t) : ∃ s, Part t s ∧ s ≠ [] := by
  induction h with
  | one ha ht hb => exact ⟨_, .around ha (encodedWord_part ht hn.right.left) hb, encodedWord_ne ht⟩
  | cons ha ht hb _ ih =>
    obtain ⟨s, hs, _⟩ := ih hn.right.right.right
    exact ⟨_, (Part.cfws ha).append ((encodedWord_part ht hn.right.left).append ((Part.cfws hb).append hs)), by simp [encodedWord_ne ht]⟩

theorem word_part {t v} (h : Word env t v) (hn : TameWords t) : ∃ s, Part t s ∧ s ≠ [] := by
  cases h with
  | encoded h => exact encodedWords_part h hn
  | atom ha ht hb => exact ⟨_, .around ha (.atom ht) hb, ht.1⟩
  | quoted ha ht hb => exact ⟨_, .around ha (.quoted ht) hb, by simp⟩

theorem nameTail_part {t ps} (h : NameTail env t ps) (hn : TameWords t) : ∃ s, Part t s := by
  induction h with
  | nil => exact ⟨_, .nil⟩
  | word hw _ ih =>
    obtain ⟨s, hs, _⟩ := word_part hw hn.left
    obtain ⟨s', hs'⟩ := ih hn.right
    exact ⟨_, hs.append hs'⟩
  | dot _ ih => obtain ⟨s', hs'⟩ := ih hn.tail; exact ⟨_, .cons rfl rfl hs'⟩
  | «at» _ ih => obtain ⟨s', hs'⟩ := ih hn.tail; exact ⟨_, .cons rfl rfl hs'⟩
  | cfws hc _ ih => obtain ⟨s', hs'⟩ := ih hn.right; exact ⟨_, (Part.cfws hc.1).append hs'⟩

theorem displayName_part {t v} (h : DisplayName env t v) (hn : TameWords t) : ∃ s, Part t s := by
  obtain ⟨w, u, r, ps, hw, hr, rfl, _⟩ := h
  obtain ⟨s, hs, _⟩ := word_part hw hn.left
  obtain ⟨s', hs'⟩ := nameTail_part hr hn.right
  exact ⟨_, hs.append hs'⟩

theorem dottedWords_part {t v} (h : DottedWords env t v) (hn : TameWords t) : ∃ s, Part t s := by
  induction h with
  | one hw => obtain ⟨s, hs, _⟩ := word_part hw hn; exact ⟨s, hs⟩
  | cons hw _ ih =>
    obtain ⟨s, hs, _⟩ := word_part hw hn.left
    obtain ⟨s', hs'⟩ := ih hn.right.tail
    exact ⟨_, hs.append (.cons rfl rfl hs')⟩

theorem localPart_part {t v} (h : LocalPart env t v) (hn : TameWords t) : ∃ s, Part t s := by
  cases h with
  | dotAtom ha ht hb => exact ⟨_, .around ha (.dotAtom ht) hb⟩
  | quoted ha ht hb => exact ⟨_, .around ha (.quoted ht) hb⟩
  | obs h => exact dottedWords_part h hn

theorem domain_part {t v} (h : Domain t v) : ∃ s, Part t s := by
  cases h with
  | dotAtom ha ht hb => exact ⟨_, .around ha (.dotAtom ht) hb⟩
  | literal ha ht hb => exact ⟨_, .around ha (.literal ht) hb⟩

theorem skeletonFrom_cons (m : Mode) (c : Char) : ∃ s, (∀ r, skeletonFrom m (c :: r) = s ++ skeletonFrom (m.next c) r) ∧
    (s = [] ∨ s = [c]) ∧ (m.isTop = true → isSep c = true → s = [c]) ∧ (isSep c = true → s = [c] → m.isTop = true) := by
  match m with
  | .top =>
    by_cases h1 : isBlank c = true
    · have h := blank_in h1
      have h2 : c ≠ '"' := by rintro rfl; cases h1
      have h3 : c ≠ '[' := by rintro rfl; cases h1
      have h4 : isSep c ≠ true := by
        intro hs
        simp only [isSep, Bool.or_eq_true, beq_iff_eq] at hs
        rcases hs with rfl | rfl <;> cases h1
      exact ⟨[], fun r => by simp [skeletonFrom, Mode.next, h1, h2, h3, h.2.1], .inl rfl, fun _ h => absurd h h4, fun h => absurd h h4⟩
    · by_cases h2 : c = '('
      · subst h2; exact ⟨[], fun r => by simp [skeletonFrom, Mode.next, h1], .inl rfl, by decide, by decide⟩
      · refine ⟨[c], fun r => ?_, .inr rfl, fun _ _ => rfl, fun _ _ => rfl⟩
        by_cases h3 : c = '"'
        · subst h3; simp [skeletonFrom, Mode.next, h1]
        · by_cases h4 : c = '['
          · subst h4; simp [skeletonFrom, Mode.next, h1]
          · simp [skeletonFrom, Mode.next, h1, h2, h3, h4]
  | .comment d true => exact ⟨[], fun r => by simp [skeletonFrom, Mode.next], .inl rfl, (fun h => by cases h), (fun _ h => by cases h)⟩
  | .comment d false =>
    refine ⟨[], fun r => ?_, .inl rfl, (fun h => by cases h), (fun _ h => by cases h)⟩
    simp only [skeletonFrom, Mode.next, List.nil_append]
    split
    · rfl
    · split
      · rfl
      · split
        · cases d <;> rfl
        · rfl
  | .quoted true => exact ⟨[], fun r => by simp [skeletonFrom, Mode.next], .inl rfl, (fun h => by cases h), (fun _ h => by cases h)⟩
  | .quoted false =>
    refine ⟨[], fun r => ?_, .inl rfl, (fun h => by cases h), (fun _ h => by cases h)⟩
    simp only [skeletonFrom, Mode.next, List.nil_append]
    split
    · rfl
    · split <;> rfl
  | .literal =>
    refine ⟨[], fun r => ?_, .inl rfl, (fun h => by cases h), (fun _ h => by cases h)⟩
    simp only [skeletonFrom, Mode.next, List.nil_append]
    split <;> rfl

theorem skeletonFrom_append : ∀ (t : List Char) (m : Mode) (r), skeletonFrom m (t ++ r) = skeletonFrom m t ++ skeletonFrom (m.after t) r
  | [], m, r => by simp [skeletonFrom, Mode.after]
  | c :: t, m, r => by
    obtain ⟨s, h, _⟩ := skeletonFrom_cons m c
    rw [List.cons_append, h, h, skeletonFrom_append t, Mode.after, List.append_assoc]

/-- Every character of the skeleton is one of the text. -/
theorem skeletonFrom_mem {c : Char} : ∀ (t : List Char) (m : Mode), c ∈ skeletonFrom m t → c ∈ t
  | [], m, h => by simp [skeletonFrom] at h
  | d :: t, m, h => by
    obtain ⟨s, h1, h2, _⟩ := skeletonFrom_cons m d
    rw [h1, List.mem_append] at h
    rcases h with h | h
    · rcases h2 with rfl | rfl
      · cases h
      · exact List.mem_cons.mpr (.inl (List.mem_singleton.mp h))
    · exact List.mem_cons_of_mem _ (skeletonFrom_mem t _ h)

theorem hiddenAfterQuotes_of : ∀ {t : List Char}, ':' ∉ t → ∀ b, hiddenAfterQuotes b t = true
  | [], _, _ => rfl
  | c :: t, h, b => by
    simp only [List.mem_cons, not_or] at h
    have : (skeleton t).contains ':' = false := by
      rw [List.contains_eq_mem]; exact decide_eq_false fun hm => h.2 (skeletonFrom_mem _ _ hm)
    simp only [hiddenAfterQuotes, this, hiddenAfterQuotes_of h.2]
    simp

theorem hiddenAfterQuotes_left : ∀ {t u : List Char} {b}, hiddenAfterQuotes b (t ++ u) = true → hiddenAfterQuotes b t = true
  | [], _, _, _ => rfl
  | c :: t, u, b, h => by
    simp only [List.cons_append, hiddenAfterQuotes, Bool.and_eq_true, Bool.or_eq_true] at h ⊢
    refine ⟨h.1.imp_right fun h' => ?_, hiddenAfterQuotes_left h.2⟩
    rw [skeleton, skeletonFrom_append] at h'
    simp only [Bool.not_eq_true', List.contains_eq_mem, decide_eq_false_iff_not, List.mem_append, not_or] at h' ⊢
    exact h'.1

theorem hiddenAfterQuotes_right : ∀ {t u : List Char} {b}, hiddenAfterQuotes b (t ++ u) = true → ∃ b', hiddenAfterQuotes b' u = true
  | [], _, b, h => ⟨b, h⟩
  | c :: t, u, b, h => by
    simp only [List.cons_append, hiddenAfterQuotes, Bool.and_eq_true] at h
    exact hiddenAfterQuotes_right h.2

theorem hiddenColons_of {t : List Char} (h : ':' ∉ t) : HiddenColons t :=
  ⟨fun hm => h (skeletonFrom_mem _ _ hm), hiddenAfterQuotes_of h _⟩

/-- Hidden colons and no punctuation in encoded words. -/
def Tame (t : List Char) : Prop := TameWords t ∧ HiddenColons t

/-- What may follow an item. -/
def Rest (r : List Char) : Prop := ∀ c x, r = c :: x → isSep c = true

theorem Rest.nil : Rest [] := by intro c x h; cases h
theorem Rest.cons {c r} (h : isSep c = true) : Rest (c :: r) := by intro d x e; cases e; exact h

theorem sep_cases {c : Char} (h : isSep c = true) : c = ',' ∨ c = ';' := by
  simpa [isSep, Bool.or_eq_true, beq_iff_eq] using h

theorem skeleton_sep {c : Char} (h : isSep c = true) (r) : skeleton (c :: r) = c :: skeleton r := by
  refine skeleton_stays ?_ r
  rcases sep_cases h with rfl | rfl <;> rfl

/-- The text after a separator. -/
theorem Tame.tail {c : Char} {u : List Char} (hc : isSep c = true) (h : Tame (c :: u)) : Tame u := by
  obtain ⟨h1, h2, h3⟩ := h
  refine ⟨h1.tail, fun hm => h2 (by rw [skeleton_sep hc]; simp [hm]), ?_⟩
  rw [hiddenAfterQuotes, hc, Bool.and_eq_true] at h3
  exact h3.2

/-- `t` contributes `s`, whatever follows. -/
def Aligned (t s : List Char) : Prop := ∀ r, skeleton (t ++ r) = s ++ skeleton r

theorem Aligned.skeleton {t s} (h : Aligned t s) : skeleton t = s := by simpa [Spec.skeleton, skeletonFrom] using h []

theorem Tame.left {t u : List Char} (h : Tame (t ++ u)) : Tame t := by
  obtain ⟨h1, h2, h3⟩ := h
  rw [skeleton, skeletonFrom_append] at h2
  exact ⟨h1.left, fun hm => h2 (List.mem_append_left _ hm), hiddenAfterQuotes_left h3⟩

/-- The rest after an item. -/
theorem Tame.right {t s u : List Char} (ht : Aligned t s) (hu : Rest u) (h : Tame (t ++ u)) : Tame u := by
  obtain ⟨h1, h2, h3⟩ := h
  rw [ht] at h2
  refine ⟨h1.right, fun hm => h2 (by simp [hm]), ?_⟩
  obtain ⟨b, hb⟩ := hiddenAfterQuotes_right h3
  cases u with
  | nil => rfl
  | cons c u =>
    have : c ≠ '"' := by rintro rfl; exact absurd (hu _ _ rfl) (by decide)
    simpa [hiddenAfterQuotes, this] using hb

theorem commas_aligned {h : List Char} (hh : Commas h) : ∃ s, Aligned h s := by
  induction hh with
  | nil => exact ⟨[], fun _ => rfl⟩
  | @cons t r ht _ ih =>
    obtain ⟨s, hs⟩ := ih
    exact ⟨',' :: s, fun x => by rw [List.append_assoc, skeleton_cfws ht, List.cons_append, skeleton_sep rfl, hs]; rfl⟩

/-- The text after empty items. -/
theorem Tame.commas {h u : List Char} (hh : Commas h) (hn : Tame (h ++ u)) : Tame u := by
  induction hh with
  | nil => exact hn
  | @cons t r ht _ ih =>
    rw [List.append_assoc] at hn
    exact ih (Tame.tail rfl (Tame.right (s := []) (skeleton_cfws ht) (.cons rfl) hn))

theorem Aligned.append {t u s v} (h1 : Aligned t s) (h2 : Aligned u v) : Aligned (t ++ u) (s ++ v) := fun r => by
  rw [List.append_assoc, h1, h2, List.append_assoc]

theorem Aligned.cons {c t s} (h : stays c = true) (h2 : Aligned t s) : Aligned (c :: t) (c :: s) := fun r => by
  rw [List.cons_append, skeleton_stays h, h2]; rfl

theorem routeHead_aligned {t} (h : RouteHead t) : ∃ s, Aligned t s := by
  induction h with
  | nil => exact ⟨[], fun _ => rfl⟩
  | comma _ ih => obtain ⟨s, hs⟩ := ih; exact ⟨_, hs.cons rfl⟩
  | cfws hc _ ih => obtain ⟨s, hs⟩ := ih; exact ⟨_, Aligned.append (s := []) (skeleton_cfws hc.1) hs⟩

theorem routeTail_aligned {t} (h : RouteTail t) : ∃ s, Aligned t s := by
  induction h with
  | nil => exact ⟨[], fun _ => rfl⟩
  | empty hc _ ih => obtain ⟨s, hs⟩ := ih; exact ⟨_, (Aligned.append (s := []) (skeleton_cfws hc) hs).cons rfl⟩
  | hop hc hd _ ih =>
    obtain ⟨s, hs⟩ := ih
    obtain ⟨s', hs'⟩ := domain_part hd
    exact ⟨_, (Aligned.append (s := []) (skeleton_cfws hc) ((Aligned.append hs'.1 hs).cons rfl)).cons rfl⟩

theorem addrSpec_part {t v r} (h : AddrSpec env t v) (hn : TameWords t) (hc : ':' ∉ skeleton (t ++ r)) : ∃ s, Part t s ∧ s ≠ [] := by
  cases h with
  | plain hl hd =>
    obtain ⟨s, hs⟩ := localPart_part hl hn.left
    obtain ⟨s', hs'⟩ := domain_part hd
    exact ⟨_, hs.append (.cons rfl rfl hs'), by simp⟩
  | port hl hd =>
    obtain ⟨s, hs⟩ := localPart_part hl hn.left
    obtain ⟨s', hs'⟩ := domain_part hd
    refine absurd ?_ hc
    rw [List.append_assoc, hs.1, List.cons_append, skeleton_stays rfl, List.append_assoc, hs'.1, List.cons_append, skeleton_stays rfl]
    simp

theorem angleAddr_part {t v r} (h : AngleAddr env t v) (hn : TameWords t) (hc : ':' ∉ skeleton (t ++ r)) : ∃ s, Part t s ∧ s ≠ [] := by
  cases h with
  | null ha hb =>
    refine ⟨_, (Part.cfws ha).append (.cons rfl rfl (.cons rfl rfl (.cfws hb))), by simp⟩
  | @addr a t _ b ha ht hb =>
    obtain ⟨s, hs, _⟩ := addrSpec_part (r := '>' :: (b ++ r)) ht hn.right.tail.left (by
      have e : a ++ '<' :: (t ++ '>' :: b) ++ r = a ++ ('<' :: (t ++ '>' :: (b ++ r))) := by simp
      rw [e, skeleton_cfws ha, skeleton_stays rfl] at hc
      exact fun hm => hc (by simp [hm]))
    exact ⟨_, (Part.cfws ha).append (.cons rfl rfl (hs.append (.cons rfl rfl (.cfws hb)))), by simp⟩
  | @routed a _ t _ b ha hq ht hb =>
    obtain ⟨h, d, v, q, h1, h2, h3, rfl⟩ := hq
    obtain ⟨s, hs⟩ := routeHead_aligned h1
    obtain ⟨s', hs'⟩ := domain_part h2
    obtain ⟨s'', hs''⟩ := routeTail_aligned h3
    refine absurd ?_ hc
    have e : a ++ '<' :: (h ++ '@' :: (d ++ (q ++ [':'])) ++ (t ++ '>' :: b)) ++ r = a ++ '<' :: (h ++ '@' :: (d ++ (q ++ (':' :: (t ++ '>' :: b ++ r))))) := by simp
    rw [e, skeleton_cfws ha, skeleton_stays rfl, hs, skeleton_stays rfl, hs'.1, hs'', skeleton_stays rfl]
    simp

theorem mailbox_part {t a r} (h : Mailbox env t a) (hn : TameWords t) (hc : ':' ∉ skeleton (t ++ r)) : ∃ s, Part t s ∧ s ≠ [] := by
  cases h with
  | @named n _ a _ h1 h2 =>
    obtain ⟨s, hs⟩ := displayName_part h1 hn.left
    rw [List.append_assoc, hs.1] at hc
    obtain ⟨s', hs', hne⟩ := angleAddr_part (r := r) h2 hn.right fun hm => hc (by simp [hm])
    exact ⟨_, hs.append hs', by simp [hne]⟩
  | angle h => exact angleAddr_part h hn hc
  | bare h => exact addrSpec_part h hn hc

/-- In a tame text every item is a mailbox. -/
theorem address_part' {t as r} (h : Address env t as) (hn : Tame (t ++ r)) : (∃ s, Part t s ∧ s ≠ []) ∧ as.length = 1 := by
  obtain ⟨h1, h2, h3⟩ := hn
  cases h with
  | mailbox h => exact ⟨mailbox_part h h1.left h2, rfl⟩
  | group h =>
    exfalso
    obtain ⟨q, n, nv, b, q', e, c, hq, hn, _, _, _, _, rfl⟩ := h
    rcases hq with rfl | rfl
    · obtain ⟨s, hs⟩ := displayName_part hn h1.left.right.left
      refine h2 ?_
      rw [List.nil_append, List.append_assoc, hs.1, List.cons_append, skeleton_stays rfl]
      simp
    · obtain ⟨s, hs⟩ := displayName_part hn h1.left.right.left
      have e : ['"'] ++ (n ++ ':' :: (b ++ (q' ++ (e ++ c)))) ++ r = '"' :: (n ++ ':' :: (b ++ (q' ++ (e ++ c)) ++ r)) := by simp
      rw [e, hiddenAfterQuotes, Bool.and_eq_true, hs.1, skeleton_stays rfl] at h3
      simp at h3

theorem address_part {t as} (h : Address env t as) (hn : Tame t) : (∃ s, Part t s ∧ s ≠ []) ∧ as.length = 1 :=
  address_part' (r := []) h (by simpa using hn)

/-- An item and what follows. -/
theorem Tame.split {t as r} (h : Address env t as) (hr : Rest r) (hn : Tame (t ++ r)) : Tame t ∧ Tame r := by
  obtain ⟨⟨s, hs, _⟩, _⟩ := address_part' h hn
  exact ⟨Tame.left hn, Tame.right hs.1 hr hn⟩

theorem SepTail.rest {r bs} (h : SepTail env r bs) : Rest r := by
  cases h with
  | nil => exact .nil
  | item hs => exact .cons (by rcases hs with rfl | rfl <;> rfl)

theorem CommaTail.rest {Item : List Char → List Addr → Prop} {r bs} (h : CommaTail Item r bs) : Rest r := by
  cases h with
  | nil => exact .nil
  | item => exact .cons rfl
  | empty => exact .cons rfl

/-! ## Splitting -/

theorem splitSeps_ne_nil : ∀ s, splitSeps s ≠ []
  | [] => by simp [splitSeps]
  | c :: r => by
    rw [splitSeps]
    split
    · simp
    · split <;> simp

theorem splitSeps_sep : ∀ {s : List Char} {c : Char} {x}, (∀ c ∈ s, isSep c = false) → isSep c = true → splitSeps (s ++ c :: x) = s :: splitSeps x
  | [], c, x, _, hc => by simp [splitSeps, hc]
  | d :: s, c, x, h, hc => by
    rw [List.cons_append, splitSeps, if_neg (by simp [h d]), splitSeps_sep (fun c hc => h c (by simp [hc])) hc]

theorem splitSeps_none : ∀ {s : List Char}, (∀ c ∈ s, isSep c = false) → splitSeps s = [s]
  | [], _ => rfl
  | d :: s, h => by rw [splitSeps, if_neg (by simp [h d]), splitSeps_none fun c hc => h c (by simp [hc])]

theorem Part.toEnd {t s} (h : Part t s) : skeleton t = s := by
  have := h.1 []
  simpa [skeleton, skeletonFrom] using this

/-- What a list may look like behind an item. -/
theorem sepTail_items {r bs} (h : SepTail env r bs) (hn : Tame r) : ∃ ss : List (List Char), (∀ s ∈ ss, s ≠ []) ∧ ss.length = bs.length ∧
    ∀ s, (∀ c ∈ s, isSep c = false) → splitSeps (s ++ skeleton r) = s :: ss := by
  induction h with
  | nil => exact ⟨[], by simp, rfl, fun s hs => by simpa [skeleton, skeletonFrom] using splitSeps_none hs⟩
  | @item sep t as r bs hsep hi hr ih =>
    have hsep' : isSep sep = true := by rcases hsep with rfl | rfl <;> rfl
    obtain ⟨k1, k2⟩ := Tame.split hi (SepTail.rest hr) (hn.tail hsep')
    obtain ⟨ss, h1, h2, h3⟩ := ih k2
    obtain ⟨⟨u, hu, hne⟩, hl⟩ := address_part hi k1
    refine ⟨u :: ss, ?_, by simp [hl, h2]; omega, fun s hs => ?_⟩
    · intro s hs
      rcases List.mem_cons.mp hs with rfl | hs
      · exact hne
      · exact h1 s hs
    · rw [skeleton_sep hsep', splitSeps_sep hs hsep', hu.1, h3 u hu.2]

theorem strict_items {t as} (h : StrictList env t as) (hn : Tame t) : (∀ s ∈ items t, s ≠ []) ∧ (items t).length = as.length := by
  obtain ⟨u, cs, r, bs, hu, hr, rfl, rfl⟩ := h
  obtain ⟨k1, k2⟩ := Tame.split hu (SepTail.rest hr) hn
  obtain ⟨⟨s, hs, hne⟩, hl⟩ := address_part hu k1
  obtain ⟨ss, h1, h2, h3⟩ := sepTail_items hr k2
  have e : items (u ++ r) = s :: ss := by rw [items, hs.1, h3 s hs.2]
  rw [e]
  refine ⟨?_, by simp [hl, h2]; omega⟩
  intro x hx
  rcases List.mem_cons.mp hx with rfl | hx
  · exact hne
  · exact h1 x hx

/-- Non-empty items. -/
def full (ss : List (List Char)) : List (List Char) := ss.filter fun s => !s.isEmpty

theorem full_cons {s ss} (h : s ≠ []) : full (s :: ss) = s :: full ss := by
  unfold full
  rw [List.filter_cons, if_pos (by cases s <;> simp_all)]

theorem full_nil {ss} : full ([] :: ss) = full ss := by unfold full; rw [List.filter_cons, if_neg (by simp)]

theorem full_all {ss : List (List Char)} (h : ∀ s ∈ ss, s ≠ []) : full ss = ss := by
  unfold full
  refine List.filter_eq_self.mpr fun s hs => ?_
  have := h s hs
  cases s <;> simp_all

theorem commaTail_items {Item : List Char → List Addr → Prop} (hI : ∀ {t as}, Item t as → Tame t → (∃ s, Part t s ∧ s ≠ []) ∧ as.length = 1)
    {r bs} (h : CommaTail Item r bs) (hn : Tame r) : ∃ ss : List (List Char), (full ss).length = bs.length ∧ ';' ∉ skeleton r ∧
    ∀ s, (∀ c ∈ s, isSep c = false) → splitSeps (s ++ skeleton r) = s :: ss := by
  have semi : ∀ {s : List Char}, (∀ c ∈ s, isSep c = false) → ';' ∉ s := fun h hm => absurd (h _ hm) (by decide)
  induction h with
  | nil => exact ⟨[], rfl, by simp [skeleton, skeletonFrom], fun s hs => by simpa [skeleton, skeletonFrom] using splitSeps_none hs⟩
  | @item t as r bs hi hr ih =>
    have hn' := hn.tail rfl
    obtain ⟨⟨u, hu, hne⟩, hl⟩ := hI hi hn'.left
    obtain ⟨ss, h1, h2, h3⟩ := ih (hn'.right hu.1 (CommaTail.rest hr))
    refine ⟨u :: ss, by rw [full_cons hne]; simp [hl, h1]; omega, ?_, fun s hs => ?_⟩
    · rw [skeleton_sep rfl, hu.1]
      simp [semi hu.2, h2]
    · rw [skeleton_sep rfl, splitSeps_sep hs rfl, hu.1, h3 u hu.2]
  | @empty t r bs ht hr ih =>
    obtain ⟨ss, h1, h2, h3⟩ := ih ((hn.tail rfl).right (s := []) (skeleton_cfws ht) (CommaTail.rest hr))
    refine ⟨[] :: ss, by rw [full_nil]; exact h1, ?_, fun s hs => ?_⟩
    · rw [skeleton_sep rfl, skeleton_cfws ht]
      simp [h2]
    · rw [skeleton_sep rfl, splitSeps_sep hs rfl, skeleton_cfws ht]
      have := h3 [] (by simp)
      rw [List.nil_append] at this
      rw [this]

theorem commas_items {h : List Char} (hh : Commas h) : ∃ n, ∀ r, items (h ++ r) = List.replicate n [] ++ items r ∧ (n = 0 → h = []) ∧
    (';' ∈ skeleton (h ++ r) → ';' ∈ skeleton r) := by
  induction hh with
  | nil => exact ⟨0, fun r => ⟨rfl, fun _ => rfl, id⟩⟩
  | @cons t r ht _ ih =>
    obtain ⟨n, hn⟩ := ih
    refine ⟨n + 1, fun x => ⟨?_, by simp, ?_⟩⟩
    · rw [items, List.append_assoc, skeleton_cfws ht, List.cons_append, skeleton_sep rfl]
      have := splitSeps_sep (s := []) (c := ',') (x := skeleton (r ++ x)) (by simp) rfl
      rw [List.nil_append] at this
      rw [this, ← items, (hn x).1]
      rfl
    · rw [List.append_assoc, skeleton_cfws ht, List.cons_append, skeleton_sep rfl]
      simpa using (hn x).2.2

theorem full_replicate (n : Nat) (ss) : full (List.replicate n [] ++ ss) = full ss := by
  induction n with
  | zero => rfl
  | succ n ih => rw [List.replicate_succ, List.cons_append, full_nil, ih]

theorem obs_items {t as} (h : ObsList env t as) (hn : Tame t) : ';' ∉ skeleton t ∧ (full (items t)).length = as.length := by
  obtain ⟨h, u, cs, r, bs, hh, hu, hr, rfl, rfl⟩ := h
  obtain ⟨k1, k2⟩ := Tame.split hu (CommaTail.rest hr) (hn.commas hh)
  obtain ⟨⟨s, hs, hne⟩, hl⟩ := address_part hu k1
  obtain ⟨ss, h1, h2, h3⟩ := commaTail_items address_part hr k2
  obtain ⟨n, h4⟩ := commas_items hh
  obtain ⟨h5, _, h6⟩ := h4 (u ++ r)
  have e : items (u ++ r) = s :: ss := by rw [items, hs.1, h3 s hs.2]
  constructor
  · intro hm
    have := h6 hm
    rw [hs.1, List.mem_append] at this
    rcases this with h | h
    · exact absurd (hs.2 _ h) (by decide)
    · exact h2 h
  · rw [h5, e, full_replicate, full_cons hne]
    simp [hl, h1]; omega

/-- The number of results is the number of non-empty items, and empty items are only possible without semicolons. -/
theorem addressList_items {t as} (h : AddressList env t as) (hn : Tame t) :
    (full (items t)).length = as.length ∧ ([] ∈ items t → ';' ∉ skeleton t) := by
  rcases addressList_iff.mp h with h | h
  · obtain ⟨h1, h2⟩ := strict_items h hn
    exact ⟨by rw [full_all h1, h2], fun h => absurd rfl (h1 _ h)⟩
  · obtain ⟨h1, h2⟩ := obs_items h hn
    exact ⟨h2, fun _ => h1⟩

end Rfc5322
