import Verif.Proofs.RecStatic

/-!
# Functions that recover from errors terminate

The measure of a state is made up of the number of remaining tokens and the number of states in which there has not been an error since one of them was consumed.
-/

namespace Rfc5322.Recovery

open Atn Gen AllStar

/-! ## The measure -/

section
variable (K : Nat)

/-- The number of states in which there may be an error before a token is skipped. -/
def budget (S : St) : Nat := if S.last = some S.rest.length then ((List.range K).filter fun st => !S.seen.contains st).length else K + 1

/-- The measure; 0 at the end of the input. -/
def measure (S : St) : Nat := if S.rest = [] then 0 else S.rest.length * (K + 2) + budget K S

/-- The measure has become smaller, or the same tokens remain. -/
def Steps (S S' : St) : Prop := measure K S' < measure K S ∨ measure K S' = measure K S ∧ S'.rest = S.rest

variable {K}

theorem budget_le (S : St) : budget K S ≤ K + 1 := by
  rw [budget]
  split
  · exact Nat.le_succ_of_le (Nat.le_trans (List.length_filter_le _ _) (Nat.le_of_eq List.length_range))
  · exact Nat.le_refl _

theorem measure_nil {S : St} (h : S.rest = []) : measure K S = 0 := if_pos h

theorem measure_pos {S : St} (h : S.rest ≠ []) : K + 2 ≤ measure K S := by
  have : 1 ≤ S.rest.length := List.length_pos_iff.mpr h
  rw [measure, if_neg h]
  have := Nat.mul_le_mul_right (K + 2) this
  omega

theorem measure_lt {S S' : St} (h : S'.rest.length < S.rest.length) : measure K S' < measure K S := by
  have h0 : S.rest ≠ [] := fun e => by rw [e] at h; exact absurd h (Nat.not_lt_zero _)
  by_cases h1 : S'.rest = []
  · rw [measure_nil h1]
    have := measure_pos (K := K) h0
    omega
  · rw [measure, if_neg h1, measure, if_neg h0]
    have h2 := budget_le (K := K) S'
    have h3 := Nat.mul_le_mul_right (K + 2) (Nat.succ_le_of_lt h)
    rw [Nat.succ_mul] at h3
    omega

theorem measure_le (S : St) : measure K S ≤ (S.rest.length + 1) * (K + 2) := by
  rw [measure]
  split
  · exact Nat.zero_le _
  · have := budget_le (K := K) S
    rw [Nat.succ_mul]
    omega

theorem Steps.refl (S : St) : Steps K S S := .inr ⟨rfl, rfl⟩

theorem Steps.le {S S' : St} (h : Steps K S S') : measure K S' ≤ measure K S := by
  rcases h with h | h
  · exact Nat.le_of_lt h
  · exact Nat.le_of_eq h.1

theorem Steps.trans {S S' S'' : St} (h : Steps K S S') (h' : Steps K S' S'') : Steps K S S'' := by
  rcases h with h | ⟨h1, h2⟩
  · exact .inl (Nat.lt_of_le_of_lt h'.le h)
  · rcases h' with h' | ⟨h3, h4⟩
    · exact .inl (h1 ▸ h')
    · exact .inr ⟨h3.trans h1, h4.trans h2⟩

theorem steps_of_length {S S' : St} (h : S'.rest.length < S.rest.length) : Steps K S S' := .inl (measure_lt h)

theorem steps_nil {S S' : St} (h : S.rest = []) (h' : S'.rest = []) : Steps K S S' := .inr ⟨by rw [measure_nil h, measure_nil h'], by rw [h, h']⟩

theorem report_rest (S : St) {k : Trouble} {ρ : List Nat} {q : Nat} : (S.report k ρ q).rest = S.rest := by rw [St.report]; split <;> rfl
theorem report_last (S : St) {k : Trouble} {ρ : List Nat} {q : Nat} : (S.report k ρ q).last = S.last := by rw [St.report]; split <;> rfl
theorem report_seen (S : St) {k : Trouble} {ρ : List Nat} {q : Nat} : (S.report k ρ q).seen = S.seen := by rw [St.report]; split <;> rfl

theorem report_measure (S : St) {k : Trouble} {ρ : List Nat} {q : Nat} : measure K (S.report k ρ q) = measure K S := by
  rw [measure, measure, budget, budget, report_rest, report_last, report_seen]

theorem report_steps (S : St) {k : Trouble} {ρ : List Nat} {q : Nat} : Steps K S (S.report k ρ q) := .inr ⟨report_measure S, report_rest S⟩

theorem skipUntil_suffix {keep : Option Char → Prop} : ∀ s, skipUntil keep s <:+ s
  | [] => List.suffix_rfl
  | c :: s => by
    rw [skipUntil]
    split
    · exact List.suffix_rfl
    · exact (skipUntil_suffix s).trans (List.suffix_cons c s)

theorem skip_steps (S : St) (keep : Option Char → Prop) : Steps K S (S.skip keep) := by
  have h := skipUntil_suffix (keep := keep) S.rest
  rcases Nat.lt_or_ge (skipUntil keep S.rest).length S.rest.length with h1 | h1
  · exact steps_of_length h1
  · have h2 : skipUntil keep S.rest = S.rest := h.eq_of_length_le h1
    refine .inr ⟨?_, h2⟩
    rw [St.skip, h2]

end

/-! ## The error strategy -/

section
variable {K : Nat} {N : Net} {σ : List Nat}

theorem deletion_steps {st S S'} (h : deletion N σ st S = some S') : Steps K S S' ∧ (S.rest ≠ [] → S'.rest.length < S.rest.length) := by
  rw [deletion] at h
  split at h
  · cases h
    have e : (S.report .unwanted σ st).consume.matched.rest = S.rest.tail := by show (S.report .unwanted σ st).rest.tail = _; rw [report_rest]
    have h1 : S.rest ≠ [] → (S.report .unwanted σ st).consume.matched.rest.length < S.rest.length := by
      intro h0
      rw [e, List.length_tail]
      have := List.length_pos_iff.mpr h0
      omega
    refine ⟨?_, h1⟩
    by_cases h0 : S.rest = []
    · exact steps_nil h0 (by rw [e, h0]; rfl)
    · exact steps_of_length (h1 h0)
  · cases h

theorem sync_steps {st S S'} (h : sync N σ st S = some S') : Steps K S S' := by
  rw [sync] at h
  split at h
  · cases h; exact .refl _
  · split at h
    · exact (deletion_steps h).1
    · cases h
      exact (report_steps S).trans (skip_steps _ _)
    · cases h; exact .refl _

theorem filter_length_lt {l : List Nat} {p q : Nat → Bool} (hpq : ∀ x, q x = true → p x = true) {a : Nat} (ha : a ∈ l) (hp : p a = true) (hq : q a = false) :
    (l.filter q).length < (l.filter p).length := by
  induction l with
  | nil => cases ha
  | cons b l ih =>
    have hle : ∀ l : List Nat, (l.filter q).length ≤ (l.filter p).length := by
      intro l
      induction l with
      | nil => exact Nat.le_refl _
      | cons c l ih =>
        rw [List.filter_cons, List.filter_cons]
        by_cases h1 : q c = true
        · rw [if_pos h1, if_pos (hpq c h1)]
          exact Nat.succ_le_succ ih
        · rw [if_neg h1]
          split
          · exact Nat.le_succ_of_le ih
          · exact ih
    rcases List.mem_cons.mp ha with rfl | h
    · rw [List.filter_cons, List.filter_cons, if_neg (by simp [hq]), if_pos hp]
      exact Nat.lt_succ_of_le (hle l)
    · rw [List.filter_cons, List.filter_cons]
      by_cases h1 : q b = true
      · rw [if_pos h1, if_pos (hpq b h1)]
        exact Nat.succ_lt_succ (ih h)
      · rw [if_neg h1]
        split
        · exact Nat.lt_succ_of_lt (ih h)
        · exact ih h

/-- Recovery makes headway, except at the end of the input. -/
theorem recover_measure {st S} (hst : st < K) (h : S.rest ≠ []) : measure K (recover N σ st S) < measure K S := by
  rw [recover]
  split
  · refine Nat.lt_of_le_of_lt (skip_steps (K := K) _ _).le (measure_lt ?_)
    show S.rest.tail.length < _
    rw [List.length_tail]
    have := List.length_pos_iff.mpr h
    omega
  · rename_i h1
    refine Nat.lt_of_le_of_lt (skip_steps (K := K) _ _).le ?_
    rw [measure, measure, if_neg h, if_neg h]
    refine Nat.add_lt_add_left ?_ _
    rw [budget, if_pos rfl, budget]
    by_cases h2 : S.last = some S.rest.length
    · rw [if_pos h2]
      have h3 : st ∉ S.seen := fun hs => h1 ⟨h2, hs⟩
      rw [if_neg h3]
      refine filter_length_lt (a := st) ?_ (List.mem_range.mpr hst) (by simp [h3]) (by simp)
      intro x hx
      simp at hx ⊢
      exact hx.2
    · rw [if_neg h2]
      exact Nat.lt_succ_of_le (Nat.le_trans (List.length_filter_le _ _) (Nat.le_of_eq List.length_range))

theorem recover_nil {st S} (h : S.rest = []) : (recover N σ st S).rest = [] := by
  have h1 : ∀ S : St, ∀ keep, S.rest = [] → (S.skip keep).rest = [] := by
    intro S keep hS
    show skipUntil keep S.rest = []
    rw [hS]; rfl
  rw [recover]
  split
  · refine h1 _ _ ?_
    show S.rest.tail = []
    rw [h]; rfl
  · exact h1 _ _ h

end

/-! ## Headway -/

section
variable (K : Nat)

/-- No panic but in states less than `K`; and without headway, the next token is one of `m`. -/
def Good (S : St) (m : Nat) : Result → Prop
  | .timeout => True
  | .panic _ st S' => st < K ∧ Steps K S S'
  | .done _ S' => measure K S' < measure K S ∨ measure K S' = measure K S ∧ S'.rest = S.rest ∧ m.testBit (bitOf (la1 S.rest)) = true

variable {K}

theorem Good.steps {S m ts S'} (h : Good K S m (.done ts S')) : Steps K S S' := by
  rcases h with h | ⟨h1, h2, _⟩
  · exact .inl h
  · exact .inr ⟨h1, h2⟩

theorem Good.of_steps {S S1 m r} (h : Steps K S S1) (hr : Good K S1 m r) : Good K S m r := by
  cases r with
  | timeout => trivial
  | panic k st S' => exact ⟨hr.1, h.trans hr.2⟩
  | done ts S' =>
    rcases h with h | ⟨h1, h2⟩
    · exact .inl (Nat.lt_of_le_of_lt hr.steps.le h)
    · rcases hr with hr | ⟨h3, h4, h5⟩
      · exact .inl (h1 ▸ hr)
      · exact .inr ⟨h3.trans h1, h4.trans h2, by rw [← h2]; exact h5⟩

theorem Good.mono {S m m' r} (hm : m.testBit (bitOf (la1 S.rest)) = true → m'.testBit (bitOf (la1 S.rest)) = true) (h : Good K S m r) : Good K S m' r := by
  cases r with
  | timeout => trivial
  | panic k st S' => exact h
  | done ts S' =>
    rcases h with h | ⟨h3, h4, h5⟩
    · exact .inl h
    · exact .inr ⟨h3, h4, hm h5⟩

/-- If there has been headway, what comes next does not matter. -/
theorem Good.of_lt {S S1 m m' r} (h : measure K S1 < measure K S) (hr : Good K S1 m r) : Good K S m' r := by
  cases r with
  | timeout => trivial
  | panic k st S' => exact ⟨hr.1, .inl (Nat.lt_of_le_of_lt hr.2.le h)⟩
  | done ts S' => exact .inl (Nat.lt_of_le_of_lt hr.steps.le h)

theorem Good.andThen {S m m' r} {f : St → Result} (h : Good K S m r) (hf : ∀ S1, Good K S1 m' (f S1)) : Good K S (m &&& m') (r.andThen f) := by
  cases r with
  | timeout => trivial
  | panic k st S' => exact h
  | done ts S1 =>
    have h1 := hf S1
    have h2 : Good K S (m &&& m') (f S1) := by
      rcases h with h | ⟨h3, h4, h5⟩
      · exact Good.of_lt h h1
      · refine Good.of_steps (.inr ⟨h3, h4⟩) (h1.mono ?_)
        intro h6
        rw [h4] at h6 ⊢
        rw [Nat.testBit_and, h5, h6]; rfl
    rw [Result.andThen]
    cases hr : f S1 with
    | timeout => trivial
    | panic k st S' => rw [hr] at h2; exact h2
    | done us S' => rw [hr] at h2; exact h2

theorem la1_lt (s : List Char) : bitOf (la1 s) < 72 := by
  cases s with
  | nil => decide
  | cons c s =>
    have h : (tokenType c).getD 0 < 71 := by
      rw [tokenType]
      cases lexRune c with
      | none => decide
      | some k => cases k <;> decide
    rw [la1, bitOf]
    omega

theorem full_bit (s : List Char) : full.testBit (bitOf (la1 s)) = true := by
  have h := la1_lt s
  rw [full, Nat.testBit_two_pow_sub_one]
  simpa using h

theorem other_bit (m : Nat) (s : List Char) : (other m).testBit (bitOf (la1 s)) = !m.testBit (bitOf (la1 s)) := by
  rw [other, Nat.testBit_xor, full_bit]
  simp

theorem bitOf_nat (k : Nat) : bitOf (k : Int) = k + 1 := by rw [bitOf]; omega

theorem la1_ge (s : List Char) : -1 ≤ la1 s := by
  cases s with
  | nil => decide
  | cons c s => rw [la1]; omega

theorem bitOf_eq_iff {x : Int} (h : -1 ≤ x) {k : Nat} : bitOf x = k + 1 ↔ x = (k : Int) := by
  rw [bitOf]; omega

theorem tokMask_bit (k : Tok) (s : List Char) : (tokMask k).testBit (bitOf (la1 s)) = (la1 s == (typeOf k : Nat)) := by
  rw [tokMask, Nat.one_shiftLeft, Nat.testBit_two_pow, Bool.eq_iff_iff]
  simp only [decide_eq_true_eq, beq_iff_eq]
  rw [eq_comm, bitOf_eq_iff (la1_ge s)]

theorem toksMask_bit (s : List Char) : ∀ ks : List Tok, (toksMask ks).testBit (bitOf (la1 s)) = ks.any fun k => la1 s == (typeOf k : Nat)
  | [] => by simp [toksMask]
  | k :: ks => by
    have ih := toksMask_bit s ks
    rw [toksMask] at ih ⊢
    rw [List.foldr_cons, Nat.testBit_or, ih, tokMask_bit, List.any_cons, Bool.or_comm]

theorem bits_fold (base : Nat) (ks : List Tok) (y : Nat) :
    (ks.foldr (fun k m => m ||| 1 <<< (typeOf k - base)) 0).testBit y = ks.any fun k => decide (typeOf k - base = y) := by
  induction ks with
  | nil => simp
  | cons k ks ih => rw [List.foldr_cons, Nat.testBit_or, ih, Nat.one_shiftLeft, Nat.testBit_two_pow, List.any_cons, Bool.or_comm]

theorem bitsMask_fold (base : Nat) (ks : List Tok) (b : Nat) :
    (ks.foldr (fun k m => if typeOf k - base < 32 then m ||| 1 <<< (typeOf k - base + base + 1) else m) 0).testBit b =
      ks.any fun k => decide (typeOf k - base < 32) && decide (typeOf k - base + base + 1 = b) := by
  induction ks with
  | nil => simp
  | cons k ks ih =>
    rw [List.foldr_cons, List.any_cons]
    by_cases h : typeOf k - base < 32
    · rw [if_pos h, Nat.testBit_or, ih, Nat.one_shiftLeft, Nat.testBit_two_pow, Bool.or_comm]
      simp [h]
    · rw [if_neg h, ih]
      simp [h]

theorem testMask_bit (s : List Char) : ∀ t : Test, (testMask t).testBit (bitOf (la1 s)) = t.eval (la1 s)
  | .eq k => tokMask_bit k s
  | .or a b => by rw [testMask, Nat.testBit_or, testMask_bit s a, testMask_bit s b, Test.eval]
  | .bits base ks => by
    rw [testMask, bitsMask_fold, Test.eval, bits_fold, Bool.eq_iff_iff]
    have hx := la1_ge s
    generalize la1 s = x at hx
    simp only [List.any_eq_true, Bool.and_eq_true, decide_eq_true_eq]
    rw [bitOf]
    constructor
    · rintro ⟨k, hk, h1, h2⟩
      refine ⟨⟨?_, ?_⟩, k, hk, ?_⟩ <;> omega
    · rintro ⟨⟨h1, h2⟩, k, hk, h3⟩
      refine ⟨k, hk, ?_, ?_⟩ <;> omega

variable {N : Net} {σ : List Nat} {predict : Nat → List Nat → List Char → Option Nat} {A : Nat → List Nat} {T : Rule → Nat}

/-- Predictions are such that the next token is one of those possible. -/
def Apt (predict : Nat → List Nat → List Char → Option Nat) (A : Nat → List Nat) : Prop :=
  ∀ d σ s n, predict d σ s = some n → (mayBe A d n).testBit (bitOf (la1 s)) = true

theorem Apt.range (hA : Apt predict A) {d σ s n} (h : predict d σ s = some n) : 1 ≤ n ∧ n ≤ (A d).length := by
  have h1 := hA d σ s n h
  rw [mayBe] at h1
  split at h1
  · simp at h1
  · rename_i h0
    refine ⟨by omega, ?_⟩
    rcases Nat.lt_or_ge (n - 1) (A d).length with h2 | h2
    · omega
    · rw [List.getD_eq_getElem?_getD, List.getElem?_eq_none h2] at h1
      simp at h1

theorem recoverInline_good {st S m} (hst : st < K) (hm : m.testBit (bitOf (la1 S.rest)) = true) : Good K S m (recoverInline N σ st S) := by
  rw [recoverInline]
  split
  · rename_i S' h
    by_cases h0 : S.rest = []
    · have h1 := (deletion_steps (K := K) h).1
      rcases h1 with h1 | ⟨h1, h2⟩
      · rw [measure_nil h0] at h1
        exact absurd h1 (Nat.not_lt_zero _)
      · have h3 : S'.consume.rest = [] := by show S'.rest.tail = []; rw [h2, h0]; rfl
        exact .inr ⟨by rw [measure_nil h3, measure_nil h0], by rw [h3, h0], hm⟩
    · left
      refine measure_lt ?_
      show S'.rest.tail.length < _
      have := (deletion_steps (K := K) h).2 h0
      rw [List.length_tail]
      omega
  · split
    · exact .inr ⟨report_measure S, report_rest S, hm⟩
    · exact ⟨hst, .refl _⟩

theorem matchTok_good {st test S m} (hst : st < K) (hm : test (la1 S.rest) = false → m.testBit (bitOf (la1 S.rest)) = true)
    (h0 : S.rest = [] → m.testBit (bitOf (la1 S.rest)) = true) : Good K S m (matchTok N σ st test S) := by
  rw [matchTok]
  split
  · rename_i h
    exact recoverInline_good hst (h0 h)
  · rename_i c s h
    split
    · left
      refine measure_lt ?_
      show S.rest.tail.length < _
      rw [h]
      simp
    · rename_i h1
      exact recoverInline_good hst (hm (by simpa using h1))

theorem matchEof_good {st S} (hst : st < K) : Good K S full (matchEof N σ st S) := by
  rw [matchEof]
  split
  · rename_i h
    have h' : S.matched.rest = [] := h
    exact .inr ⟨by rw [measure_nil h, measure_nil h'], by rw [h, h'], full_bit _⟩
  · exact recoverInline_good hst (full_bit _)

theorem synced_good {st S m f} (hst : st < K) (hf : ∀ S1, Good K S1 m (f S1)) : Good K S m (synced N σ st S f) := by
  rw [synced]
  split
  · exact ⟨hst, .refl _⟩
  · rename_i S1 h
    exact Good.of_steps (sync_steps h) (hf S1)

theorem choose_enter (hA : Apt predict A) {a : Ask} {s} (h : choose σ predict a s = .enter) : (mayEnter A a).testBit (bitOf (la1 s)) = true := by
  cases a with
  | alt d =>
    simp only [choose] at h
    split at h
    · cases h
    · rename_i n hn
      split at h
      · cases h
      · split at h
        · rename_i h1
          cases h1
          exact hA d σ s 1 hn
        · cases h
  | la t =>
    simp only [choose] at h
    split at h
    · rename_i h1
      rw [mayEnter, testMask_bit]; exact h1
    · cases h

theorem choose_leave (hA : Apt predict A) {a : Ask} {s} (h : choose σ predict a s = .leave) : (mayLeave A a).testBit (bitOf (la1 s)) = true := by
  cases a with
  | alt d =>
    simp only [choose] at h
    split at h
    · cases h
    · rename_i n hn
      split at h
      · rename_i h1
        have := hA.range hn
        have h2 : n = 2 := by omega
        subst h2
        exact hA d σ s 2 hn
      · split at h <;> cases h
  | la t =>
    simp only [choose] at h
    split at h
    · cases h
    · rename_i h1
      rw [mayLeave, other_bit, testMask_bit]
      simpa using h1

theorem choose_other (hA : Apt predict A) {a : Ask} {s c} (hb : askBrisk A T c a = true) : choose σ predict a s ≠ .other := by
  intro h
  cases a with
  | alt d =>
    simp only [choose] at h
    split at h
    · cases h
    · rename_i n hn
      have := hA.range hn
      simp [askBrisk] at hb
      split at h
      · cases h
      · split at h
        · cases h
        · omega
  | la t =>
    simp only [choose] at h
    split at h <;> cases h

theorem enter_stay {a : Ask} {c b} (hb : askBrisk A T c a = true) (h1 : (mayEnter A a).testBit b = true) (h2 : (stay A T c).testBit b = true) : False := by
  rw [askBrisk.eq_def, Bool.and_eq_true, beq_iff_eq] at hb
  have := Nat.testBit_and (mayEnter A a) (stay A T c) b
  rw [hb.1, h1, h2] at this
  simp at this

theorem star_good (hA : Apt predict A) {a : Ask} {c : Code} {body : St → Result} (hb : askBrisk A T c a = true) (hbody : ∀ S, Good K S (stay A T c) (body S)) :
    ∀ (n st st' : Nat) (S : St), st < K → st' < K → Good K S (mayLeave A a) (star N σ predict st st' a body n S)
  | 0, _, _, _, _, _ => by rw [star]; trivial
  | n + 1, st, st', S, hst, hst' => by
    rw [star]
    refine synced_good hst fun S1 => ?_
    split
    · exact ⟨hst, .refl _⟩
    · rename_i h
      exact .inr ⟨rfl, rfl, choose_leave hA h⟩
    · rename_i h
      have h1 := hbody S1
      cases hr : body S1 with
      | timeout => trivial
      | panic k st S2 => rw [hr] at h1; exact h1
      | done ts S2 =>
        rw [hr] at h1
        rcases h1 with h1 | ⟨_, _, h2⟩
        · have h3 : Good K S1 (mayLeave A a) (star N σ predict st' st' a body n S2) := Good.of_lt h1 (star_good hA hb hbody n st' st' S2 hst' hst')
          rw [Result.andThen]
          cases hr2 : star N σ predict st' st' a body n S2 with
          | timeout => trivial
          | panic k st S' => rw [hr2] at h3; exact h3
          | done us S' => rw [hr2] at h3; exact h3
        · exact (enter_stay hb (choose_enter hA h) h2).elim
    · rename_i h
      exact absurd h (choose_other hA hb)

theorem plus_good (hA : Apt predict A) {a : Ask} {c : Code} {body : St → Result} (hb : askBrisk A T c a = true) (hbody : ∀ S, Good K S (stay A T c) (body S)) :
    ∀ (n st' : Nat) (S : St), st' < K → Good K S (stay A T c &&& mayLeave A a) (plus N σ predict st' a body n S)
  | 0, _, _, _ => by rw [plus]; trivial
  | n + 1, st', S, hst' => by
    rw [plus]
    refine (hbody S).andThen fun S1 => synced_good hst' fun S2 => ?_
    split
    · exact ⟨hst', .refl _⟩
    · rename_i h
      exact .inr ⟨rfl, rfl, choose_leave hA h⟩
    · rename_i h
      refine (plus_good hA hb hbody n st' S2 hst').mono ?_
      intro h1
      rw [Nat.testBit_and, Bool.and_eq_true] at h1
      exact h1.2
    · exact ⟨hst', .refl _⟩

theorem union_bit {n b : Nat} {f : Nat → Nat} {i : Nat} (hi : i < n) (h : (f i).testBit b = true) : (union n f).testBit b = true := by
  have : ∀ l : List Nat, i ∈ l → (l.foldr (fun i m => m ||| f i) 0).testBit b = true := by
    intro l
    induction l with
    | nil => intro h; cases h
    | cons j l ih =>
      intro hm
      rw [List.foldr_cons, Nat.testBit_or, Bool.or_eq_true]
      rcases List.mem_cons.mp hm with rfl | hm
      · exact .inr h
      · exact .inl (ih hm)
  exact this _ (List.mem_range.mpr hi)

variable {rec : Rule → List Nat → St → Result} {n : Nat}

mutual
theorem run_good (hA : Apt predict A) (hrec : ∀ R σ S, Good K S (T R) (rec R σ S)) :
    ∀ (c : Code) (S : St), brisk A T K c = true → Good K S (stay A T c) (run N σ predict rec n c S)
  | .skip, S, _ => by rw [run, stay]; exact .inr ⟨rfl, rfl, full_bit _⟩
  | .seq a b, S, h => by
    rw [brisk, Bool.and_eq_true] at h
    rw [run, stay]
    exact (run_good hA hrec a S h.1).andThen fun S1 => run_good hA hrec b S1 h.2
  | .tok st k, S, h => by
    rw [brisk, decide_eq_true_eq] at h
    rw [run, stay]
    refine matchTok_good h ?_ ?_
    · intro h1
      rw [other_bit, tokMask_bit, h1]; rfl
    · intro h1
      rw [other_bit, tokMask_bit, h1]
      simp [la1]
  | .eof st, S, h => by
    rw [brisk, decide_eq_true_eq] at h
    rw [run, stay]
    exact matchEof_good h
  | .set st t, S, h => by
    rw [brisk, decide_eq_true_eq] at h
    rw [run, stay]
    refine matchTok_good h ?_ ?_
    · intro h1
      rw [other_bit, testMask_bit, h1]; rfl
    · intro h1
      rw [other_bit, testMask_bit, h1]
      have : ∀ t : Test, t.eval (la1 []) = false := by
        intro t
        induction t with
        | eq k => simp [Test.eval, la1]
        | bits base ks => simp [Test.eval, la1]; omega
        | or a b iha ihb => simp [Test.eval, iha, ihb]
      rw [this]; rfl
  | .call st r, S, _ => by
    rw [run.eq_def, stay]
    dsimp only
    have h1 := hrec r (st :: σ) S
    cases hr : rec r (st :: σ) S with
    | timeout => trivial
    | panic k st S' => rw [hr] at h1; exact h1
    | done ts S' => rw [hr] at h1; exact h1
  | .switchAlt st d cs, S, h => by
    rw [brisk, Bool.and_eq_true, decide_eq_true_eq] at h
    rw [run, stay]
    refine synced_good h.1 fun S1 => ?_
    cases hp : predict d σ S1.rest with
    | none => exact ⟨h.1, .refl _⟩
    | some a =>
      refine (runAlt_good hA hrec a cs S1 h.2).mono ?_
      intro h1
      obtain ⟨h2, h3⟩ := hA.range hp
      refine union_bit (i := a - 1) (by omega) ?_
      rw [Nat.sub_add_cancel h2, Nat.testBit_and, h1, hA d σ _ a hp]; rfl
  | .ifLa st t c, S, h => by
    rw [brisk, Bool.and_eq_true, decide_eq_true_eq] at h
    rw [run, stay]
    refine synced_good h.1 fun S1 => ?_
    split
    · refine (run_good hA hrec c S1 h.2).mono ?_
      intro h1
      rw [Nat.testBit_or, h1]; simp
    · rename_i h1
      refine .inr ⟨rfl, rfl, ?_⟩
      rw [Nat.testBit_or, other_bit, testMask_bit]
      simp at h1
      simp [h1]
  | .switchLa st cs, S, h => by
    rw [brisk, Bool.and_eq_true, decide_eq_true_eq] at h
    rw [run, stay]
    exact synced_good h.1 fun S1 => runLa_good hA hrec st cs S1 h.1 h.2
  | .star st st' a c, S, h => by
    rw [brisk, Bool.and_eq_true, Bool.and_eq_true, Bool.and_eq_true, decide_eq_true_eq, decide_eq_true_eq] at h
    rw [run, stay]
    exact star_good hA h.1.2 (fun S1 => run_good hA hrec c S1 h.2) n st st' S h.1.1.1 h.1.1.2
  | .plus st st' a c, S, h => by
    rw [brisk, Bool.and_eq_true, Bool.and_eq_true, Bool.and_eq_true, decide_eq_true_eq, decide_eq_true_eq] at h
    rw [run, stay]
    exact synced_good h.1.1.1 fun S1 => plus_good hA h.1.2 (fun S2 => run_good hA hrec c S2 h.2) n st' S1 h.1.1.2
theorem runAlt_good (hA : Apt predict A) (hrec : ∀ R σ S, Good K S (T R) (rec R σ S)) (a : Nat) :
    ∀ (cs : Cases) (S : St), briskCases A T K cs = true → Good K S (stayAlt A T a cs) (runAlt N σ predict rec n a cs S)
  | .nil, S, _ => by rw [runAlt, stayAlt]; exact .inr ⟨rfl, rfl, full_bit _⟩
  | .alt m c cs, S, h => by
    rw [briskCases, Bool.and_eq_true] at h
    rw [runAlt, stayAlt]
    split
    · exact run_good hA hrec c S h.1
    · exact runAlt_good hA hrec a cs S h.2
  | .toks _ c cs, S, h => by
    rw [briskCases, Bool.and_eq_true] at h
    rw [runAlt, stayAlt]
    exact runAlt_good hA hrec a cs S h.2
theorem runLa_good (hA : Apt predict A) (hrec : ∀ R σ S, Good K S (T R) (rec R σ S)) (st : Nat) :
    ∀ (cs : Cases) (S : St), st < K → briskCases A T K cs = true → Good K S (stayLa A T cs) (runLa N σ predict rec n st cs S)
  | .nil, S, hst, _ => by rw [runLa]; exact ⟨hst, .refl _⟩
  | .alt m c cs, S, hst, h => by
    rw [briskCases, Bool.and_eq_true] at h
    rw [runLa, stayLa]
    exact runLa_good hA hrec st cs S hst h.2
  | .toks ks c cs, S, hst, h => by
    rw [briskCases, Bool.and_eq_true] at h
    rw [runLa, stayLa]
    split
    · rename_i h1
      refine (run_good hA hrec c S h.1).mono ?_
      intro h2
      rw [Nat.testBit_or, Nat.testBit_and, h2, toksMask_bit, h1]; rfl
    · refine (runLa_good hA hrec st cs S hst h.2).mono ?_
      intro h2
      rw [Nat.testBit_or, h2]; simp
end

variable {code : Rule → Code}

/-- What functions leave. -/
theorem runRule_good (hA : Apt predict A) (hb : ∀ R, brisk A T K (code R) = true) (hT : ∀ R b, (stay A T (code R)).testBit b = true → (T R).testBit b = true)
    (h0 : ∀ R, (T R).testBit 0 = true) : ∀ n R σ S, Good K S (T R) (runRule N predict code n R σ S)
  | 0, _, _, _ => by rw [runRule]; trivial
  | n + 1, R, σ, S => by
    have h := run_good (N := N) (σ := σ) (n := n) hA (runRule_good hA hb hT h0 n) (code R) S (hb R)
    rw [runRule]
    split
    · rename_i kd st S1 h1
      rw [h1] at h
      obtain ⟨h2, h3⟩ := h
      have e1 := report_rest S1 (k := kd) (ρ := σ) (q := st)
      have e2 := report_measure (K := K) S1 (k := kd) (ρ := σ) (q := st)
      by_cases hS : S1.rest = []
      · have h4 : (recover N σ st (S1.report kd σ st)).rest = [] := recover_nil (e1.trans hS)
        by_cases hS0 : S.rest = []
        · refine .inr ⟨by rw [measure_nil h4, measure_nil hS0], by rw [h4, hS0], ?_⟩
          rw [hS0]
          exact h0 R
        · left
          rw [measure_nil h4]
          have := measure_pos (K := K) hS0
          omega
      · left
        have h4 := recover_measure (N := N) (σ := σ) h2 (S := S1.report kd σ st) (by rw [e1]; exact hS)
        rw [e2] at h4
        exact Nat.lt_of_lt_of_le h4 h3.le
    · exact h.mono (hT R _)

/-! ## Termination -/

/-- There has been headway since the beginning of the function, or the next token is still the same, in `X`, and what comes is of small rank. -/
def Near (K μ0 b X : Nat) (ok : Bool) (S : St) : Prop :=
  measure K S < μ0 ∨ measure K S = μ0 ∧ bitOf (la1 S.rest) = b ∧ X.testBit b = true ∧ ok = true

theorem Near.le {μ0 b X : Nat} {ok : Bool} {S : St} (h : Near K μ0 b X ok S) : measure K S ≤ μ0 := by
  rcases h with h | h
  · exact Nat.le_of_lt h
  · exact Nat.le_of_eq h.1

theorem Near.of_steps {μ0 b X : Nat} {ok : Bool} {S S1 : St} (h : Near K μ0 b X ok S) (hs : Steps K S S1) : Near K μ0 b X ok S1 := by
  rcases h with h | ⟨h1, h2, h3⟩
  · exact .inl (Nat.lt_of_le_of_lt hs.le h)
  · rcases hs with hs | ⟨h4, h5⟩
    · exact .inl (h1 ▸ hs)
    · exact .inr ⟨h4.trans h1, by rw [h5]; exact h2, h3⟩

theorem Near.and {μ0 b X Y : Nat} {ok ok' : Bool} {S : St} (h : Near K μ0 b X ok S) (hY : Y.testBit (bitOf (la1 S.rest)) = true) (hok : ok = true → ok' = true) :
    Near K μ0 b (X &&& Y) ok' S := by
  rcases h with h | ⟨h1, h2, h3, h4⟩
  · exact .inl h
  · rw [h2] at hY
    exact .inr ⟨h1, h2, by rw [Nat.testBit_and, h3, hY]; rfl, hok h4⟩

theorem Near.ok {μ0 b X : Nat} {ok ok' : Bool} {S : St} (h : Near K μ0 b X ok S) (hok : ok = true → ok' = true) : Near K μ0 b X ok' S := by
  rcases h with h | ⟨h1, h2, h3, h4⟩
  · exact .inl h
  · exact .inr ⟨h1, h2, h3, hok h4⟩

/-- After a statement. -/
theorem Near.done {μ0 b X m : Nat} {ok ok' : Bool} {S ts S1} (h : Near K μ0 b X ok S) (hg : Good K S m (.done ts S1)) (hok : ok = true → ok' = true) :
    Near K μ0 b (X &&& m) ok' S1 := by
  rcases hg with hg | ⟨h1, h2, h3⟩
  · exact .inl (Nat.lt_of_lt_of_le hg h.le)
  · rw [← h2] at h3
    exact (h.of_steps (.inr ⟨h1, h2⟩)).and h3 hok

theorem andThen_ends {r : Result} {f : St → Result} (h : r ≠ .timeout) (hf : ∀ ts S, r = .done ts S → f S ≠ .timeout) : r.andThen f ≠ .timeout := by
  cases r with
  | timeout => exact absurd rfl h
  | panic k st S => simp [Result.andThen]
  | done ts S =>
    have := hf ts S rfl
    rw [Result.andThen]
    cases hr : f S with
    | timeout => exact absurd hr this
    | panic k st S => simp
    | done us S => simp

theorem synced_ends {st S f} (hf : ∀ S1, sync N σ st S = some S1 → f S1 ≠ .timeout) : synced N σ st S f ≠ .timeout := by
  rw [synced]
  split
  · simp
  · rename_i S1 h
    exact hf S1 h

section
variable {μ0 b : Nat} {lt : Rule → Nat}

theorem star_ends (hA : Apt predict A) {a : Ask} {c : Code} {body : St → Result} {X : Nat} (hb : askBrisk A T c a = true)
    (hbody : ∀ S, Good K S (stay A T c) (body S)) (hn : ∀ S, Near K μ0 b (X &&& mayEnter A a) (fine A T lt (X &&& mayEnter A a) c) S → body S ≠ .timeout) :
    ∀ (n st st' : Nat) (S : St), measure K S < n → Near K μ0 b X (fine A T lt (X &&& mayEnter A a) c) S → star N σ predict st st' a body n S ≠ .timeout
  | 0, _, _, _, hm, _ => by omega
  | n + 1, st, st', S, hm, h => by
    rw [star]
    refine synced_ends fun S1 hS1 => ?_
    have h1 := h.of_steps (sync_steps hS1)
    have hm1 := (sync_steps (K := K) hS1).le
    split
    · simp
    · simp
    · rename_i hc
      have he := choose_enter hA hc
      refine andThen_ends (hn S1 (h1.and he id)) fun ts S2 hr => ?_
      have hg := hbody S1
      rw [hr] at hg
      rcases hg with hg | ⟨_, _, h2⟩
      · exact star_ends hA hb hbody hn n st' st' S2 (by omega) (.inl (Nat.lt_of_lt_of_le hg h1.le))
      · exact (enter_stay hb he h2).elim
    · rename_i hc
      exact absurd hc (choose_other hA hb)

theorem plus_ends (hA : Apt predict A) {a : Ask} {c : Code} {body : St → Result} {X : Nat} (hb : askBrisk A T c a = true)
    (hbody : ∀ S, Good K S (stay A T c) (body S)) (hn : ∀ S, Near K μ0 b X (fine A T lt X c) S → body S ≠ .timeout) :
    ∀ (n st' : Nat) (S : St), (measure K S + 1 < n ∨ measure K S < n ∧ (mayEnter A a).testBit (bitOf (la1 S.rest)) = true) → Near K μ0 b X (fine A T lt X c) S →
      plus N σ predict st' a body n S ≠ .timeout
  | 0, _, _, hm, _ => by omega
  | n + 1, st', S, hm, h => by
    rw [plus]
    refine andThen_ends (hn S h) fun ts S1 hr => synced_ends fun S2 hS2 => ?_
    have hg := hbody S
    rw [hr] at hg
    have h1 := h.of_steps (hg.steps.trans (sync_steps hS2))
    have hle := (hg.steps.trans (sync_steps hS2)).le
    split
    · simp
    · simp
    · rename_i hc
      have he := choose_enter hA hc
      refine plus_ends hA hb hbody hn n st' S2 (.inr ⟨?_, he⟩) h1
      rcases hm with hm | ⟨hm, he0⟩
      · omega
      · rcases hg with hg | ⟨_, _, h2⟩
        · have := (sync_steps (K := K) hS2).le
          omega
        · exact (enter_stay hb he0 h2).elim
    · simp

mutual
theorem run_ends (hA : Apt predict A) (hg : ∀ R σ S, Good K S (T R) (rec R σ S)) (hm : μ0 + 1 < n)
    (hrec : ∀ R σ S, Near K μ0 b (lt R) true S → rec R σ S ≠ .timeout) :
    ∀ (c : Code) (X : Nat) (S : St), brisk A T K c = true → Near K μ0 b X (fine A T lt X c) S → run N σ predict rec n c S ≠ .timeout
  | .skip, X, S, _, _ => by rw [run]; simp
  | .seq a c, X, S, hb, h => by
    rw [brisk, Bool.and_eq_true] at hb
    rw [run]
    rw [fine] at h
    refine andThen_ends (run_ends hA hg hm hrec a X S hb.1 (h.ok fun h => (Bool.and_eq_true _ _ ▸ h).1)) fun ts S1 hr => ?_
    have h1 := run_good (N := N) (σ := σ) (n := n) hA hg a S hb.1
    rw [hr] at h1
    exact run_ends hA hg hm hrec c _ S1 hb.2 (h.done h1 fun h => (Bool.and_eq_true _ _ ▸ h).2)
  | .tok st k, X, S, _, _ => by
    rw [run, matchTok, recoverInline]
    repeat' split
    all_goals simp
  | .eof st, X, S, _, _ => by
    rw [run, matchEof, recoverInline]
    repeat' split
    all_goals simp
  | .set st t, X, S, _, _ => by
    rw [run, matchTok, recoverInline]
    repeat' split
    all_goals simp
  | .call st r, X, S, _, h => by
    rw [run.eq_def]
    dsimp only
    have h1 : rec r (st :: σ) S ≠ .timeout := by
      refine hrec r (st :: σ) S ?_
      rw [fine] at h
      rcases h with h | ⟨h1, h2, h3, h4⟩
      · exact .inl h
      · refine .inr ⟨h1, h2, ?_, rfl⟩
        rw [beq_iff_eq] at h4
        rw [← h4, Nat.testBit_and, Bool.and_eq_true] at h3
        exact h3.2
    cases hr : rec r (st :: σ) S with
    | timeout => exact absurd hr h1
    | panic k st S' => simp
    | done ts S' => simp
  | .switchAlt st d cs, X, S, hb, h => by
    rw [brisk, Bool.and_eq_true, decide_eq_true_eq] at hb
    rw [run]
    refine synced_ends fun S1 hS1 => ?_
    have h1 := h.of_steps (sync_steps hS1)
    cases hp : predict d σ S1.rest with
    | none => simp
    | some a =>
      dsimp only
      obtain ⟨h2, h3⟩ := hA.range hp
      refine runAlt_ends hA hg hm hrec a cs _ S1 hb.2 (h1.and (hA d σ _ a hp) fun hf => ?_)
      rw [fine, List.all_eq_true] at hf
      have := hf (a - 1) (List.mem_range.mpr (by omega))
      rw [Nat.sub_add_cancel h2] at this
      exact this
  | .ifLa st t c, X, S, hb, h => by
    rw [brisk, Bool.and_eq_true, decide_eq_true_eq] at hb
    rw [run]
    refine synced_ends fun S1 hS1 => ?_
    have h1 := h.of_steps (sync_steps hS1)
    split
    · rename_i ht
      refine run_ends hA hg hm hrec c _ S1 hb.2 (h1.and (Y := testMask t) (by rw [testMask_bit]; exact ht) fun hf => ?_)
      rw [fine] at hf
      exact hf
    · simp
  | .switchLa st cs, X, S, hb, h => by
    rw [brisk, Bool.and_eq_true, decide_eq_true_eq] at hb
    rw [run]
    refine synced_ends fun S1 hS1 => ?_
    refine runLa_ends hA hg hm hrec st cs X S1 hb.2 ((h.of_steps (sync_steps hS1)).ok fun hf => ?_)
    rw [fine] at hf
    exact hf
  | .star st st' a c, X, S, hb, h => by
    rw [brisk, Bool.and_eq_true, Bool.and_eq_true, Bool.and_eq_true, decide_eq_true_eq, decide_eq_true_eq] at hb
    rw [run]
    have := h.le
    exact star_ends hA hb.1.2 (fun S1 => run_good hA hg c S1 hb.2) (fun S1 h1 => run_ends hA hg hm hrec c _ S1 hb.2 h1) n st st' S (by omega)
      (h.ok fun hf => by rw [fine] at hf; exact hf)
  | .plus st st' a c, X, S, hb, h => by
    rw [brisk, Bool.and_eq_true, Bool.and_eq_true, Bool.and_eq_true, decide_eq_true_eq, decide_eq_true_eq] at hb
    rw [run]
    refine synced_ends fun S1 hS1 => ?_
    have h1 := h.of_steps (sync_steps hS1)
    have := h1.le
    exact plus_ends hA hb.1.2 (fun S1 => run_good hA hg c S1 hb.2) (fun S1 h1 => run_ends hA hg hm hrec c _ S1 hb.2 h1) n st' S1 (.inl (by omega))
      (h1.ok fun hf => by rw [fine] at hf; exact hf)
theorem runAlt_ends (hA : Apt predict A) (hg : ∀ R σ S, Good K S (T R) (rec R σ S)) (hm : μ0 + 1 < n)
    (hrec : ∀ R σ S, Near K μ0 b (lt R) true S → rec R σ S ≠ .timeout) (a : Nat) :
    ∀ (cs : Cases) (X : Nat) (S : St), briskCases A T K cs = true → Near K μ0 b X (fineAlt A T lt X a cs) S → runAlt N σ predict rec n a cs S ≠ .timeout
  | .nil, X, S, _, _ => by rw [runAlt]; simp
  | .alt m c cs, X, S, hb, h => by
    rw [briskCases, Bool.and_eq_true] at hb
    rw [runAlt]
    rw [fineAlt] at h
    split
    · rename_i e
      rw [if_pos e] at h
      exact run_ends hA hg hm hrec c X S hb.1 h
    · rename_i e
      rw [if_neg e] at h
      exact runAlt_ends hA hg hm hrec a cs X S hb.2 h
  | .toks _ c cs, X, S, hb, h => by
    rw [briskCases, Bool.and_eq_true] at hb
    rw [runAlt]
    rw [fineAlt] at h
    exact runAlt_ends hA hg hm hrec a cs X S hb.2 h
theorem runLa_ends (hA : Apt predict A) (hg : ∀ R σ S, Good K S (T R) (rec R σ S)) (hm : μ0 + 1 < n)
    (hrec : ∀ R σ S, Near K μ0 b (lt R) true S → rec R σ S ≠ .timeout) (st : Nat) :
    ∀ (cs : Cases) (X : Nat) (S : St), briskCases A T K cs = true → Near K μ0 b X (fineLa A T lt X cs) S → runLa N σ predict rec n st cs S ≠ .timeout
  | .nil, X, S, _, _ => by rw [runLa]; simp
  | .alt m c cs, X, S, hb, h => by
    rw [briskCases, Bool.and_eq_true] at hb
    rw [runLa]
    rw [fineLa] at h
    exact runLa_ends hA hg hm hrec st cs X S hb.2 h
  | .toks ks c cs, X, S, hb, h => by
    rw [briskCases, Bool.and_eq_true] at hb
    rw [runLa]
    rw [fineLa] at h
    split
    · rename_i e
      exact run_ends hA hg hm hrec c _ S hb.1 (h.and (Y := toksMask ks) (by rw [toksMask_bit]; exact e) fun hf => (Bool.and_eq_true _ _ ▸ hf).1)
    · exact runLa_ends hA hg hm hrec st cs X S hb.2 (h.ok fun hf => (Bool.and_eq_true _ _ ▸ hf).2)
end

end

/-- Functions end: `rank R b` is the rank of a function if the next token is `b`. -/
theorem runRule_ends {D : Nat} {rank : Rule → Nat → Nat} {lt : Rule → Rule → Nat} (hA : Apt predict A) (hb : ∀ R, brisk A T K (code R) = true)
    (hT : ∀ R b, (stay A T (code R)).testBit b = true → (T R).testBit b = true) (h0 : ∀ R, (T R).testBit 0 = true) (hD : ∀ R b, rank R b < D)
    (hlow : ∀ R b, 2 ≤ rank R b) (hlt : ∀ R R' b, (lt R R').testBit b = true → rank R' b < rank R b) (hf : ∀ R, fine A T (lt R) full (code R) = true) :
    ∀ n R σ S, measure K S * D + rank R (bitOf (la1 S.rest)) < n → runRule N predict code n R σ S ≠ .timeout
  | 0, _, _, _, h => by omega
  | n + 1, R, σ, S, h => by
    have hr := hlow R (bitOf (la1 S.rest))
    have hD1 : 1 ≤ D := by have := hD R 0; omega
    have hmul : measure K S ≤ measure K S * D := Nat.le_mul_of_pos_right _ hD1
    have key : run N σ predict (runRule N predict code n) n (code R) S ≠ .timeout := by
      refine run_ends (μ0 := measure K S) (b := bitOf (la1 S.rest)) (lt := lt R) hA (runRule_good hA hb hT h0 n) (by omega) ?_ (code R) full S (hb R)
        (.inr ⟨rfl, rfl, full_bit _, hf R⟩)
      intro R' σ' S' hS'
      refine runRule_ends hA hb hT h0 hD hlow hlt hf n R' σ' S' ?_
      rcases hS' with h1 | ⟨h1, h2, h3, _⟩
      · have h2 := Nat.mul_le_mul_right D (Nat.succ_le_of_lt h1)
        rw [Nat.succ_mul] at h2
        have := hD R' (bitOf (la1 S'.rest))
        omega
      · have := hlt R R' _ h3
        rw [h1, h2]
        omega
    rw [runRule]
    cases hrun : run N σ predict (runRule N predict code n) n (code R) S with
    | timeout => exact absurd hrun key
    | panic k st S' => simp
    | done ts S' => simp

end

end Rfc5322.Recovery
