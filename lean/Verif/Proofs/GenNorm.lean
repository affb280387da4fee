import Verif.Proofs.GenCheck
import Verif.Proofs.AtnPref

/-!
# Single transitions without label, and lookahead
-/

namespace Rfc5322.Gen

open Atn

variable {N : Net} {r : Nat} {K : List Char → Prop}

/-! ## Single transitions without label -/

theorem norm_pref {C : PrefCalls} (hr : N.out r = []) : ∀ (k : Nat) {n p s ts s'}, Pref ruleOf tokenType N C r K n p s ts s' →
    ∃ m, m ≤ n ∧ Pref ruleOf tokenType N C r K m (norm N.out k p) s ts s'
  | 0, n, p, s, ts, s', h => ⟨n, Nat.le_refl _, h⟩
  | k + 1, n, p, s, ts, s', h => by
    rw [norm.eq_def]
    dsimp only
    split
    · rename_i q hq
      have hp : p ≠ r := ne_of_out hr (by simp [hq])
      have h1 := h.from hp
      rw [hq] at h1
      obtain ⟨m, e, h2⟩ := h1.eps
      obtain ⟨m', hm, h3⟩ := norm_pref hr k h2
      exact ⟨m', by omega, h3⟩
    · exact ⟨n, Nat.le_refl _, h⟩

theorem norm_path {C : Calls} (hr : N.out r = []) : ∀ (k : Nat) {n p s ts s'}, Path ruleOf tokenType N C r n p s ts s' →
    ∃ m, m ≤ n ∧ Path ruleOf tokenType N C r m (norm N.out k p) s ts s'
  | 0, n, p, s, ts, s', h => ⟨n, Nat.le_refl _, h⟩
  | k + 1, n, p, s, ts, s', h => by
    rw [norm.eq_def]
    dsimp only
    split
    · rename_i q hq
      have hp : p ≠ r := ne_of_out hr (by simp [hq])
      have h1 := h.from hp
      rw [hq] at h1
      obtain ⟨m, e, h2⟩ := h1.eps
      obtain ⟨m', hm, h3⟩ := norm_path hr k h2
      exact ⟨m', by omega, h3⟩
    · exact ⟨n, Nat.le_refl _, h⟩

theorem path_norm {C : Calls} : ∀ (k : Nat) {n p s ts s'}, Path ruleOf tokenType N C r n (norm N.out k p) s ts s' →
    ∃ m, Path ruleOf tokenType N C r m p s ts s'
  | 0, n, p, s, ts, s', h => ⟨n, h⟩
  | k + 1, n, p, s, ts, s', h => by
    rw [norm.eq_def] at h
    dsimp only at h
    split at h
    · rename_i q hq
      obtain ⟨m, h1⟩ := path_norm k h
      exact ⟨m + 1, From.path (by rw [hq]; exact .ofEps h1)⟩
    · exact ⟨n, h⟩

theorem can_norm (hr : N.out r = []) {p s} : CanN N r K (norm N.out fuel p) s ↔ CanN N r K p s := by
  constructor
  · rintro ⟨n, ts, s', h, hK⟩
    obtain ⟨m, h1⟩ := path_norm fuel h
    exact ⟨m, ts, s', h1, hK⟩
  · rintro ⟨n, ts, s', h, hK⟩
    obtain ⟨m, _, h1⟩ := norm_path hr fuel h
    exact ⟨m, ts, s', h1, hK⟩

/-! ## Lookahead -/

/-- What comes next: a token of type `k`, or (0) the end of the input. -/
def Head : List Char → Nat → Prop
  | [], k => k = 0
  | c :: _, k => tokenType c = some k

theorem typeOf_pos (k : Tok) : 0 < typeOf k := by unfold typeOf; omega

theorem typeOf_lt (k : Tok) : typeOf k < 71 := by
  have h1 := List.idxOf_lt_length_of_mem (mem_all k)
  have h2 : Tok.all.length = 70 := by decide
  unfold typeOf; omega

theorem tokenType_pos {c : Char} {k : Nat} (h : tokenType c = some k) : 0 < k ∧ k < 71 := by
  unfold tokenType at h
  obtain ⟨t, _, rfl⟩ := Option.map_eq_some_iff.mp h
  exact ⟨typeOf_pos t, typeOf_lt t⟩

theorem Head.lt {s : List Char} {k : Nat} (h : Head s k) : k < 71 := by
  cases s with
  | nil => cases h; omega
  | cons c s => exact (tokenType_pos h).2

theorem Head.la {s : List Char} {k : Nat} (h : Head s k) : la1 s = laOf k := by
  cases s with
  | nil => cases h; rfl
  | cons c s =>
    have h1 : tokenType c = some k := h
    have := tokenType_pos h1
    simp only [la1, laOf, h1, Option.getD_some]
    rw [if_neg (by omega)]

theorem Head.types {s : List Char} {k : Nat} (h : Head s k) : k ∈ types := List.mem_range.mpr h.lt

/-- The tables agree with all transitions and all rules. -/
structure Tables (N : Net) (L F : Nat → Nat) : Prop where
  edge : ∀ e ∈ N.edges, edgeOk (ruleAt N) L F e = true
  stop : ∀ i R, ruleOf i = some R → (L (N.stop i)).testBit nullBit = true

theorem sub_bit {a b k : Nat} (h : sub a b = true) (hk : a.testBit k = true) : b.testBit k = true := by
  rw [sub, beq_iff_eq] at h
  rw [← h, Nat.testBit_or, hk, Bool.true_or]

theorem noNull_bit {m k : Nat} (h : k < 71) (hk : m.testBit k = true) : (noNull m).testBit k = true := by
  rw [noNull, Nat.testBit_and, hk, Nat.testBit_two_pow_sub_one]
  simpa using h

theorem mem_out {p : Nat} {e : Label × Nat} (h : e ∈ N.out p) : (⟨p, e.1, e.2⟩ : Edge) ∈ N.edges := by
  unfold Net.out at h
  obtain ⟨x, h1, h2⟩ := List.mem_map.mp h
  obtain ⟨h3, h4⟩ := List.mem_filter.mp h1
  have h4 : x.src = p := by simpa using h4
  subst h2; subst h4
  exact h3

section
variable {L F : Nat → Nat}

/-- What a path within a rule begins with. -/
def Seen (L : Nat → Nat) (p : Nat) (s s' : List Char) : Prop :=
  (∃ k, Head s k ∧ (L p).testBit k = true) ∨ ((L p).testBit nullBit = true ∧ s = s')

theorem edge_rule (hT : Tables N L F) {p l q} (h : (l, q) ∈ N.out p) : ruleAt N p = ruleAt N q := by
  have := hT.edge _ (mem_out h)
  rw [edgeOk, Bool.and_eq_true] at this
  simpa using this.1

theorem path_seen (hT : Tables N L F) {C : Calls} (hC : ∀ {p i R s ts s'}, ruleOf i = some R → C p i s ts s' → Seen L p s s') {i R} (hi : ruleOf i = some R)
    {n p s ts s'} (h : Path ruleOf tokenType N C (N.stop i) n p s ts s') : Seen L p s s' := by
  induction h with
  | done => exact .inr ⟨hT.stop i R hi, rfl⟩
  | @step n p l q s ts s1 us s2 h1 h2 _ ih =>
    have he := hT.edge _ (mem_out h1)
    rw [edgeOk, Bool.and_eq_true] at he
    have he := he.2
    cases h2 with
    | eps =>
      rcases ih with ⟨k, h3, h4⟩ | ⟨h3, h4⟩
      · exact .inl ⟨k, h3, sub_bit he h4⟩
      · exact .inr ⟨sub_bit he h3, h4⟩
    | eof => exact .inl ⟨0, rfl, he⟩
    | set h3 h4 =>
      have := List.all_eq_true.mp he _ (mem_spread.mpr h4)
      exact .inl ⟨_, h3, this⟩
    | call h3 h4 =>
      simp only [Bool.and_eq_true, Bool.or_eq_true, Bool.not_eq_true'] at he
      rcases hC h3 h4 with ⟨k, h5, h6⟩ | ⟨h5, h6⟩
      · exact .inl ⟨k, h5, sub_bit he.1.1.1 (noNull_bit h5.lt h6)⟩
      · have h7 := he.1.1.2.resolve_left (by rw [h5]; simp)
        subst h6
        rcases ih with ⟨k, h8, h9⟩ | ⟨h8, h9⟩
        · exact .inl ⟨k, h8, sub_bit h7 h9⟩
        · exact .inr ⟨sub_bit h7 h8, h9⟩

theorem called_seen (hT : Tables N L F) : ∀ (d : Nat) {p i R s ts s'}, ruleOf i = some R → called ruleOf tokenType N d p i s ts s' → Seen L p s s'
  | 0, _, _, _, _, _, _, _, h => h.elim
  | d + 1, _, _, _, _, _, _, hi, ⟨_, h⟩ => path_seen hT (called_seen hT d) hi h

theorem runs_seen (hT : Tables N L F) {p i R s ts s'} (hi : ruleOf i = some R) (h : Runs ruleOf tokenType N p i s ts s') : Seen L p s s' :=
  called_seen hT _ hi h.choose_spec

/-- Call stacks: every state but the last calls the rule of the one before, the first calls rule `Q`; if nothing has called, `Q` ends with the end of the
input. -/
def Chain (N : Net) (F : Nat → Nat) : List Nat → Nat → Prop
  | [], Q => (F Q).testBit 0 = true ∧ Root N Q
  | st :: σ, Q => (∃ q, N.out st = [(.call (N.start Q) Q, q)]) ∧ (∃ R, ruleOf (ruleAt N st) = some R) ∧ Chain N F σ (ruleAt N st)

theorem Chain.proper {F : Nat → Nat} : ∀ {σ : List Nat} {Q}, Chain N F σ Q → Proper N σ Q
  | [], _, h => h.2
  | _ :: _, _, h => ⟨h.1, Chain.proper h.2.2⟩

theorem rest_seen (hT : Tables N L F) : ∀ (σ : List Nat) {Q s}, Chain N F σ Q → Rest N σ s → ∃ k, Head s k ∧ (F Q).testBit k = true
  | [], Q, s, hc, h => by
    cases (show s = [] from h)
    exact ⟨0, rfl, hc.1⟩
  | st :: σ, Q, s, ⟨⟨q, hq⟩, ⟨R, hR⟩, hc⟩, h => by
    obtain ⟨n, ts, s', h1, h2⟩ := h
    have hf : follow N st = q := by rw [follow, hq]
    rw [hf] at h1
    have hmem : (Label.call (N.start Q) Q, q) ∈ N.out st := by simp [hq]
    have he := hT.edge _ (mem_out hmem)
    rw [edgeOk, Bool.and_eq_true] at he
    have he := he.2
    simp only [Bool.and_eq_true, Bool.or_eq_true, Bool.not_eq_true'] at he
    rcases path_seen hT (runs_seen hT) hR h1 with ⟨k, h3, h4⟩ | ⟨h3, h4⟩
    · exact ⟨k, h3, sub_bit he.1.2 (noNull_bit h3.lt h4)⟩
    · subst h4
      obtain ⟨k, h5, h6⟩ := rest_seen hT σ hc h2
      exact ⟨k, h5, sub_bit (he.2.resolve_left (by rw [h3]; simp)) h6⟩

/-- If the network can go on to the end of the input, then the table knows what comes next. -/
theorem can_seen (hT : Tables N L F) {σ Q R p s} (hi : ruleOf Q = some R) (hc : Chain N F σ Q) (hp : ruleAt N p = Q)
    (h : CanN N (N.stop Q) (Rest N σ) p s) : ∃ k, Head s k ∧ (lookFar (ruleAt N) L F p).testBit k = true := by
  obtain ⟨n, ts, s', h1, h2⟩ := h
  rcases path_seen hT (runs_seen hT) hi h1 with ⟨k, h3, h4⟩ | ⟨h3, h4⟩
  · refine ⟨k, h3, ?_⟩
    rw [lookFar]
    split
    · rw [Nat.testBit_or, h4, Bool.true_or]
    · exact h4
  · subst h4
    obtain ⟨k, h5, h6⟩ := rest_seen hT σ hc h2
    refine ⟨k, h5, ?_⟩
    rw [lookFar, if_pos h3, Nat.testBit_or, hp, h6, Bool.or_true]

end

end Rfc5322.Gen
