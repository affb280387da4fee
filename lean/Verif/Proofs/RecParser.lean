import Verif.Proofs.RecSim
import Verif.Proofs.RecPredict
import Verif.Proofs.AllStarParser

/-!
# The functions of this package recover from errors

The tables are checked by the kernel.
-/

namespace Rfc5322.Recovery

open Atn Gen AllStar Relation

/-! ## The lookahead table -/

section
variable {N : Net} {late : Nat → Bool} {L F : Nat → Nat}

/-- Bit `k` of what comes next: within this rule, or after it. -/
def eff (L : Nat → Nat) (k : Nat) : Nat → List Nat → Prop
  | q, [] => (L q).testBit k = true
  | q, x :: st => k < 71 ∧ (L q).testBit k = true ∨ (L q).testBit nullBit = true ∧ eff L k x st

theorem eff_mono {k p q : Nat} (h : sub (L q) (L p) = true) : ∀ {st}, eff L k q st → eff L k p st
  | [], he => sub_bit h he
  | _ :: _, .inl ⟨h1, h2⟩ => .inl ⟨h1, sub_bit h h2⟩
  | _ :: _, .inr ⟨h1, h2⟩ => .inr ⟨sub_bit h h1, h2⟩

theorem eff_low {k p : Nat} (hk : k < 71) (h : (L p).testBit k = true) : ∀ {st}, eff L k p st
  | [] => h
  | _ :: _ => .inl ⟨hk, h⟩

theorem stop_null (W : Well N late) (hT : Gen.Tables N L F) {q} (h : isStop N q = true) : (L q).testBit nullBit = true := by
  obtain ⟨R, hR⟩ := W.known q
  have := hT.stop _ R hR
  rw [W.stop h] at this
  exact this

theorem eff_moves (W : Well N late) (hT : Gen.Tables N L F) {k x y} (h : Moves N true false x y) (he : eff L k y.1 y.2) : eff L k x.1 x.2 := by
  cases h with
  | eps hm =>
    have := hT.edge _ (mem_out hm)
    rw [edgeOk, Bool.and_eq_true] at this
    exact eff_mono this.2 he
  | eof h => cases h
  | call hm =>
    have := hT.edge _ (mem_out hm)
    rw [edgeOk, Bool.and_eq_true] at this
    have h1 := this.2
    simp only [Bool.and_eq_true, Bool.or_eq_true, Bool.not_eq_true'] at h1
    rcases he with ⟨h2, h3⟩ | ⟨h2, h3⟩
    · exact eff_low h2 (sub_bit h1.1.1.1 (noNull_bit h2 h3))
    · exact eff_mono (h1.1.1.2.resolve_left (by rw [h2]; simp)) h3
  | ret hs => exact .inr ⟨stop_null W hT hs, he⟩
  | out h => cases h

theorem eff_star (W : Well N late) (hT : Gen.Tables N L F) {k x y} (h : ReflTransGen (Moves N true false) x y) (he : eff L k y.1 y.2) : eff L k x.1 x.2 := by
  induction h with
  | refl => exact he
  | tail _ h1 ih => exact ih (eff_moves W hT h1 he)

/-- What comes next is in the table. -/
theorem look_next (W : Well N late) (hT : Gen.Tables N L F) {p s} (h : nextTokens N p s.head?) :
    (∃ k, Head s k ∧ (L p).testBit k = true) ∨ (L p).testBit nullBit = true := by
  rcases h with ⟨q, st, l, x, h1, h2, h3⟩ | ⟨q, h1, h2⟩
  · have he := hT.edge _ (mem_out h2)
    rw [edgeOk, Bool.and_eq_true] at he
    have he := he.2
    have : ∃ k, Head s k ∧ (L q).testBit k = true := by
      cases s with
      | nil =>
        cases takes_none h3
        exact ⟨0, rfl, he⟩
      | cons c s =>
        obtain ⟨is, k, rfl, h4, h5⟩ := takes_some h3
        exact ⟨k, h4, List.all_eq_true.mp he _ (mem_spread.mpr h5)⟩
    obtain ⟨k, h4, h5⟩ := this
    exact .inl ⟨k, h4, eff_star W hT h1 (eff_low h4.lt h5)⟩
  · exact .inr (eff_star W hT h1 (stop_null W hT h2))

theorem lookMask_bit {m : Nat} {s : List Char} (h : (∃ k, Head s k ∧ m.testBit k = true) ∨ m.testBit nullBit = true) :
    (lookMask m).testBit (bitOf (la1 s)) = true := by
  rw [lookMask]
  by_cases hn : m.testBit nullBit = true
  · rw [if_pos hn]
    exact full_bit s
  · rw [if_neg hn]
    obtain ⟨k, h1, h2⟩ := h.resolve_right hn
    have hk := h1.lt
    rw [h1.la, laOf, bitOf, Nat.testBit_or]
    by_cases h0 : k = 0
    · subst h0
      simpa using h2
    · rw [if_neg h0]
      have e : ((k : Int) + 1).toNat = k + 1 := by omega
      rw [e, Nat.testBit_shiftLeft, Nat.testBit_and]
      have h3 : (2 ^ 71 - 2).testBit k = true := by
        have : ∀ k, k < 71 → k ≠ 0 → (2 ^ 71 - 2 : Nat).testBit k = true := by decide
        exact this k hk h0
      simp [h2, h3]

end

/-! ## The tables -/

/-- The types that the alternatives of the decisions may begin with. -/
def altTable : List (List Nat) :=
  [[4722366465277459167232, 1040], [34359738368, 34359738368], [1040, 256], [1296, 1040], [1040, 4722366482869645213695], [1296, 1040],
   [4722366412500901036032, 2048, 4096, 8192, 16384, 32768, 65536, 131072, 1048576, 2097152, 4194304, 8388608, 16777216, 33554432, 67108864, 134217728, 268435456, 536870912, 1073741824, 2147483648, 4294967296, 8589934592, 17179869184, 68719476736, 137438953472, 274877906944, 549755813888, 1099511627776, 2199023255552, 4398046511104, 8796093022208, 17592186045128, 35184372088832],
   [4722366482835284687560, 34359738368, 262144], [1296, 4722366482869644688072], [4722366482869644689368, 525584], [1296, 524288], [1296, 262144],
   [263440, 4722366482869645213695], [1296, 4722366482869645213695], [263440, 1296],
   [4722366412500901036032, 67108864, 2048, 8192, 16384, 32768, 65536, 131072, 1048576, 2097152, 8388608, 33554432, 1073741824, 4294967296, 137438953472, 274877906944, 549755813888, 1099511627776, 2199023255552, 4398046511104, 8796093022208, 35184372088832],
   [4722366465145501378560, 4722366482869645213695], [4722366465145501378560, 4722366482869645213695], [4722366465145501378560, 4722366482869645213695],
   [16777216, 4722366482869645213695], [16777216, 4722366482869645213695],
   [4722366412500901036032, 2048, 8192, 16384, 32768, 65536, 131072, 262144, 524288, 1048576, 2097152, 4194304, 8388608, 16777216, 33554432, 67108864, 134217728, 268435456, 536870912, 1073741824, 2147483648, 4294967296, 8589934592, 17179869184, 68719476736, 137438953472, 274877906944, 549755813888, 1099511627776, 2199023255552, 4398046511104, 8796093022208, 17592186045128, 35184372088832],
   [4722366482835285469896, 34359738368], [1296, 4722366482869645208264], [4722366482869645209560, 4722366482869645213695], [1296, 4096],
   [263440, 1073741824], [263440, 4722366482869645213695], [1074005264, 4722366482869645213695], [263440, 4722366465145501378560],
   [263440, 4722366482869645213695], [263440, 4096], [263440, 4722366482869645213695], [1074005264, 4722366465145501642000, 267536],
   [350778619576447141136, 67372304], [134217728, 76386960654714799377], [76386960654714537232, 263441], [263440, 1], [1296, 350778619576446877696],
   [263440, 350778619576446877696], [263440, 4722366482869645213695], [350778619576446878992, 350778619576447141136],
   [288230376151711744, 36893488147419103232, 295147905179352825856, 36893488147419103232, 2251799813685248, 18446744073709551616, 18446744073709551616],
   [1296, 67108864], [67108864, 1296], [263440, 67108864], [67108864, 4722366482869645213695], [263440, 4722366482869645213695], [67110160, 67372304],
   [36028797018963968, 2251799813685248, 288230376151711744, 70368744177664, 288230376151711744, 36028797018963968, 36028797018963968, 70368744177664, 18446744073709551616, 1152921504606846976, 576460752303423488, 562949953421312],
   [263440, 67108864], [263440, 4722366482869645213695], [1296, 67372304], [67108864, 67108864], [263440, 67108864], [67108864, 67108864],
   [263440, 4722366482869645213695], [67108864, 67372304], [263440, 67108864], [263440, 4722366482869645213695], [67108864, 67372304],
   [263440, 67108864], [263440, 4722366482869645213695], [67108864, 67372304], [10485760, 67108864], [1296, 76386960654714535936],
   [4722366465146038517008, 4722366465145501646096], [4722366465146038517008, 4722366465145501646096], [4722366465145501646096, 537134352],
   [263440, 536870912], [4722366465145501646096, 2147483648], [263440, 4722366482869645213695], [537134352, 537134352], [4096, 4722366465145501646096],
   [4722366465146042711312, 4722366482869645213695], [4096, 4722366482869645213695], [268435456, 4722366482869645213695],
   [263440, 4722366482869645213695], [4722366465145501646096, 4722366482869645213695], [4722366465145501646096, 8606711808, 263440],
   [4722366465154108357904, 4722366482869645213695], [4722366465145501646096, 4722366465145501646096], [4194304, 4722366482869645213695],
   [4722366465146038517008, 4722366465146042711312], [272629760, 1], [4722366465146038517008, 4722366465146042711312],
   [4722366465146042711312, 263440, 4457744], [134217728, 4722366482869645213695], [263440, 4722366465145501378560], [263440, 4722366482869645213695],
   [263440, 4096], [263440, 4722366482869645213695], [4722366465145501642000, 267536, 4722366465145501646096], [67108864, 4722366482869645213695],
   [263440, 4722366465145501378560], [263440, 4722366482869645213695], [263440, 17179869184], [263440, 4722366482869645213695],
   [263440, 4722366465145501378560], [263440, 4722366482869645213695], [4722366465145501642000, 17180132624, 4722366465145501642000],
   [1296, 4722366465157200082944], [4722366465157200084240, 68719478032], [1296, 68719476736],
   [4722366412500901036032, 2048, 4096, 8192, 16384, 32768, 65536, 131072, 262144, 524288, 1048576, 2097152, 4194304, 8388608, 16777216, 33554432, 67108864, 134217728, 268435456, 536870912, 1073741824, 2147483648, 4294967296, 8589934592, 137438953472, 274877906944, 549755813888, 1099511627776, 2199023255552, 4398046511104, 8796093022208, 35184372088832],
   [4, 17592186045128, 32, 256], [1040, 256], [1040, 4722366482869645213695],
   [73786976294838206464, 73786976294838206464, 4503599627370496, 1125899906842624, 1125899906842624, 281474976710656, 281474976710656, 288230376151711744, 288230376151711744, 2305843009213693952, 2305843009213693952],
   [263440, 536870912], [263440, 4722366482869645213695], [263440, 4194304], [4457744, 8589934592], [263440, 4722366482869645213695],
   [8589934592, 4722366482869645213695], [4194304, 4722366482869645213695], [263440, 4194304], [4457744, 4722366465146038517008],
   [4722366465146038517008, 263440, 4722366482869645213695], [4194304, 4722366482869645213695], [263440, 4194304], [4457744, 4722366465146038517008],
   [4722366465146038517008, 263440, 4722366482869645213695], [4194304, 4722366482869645213695], [263440, 4194304], [4457744, 4722366482869645213695],
   [263440, 4722366482869645213695], [16777216, 4722366482869645213695], [16777216, 4722366482869645213695],
   [4722366429990086764544, 4722366482869645213695],
   [4722366412500901036032, 2048, 8192, 16384, 32768, 65536, 131072, 1048576, 2097152, 8388608, 67108864, 34359738368, 137438953472, 274877906944, 549755813888, 1099511627776, 2199023255552, 4398046511104, 8796093022208],
   [4722366430088792111104, 4722366482869645213695],
   [4722366412500901036032, 2048, 4096, 8192, 16384, 32768, 65536, 131072, 262144, 524288, 1048576, 2097152, 4194304, 8388608, 16777216, 33554432, 67108864, 134217728, 268435456, 536870912, 1073741824, 2147483648, 8589934592, 17179869184, 34359738368, 68719476736, 137438953472, 274877906944, 549755813888, 1099511627776, 2199023255552, 4398046511104, 8796093022208],
   [4722366412500901036032, 2048, 4096, 8192, 16384, 32768, 65536, 131072, 262144, 524288, 1048576, 2097152, 4194304, 8388608, 16777216, 33554432, 67108864, 134217728, 268435456, 536870912, 1073741824, 2147483648, 4294967296, 8589934592, 17179869184, 34359738368, 68719476736, 137438953472, 274877906944, 549755813888, 1099511627776, 2199023255552, 4398046511104, 8796093022208, 35184372088832]]

/-- The alternatives of a decision. -/
def altN (d : Nat) : List Nat := altTable.getD d []

/-- The types that may still be that of the next token when a function ends. -/
def stayTable : List Nat :=
  [1, 1, 1, 1, 1, 1, 1, 1, 1, 1, 1, 1, 4722366482869645213695, 4722366482869645208303, 1, 1, 1, 1, 1, 1, 1, 1, 1, 1, 4722366482869567619071, 1, 1, 1, 1,
   1, 1, 4722366482861038501887, 1, 1, 1, 1, 1, 1, 4722366482869578104831, 1, 1, 1, 4722366465277459168567, 4722366465277459168567,
   4722366465277459168567, 1, 4722366482869645212367, 1, 1, 1, 1, 1, 1, 4722366482869640755951, 1, 1, 1, 1, 1, 1, 1, 1, 1, 4722366482869645213407,
   4722366482869645212655, 1, 70368744177663]

/-- The same, by function. -/
def stayN (R : Rule) : Nat := stayTable.getD (rules.idxOf R) 0

/-- The ranks of the functions if the next token is `(`. -/
def ranksA : List Nat :=
  [3, 2, 2, 2, 3, 2, 3, 2, 3, 3, 2, 3, 4, 5, 4, 5, 4, 2, 4, 2, 4, 4, 4, 4, 2, 2, 9, 8, 6, 5, 6, 2, 5, 10, 11, 11, 7, 6, 2, 4, 3, 2, 2, 3, 3, 2, 3, 2, 4,
   5, 4, 9, 10, 4, 5, 4, 5, 4, 4, 3, 2, 3, 2, 2, 2, 2, 2]

/-- The ranks of the functions if the next token is another. -/
def ranksB : List Nat :=
  [4, 4, 4, 4, 5, 6, 5, 3, 4, 4, 4, 5, 6, 7, 8, 7, 6, 2, 6, 2, 6, 6, 6, 6, 2, 5, 16, 15, 14, 13, 10, 2, 9, 17, 18, 18, 11, 10, 2, 6, 5, 3, 2, 3, 3, 3,
   3, 2, 12, 8, 7, 16, 17, 6, 9, 5, 6, 5, 5, 4, 3, 4, 3, 2, 2, 3, 2]

/-- The bit of `(`. -/
def parenBit : Nat := 18

/-- Ranks. -/
def rankR (R : Rule) (b : Nat) : Nat := if b = parenBit then ranksA.getD (rules.idxOf R) 2 else ranksB.getD (rules.idxOf R) 2

/-- The types with which the rank of `R'` is less than that of `R`. -/
def belowR (R R' : Rule) : Nat :=
  (if rankR R' parenBit < rankR R parenBit then 1 <<< parenBit else 0) ||| if rankR R' 0 < rankR R 0 then other (1 <<< parenBit) else 0

theorem alt_table : (altTable == parserNet.decisions.map fun p => ((Trie.build 11 parserNet.edges).out p).map fun e => lookMask (lookN e.2)) = true := by
  decide +kernel

theorem brisk_table : (rules.all fun R => brisk altN stayN 1027 (code R)) = true := by decide +kernel

theorem stay_table : (rules.all fun R => sub (stay altN stayN (code R)) (stayN R) && (stayN R).testBit 0) = true := by decide +kernel

theorem fine_table : (rules.all fun R => fine altN stayN (belowR R) full (code R)) = true := by decide +kernel

theorem rank_table : (rules.all fun R => [0, parenBit].all fun b => decide (2 ≤ rankR R b) && decide (rankR R b < 19)) = true := by decide +kernel

theorem rankR_other {b : Nat} (hb : b ≠ parenBit) (R : Rule) : rankR R b = rankR R 0 := by
  rw [rankR, rankR, if_neg hb, if_neg (by decide)]

theorem rankR_bounds (R : Rule) (b : Nat) : 2 ≤ rankR R b ∧ rankR R b < 19 := by
  have h := List.all_eq_true.mp rank_table R (mem_rules R)
  by_cases hb : b = parenBit
  · have := List.all_eq_true.mp h b (by simp [hb])
    simpa using this
  · rw [rankR_other hb]
    have := List.all_eq_true.mp h 0 (by simp)
    simpa using this

theorem belowR_lt {R R' : Rule} {b : Nat} (h : (belowR R R').testBit b = true) : rankR R' b < rankR R b := by
  rw [belowR, Nat.testBit_or, Bool.or_eq_true] at h
  by_cases hb : b = parenBit
  · subst hb
    rcases h with h | h
    · split at h
      · assumption
      · simp at h
    · exfalso
      split at h
      · have : (other (1 <<< parenBit)).testBit parenBit = false := by decide
        rw [this] at h
        cases h
      · simp at h
  · rw [rankR_other hb, rankR_other hb]
    rcases h with h | h
    · exfalso
      split at h
      · rw [Nat.one_shiftLeft, Nat.testBit_two_pow] at h
        simp at h
        exact hb h.symm
      · simp at h
    · split at h
      · assumption
      · simp at h

theorem parser_predict {G : Graphs} {d σ s n} (h : (parserRuntime G).predict d σ s = some n) : adaptivePredict G parserNet d σ s = .alt n := by
  unfold parserRuntime at h
  generalize well_of parser_well = hw at h
  exact runtime_predict.mp h

theorem parser_sync {G : Graphs} (st : Nat) (σ : List Nat) (s : List Char) : (parserRuntime G).sync st σ s = AllStar.sync parserNet st s := by
  unfold parserRuntime
  generalize well_of parser_well = hw
  exact runtime_sync

theorem altN_of {N : Net} {l : List (List Nat)} (h : (l == N.decisions.map fun p => ((Trie.build 11 N.edges).out p).map fun e => lookMask (lookN e.2)) = true)
    {d p : Nat} (hd : N.decisions[d]? = some p) : l.getD d [] = (N.out p).map fun e => lookMask (lookN e.2) := by
  have h4 := eq_of_beq h
  have h5 : (Trie.build 11 N.edges).out = N.out := funext fun p => out_build N p
  rw [h5] at h4
  rw [h4, List.getD_eq_getElem?_getD, List.getElem?_map, hd]
  rfl

/-- Predictions are as the table says. -/
theorem apt_of {N : Net} {late : Nat → Bool} {F : Nat → Nat} {G : Graphs} {A : Nat → List Nat} (W : Well N late) (hT : Gen.Tables N lookN F)
    (hA : ∀ {d p}, N.decisions[d]? = some p → A d = (N.out p).map fun e => lookMask (lookN e.2)) {d σ s n} (h1 : adaptivePredict G N d σ s = .alt n) :
    (mayBe A d n).testBit (bitOf (la1 s)) = true := by
  cases hd : N.decisions[d]? with
  | none => rw [adaptivePredict, hd] at h1; cases h1
  | some p =>
    obtain ⟨i, e, rfl, h2, h3⟩ := adaptivePredict_begins hd h1
    rw [mayBe, if_neg (Nat.succ_ne_zero i), hA hd, Nat.add_sub_cancel, List.getD_eq_getElem?_getD, List.getElem?_map, h2]
    exact lookMask_bit (look_next W hT h3)

theorem parser_apt (G : Graphs) : Apt (parserRuntime G).predict altN := fun _ _ _ _ h =>
  apt_of (well_of parser_well).1 parser_checked.tables (altN_of alt_table) (parser_predict h)

/-- The functions end. -/
theorem parser_ends (G : Graphs) {n R σ S} (h : (S.rest.length + 1) * 1029 * 19 + 19 ≤ n) :
    runRule parserNet (parserRuntime G).predict code n R σ S ≠ .timeout := by
  refine runRule_ends (K := 1027) (D := 19) (rank := rankR) (lt := belowR) (T := stayN) (parser_apt G)
    (fun R => List.all_eq_true.mp brisk_table R (mem_rules R)) ?_ ?_ (fun R b => (rankR_bounds R b).2) (fun R b => (rankR_bounds R b).1)
    (fun R R' b => belowR_lt) (fun R => List.all_eq_true.mp fine_table R (mem_rules R)) n R σ S ?_
  · intro R b hb
    have := List.all_eq_true.mp stay_table R (mem_rules R)
    rw [Bool.and_eq_true] at this
    exact sub_bit this.1 hb
  · intro R
    have := List.all_eq_true.mp stay_table R (mem_rules R)
    rw [Bool.and_eq_true] at this
    exact this.2
  · have h1 := Nat.mul_le_mul_right 19 (measure_le (K := 1027) S)
    have h2 := (rankR_bounds R (bitOf (la1 S.rest))).2
    omega

end Rfc5322.Recovery
