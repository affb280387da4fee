import Verif.Proofs.GenTerm
import Verif.Proofs.GenPref
import Verif.Proofs.GenLook
import Verif.Proofs.AtnNets
import Mathlib.Data.Nat.Find

/-!
# The generated functions of this package
-/

namespace Rfc5322.Gen

open Atn

/-- What can come next in a state, within the rule. -/
def lookN (p : Nat) : Nat := ((lookTable[p / 128]?).getD []).getD (p % 128) 0

/-- What can come after a rule. -/
def followN (i : Nat) : Nat := followTable.getD i 0

/-- All functions but one consume a token. -/
def eatsN (R : Rule) : Bool := R != .quotedValue

/-- Ranks, by number of the rule. -/
def ranks : List Nat :=
  [2, 1, 2, 2, 3, 0, 3, 1, 2, 2, 2, 3, 4, 0, 4, 5, 4, 0, 4, 0, 4, 4, 4, 4, 0, 3, 9, 8, 6, 5, 6, 0, 5, 10, 11, 11, 7, 6, 0,
   4, 0, 1, 0, 1, 1, 0, 1, 0, 4, 5, 4, 9, 10, 4, 5, 3, 0, 3, 3, 2, 1, 2, 1, 0, 0, 1, 0]

/-- A function calls functions of smaller rank, as long as it has not consumed a token. -/
def rankN (R : Rule) : Nat := ranks.getD (rules.idxOf R) 0

/-- The tables agree with the transitions. -/
def tablesOk (N : Net) : Bool := N.edges.all (edgeOk (ruleAt N) lookN followN) && (List.range 67).all fun i => (lookN (N.stop i)).testBit nullBit

/-- The functions agree with the network. -/
def codesOk (N : Net) : Bool := (List.range 67).all fun i => match ruleOf i with
  | some R => chkRule (Trie.build 11 N.edges).out N.start N.decisions (ruleAt N) (lookFar (ruleAt N) lookN followN) i (N.stop i) (code R)
  | none => false

/-- The functions terminate. -/
def tameOk (N : Net) : Bool := rules.all fun R =>
  (!eatsN R || eats (Trie.build 11 N.edges).out N.decisions eatsN (code R)) && tame (Trie.build 11 N.edges).out N.decisions eatsN rankN (rankN R) (code R)

theorem all_parts {α : Type} {f : α → Bool} {l : List α} (n : Nat) (h1 : (l.take n).all f = true) (h2 : (l.drop n).all f = true) : l.all f = true := by
  rw [← List.take_append_drop n l, List.all_append, h1, h2]; rfl

-- one after the other, in pieces: otherwise the kernel needs a lot of memory
set_option Elab.async false

theorem edges_a : (parserNet.edges.take 500).all (edgeOk (ruleAt parserNet) lookN followN) = true := by decide +kernel
theorem edges_b : ((parserNet.edges.drop 500).take 300).all (edgeOk (ruleAt parserNet) lookN followN) = true := by decide +kernel
theorem edges_c : (((parserNet.edges.drop 500).drop 300).take 250).all (edgeOk (ruleAt parserNet) lookN followN) = true := by decide +kernel
theorem edges_d : (((parserNet.edges.drop 500).drop 300).drop 250).all (edgeOk (ruleAt parserNet) lookN followN) = true := by decide +kernel
theorem stops_null : ((List.range 67).all fun i => (lookN (parserNet.stop i)).testBit nullBit) = true := by decide +kernel

theorem parser_tables : tablesOk parserNet = true := by
  rw [tablesOk, all_parts 500 edges_a (all_parts 300 edges_b (all_parts 250 edges_c edges_d)), stops_null]
  rfl

/-- One function. -/
def codeOk (N : Net) (i : Nat) : Bool := match ruleOf i with
  | some R => chkRule (Trie.build 11 N.edges).out N.start N.decisions (ruleAt N) (lookFar (ruleAt N) lookN followN) i (N.stop i) (code R)
  | none => false

theorem codes_a : ((List.range 67).take 20).all (codeOk parserNet) = true := by decide +kernel
theorem codes_b : (((List.range 67).drop 20).take 20).all (codeOk parserNet) = true := by decide +kernel
theorem codes_c : ((((List.range 67).drop 20).drop 20).take 12).all (codeOk parserNet) = true := by decide +kernel
theorem codes_d : ((((List.range 67).drop 20).drop 20).drop 12).all (codeOk parserNet) = true := by decide +kernel

theorem parser_codes : codesOk parserNet = true := all_parts 20 codes_a (all_parts 20 codes_b (all_parts 12 codes_c codes_d))

theorem parser_tame : tameOk parserNet = true := by decide +kernel

set_option Elab.async true

theorem ruleOf_lt {i : Nat} {R : Rule} (hi : ruleOf i = some R) : i < 67 := by
  have h : rules.length = 67 := by decide
  rw [← h]
  exact (List.getElem?_eq_some_iff.mp hi).1

/-- No transition calls the rule. -/
def rootB (N : Net) (r : Nat) : Bool := N.edges.all fun e => match e.label with
  | .call _ i => i != r
  | _ => true

theorem root_iff {N : Net} {r : Nat} : rootB N r = true ↔ Root N r := by
  rw [rootB, List.all_eq_true]
  constructor
  · intro h e he a ha
    have := h e he
    rw [ha] at this
    simp at this
  · intro h e he
    cases hl : e.label with
    | call a i => have := h e he a; rw [hl] at this; simp; rintro rfl; exact this rfl
    | _ => rfl

theorem mem_rules (R : Rule) : R ∈ rules := by cases R <;> decide

theorem checked_of {N : Net} (h1 : tablesOk N = true) (h2 : codesOk N = true) : Checked N code lookN followN where
  tables := by
    rw [tablesOk, Bool.and_eq_true] at h1
    exact ⟨List.all_eq_true.mp h1.1, fun i R hi => List.all_eq_true.mp h1.2 i (List.mem_range.mpr (ruleOf_lt hi))⟩
  rule i R hi := by
    have := List.all_eq_true.mp h2 i (List.mem_range.mpr (ruleOf_lt hi))
    rw [hi] at this
    have e : (Trie.build 11 N.edges).out = N.out := funext fun p => out_build N p
    rw [e] at this
    exact this

theorem parser_checked : Checked parserNet code lookN followN := checked_of parser_tables parser_codes

theorem tame_of {N : Net} (h : tameOk N = true) : (∀ R, eatsN R = true → eats N.out N.decisions eatsN (code R) = true) ∧
    ∀ R, tame N.out N.decisions eatsN rankN (rankN R) (code R) = true := by
  have e : (Trie.build 11 N.edges).out = N.out := funext fun p => out_build N p
  rw [tameOk, e] at h
  constructor
  · intro R hR
    have := List.all_eq_true.mp h R (mem_rules R)
    rw [Bool.and_eq_true] at this
    simpa [hR] using this.1
  · intro R
    have := List.all_eq_true.mp h R (mem_rules R)
    rw [Bool.and_eq_true] at this
    exact this.2

theorem rankN_lt (R : Rule) : rankN R < 12 := by cases R <;> decide +kernel

variable {T : Runtime parserNet}

/-- The functions terminate. -/
theorem generated_ends {n R σ} {s : List Char} (h : (s.length + 2) * 12 ≤ n) : runRule code T n R σ s ≠ .timeout := by
  obtain ⟨h1, h2⟩ := tame_of parser_tame
  have := rankN_lt R
  exact runRule_ends rankN_lt h1 h2 n R σ s (by omega)

/-- A run without an error is a path. -/
theorem generated_sound {n i R σ s ts s'} (hi : ruleOf i = some R) (h : runRule code T n R σ s = .ok ts s') :
    Runs ruleOf tokenType parserNet (parserNet.start i) i s ts s' := runRule_sound parser_checked n R σ s ts s' i hi h

/-- If there is a preferred path, it is followed. -/
theorem generated_pref {n i R σ s ts s'} (hi : ruleOf i = some R) (hc : Chain parserNet followN σ i)
    (h : Prefers ruleOf tokenType parserNet (Rest parserNet σ) (parserNet.start i) i s ts s') (hn : (s.length + 2) * 12 ≤ n) :
    runRule code T n R σ s = .ok ts s' := by
  obtain ⟨d, hd⟩ := h
  obtain ⟨f0, hf⟩ := runRule_sim (T := T) parser_checked d i R σ s ts s' hi hc hd
  have h1 := hf (max f0 n) (by omega)
  rcases runRule_le (T := T) (code := code) R σ s (show n ≤ max f0 n by omega) with h2 | h2
  · exact absurd h2 (generated_ends hn)
  · exact h2.trans h1

open Classical in
/-- A runtime as described exists. -/
theorem Runtime.nonempty (N : Net) : Nonempty (Runtime N) := by
  refine ⟨⟨fun d σ s => match N.decisions[d]? with
    | none => none
    | some p => if h : ∃ i, CanEndBy N σ p i s then some (Nat.find h + 1) else none, fun st σ s => decide (CanEnd N σ st s), ?_, ?_, ?_⟩⟩
  · intro d p σ s i hd _ hi hmin
    rw [hd]
    have h : ∃ i, CanEndBy N σ p i s := ⟨i, hi⟩
    dsimp only
    rw [dif_pos h]
    have h1 : Nat.find h ≤ i := Nat.find_min' h hi
    have h2 : ¬ Nat.find h < i := fun hlt => hmin _ hlt (Nat.find_spec h)
    rw [show Nat.find h = i by omega]
  · intro d p σ s n hd hn
    rw [hd] at hn
    dsimp only at hn
    split at hn
    · rename_i h
      cases hn
      obtain ⟨e, he, _⟩ := Nat.find_spec h
      have := (List.getElem?_eq_some_iff.mp he).1
      omega
    · cases hn
  · intro st σ s _ h
    simpa using h

end Rfc5322.Gen
