import Verif.Proofs.AllStarNets
import Verif.Proofs.GenNets

/-!
# The network of the parser is as ALL(*) needs it

Checked by the kernel.
-/

namespace Rfc5322.AllStar

open Atn Gen

/-- The states after the end of the input. -/
def lateStates : List Nat := [382, 630, 633, 31, 635, 69]

/-- The state is one of these. -/
def lateN (q : Nat) : Bool := lateStates.any fun x => x == q

/-- What `Well` says of transitions. -/
def edgeWell (N : Net) (e : Edge) : Bool := (ruleAt N e.trg == ruleAt N e.src) && !isStop N e.src &&
  match e.label with
  | .eps => lateN e.trg == lateN e.src
  | .eof => rootB N (ruleAt N e.src) && !lateN e.src && lateN e.trg
  | .set _ => !lateN e.src && !lateN e.trg
  | .call a r => !lateN e.src && !lateN e.trg && ruleAt N a == r && decide (r < 67)

/-- What `Well` says of states. -/
def stateWell (N : Net) (q : Nat) : Bool :=
  (!isStop N q || (N.stop (ruleAt N q) == q && (!rootB N (ruleAt N q) || lateN q))) && decide (ruleAt N q < 67)

/-- What `Well` and `Decides` say. -/
def wellB (N : Net) : Bool := N.edges.all (edgeWell N) && (List.range N.states.length).all (stateWell N) && ((List.range 67).all fun r => isStop N (N.stop r)) &&
  (N.decisions.all fun p => !lateN p) && N.edges.all fun e => e.label == .eps || !N.decisions.any fun p => p == e.src

theorem rule_known {i : Nat} (h : i < 67) : ∃ R, ruleOf i = some R := by
  have h1 : rules.length = 67 := by decide
  exact ⟨_, List.getElem?_eq_getElem (h1 ▸ h)⟩

theorem well_of {N : Net} (h : wellB N = true) : Well N lateN ∧ Decides N lateN := by
  rw [wellB, Bool.and_eq_true, Bool.and_eq_true, Bool.and_eq_true, Bool.and_eq_true] at h
  obtain ⟨⟨⟨⟨h1, h2⟩, h3⟩, h4⟩, h5⟩ := h
  have edge : ∀ {p l q}, (l, q) ∈ N.out p → edgeWell N ⟨p, l, q⟩ = true := fun hm => List.all_eq_true.mp h1 _ (mem_out hm)
  have st : ∀ q, stateWell N q = true := by
    intro q
    rcases Nat.lt_or_ge q N.states.length with hq | hq
    · exact List.all_eq_true.mp h2 q (List.mem_range.mpr hq)
    · have e : N.states[q]? = none := List.getElem?_eq_none hq
      simp [stateWell, isStop, ruleAt, e]
  refine ⟨⟨?_, ?_, ?_, ?_, ?_, ?_, ?_, ?_, ?_, ?_⟩, ?_⟩
  · intro p l q hm
    have := edge hm
    simp [edgeWell] at this
    exact this.1.1
  · intro p l q hm
    have := edge hm
    simp [edgeWell] at this
    exact this.1.2
  · intro p q hm
    have := edge hm
    simp [edgeWell] at this
    exact this.2
  · intro p q hm
    have := edge hm
    simp [edgeWell] at this
    exact ⟨root_iff.mp this.2.1.1, this.2.1.2, this.2.2⟩
  · intro p is q hm
    have := edge hm
    simp [edgeWell] at this
    exact this.2
  · intro p a r q hm
    have := edge hm
    simp [edgeWell] at this
    exact ⟨this.2.1.1.1, this.2.1.1.2, this.2.1.2, rule_known this.2.2⟩
  · intro q hq
    have := st q
    simp [stateWell, hq] at this
    exact this.1.1
  · intro r R hr
    exact List.all_eq_true.mp h3 r (List.mem_range.mpr (ruleOf_lt hr))
  · intro p
    have := st p
    simp [stateWell] at this
    exact rule_known this.2
  · intro q hq hr
    have := st q
    simp [stateWell, hq, root_iff.mpr hr] at this
    exact this.1.2
  · intro p hp
    refine ⟨by simpa using List.all_eq_true.mp h4 p hp, fun e he => ?_⟩
    have h6 := List.all_eq_true.mp h5 _ (mem_out he)
    rw [Bool.or_eq_true] at h6
    rcases h6 with h6 | h6
    · simpa using h6
    · have : (N.decisions.any fun x => x == p) = true := List.any_eq_true.mpr ⟨p, hp, by simp⟩
      simp only [this] at h6
      cases h6

-- one after the other, in pieces: otherwise the kernel needs a lot of memory
set_option Elab.async false

theorem edges_a : (parserNet.edges.take 500).all (edgeWell parserNet) = true := by decide +kernel
theorem edges_b : ((parserNet.edges.drop 500).take 250).all (edgeWell parserNet) = true := by decide +kernel
theorem edges_c : (((parserNet.edges.drop 500).drop 250).take 200).all (edgeWell parserNet) = true := by decide +kernel
theorem edges_d : ((((parserNet.edges.drop 500).drop 250).drop 200).take 200).all (edgeWell parserNet) = true := by decide +kernel
theorem edges_e : ((((parserNet.edges.drop 500).drop 250).drop 200).drop 200).all (edgeWell parserNet) = true := by decide +kernel
theorem states_a : ((List.range parserNet.states.length).take 500).all (stateWell parserNet) = true := by decide +kernel
theorem states_b : (((List.range parserNet.states.length).drop 500).take 250).all (stateWell parserNet) = true := by decide +kernel
theorem states_c : ((((List.range parserNet.states.length).drop 500).drop 250).take 150).all (stateWell parserNet) = true := by decide +kernel
theorem states_d : ((((List.range parserNet.states.length).drop 500).drop 250).drop 150).all (stateWell parserNet) = true := by decide +kernel
theorem stops : ((List.range 67).all fun r => isStop parserNet (parserNet.stop r)) = true := by decide +kernel
theorem decisions_early : (parserNet.decisions.all fun p => !lateN p) = true := by decide +kernel
theorem decisions_silent : (parserNet.edges.all fun e => e.label == .eps || !parserNet.decisions.any fun p => p == e.src) = true := by decide +kernel

theorem parser_well : wellB parserNet = true := by
  rw [wellB, (all_parts 500 edges_a (all_parts 250 edges_b (all_parts 200 edges_c (all_parts 200 edges_d edges_e)))), (all_parts 500 states_a (all_parts 250 states_b (all_parts 150 states_c states_d))), stops, decisions_early, decisions_silent]
  rfl

/-- ALL(*) on the network of the parser. -/
noncomputable def parserRuntime (G : Graphs) : Runtime parserNet := runtime G (well_of parser_well).1 (well_of parser_well).2

end Rfc5322.AllStar
