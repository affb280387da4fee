import Verif.Model.AllStar

/-!
# The tables of the first stage

What the first stage finds out does not depend on the callers and is kept for later predictions, one table per decision (`DFA`), shared by all parsers of the process
(`staticData.decisionToDFA`, /repo/parser/rfc5322_parser.go:605-609).  Two predictions may run at the same time, in two goroutines.

Simplified: a table entry is written at once; the runtime holds a lock.
-/

namespace Rfc5322.AllStar

open Atn Gen

/-- What tables are asked for: the type of a token, or the end of the input. -/
def key (t : Option Char) : Option (Option Nat) := t.map tokenType

/-- Tables: for every decision the configurations before the first token (`DFA.s0`); for a set of configurations and a token, the configurations after it
(`DFAState.edges`), empty if there are none (`ATNSimulatorError`). -/
structure Tables where
  start : Nat → Option Configs
  edge : Configs → Option (Option Nat) → Option Configs

/-- No entries. -/
def Tables.empty : Tables := ⟨fun _ => none, fun _ _ => none⟩

section
variable (G : Graphs) (N : Net)

open Classical in
/-- A prediction adds an entry (`P.AdaptivePredict`, `P.computeTargetState`, `P.addDFAEdge`). -/
inductive Grows : Tables → Tables → Prop where
  | start {κ : Tables} {d p : Nat} : N.decisions[d]? = some p →
      Grows κ { κ with start := fun d' => if d' = d then some (startState G N false [] p) else κ.start d' }
  | edge {κ : Tables} {C : Configs} {t : Option Char} :
      Grows κ { κ with edge := fun C' k => if C' = C ∧ k = key t then some (reachSet G N false C t) else κ.edge C' k }

/-- Tables as they can be after any number of predictions, complete or not, in any order. -/
def Occurs (κ : Tables) : Prop := Relation.ReflTransGen (Grows G N) Tables.empty κ

/-- The configurations after a token: looked up, or computed if there is no entry (`P.getExistingTargetState`, `P.computeTargetState`). -/
noncomputable def target (κ : Tables) (C : Configs) (t : Option Char) : Configs := (κ.edge C (key t)).getD (reachSet G N false C t)

/-- The first stage with tables; `κ n` are the tables at the moment of the lookup number `n`. -/
noncomputable def execWith (κ : Nat → Tables) (F : Nat → Prop) (full : Answer) : Nat → Configs → List Char → Answer
  | n, C, [] => roundSLL G N F full C (target G N (κ n) C none) .again
  | n, C, c :: s => roundSLL G N F full C (target G N (κ n) C (some c)) (execWith κ (fun _ => True) full (n + 1) (target G N (κ n) C (some c)) s)

/-- `P.AdaptivePredict` with tables. -/
noncomputable def predictWith (κ : Nat → Tables) (d : Nat) (σ : List Nat) (s : List Char) : Answer :=
  match N.decisions[d]? with
  | none => .panic
  | some p => execWith G N κ (leaves N p) (execLL G N (leaves N p) (startState G N true σ p) s) 1 (((κ 0).start d).getD (startState G N false [] p)) s

end

end Rfc5322.AllStar
