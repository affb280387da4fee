import Verif.Model.Generated
import Mathlib.Logic.Relation

/-!
# The prediction of the ANTLR runtime

`AdaptivePredict` and `Sync`, which the generated functions call (/repo/parser/rfc5322_parser.go:872-14929), belong to the runtime named in /repo/go.mod:6, which is not
part of /repo.  `Runtime` in `Verif/Model/Generated.lean` says what the functions need of them.  Here is what the runtime does: the algorithm ALL(*) (Parr, Harwell,
Fisher, *Adaptive LL(\*) Parsing*, 2014) the way `parser_atn_simulator.go`, `prediction_mode.go`, `ll1_analyzer.go` and `error_strategy.go` have it, written down from
memory.  Definitions cite the functions of the runtime, with `P` for `ParserATNSimulator`.

Simplified: sets of configurations are predicates, so that "all configurations reachable by …" can be written down as it is, without the worklist (`closureBusy`) that
computes it; predicates, actions and precedences are left out, there are none in the network; the tables in which results of the first stage are kept (`DFA`)
are in `Verif/Model/AllStarCache.lean`.
-/

namespace Rfc5322.AllStar

open Atn Gen

/-! ## Configurations -/

/-- A configuration (`ATNConfig`): the alternative it comes from, a state, and the states to go on with when rules are left, the innermost first.  `ATNConfig` has a
graph which stands for a set of such stacks: it is as many configurations here. -/
structure Config where
  alt : Nat
  state : Nat
  stack : List Nat

/-- A set of configurations (`ATNConfigSet`). -/
abbrev Configs := Config → Prop

/-- The stop state of some rule (`RuleStopState`). -/
def isStop (N : Net) (q : Nat) : Bool :=
  match N.states[q]? with
  | some (some (7, _)) => true
  | _ => false

/-- The states after the calls of the rule of a stop state (the transitions added by `ATNDeserializer.readEdges`). -/
def afterCalls (N : Net) (q : Nat) : List Nat := N.edges.filterMap fun e =>
  match e.label with
  | .call _ r => if r = ruleAt N q then some e.trg else none
  | _ => none

/-- `Transition.getIsEpsilon`. -/
def isEpsilon : Label → Bool
  | .eps => true
  | .call _ _ => true
  | _ => false

/-- `ATNState.GetEpsilonOnlyTransitions`: there are transitions, and none needs a token. -/
def epsilonOnly (N : Net) (q : Nat) : Bool :=
  if isStop N q then !(afterCalls N q).isEmpty else !(N.out q).isEmpty && (N.out q).all fun e => isEpsilon e.1

/-- From one configuration to another without a token (`P.closureCheckingStopState`, `P.closureWork`, `P.getEpsilonTarget`).  In the second stage (`full`) stacks
are complete; in the first, a rule may return to wherever it can be called from when the stack is exhausted.  At the end of the input (`atEnd`) the transition that needs the end of
the input can be passed. -/
inductive Moves (N : Net) (full atEnd : Bool) : Nat × List Nat → Nat × List Nat → Prop where
  | eps {p q st} : (.eps, q) ∈ N.out p → Moves N full atEnd (p, st) (q, st)
  | eof {p q st} : atEnd = true → (.eof, q) ∈ N.out p → Moves N full atEnd (p, st) (q, st)
  | call {p a r q st} : (.call a r, q) ∈ N.out p → Moves N full atEnd (p, st) (a, q :: st)
  | ret {p x st} : isStop N p = true → Moves N full atEnd (p, x :: st) (x, st)
  | out {p x} : full = false → isStop N p = true → x ∈ afterCalls N p → Moves N full atEnd (p, []) (x, [])

/-- Configurations that are added to the set: those with a transition that needs a token, and those that have reached the end of the outermost rule. -/
def kept (N : Net) (full : Bool) (c : Config) : Bool :=
  if isStop N c.state then c.stack.isEmpty && (full || !epsilonOnly N c.state) else !epsilonOnly N c.state

/-- What can be reached from a set. -/
def closure (N : Net) (full atEnd : Bool) (D : Configs) : Configs := fun c =>
  kept N full c = true ∧ ∃ d, D d ∧ d.alt = c.alt ∧ Relation.ReflTransGen (Moves N full atEnd) (d.state, d.stack) (c.state, c.stack)

/-- The transition needs this token; `none` is the end of the input (`Transition.Matches`). -/
def takes : Label → Option Char → Prop
  | .eof, none => True
  | .set is, some c => ∃ k, tokenType c = some k ∧ inSet is k = true
  | _, _ => False

/-- One transition (`P.getReachableTarget`). -/
def move (N : Net) (t : Option Char) (C : Configs) : Configs := fun d =>
  ∃ c l, C c ∧ (l, d.state) ∈ N.out c.state ∧ takes l t ∧ d.alt = c.alt ∧ d.stack = c.stack

/-! ## How sets of stacks are represented -/

/-- What the graphs that stand for stacks (`PredictionContext`) may make a difference to.

`same C q i j`: at state `q`, the graphs of the alternatives `i` and `j` are equal.  Equal graphs stand for the same stacks, and there is only one graph for nothing but
the empty stack; two graphs for the same stacks may otherwise be equal or not, depending on how they have been built.

`widen C`: in the first stage, graphs may be merged into one that stands for more (`mergeRoot` with `rootIsWildcard`): as the empty stack then means that nothing is known about
the callers, it may replace any other; likewise any stack may be replaced by a beginning of it.

`finished F C`: the alternative taken when no configuration can go on (`P.getSynValidOrSemInvalidAltThatFinishedDecisionEntryRule`), if there is one.  It must have left the rule the
decision is in (`reachesIntoOuterContext`).  `F` says which alternatives may have done so; simplified: after the first token nothing is said about that. -/
structure Graphs where
  same : Configs → Nat → Nat → Nat → Prop
  widen : Configs → Configs
  finished : (Nat → Prop) → Configs → Option Nat
  same_refl : ∀ C q i, same C q i i
  same_stacks : ∀ {C q i j}, same C q i j → ∀ st, C ⟨i, q, st⟩ → C ⟨j, q, st⟩
  same_empty : ∀ {C q i j}, (∀ st, C ⟨i, q, st⟩ ↔ st = []) → (∀ st, C ⟨j, q, st⟩ ↔ st = []) → same C q i j
  widen_covers : ∀ {C : Configs} {c}, C c → ∃ st st', c.stack = st ++ st' ∧ widen C ⟨c.alt, c.state, st⟩
  widen_from : ∀ {C : Configs} {c}, widen C c → ∃ st', C ⟨c.alt, c.state, c.stack ++ st'⟩
  finished_from : ∀ {F} {C : Configs} {n}, finished F C = some n → F n ∧ ∃ c, C c ∧ c.alt = n

section
variable (G : Graphs) (N : Net)

/-- In the second stage nothing is lost. -/
def merged (full : Bool) (C : Configs) : Configs := if full then C else G.widen C

/-! ## The two stages -/

/-- All configurations have the same alternative, and there is one (`P.getUniqueAlt`). -/
def Unique (C : Configs) (n : Nat) : Prop := (∃ c, C c) ∧ ∀ c, C c → c.alt = n

/-- The configurations before the first token (`P.computeStartState`): alternatives are numbered from 1. -/
def startState (full : Bool) (σ : List Nat) (p : Nat) : Configs :=
  merged G full <| closure N full false fun d => ∃ i e, (N.out p)[i]? = some e ∧ d = ⟨i + 1, e.2, if full then σ.map (follow N) else []⟩

/-- Configurations at the end of the outermost rule, which are kept although there is a token (`skippedStopStates`). -/
def skipped (full : Bool) (C : Configs) (t : Option Char) : Configs := fun c => C c ∧ isStop N c.state = true ∧ (full = true ∨ t = none)

open Classical in
/-- The configurations after one more token (`P.computeReachSet`). -/
noncomputable def reachSet (full : Bool) (C : Configs) (t : Option Char) : Configs :=
  let mid := merged G full (move N t C)
  let reach := if (∀ c, ¬ skipped N full C t c) ∧ t ≠ none ∧ ∃ n, Unique mid n then mid else merged G full (closure N full t.isNone mid)
  let reach := fun c => reach c ∧ (t = none → isStop N c.state = true)
  fun c => reach c ∨ skipped N full C t c ∧ (full = false ∨ ∀ c', reach c' → isStop N c'.state = false)

/-- The alternatives whose configurations at this state have the same stacks as those of alternative `i` (`PredictionModegetConflictingAltSubsets`). -/
def altSubset (C : Configs) (q i j : Nat) : Prop := (∃ st, C ⟨j, q, st⟩) ∧ G.same C q i j

/-- The smallest alternative is the same in all these sets (`PredictionModeresolvesToJustOneViableAlt`). -/
def Resolves (C : Configs) (n : Nat) : Prop :=
  (∃ c, C c) ∧ ∀ c, C c → altSubset G C c.state c.alt n ∧ ∀ j, altSubset G C c.state c.alt j → n ≤ j

/-- The first stage is given up (`PredictionModehasSLLConflictTerminatingPrediction`): everything has ended, or two alternatives have come to the same state with the
same stacks, and no state belongs to one alternative only. -/
def Conflict (C : Configs) : Prop :=
  (∀ c, C c → isStop N c.state = true) ∨
    (∃ q i j, i ≠ j ∧ (∃ st, C ⟨i, q, st⟩) ∧ altSubset G C q i j) ∧ ¬ ∃ c, C c ∧ ∀ c', C c' → c'.state = c.state → c'.alt = c.alt

/-- Results: an alternative; a panic with a `NoViableAltException`; or the end of the input has been read and nothing is decided, so that it would be read again. -/
inductive Answer where
  | alt (n : Nat)
  | panic
  | again

/-- The alternatives that can come to the end of their rule without a token. -/
def leaves (p n : Nat) : Prop :=
  ∃ i e q, n = i + 1 ∧ (N.out p)[i]? = some e ∧ Relation.ReflTransGen (Moves N true false) (e.2, []) (q, []) ∧ isStop N q = true

/-- No configuration can go on. -/
def failed (F : Nat → Prop) (C : Configs) : Answer :=
  match G.finished F C with
  | some n => .alt n
  | none => .panic

open Classical in
/-- One round of the second stage. -/
noncomputable def roundLL (F : Nat → Prop) (before after : Configs) (next : Answer) : Answer :=
  if ∀ c, ¬ after c then failed G F before
  else if h : ∃ n, Unique after n then .alt h.choose
  else if h : ∃ n, Resolves G after n then .alt h.choose
  else next

/-- The second stage (`P.execATNWithFullContext`). -/
noncomputable def execLL (F : Nat → Prop) (C : Configs) : List Char → Answer
  | [] => roundLL G F C (reachSet G N true C none) .again
  | c :: s => roundLL G F C (reachSet G N true C (some c)) (execLL (fun _ => True) (reachSet G N true C (some c)) s)

open Classical in
/-- One round of the first stage (`P.computeTargetState` and what `P.execATN` makes of the result). -/
noncomputable def roundSLL (F : Nat → Prop) (full : Answer) (before after : Configs) (next : Answer) : Answer :=
  if ∀ c, ¬ after c then failed G F before
  else if h : ∃ n, Unique after n then .alt h.choose
  else if Conflict G N after then full
  else next

/-- The first stage (`P.execATN`). -/
noncomputable def execSLL (F : Nat → Prop) (full : Answer) (C : Configs) : List Char → Answer
  | [] => roundSLL G N F full C (reachSet G N false C none) .again
  | c :: s => roundSLL G N F full C (reachSet G N false C (some c)) (execSLL (fun _ => True) full (reachSet G N false C (some c)) s)

/-- `P.AdaptivePredict`, with remaining tokens `s` and call stack `σ`. -/
noncomputable def adaptivePredict (d : Nat) (σ : List Nat) (s : List Char) : Answer :=
  match N.decisions[d]? with
  | none => .panic
  | some p => execSLL G N (leaves N p) (execLL G N (leaves N p) (startState G N true σ p) s) (startState G N false [] p) s

end

/-! ## Synchronisation -/

/-- The state is one at which `Sync` may report something: `ATNStateBlockStart`, `ATNStatePlusBlockStart`, `ATNStateStarBlockStart`, `ATNStateStarLoopBack`,
`ATNStateStarLoopEntry`, `ATNStatePlusLoopBack`. -/
def watched (N : Net) (p : Nat) : Bool :=
  match N.states[p]? with
  | some (some (ty, _)) => [3, 4, 5, 9, 10, 11].contains ty
  | _ => false

/-- The tokens that can come next within the rule (`LL1Analyzer.Look` without context): the token is needed by a transition that can be reached, or the end of the rule can
be reached (`TokenEpsilon`).  `LL1Analyzer` does not enter a rule which it is already in; as no rule is left-recursive, this makes no difference. -/
def nextTokens (N : Net) (p : Nat) (t : Option Char) : Prop :=
  (∃ q st l x, Relation.ReflTransGen (Moves N true false) (p, []) (q, st) ∧ (l, x) ∈ N.out q ∧ takes l t) ∨
    ∃ q, Relation.ReflTransGen (Moves N true false) (p, []) (q, []) ∧ isStop N q = true

open Classical in
/-- `DefaultErrorStrategy.Sync` reports nothing. -/
noncomputable def sync (N : Net) (st : Nat) (s : List Char) : Bool := !watched N st || decide (nextTokens N st s.head?)

end Rfc5322.AllStar
