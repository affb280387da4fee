import Verif.Model.Parser

/-!
# The serialized ATNs

The generated parser and lexer carry their grammar as a list of integers, the serialized augmented transition network (ATN), which the runtime
deserialises when the package is first used (/repo/parser/rfc5322_parser.go:66-603, /repo/parser/rfc5322_lexer.go:74-203) and which its
prediction follows.  `decode` reads that format (version 4 of `ATNDeserializer`, ANTLR 4.10); the lists are in `Verif/Model/AtnData.lean`.

Then come the paths of the network, with the subtrees they build, and the path preferred by "smallest alternative first" prediction.
None of this uses the grammar of `Verif/Model/Grammar.lean`; that both say the same is proved in `Verif/Proofs/Atn.lean`.
-/

namespace Rfc5322.Atn

/-- What a transition needs. -/
inductive Label where
  /-- nothing (`EpsilonTransition`) -/
  | eps
  /-- the end of the input (`AtomTransition` with `EOF`) -/
  | eof
  /-- one symbol in one of the inclusive intervals (`AtomTransition`, `RangeTransition`, `SetTransition`) -/
  | set (is : List (Nat × Nat))
  /-- a path of another rule, beginning at state `start` (`RuleTransition`) -/
  | call (start rule : Nat)
  deriving DecidableEq, Repr

/-- A transition. -/
structure Edge where
  src : Nat
  label : Label
  trg : Nat
  deriving DecidableEq, Repr

/-- A transition network. -/
structure Net where
  /-- for every state: its type and its rule (`none` for unused states) -/
  states : List (Option (Nat × Int))
  /-- for every rule: its start state and (in lexers) its token type -/
  rules : List (Nat × Nat)
  /-- start states of the modes (in lexers) -/
  modes : List Nat
  /-- in the order of the file -/
  edges : List Edge
  /-- the states at which there is something to decide -/
  decisions : List Nat

/-! ## Reading the format -/

/-- A reader of a list of integers. -/
abbrev Reader (α : Type) := List Int → Option (α × List Int)

/-- The next integer. -/
def int : Reader Int
  | [] => none
  | x :: r => some (x, r)

/-- The next integer, which has to be a natural number. -/
def nat : Reader Nat
  | Int.ofNat n :: r => some (n, r)
  | _ => none

/-- One reader after the other. -/
def andThen {α β : Type} (p : Reader α) (q : α → Reader β) : Reader β := fun s =>
  match p s with
  | none => none
  | some (a, r) => q a r

/-- `n` items. -/
def times {α : Type} (p : Reader α) : Nat → Reader (List α)
  | 0, s => some ([], s)
  | n + 1, s =>
    match p s with
    | none => none
    | some (a, r) =>
      match times p n r with
      | none => none
      | some (as, r') => some (a :: as, r')

/-- A count and that many items. -/
def many {α : Type} (p : Reader α) : Reader (List α) := andThen nat fun n => times p n

/-- Result of a reader. -/
def done {α : Type} (a : α) : Reader α := fun s => some (a, s)

/-- A state: its type (0: unused), its rule, and for loop ends (12) and block starts (3, 4, 5) one more state, which is not needed here
(`ATNDeserializer.readStates`). -/
def state : Reader (Option (Nat × Int)) :=
  andThen nat fun ty =>
    if ty = 0 then done none
    else andThen int fun rule =>
      if ty = 12 ∨ ty = 3 ∨ ty = 4 ∨ ty = 5 then andThen nat fun _ => done (some (ty, rule))
      else done (some (ty, rule))

/-- A set: number of intervals, whether it contains `EOF` (not supported here), the intervals (`ATNDeserializer.readSets`). -/
def interval : Reader (Nat × Nat) := andThen nat fun a => andThen nat fun b => done (a, b)
def set : Reader (List (Nat × Nat)) :=
  andThen nat fun n => andThen nat fun eof => if eof = 0 then times interval n else fun _ => none

/-- The label of an edge: type and three arguments (`ATNDeserializer.edgeFactory`).  Predicates, actions, complements, wildcards and precedences
do not occur. -/
def label (sets : List (List (Nat × Nat))) (ty x y z : Nat) : Option Label :=
  if ty = 1 then some .eps
  else if ty = 2 ∧ z = 0 then some (.set [(x, y)])
  else if ty = 3 ∧ z = 0 then some (.call x y)
  else if ty = 5 then some (if z = 0 then .set [(x, x)] else .eof)
  else if ty = 7 then (sets[x]?).map .set
  else none

/-- An edge (`ATNDeserializer.readEdges`). -/
def edge (sets : List (List (Nat × Nat))) : Reader Edge :=
  andThen nat fun src => andThen nat fun trg => andThen nat fun ty => andThen nat fun x => andThen nat fun y => andThen nat fun z => fun s =>
    match label sets ty x y z with
    | none => none
    | some l => some (⟨src, l, trg⟩, s)

/-- A rule: its start state and, in lexers, its token type (`ATNDeserializer.readRules`). -/
def rule (lexer : Bool) : Reader (Nat × Nat) :=
  andThen nat fun start => if lexer then andThen nat fun ty => done (start, ty) else done (start, 0)

/-- The whole network (`ATNDeserializer.Deserialize`): version 4; type (0: lexer, 1: parser) and largest token type; states; non-greedy states and
precedence states (there are none); rules; modes; sets; edges; decisions; lexer actions (there are none). -/
def net : Reader Net :=
  andThen nat fun version => if version ≠ 4 then fun _ => none else
  andThen nat fun kind => andThen nat fun _ =>
  andThen (many state) fun states =>
  andThen nat fun nonGreedy => if nonGreedy ≠ 0 then fun _ => none else
  andThen nat fun precedence => if precedence ≠ 0 then fun _ => none else
  andThen (many (rule (kind == 0))) fun rules =>
  andThen (many nat) fun modes =>
  andThen (many set) fun sets =>
  andThen (many (edge sets)) fun edges =>
  andThen (many nat) fun decisions =>
  if kind = 0 then andThen nat fun actions => if actions ≠ 0 then fun _ => none else done ⟨states, rules, modes, edges, decisions⟩
  else done ⟨states, rules, modes, edges, decisions⟩

/-- The network, if the list is read to its end. -/
def decode (data : List Int) : Option Net :=
  match net data with
  | some (n, []) => some n
  | _ => none

/-! ## Paths -/

/-- The transitions that leave a state, in order: the alternatives of a decision. -/
def Net.out (N : Net) (p : Nat) : List (Label × Nat) := (N.edges.filter fun e => e.src == p).map fun e => (e.label, e.trg)

/-- The stop state of a rule: the state of type 7 that belongs to it (`ATNDeserializer.readRules`). -/
def Net.stop (N : Net) (rule : Nat) : Nat := N.states.findIdx fun st => st == some (7, (rule : Int))

/-- The start state of a rule. -/
def Net.start (N : Net) (rule : Nat) : Nat := ((N.rules[rule]?).getD (0, 0)).1

/-- The symbol is in one of the intervals. -/
def inSet (is : List (Nat × Nat)) (k : Nat) : Bool := is.any fun i => i.1.ble k && k.ble i.2

/-- Paths of rules that have been called: start state, rule, tokens before, subtrees, tokens after. -/
abbrev Calls := Nat → Nat → List Char → List Tree → List Char → Prop

section
variable (ruleOf : Nat → Option Rule) (tokenType : Char → Option Nat)

/-- Taking a transition: tokens before, subtrees built, tokens after. -/
inductive Take (C : Calls) : Label → List Char → List Tree → List Char → Prop where
  | eps {s} : Take C .eps s [] s
  | eof : Take C .eof [] [.eof] []
  | set {is c k s} : tokenType c = some k → inSet is k = true → Take C (.set is) (c :: s) [.tok c] s
  | call {p i r s ts s'} : ruleOf i = some r → C p i s ts s' → Take C (.call p i) s [.node r ts] s'

/-- A path of `n` transitions from one state to another. -/
inductive Path (N : Net) (C : Calls) (r : Nat) : Nat → Nat → List Char → List Tree → List Char → Prop where
  | done {s} : Path N C r 0 r s [] s
  | step {n p l q s ts s' us s''} : (l, q) ∈ N.out p → Take ruleOf tokenType C l s ts s' → Path N C r n q s' us s'' →
      Path N C r (n + 1) p s (ts ++ us) s''

/-- Paths through a rule with calls nested less than `d` deep. -/
def called (N : Net) : Nat → Calls
  | 0, _, _, _, _, _ => False
  | d + 1, p, i, s, ts, s' => ∃ n, Path ruleOf tokenType N (called N d) (N.stop i) n p s ts s'

/-- Paths through a rule. -/
def Runs (N : Net) : Calls := fun p i s ts s' => ∃ d, called ruleOf tokenType N d p i s ts s'

/-! ## Preferred paths -/

/-- From the state there is a path to `r` that leaves tokens satisfying `K`. -/
def Can (N : Net) (r : Nat) (K : List Char → Prop) (p : Nat) (s : List Char) : Prop :=
  ∃ n ts s', Path ruleOf tokenType N (Runs ruleOf tokenType N) r n p s ts s' ∧ K s'

/-- The same, beginning with a certain transition. -/
def CanBy (N : Net) (r : Nat) (K : List Char → Prop) (e : Label × Nat) (s : List Char) : Prop :=
  ∃ ts s', Take ruleOf tokenType (Runs ruleOf tokenType N) e.1 s ts s' ∧ Can ruleOf tokenType N r K e.2 s'

/-- Preferred paths of rules that have been called; the predicate says what may follow. -/
abbrev PrefCalls := (List Char → Prop) → Calls

/-- Of the paths to `r` that leave tokens satisfying `K`, the one which at every state takes the first of the transitions from which this can be
achieved.  In a called rule this takes into account what follows the call. -/
inductive Pref (N : Net) (C : PrefCalls) (r : Nat) (K : List Char → Prop) : Nat → Nat → List Char → List Tree → List Char → Prop where
  | done {s} : K s → Pref N C r K 0 r s [] s
  | step {n p es l q es' s ts s' us s''} : N.out p = es ++ (l, q) :: es' → (∀ e ∈ es, ¬ CanBy ruleOf tokenType N r K e s) →
      Take ruleOf tokenType (C (Can ruleOf tokenType N r K q)) l s ts s' → Pref N C r K n q s' us s'' → Pref N C r K (n + 1) p s (ts ++ us) s''

/-- Preferred paths through a rule with calls nested less than `d` deep. -/
def prefCalled (N : Net) : Nat → PrefCalls
  | 0, _, _, _, _, _, _ => False
  | d + 1, K, p, i, s, ts, s' => ∃ n, Pref ruleOf tokenType N (prefCalled N d) (N.stop i) K n p s ts s'

/-- Preferred paths through a rule. -/
def Prefers (N : Net) : PrefCalls := fun K p i s ts s' => ∃ d, prefCalled ruleOf tokenType N d K p i s ts s'

end

/-! ## Lexers -/

/-- The rule with number `i` of a lexer network accepts a beginning of the text: a path from the start of the first mode to the stop state of the
rule; the symbols are code points, and no rule calls another. -/
def Accepts (N : Net) (i : Nat) (s s' : List Char) : Prop :=
  i < N.rules.length ∧ ∃ n ts, Path (fun _ => none) (fun c => some c.toNat) N (fun _ _ _ _ _ => False) (N.stop i) n (N.modes.headD 0) s ts s'

/-- The type of the tokens of a lexer rule. -/
def Net.type (N : Net) (i : Nat) : Nat := ((N.rules[i]?).getD (0, 0)).2

/-- The tokens of a text, with type and text (`Lexer.NextToken`, `LexerATNSimulator.Match`): the longest beginning of the text accepted by any rule
is a token of the first of the rules that accept it; if no rule accepts any, one character is skipped (`Lexer.Recover`). -/
inductive Lexes (N : Net) : List Char → List (Nat × List Char) → Prop where
  | nil : Lexes N [] []
  | token {i w s' ts} : Accepts N i (w ++ s') s' → (∀ j s'', Accepts N j (w ++ s') s'' → s'.length ≤ s''.length) →
      (∀ j, j < i → ¬ Accepts N j (w ++ s') s') → w ≠ [] → Lexes N s' ts → Lexes N (w ++ s') ((N.type i, w) :: ts)
  | skip {c s ts} : (∀ i s', ¬ Accepts N i (c :: s) s') → Lexes N s ts → Lexes N (c :: s) ts

/-! ## The networks of this package -/

/-- Parser rules by number (`RFC5322ParserRULE_quotedChar = 0` …, /repo/parser/rfc5322_parser.go:713-779). -/
def rules : List Rule :=
  [.quotedChar, .quotedPair, .fws, .ctext, .ccontent, .comment, .cfws, .atext,
   .atom, .dotAtom, .qtext, .quotedContent, .quotedValue, .quotedString, .word, .dateTime,
   .dayOfweek, .dayName, .day, .month, .year, .hour, .minute, .second,
   .offset, .zone, .address, .mailbox, .nameAddr, .angleAddr, .group, .unspaced,
   .displayName, .mailboxList, .addressList, .groupList, .addrSpec, .localPart, .port, .domain,
   .domainLiteral, .dtext, .obsNoWSCTL, .obsCtext, .obsQtext, .obsQP, .obsFWS, .obsZone,
   .obsAngleAddr, .obsRoute, .obsDomainList, .obsMboxList, .obsAddrList, .obsGroupList, .obsLocalPart, .obsDomain,
   .encodedWord, .charset, .encoding, .token, .tokenChar, .encodedText, .encodedChar, .crlf,
   .wsp, .vchar, .alpha]

/-- The rule with a number. -/
def ruleOf (i : Nat) : Option Rule := rules[i]?

/-- The number of a token type (`RFC5322ParserU_00 = 1` …, /repo/parser/rfc5322_parser.go:639-708). -/
def typeOf (k : Tok) : Nat := Tok.all.idxOf k + 1

/-- The type of a token. -/
def tokenType (c : Char) : Option Nat := (lexRune c).map typeOf

end Rfc5322.Atn
