import Verif.Model.Atn

/-!
# Checking the structure of a network

`Cert` is a grammar expression with rules called by name and with a few states of the network noted down.  `check` compares it with the network.
-/

namespace Rfc5322.Atn

/-- Grammar expressions, with states of the network. -/
inductive Cert where
  | eps
  | eof
  /-- one of some tokens -/
  | toks (ks : List Tok)
  | call (r : Rule)
  | seq (a b : Cert)
  /-- both alternatives lead to state `j` -/
  | alt (j : Nat) (a b : Cert)
  /-- the decision is made in state `p` -/
  | star (p : Nat) (a : Cert)

/-- One of some tokens. -/
def oneOf : List Tok → G
  | [] => .eps
  | [k] => .t k
  | k :: k' :: ks => .t k ‖ oneOf (k' :: ks)

/-- The expression of a rule. -/
def ruleG : Rule → G
  | .quotedChar => Gr.quotedChar | .quotedPair => Gr.quotedPair | .fws => Gr.fws | .ctext => Gr.ctext | .ccontent => Gr.ccontent
  | .comment => .comment | .cfws => Gr.cfws | .atext => Gr.atext | .atom => Gr.atom | .dotAtom => Gr.dotAtom | .qtext => Gr.qtext
  | .quotedContent => Gr.quotedContent | .quotedValue => Gr.quotedValue | .quotedString => Gr.quotedString | .word => Gr.word
  | .dateTime => Gr.dateTime | .dayOfweek => Gr.dayOfweek | .dayName => Gr.dayName | .day => Gr.day | .month => Gr.month | .year => Gr.year
  | .hour => Gr.hour | .minute => Gr.minute | .second => Gr.second | .offset => Gr.offset | .zone => Gr.zone | .address => Gr.address
  | .mailbox => Gr.mailbox | .nameAddr => Gr.nameAddr | .angleAddr => Gr.angleAddr | .group => Gr.group | .unspaced => Gr.unspaced
  | .displayName => Gr.displayName | .mailboxList => Gr.mailboxList | .addressList => Gr.addressList | .groupList => Gr.groupList
  | .addrSpec => Gr.addrSpec | .localPart => Gr.localPart | .port => Gr.port | .domain => Gr.domain | .domainLiteral => Gr.domainLiteral
  | .dtext => Gr.dtext | .obsNoWSCTL => Gr.obsNoWSCTL | .obsCtext => Gr.obsCtext | .obsQtext => Gr.obsQtext | .obsQP => Gr.obsQP
  | .obsFWS => Gr.obsFWS | .obsZone => Gr.obsZone | .obsAngleAddr => Gr.obsAngleAddr | .obsRoute => Gr.obsRoute
  | .obsDomainList => Gr.obsDomainList | .obsMboxList => Gr.obsMboxList | .obsAddrList => Gr.obsAddrList | .obsGroupList => Gr.obsGroupList
  | .obsLocalPart => Gr.obsLocalPart | .obsDomain => Gr.obsDomain | .encodedWord => Gr.encodedWord | .charset => Gr.charset
  | .encoding => Gr.encoding | .token => Gr.token | .tokenChar => Gr.tokenChar | .encodedText => Gr.encodedText
  | .encodedChar => Gr.encodedChar | .crlf => Gr.crlf | .wsp => Gr.wsp | .vchar => Gr.vchar | .alpha => Gr.alpha

/-- The expression without states and with the expressions of the rules filled in. -/
def Cert.expand : Cert → G
  | .eps => .eps
  | .eof => .eof
  | .toks ks => oneOf ks
  | .call r => ruleG r
  | .seq a b => .seq a.expand b.expand
  | .alt _ a b => .alt a.expand b.expand
  | .star _ a => .star a.expand

/-! Looking up transitions is made faster by sorting them into a tree. -/

/-- A tree of transitions. -/
inductive Trie where
  | leaf (es : List Edge)
  | node (a b : Trie)

/-- Sort by the last `d` bits of the source. -/
def Trie.build : Nat → List Edge → Trie
  | 0, es => .leaf es
  | d + 1, es => .node (build d (es.filter fun e => !e.src.testBit d)) (build d (es.filter fun e => e.src.testBit d))

/-- The transitions whose source agrees in the last `d` bits. -/
def Trie.find : Nat → Trie → Nat → List Edge
  | _, .leaf es, _ => es
  | 0, .node _ _, _ => []
  | d + 1, .node a b, p => if p.testBit d then find d b p else find d a p

theorem find_build (p : Nat) : ∀ (d : Nat) (es : List Edge), ((Trie.build d es).find d p).filter (fun e => e.src == p) = es.filter fun e => e.src == p
  | 0, _ => rfl
  | d + 1, es => by
    simp only [Trie.build, Trie.find]
    split <;> rename_i h
    all_goals
      rw [find_build p d, List.filter_filter]
      refine List.filter_congr fun e _ => ?_
      by_cases he : e.src = p
      · simp [he, h]
      · simp [he]

/-- The transitions that leave a state. -/
def Trie.out (T : Trie) (p : Nat) : List (Label × Nat) := ((T.find 11 p).filter fun e => e.src == p).map fun e => (e.label, e.trg)

theorem out_build (N : Net) (p : Nat) : (Trie.build 11 N.edges).out p = N.out p := by
  rw [Trie.out, find_build, Net.out]

/-- Follow single transitions without label. -/
def settle (N : Nat → List (Label × Nat)) : Nat → List (Label × Nat) → List (Label × Nat)
  | 0, es => es
  | n + 1, es =>
    match es with
    | [(.eps, q)] => settle N n (N q)
    | es => es

/-- The state can be reached by single transitions without label. -/
def epsTo (N : Nat → List (Label × Nat)) : Nat → Nat → Nat → Bool
  | 0, x, y => x == y
  | n + 1, x, y => x == y || match N x with
    | [(.eps, x')] => epsTo N n x' y
    | _ => false

/-- More steps than ever needed. -/
def fuel : Nat := 8

/-- All numbers of the intervals. -/
def spread : List (Nat × Nat) → List Nat
  | [] => []
  | (a, b) :: is => List.range' a (b + 1 - a) ++ spread is

/-- Where the network is after the expression, if it has the structure claimed. -/
def check (N : Nat → List (Label × Nat)) (start : Nat → Nat) : Cert → List (Label × Nat) → Option Nat
  | .eps, es =>
    match es with
    | [(.eps, q)] => some q
    | _ => none
  | .eof, es =>
    match settle N fuel es with
    | [(.eof, q)] => some q
    | _ => none
  | .toks ks, es =>
    match settle N fuel es with
    | [(.set is, q)] => if ks ≠ [] ∧ spread is = ks.map typeOf then some q else none
    | _ => none
  | .call r, es =>
    match settle N fuel es with
    | [(.call p i, q)] => if ruleOf i = some r ∧ start i = p then some q else none
    | _ => none
  | .seq a b, es =>
    match check N start a es with
    | some q => check N start b (N q)
    | none => none
  | .alt j a b, es =>
    match settle N fuel es with
    | e :: e' :: es' =>
      match check N start a [e], check N start b (e' :: es') with
      | some x, some y => if epsTo N fuel x j && epsTo N fuel y j then some j else none
      | _, _ => none
    | _ => none
  | .star p a, es =>
    match settle N fuel es with
    | [(.eps, b), (.eps, e)] =>
      if N p = [(.eps, b), (.eps, e)] then
        match check N start a (N b) with
        | some x => if epsTo N fuel x p then some e else none
        | none => none
      else none
    | _ => none

/-- A whole rule. -/
def checkRule (N : Nat → List (Label × Nat)) (start : Nat → Nat) (i stop : Nat) (c : Cert) : Bool :=
  N stop == [] &&
  match check N start c (N (start i)) with
  | some q => epsTo N fuel q stop
  | none => false

end Rfc5322.Atn
