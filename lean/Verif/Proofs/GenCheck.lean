import Verif.Model.GeneratedData
import Verif.Proofs.AtnCheck

/-!
# Comparing the generated functions with the network

`chk` follows the statements of a function through the network.  For decisions made with one token of lookahead it uses a table: for every state the
types of the tokens that can come next.  The table is checked too (`lookOk`).
-/

namespace Rfc5322.Gen

open Atn

/-- Follow single transitions without label. -/
def norm (out : Nat → List (Label × Nat)) : Nat → Nat → Nat
  | 0, p => p
  | n + 1, p =>
    match out p with
    | [(.eps, q)] => norm out n q
    | _ => p

/-- All numbers are the same. -/
def same : List Nat → Option Nat
  | [] => none
  | j :: js => if js.all (· == j) then some j else none

/-- The value of `_la` for an entry of the table: 0 is the end of the input. -/
def laOf (k : Nat) : Int := if k = 0 then -1 else (k : Nat)

/-- Token types with the end of the input: 0, …, 70. -/
def types : List Nat := List.range 71

/-- The test is passed for everything that can follow in the first state and for nothing that can follow in the second. -/
def separates (lf : Nat → Nat) (t : Test) (b e : Nat) : Bool :=
  types.all fun k => (!(lf b).testBit k || t.eval (laOf k)) && (!(lf e).testBit k || !t.eval (laOf k))

section
variable (out : Nat → List (Label × Nat)) (start : Nat → Nat) (decisions : List Nat) (rule : Nat → Nat) (lf : Nat → Nat) (Q : Nat)

/-- The ends of alternatives without a case. -/
def ends : List (Label × Nat) → Option (List Nat)
  | [] => some []
  | (.eps, q) :: es => (ends es).map (norm out fuel q :: ·)
  | _ => none

/-- The decision is made in state `p`, between `b` and `e`. -/
def askOk (p b e : Nat) : Ask → Bool
  | .alt d => decisions[d]? == some p
  | .la t => separates lf t b e

mutual
/-- The state after a statement. -/
def chk : Code → Nat → Option Nat
  | .skip, p => some p
  | .seq a b, p =>
    match chk a p with
    | some q => chk b q
    | none => none
  | .tok _ k, p =>
    match out (norm out fuel p) with
    | [(.set is, q)] => if spread is = [typeOf k] then some q else none
    | _ => none
  | .eof _, p =>
    match out (norm out fuel p) with
    | [(.eof, q)] => some q
    | _ => none
  | .set _ t, p =>
    match out (norm out fuel p) with
    | [(.set is, q)] => if t.eval 0 = false ∧ types.all (fun k => k == 0 || t.eval (laOf k) == inSet is k) = true then some q else none
    | _ => none
  | .call st r, p =>
    if norm out fuel p = st ∧ rule st = Q then
      match out st with
      | [(.call x i, q)] => if ruleOf i = some r ∧ start i = x then some q else none
      | _ => none
    else none
  | .switchAlt st d cs, p =>
    if decisions[d]? = some (norm out fuel p) ∧ norm out fuel st = norm out fuel p ∧ rule st = Q ∧ rule (norm out fuel p) = Q then
      match chkAlt 1 cs (out (norm out fuel p)) with
      | some l => same l
      | none => none
    else none
  | .ifLa st t c, p =>
    if norm out fuel st = norm out fuel p ∧ rule st = Q then
      match out (norm out fuel p) with
      | [(.eps, b), (.eps, e)] =>
        if rule b = Q ∧ rule e = Q ∧ separates lf t b e = true then
          match chk c b with
          | some x => if norm out fuel x = norm out fuel e then some (norm out fuel e) else none
          | none => none
        else none
      | _ => none
    else none
  | .switchLa st cs, p =>
    if norm out fuel st = norm out fuel p ∧ rule st = Q then
      match chkLa [] cs (out (norm out fuel p)) with
      | some l => same l
      | none => none
    else none
  | .star st st' a c, p =>
    if norm out fuel st = norm out fuel p ∧ rule st = Q ∧ norm out fuel st' = norm out fuel p ∧ rule st' = Q ∧ rule (norm out fuel p) = Q then
      match out (norm out fuel p) with
      | [(.eps, b), (.eps, e)] =>
        if rule b = Q ∧ rule e = Q ∧ askOk decisions lf (norm out fuel p) b e a = true then
          match chk c b with
          | some x => if norm out fuel x = norm out fuel p then some e else none
          | none => none
        else none
      | _ => none
    else none
  | .plus st st' a c, p =>
    if norm out fuel st = norm out fuel p ∧ rule st = Q then
      match chk c (norm out fuel p) with
      | some x =>
        if norm out fuel st' = norm out fuel x ∧ rule st' = Q ∧ rule (norm out fuel x) = Q then
          match out (norm out fuel x) with
          | [(.eps, b), (.eps, e)] =>
            if rule b = Q ∧ rule e = Q ∧ askOk decisions lf (norm out fuel x) b e a = true ∧ norm out fuel b = norm out fuel p then some e else none
          | _ => none
        else none
      | none => none
    else none
/-- The states after the cases, of which the first has number `m`. -/
def chkAlt (m : Nat) : Cases → List (Label × Nat) → Option (List Nat)
  | .nil, es => ends out es
  | .alt m' c cs, (.eps, q) :: es =>
    if m' = m then
      match chk c q, chkAlt (m + 1) cs es with
      | some x, some l => some (norm out fuel x :: l)
      | _, _ => none
    else none
  | _, _ => none
/-- The states after the cases; `seen` are the token types of earlier cases. -/
def chkLa (seen : List Tok) : Cases → List (Label × Nat) → Option (List Nat)
  | .nil, [] => some []
  | .toks ks c cs, (.eps, q) :: es =>
    if rule q = Q ∧ types.all (fun k => !(lf q).testBit k || ks.any (fun x => laOf k == (typeOf x : Nat)) && !seen.any (fun x => laOf k == (typeOf x : Nat))) = true then
      match chk c q, chkLa (ks ++ seen) cs es with
      | some x, some l => some (norm out fuel x :: l)
      | _, _ => none
    else none
  | _, _ => none
end

/-- The function of rule number `Q`. -/
def chkRule (stop : Nat) (c : Code) : Bool :=
  out stop == [] && rule stop == Q &&
  match chk out start decisions rule lf Q c (start Q) with
  | some q => norm out fuel q == stop
  | none => false

end

/-! ## Lookahead -/

/-- The bit that says that the end of the rule can be reached without a token. -/
def nullBit : Nat := 71

/-- Without that bit. -/
def noNull (m : Nat) : Nat := m &&& (2 ^ 71 - 1)

/-- One set is contained in the other. -/
def sub (a b : Nat) : Bool := (a ||| b) == b

/-- A transition agrees with the table `L` of what can come next within the rule and the table `F` of what can come after a rule. -/
def edgeOk (rule L F : Nat → Nat) (e : Edge) : Bool :=
  rule e.src == rule e.trg &&
  match e.label with
  | .eps => sub (L e.trg) (L e.src)
  | .eof => (L e.src).testBit 0
  | .set is => (spread is).all fun k => (L e.src).testBit k
  | .call p i => sub (noNull (L p)) (L e.src) && (!(L p).testBit nullBit || sub (L e.trg) (L e.src)) && sub (noNull (L e.trg)) (F i) &&
      (!(L e.trg).testBit nullBit || sub (F (rule e.src)) (F i))

/-- What can come next, with what can come after the rule. -/
def lookFar (rule L F : Nat → Nat) (p : Nat) : Nat := if (L p).testBit nullBit then L p ||| F (rule p) else L p

end Rfc5322.Gen
