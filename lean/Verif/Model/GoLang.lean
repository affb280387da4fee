import Verif.Model.GoIdent
import Verif.Model.Walker

/-!
# The part of Go in which the package is written

Syntax and meaning of the Go constructs that occur in the hand-written files of /repo, so that these files can be copied into
Lean as they are (`Verif/Model/GoCode.lean`, made by `tools/gen_go.py`) instead of being paraphrased.  Structs live on a heap and are
reached through pointers, slices are windows on arrays on the heap and are extended in place when there is room, interface
values carry their dynamic type, type assertions look at the method sets.

Simplifications: integers do not wrap around; slices always begin at the first element of their array (the code
never cuts off a front part); what the ANTLR runtime and the standard library do is built in (`builtin`, `callMethod`, `Setting`);
the slice returned by `AllDigit` is not on the heap.
-/

set_option linter.constructorNameAsVariable false
set_option linter.unusedVariables false

namespace Rfc5322.Go

/-- Types. `.loc` is `*time.Location`, `.iface` is `interface{}`. -/
inductive Ty where
  | int | string | bool | month | loc | iface | error
  | slice (elem : Ty) | ptr (struct : Ident) | named (n : Ident)
  deriving DecidableEq

/-- Errors that are not nil. -/
inductive GoErr where
  /-- `errors.New(msg)`, `fmt.Errorf(...)` -/
  | new (msg : Bytes)
  /-- of the standard library -/
  | std (e : Err)
  deriving DecidableEq

/-- Values.  A value held in an interface is the value itself; every value shows its dynamic type. -/
inductive Val where
  /-- nil interface, nil error, nil `*time.Location` -/
  | nil
  | str (s : Bytes) | int (i : Int) | bool (b : Bool)
  /-- pointer to a struct -/
  | ptr (a : Nat)
  /-- slice; the array is absent in the nil slice -/
  | slice (elem : Ty) (arr : Option Nat) (len cap : Nat)
  | loc (l : Location) | time (t : GoTime) | dur (ns : Int)
  /-- the `float64` result of `Duration.Seconds()` -/
  | secs (ns : Int)
  /-- the result of `time.Now()` -/
  | now
  | err (e : GoErr)
  /-- the function in the package variable `CharsetReader` -/
  | reader
  /-- `*parser.XContext` of rule X -/
  | ctx (r : Rule) (ts : List Tree)
  /-- `antlr.TerminalNode`, and slices of these -/
  | term (c : Char) | terms (cs : List Char)
  /-- a parse tree returned by the parser -/
  | tree (ts : List Tree)
  /-- `antlr.InputStream`, the lexer, `antlr.CommonTokenStream` -/
  | inputStream (s : Bytes) | lexer (s : Bytes) | stream (s : Bytes)
  /-- `antlr.TokenDefaultChannel`, `antlr.ParseTreeWalkerDefault`, `antlr.ConsoleErrorListener` -/
  | channel | treeWalker | console

/-- What is on the heap. -/
inductive Obj where
  | struct (ty : Ident) (fields : List (Ident × Val))
  | array (elems : List Val)

/-- The address of an object is its position. -/
abbrev Heap := List Obj

/-- Why a program stops before its end: a run-time panic, or because it is not a program of this language (ill-typed and the like). -/
inductive Fault where
  | panic (p : Panic)
  | stuck
  deriving DecidableEq

/-- Computations: what is done with the heap, one access after the other. -/
inductive M (α : Type) where
  | ret (a : α)
  | fault (f : Fault)
  /-- a new object; its address -/
  | alloc (o : Obj) (k : Nat → M α)
  /-- reads the object at an address -/
  | load (a : Nat) (k : Obj → M α)
  /-- overwrites the object at an address -/
  | store (a : Nat) (o : Obj) (k : M α)
  /-- a new object, for which the runtime system chooses a number (the capacity of an array); the number and the address -/
  | grow (c : Heap → Nat) (o : Nat → Obj) (k : Nat → Nat → M α)

/-- One computation, then another. -/
def M.bind {α β} : M α → (α → M β) → M β
  | .ret a, f => f a
  | .fault e, _ => .fault e
  | .alloc o k, f => .alloc o fun a => (k a).bind f
  | .load a k, f => .load a fun o => (k o).bind f
  | .store a o k, f => .store a o (k.bind f)
  | .grow c o k, f => .grow c o fun n a => (k n a).bind f

instance : Monad M where
  pure := .ret
  bind := M.bind

/-- A computation that runs alone, from a heap to the result and the heap at the end. -/
def M.run {α} : M α → Heap → Except Fault (α × Heap)
  | .ret a, h => .ok (a, h)
  | .fault e, _ => .error e
  | .alloc o k, h => (k h.length).run (h ++ [o])
  | .load a k, h => match h[a]? with
    | some o => (k o).run h
    | none => .error .stuck
  | .store a o k, h => k.run (h.set a o)
  | .grow c o k, h => (k (c h) h.length).run (h ++ [o (c h)])

/-- A computation is used as the function that runs it alone. -/
instance {α} : CoeFun (M α) (fun _ => Heap → Except Fault (α × Heap)) := ⟨M.run⟩

/-- A run-time panic. -/
def panic {α} (p : Panic) : M α := .fault (.panic p)

/-- Not a program of this language. -/
def stuck {α} : M α := .fault .stuck

/-- `stuck` unless there is a value. -/
def orStuck {α} : Option α → M α
  | some a => pure a
  | none => stuck

/-- A new object. -/
def alloc (o : Obj) : M Nat := .alloc o .ret

/-- The object at an address. -/
def load (a : Nat) : M Obj := .load a .ret

/-- Overwrites the object at an address. -/
def store (a : Nat) (o : Obj) : M Unit := .store a o (.ret ())

/-! ## Syntax -/

/-- Binary operators. -/
inductive Op where
  | and | eq | ne | gt | add | sub | mul | mod

/-- Expressions. -/
inductive Expr where
  | nil | str (s : Bytes) | int (i : Nat) | bool (b : Bool)
  /-- local variable -/
  | var (x : Ident)
  /-- package variable or constant -/
  | global (x : Ident)
  /-- `e.f` -/
  | field (e : Expr) (f : Ident)
  /-- `f(args)`, f a built-in function or one of another package -/
  | call (f : Ident) (args : List Expr)
  /-- `e.m(args)` -/
  | method (e : Expr) (m : Ident) (args : List Expr)
  /-- `&T{fields: values}` -/
  | new (ty : Ident) (fields : List Ident) (values : List Expr)
  /-- `[]T{}` -/
  | emptySlice (elem : Ty)
  /-- `time.Time{}` -/
  | zeroTime
  /-- `e.(T)` -/
  | assert (e : Expr) (ty : Ty)
  /-- `e.(I)` in its two-valued form, where `type I interface { m(T) }` -/
  | hasMethod (e : Expr) (m : Ident) (param : Ty)
  /-- `e[i]`, `e[:hi]` on slices, `e[lo:hi]` on strings -/
  | index (e i : Expr) | sliceTo (e hi : Expr) | slice (e lo hi : Expr)
  | not (e : Expr) | neg (e : Expr)
  | bin (op : Op) (a b : Expr)
  /-- `append(s, e)`, `append(s, t...)` -/
  | append (s e : Expr) | appendAll (s t : Expr)

/-- Statements. -/
inductive Stmt where
  /-- `var x T` -/
  | varDecl (x : Ident) (ty : Ty)
  /-- `x := e` -/
  | define (x : Ident) (e : Expr)
  /-- `x, y := e` -/
  | define2 (x y : Ident) (e : Expr)
  /-- `x = e` -/
  | assign (x : Ident) (e : Expr)
  /-- `r.f = e` -/
  | setField (r : Expr) (f : Ident) (e : Expr)
  | expr (e : Expr)
  | ret (es : List Expr)
  /-- `if c { } else { }`, `if init; c { } else { }` -/
  | ite (c : Expr) (thn els : List Stmt)
  | ifInit (init : Stmt) (c : Expr) (thn els : List Stmt)
  /-- `{ }` -/
  | block (ss : List Stmt)
  /-- `switch e { case label: body … default: dflt }` -/
  | switch (e : Expr) (labels : List Expr) (bodies : List Stmt) (dflt : List Stmt)
  /-- `for _, x := range e { }` -/
  | forRange (x : Ident) (e : Expr) (body : List Stmt)

/-- Functions and methods (the receiver is the first parameter). -/
structure Fn where
  name : Ident
  params : List (Ident × Ty)
  results : List Ty
  body : List Stmt

/-- A package. -/
structure Program where
  /-- fields of the struct types -/
  structs : Ident → List (Ident × Ty)
  /-- method sets of the pointers to these -/
  methods : Ident → List Fn
  /-- the listener methods called by `EnterRule` and `ExitRule` of the contexts of the generated parser -/
  enterName : Rule → Ident
  exitName : Rule → Ident
  /-- the contexts with a method `AllDigit` -/
  hasAllDigit : Rule → Bool

/-- What the rest of the world decides. -/
structure Setting where
  /-- `mime.WordDecoder.Decode` with the `CharsetReader` installed, `time.Now().Year()` -/
  env : Env
  /-- the capacity `append` gives to a new array for so many elements; it may depend on the capacity of the old one and on the
  state of the heap -/
  grow : Heap → Nat → Nat → Nat
  /-- there is room for the elements -/
  grow_ge : ∀ h c n, n ≤ grow h c n
  /-- the trees the parser builds from the start rule; `none` if it reports syntax errors -/
  parse : Rule → Bytes → Option (List Tree)
  /-- then: messages of the errors (at least one), and what the parser returns nevertheless -/
  message : Rule → Bytes → Bytes
  messages : Rule → Bytes → List Bytes
  recovered : Rule → Bytes → List Tree

/-! ## Values -/

/-- Zero value of a type. -/
def zero : Ty → Val
  | .int => .int 0
  | .month => .int 0
  | .string => .str []
  | .bool => .bool false
  | .slice t => .slice t none 0 0
  | _ => .nil

/-- The value `nil` takes the type of the variable it is assigned to. -/
def convert : Ty → Val → Val
  | .slice t, .nil => .slice t none 0 0
  | _, v => v

/-- Exactly one value. -/
def one : List Val → M Val
  | [v] => pure v
  | _ => stuck

/-- First entry of a list of pairs. -/
def assoc {α} (x : Ident) : List (Ident × α) → Option α
  | [] => none
  | (y, a) :: l => if x = y then some a else assoc x l

/-- Replaces the first entry. -/
def update {α} (x : Ident) (a : α) : List (Ident × α) → Option (List (Ident × α))
  | [] => none
  | (y, b) :: l => if x = y then some ((y, a) :: l) else (update x a l).map ((y, b) :: ·)

/-- Fields of structs of other packages that are used here: `mail.Address`, `mime.WordDecoder`. -/
def fieldsOf (Pr : Program) : Ident → List (Ident × Ty)
  | .«mail.Address» => [(.Name, .string), (.Address, .string)]
  | .«mime.WordDecoder» => [(.CharsetReader, .iface)]
  | ty => Pr.structs ty

/-- The fields of a composite literal, the others zero. -/
def fill (fs : List (Ident × Ty)) (given : List (Ident × Val)) : List (Ident × Val) :=
  fs.map fun ft => (ft.1, (assoc ft.1 given).getD (zero ft.2))

/-- Dynamic type of a pointer. -/
def structOf (v : Val) : M (Ident × List (Ident × Val)) :=
  match v with
  | .ptr a => do
    match ← load a with
    | .struct ty fs => pure (ty, fs)
    | .array _ => stuck
  | _ => stuck

/-- `v.f` -/
def getField (v : Val) (f : Ident) : M Val := do
  let s ← structOf v
  orStuck (assoc f s.2)

/-- `v.f = x` -/
def putField (v : Val) (f : Ident) (x : Val) : M Unit :=
  match v with
  | .ptr a => do
    match ← load a with
    | .struct ty fs => do
      let fs' ← orStuck (update f x fs)
      store a (.struct ty fs')
    | .array _ => stuck
  | _ => stuck

/-- The elements of a slice. -/
def elems (v : Val) : M (List Val) :=
  match v with
  | .slice _ none _ _ => pure []
  | .slice _ (some a) len _ => do
    match ← load a with
    | .array vs => pure (vs.take len)
    | .struct .. => stuck
  | _ => stuck

/-- A new array for `n` elements, given its capacity; its capacity and address. -/
def newArray (S : Setting) (cap n : Nat) (o : Nat → List Val) : M (Nat × Nat) := .grow (S.grow · cap n) (fun c => .array (o c)) fun c a => .ret (c, a)

/-- `append(s, xs...)`: in place if the capacity is sufficient, otherwise into a new array; unchanged if there is nothing to append. -/
def appendVals (S : Setting) (s : Val) (xs : List Val) : M Val :=
  match s with
  | .slice t arr len cap =>
    match xs with
    | [] => pure s
    | _ :: _ =>
      if len + xs.length ≤ cap then
        match arr with
        | none => stuck
        | some a => do
          match ← load a with
          | .array vs => do
            store a (.array (vs.take len ++ xs ++ vs.drop (len + xs.length)))
            pure (.slice t (some a) (len + xs.length) cap)
          | .struct .. => stuck
      else do
        let old ← elems s
        let r ← newArray S cap (len + xs.length) fun cap' => old ++ xs ++ List.replicate (cap' - (len + xs.length)) (zero t)
        pure (.slice t (some r.2) (len + xs.length) r.1)
  | _ => stuck

/-- `x == y` for strings, integers and comparison with nil. -/
def equal : Val → Val → M Bool
  | .str a, .str b => pure (decide (a = b))
  | .int a, .int b => pure (decide (a = b))
  | .nil, .nil => pure true
  | .err _, .nil => pure false
  | _, _ => stuck

/-- Binary operators but `&&`. -/
def arith : Op → Val → Val → M Val
  | .eq, a, b => do pure (.bool (← equal a b))
  | .ne, a, b => do pure (.bool (!(← equal a b)))
  | .gt, .int a, .int b => pure (.bool (decide (a > b)))
  | .add, .int a, .int b => pure (.int (a + b))
  | .add, .str a, .str b => pure (.str (a ++ b))
  | .sub, .int a, .int b => pure (.int (a - b))
  | .mul, .int a, .int b => pure (.int (a * b))
  | .mod, .int a, .int b => pure (.int (a.tmod b))
  | _, _, _ => stuck

/-- `vs[k]` -/
def indexVal (vs : List Val) : Val → M Val
  | .int (.ofNat k) => match vs[k]? with
    | some x => pure x
    | none => panic .emptyStack
  | .int (.negSucc _) => panic .emptyStack
  | _ => stuck

/-- `v[:k]` -/
def sliceToVal : Val → Val → M Val
  | .slice t a _ cap, .int (.ofNat k) => if k ≤ cap then pure (.slice t a k cap) else panic .sliceBounds
  | .slice .., .int (.negSucc _) => panic .sliceBounds
  | _, _ => stuck

/-- `s[i:j]` for a string -/
def sliceVal : Val → Val → Val → M Val
  | .str s, .int (.ofNat i), .int (.ofNat j) =>
    match sliceBytes s i j with
    | .ok x => pure (.str x)
    | .error p => panic p
  | .str _, .int _, .int _ => panic .sliceBounds
  | _, _, _ => stuck

/-- `!v` -/
def notVal : Val → M Val
  | .bool b => pure (.bool (!b))
  | _ => stuck

/-- `-v` -/
def negVal : Val → M Val
  | .int i => pure (.int (-i))
  | _ => stuck

/-- The method set of the dynamic type of a value contains `m` with one parameter of type `t`. -/
def implements (Pr : Program) (ty m : Ident) (t : Ty) : Bool :=
  (Pr.methods ty).any fun f => decide (f.name = m) && decide (f.params.tail.map Prod.snd = [t]) && f.results.isEmpty

/-- `v.(I)` in its two-valued form, where `type I interface { m(T) }` -/
def assertMethod (Pr : Program) (v : Val) (m : Ident) (t : Ty) : M (List Val) :=
  match v with
  | .ptr _ => do
    let s ← structOf v
    if implements Pr s.1 m t then pure [v, .bool true] else pure [.nil, .bool false]
  | _ => pure [.nil, .bool false]

/-- `v.(T)` with `T` not an interface. -/
def assertTy (v : Val) (t : Ty) : M Val :=
  match v, t with
  | .ptr _, .ptr n => do
    let s ← structOf v
    if s.1 = n then pure v else panic .typeAssertion
  | .slice e _ _ _, .slice e' => if e = e' then pure v else panic .typeAssertion
  | .time _, .named .«time.Time» => pure v
  | _, _ => panic .typeAssertion

/-! ## Other packages -/

/-- `fmt.Sprintf` with the verb `%v` and strings only. -/
def sprintf : Bytes → List Val → Option Bytes
  | [], [] => some []
  | [], _ :: _ => none
  | 0x25 :: 0x76 :: f, .str s :: vs => (sprintf f vs).map (s ++ ·)
  | c :: f, vs => if c = 0x25 then none else (sprintf f vs).map (c :: ·)

/-- All of them strings. -/
def strings : List Val → Option (List Bytes)
  | [] => some []
  | .str s :: vs => (strings vs).map (s :: ·)
  | _ => none

/-- `error` results of the standard library. -/
def stdErr : Option Err → Val
  | none => .nil
  | some e => .err (.std e)

/-- Functions of other packages, `len` and `int`. -/
def builtin (S : Setting) : Ident → List Val → M (List Val)
  | .len, [.str s] => pure [.int s.length]
  | .len, [.slice _ _ n _] => pure [.int n]
  | .int, [.secs ns] => pure [.int (durationSeconds ns)]
  | .«strings.ToLower», [.str s] => pure [.str (toLower s)]
  | .«strings.HasPrefix», [.str s, .str p] => pure [.bool (p.isPrefixOf s)]
  | .«strings.Join», [v, .str sep] => do
    let vs ← elems v
    let ss ← orStuck (strings vs)
    pure [.str (joinBytes sep ss)]
  | .«strconv.Atoi», [.str s] => pure [.int (atoi s).1, stdErr (atoi s).2]
  | .«fmt.Sprintf», .str f :: vs => do pure [.str (← orStuck (sprintf f vs))]
  | .«fmt.Errorf», .str f :: vs => do pure [.err (.new (← orStuck (sprintf f vs)))]
  | .«errors.New», [.str s] => pure [.err (.new s)]
  | .«time.Now», [] => pure [.now]
  | .«time.FixedZone», [.str n, .int o] => pure [.loc (fixedZone n o)]
  | .«time.ParseDuration», [.str s] => pure [.dur (parseDuration s).1, stdErr (parseDuration s).2]
  | .«time.Date», [.int y, .int mo, .int d, .int h, .int mi, .int s, .int 0, .loc l] => pure [.time (goDate y mo d h mi s l)]
  | .«antlr.NewInputStream», [.str s] => pure [.inputStream s]
  | .«parser.NewRFC5322Lexer», [.inputStream s] => pure [.lexer s]
  | .«antlr.NewCommonTokenStream», [.lexer s, .channel] => pure [.stream s]
  | .«parser.NewRFC5322Parser», [.stream s] => do
    let l ← alloc (.array [.console])
    let a ← alloc (.struct .«parser.RFC5322Parser» [(.input, .stream s), (.listeners, .slice .iface (some l) 1 1)])
    pure [.ptr a]
  | _, _ => stuck

/-- Package variables and constants. -/
def globalVal : Ident → M Val
  | .CharsetReader => pure .reader
  | .«time.UTC» => pure (.loc utcLoc)
  | .«time.January» => pure (.int 1)
  | .«time.February» => pure (.int 2)
  | .«time.March» => pure (.int 3)
  | .«time.April» => pure (.int 4)
  | .«time.May» => pure (.int 5)
  | .«time.June» => pure (.int 6)
  | .«time.July» => pure (.int 7)
  | .«time.August» => pure (.int 8)
  | .«time.September» => pure (.int 9)
  | .«time.October» => pure (.int 10)
  | .«time.November» => pure (.int 11)
  | .«time.December» => pure (.int 12)
  | .«antlr.TokenDefaultChannel» => pure .channel
  | .«antlr.ParseTreeWalkerDefault» => pure .treeWalker
  | _ => stuck

/-- How functions of the package are called. -/
abbrev Caller := Fn → List Val → M (List Val)

/-- A method of the package. -/
def Program.find (Pr : Program) (ty m : Ident) : Option Fn := (Pr.methods ty).find? fun f => decide (f.name = m)

/-- Calls a listener method with the context; types that do not define it inherit the empty one
(/repo/walker.go:15, /repo/parser/rfc5322parser_base_listener.go). -/
def notify (Pr : Program) (call : Caller) (w : Val) (m : Ident) (arg : Val) : M Unit := do
  let s ← structOf w
  match Pr.find s.1 m with
  | some f => do
    let _ ← call f [w, arg]
    pure ()
  | none => pure ()

mutual
/-- `antlr.ParseTreeWalkerDefault.Walk(w, tree)`. -/
def walkTree (Pr : Program) (call : Caller) (w : Val) : Tree → M Unit
  | .tok _ => pure ()
  | .eof => pure ()
  | .node r ts => do
    notify Pr call w (Pr.enterName r) (.ctx r ts)
    walkTrees Pr call w ts
    notify Pr call w (Pr.exitName r) (.ctx r ts)
/-- Children in order. -/
def walkTrees (Pr : Program) (call : Caller) (w : Val) : List Tree → M Unit
  | [] => pure ()
  | t :: ts => do
    walkTree Pr call w t
    walkTrees Pr call w ts
end

/-- Reports a message to the error listeners. -/
def report (Pr : Program) (call : Caller) (msg : Bytes) : List Val → M Unit
  | [] => pure ()
  | v :: vs => do
    match v with
    | .console => pure ()
    | _ => do
      let s ← structOf v
      match Pr.find s.1 .SyntaxError with
      | some f => do
        let _ ← call f [v, .nil, .nil, .int 0, .int 0, .str msg, .nil]
        pure ()
      | none => stuck
    report Pr call msg vs

/-- Reports several messages. -/
def reportAll (Pr : Program) (call : Caller) (vs : List Val) : List Bytes → M Unit
  | [] => pure ()
  | msg :: ms => do
    report Pr call msg vs
    reportAll Pr call vs ms

/-- `p.AddressList()`, `p.DateTime()`. -/
def parseFrom (Pr : Program) (S : Setting) (call : Caller) (r : Rule) (p : Val) : M (List Val) := do
  match ← getField p .input with
  | .stream s =>
    match S.parse r s with
    | some ts => pure [.tree ts]
    | none => do
      let ls ← elems (← getField p .listeners)
      reportAll Pr call ls (S.message r s :: S.messages r s)
      pure [.tree (S.recovered r s)]
  | _ => stuck

/-- Tokens of the type Digit among the children of a node (`GetTokens`). -/
def digitTokens : List Tree → List Char
  | [] => []
  | .tok c :: ts => if Tok.Digit.matches c then c :: digitTokens ts else digitTokens ts
  | _ :: ts => digitTokens ts

/-- Methods of types of other packages. -/
def foreign (Pr : Program) (S : Setting) (call : Caller) (v : Val) (ty m : Ident) (args : List Val) : M (List Val) :=
  match ty, m, args with
  | .«mime.WordDecoder», .Decode, [.str s] => do
    match ← getField v .CharsetReader with
    | .reader =>
      match S.env.decode s with
      | some x => pure [.str x, .nil]
      | none => pure [.str [], .err (.new [])]
    | _ => stuck
  | .«parser.RFC5322Parser», .RemoveErrorListeners, [] => do
    putField v .listeners (.slice .iface none 0 0)
    pure []
  | .«parser.RFC5322Parser», .AddErrorListener, [w] => do
    let l ← getField v .listeners
    putField v .listeners (← appendVals S l [w])
    pure []
  | .«parser.RFC5322Parser», .AddressList, [] => parseFrom Pr S call .addressList v
  | .«parser.RFC5322Parser», .DateTime, [] => parseFrom Pr S call .dateTime v
  | _, _, _ => stuck

/-- `v.m(args)` -/
def callMethod (Pr : Program) (S : Setting) (call : Caller) (v : Val) (m : Ident) (args : List Val) : M (List Val) :=
  match v, m, args with
  | .ptr _, _, _ => do
    let s ← structOf v
    match Pr.find s.1 m with
    | some f => call f (v :: args)
    | none => foreign Pr S call v s.1 m args
  | .ctx _ ts, .GetText, [] => pure [.str (textList ts)]
  | .ctx r ts, .AllDigit, [] => if Pr.hasAllDigit r then pure [.terms (digitTokens ts)] else stuck
  | .term c, .GetText, [] => pure [.str (encodeRune c)]
  | .now, .Year, [] => pure [.int S.env.nowYear]
  | .dur ns, .Seconds, [] => pure [.secs ns]
  | .treeWalker, .Walk, [w, .tree ts] => do
    walkTrees Pr call w ts
    pure []
  | _, _, _ => stuck

/-! ## Meaning -/

/-- Local variables, innermost first. -/
abbrev Locals := List (Ident × Val)

mutual
/-- The values of an expression (calls may have none or several). -/
def eval (Pr : Program) (S : Setting) (call : Caller) (ρ : Locals) : Expr → M (List Val)
  | .nil => pure [.nil]
  | .str s => pure [.str s]
  | .int i => pure [.int i]
  | .bool b => pure [.bool b]
  | .var x => do pure [← orStuck (assoc x ρ)]
  | .global x => do pure [← globalVal x]
  | .field e f => do
    let v ← one (← eval Pr S call ρ e)
    pure [← getField v f]
  | .call f args => do builtin S f (← evalAll Pr S call ρ args)
  | .method e m args => do
    let v ← one (← eval Pr S call ρ e)
    let vs ← evalAll Pr S call ρ args
    callMethod Pr S call v m vs
  | .new ty fs es => do
    let vs ← evalAll Pr S call ρ es
    let a ← alloc (.struct ty (fill (fieldsOf Pr ty) (fs.zip vs)))
    pure [.ptr a]
  | .emptySlice t => do
    let a ← alloc (.array [])
    pure [.slice t (some a) 0 0]
  | .zeroTime => pure [.time zeroTime]
  | .assert e t => do
    let v ← one (← eval Pr S call ρ e)
    pure [← assertTy v t]
  | .hasMethod e m t => do
    let v ← one (← eval Pr S call ρ e)
    assertMethod Pr v m t
  | .index e i => do
    let v ← one (← eval Pr S call ρ e)
    let k ← one (← eval Pr S call ρ i)
    pure [← indexVal (← elems v) k]
  | .sliceTo e hi => do
    let v ← one (← eval Pr S call ρ e)
    let k ← one (← eval Pr S call ρ hi)
    pure [← sliceToVal v k]
  | .slice e lo hi => do
    let v ← one (← eval Pr S call ρ e)
    let i ← one (← eval Pr S call ρ lo)
    let j ← one (← eval Pr S call ρ hi)
    pure [← sliceVal v i j]
  | .not e => do
    let v ← one (← eval Pr S call ρ e)
    pure [← notVal v]
  | .neg e => do
    let v ← one (← eval Pr S call ρ e)
    pure [← negVal v]
  | .bin .and a b => do
    match ← one (← eval Pr S call ρ a) with
    | .bool true => do
      let v ← one (← eval Pr S call ρ b)
      pure [v]
    | .bool false => pure [.bool false]
    | _ => stuck
  | .bin op a b => do
    let x ← one (← eval Pr S call ρ a)
    let y ← one (← eval Pr S call ρ b)
    pure [← arith op x y]
  | .append s e => do
    let v ← one (← eval Pr S call ρ s)
    let x ← one (← eval Pr S call ρ e)
    pure [← appendVals S v [x]]
  | .appendAll s t => do
    let v ← one (← eval Pr S call ρ s)
    let x ← one (← eval Pr S call ρ t)
    pure [← appendVals S v (← elems x)]
/-- Expressions with one value each. -/
def evalAll (Pr : Program) (S : Setting) (call : Caller) (ρ : Locals) : List Expr → M (List Val)
  | [] => pure []
  | e :: es => do
    let v ← one (← eval Pr S call ρ e)
    let vs ← evalAll Pr S call ρ es
    pure (v :: vs)
end

/-- How a statement ends. -/
inductive Ctrl where
  | next (ρ : Locals)
  | ret (vs : List Val)

/-- At the end of a block its variables disappear. -/
def leave (n : Nat) : Ctrl → Ctrl
  | .next ρ => .next (ρ.drop (ρ.length - n))
  | .ret vs => .ret vs

/-- Position of the label equal to the value. -/
def position (v : Val) : List Val → M (Option Nat)
  | [] => pure none
  | l :: ls => do
    if ← equal v l then pure (some 0)
    else do
      let r ← position v ls
      pure (r.map (· + 1))

/-- `for _, x := range`: the body for one value after the other. -/
def forLoop (body : Locals → M Ctrl) (x : Ident) : List Val → Locals → M Ctrl
  | [], ρ => pure (.next ρ)
  | v :: vs, ρ => do
    match leave ρ.length (← body ((x, v) :: ρ)) with
    | .next ρ' => forLoop body x vs ρ'
    | .ret r => pure (.ret r)

/-- What can be ranged over. -/
def rangeOver : Val → M (List Val)
  | .terms cs => pure (cs.map .term)
  | v => elems v

mutual
/-- Statements. -/
def exec (Pr : Program) (S : Setting) (call : Caller) : Stmt → Locals → M Ctrl
  | .varDecl x t, ρ => pure (.next ((x, zero t) :: ρ))
  | .define x e, ρ => do
    let v ← one (← eval Pr S call ρ e)
    pure (.next ((x, v) :: ρ))
  | .define2 x y e, ρ => do
    match ← eval Pr S call ρ e with
    | [v, u] => pure (.next ((y, u) :: (x, v) :: ρ))
    | _ => stuck
  | .assign x e, ρ => do
    let v ← one (← eval Pr S call ρ e)
    let ρ' ← orStuck (update x v ρ)
    pure (.next ρ')
  | .setField r f e, ρ => do
    let a ← one (← eval Pr S call ρ r)
    let v ← one (← eval Pr S call ρ e)
    putField a f v
    pure (.next ρ)
  | .expr e, ρ => do
    let _ ← eval Pr S call ρ e
    pure (.next ρ)
  | .ret es, ρ => do pure (.ret (← evalAll Pr S call ρ es))
  | .ite c t e, ρ => do
    match ← one (← eval Pr S call ρ c) with
    | .bool true => do pure (leave ρ.length (← execs Pr S call t ρ))
    | .bool false => do pure (leave ρ.length (← execs Pr S call e ρ))
    | _ => stuck
  | .ifInit i c t e, ρ => do
    match ← exec Pr S call i ρ with
    | .ret vs => pure (.ret vs)
    | .next ρ₁ =>
      match ← one (← eval Pr S call ρ₁ c) with
      | .bool true => do pure (leave ρ.length (← execs Pr S call t ρ₁))
      | .bool false => do pure (leave ρ.length (← execs Pr S call e ρ₁))
      | _ => stuck
  | .block ss, ρ => do pure (leave ρ.length (← execs Pr S call ss ρ))
  | .switch e labels bodies dflt, ρ => do
    let v ← one (← eval Pr S call ρ e)
    let ls ← evalAll Pr S call ρ labels
    match ← position v ls with
    | some i => execNth Pr S call i bodies ρ
    | none => do pure (leave ρ.length (← execs Pr S call dflt ρ))
  | .forRange x e body, ρ => do
    let vs ← rangeOver (← one (← eval Pr S call ρ e))
    forLoop (fun ρ => execs Pr S call body ρ) x vs ρ
/-- Statements in sequence. -/
def execs (Pr : Program) (S : Setting) (call : Caller) : List Stmt → Locals → M Ctrl
  | [], ρ => pure (.next ρ)
  | s :: ss, ρ => do
    match ← exec Pr S call s ρ with
    | .next ρ' => execs Pr S call ss ρ'
    | .ret vs => pure (.ret vs)
/-- One statement of a list. -/
def execNth (Pr : Program) (S : Setting) (call : Caller) : Nat → List Stmt → Locals → M Ctrl
  | _, [], _ => stuck
  | 0, s :: _, ρ => exec Pr S call s ρ
  | n + 1, _ :: ss, ρ => execNth Pr S call n ss ρ
end

/-- Parameters and arguments. -/
def bindParams : List (Ident × Ty) → List Val → Option Locals
  | [], [] => some []
  | (x, t) :: ps, v :: vs => (bindParams ps vs).map ((x, convert t v) :: ·)
  | _, _ => none

/-- Results. -/
def results : List Ty → List Val → Option (List Val)
  | [], [] => some []
  | t :: ts, v :: vs => (results ts vs).map (convert t v :: ·)
  | _, _ => none

/-- Calls a function of the package; `n` bounds the nesting of such calls. -/
def callFn (Pr : Program) (S : Setting) : Nat → Caller
  | 0 => fun _ _ => stuck
  | n + 1 => fun f args => do
    let ρ ← orStuck (bindParams f.params args)
    match ← execs Pr S (callFn Pr S n) f.body ρ with
    | .next _ => orStuck (results f.results [])
    | .ret vs => orStuck (results f.results vs)

end Rfc5322.Go
