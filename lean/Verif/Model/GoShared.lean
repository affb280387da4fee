import Verif.Model.Source

/-!
# Calls running at the same time on one heap

Several goroutines call `ParseAddressList` and `ParseDateTime` (/repo/parser.go:19-62).  The calls run the hand-written source (`Verif/Model/GoCode.lean`) on one heap,
and after every single access to the heap of one call any other may go on.  Meanwhile the rest of the program does what it likes with its own objects.

Simplifications: an access concerns a whole object; the function in `CharsetReader` and the current year do not change during a call (C51 is about that; they may differ
from call to call); the parser of /repo/parser works without the heap and at once, as do the functions of the standard library (their own objects and the
caches of the ANTLR runtime, which have a mutex, are not on this heap); nothing is removed from the heap.
-/

namespace Rfc5322.Go

/-- The two functions of the package. -/
inductive Function where
  | parseAddressList | parseDateTime
  deriving DecidableEq

/-- The code of a call. -/
def Function.code (W : World) (n : Nat) (input : Bytes) : Function → M (List Val)
  | .parseAddressList => goParseAddressList W n input
  | .parseDateTime => goParseDateTime W n input

/-- One access to the heap: code and heap before, code and heap after, the addresses of new objects. -/
inductive Access {α : Type} : M α → Heap → M α → Heap → List Nat → Prop where
  | alloc {o k h} : Access (.alloc o k) h (k h.length) (h ++ [o]) [h.length]
  | load {a k h o} : h[a]? = some o → Access (.load a k) h (k o) h []
  | store {a o k h} : a < h.length → Access (.store a o k) h k (h.set a o) []
  | grow {c o k h} : Access (.grow c o k) h (k (c h) h.length) (h ++ [o (c h)]) [h.length]

/-- A call: what was called, in which world; what is still to do; the objects it has made. -/
structure Call where
  function : Function
  input : Bytes
  world : World
  nesting : Nat
  code : M (List Val)
  made : List Nat
  /-- the caller has the results, and with them the objects -/
  over : Bool

/-- The heap and the calls made so far. -/
structure State where
  heap : Heap
  calls : List Call

/-- What happens next; an access of the call number `i` is labelled so. -/
inductive Next : Option Nat → State → State → Prop where
  /-- a call begins -/
  | call {h cs} (f : Function) (input : Bytes) (W : World) (n : Nat) : 3 ≤ n → Next none ⟨h, cs⟩ ⟨h, cs ++ [⟨f, input, W, n, f.code W n input, [], false⟩]⟩
  /-- a call goes on -/
  | access {h cs h' i c code new} : cs[i]? = some c → Access c.code h code h' new →
      Next (some i) ⟨h, cs⟩ ⟨h', cs.set i { c with code := code, made := c.made ++ new }⟩
  /-- the caller goes on with the results of a call -/
  | over {h cs i c vs} : cs[i]? = some c → c.code = .ret vs → Next none ⟨h, cs⟩ ⟨h, cs.set i { c with over := true }⟩
  /-- somebody makes an object, with any contents -/
  | other {h cs} (o : Obj) : Next none ⟨h, cs⟩ ⟨h ++ [o], cs⟩
  /-- somebody overwrites an object that is not one of a running call: nobody else has those pointers -/
  | write {h cs} (a : Nat) (o : Obj) : (∀ c ∈ cs, c.over = false → a ∉ c.made) → Next none ⟨h, cs⟩ ⟨h.set a o, cs⟩

/-- States that can be reached when the program starts with any heap. -/
inductive Reachable : State → Prop where
  | start (h : Heap) : Reachable ⟨h, []⟩
  | next {l s s'} : Reachable s → Next l s s' → Reachable s'

/-- A call is about to read or write the object at this address. -/
def Call.about (c : Call) (a : Nat) : Prop := (∃ k, c.code = .load a k) ∨ ∃ o k, c.code = .store a o k

end Rfc5322.Go
