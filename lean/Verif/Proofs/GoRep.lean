import Verif.Proofs.GoHeap

/-!
# How the walker's stack lies on the heap
-/

set_option linter.constructorNameAsVariable false

namespace Rfc5322.Go

/-- Symbolic execution of the Go program. -/
syntax "go_run" "[" Lean.Parser.Tactic.simpLemma,* "]" : tactic
macro_rules
  | `(tactic| go_run [$ls,*]) => `(tactic| simp [M.bind_apply, M.pure_apply, orStuck_some, store_apply, alloc_apply, bindParams, convert,
      execs, exec, eval, evalAll, assoc, one, getField, putField, structOf, update, arith, results, leave, equal, fill, fieldsOf, zero, builtin, globalVal,
      $ls,*])

/-- The struct type of a stack element. -/
def ruleTy : Rule → Ident
  | .addrSpec => .addrSpec | .address => .address | .addressList => .addressList | .angleAddr => .angleAddr | .atom => .atom
  | .dateTime => .dateTime | .day => .day | .displayName => .displayName | .domain => .domain
  | .domainLiteral => .domainLiteral | .dotAtom => .dotAtom | .encodedWord => .encodedWord | .fws => .fws
  | .group => .group | .groupList => .groupList | .hour => .hour | .localPart => .localPart | .mailbox => .mailbox
  | .mailboxList => .mailboxList | .minute => .minute | .month => .month | .nameAddr => .nameAddr
  | .obsAngleAddr => .obsAngleAddr | .obsDomain => .obsDomain | .obsLocalPart => .obsLocalPart
  | .obsMboxList => .obsMboxList | .obsZone => .obsZone | .offset => .offset | .port => .port | .qtext => .qtext
  | .quotedChar => .quotedChar | .quotedContent => .quotedContent | .quotedPair => .quotedPair
  | .quotedString => .quotedString | .quotedValue => .quotedValue | .second => .second | .unspaced => .unspaced
  | .word => .word | .year => .year | .zone => .zone
  | _ => .walker

/-- The method a parent may have for it. -/
def withName : Rule → Ident
  | .addrSpec => .withAddrSpec | .address => .withAddress | .angleAddr => .withAngleAddr | .atom => .withAtom
  | .day => .withDay | .displayName => .withDisplayName | .domain => .withDomain
  | .domainLiteral => .withDomainLiteral | .dotAtom => .withDotAtom | .encodedWord => .withEncodedWord | .fws => .withFws
  | .group => .withGroup | .groupList => .withGroupList | .hour => .withHour | .localPart => .withLocalPart
  | .mailbox => .withMailbox
  | .mailboxList => .withMailboxList | .minute => .withMinute | .month => .withMonth | .nameAddr => .withNameAddr
  | .obsAngleAddr => .withObsAngleAddr | .obsDomain => .withObsDomain | .obsLocalPart => .withObsLocalPart
  | .obsMboxList => .withObsMboxList | .obsZone => .withObsZone | .offset => .withOffset | .port => .withPort
  | .qtext => .withQtext
  | .quotedChar => .withQuotedChar | .quotedContent => .withQuotedContent | .quotedPair => .withQuotedPair
  | .quotedString => .withQuotedString | .quotedValue => .withQuotedValue | .second => .withSecond
  | .unspaced => .withUnspaced | .word => .withWord | .year => .withYear | .zone => .withZone
  | _ => .enter

/-- The fields of the struct; `s` is the slice, if it has one. -/
def nodeFields (s : Val) : Node → List (Ident × Val)
  | .addrSpec l d => [(.localPart, .str l), (.domain, .str d)]
  | .address _ => [(.addresses, s)]
  | .addressList _ => [(.addresses, s)]
  | .angleAddr a => [(.address, .str a)]
  | .atom v => [(.value, .str v)]
  | .dateTime d mo y h mi sec l =>
    [(.day, .int d), (.month, .int mo), (.year, .int y), (.hour, .int h), (.min, .int mi), (.sec, .int sec), (.loc, .loc l)]
  | .day v => [(.value, .int v)]
  | .displayName v u => [(.value, .str v), (.unspaced, .bool u)]
  | .domain v => [(.value, .str v)]
  | .domainLiteral v => [(.value, .str v)]
  | .dotAtom v => [(.value, .str v)]
  | .encodedWord v => [(.value, .str v)]
  | .fws v => [(.value, .str v)]
  | .group _ => [(.addresses, s)]
  | .groupList _ => [(.addresses, s)]
  | .hour v => [(.value, .int v)]
  | .localPart v => [(.value, .str v)]
  | .mailbox n a => [(.name, .str n), (.address, .str a)]
  | .mailboxList _ => [(.addresses, s)]
  | .minute v => [(.value, .int v)]
  | .month v => [(.value, .int v)]
  | .nameAddr n a => [(.name, .str n), (.address, .str a)]
  | .obsAngleAddr a => [(.address, .str a)]
  | .obsDomain _ => [(.atoms, s)]
  | .obsLocalPart _ => [(.words, s)]
  | .obsMboxList _ => [(.addresses, s)]
  | .obsZone l => [(.location, .loc l)]
  | .offset rep v => [(.rep, .str rep), (.value, .int v)]
  | .port v => [(.value, .str v)]
  | .qtext v => [(.value, .str v)]
  | .quotedChar v => [(.value, .str v)]
  | .quotedContent v => [(.value, .str v)]
  | .quotedPair v => [(.value, .str v)]
  | .quotedString v => [(.value, .str v)]
  | .quotedValue v => [(.value, .str v)]
  | .second v => [(.value, .int v)]
  | .unspaced v => [(.value, .str v)]
  | .word v => [(.value, .str v)]
  | .year v => [(.value, .int v)]
  | .zone l => [(.location, .loc l)]

/-- A `mail.Address` on the heap. -/
def AddrAt (h : Heap) (a : Nat) (x : Addr) : Prop :=
  h[a]? = some (.struct .«mail.Address» [(.Name, .str x.name), (.Address, .str x.address)])

/-- A slice of pointers to `mail.Address`, at these addresses, nil if empty. -/
def IsAddrs (h : Heap) (v : Val) (adr : List Nat) (l : List Addr) : Prop :=
  IsSlice h (.ptr .«mail.Address») v (adr.map .ptr) ∧ NilIff v (adr.map .ptr) ∧ All2 (AddrAt h) adr l

/-- A slice of strings. -/
def IsStrs (h : Heap) (v : Val) (l : List Bytes) : Prop := IsSlice h .string v (l.map .str)

/-- The slice of a struct. -/
def Contents (h : Heap) (s : Val) (adr : List Nat) : Node → Prop
  | .address l => IsAddrs h s adr l
  | .addressList l => IsAddrs h s adr l
  | .group l => IsAddrs h s adr l
  | .groupList l => IsAddrs h s adr l
  | .mailboxList l => IsAddrs h s adr l
  | .obsMboxList l => IsAddrs h s adr l
  | .obsDomain l => IsStrs h s l ∧ adr = []
  | .obsLocalPart l => IsStrs h s l ∧ adr = []
  | _ => s = .nil ∧ adr = []

/-- Where a struct on the stack is: its address, its slice, and the addresses of the `mail.Address`es in it. -/
structure Cell where
  ptr : Nat
  sl : Val
  adr : List Nat

/-- A stack element on the heap. -/
def NodeRep (h : Heap) (c : Cell) (n : Node) : Prop :=
  h[c.ptr]? = some (.struct (ruleTy n.kind) (nodeFields c.sl n)) ∧ Contents h c.sl c.adr n

/-- Addresses a change of the struct may touch. -/
def Cell.own (c : Cell) : List Nat := c.ptr :: (arrOf c.sl).toList

theorem Contents.frame {W h h'} (f : Frame W h h') {s adr n} (k : Contents h s adr n) (na : ∀ a, arrOf s = some a → a ∉ W) :
    Contents h' s adr n := by
  have key : ∀ l, IsAddrs h s adr l → IsAddrs h' s adr l := fun l ⟨a, b, c⟩ =>
    ⟨a.frame f na, b, c.imp (fun _ _ e => f.addr e)⟩
  cases n
  case address | addressList | group | groupList | mailboxList | obsMboxList => exact key _ k
  case obsDomain | obsLocalPart => exact ⟨k.1.frame f na, k.2⟩
  all_goals exact k

theorem NodeRep.frame {W h h'} (f : Frame W h h') {c n} (k : NodeRep h c n) (na : ∀ a ∈ c.own, a ∉ W) : NodeRep h' c n := by
  refine ⟨f.get k.1 (na _ (by simp [Cell.own])), k.2.frame f fun a e => na a ?_⟩
  simp [Cell.own, e]

theorem ruleTy_ne_address (n : Node) : ruleTy n.kind ≠ .«mail.Address» := by
  cases n <;> simp [Node.kind, ruleTy]

theorem ruleTy_ne_walker (n : Node) : ruleTy n.kind ≠ .walker := by
  cases n <;> simp [Node.kind, ruleTy]

/-- The array of a struct's slice is an array. -/
theorem Contents.arr {h s adr n a} (k : Contents h s adr n) (e : arrOf s = some a) : ∃ full, h[a]? = some (.array full) := by
  cases n
  case address | addressList | group | groupList | mailboxList | obsMboxList => exact k.1.arr e
  case obsDomain | obsLocalPart => exact k.1.arr e
  all_goals
    rw [k.1] at e
    cases e

/-- The `mail.Address`es of a struct. -/
theorem Contents.lt {h s adr n} (k : Contents h s adr n) : ∀ a ∈ adr, ∃ fs, h[a]? = some (.struct .«mail.Address» fs) := by
  have key : ∀ l, IsAddrs h s adr l → ∀ a ∈ adr, ∃ fs, h[a]? = some (.struct .«mail.Address» fs) := by
    rintro l ⟨-, -, c⟩ a m
    clear k
    induction c with
    | nil => cases m
    | cons e _ ih =>
      cases m with
      | head => exact ⟨_, e⟩
      | tail _ m => exact ih m
  cases n
  case address | addressList | group | groupList | mailboxList | obsMboxList => exact key _ k
  all_goals
    rw [k.2]
    intro a m
    cases m

/-! ## Delivery: what the `withX` methods do -/

/-- What a `withX` method does to the heap. -/
structure Delivered (h h' : Heap) (c d d' : Cell) (n : Node) : Prop where
  same : d'.ptr = d.ptr
  rep : NodeRep h' d' n
  frame : Frame d.own h h'
  arr : arrOf d'.sl = arrOf d.sl ∨ ∃ a, arrOf d'.sl = some a ∧ h.length ≤ a
  adr : d'.adr = d.adr ∨ d'.adr = d.adr ++ c.adr ∨ ∃ a, h.length ≤ a ∧ d'.adr = d.adr ++ [a]

/-- Methods that change simple fields only. -/
theorem Delivered.simple {h : Heap} {c d : Cell} {n p : Node} (hd : NodeRep h d p)
    (hn : Contents (h.set d.ptr (.struct (ruleTy n.kind) (nodeFields d.sl n))) d.sl d.adr n) :
    Delivered h (h.set d.ptr (.struct (ruleTy n.kind) (nodeFields d.sl n))) c d d n :=
  ⟨rfl, ⟨getElem?_set_eq _ hd.1, hn⟩,
   Frame.set _ hd.1 (by simpa [Obj.isAddress] using ruleTy_ne_address p) (by simp [Cell.own]), Or.inl rfl, Or.inl rfl⟩

end Rfc5322.Go
