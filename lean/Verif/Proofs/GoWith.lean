import Verif.Proofs.GoRep

/-!
# The `withX` methods of the Go program do what `deliver` says
-/

set_option linter.constructorNameAsVariable false
set_option linter.unusedSimpArgs false

namespace Rfc5322.Go

/-- A struct whose only field is a slice of addresses, after `append` to it. -/
theorem appended (S : Setting) {h : Heap} {d : Cell} {ty : Ident} (nty : ty ≠ .«mail.Address») {l l' : List Addr} {adr' : List Nat}
    (hd : h[d.ptr]? = some (.struct ty [(.addresses, d.sl)])) (A : IsAddrs h d.sl d.adr l) (A' : All2 (AddrAt h) adr' l') :
    ∃ s' h₁, appendVals S d.sl (adr'.map .ptr) h = .ok (s', h₁) ∧ h₁[d.ptr]? = some (.struct ty [(.addresses, d.sl)]) ∧
      Frame d.own h (h₁.set d.ptr (.struct ty [(.addresses, s')])) ∧
      (h₁.set d.ptr (.struct ty [(.addresses, s')]))[d.ptr]? = some (.struct ty [(.addresses, s')]) ∧
      IsAddrs (h₁.set d.ptr (.struct ty [(.addresses, s')])) s' (d.adr ++ adr') (l ++ l') ∧
      (arrOf s' = arrOf d.sl ∨ ∃ a, arrOf s' = some a ∧ h.length ≤ a) := by
  obtain ⟨s', h₁, e, sl, fr, ar, nl⟩ := append_spec S A.1 (adr'.map .ptr)
  have na : ∀ a, arrOf d.sl = some a → a ≠ d.ptr := by
    rintro a ea rfl
    obtain ⟨full, q⟩ := A.1.arr ea
    rw [hd] at q; cases q
  have h1 : h₁[d.ptr]? = some (.struct ty [(.addresses, d.sl)]) := by
    refine fr.get hd ?_
    intro m
    rw [Option.mem_toList] at m
    exact na _ m rfl
  have isA : ¬ (Obj.struct ty [(.addresses, d.sl)]).isAddress := nty
  have fr2 : Frame [d.ptr] h₁ (h₁.set d.ptr (.struct ty [(.addresses, s')])) := Frame.set _ h1 isA (by simp)
  refine ⟨s', h₁, e, h1, ?_, getElem?_set_eq _ h1, ⟨?_, ?_, ?_⟩, ar.imp id fun ⟨a, _⟩ => ⟨_, a, Nat.le_refl _⟩⟩
  · exact (fr.mono fun i m => by simp [Cell.own, m]).trans (fr2.mono fun i m => by simp at m; simp [Cell.own, m])
  · rw [List.map_append]
    refine sl.frame fr2 ?_
    intro a ea m
    simp at m
    subst m
    obtain ⟨full, q⟩ := sl.arr ea
    rw [h1] at q; cases q
  · rw [List.map_append]; exact nl A.2.1
  · exact (A.2.2.append A').imp fun _ _ q => fr2.addr (fr.addr q)

/-- `append(d.addresses, c.addresses...)` -/
theorem all_ok (S : Setting) (n : Nat) {h : Heap} {c d : Cell} {ty tyc m a x : Ident} (nty : ty ≠ .«mail.Address») {l l' : List Addr}
    (ax : x ≠ a) (hc : h[c.ptr]? = some (.struct tyc [(.addresses, c.sl)])) (C : IsAddrs h c.sl c.adr l')
    (hd : h[d.ptr]? = some (.struct ty [(.addresses, d.sl)])) (A : IsAddrs h d.sl d.adr l) :
    ∃ h' s', callFn Code.program S (n + 1) ⟨m, [(a, .ptr ty), (x, .ptr tyc)], [],
        [.setField (.var a) .addresses (.appendAll (.field (.var a) .addresses) (.field (.var x) .addresses))]⟩ [.ptr d.ptr, .ptr c.ptr] h
          = .ok ([], h') ∧
      Frame d.own h h' ∧ h'[d.ptr]? = some (.struct ty [(.addresses, s')]) ∧ IsAddrs h' s' (d.adr ++ c.adr) (l ++ l') ∧
      (arrOf s' = arrOf d.sl ∨ ∃ a, arrOf s' = some a ∧ h.length ≤ a) := by
  obtain ⟨s', h₁, e, h1, fr, g, A', ar⟩ := appended S nty hd A C.2.2
  refine ⟨_, s', ?_, fr, g, A', ar⟩
  go_run [callFn, load_apply hc, load_apply hd, load_apply h1, ax, C.1.elems, e]

/-- `append(d.addresses, &mail.Address{Name: c.name, Address: c.address})` -/
theorem mailbox_ok (S : Setting) (n : Nat) {h : Heap} {c d : Cell} {ty tyc m a x : Ident} (nty : ty ≠ .«mail.Address») {l : List Addr}
    {nm ad : Bytes} (ax : x ≠ a) (hc : h[c.ptr]? = some (.struct tyc [(.name, .str nm), (.address, .str ad)]))
    (hd : h[d.ptr]? = some (.struct ty [(.addresses, d.sl)])) (A : IsAddrs h d.sl d.adr l) :
    ∃ h' s' k, callFn Code.program S (n + 1) ⟨m, [(a, .ptr ty), (x, .ptr tyc)], [],
        [.setField (.var a) .addresses (.append (.field (.var a) .addresses) (.new .«mail.Address» [.Name, .Address]
          [(.field (.var x) .name), (.field (.var x) .address)]))]⟩ [.ptr d.ptr, .ptr c.ptr] h
          = .ok ([], h') ∧
      Frame d.own h h' ∧ h'[d.ptr]? = some (.struct ty [(.addresses, s')]) ∧ IsAddrs h' s' (d.adr ++ [k]) (l ++ [⟨nm, ad⟩]) ∧
      (arrOf s' = arrOf d.sl ∨ ∃ a, arrOf s' = some a ∧ h.length ≤ a) ∧ h.length ≤ k := by
  have fr0 : Frame d.own h (h ++ [.struct .«mail.Address» [(.Name, .str nm), (.Address, .str ad)]]) := Frame.alloc _ _ _
  have fr00 : Frame [] h (h ++ [.struct .«mail.Address» [(.Name, .str nm), (.Address, .str ad)]]) := Frame.alloc _ _ _
  have A0 : IsAddrs (h ++ [.struct .«mail.Address» [(.Name, .str nm), (.Address, .str ad)]]) d.sl d.adr l :=
    ⟨A.1.frame fr00 (by simp), A.2.1, A.2.2.imp fun _ _ e => fr0.addr e⟩
  obtain ⟨s', h₁, e, h1, fr, g, A', ar⟩ := appended S (d := d) nty (getElem?_alloc hd) A0
    (All2.cons (R := AddrAt _) (a := h.length) (b := ⟨nm, ad⟩) (show _ = _ from getElem?_new _ _) .nil)
  refine ⟨_, s', h.length, ?_, fr0.trans fr, g, A', ar.imp id fun ⟨a, p, q⟩ => ⟨a, p, by simp at q; omega⟩, Nat.le_refl _⟩
  simp only [List.map_cons, List.map_nil] at e
  go_run [callFn, load_apply hc, load_apply hd, load_apply h1, ax, e]

/-- `append(d.f, c.value)` for strings -/
theorem str_ok (S : Setting) (n : Nat) {h : Heap} {c d : Cell} {ty tyc m a x f : Ident} (nty : ty ≠ .«mail.Address») {l : List Bytes}
    {v : Bytes} (ax : x ≠ a) (hc : h[c.ptr]? = some (.struct tyc [(.value, .str v)]))
    (hd : h[d.ptr]? = some (.struct ty [(f, d.sl)])) (A : IsStrs h d.sl l) :
    ∃ h' s', callFn Code.program S (n + 1) ⟨m, [(a, .ptr ty), (x, .ptr tyc)], [],
        [.setField (.var a) f (.append (.field (.var a) f) (.field (.var x) .value))]⟩ [.ptr d.ptr, .ptr c.ptr] h
          = .ok ([], h') ∧
      Frame d.own h h' ∧ h'[d.ptr]? = some (.struct ty [(f, s')]) ∧ IsStrs h' s' (l ++ [v]) ∧
      (arrOf s' = arrOf d.sl ∨ ∃ a, arrOf s' = some a ∧ h.length ≤ a) := by
  obtain ⟨s', h₁, e, sl, fr, ar, nl⟩ := append_spec S A [.str v]
  have h1 : h₁[d.ptr]? = some (.struct ty [(f, d.sl)]) := by
    refine fr.get hd ?_
    intro k
    rw [Option.mem_toList] at k
    obtain ⟨full, q⟩ := IsSlice.arr A k
    rw [hd] at q; cases q
  have isA : ¬ (Obj.struct ty [(f, d.sl)]).isAddress := nty
  have fr2 : Frame [d.ptr] h₁ (h₁.set d.ptr (.struct ty [(f, s')])) := Frame.set _ h1 isA (by simp)
  refine ⟨h₁.set d.ptr (.struct ty [(f, s')]), s', ?_,
    (fr.mono fun i m => by simp [Cell.own, m]).trans (fr2.mono fun i m => by simp at m; simp [Cell.own, m]),
    getElem?_set_eq _ h1, ?_, ar.imp id fun ⟨a, _⟩ => ⟨_, a, Nat.le_refl _⟩⟩
  · go_run [callFn, load_apply hc, load_apply hd, load_apply h1, ax, e]
  · have := sl.frame fr2 (fun a ea k => by
      simp at k
      subst k
      obtain ⟨full, q⟩ := sl.arr ea
      rw [h1] at q; cases q)
    simpa [IsStrs] using this

theorem load_set {h : Heap} {a : Nat} {o : Obj} (e : h[a]? = some o) (x : Obj) : load a (h.set a x) = .ok (x, h.set a x) :=
  load_apply (getElem?_set_eq x e)

theorem sprintf_at (a b : Bytes) : sprintf [37, 118, 64, 37, 118] [.str a, .str b] = some (atSign a b) := by
  simp [sprintf, atSign]

theorem load_set_ne {h : Heap} {a b : Nat} {o : Obj} (ne : a ≠ b) (e : h[b]? = some o) (x : Obj) : load b (h.set a x) = .ok (o, h.set a x) :=
  load_apply (by rw [getElem?_set_ne ne, e])

theorem strings_map (l : List Bytes) : strings (l.map Val.str) = some l := by
  induction l with
  | nil => rfl
  | cons a l ih => simp [strings, ih]

/-- The parent's type has the `withX` method for the child's type. -/
def accepts (child parent : Rule) : Bool := implements Code.program (ruleTy parent) (withName child) (.ptr (ruleTy child))

theorem simple_ok {S : Setting} {n : Nat} {h : Heap} {c d : Cell} {child parent : Node} {f : Fn} (hd : NodeRep h d parent)
    (e : Code.program.find (ruleTy parent.kind) (withName child.kind) = some f)
    (run : callFn Code.program S (n + 1) f [.ptr d.ptr, .ptr c.ptr] h = .ok ([], h.set d.ptr (.struct (ruleTy (deliver child parent).kind)
      (nodeFields d.sl (deliver child parent)))))
    (k : Contents (h.set d.ptr (.struct (ruleTy (deliver child parent).kind) (nodeFields d.sl (deliver child parent)))) d.sl d.adr
      (deliver child parent)) :
    ∃ f h' d', Code.program.find (ruleTy parent.kind) (withName child.kind) = some f ∧
      callFn Code.program S (n + 1) f [.ptr d.ptr, .ptr c.ptr] h = .ok ([], h') ∧ Delivered h h' c d d' (deliver child parent) :=
  ⟨f, _, d, e, run, Delivered.simple hd k⟩

set_option maxHeartbeats 2000000 in
/-- What the parent does, if it has the method. -/
theorem deliver_ok (S : Setting) (n : Nat) {h : Heap} {c d : Cell} {child parent : Node} (hc : NodeRep h c child) (hd : NodeRep h d parent)
    (ne : d.ptr ≠ c.ptr) (acc : accepts child.kind parent.kind = true) :
    ∃ f h' d', Code.program.find (ruleTy parent.kind) (withName child.kind) = some f ∧
      callFn Code.program S (n + 1) f [.ptr d.ptr, .ptr c.ptr] h = .ok ([], h') ∧ Delivered h h' c d d' (deliver child parent) := by
  cases child <;> cases parent <;> first | exact (Bool.false_ne_true acc).elim | skip
  case localPart.addrSpec =>
    exact simple_ok hd rfl (by
      have hc1 := hc.1; have hd1 := hd.1
      simp only [Node.kind, ruleTy, nodeFields] at hc1 hd1
      go_run [callFn, Code.addrSpec_withLocalPart, load_apply hc1, load_apply hd1, deliver, nodeFields, Node.kind, ruleTy]) hd.2
  case domain.addrSpec =>
    exact simple_ok hd rfl (by
      have hc1 := hc.1; have hd1 := hd.1
      simp only [Node.kind, ruleTy, nodeFields] at hc1 hd1
      go_run [callFn, Code.addrSpec_withDomain, load_apply hc1, load_apply hd1, deliver, nodeFields, Node.kind, ruleTy]) hd.2
  case port.addrSpec =>
    exact simple_ok hd rfl (by
      have hc1 := hc.1; have hd1 := hd.1
      simp only [Node.kind, ruleTy, nodeFields] at hc1 hd1
      go_run [callFn, Code.addrSpec_withPort, load_apply hc1, load_apply hd1, deliver, nodeFields, Node.kind, ruleTy]) hd.2
  case mailbox.address =>
    obtain ⟨h', s', k, run, fr, g, A, ar, lt⟩ := mailbox_ok S n (m := .withMailbox) (ty := .address) (a := .a) (x := .mailbox) (by simp) (by simp) hc.1 hd.1 hd.2
    exact ⟨Code.address_withMailbox, h', ⟨d.ptr, s', d.adr ++ [k]⟩, rfl, run, rfl, ⟨g, A⟩, fr, ar, Or.inr (Or.inr ⟨k, lt, rfl⟩)⟩
  case group.address =>
    obtain ⟨h', s', run, fr, g, A, ar⟩ := all_ok S n (m := .withGroup) (ty := .address) (a := .a) (x := .group) (by simp) (by simp) hc.1 hc.2 hd.1 hd.2
    exact ⟨Code.address_withGroup, h', ⟨d.ptr, s', d.adr ++ c.adr⟩, rfl, run, rfl, ⟨g, A⟩, fr, ar, Or.inr (Or.inl rfl)⟩
  case address.addressList =>
    obtain ⟨h', s', run, fr, g, A, ar⟩ := all_ok S n (m := .withAddress) (ty := .addressList) (a := .a) (x := .address) (by simp) (by simp) hc.1 hc.2 hd.1 hd.2
    exact ⟨Code.addressList_withAddress, h', ⟨d.ptr, s', d.adr ++ c.adr⟩, rfl, run, rfl, ⟨g, A⟩, fr, ar, Or.inr (Or.inl rfl)⟩
  case addrSpec.angleAddr =>
    exact simple_ok hd rfl (by
      have hc1 := hc.1; have hd1 := hd.1
      simp only [Node.kind, ruleTy, nodeFields] at hc1 hd1
      go_run [callFn, Code.angleAddr_withAddrSpec, load_apply hc1, load_apply hd1, deliver, nodeFields, Node.kind, ruleTy, sprintf_at]) hd.2
  case obsAngleAddr.angleAddr =>
    exact simple_ok hd rfl (by
      have hc1 := hc.1; have hd1 := hd.1
      simp only [Node.kind, ruleTy, nodeFields] at hc1 hd1
      go_run [callFn, Code.angleAddr_withObsAngleAddr, load_apply hc1, load_apply hd1, deliver, nodeFields, Node.kind, ruleTy]) hd.2
  case day.dateTime =>
    exact simple_ok hd rfl (by
      have hc1 := hc.1; have hd1 := hd.1
      simp only [Node.kind, ruleTy, nodeFields] at hc1 hd1
      go_run [callFn, Code.dateTime_withDay, load_apply hc1, load_apply hd1, deliver, nodeFields, Node.kind, ruleTy]) hd.2
  case month.dateTime =>
    exact simple_ok hd rfl (by
      have hc1 := hc.1; have hd1 := hd.1
      simp only [Node.kind, ruleTy, nodeFields] at hc1 hd1
      go_run [callFn, Code.dateTime_withMonth, load_apply hc1, load_apply hd1, deliver, nodeFields, Node.kind, ruleTy]) hd.2
  case year.dateTime =>
    exact simple_ok hd rfl (by
      have hc1 := hc.1; have hd1 := hd.1
      simp only [Node.kind, ruleTy, nodeFields] at hc1 hd1
      go_run [callFn, Code.dateTime_withYear, load_apply hc1, load_apply hd1, deliver, nodeFields, Node.kind, ruleTy]) hd.2
  case hour.dateTime =>
    exact simple_ok hd rfl (by
      have hc1 := hc.1; have hd1 := hd.1
      simp only [Node.kind, ruleTy, nodeFields] at hc1 hd1
      go_run [callFn, Code.dateTime_withHour, load_apply hc1, load_apply hd1, deliver, nodeFields, Node.kind, ruleTy]) hd.2
  case minute.dateTime =>
    exact simple_ok hd rfl (by
      have hc1 := hc.1; have hd1 := hd.1
      simp only [Node.kind, ruleTy, nodeFields] at hc1 hd1
      go_run [callFn, Code.dateTime_withMinute, load_apply hc1, load_apply hd1, deliver, nodeFields, Node.kind, ruleTy]) hd.2
  case second.dateTime =>
    exact simple_ok hd rfl (by
      have hc1 := hc.1; have hd1 := hd.1
      simp only [Node.kind, ruleTy, nodeFields] at hc1 hd1
      go_run [callFn, Code.dateTime_withSecond, load_apply hc1, load_apply hd1, deliver, nodeFields, Node.kind, ruleTy]) hd.2
  case zone.dateTime =>
    exact simple_ok hd rfl (by
      have hc1 := hc.1; have hd1 := hd.1
      simp only [Node.kind, ruleTy, nodeFields] at hc1 hd1
      go_run [callFn, Code.dateTime_withZone, load_apply hc1, load_apply hd1, deliver, nodeFields, Node.kind, ruleTy]) hd.2
  case word.displayName v x u =>
    have hc1 := hc.1; have hd1 := hd.1
    simp only [Node.kind, ruleTy, nodeFields] at hc1 hd1
    cases u with
    | true =>
      exact simple_ok hd rfl (by
        go_run [callFn, Code.displayName_withWord, load_apply hc1, load_apply hd1, deliver, nodeFields, Node.kind, ruleTy, displayWithWord,
          load_set hd1, load_set_ne ne hc1]) hd.2
    | false =>
      cases x with
      | nil =>
        exact simple_ok hd rfl (by
          go_run [callFn, Code.displayName_withWord, load_apply hc1, load_apply hd1, deliver, nodeFields, Node.kind, ruleTy, displayWithWord,
            load_set hd1, load_set_ne ne hc1]) hd.2
      | cons b x =>
        exact simple_ok hd rfl (by
          have pos : (0 : Int) < ((x.length : Int) + 1) := by omega
          go_run [callFn, Code.displayName_withWord, load_apply hc1, load_apply hd1, deliver, nodeFields, Node.kind, ruleTy, displayWithWord,
            load_set hd1, load_set_ne ne hc1, pos]) hd.2
  case unspaced.displayName =>
    exact simple_ok hd rfl (by
      have hc1 := hc.1; have hd1 := hd.1
      simp only [Node.kind, ruleTy, nodeFields] at hc1 hd1
      go_run [callFn, Code.displayName_withUnspaced, load_apply hc1, load_apply hd1, deliver, nodeFields, Node.kind, ruleTy, load_set hd1, load_set_ne ne hc1]) hd.2
  case dotAtom.domain =>
    exact simple_ok hd rfl (by
      have hc1 := hc.1; have hd1 := hd.1
      simp only [Node.kind, ruleTy, nodeFields] at hc1 hd1
      go_run [callFn, Code.domain_withDotAtom, load_apply hc1, load_apply hd1, deliver, nodeFields, Node.kind, ruleTy]) hd.2
  case domainLiteral.domain =>
    exact simple_ok hd rfl (by
      have hc1 := hc.1; have hd1 := hd.1
      simp only [Node.kind, ruleTy, nodeFields] at hc1 hd1
      go_run [callFn, Code.domain_withDomainLiteral, load_apply hc1, load_apply hd1, deliver, nodeFields, Node.kind, ruleTy]) hd.2
  case obsDomain.domain =>
    exact simple_ok hd rfl (by
      have hc1 := hc.1; have hd1 := hd.1
      simp only [Node.kind, ruleTy, nodeFields] at hc1 hd1
      go_run [callFn, Code.domain_withObsDomain, load_apply hc1, load_apply hd1, deliver, nodeFields, Node.kind, ruleTy, IsSlice.elems hc.2.1, strings_map]) hd.2
  case groupList.group =>
    obtain ⟨h', s', run, fr, g, A, ar⟩ := all_ok S n (m := .withGroupList) (ty := .group) (a := .g) (x := .groupList) (by simp) (by simp) hc.1 hc.2 hd.1 hd.2
    exact ⟨Code.group_withGroupList, h', ⟨d.ptr, s', d.adr ++ c.adr⟩, rfl, run, rfl, ⟨g, A⟩, fr, ar, Or.inr (Or.inl rfl)⟩
  case mailboxList.groupList =>
    obtain ⟨h', s', run, fr, g, A, ar⟩ := all_ok S n (m := .withMailboxList) (ty := .groupList) (a := .gl) (x := .mailboxList) (by simp) (by simp) hc.1 hc.2 hd.1 hd.2
    exact ⟨Code.groupList_withMailboxList, h', ⟨d.ptr, s', d.adr ++ c.adr⟩, rfl, run, rfl, ⟨g, A⟩, fr, ar, Or.inr (Or.inl rfl)⟩
  case dotAtom.localPart =>
    exact simple_ok hd rfl (by
      have hc1 := hc.1; have hd1 := hd.1
      simp only [Node.kind, ruleTy, nodeFields] at hc1 hd1
      go_run [callFn, Code.localPart_withDotAtom, load_apply hc1, load_apply hd1, deliver, nodeFields, Node.kind, ruleTy]) hd.2
  case quotedString.localPart =>
    exact simple_ok hd rfl (by
      have hc1 := hc.1; have hd1 := hd.1
      simp only [Node.kind, ruleTy, nodeFields] at hc1 hd1
      go_run [callFn, Code.localPart_withQuotedString, load_apply hc1, load_apply hd1, deliver, nodeFields, Node.kind, ruleTy]) hd.2
  case obsLocalPart.localPart =>
    exact simple_ok hd rfl (by
      have hc1 := hc.1; have hd1 := hd.1
      simp only [Node.kind, ruleTy, nodeFields] at hc1 hd1
      go_run [callFn, Code.localPart_withObsLocalPart, load_apply hc1, load_apply hd1, deliver, nodeFields, Node.kind, ruleTy, IsSlice.elems hc.2.1, strings_map]) hd.2
  case nameAddr.mailbox =>
    exact simple_ok hd rfl (by
      have hc1 := hc.1; have hd1 := hd.1
      simp only [Node.kind, ruleTy, nodeFields] at hc1 hd1
      go_run [callFn, Code.mailbox_withNameAddr, load_apply hc1, load_apply hd1, deliver, nodeFields, Node.kind, ruleTy, load_set hd1, load_set_ne ne hc1]) hd.2
  case addrSpec.mailbox =>
    exact simple_ok hd rfl (by
      have hc1 := hc.1; have hd1 := hd.1
      simp only [Node.kind, ruleTy, nodeFields] at hc1 hd1
      go_run [callFn, Code.mailbox_withAddrSpec, load_apply hc1, load_apply hd1, deliver, nodeFields, Node.kind, ruleTy, sprintf_at]) hd.2
  case mailbox.mailboxList =>
    obtain ⟨h', s', k, run, fr, g, A, ar, lt⟩ := mailbox_ok S n (m := .withMailbox) (ty := .mailboxList) (a := .ml) (x := .mailbox) (by simp) (by simp) hc.1 hd.1 hd.2
    exact ⟨Code.mailboxList_withMailbox, h', ⟨d.ptr, s', d.adr ++ [k]⟩, rfl, run, rfl, ⟨g, A⟩, fr, ar, Or.inr (Or.inr ⟨k, lt, rfl⟩)⟩
  case obsMboxList.mailboxList =>
    obtain ⟨h', s', run, fr, g, A, ar⟩ := all_ok S n (m := .withObsMboxList) (ty := .mailboxList) (a := .ml) (x := .obsMboxList) (by simp) (by simp) hc.1 hc.2 hd.1 hd.2
    exact ⟨Code.mailboxList_withObsMboxList, h', ⟨d.ptr, s', d.adr ++ c.adr⟩, rfl, run, rfl, ⟨g, A⟩, fr, ar, Or.inr (Or.inl rfl)⟩
  case displayName.nameAddr =>
    exact simple_ok hd rfl (by
      have hc1 := hc.1; have hd1 := hd.1
      simp only [Node.kind, ruleTy, nodeFields] at hc1 hd1
      go_run [callFn, Code.nameAddr_withDisplayName, load_apply hc1, load_apply hd1, deliver, nodeFields, Node.kind, ruleTy]) hd.2
  case angleAddr.nameAddr =>
    exact simple_ok hd rfl (by
      have hc1 := hc.1; have hd1 := hd.1
      simp only [Node.kind, ruleTy, nodeFields] at hc1 hd1
      go_run [callFn, Code.nameAddr_withAngleAddr, load_apply hc1, load_apply hd1, deliver, nodeFields, Node.kind, ruleTy]) hd.2
  case addrSpec.obsAngleAddr =>
    exact simple_ok hd rfl (by
      have hc1 := hc.1; have hd1 := hd.1
      simp only [Node.kind, ruleTy, nodeFields] at hc1 hd1
      go_run [callFn, Code.obsAngleAddr_withAddrSpec, load_apply hc1, load_apply hd1, deliver, nodeFields, Node.kind, ruleTy, sprintf_at]) hd.2
  case atom.obsDomain =>
    obtain ⟨h', s', run, fr, g, A, ar⟩ := str_ok S n (m := .withAtom) (ty := .obsDomain) (a := .p) (x := .atom) (by simp) (by simp) hc.1 hd.1 hd.2.1
    exact ⟨Code.obsDomain_withAtom, h', ⟨d.ptr, s', d.adr⟩, rfl, run, rfl, ⟨g, A, hd.2.2⟩, fr, ar, Or.inl rfl⟩
  case word.obsLocalPart =>
    obtain ⟨h', s', run, fr, g, A, ar⟩ := str_ok S n (m := .withWord) (ty := .obsLocalPart) (a := .p) (x := .word) (by simp) (by simp) hc.1 hd.1 hd.2.1
    exact ⟨Code.obsLocalPart_withWord, h', ⟨d.ptr, s', d.adr⟩, rfl, run, rfl, ⟨g, A, hd.2.2⟩, fr, ar, Or.inl rfl⟩
  case mailbox.obsMboxList =>
    obtain ⟨h', s', k, run, fr, g, A, ar, lt⟩ := mailbox_ok S n (m := .withMailbox) (ty := .obsMboxList) (a := .ml) (x := .mailbox) (by simp) (by simp) hc.1 hd.1 hd.2
    exact ⟨Code.obsMboxList_withMailbox, h', ⟨d.ptr, s', d.adr ++ [k]⟩, rfl, run, rfl, ⟨g, A⟩, fr, ar, Or.inr (Or.inr ⟨k, lt, rfl⟩)⟩
  case qtext.quotedContent =>
    exact simple_ok hd rfl (by
      have hc1 := hc.1; have hd1 := hd.1
      simp only [Node.kind, ruleTy, nodeFields] at hc1 hd1
      go_run [callFn, Code.quotedContent_withQtext, load_apply hc1, load_apply hd1, deliver, nodeFields, Node.kind, ruleTy]) hd.2
  case quotedPair.quotedContent =>
    exact simple_ok hd rfl (by
      have hc1 := hc.1; have hd1 := hd.1
      simp only [Node.kind, ruleTy, nodeFields] at hc1 hd1
      go_run [callFn, Code.quotedContent_withQuotedPair, load_apply hc1, load_apply hd1, deliver, nodeFields, Node.kind, ruleTy]) hd.2
  case quotedChar.quotedPair =>
    exact simple_ok hd rfl (by
      have hc1 := hc.1; have hd1 := hd.1
      simp only [Node.kind, ruleTy, nodeFields] at hc1 hd1
      go_run [callFn, Code.quotedPair_withQuotedChar, load_apply hc1, load_apply hd1, deliver, nodeFields, Node.kind, ruleTy]) hd.2
  case quotedValue.quotedString =>
    exact simple_ok hd rfl (by
      have hc1 := hc.1; have hd1 := hd.1
      simp only [Node.kind, ruleTy, nodeFields] at hc1 hd1
      go_run [callFn, Code.quotedString_withQuotedValue, load_apply hc1, load_apply hd1, deliver, nodeFields, Node.kind, ruleTy]) hd.2
  case fws.quotedValue =>
    exact simple_ok hd rfl (by
      have hc1 := hc.1; have hd1 := hd.1
      simp only [Node.kind, ruleTy, nodeFields] at hc1 hd1
      go_run [callFn, Code.quotedValue_withFws, load_apply hc1, load_apply hd1, deliver, nodeFields, Node.kind, ruleTy]) hd.2
  case quotedContent.quotedValue =>
    exact simple_ok hd rfl (by
      have hc1 := hc.1; have hd1 := hd.1
      simp only [Node.kind, ruleTy, nodeFields] at hc1 hd1
      go_run [callFn, Code.quotedValue_withQuotedContent, load_apply hc1, load_apply hd1, deliver, nodeFields, Node.kind, ruleTy]) hd.2
  case atom.word =>
    exact simple_ok hd rfl (by
      have hc1 := hc.1; have hd1 := hd.1
      simp only [Node.kind, ruleTy, nodeFields] at hc1 hd1
      go_run [callFn, Code.word_withAtom, load_apply hc1, load_apply hd1, deliver, nodeFields, Node.kind, ruleTy]) hd.2
  case quotedString.word =>
    exact simple_ok hd rfl (by
      have hc1 := hc.1; have hd1 := hd.1
      simp only [Node.kind, ruleTy, nodeFields] at hc1 hd1
      go_run [callFn, Code.word_withQuotedString, load_apply hc1, load_apply hd1, deliver, nodeFields, Node.kind, ruleTy]) hd.2
  case encodedWord.word =>
    exact simple_ok hd rfl (by
      have hc1 := hc.1; have hd1 := hd.1
      simp only [Node.kind, ruleTy, nodeFields] at hc1 hd1
      go_run [callFn, Code.word_withEncodedWord, load_apply hc1, load_apply hd1, deliver, nodeFields, Node.kind, ruleTy]) hd.2
  case offset.zone =>
    exact simple_ok hd rfl (by
      have hc1 := hc.1; have hd1 := hd.1
      simp only [Node.kind, ruleTy, nodeFields] at hc1 hd1
      go_run [callFn, Code.zone_withOffset, load_apply hc1, load_apply hd1, deliver, nodeFields, Node.kind, ruleTy]) hd.2
  case obsZone.zone =>
    exact simple_ok hd rfl (by
      have hc1 := hc.1; have hd1 := hd.1
      simp only [Node.kind, ruleTy, nodeFields] at hc1 hd1
      go_run [callFn, Code.zone_withObsZone, load_apply hc1, load_apply hd1, deliver, nodeFields, Node.kind, ruleTy]) hd.2

/-- And if it has not. -/
theorem deliver_none {child parent : Node} (acc : accepts child.kind parent.kind = false) : deliver child parent = parent := by
  cases child <;> cases parent <;> first | rfl | exact (Bool.false_ne_true acc.symm).elim

end Rfc5322.Go
