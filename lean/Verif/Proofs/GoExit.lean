import Verif.Proofs.GoStack

/-!
# The `ExitX` methods
-/

set_option linter.constructorNameAsVariable false
set_option linter.unusedSimpArgs false

namespace Rfc5322.Go

/-- `v.m(args)` for a method of the package. -/
theorem method_ok {Pr : Program} {S : Setting} {call : Caller} {h : Heap} {a : Nat} {ty : Ident} {fs} (e : h[a]? = some (.struct ty fs)) {m f}
    (q : Pr.find ty m = some f) (args : List Val) : callMethod Pr S call (.ptr a) m args h = call f (.ptr a :: args) h := by
  unfold callMethod
  simp only [structOf, M.bind_apply, M.pure_apply, load_apply e, q]

theorem notify_ok {Pr : Program} {call : Caller} {h h' : Heap} {a : Nat} {ty : Ident} {fs} (e : h[a]? = some (.struct ty fs)) {m f vs}
    (q : Pr.find ty m = some f) (arg : Val) (run : call f [.ptr a, arg] h = .ok (vs, h')) : notify Pr call (.ptr a) m arg h = .ok ((), h') := by
  simp only [notify, structOf, M.bind_apply, M.pure_apply, load_apply e, q, run]

theorem notify_none {Pr : Program} {call : Caller} {h : Heap} {a : Nat} {ty : Ident} {fs} (e : h[a]? = some (.struct ty fs)) {m}
    (q : Pr.find ty m = none) (arg : Val) : notify Pr call (.ptr a) m arg h = .ok ((), h) := by
  simp only [notify, structOf, M.bind_apply, M.pure_apply, load_apply e, q]

/-- The body of most `ExitX`. -/
def exitBody (r : Rule) : List Stmt :=
  [.define .res (.assert (.method (.var .w) .exit []) (.ptr (ruleTy r))),
   .ifInit (.define2 .parent .ok (.hasMethod (.method (.var .w) .parent []) (withName r) (.ptr (ruleTy r)))) (.var .ok)
     [.expr (.method (.var .parent) (withName r) [(.var .res)])]
     []]

/-- Rules whose `ExitX` hands the struct to the parent. -/
def handsOn : Node → Bool
  | .addressList _ => false
  | .dateTime .. => false
  | _ => true

/-- They all look the same. -/
theorem exit_body (n : Node) (k : handsOn n = true) : ∃ m c, Code.program.find .walker (Code.program.exitName n.kind) =
    some ⟨m, [(.w, .ptr .walker), (.ctx, .ptr c)], [], exitBody n.kind⟩ := by
  cases n <;> first | exact ⟨_, _, rfl⟩ | exact (Bool.false_ne_true k).elim

theorem assert_ok {h : Heap} {a : Nat} {ty : Ident} {fs} (e : h[a]? = some (.struct ty fs)) : assertTy (.ptr a) (.ptr ty) h = .ok (.ptr a, h) := by
  unfold assertTy
  simp [structOf, M.bind_apply, M.pure_apply, load_apply e]

theorem assertMethod_ok {Pr : Program} {h : Heap} {a : Nat} {ty : Ident} {fs} (e : h[a]? = some (.struct ty fs)) (m : Ident) (t : Ty) :
    assertMethod Pr (.ptr a) m t h = .ok (if implements Pr ty m t then [.ptr a, .bool true] else [.nil, .bool false], h) := by
  unfold assertMethod
  simp only [structOf, M.bind_apply, M.pure_apply, load_apply e]
  split <;> rfl

variable {base : Nat} {h : Heap} {wp : Nat} {ns rv ev : Val} {cells : List Cell} {w : Walker}

/-- `ExitX` of a rule with a parent. -/
theorem exitNode_ok (S : Setting) (n : Nat) {c d : Cell} {nd p : Node} {rn : List Node} (R : Rep base h wp ns rv ev (c :: d :: cells) w)
    (wn : w.nodes = nd :: p :: rn) (k : handsOn nd = true) (arg : Val) :
    ∃ h' ns' cells', notify Code.program (callFn Code.program S (n + 2)) (.ptr wp) (Code.program.exitName nd.kind) arg h = .ok ((), h') ∧
      Rep base h' wp ns' rv ev cells' ⟨deliver nd p :: rn, w.res, w.err⟩ ∧ Keep base h h' := by
  obtain ⟨m, cx, fe⟩ := exit_body nd k
  obtain ⟨h₁, ns', run1, an, R1, hc, k1⟩ := exit_ok S n R wn
  have run2 := parent_ok S n R1
  have e1 := hc.1
  have reps := R1.reps
  cases reps with
  | cons r0 reps =>
  have ptrs := R.ptrs
  simp only [List.map_cons, List.nodup_cons, List.mem_cons, List.mem_map, not_or, not_exists, not_and] at ptrs
  have ne : d.ptr ≠ c.ptr := fun e => ptrs.1.1 e.symm
  have adrs := R.adrs
  rw [List.flatMap_cons, List.nodup_append] at adrs
  by_cases acc : accepts nd.kind p.kind = true
  · obtain ⟨f, h₂, d', ff, run3, D⟩ := deliver_ok S n hc r0 ne acc
    obtain ⟨R2, k2⟩ := R1.top rfl D R1.baseLe adrs.1 (fun a m x mx k => adrs.2.2 a m a (List.mem_flatMap.2 ⟨x, mx, k⟩) rfl)
      (R.low c (by simp)).2.2
    refine ⟨h₂, ns', _, notify_ok R.wobj fe _ (vs := []) ?_, R2, k1.trans k2⟩
    have acc' : implements Code.program (ruleTy p.kind) (withName nd.kind) (.ptr (ruleTy nd.kind)) = true := acc
    show callFn Code.program S (n + 1 + 1) _ _ h = _
    rw [callFn]
    go_run [exitBody, method_ok R.wobj find_exit, method_ok R1.wobj find_parent, run1, run2, assert_ok e1, assertMethod_ok r0.1, acc',
      method_ok r0.1 ff, run3]
  · simp only [Bool.not_eq_true] at acc
    rw [deliver_none acc]
    refine ⟨h₁, ns', _, notify_ok R.wobj fe _ (vs := []) ?_, R1, k1⟩
    have acc' : implements Code.program (ruleTy p.kind) (withName nd.kind) (.ptr (ruleTy nd.kind)) = false := acc
    show callFn Code.program S (n + 1 + 1) _ _ h = _
    rw [callFn]
    go_run [exitBody, method_ok R.wobj find_exit, method_ok R1.wobj find_parent, run1, run2, assert_ok e1, assertMethod_ok r0.1, acc']

/-- `w.res = v` -/
theorem Rep.setRes (R : Rep base h wp ns rv ev cells w) {rv' : Val} {r : Option Res} (rr : ResRep base h rv' r)
    (nd : (arrsOf ns rv' cells).Nodup) :
    Rep base (h.set wp (.struct .walker [(.nodes, ns), (.res, rv'), (.err, ev)])) wp ns rv' ev cells ⟨w.nodes, r, w.err⟩ ∧
      Keep base h (h.set wp (.struct .walker [(.nodes, ns), (.res, rv'), (.err, ev)])) := by
  have f := R.frameW [(.nodes, ns), (.res, rv'), (.err, ev)]
  have na : ∀ a ∈ arrsOf ns rv' cells, a ∉ [wp] := by
    intro a m k
    simp only [List.mem_singleton] at k
    subst k
    simp only [arrsOf, List.mem_append, List.mem_flatMap, Option.mem_toList] at m
    obtain m | m | ⟨c, mc, m⟩ := m
    · exact R.arr_ne_wp (a := a) (by simp [arrsOf, m]) rfl
    · obtain ⟨-, full, q⟩ := rr.arr m
      rw [R.wobj] at q; cases q
    · exact R.arr_ne_wp (Rep.mem_arrs mc m) rfl
  refine ⟨⟨R.wbase, getElem?_set_eq _ R.wobj, R.nodes.frame f fun a e => na a (by simp [arrsOf, e]), ?_, R.ptrs, nd, R.adrs,
    R.low, R.lowN, rr.frame f fun a e => na a (by simp [arrsOf, e]), R.err⟩, f.keep R.baseLe fun i m => ?_⟩
  · refine R.reps.impMem fun c n m hn => hn.frame f fun a ma' => ?_
    simp only [Cell.own, List.mem_cons, Option.mem_toList] at ma'
    obtain rfl | ma' := ma'
    · simpa using R.ptr_ne_wp m
    · exact na a (Rep.mem_arrs m ma')
  · simp at m
    subst m
    exact R.wbase

theorem exitAddressList_ok (S : Setting) (n : Nat) {c : Cell} {l : List Addr} {rn : List Node} (R : Rep base h wp ns rv ev (c :: cells) w)
    (wn : w.nodes = .addressList l :: rn) (arg : Val) :
    ∃ h' ns' rv', notify Code.program (callFn Code.program S (n + 2)) (.ptr wp) .ExitAddressList arg h = .ok ((), h') ∧
      Rep base h' wp ns' rv' ev cells ⟨rn, some (.addrs l), w.err⟩ ∧ Keep base h h' := by
  obtain ⟨h₁, ns', run1, an, R1, hc, k1⟩ := exit_ok S n R wn
  have e1 : h₁[c.ptr]? = some (.struct .addressList [(.addresses, c.sl)]) := hc.1
  have A : IsAddrs h₁ c.sl c.adr l := hc.2
  have lo := R.low c (by simp)
  have adrs := R.adrs
  rw [List.flatMap_cons, List.nodup_append] at adrs
  have rr : ResRep base h₁ c.sl (some (.addrs l)) := ⟨c.adr, A, adrs.1, lo.2.2, lo.2.1⟩
  obtain ⟨R2, k2⟩ := R1.setRes rr (by
    have := R.arrs
    simp only [arrsOf, List.flatMap_cons, an] at this ⊢
    exact this.sublist (List.Sublist.append (List.Sublist.refl _) (List.sublist_append_right _ _)))
  refine ⟨_, ns', c.sl, notify_ok R.wobj (f := Code.walker_ExitAddressList) rfl _ (vs := []) ?_, R2, k1.trans k2⟩
  show callFn Code.program S (n + 1 + 1) _ _ h = _
  rw [callFn]
  go_run [Code.walker_ExitAddressList, method_ok R.wobj find_exit, run1, assert_ok e1, load_apply e1, load_apply R1.wobj]

theorem exitDateTime_ok (S : Setting) (n : Nat) {c : Cell} {d mo y hh mi s l} {rn : List Node} (R : Rep base h wp ns rv ev (c :: cells) w)
    (wn : w.nodes = .dateTime d mo y hh mi s l :: rn) (arg : Val) :
    ∃ h' ns' rv', notify Code.program (callFn Code.program S (n + 2)) (.ptr wp) .ExitDateTime arg h = .ok ((), h') ∧
      Rep base h' wp ns' rv' ev cells ⟨rn, some (.time (goDate y mo d hh mi s l)), w.err⟩ ∧ Keep base h h' := by
  obtain ⟨h₁, ns', run1, an, R1, hc, k1⟩ := exit_ok S n R wn
  have e1 := hc.1
  simp only [Node.kind, ruleTy, nodeFields] at e1
  obtain ⟨R2, k2⟩ := R1.setRes (rv' := .time (goDate y mo d hh mi s l)) (r := some (.time (goDate y mo d hh mi s l))) rfl (by
    have := R1.arrs
    simp only [arrsOf, arrOf, Option.toList_none, List.nil_append] at this ⊢
    exact this.sublist (List.Sublist.append (List.Sublist.refl _) (List.sublist_append_right _ _)))
  refine ⟨_, ns', _, notify_ok R.wobj (f := Code.walker_ExitDateTime) rfl _ (vs := []) ?_, R2, k1.trans k2⟩
  show callFn Code.program S (n + 1 + 1) _ _ h = _
  rw [callFn]
  go_run [Code.walker_ExitDateTime, method_ok R.wobj find_exit, run1, assert_ok e1, load_apply e1, load_apply R1.wobj]

/-- Every `ExitX`. -/
theorem exitRule_ok (S : Setting) (n : Nat) (R : Rep base h wp ns rv ev cells w) (r : Rule) {w' : Walker} (ok : exitRule r w = .ok w')
    (arg : Val) :
    ∃ h' ns' rv' cells', notify Code.program (callFn Code.program S (n + 2)) (.ptr wp) (Code.program.exitName r) arg h = .ok ((), h') ∧
      Rep base h' wp ns' rv' ev cells' w' ∧ Keep base h h' := by
  have hand : ∀ w', exitNode r w = .ok w' → (∀ nd : Node, nd.kind = r → handsOn nd = true) → ∃ h' ns' rv' cells',
      notify Code.program (callFn Code.program S (n + 2)) (.ptr wp) (Code.program.exitName r) arg h = .ok ((), h') ∧
      Rep base h' wp ns' rv' ev cells' w' ∧ Keep base h h' := by
    intro w' ok hk
    obtain ⟨nodes, res, err⟩ := w
    unfold exitNode at ok
    have reps := R.reps
    cases nodes with
    | nil => cases ok
    | cons nd rest =>
      dsimp only at ok reps
      split at ok
      case isFalse => cases ok
      case isTrue e =>
      cases rest with
      | nil => cases ok
      | cons p rest =>
        cases ok
        cases reps with
        | cons r0 reps =>
        cases reps with
        | cons r1 reps =>
        obtain ⟨h', ns', cells', a, b, c⟩ := exitNode_ok S n R rfl (hk nd e) arg
        rw [e] at a
        exact ⟨h', ns', rv, cells', a, b, c⟩
  have none : ok = ok → (Code.program.find .walker (Code.program.exitName r) = Option.none) → w' = w → ∃ h' ns' rv' cells',
      notify Code.program (callFn Code.program S (n + 2)) (.ptr wp) (Code.program.exitName r) arg h = .ok ((), h') ∧
      Rep base h' wp ns' rv' ev cells' w' ∧ Keep base h h' := by
    rintro - q rfl
    exact ⟨h, ns, rv, cells, notify_none R.wobj q arg, R, Keep.refl _ _⟩
  have key : ∀ nd : Node, (nd.kind ≠ .addressList ∧ nd.kind ≠ .dateTime) → handsOn nd = true := by
    intro nd k
    cases nd <;> first | rfl | exact (k.1 rfl).elim | exact (k.2 rfl).elim
  cases r
  case addressList =>
    have reps := R.reps
    simp only [exitRule, exitAddressList] at ok
    split at ok
    · cases ok
    · cases ok
      rename_i as rest wn
      rw [wn] at reps
      cases reps with
      | cons r0 reps =>
      obtain ⟨h', ns', rv', x⟩ := exitAddressList_ok S n R wn arg
      exact ⟨h', ns', rv', _, x⟩
    · cases ok
  case dateTime =>
    have reps := R.reps
    simp only [exitRule, exitDateTime] at ok
    split at ok
    · cases ok
    · cases ok
      rename_i wn
      rw [wn] at reps
      cases reps with
      | cons r0 reps =>
      obtain ⟨h', ns', rv', x⟩ := exitDateTime_ok S n R wn arg
      exact ⟨h', ns', rv', _, x⟩
    · cases ok
  all_goals first
    | exact none rfl rfl (by cases ok; rfl)
    | exact hand w' ok fun nd e => key nd (by rw [e]; exact ⟨by simp, by simp⟩)

end Rfc5322.Go
