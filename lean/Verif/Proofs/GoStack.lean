import Verif.Proofs.GoWith
import Verif.Spec.GoResult

/-!
# The walker and its stack on the heap, and `enter`, `exit`, `parent` (/repo/walker.go:29-41)
-/

set_option linter.constructorNameAsVariable false
set_option linter.unusedSimpArgs false

namespace Rfc5322.Go

/-- What `w.res` holds. -/
def ResRep (base : Nat) (h : Heap) (rv : Val) : Option Res → Prop
  | none => rv = .nil
  | some (.time t) => rv = .time t
  | some (.addrs l) => ∃ adr, IsAddrs h rv adr l ∧ adr.Nodup ∧ (∀ a ∈ adr, base ≤ a) ∧ ∀ a, arrOf rv = some a → base ≤ a

/-- The arrays in use. -/
def arrsOf (ns rv : Val) (cells : List Cell) : List Nat :=
  (arrOf ns).toList ++ ((arrOf rv).toList ++ cells.flatMap fun c => (arrOf c.sl).toList)

/-- The walker at address `wp`, everything it owns lying above `base`. -/
structure Rep (base : Nat) (h : Heap) (wp : Nat) (ns rv ev : Val) (cells : List Cell) (w : Walker) : Prop where
  wbase : base ≤ wp
  wobj : h[wp]? = some (.struct .walker [(.nodes, ns), (.res, rv), (.err, ev)])
  nodes : IsSlice h .iface ns ((cells.map fun c => Val.ptr c.ptr).reverse)
  reps : All2 (NodeRep h) cells w.nodes
  ptrs : (cells.map Cell.ptr).Nodup
  arrs : (arrsOf ns rv cells).Nodup
  adrs : (cells.flatMap Cell.adr).Nodup
  low : ∀ c ∈ cells, base ≤ c.ptr ∧ (∀ a, arrOf c.sl = some a → base ≤ a) ∧ ∀ a ∈ c.adr, base ≤ a
  lowN : ∀ a, arrOf ns = some a → base ≤ a
  res : ResRep base h rv w.res
  err : errorIs w.err ev

/-- Nothing below `base` has changed. -/
def Keep (base : Nat) (h h' : Heap) : Prop := h.length ≤ h'.length ∧ ∀ i, i < base → h'[i]? = h[i]?

theorem Keep.refl (base : Nat) (h : Heap) : Keep base h h := ⟨Nat.le_refl _, fun _ _ => rfl⟩

theorem Keep.trans {base : Nat} {h₁ h₂ h₃ : Heap} (a : Keep base h₁ h₂) (b : Keep base h₂ h₃) : Keep base h₁ h₃ :=
  ⟨Nat.le_trans a.1 b.1, fun i l => (b.2 i l).trans (a.2 i l)⟩

theorem Frame.keep {W base h h'} (f : Frame W h h') (l : base ≤ h.length) (k : ∀ i ∈ W, base ≤ i) : Keep base h h' := by
  refine ⟨f.1, fun i li => ?_⟩
  have lt : i < h.length := by omega
  have e : h[i]? = some h[i] := List.getElem?_eq_getElem lt
  rw [e]
  refine f.get e fun m => ?_
  have := k i m
  omega

theorem All2.mem_left {α β} {R : α → β → Prop} {l m} (k : All2 R l m) {a} (h : a ∈ l) : ∃ b, R a b := by
  induction k with
  | nil => cases h
  | cons r _ ih =>
    cases h with
    | head => exact ⟨_, r⟩
    | tail _ h => exact ih h

theorem All2.impMem {α β} {R Q : α → β → Prop} {l m} (k : All2 R l m) (f : ∀ a b, a ∈ l → R a b → Q a b) : All2 Q l m := by
  induction k with
  | nil => exact .nil
  | cons r _ ih => exact .cons (f _ _ (by simp) r) (ih fun a b m => f a b (by simp [m]))

theorem ResRep.frame {W base h h'} (f : Frame W h h') {rv r} (k : ResRep base h rv r) (na : ∀ a, arrOf rv = some a → a ∉ W) :
    ResRep base h' rv r := by
  match r with
  | none => exact k
  | some (.time t) => exact k
  | some (.addrs l) =>
    obtain ⟨adr, ⟨a, b, c⟩, n, lo, la⟩ := k
    exact ⟨adr, ⟨a.frame f na, b, c.imp fun _ _ e => f.addr e⟩, n, lo, la⟩

theorem ResRep.arr {base h rv r a} (k : ResRep base h rv r) (e : arrOf rv = some a) : base ≤ a ∧ ∃ full, h[a]? = some (.array full) := by
  match r with
  | none => rw [show rv = .nil from k] at e; cases e
  | some (.time t) => rw [show rv = .time t from k] at e; cases e
  | some (.addrs l) =>
    obtain ⟨adr, ⟨x, _⟩, -, -, la⟩ := k
    exact ⟨la a e, x.arr e⟩

theorem perm3 {α} (A B C D : List α) : (A ++ (B ++ (C ++ D))).Perm (C ++ (A ++ (B ++ D))) :=
  ((List.perm_append_comm_assoc B C D).append_left A).trans (List.perm_append_comm_assoc A C (B ++ D))

namespace Rep

variable {base : Nat} {h h' : Heap} {wp : Nat} {ns rv ev : Val} {cells : List Cell} {w : Walker}

theorem baseLe (R : Rep base h wp ns rv ev cells w) : base ≤ h.length := by
  have := R.wbase
  have := getElem?_lt R.wobj
  omega

/-- The arrays are arrays. -/
theorem isArr (R : Rep base h wp ns rv ev cells w) {a} (m : a ∈ arrsOf ns rv cells) : base ≤ a ∧ ∃ full, h[a]? = some (.array full) := by
  simp only [arrsOf, List.mem_append, Option.mem_toList, List.mem_flatMap] at m
  obtain m | m | ⟨c, mc, m⟩ := m
  · exact ⟨R.lowN a m, R.nodes.arr m⟩
  · exact R.res.arr m
  · obtain ⟨n, hn⟩ := R.reps.mem_left mc
    exact ⟨(R.low c mc).2.1 a m, hn.2.arr m⟩

/-- The structs are structs. -/
theorem isPtr (R : Rep base h wp ns rv ev cells w) {c} (m : c ∈ cells) : ∃ n : Node, NodeRep h c n := R.reps.mem_left m

theorem ptr_ne_wp (R : Rep base h wp ns rv ev cells w) {c} (m : c ∈ cells) : c.ptr ≠ wp := by
  obtain ⟨n, hn⟩ := R.isPtr m
  intro e
  have := hn.1
  rw [e, R.wobj] at this
  simp only [Option.some.injEq, Obj.struct.injEq] at this
  exact ruleTy_ne_walker n this.1.symm

theorem arr_ne_wp (R : Rep base h wp ns rv ev cells w) {a} (m : a ∈ arrsOf ns rv cells) : a ≠ wp := by
  rintro rfl
  obtain ⟨-, full, q⟩ := R.isArr m
  rw [R.wobj] at q; cases q

theorem arr_ne_ptr (R : Rep base h wp ns rv ev cells w) {a c} (m : a ∈ arrsOf ns rv cells) (mc : c ∈ cells) : a ≠ c.ptr := by
  rintro rfl
  obtain ⟨-, full, q⟩ := R.isArr m
  obtain ⟨n, hn⟩ := R.isPtr mc
  rw [hn.1] at q; cases q

/-- Changes elsewhere do not matter. -/
theorem frame (R : Rep base h wp ns rv ev cells w) {W} (f : Frame W h h') (dw : wp ∉ W) (da : ∀ a ∈ arrsOf ns rv cells, a ∉ W)
    (dp : ∀ c ∈ cells, c.ptr ∉ W) : Rep base h' wp ns rv ev cells w where
  wbase := R.wbase
  wobj := f.get R.wobj dw
  nodes := R.nodes.frame f fun a e => da a (by simp [arrsOf, e])
  reps := R.reps.impMem fun c n mc hn => hn.frame f fun a m => by
    simp only [Cell.own, List.mem_cons, Option.mem_toList] at m
    obtain rfl | m := m
    · exact dp c mc
    · exact da a (by simp only [arrsOf, List.mem_append, Option.mem_toList, List.mem_flatMap]; exact Or.inr (Or.inr ⟨c, mc, m⟩))
  ptrs := R.ptrs
  arrs := R.arrs
  adrs := R.adrs
  low := R.low
  lowN := R.lowN
  res := R.res.frame f fun a e => da a (by simp [arrsOf, e])
  err := R.err

/-- New objects do not matter. -/
theorem alloc (R : Rep base h wp ns rv ev cells w) (o : Obj) : Rep base (h ++ [o]) wp ns rv ev cells w :=
  R.frame (W := []) (Frame.alloc _ _ _) (by simp) (by simp) (by simp)

theorem frameW (R : Rep base h wp ns rv ev cells w) (fs) : Frame [wp] h (h.set wp (.struct .walker fs)) :=
  Frame.set _ R.wobj (by simp [Obj.isAddress]) (by simp)

/-- The walker struct is overwritten: the parts of the invariant that are not about its fields. -/
theorem rewalk (R : Rep base h wp ns rv ev cells w) {ns' ev' : Val} (nodes' : List Node) {cells' : List Cell} {err'}
    (sl : IsSlice h .iface ns' ((cells'.map fun c => Val.ptr c.ptr).reverse)) (sn : arrOf ns' = arrOf ns)
    (suf : ∃ l, l ++ cells' = cells) (cs : All2 (NodeRep h) cells' nodes') (er : errorIs err' ev') :
    Rep base (h.set wp (.struct .walker [(.nodes, ns'), (.res, rv), (.err, ev')])) wp ns' rv ev' cells' ⟨nodes', w.res, err'⟩ := by
  obtain ⟨l, rfl⟩ := suf
  have f := R.frameW [(.nodes, ns'), (.res, rv), (.err, ev')]
  have mc : ∀ c ∈ cells', c ∈ l ++ cells' := fun c m => by simp [m]
  have ma : ∀ a ∈ arrsOf ns' rv cells', a ∈ arrsOf ns rv (l ++ cells') := by
    intro a m
    simp only [arrsOf, List.mem_append, List.mem_flatMap, Option.mem_toList, sn] at m ⊢
    obtain m | m | ⟨c, m⟩ := m
    · exact Or.inl m
    · exact Or.inr (Or.inl m)
    · exact Or.inr (Or.inr ⟨c, Or.inr m.1, m.2⟩)
  have na : ∀ a ∈ arrsOf ns' rv cells', a ∉ [wp] := fun a m => by simpa using R.arr_ne_wp (ma a m)
  refine ⟨R.wbase, getElem?_set_eq _ R.wobj, sl.frame f fun a e => na a (by simp [arrsOf, e]), ?_, ?_, ?_, ?_,
    fun c m => R.low c (mc c m), fun a e => R.lowN a (by rw [← sn, e]), R.res.frame f fun a e => na a (by simp [arrsOf, e]), er⟩
  · refine cs.impMem fun c n m hn => hn.frame f fun a ma' => ?_
    simp only [Cell.own, List.mem_cons, Option.mem_toList] at ma'
    obtain rfl | ma' := ma'
    · simpa using R.ptr_ne_wp (mc c m)
    · exact na a (by simp only [arrsOf, List.mem_append, Option.mem_toList, List.mem_flatMap]; exact Or.inr (Or.inr ⟨c, m, ma'⟩))
  · have := R.ptrs
    rw [List.map_append] at this
    exact (List.nodup_append.1 this).2.1
  · have := R.arrs
    simp only [arrsOf, sn, List.flatMap_append] at this ⊢
    refine this.sublist ?_
    refine List.Sublist.append (List.Sublist.refl _) (List.Sublist.append (List.Sublist.refl _) ?_)
    exact List.sublist_append_right _ _
  · have := R.adrs
    rw [List.flatMap_append] at this
    exact (List.nodup_append.1 this).2.1

/-- `w.err = e` -/
theorem setErr (R : Rep base h wp ns rv ev cells w) (e : GoErr) (e' : Err) (k : errorIs (some e') (.err e)) :
    Rep base (h.set wp (.struct .walker [(.nodes, ns), (.res, rv), (.err, .err e)])) wp ns rv (.err e) cells (w.setErr e') :=
  R.rewalk w.nodes R.nodes rfl ⟨[], rfl⟩ R.reps k

/-- The `mail.Address`es on the stack. -/
theorem adrOld (R : Rep base h wp ns rv ev cells w) {c a} (mc : c ∈ cells) (m : a ∈ c.adr) : a < h.length := by
  obtain ⟨n, hn⟩ := R.isPtr mc
  obtain ⟨fs, e⟩ := hn.2.lt a m
  exact getElem?_lt e

theorem mem_arrs {c : Cell} {a} (mc : c ∈ cells) (e : arrOf c.sl = some a) : a ∈ arrsOf ns rv cells := by
  simp only [arrsOf, List.mem_append, Option.mem_toList, List.mem_flatMap]
  exact Or.inr (Or.inr ⟨c, mc, e⟩)

/-- The struct on the top of the stack is changed. -/
theorem top {c d d' : Cell} {n p : Node} {rest : List Cell} {rn : List Node} (R : Rep base h wp ns rv ev (d :: rest) w)
    (wn : w.nodes = p :: rn) (D : Delivered h h' c d d' n) (bl : base ≤ h.length)
    (cn : c.adr.Nodup) (cd : ∀ a ∈ c.adr, ∀ x ∈ d :: rest, a ∉ x.adr) (cb : ∀ a ∈ c.adr, base ≤ a) :
    Rep base h' wp ns rv ev (d' :: rest) ⟨n :: rn, w.res, w.err⟩ ∧ Keep base h h' := by
  have dm : d ∈ d :: rest := by simp
  have da : ∀ a, arrOf d.sl = some a → a ∈ arrsOf ns rv (d :: rest) := fun a e => mem_arrs dm e
  have nds := R.arrs
  simp only [arrsOf, List.flatMap_cons] at nds
  have nds' : ((arrOf d.sl).toList ++ arrsOf ns rv rest).Nodup := by
    refine nds.perm ?_
    simp only [arrsOf]
    generalize (arrOf ns).toList = A
    generalize (arrOf rv).toList = B
    generalize (arrOf d.sl).toList = C
    generalize (rest.flatMap fun c => (arrOf c.sl).toList) = D
    exact perm3 A B C D
  have own : ∀ a ∈ d.own, a = d.ptr ∨ arrOf d.sl = some a := by
    intro a m
    simpa [Cell.own] using m
  have oa : ∀ a ∈ arrsOf ns rv rest, a ∉ d.own := by
    intro a m k
    obtain rfl | k := own a k
    · refine R.arr_ne_ptr (a := d.ptr) ?_ dm rfl
      simp only [arrsOf, List.mem_append, List.flatMap_cons] at m ⊢
      obtain m | m | m := m
      · exact Or.inl m
      · exact Or.inr (Or.inl m)
      · exact Or.inr (Or.inr (Or.inr m))
    · exact (List.nodup_append.1 nds').2.2 a (by simpa using k) a m rfl
  have ow : wp ∉ d.own := by
    intro k
    obtain k | k := own _ k
    · exact R.ptr_ne_wp dm k.symm
    · exact R.arr_ne_wp (da _ k) rfl
  have op : ∀ c ∈ rest, c.ptr ∉ d.own := by
    intro c m k
    obtain k | k := own _ k
    · have := R.ptrs
      simp only [List.map_cons, List.nodup_cons, List.mem_map, not_exists, not_and] at this
      exact this.1 c m k
    · exact R.arr_ne_ptr (da _ k) (by simp [m]) rfl
  have reps := R.reps
  rw [wn] at reps
  cases reps with
  | cons r0 reps =>
  have f := D.frame
  have lowd := R.low d dm
  have arr' : ∀ a, arrOf d'.sl = some a → arrOf d.sl = some a ∨ h.length ≤ a := by
    intro a e
    obtain q | ⟨b, q, l⟩ := D.arr
    · exact Or.inl (by rw [← q, e])
    · rw [q] at e; cases e; exact Or.inr l
  refine ⟨⟨R.wbase, f.get R.wobj ow, ?_, ?_, ?_, ?_, ?_, ?_, R.lowN, R.res.frame f fun a e => oa a (by simp [arrsOf, e]), R.err⟩,
    f.keep bl fun a m => ?_⟩
  · have := R.nodes.frame f fun a e => oa a (by simp [arrsOf, e])
    simpa [D.same] using this
  · refine .cons D.rep (reps.impMem fun c n mc hn => hn.frame f fun a m => ?_)
    simp only [Cell.own, List.mem_cons, Option.mem_toList] at m
    obtain rfl | m := m
    · exact op c mc
    · exact oa a (mem_arrs mc m)
  · simpa [D.same] using R.ptrs
  · have key : ((arrOf d'.sl).toList ++ arrsOf ns rv rest).Nodup := by
      rw [List.nodup_append] at nds' ⊢
      refine ⟨by cases arrOf d'.sl <;> simp, nds'.2.1, fun a m b mb => ?_⟩
      rw [Option.mem_toList] at m
      rintro rfl
      obtain q | q := arr' a m
      · exact nds'.2.2 a (by simpa using q) a mb rfl
      · have mm : a ∈ arrsOf ns rv (d :: rest) := by
          simp only [arrsOf, List.mem_append, List.flatMap_cons] at mb ⊢
          obtain m | m | m := mb
          · exact Or.inl m
          · exact Or.inr (Or.inl m)
          · exact Or.inr (Or.inr (Or.inr m))
        obtain ⟨-, full, e⟩ := R.isArr mm
        have := getElem?_lt e
        omega
    refine key.perm ?_
    simp only [arrsOf, List.flatMap_cons]
    generalize (arrOf ns).toList = A
    generalize (arrOf rv).toList = B
    generalize (arrOf d'.sl).toList = C
    generalize (rest.flatMap fun c => (arrOf c.sl).toList) = D
    refine List.Perm.symm ?_
    exact perm3 A B C D
  · have na := R.adrs
    simp only [List.flatMap_cons] at na ⊢
    obtain q | q | ⟨a, l, q⟩ := D.adr
    · rw [q]; exact na
    · rw [q]
      rw [List.nodup_append] at na ⊢
      refine ⟨?_, na.2.1, ?_⟩
      · rw [List.nodup_append]
        exact ⟨na.1, cn, fun x mx y my e => cd y my d dm (e ▸ mx)⟩
      · intro x mx y my e
        rw [List.mem_append] at mx
        obtain mx | mx := mx
        · exact na.2.2 x mx y my e
        · rw [List.mem_flatMap] at my
          obtain ⟨z, mz, my⟩ := my
          exact cd x mx z (by simp [mz]) (e ▸ my)
    · rw [q]
      rw [List.nodup_append] at na ⊢
      refine ⟨?_, na.2.1, ?_⟩
      · rw [List.nodup_append]
        refine ⟨na.1, by simp, fun x mx y my e => ?_⟩
        simp at my
        subst my e
        have := R.adrOld dm mx
        omega
      · intro x mx y my e
        rw [List.mem_append] at mx
        obtain mx | mx := mx
        · exact na.2.2 x mx y my e
        · rw [List.mem_flatMap] at my
          obtain ⟨z, mz, my⟩ := my
          simp at mx
          subst mx e
          have := R.adrOld (c := z) (by simp [mz]) my
          omega
  · intro x mx
    rw [List.mem_cons] at mx
    obtain rfl | mx := mx
    · refine ⟨by rw [D.same]; exact lowd.1, fun a e => ?_, fun a m => ?_⟩
      · obtain q | q := arr' a e
        · exact lowd.2.1 a q
        · omega
      · obtain q | q | ⟨b, l, q⟩ := D.adr <;> rw [q] at m
        · exact lowd.2.2 a m
        · rw [List.mem_append] at m
          exact m.elim (lowd.2.2 a) (cb a)
        · rw [List.mem_append] at m
          refine m.elim (lowd.2.2 a) fun m => ?_
          simp at m
          omega
    · exact R.low x (by simp [mx])
  · obtain rfl | m := own a m
    · exact lowd.1
    · exact lowd.2.1 a m

end Rep

variable {base : Nat} {h h' : Heap} {wp : Nat} {ns rv ev : Val} {cells : List Cell} {w : Walker}

theorem find_enter : Code.program.find .walker .enter = some Code.walker_enter := rfl
theorem find_exit : Code.program.find .walker .exit = some Code.walker_exit := rfl
theorem find_parent : Code.program.find .walker .parent = some Code.walker_parent := rfl

/-- `w.enter(b)` -/
theorem push_ok (S : Setting) (n : Nat) (R : Rep base h wp ns rv ev cells w) {b : Nat} {s : Val} {nd : Node}
    (hb : NodeRep h ⟨b, s, []⟩ nd) (bb : base ≤ b) (nb : ∀ c ∈ cells, c.ptr ≠ b) (as : arrOf s = none) :
    ∃ h' ns', callFn Code.program S (n + 1) Code.walker_enter [.ptr wp, .ptr b] h = .ok ([], h') ∧
      Rep base h' wp ns' rv ev (⟨b, s, []⟩ :: cells) (w.enter nd) ∧ Keep base h h' := by
  obtain ⟨ns', h₁, e, sl, fr, ar, -⟩ := append_spec S R.nodes [.ptr b]
  have nw : wp ∉ (arrOf ns).toList := fun m => R.arr_ne_wp (a := wp) (by simp [arrsOf, Option.mem_toList.1 m]) rfl
  have h1 := fr.get R.wobj nw
  have fr2 : Frame [wp] h₁ (h₁.set wp (.struct .walker [(.nodes, ns'), (.res, rv), (.err, ev)])) :=
    Frame.set _ h1 (by simp [Obj.isAddress]) (by simp)
  have f : Frame (wp :: (arrOf ns).toList) h (h₁.set wp (.struct .walker [(.nodes, ns'), (.res, rv), (.err, ev)])) :=
    (fr.mono (by simp +contextual)).trans (fr2.mono (by simp))
  have nd := R.arrs
  have nd2 := nd
  simp only [arrsOf] at nd2
  rw [List.nodup_append] at nd2
  have nb' : b ≠ wp := by
    rintro rfl
    have := hb.1
    rw [R.wobj] at this
    simp only [Option.some.injEq, Obj.struct.injEq] at this
    exact ruleTy_ne_walker _ this.1.symm
  have off : ∀ a, a ∈ (arrOf rv).toList ++ cells.flatMap (fun c => (arrOf c.sl).toList) → a ∉ wp :: (arrOf ns).toList := by
    intro a m k
    rw [List.mem_cons] at k
    obtain rfl | k := k
    · exact R.arr_ne_wp (a := a) (by simp only [arrsOf]; exact List.mem_append_right _ m) rfl
    · exact nd2.2.2 a k a m rfl
  have offp : ∀ p, (∃ t fs, h[p]? = some (.struct t fs)) → p ≠ wp → p ∉ wp :: (arrOf ns).toList := by
    intro p ⟨t, fs, e⟩ ne k
    simp only [List.mem_cons, Option.mem_toList] at k
    obtain k | k := k
    · exact ne k
    · obtain ⟨full, q⟩ := R.nodes.arr k
      rw [e] at q; cases q
  refine ⟨_, ns', ?_, ⟨R.wbase, getElem?_set_eq _ h1, ?_, .cons ?_ (R.reps.impMem fun c n mc hn => hn.frame f fun a m => ?_), ?_, ?_, ?_, ?_, ?_,
    R.res.frame f fun a e => off a (by simp [e]), R.err⟩, f.keep R.baseLe fun a m => ?_⟩
  · go_run [callFn, Code.walker_enter, load_apply R.wobj, load_apply h1, e]
  · have := sl.frame fr2 (fun a ea k => by
      simp at k
      subst k
      obtain ⟨full, q⟩ := sl.arr ea
      rw [h1] at q; cases q)
    simpa using this
  · refine hb.frame f fun a m => ?_
    simp only [Cell.own, as, Option.toList_none, List.mem_cons, List.not_mem_nil, or_false] at m
    subst m
    exact offp _ ⟨_, _, hb.1⟩ nb'
  · simp only [Cell.own, List.mem_cons, Option.mem_toList] at m
    obtain rfl | m := m
    · exact offp _ ⟨_, _, hn.1⟩ (R.ptr_ne_wp mc)
    · exact off a (by simp only [List.mem_append, List.mem_flatMap, Option.mem_toList]; exact Or.inr ⟨c, mc, m⟩)
  · simp only [List.map_cons, List.nodup_cons, List.mem_map, not_exists, not_and]
    exact ⟨fun c mc e => nb c mc e, R.ptrs⟩
  · simp only [arrsOf, List.flatMap_cons, as, Option.toList_none, List.nil_append]
    obtain q | ⟨q, -⟩ := ar
    · rw [q]; exact nd
    · rw [q, List.nodup_append]
      refine ⟨by simp, nd2.2.1, fun x mx y my e => ?_⟩
      simp at mx
      subst mx e
      obtain ⟨-, full, e⟩ := R.isArr (a := h.length) (by simp only [arrsOf]; exact List.mem_append_right _ my)
      have := getElem?_lt e
      omega
  · simpa using R.adrs
  · intro c mc
    rw [List.mem_cons] at mc
    obtain rfl | mc := mc
    · exact ⟨bb, fun a e => (by simp [as] at e), by simp⟩
    · exact R.low c mc
  · intro a e
    obtain q | ⟨q, -⟩ := ar
    · exact R.lowN a (by rw [← q, e])
    · rw [q] at e; cases e; exact R.baseLe
  · simp only [List.mem_cons, Option.mem_toList] at m
    obtain rfl | m := m
    · exact R.wbase
    · exact R.lowN a m

theorem index_last (vs : List Val) (v : Val) (h : Heap) (k : Nat) (e : k = vs.length) : indexVal (vs ++ [v]) (.int k) h = .ok (v, h) := by
  subst e
  show (match (vs ++ [v])[vs.length]? with | some x => pure x | none => panic .emptyStack : M Val) h = _
  simp [M.pure_apply]

/-- `w.parent()` -/
theorem parent_ok (S : Setting) (n : Nat) {d : Cell} (R : Rep base h wp ns rv ev (d :: cells) w) :
    callFn Code.program S (n + 1) Code.walker_parent [.ptr wp] h = .ok ([.ptr d.ptr], h) := by
  have sl := R.nodes
  simp only [List.map_cons, List.reverse_cons] at sl
  obtain ⟨a, cap, rfl⟩ := sl.len
  have el := sl.elems
  have hl : ((cells.map fun c => Val.ptr c.ptr).reverse ++ [Val.ptr d.ptr]).length = cells.length + 1 := by simp
  rw [hl] at R el
  have ix := index_last (cells.map fun c => Val.ptr c.ptr).reverse (.ptr d.ptr) h cells.length (by simp)
  go_run [callFn, Code.walker_parent, load_apply R.wobj, el, ix]

/-- `w.exit()` -/
theorem exit_ok (S : Setting) (n : Nat) {c : Cell} {nd : Node} {rn : List Node} (R : Rep base h wp ns rv ev (c :: cells) w)
    (wn : w.nodes = nd :: rn) :
    ∃ h' ns', callFn Code.program S (n + 1) Code.walker_exit [.ptr wp] h = .ok ([.ptr c.ptr], h') ∧ arrOf ns' = arrOf ns ∧
      Rep base h' wp ns' rv ev cells ⟨rn, w.res, w.err⟩ ∧ NodeRep h' c nd ∧ Keep base h h' := by
  have sl := R.nodes
  simp only [List.map_cons, List.reverse_cons] at sl
  have reps := R.reps
  rw [wn] at reps
  cases reps with
  | cons r0 reps =>
  obtain ⟨-, q⟩ | ⟨a, full, rfl, e, q⟩ := sl
  · simp at q
  have el := IsSlice.elems (h := h) (t := .iface) (Or.inr ⟨a, full, rfl, e, q⟩)
  have hl : ((cells.map fun c => Val.ptr c.ptr).reverse ++ [Val.ptr c.ptr]).length = cells.length + 1 := by simp
  rw [hl] at R el
  have ix := index_last (cells.map fun c => Val.ptr c.ptr).reverse (.ptr c.ptr) h cells.length (by simp)
  have len : cells.length ≤ full.length := by
    have := congrArg List.length q
    simp at this
    omega
  have sl' : IsSlice h .iface (.slice .iface (some a) cells.length full.length) ((cells.map fun c => Val.ptr c.ptr).reverse) := by
    refine Or.inr ⟨a, full, by simp, e, ?_⟩
    have := congrArg (List.take cells.length) q
    rw [List.take_take] at this
    simp at this
    simpa using this
  have R' := R.rewalk rn (cells' := cells) sl' rfl ⟨[c], rfl⟩ reps R.err
  refine ⟨_, .slice .iface (some a) cells.length full.length, ?_, rfl, R', ?_, (R.frameW _).keep R.baseLe fun i m => ?_⟩
  · have ix' : ∀ h, sliceToVal (.slice .iface (some a) (cells.length + 1) full.length) (.int cells.length) h =
        .ok (.slice .iface (some a) cells.length full.length, h) := by
      intro h
      show (if cells.length ≤ full.length then pure (.slice .iface (some a) cells.length full.length) else panic .sliceBounds : M Val) h = _
      rw [if_pos len]; rfl
    go_run [callFn, Code.walker_exit, load_apply R.wobj, el, ix, ix']
  · refine r0.frame (R.frameW _) fun i m => ?_
    simp only [Cell.own, List.mem_cons, Option.mem_toList] at m
    obtain rfl | m := m
    · simpa using R.ptr_ne_wp (c := c) (by simp)
    · simpa using R.arr_ne_wp (Rep.mem_arrs (c := c) (by simp) m)
  · simp at m
    subst m
    exact R.wbase

end Rfc5322.Go
