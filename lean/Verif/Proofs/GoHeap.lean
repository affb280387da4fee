import Verif.Model.GoCode

/-!
# Heaps of the Go program: what stays the same, and slices

`Frame W h h'`: from `h` to `h'` only objects at the addresses in `W` may have changed, and those are not `mail.Address`es.
-/

set_option linter.constructorNameAsVariable false

namespace Rfc5322.Go

/-! ## Running computations -/

theorem M.bind_apply {α β} (m : M α) (f : α → M β) (h : Heap) :
    (m >>= f) h = match m h with
      | .ok (a, h') => f a h'
      | .error e => .error e := by
  show (m.bind f).run h = _
  induction m generalizing h with
  | ret a => rfl
  | fault e => rfl
  | alloc o k ih => exact ih _ _
  | load a k ih =>
    simp only [M.bind, M.run]
    cases h[a]? with
    | none => rfl
    | some o => exact ih _ _
  | store a o k ih => exact ih _
  | grow c o k ih => exact ih _ _ _

theorem M.pure_apply {α} (a : α) (h : Heap) : (pure a : M α) h = .ok (a, h) := rfl

theorem M.bind_ok {α β} {m : M α} {h h' : Heap} {a : α} (f : α → M β) (e : m h = .ok (a, h')) : (m >>= f) h = f a h' := by
  rw [M.bind_apply, e]

theorem orStuck_some {α} (a : α) (h : Heap) : orStuck (some a) h = .ok (a, h) := rfl

theorem load_apply {h : Heap} {a o} (e : h[a]? = some o) : load a h = .ok (o, h) := by simp [load, M.run, e]

theorem store_apply (a o) (h : Heap) : store a o h = .ok ((), h.set a o) := rfl

theorem alloc_apply (o) (h : Heap) : alloc o h = .ok (h.length, h ++ [o]) := rfl

theorem newArray_apply (S c n o) (h : Heap) : newArray S c n o h = .ok ((S.grow h c n, h.length), h ++ [.array (o (S.grow h c n))]) := rfl

theorem getElem?_lt {h : Heap} {a : Nat} {o : Obj} (e : h[a]? = some o) : a < h.length := by
  rw [List.getElem?_eq_some_iff] at e; exact e.1

theorem getElem?_alloc {h : Heap} {a : Nat} {o x : Obj} (e : h[a]? = some o) : (h ++ [x])[a]? = some o := by
  rw [List.getElem?_append_left (getElem?_lt e)]; exact e

theorem getElem?_new (h : Heap) (x : Obj) : (h ++ [x])[h.length]? = some x := by simp

theorem getElem?_set_ne {h : Heap} {a b : Nat} {x : Obj} (ne : a ≠ b) : (h.set a x)[b]? = h[b]? := by
  rw [List.getElem?_set_ne ne]

theorem getElem?_set_eq {h : Heap} {a : Nat} {o : Obj} (x : Obj) (e : h[a]? = some o) : (h.set a x)[a]? = some x := by
  rw [List.getElem?_set_self (getElem?_lt e)]

/-- Elementwise. -/
inductive All2 {α β} (R : α → β → Prop) : List α → List β → Prop where
  | nil : All2 R [] []
  | cons {a b l m} : R a b → All2 R l m → All2 R (a :: l) (b :: m)

theorem All2.imp {α β} {R Q : α → β → Prop} (f : ∀ a b, R a b → Q a b) {l m} (k : All2 R l m) : All2 Q l m := by
  induction k with
  | nil => exact .nil
  | cons r _ ih => exact .cons (f _ _ r) ih

theorem All2.append {α β} {R : α → β → Prop} {l m l' m'} (k : All2 R l m) (k' : All2 R l' m') : All2 R (l ++ l') (m ++ m') := by
  induction k with
  | nil => exact k'
  | cons r _ ih => exact .cons r ih

/-! ## Frames -/

/-- Objects that are never changed. -/
def Obj.isAddress : Obj → Prop
  | .struct ty _ => ty = .«mail.Address»
  | .array _ => False

/-- Only the addresses in `W` may have changed; `mail.Address`es have not. -/
def Frame (W : List Nat) (h h' : Heap) : Prop :=
  h.length ≤ h'.length ∧ ∀ i o, h[i]? = some o → (i ∉ W ∨ o.isAddress) → h'[i]? = some o

theorem Frame.refl (W : List Nat) (h : Heap) : Frame W h h := ⟨Nat.le_refl _, fun _ _ e _ => e⟩

theorem Frame.trans {W : List Nat} {h₁ h₂ h₃ : Heap} (a : Frame W h₁ h₂) (b : Frame W h₂ h₃) : Frame W h₁ h₃ :=
  ⟨Nat.le_trans a.1 b.1, fun i o e c => b.2 i o (a.2 i o e c) c⟩

theorem Frame.mono {W W' : List Nat} {h h' : Heap} (a : Frame W h h') (s : ∀ i ∈ W, i ∈ W') : Frame W' h h' :=
  ⟨a.1, fun i o e c => a.2 i o e (c.imp (fun n m => n (s i m)) id)⟩

theorem Frame.alloc (W : List Nat) (h : Heap) (x : Obj) : Frame W h (h ++ [x]) :=
  ⟨by simp, fun _ _ e _ => getElem?_alloc e⟩

theorem Frame.set {W : List Nat} {h : Heap} {a : Nat} {o : Obj} (x : Obj) (e : h[a]? = some o) (ne : ¬ o.isAddress) (m : a ∈ W) :
    Frame W h (h.set a x) := by
  refine ⟨by simp, fun i o' e' c => ?_⟩
  have : a ≠ i := by
    rintro rfl
    rw [e] at e'
    cases e'
    exact c.elim (fun n => n m) ne
  rw [getElem?_set_ne this]; exact e'

theorem Frame.get {W : List Nat} {h h' : Heap} (f : Frame W h h') {i : Nat} {o : Obj} (e : h[i]? = some o) (n : i ∉ W) : h'[i]? = some o :=
  f.2 i o e (Or.inl n)

theorem Frame.addr {W : List Nat} {h h' : Heap} (f : Frame W h h') {i : Nat} {fs} (e : h[i]? = some (.struct .«mail.Address» fs)) :
    h'[i]? = some (.struct .«mail.Address» fs) :=
  f.2 i _ e (Or.inr rfl)

/-! ## Slices -/

/-- The array of a slice. -/
def arrOf : Val → Option Nat
  | .slice _ a _ _ => a
  | _ => none

/-- In `h` the value is a slice of element type `t` with these elements. -/
def IsSlice (h : Heap) (t : Ty) (v : Val) (vs : List Val) : Prop :=
  (v = .slice t none 0 0 ∧ vs = []) ∨
  ∃ a full, v = .slice t (some a) vs.length full.length ∧ h[a]? = some (.array full) ∧ full.take vs.length = vs

/-- The slice is nil exactly when it has no elements. -/
def NilIff (v : Val) (vs : List Val) : Prop := arrOf v = none ↔ vs = []

theorem IsSlice.frame {W h h'} (f : Frame W h h') {t v vs} (s : IsSlice h t v vs) (n : ∀ a, arrOf v = some a → a ∉ W) : IsSlice h' t v vs := by
  obtain ⟨rfl, rfl⟩ | ⟨a, full, rfl, e, q⟩ := s
  · exact Or.inl ⟨rfl, rfl⟩
  · exact Or.inr ⟨a, full, rfl, f.get e (n a rfl), q⟩

theorem IsSlice.len {h t v vs} (s : IsSlice h t v vs) : ∃ a cap, v = .slice t a vs.length cap := by
  obtain ⟨rfl, rfl⟩ | ⟨a, full, rfl, e, q⟩ := s
  · exact ⟨_, _, rfl⟩
  · exact ⟨_, _, rfl⟩

theorem IsSlice.arr {h t v vs a} (s : IsSlice h t v vs) (e : arrOf v = some a) : ∃ full, h[a]? = some (.array full) := by
  obtain ⟨rfl, rfl⟩ | ⟨b, full, rfl, e', q⟩ := s
  · cases e
  · cases e; exact ⟨_, e'⟩

theorem IsSlice.elems {h t v vs} (s : IsSlice h t v vs) : elems v h = .ok (vs, h) := by
  obtain ⟨rfl, rfl⟩ | ⟨a, full, rfl, e, q⟩ := s
  · rfl
  · simp only [Go.elems, M.bind_apply, load_apply e, M.pure_apply, q]

theorem IsSlice.nil (h : Heap) (t : Ty) : IsSlice h t (.slice t none 0 0) [] := Or.inl ⟨rfl, rfl⟩

theorem NilIff.nil (t : Ty) : NilIff (.slice t none 0 0) [] := by simp [NilIff, arrOf]

/-- `append`: the elements come last; only the slice's own array is touched, and the result uses that array or a new one. -/
theorem append_spec (S : Setting) {h t v vs} (s : IsSlice h t v vs) (xs : List Val) :
    ∃ v' h', appendVals S v xs h = .ok (v', h') ∧ IsSlice h' t v' (vs ++ xs) ∧ Frame (arrOf v).toList h h' ∧
      (arrOf v' = arrOf v ∨ arrOf v' = some h.length ∧ h'.length = h.length + 1) ∧ (NilIff v vs → NilIff v' (vs ++ xs)) := by
  cases xs with
  | nil =>
    obtain ⟨a, cap, rfl⟩ := s.len
    refine ⟨_, h, rfl, ?_, Frame.refl _ _, Or.inl rfl, ?_⟩ <;> simpa using s
  | cons x xs =>
    obtain ⟨rfl, rfl⟩ | ⟨a, full, rfl, e, q⟩ := s
    · refine ⟨.slice t (some h.length) (0 + (xs.length + 1)) (S.grow h 0 (0 + (xs.length + 1))), _, ?_, ?_,
        Frame.alloc _ _ (.array (x :: xs ++ List.replicate (S.grow h 0 (0 + (xs.length + 1)) - (0 + (xs.length + 1))) (zero t))), Or.inr ⟨rfl, by simp⟩, ?_⟩
      · simp only [appendVals, List.length_cons]
        rw [if_neg (by omega)]
        simp only [Go.elems, M.bind_apply, M.pure_apply, newArray_apply, List.nil_append]
      · refine Or.inr ⟨h.length, _, ?_, getElem?_new _ _, ?_⟩
        · have := S.grow_ge h 0 (0 + (xs.length + 1))
          simp only [List.nil_append, List.length_cons, List.length_append, List.length_replicate]
          congr 1 <;> omega
        · simp
      · simp [NilIff, arrOf]
    · by_cases c : vs.length + (xs.length + 1) ≤ full.length
      · refine ⟨.slice t (some a) (vs.length + (xs.length + 1)) full.length, _, ?_, ?_,
          Frame.set (o := .array full) (.array (vs ++ (x :: xs) ++ full.drop (vs.length + (xs.length + 1)))) e (by simp [Obj.isAddress]) (by simp [arrOf]),
          Or.inl rfl, ?_⟩
        · simp only [appendVals, List.length_cons]
          rw [if_pos c]
          simp only [M.bind_apply, load_apply e, M.pure_apply, store_apply, q]
        · refine Or.inr ⟨a, _, ?_, getElem?_set_eq _ e, ?_⟩
          · simp only [List.length_append, List.length_cons, List.length_drop]
            congr 1; omega
          · rw [List.take_left]
        · simp [NilIff, arrOf]
      · refine ⟨.slice t (some h.length) (vs.length + (xs.length + 1)) (S.grow h full.length (vs.length + (xs.length + 1))), _, ?_, ?_,
          Frame.alloc _ _ (.array (vs ++ x :: xs ++ List.replicate (S.grow h full.length (vs.length + (xs.length + 1)) - (vs.length + (xs.length + 1))) (zero t))), Or.inr ⟨rfl, by simp⟩, ?_⟩
        · simp only [appendVals, List.length_cons]
          rw [if_neg c]
          simp only [Go.elems, M.bind_apply, load_apply e, M.pure_apply, newArray_apply, q]
        · refine Or.inr ⟨h.length, _, ?_, getElem?_new _ _, ?_⟩
          · have := S.grow_ge h full.length (vs.length + (xs.length + 1))
            simp only [List.length_cons, List.length_append, List.length_replicate]
            congr 1 <;> omega
          · rw [List.take_left]
        · simp [NilIff, arrOf]

end Rfc5322.Go
