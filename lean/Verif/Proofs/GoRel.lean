import Verif.Proofs.GoHeap

/-!
# Computations do not see addresses

The same Go code run twice, with different addresses for its objects and with the capacities of slices chosen differently, does the same: the relation `MR` between the
two computations.  `ρ` lists the addresses of the right side in the order of allocation; on the left side the addresses are 0, 1, 2, …
-/

set_option linter.constructorNameAsVariable false
set_option linter.unusedSimpArgs false
set_option linter.unusedVariables false

namespace Rfc5322.Go

/-! ## Related values -/

/-- No address in the value itself. -/
def Val.flat : Val → Bool
  | .ptr _ => false
  | .slice _ (some _) _ _ => false
  | _ => true

/-- The same up to addresses. -/
inductive VR (ρ : List Nat) : Val → Val → Prop where
  | ptr {a b} : ρ[a]? = some b → VR ρ (.ptr a) (.ptr b)
  | slice {a b t l c} : ρ[a]? = some b → VR ρ (.slice t (some a) l c) (.slice t (some b) l c)
  | flat {v} : v.flat = true → VR ρ v v

/-- Lists of values. -/
abbrev VL (ρ : List Nat) : List Val → List Val → Prop := All2 (VR ρ)

/-- Named values. -/
abbrev LR (ρ : List Nat) : List (Ident × Val) → List (Ident × Val) → Prop := All2 fun x y => x.1 = y.1 ∧ VR ρ x.2 y.2

/-- Objects. -/
inductive OR (ρ : List Nat) : Obj → Obj → Prop where
  | struct {ty fs gs} : LR ρ fs gs → OR ρ (.struct ty fs) (.struct ty gs)
  | array {vs us} : VL ρ vs us → OR ρ (.array vs) (.array us)

theorem prefix_get {ρ ρ' : List Nat} (p : ρ <+: ρ') {a b : Nat} (e : ρ[a]? = some b) : ρ'[a]? = some b := by
  obtain ⟨t, rfl⟩ := p
  rw [List.getElem?_append_left (by rw [List.getElem?_eq_some_iff] at e; exact e.1)]
  exact e

theorem VR.mono {ρ ρ' : List Nat} (p : ρ <+: ρ') {v u} (k : VR ρ v u) : VR ρ' v u := by
  cases k with
  | ptr e => exact .ptr (prefix_get p e)
  | slice e => exact .slice (prefix_get p e)
  | flat e => exact .flat e

theorem VL.mono {ρ ρ' : List Nat} (p : ρ <+: ρ') {v u} (k : VL ρ v u) : VL ρ' v u := k.imp fun _ _ => VR.mono p

theorem LR.mono {ρ ρ' : List Nat} (p : ρ <+: ρ') {v u} (k : LR ρ v u) : LR ρ' v u := k.imp fun _ _ x => ⟨x.1, x.2.mono p⟩

theorem OR.mono {ρ ρ' : List Nat} (p : ρ <+: ρ') {v u} (k : OR ρ v u) : OR ρ' v u := by
  cases k with
  | struct x => exact .struct (LR.mono p x)
  | array x => exact .array (VL.mono p x)

theorem All2.refl {α} {R : α → α → Prop} (h : ∀ a, R a a) : ∀ l, All2 R l l
  | [] => .nil
  | a :: l => .cons (h a) (All2.refl h l)

theorem All2.replicate {α β} {R : α → β → Prop} {a b} (h : R a b) : ∀ n, All2 R (List.replicate n a) (List.replicate n b)
  | 0 => .nil
  | n + 1 => .cons h (All2.replicate h n)

theorem All2.length {α β} {R : α → β → Prop} {l m} (k : All2 R l m) : l.length = m.length := by
  induction k with
  | nil => rfl
  | cons _ _ ih => simp [ih]

theorem All2.take {α β} {R : α → β → Prop} {l m} (k : All2 R l m) (n : Nat) : All2 R (l.take n) (m.take n) := by
  induction k generalizing n with
  | nil => simp; exact .nil
  | cons r _ ih => cases n with
    | zero => exact .nil
    | succ n => exact .cons r (ih n)

theorem All2.drop {α β} {R : α → β → Prop} {l m} (k : All2 R l m) (n : Nat) : All2 R (l.drop n) (m.drop n) := by
  induction k generalizing n with
  | nil => simp; exact .nil
  | cons r h ih => cases n with
    | zero => exact .cons r h
    | succ n => exact ih n

theorem All2.get {α β} {R : α → β → Prop} {l m} (k : All2 R l m) (n : Nat) : (∃ a b, l[n]? = some a ∧ m[n]? = some b ∧ R a b) ∨ l[n]? = none ∧ m[n]? = none := by
  induction k generalizing n with
  | nil => right; simp
  | cons r h ih => cases n with
    | zero => left; exact ⟨_, _, rfl, rfl, r⟩
    | succ n => simpa using ih n

/-! ## Related computations -/

/-- Step by step the same; the capacities on the left are those wished by `f`, if they suffice. -/
inductive MR (f : Nat → Nat) {α β : Type} (R : List Nat → α → β → Prop) : List Nat → M α → M β → Prop where
  | ret {ρ a b} : R ρ a b → MR f R ρ (.ret a) (.ret b)
  | fault {ρ e} : MR f R ρ (.fault e) (.fault e)
  | alloc {ρ o o' k k'} : OR ρ o o' → (∀ b, MR f R (ρ ++ [b]) (k ρ.length) (k' b)) → MR f R ρ (.alloc o k) (.alloc o' k')
  | load {ρ a b k k'} : ρ[a]? = some b → (∀ o o', OR ρ o o' → MR f R ρ (k o) (k' o')) → MR f R ρ (.load a k) (.load b k')
  | store {ρ a b o o' k k'} : ρ[a]? = some b → OR ρ o o' → MR f R ρ k k' → MR f R ρ (.store a o k) (.store b o' k')
  | grow {ρ lo c c' o o' k k'} : (∀ h : Heap, c h = max (f h.length) lo) → (∀ h, lo ≤ c' h) → (∀ r, OR ρ (o r) (o' r)) →
      (∀ r b, MR f R (ρ ++ [b]) (k r ρ.length) (k' r b)) → MR f R ρ (.grow c o k) (.grow c' o' k')

variable {f : Nat → Nat}

theorem MR.bind {α β γ δ : Type} {R : List Nat → α → β → Prop} {Q : List Nat → γ → δ → Prop} {ρ m m'} (k : MR f R ρ m m') :
    ∀ {g : α → M γ} {g' : β → M δ}, (∀ ρ' a b, ρ <+: ρ' → R ρ' a b → MR f Q ρ' (g a) (g' b)) → MR f Q ρ (m >>= g) (m' >>= g') := by
  induction k with
  | ret r => intro g g' h; exact h _ _ _ (List.prefix_refl _) r
  | fault => intro g g' h; exact .fault
  | alloc o _ ih => intro g g' h; exact .alloc o fun b => ih b fun ρ' a b p r => h ρ' a b ((List.prefix_append _ _).trans p) r
  | load e _ ih => intro g g' h; exact .load e fun o o' x => ih o o' x h
  | store e o _ ih => intro g g' h; exact .store e o (ih h)
  | grow c c' o _ ih => intro g g' h; exact .grow c c' o fun r b => ih r b fun ρ' a b p r => h ρ' a b ((List.prefix_append _ _).trans p) r

theorem MR.imp {α β : Type} {R Q : List Nat → α → β → Prop} (h : ∀ ρ a b, R ρ a b → Q ρ a b) {ρ m m'} (k : MR f R ρ m m') : MR f Q ρ m m' := by
  induction k with
  | ret r => exact .ret (h _ _ _ r)
  | fault => exact .fault
  | alloc o _ ih => exact .alloc o ih
  | load e _ ih => exact .load e ih
  | store e o _ ih => exact .store e o ih
  | grow c c' o _ ih => exact .grow c c' o ih

/-- The same, without addresses. -/
abbrev Eq2 {α : Type} : List Nat → α → α → Prop := fun _ a b => a = b

theorem MR.pure {α β : Type} {R : List Nat → α → β → Prop} {ρ a b} (h : R ρ a b) : MR f R ρ (pure a) (pure b) := .ret h

theorem MR.stuck {α β : Type} {R : List Nat → α → β → Prop} {ρ} : MR f R ρ (stuck : M α) (stuck : M β) := .fault

theorem MR.panic {α β : Type} {R : List Nat → α → β → Prop} {ρ p} : MR f R ρ (panic p : M α) (panic p : M β) := .fault

theorem MR.orStuck {α β : Type} {R : List Nat → α → β → Prop} {ρ} {x : Option α} {y : Option β}
    (h : (∃ a b, x = some a ∧ y = some b ∧ R ρ a b) ∨ x = none ∧ y = none) : MR f R ρ (orStuck x) (orStuck y) := by
  rcases h with ⟨a, b, rfl, rfl, r⟩ | ⟨rfl, rfl⟩
  · exact .ret r
  · exact .fault

theorem load_MR {ρ a b} (e : ρ[a]? = some b) : MR f OR ρ (load a) (load b) := .load e fun _ _ h => .ret h

theorem store_MR {ρ a b o o'} (e : ρ[a]? = some b) (h : OR ρ o o') : MR f Eq2 ρ (store a o) (store b o') := .store e h (.ret rfl)

theorem alloc_MR {ρ o o'} (h : OR ρ o o') : MR f (fun ρ a b => ρ[a]? = some b) ρ (alloc o) (alloc o') := .alloc h fun b => .ret (by simp)

/-! ## Operations -/

theorem zero_flat (t : Ty) : (zero t).flat = true := by cases t <;> rfl

theorem convert_VR {ρ t v u} (h : VR ρ v u) : VR ρ (convert t v) (convert t u) := by
  cases t with
  | slice t => cases h with
    | ptr e => exact .ptr e
    | slice e => exact .slice e
    | @flat v e => cases v <;> first | exact .flat rfl | exact .flat e
  | _ => exact h

theorem one_MR {ρ vs us} (h : VL ρ vs us) : MR f VR ρ (one vs) (one us) := by
  cases h with
  | nil => exact .fault
  | cons x t => cases t with
    | nil => exact .ret x
    | cons => exact .fault

theorem assoc_LR {ρ x l m} (h : LR ρ l m) : (∃ a b, assoc x l = some a ∧ assoc x m = some b ∧ VR ρ a b) ∨ assoc x l = none ∧ assoc x m = none := by
  induction h with
  | nil => exact .inr ⟨rfl, rfl⟩
  | @cons a b l m r _ ih =>
    obtain ⟨y, v⟩ := a
    obtain ⟨z, u⟩ := b
    obtain ⟨rfl, r⟩ : y = z ∧ VR ρ v u := r
    simp only [assoc]
    split
    · exact .inl ⟨v, u, rfl, rfl, r⟩
    · exact ih

theorem update_LR {ρ x v u l m} (hv : VR ρ v u) (h : LR ρ l m) :
    (∃ a b, update x v l = some a ∧ update x u m = some b ∧ LR ρ a b) ∨ update x v l = none ∧ update x u m = none := by
  induction h with
  | nil => exact .inr ⟨rfl, rfl⟩
  | @cons a b l m r h ih =>
    obtain ⟨y, w⟩ := a
    obtain ⟨z, w'⟩ := b
    obtain ⟨rfl, r⟩ : y = z ∧ VR ρ w w' := r
    simp only [update]
    split
    · exact .inl ⟨_, _, rfl, rfl, .cons ⟨rfl, hv⟩ h⟩
    · rcases ih with ⟨a, b, e1, e2, r'⟩ | ⟨e1, e2⟩
      · exact .inl ⟨(y, w) :: a, (y, w') :: b, by rw [e1]; rfl, by rw [e2]; rfl, .cons ⟨rfl, r⟩ r'⟩
      · exact .inr ⟨by rw [e1]; rfl, by rw [e2]; rfl⟩

theorem fill_LR {ρ l m} (fs : List (Ident × Ty)) (h : LR ρ l m) : LR ρ (fill fs l) (fill fs m) := by
  induction fs with
  | nil => exact .nil
  | cons x fs ih =>
    refine .cons ⟨rfl, ?_⟩ ih
    dsimp only
    rcases assoc_LR (x := x.1) h with ⟨a, b, e1, e2, r⟩ | ⟨e1, e2⟩
    · rw [e1, e2]; exact r
    · rw [e1, e2]; exact .flat (zero_flat _)

theorem zip_LR {ρ} : ∀ (fs : List Ident) {vs us}, VL ρ vs us → LR ρ (fs.zip vs) (fs.zip us)
  | [], _, _, _ => .nil
  | _ :: _, _, _, .nil => .nil
  | _ :: fs, _, _, .cons r h => .cons ⟨rfl, r⟩ (zip_LR fs h)

/-- Type and fields of a struct. -/
abbrev SR (ρ : List Nat) (x y : Ident × List (Ident × Val)) : Prop := x.1 = y.1 ∧ LR ρ x.2 y.2

theorem structOf_MR {ρ v u} (h : VR ρ v u) : MR f SR ρ (structOf v) (structOf u) := by
  cases h with
  | ptr e =>
    refine (load_MR e).bind fun ρ' o o' p x => ?_
    cases x with
    | struct x => exact .ret ⟨rfl, x⟩
    | array => exact .fault
  | slice => exact .fault
  | @flat v e => cases v <;> first | exact .fault | cases e

theorem getField_MR {ρ v u x} (h : VR ρ v u) : MR f VR ρ (getField v x) (getField u x) :=
  (structOf_MR h).bind fun _ _ _ _ r => .orStuck (assoc_LR r.2)

theorem putField_MR {ρ v u x a b} (h : VR ρ v u) (k : VR ρ a b) : MR f Eq2 ρ (putField v x a) (putField u x b) := by
  cases h with
  | ptr e =>
    refine (load_MR e).bind fun ρ' o o' p y => ?_
    cases y with
    | struct y =>
      exact (MR.orStuck (update_LR (k.mono p) y)).bind fun ρ'' _ _ q r => store_MR (prefix_get (p.trans q) e) (.struct r)
    | array => exact .fault
  | slice => exact .fault
  | @flat v e => cases v <;> first | exact .fault | cases e

theorem elems_MR {ρ v u} (h : VR ρ v u) : MR f VL ρ (elems v) (elems u) := by
  cases h with
  | slice e =>
    refine (load_MR e).bind fun ρ' o o' p y => ?_
    cases y with
    | struct y => exact .fault
    | array y => exact .ret (y.take _)
  | ptr => exact .fault
  | @flat v e =>
    cases v with
    | slice t a l c => cases a with
      | none => exact .ret .nil
      | some => cases e
    | _ => first | exact .fault | cases e

/-- The world on the left: it differs in the choice of capacities. -/
structure Twin (f : Nat → Nat) (S S' : Setting) : Prop where
  env : S.env = S'.env
  parse : S.parse = S'.parse
  message : S.message = S'.message
  messages : S.messages = S'.messages
  recovered : S.recovered = S'.recovered
  grow : ∀ h c n, S.grow h c n = max (f h.length) n

variable {S S' : Setting}

theorem newArray_MR (T : Twin f S S') {ρ cap n o o'} (h : ∀ r, VL ρ (o r) (o' r)) :
    MR f (fun ρ x y => x.1 = y.1 ∧ ρ[x.2]? = some y.2) ρ (newArray S cap n o) (newArray S' cap n o') :=
  .grow (lo := n) (fun h => T.grow h cap n) (fun h => S'.grow_ge h cap n) (fun r => .array (h r)) fun r b => .ret ⟨rfl, by simp⟩

theorem appendVals_MR (T : Twin f S S') {ρ v u xs ys} (h : VR ρ v u) (k : VL ρ xs ys) : MR f VR ρ (appendVals S v xs) (appendVals S' u ys) := by
  have hl := k.length
  have key : ∀ {t a b l c}, VR ρ (.slice t a l c) (.slice t b l c) → (∀ x, a = some x → ∃ y, b = some y ∧ ρ[x]? = some y) → (a = none → b = none) →
      MR f VR ρ (appendVals S (.slice t a l c) xs) (appendVals S' (.slice t b l c) ys) := by
    intro t a b l c hv ha hb
    cases k with
    | nil => exact .ret hv
    | @cons x y xs ys r k =>
      simp only [appendVals]
      rw [hl]
      split
      · cases a with
        | none => rw [hb rfl]; exact .fault
        | some a =>
          obtain ⟨b, rfl, e⟩ := ha a rfl
          refine (load_MR e).bind fun ρ' o o' p z => ?_
          cases z with
          | struct => exact .fault
          | array z =>
            refine (store_MR (prefix_get p e) (.array ?_)).bind fun ρ'' _ _ q _ => .ret (.slice (prefix_get (p.trans q) e))
            exact ((z.take _).append (.cons (r.mono p) (VL.mono p k))).append (z.drop _)
      · refine (elems_MR hv).bind fun ρ' o o' p z => ?_
        refine (newArray_MR T fun r' => ?_).bind fun ρ'' w w' q e => ?_
        · exact (z.append (.cons (r.mono p) (VL.mono p k))).append (All2.replicate (.flat (zero_flat t)) _)
        · obtain ⟨e1, e2⟩ := e
          rw [e1]
          exact .ret (.slice e2)
  cases h with
  | slice e => exact key (.slice e) (fun x hx => by cases hx; exact ⟨_, rfl, e⟩) (by simp)
  | ptr => exact .fault
  | @flat v e =>
    cases v with
    | slice t a l c => cases a with
      | none => exact key (.flat e) (by simp) (by simp)
      | some => cases e
    | _ => first | exact .fault | cases e

theorem equal_MR {ρ a b c d} (h : VR ρ a b) (k : VR ρ c d) : MR f Eq2 ρ (equal a c) (equal b d) := by
  cases h with
  | ptr => cases k <;> exact .fault
  | slice => cases k <;> exact .fault
  | @flat _ e =>
    cases k with
    | ptr => cases a <;> exact .fault
    | slice => cases a <;> exact .fault
    | flat => unfold equal; split <;> first | exact .ret rfl | exact .fault

theorem arith_MR {ρ op a b c d} (h : VR ρ a b) (k : VR ρ c d) : MR f VR ρ (arith op a c) (arith op b d) := by
  have eq1 : MR f VR ρ (arith .eq a c) (arith .eq b d) := (equal_MR h k).bind fun _ _ _ _ r => .ret (r ▸ .flat rfl)
  have ne1 : MR f VR ρ (arith .ne a c) (arith .ne b d) := (equal_MR h k).bind fun _ _ _ _ r => .ret (r ▸ .flat rfl)
  cases op with
  | eq => exact eq1
  | ne => exact ne1
  | _ =>
    clear eq1 ne1
    cases h with
    | ptr => cases k <;> exact .fault
    | slice => cases k <;> exact .fault
    | @flat _ e =>
      cases k with
      | ptr => cases a <;> exact .fault
      | slice => cases a <;> exact .fault
      | @flat _ e' => cases a <;> cases c <;> first | exact .fault | exact .ret (.flat rfl) | cases e | cases e'

theorem indexVal_MR {ρ vs us a b} (h : VL ρ vs us) (k : VR ρ a b) : MR f VR ρ (indexVal vs a) (indexVal us b) := by
  cases k with
  | ptr => exact .fault
  | slice => exact .fault
  | @flat _ e =>
    cases a with
    | int i =>
      cases i with
      | ofNat n =>
        simp only [indexVal]
        rcases h.get n with ⟨a, b, e1, e2, r⟩ | ⟨e1, e2⟩
        · rw [e1, e2]; exact .ret r
        · rw [e1, e2]; exact .fault
      | negSucc => exact .fault
    | _ => exact .fault

theorem sliceToVal_MR {ρ v u a b} (h : VR ρ v u) (k : VR ρ a b) : MR f VR ρ (sliceToVal v a) (sliceToVal u b) := by
  have key : ∀ {t x y l c}, (∀ n, VR ρ (.slice t x n c) (.slice t y n c)) → MR f VR ρ (sliceToVal (.slice t x l c) a) (sliceToVal (.slice t y l c) b) := by
    intro t x y l c hv
    cases k with
    | ptr => exact .fault
    | slice => exact .fault
    | @flat _ e =>
      cases a with
      | int i =>
        cases i with
        | ofNat n =>
          simp only [sliceToVal]
          split
          · exact .ret (hv n)
          · exact .fault
        | negSucc => exact .fault
      | _ => exact .fault
  cases h with
  | ptr => cases k <;> exact .fault
  | slice e => exact key fun _ => .slice e
  | @flat _ e =>
    cases v with
    | slice t x l c => cases x with
      | none => exact key fun _ => .flat rfl
      | some => cases e
    | _ => cases k <;> exact .fault

theorem sliceVal_MR {ρ v u a b c d} (h : VR ρ v u) (k : VR ρ a b) (l : VR ρ c d) : MR f VR ρ (sliceVal v a c) (sliceVal u b d) := by
  have self : ∀ v a c, MR f VR ρ (sliceVal v a c) (sliceVal v a c) := by
    intro v a c
    unfold sliceVal
    split
    · split
      · exact .ret (.flat rfl)
      · exact .fault
    · exact .fault
    · exact .fault
  cases h with
  | ptr => cases k <;> cases l <;> exact .fault
  | slice => cases k <;> cases l <;> exact .fault
  | @flat v e =>
    cases k with
    | ptr => cases v <;> cases l <;> exact .fault
    | slice => cases v <;> cases l <;> exact .fault
    | @flat _ e' =>
      cases l with
      | ptr => cases v <;> first | exact .fault | (cases a <;> first | exact .fault | (rename_i i; cases i <;> exact .fault))
      | slice => cases v <;> first | exact .fault | (cases a <;> first | exact .fault | (rename_i i; cases i <;> exact .fault))
      | flat => exact self _ _ _

theorem notVal_MR {ρ v u} (h : VR ρ v u) : MR f VR ρ (notVal v) (notVal u) := by
  cases h with
  | ptr => exact .fault
  | slice => exact .fault
  | @flat v e => cases v <;> first | exact .fault | exact .ret (.flat rfl)

theorem negVal_MR {ρ v u} (h : VR ρ v u) : MR f VR ρ (negVal v) (negVal u) := by
  cases h with
  | ptr => exact .fault
  | slice => exact .fault
  | @flat v e => cases v <;> first | exact .fault | exact .ret (.flat rfl)

theorem assertMethod_MR {ρ Pr v u m t} (h : VR ρ v u) : MR f VL ρ (assertMethod Pr v m t) (assertMethod Pr u m t) := by
  cases h with
  | @ptr a b e =>
    refine (structOf_MR (.ptr e)).bind fun ρ' x y p r => ?_
    rw [r.1]
    split
    · exact .ret (.cons (.ptr (prefix_get p e)) (.cons (.flat rfl) .nil))
    · exact .ret (.cons (.flat rfl) (.cons (.flat rfl) .nil))
  | slice => exact .ret (.cons (.flat rfl) (.cons (.flat rfl) .nil))
  | @flat v e => cases v <;> first | exact .ret (.cons (.flat rfl) (.cons (.flat rfl) .nil)) | cases e

theorem assertTy_MR {ρ v u t} (h : VR ρ v u) : MR f VR ρ (assertTy v t) (assertTy u t) := by
  cases h with
  | @ptr a b e =>
    cases t with
    | ptr n =>
      refine (structOf_MR (.ptr e)).bind fun ρ' x y p r => ?_
      rw [r.1]
      split
      · exact .ret (.ptr (prefix_get p e))
      · exact .fault
    | _ => exact .fault
  | slice e =>
    cases t with
    | slice n =>
      simp only [assertTy]
      split
      · exact .ret (.slice e)
      · exact .fault
    | _ => exact .fault
  | @flat v e =>
    unfold assertTy
    split
    · cases e
    · split
      · exact .ret (.flat e)
      · exact .fault
    · exact .ret (.flat e)
    · exact .fault

/-! ## Other packages -/

theorem flat_of_VL {ρ vs us} (h : VL ρ vs us) : (∀ v ∈ vs, v.flat = true) → us = vs := by
  induction h with
  | nil => intro _; rfl
  | cons r _ ih =>
    intro k
    rw [ih fun v m => k v (by simp [m])]
    have := k _ (List.mem_cons_self ..)
    cases r with
    | flat => rfl
    | _ => cases this

theorem sprintf_VL {ρ} (s : Bytes) {vs us} (h : VL ρ vs us) : sprintf s vs = sprintf s us := by
  fun_induction sprintf s vs generalizing us with
  | case1 => cases h; rfl
  | case2 => cases h; rfl
  | case3 f s vs ih =>
    cases h with
    | cons r h =>
      cases r
      simp only [sprintf, ih h]
  | case4 f vs n =>
    have n' : ∀ f' s us', us = .str s :: us' → (37 : UInt8) = 37 → f = 118 :: f' → False := by
      rintro f' s us' rfl _ rfl
      cases h with
      | cons r h => cases r; exact n _ _ _ rfl rfl rfl
    rw [sprintf, if_pos rfl]
    exact n'
  | case5 c f vs n hc ih =>
    rw [sprintf, if_neg hc, ih h]
    exact fun _ _ _ _ e _ => hc e

theorem strings_VL {ρ vs us} (h : VL ρ vs us) : strings vs = strings us := by
  induction h with
  | nil => rfl
  | cons r _ ih =>
    cases r with
    | ptr => rfl
    | slice => rfl
    | @flat _ e => rename_i v _ _ _; cases v <;> simp [strings, ih]

theorem VR_str {ρ} {s : Bytes} {v} : VR ρ (.str s) v ↔ v = .str s := ⟨fun h => by cases h; rfl, by rintro rfl; exact .flat rfl⟩
theorem VR_str' {ρ} {s : Bytes} {v} : VR ρ v (.str s) ↔ v = .str s := ⟨fun h => by cases h; rfl, by rintro rfl; exact .flat rfl⟩
theorem VR_int {ρ} {i : Int} {v} : VR ρ (.int i) v ↔ v = .int i := ⟨fun h => by cases h; rfl, by rintro rfl; exact .flat rfl⟩
theorem VR_int' {ρ} {i : Int} {v} : VR ρ v (.int i) ↔ v = .int i := ⟨fun h => by cases h; rfl, by rintro rfl; exact .flat rfl⟩
theorem VR_bool {ρ} {b : Bool} {v} : VR ρ (.bool b) v ↔ v = .bool b := ⟨fun h => by cases h; rfl, by rintro rfl; exact .flat rfl⟩
theorem VR_bool' {ρ} {b : Bool} {v} : VR ρ v (.bool b) ↔ v = .bool b := ⟨fun h => by cases h; rfl, by rintro rfl; exact .flat rfl⟩
theorem VR_loc {ρ} {l : Location} {v} : VR ρ (.loc l) v ↔ v = .loc l := ⟨fun h => by cases h; rfl, by rintro rfl; exact .flat rfl⟩
theorem VR_loc' {ρ} {l : Location} {v} : VR ρ v (.loc l) ↔ v = .loc l := ⟨fun h => by cases h; rfl, by rintro rfl; exact .flat rfl⟩
theorem VR_time {ρ} {t : GoTime} {v} : VR ρ (.time t) v ↔ v = .time t := ⟨fun h => by cases h; rfl, by rintro rfl; exact .flat rfl⟩
theorem VR_time' {ρ} {t : GoTime} {v} : VR ρ v (.time t) ↔ v = .time t := ⟨fun h => by cases h; rfl, by rintro rfl; exact .flat rfl⟩
theorem VR_dur {ρ} {n : Int} {v} : VR ρ (.dur n) v ↔ v = .dur n := ⟨fun h => by cases h; rfl, by rintro rfl; exact .flat rfl⟩
theorem VR_dur' {ρ} {n : Int} {v} : VR ρ v (.dur n) ↔ v = .dur n := ⟨fun h => by cases h; rfl, by rintro rfl; exact .flat rfl⟩
theorem VR_secs {ρ} {n : Int} {v} : VR ρ (.secs n) v ↔ v = .secs n := ⟨fun h => by cases h; rfl, by rintro rfl; exact .flat rfl⟩
theorem VR_secs' {ρ} {n : Int} {v} : VR ρ v (.secs n) ↔ v = .secs n := ⟨fun h => by cases h; rfl, by rintro rfl; exact .flat rfl⟩
theorem VR_err {ρ} {e : GoErr} {v} : VR ρ (.err e) v ↔ v = .err e := ⟨fun h => by cases h; rfl, by rintro rfl; exact .flat rfl⟩
theorem VR_err' {ρ} {e : GoErr} {v} : VR ρ v (.err e) ↔ v = .err e := ⟨fun h => by cases h; rfl, by rintro rfl; exact .flat rfl⟩
theorem VR_term {ρ} {c : Char} {v} : VR ρ (.term c) v ↔ v = .term c := ⟨fun h => by cases h; rfl, by rintro rfl; exact .flat rfl⟩
theorem VR_term' {ρ} {c : Char} {v} : VR ρ v (.term c) ↔ v = .term c := ⟨fun h => by cases h; rfl, by rintro rfl; exact .flat rfl⟩
theorem VR_terms {ρ} {c : List Char} {v} : VR ρ (.terms c) v ↔ v = .terms c := ⟨fun h => by cases h; rfl, by rintro rfl; exact .flat rfl⟩
theorem VR_terms' {ρ} {c : List Char} {v} : VR ρ v (.terms c) ↔ v = .terms c := ⟨fun h => by cases h; rfl, by rintro rfl; exact .flat rfl⟩
theorem VR_tree {ρ} {t : List Tree} {v} : VR ρ (.tree t) v ↔ v = .tree t := ⟨fun h => by cases h; rfl, by rintro rfl; exact .flat rfl⟩
theorem VR_tree' {ρ} {t : List Tree} {v} : VR ρ v (.tree t) ↔ v = .tree t := ⟨fun h => by cases h; rfl, by rintro rfl; exact .flat rfl⟩
theorem VR_inputStream {ρ} {s : Bytes} {v} : VR ρ (.inputStream s) v ↔ v = .inputStream s := ⟨fun h => by cases h; rfl, by rintro rfl; exact .flat rfl⟩
theorem VR_inputStream' {ρ} {s : Bytes} {v} : VR ρ v (.inputStream s) ↔ v = .inputStream s := ⟨fun h => by cases h; rfl, by rintro rfl; exact .flat rfl⟩
theorem VR_lexer {ρ} {s : Bytes} {v} : VR ρ (.lexer s) v ↔ v = .lexer s := ⟨fun h => by cases h; rfl, by rintro rfl; exact .flat rfl⟩
theorem VR_lexer' {ρ} {s : Bytes} {v} : VR ρ v (.lexer s) ↔ v = .lexer s := ⟨fun h => by cases h; rfl, by rintro rfl; exact .flat rfl⟩
theorem VR_stream {ρ} {s : Bytes} {v} : VR ρ (.stream s) v ↔ v = .stream s := ⟨fun h => by cases h; rfl, by rintro rfl; exact .flat rfl⟩
theorem VR_stream' {ρ} {s : Bytes} {v} : VR ρ v (.stream s) ↔ v = .stream s := ⟨fun h => by cases h; rfl, by rintro rfl; exact .flat rfl⟩
theorem VR_nil {ρ} {v} : VR ρ .nil v ↔ v = .nil := ⟨fun h => by cases h; rfl, by rintro rfl; exact .flat rfl⟩
theorem VR_nil' {ρ} {v} : VR ρ v .nil ↔ v = .nil := ⟨fun h => by cases h; rfl, by rintro rfl; exact .flat rfl⟩
theorem VR_now {ρ} {v} : VR ρ .now v ↔ v = .now := ⟨fun h => by cases h; rfl, by rintro rfl; exact .flat rfl⟩
theorem VR_now' {ρ} {v} : VR ρ v .now ↔ v = .now := ⟨fun h => by cases h; rfl, by rintro rfl; exact .flat rfl⟩
theorem VR_reader {ρ} {v} : VR ρ .reader v ↔ v = .reader := ⟨fun h => by cases h; rfl, by rintro rfl; exact .flat rfl⟩
theorem VR_reader' {ρ} {v} : VR ρ v .reader ↔ v = .reader := ⟨fun h => by cases h; rfl, by rintro rfl; exact .flat rfl⟩
theorem VR_channel {ρ} {v} : VR ρ .channel v ↔ v = .channel := ⟨fun h => by cases h; rfl, by rintro rfl; exact .flat rfl⟩
theorem VR_channel' {ρ} {v} : VR ρ v .channel ↔ v = .channel := ⟨fun h => by cases h; rfl, by rintro rfl; exact .flat rfl⟩
theorem VR_treeWalker {ρ} {v} : VR ρ .treeWalker v ↔ v = .treeWalker := ⟨fun h => by cases h; rfl, by rintro rfl; exact .flat rfl⟩
theorem VR_treeWalker' {ρ} {v} : VR ρ v .treeWalker ↔ v = .treeWalker := ⟨fun h => by cases h; rfl, by rintro rfl; exact .flat rfl⟩
theorem VR_console {ρ} {v} : VR ρ .console v ↔ v = .console := ⟨fun h => by cases h; rfl, by rintro rfl; exact .flat rfl⟩
theorem VR_console' {ρ} {v} : VR ρ v .console ↔ v = .console := ⟨fun h => by cases h; rfl, by rintro rfl; exact .flat rfl⟩
theorem VR_ctx {ρ r ts v} : VR ρ (.ctx r ts) v ↔ v = .ctx r ts := ⟨fun h => by cases h; rfl, by rintro rfl; exact .flat rfl⟩
theorem VR_ctx' {ρ r ts v} : VR ρ v (.ctx r ts) ↔ v = .ctx r ts := ⟨fun h => by cases h; rfl, by rintro rfl; exact .flat rfl⟩
theorem VR_ptr {ρ a v} : VR ρ (.ptr a) v ↔ ∃ b, v = .ptr b ∧ ρ[a]? = some b :=
  ⟨fun h => (by cases h with | ptr e => exact ⟨_, rfl, e⟩ | flat e => exact nomatch e), by rintro ⟨_, rfl, h⟩; exact .ptr h⟩
theorem VR_ptr' {ρ a v} : VR ρ v (.ptr a) ↔ ∃ b, v = .ptr b ∧ ρ[b]? = some a :=
  ⟨fun h => (by cases h with | ptr e => exact ⟨_, rfl, e⟩ | flat e => exact nomatch e), by rintro ⟨_, rfl, h⟩; exact .ptr h⟩
/-- The arrays of slices. -/
def AR (ρ : List Nat) (a b : Option Nat) : Prop := (a = none ∧ b = none) ∨ ∃ x y, a = some x ∧ b = some y ∧ ρ[x]? = some y
theorem VR_slice {ρ t a l c v} : VR ρ (.slice t a l c) v ↔ ∃ b, v = .slice t b l c ∧ AR ρ a b := by
  constructor
  · intro h
    cases h with
    | slice e => exact ⟨_, rfl, .inr ⟨_, _, rfl, rfl, e⟩⟩
    | flat e => cases a with
      | none => exact ⟨_, rfl, .inl ⟨rfl, rfl⟩⟩
      | some => cases e
  · rintro ⟨b, rfl, ⟨rfl, rfl⟩ | ⟨x, y, rfl, rfl, e⟩⟩
    · exact .flat rfl
    · exact .slice e
theorem VR_slice' {ρ t a l c v} : VR ρ v (.slice t a l c) ↔ ∃ b, v = .slice t b l c ∧ AR ρ b a := by
  constructor
  · intro h
    cases h with
    | slice e => exact ⟨_, rfl, .inr ⟨_, _, rfl, rfl, e⟩⟩
    | flat e => cases a with
      | none => exact ⟨_, rfl, .inl ⟨rfl, rfl⟩⟩
      | some => cases e
  · rintro ⟨b, rfl, ⟨rfl, rfl⟩ | ⟨x, y, rfl, rfl, e⟩⟩
    · exact .flat rfl
    · exact .slice e
theorem VL_nil {ρ us} : VL ρ [] us ↔ us = [] := ⟨fun h => by cases h; rfl, by rintro rfl; exact .nil⟩
theorem VL_nil' {ρ us} : VL ρ us [] ↔ us = [] := ⟨fun h => by cases h; rfl, by rintro rfl; exact .nil⟩
theorem VL_cons {ρ v vs us} : VL ρ (v :: vs) us ↔ ∃ u, VR ρ v u ∧ ∃ us', VL ρ vs us' ∧ us = u :: us' :=
  ⟨fun h => (by cases h with | cons r h => exact ⟨_, r, _, h, rfl⟩), by rintro ⟨_, r, _, h, rfl⟩; exact .cons r h⟩
theorem VL_cons' {ρ v vs us} : VL ρ us (v :: vs) ↔ ∃ u, VR ρ u v ∧ ∃ us', VL ρ us' vs ∧ us = u :: us' :=
  ⟨fun h => (by cases h with | cons r h => exact ⟨_, r, _, h, rfl⟩), by rintro ⟨_, r, _, h, rfl⟩; exact .cons r h⟩


end Rfc5322.Go
