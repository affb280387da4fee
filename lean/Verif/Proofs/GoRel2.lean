import Verif.Proofs.GoRel

/-!
# Computations do not see addresses: expressions and statements
-/

set_option linter.constructorNameAsVariable false
set_option linter.unusedSimpArgs false
set_option linter.unusedVariables false

namespace Rfc5322.Go

variable {f : Nat → Nat} {S S' : Setting}

/-- What is related to known values. -/
macro "invert" h:ident : tactic => `(tactic| simp only [VR_str, VR_str', VR_int, VR_int', VR_bool, VR_bool', VR_loc, VR_loc', VR_time, VR_time', VR_dur, VR_dur', VR_secs, VR_secs', VR_err, VR_err', VR_term, VR_term', VR_terms, VR_terms', VR_tree, VR_tree', VR_inputStream, VR_inputStream', VR_lexer, VR_lexer', VR_stream, VR_stream', VR_nil, VR_nil', VR_now, VR_now', VR_reader, VR_reader', VR_channel, VR_channel', VR_treeWalker, VR_treeWalker', VR_console, VR_console', VR_ctx, VR_ctx', VR_ptr, VR_ptr', VR_slice, VR_slice', VL_nil, VL_nil', VL_cons, VL_cons', exists_eq_left] at $h:ident)

theorem orStuck_eq {α : Type} {ρ} (x : Option α) : MR f Eq2 ρ (orStuck x) (orStuck x) := by
  cases x with
  | none => exact .fault
  | some a => exact .ret rfl

theorem builtin_MR (T : Twin f S S') {ρ fn vs us} (h : VL ρ vs us) : MR f VL ρ (builtin S fn vs) (builtin S' fn us) := by
  fun_cases builtin S fn vs
  case case2 =>
    invert h
    obtain ⟨_, ⟨b, rfl, -⟩, rfl⟩ := h
    exact .ret (.cons (.flat rfl) .nil)
  case case6 v sep =>
    cases h with
    | @cons _ u _ us r h =>
      invert h
      subst h
      show MR f VL ρ _ (do
        let vs ← elems u
        let ss ← orStuck (strings vs)
        pure [Val.str (joinBytes sep ss)])
      refine (elems_MR r).bind fun ρ' a b p x => ?_
      rw [strings_VL x]
      exact (orStuck_eq _).bind fun ρ'' a b p x => .ret (.cons (x ▸ .flat rfl) .nil)
  case case8 =>
    cases h with
    | cons r h =>
      invert r
      subst r
      rw [sprintf_VL _ h]
      exact (orStuck_eq _).bind fun ρ'' a b p x => .ret (.cons (x ▸ .flat rfl) .nil)
  case case9 =>
    cases h with
    | cons r h =>
      invert r
      subst r
      rw [sprintf_VL _ h]
      exact (orStuck_eq _).bind fun ρ'' a b p x => .ret (.cons (x ▸ .flat rfl) .nil)
  case case18 =>
    invert h
    subst h
    refine (alloc_MR (.array (.cons (.flat rfl) .nil))).bind fun ρ' a b p e => ?_
    refine (alloc_MR (.struct (.cons (a := (.input, .stream _)) (b := (.input, .stream _)) ⟨rfl, .flat rfl⟩
      (.cons (a := (.listeners, .slice .iface (some a) 1 1)) (b := (.listeners, .slice .iface (some b) 1 1)) ⟨rfl, .slice e⟩ .nil)))).bind fun ρ'' a b p e => ?_
    exact .ret (.cons (.ptr e) .nil)
  case case19 =>
    fun_cases builtin S' fn us
    case case2 =>
      invert h
      obtain ⟨_, ⟨b, rfl, -⟩, rfl⟩ := h
      simp_all
      rename_i x
      exact (x _ _ _ _ rfl rfl rfl rfl).elim
    case case6 v sep =>
      cases h with
      | @cons _ u _ us r h =>
        invert h
        subst h
        simp_all
    case case8 =>
      cases h with
      | cons r h =>
        invert r
        subst r
        simp_all
    case case9 =>
      cases h with
      | cons r h =>
        invert r
        subst r
        simp_all
    case case14 =>
      invert h
      subst h
      simp_all
      rename_i x
      exact (x _ _ _ _ _ _ _ rfl rfl rfl rfl rfl rfl rfl).elim
    case case19 => exact .fault
    all_goals (invert h; subst h; simp_all)
  all_goals (invert h; subst h; first | exact .ret (.cons (.flat rfl) .nil) | exact .ret (.cons (.flat rfl) (.cons (.flat (by unfold stdErr; split <;> rfl)) .nil)))

theorem globalVal_MR {ρ} (x : Ident) : MR f VR ρ (globalVal x) (globalVal x) := by
  fun_cases globalVal x
  all_goals first | exact .ret (.flat rfl) | exact .fault

/-- Callers do the same. -/
def CallMR (f : Nat → Nat) (call call' : Caller) : Prop := ∀ (g : Fn) (ρ : List Nat) (vs us : List Val), VL ρ vs us → MR f VL ρ (call g vs) (call' g us)

variable {call call' : Caller}

theorem notify_MR (C : CallMR f call call') {ρ Pr w w' m a b} (h : VR ρ w w') (k : VR ρ a b) : MR f Eq2 ρ (notify Pr call w m a) (notify Pr call' w' m b) := by
  refine (structOf_MR h).bind fun ρ' x y p r => ?_
  rw [r.1]
  cases Pr.find y.1 m with
  | none => exact .ret rfl
  | some g => exact (C g ρ' _ _ (.cons (h.mono p) (.cons (k.mono p) .nil))).bind fun _ _ _ _ _ => .ret rfl

mutual
theorem walkTree_MR (C : CallMR f call call') {Pr : Program} : ∀ (t : Tree) {ρ w w'}, VR ρ w w' → MR f Eq2 ρ (walkTree Pr call w t) (walkTree Pr call' w' t)
  | .tok _, _, _, _, _ => by simp only [walkTree]; exact .ret rfl
  | .eof, _, _, _, _ => by simp only [walkTree]; exact .ret rfl
  | .node r ts, ρ, w, w', h => by
    simp only [walkTree]
    exact (notify_MR C h (.flat rfl)).bind fun _ _ _ p _ => (walkTrees_MR C ts (h.mono p)).bind fun _ _ _ q _ => notify_MR C (h.mono (p.trans q)) (.flat rfl)
theorem walkTrees_MR (C : CallMR f call call') {Pr : Program} : ∀ (ts : List Tree) {ρ w w'}, VR ρ w w' → MR f Eq2 ρ (walkTrees Pr call w ts) (walkTrees Pr call' w' ts)
  | [], _, _, _, _ => by simp only [walkTrees]; exact .ret rfl
  | t :: ts, ρ, w, w', h => by
    simp only [walkTrees]
    exact (walkTree_MR C t h).bind fun _ _ _ p _ => walkTrees_MR C ts (h.mono p)
end

theorem report_MR (C : CallMR f call call') {Pr : Program} {msg : Bytes} : ∀ {ρ vs us}, VL ρ vs us → MR f Eq2 ρ (report Pr call msg vs) (report Pr call' msg us)
  | _, _, _, .nil => .ret rfl
  | ρ, v :: vs, u :: us, .cons r h => by
    simp only [report]
    have rest := fun {ρ'} (p : ρ <+: ρ') => report_MR C (Pr := Pr) (msg := msg) (VL.mono p h)
    have key : ∀ {v u}, VR ρ v u → ∀ {g : M Unit} {g' : M Unit}, (∀ {ρ'}, ρ <+: ρ' → MR f Eq2 ρ' g g') → MR f Eq2 ρ (do
        let s ← structOf v
        match Pr.find s.1 .SyntaxError with
        | some f => do
          let _ ← call f [v, .nil, .nil, .int 0, .int 0, .str msg, .nil]
          g
        | none => do
          stuck (α := PUnit)
          g) (do
        let s ← structOf u
        match Pr.find s.1 .SyntaxError with
        | some f => do
          let _ ← call' f [u, .nil, .nil, .int 0, .int 0, .str msg, .nil]
          g'
        | none => do
          stuck (α := PUnit)
          g') := by
      intro v u r g g' hg
      refine (structOf_MR r).bind fun ρ' x y p e => ?_
      rw [e.1]
      cases Pr.find y.1 .SyntaxError with
      | none => exact .fault
      | some g => exact (C g ρ' _ _ (.cons (r.mono p) (.cons (.flat rfl) (.cons (.flat rfl) (.cons (.flat rfl) (.cons (.flat rfl) (.cons (.flat rfl) (.cons (.flat rfl) .nil)))))))).bind fun _ _ _ q _ => hg (p.trans q)
    cases r with
    | ptr e => exact key (.ptr e) rest
    | slice e => exact key (.slice e) rest
    | flat e =>
      have k := key (.flat e) rest
      cases v with
      | console => exact rest (List.prefix_refl _)
      | _ => exact k

theorem reportAll_MR (C : CallMR f call call') {Pr : Program} : ∀ (ms : List Bytes) {ρ vs us}, VL ρ vs us → MR f Eq2 ρ (reportAll Pr call vs ms) (reportAll Pr call' us ms)
  | [], _, _, _, _ => .ret rfl
  | m :: ms, _, _, _, h => (report_MR C h).bind fun _ _ _ p _ => reportAll_MR C ms (VL.mono p h)

theorem parseFrom_MR (T : Twin f S S') (C : CallMR f call call') {ρ Pr r p q} (h : VR ρ p q) : MR f VL ρ (parseFrom Pr S call r p) (parseFrom Pr S' call' r q) := by
  refine (getField_MR h).bind fun ρ' x y pr k => ?_
  rw [T.parse, T.message, T.messages, T.recovered]
  cases k with
  | ptr => exact .fault
  | slice => exact .fault
  | flat e =>
    cases x with
    | stream s =>
      dsimp only
      cases S'.parse r s with
      | some ts => exact .ret (.cons (.flat rfl) .nil)
      | none =>
        refine (getField_MR (h.mono pr)).bind fun ρ₂ a b p₂ l => ?_
        refine (elems_MR l).bind fun ρ₃ vs us p₃ l => ?_
        exact (reportAll_MR C _ l).bind fun _ _ _ _ _ => .ret (.cons (.flat rfl) .nil)
    | _ => exact .fault

theorem foreign_MR (T : Twin f S S') (C : CallMR f call call') {ρ Pr v u ty m vs us} (h : VR ρ v u) (k : VL ρ vs us) :
    MR f VL ρ (foreign Pr S call v ty m vs) (foreign Pr S' call' u ty m us) := by
  fun_cases foreign Pr S call v ty m vs
  case case1 s =>
    invert k
    subst k
    refine (getField_MR h).bind fun ρ' x y p r => ?_
    cases r with
    | ptr => exact .fault
    | slice => exact .fault
    | flat e =>
      cases x with
      | reader =>
        rw [T.env]
        dsimp only
        cases S'.env.decode s with
        | some x => exact .ret (.cons (.flat rfl) (.cons (.flat rfl) .nil))
        | none => exact .ret (.cons (.flat rfl) (.cons (.flat rfl) .nil))
      | _ => exact .fault
  case case2 =>
    invert k
    subst k
    exact (putField_MR h (.flat rfl)).bind fun _ _ _ _ _ => .ret .nil
  case case3 w =>
    cases k with
    | cons r k =>
      invert k
      subst k
      refine (getField_MR h).bind fun ρ₁ x y p₁ l => ?_
      refine (appendVals_MR T l (.cons (r.mono p₁) .nil)).bind fun ρ₂ a b p₂ l => ?_
      exact (putField_MR (h.mono (p₁.trans p₂)) l).bind fun _ _ _ _ _ => .ret .nil
  case case4 =>
    invert k
    subst k
    exact parseFrom_MR T C h
  case case5 =>
    invert k
    subst k
    exact parseFrom_MR T C h
  case case6 =>
    fun_cases foreign Pr S' call' u ty m us
    case case3 w =>
      cases k with
      | cons r k =>
        invert k
        subst k
        simp_all
    case case6 => exact .fault
    all_goals (invert k; subst k; simp_all)

theorem callMethod_MR (T : Twin f S S') (C : CallMR f call call') {ρ Pr v u m vs us} (h : VR ρ v u) (k : VL ρ vs us) :
    MR f VL ρ (callMethod Pr S call v m vs) (callMethod Pr S' call' u m us) := by
  fun_cases callMethod Pr S call v m vs
  case case1 a =>
    invert h
    obtain ⟨b, rfl, e⟩ := h
    show MR f VL ρ _ (do
      let s ← structOf (.ptr b)
      match Pr.find s.1 m with
      | some f => call' f (.ptr b :: us)
      | none => foreign Pr S' call' (.ptr b) s.1 m us)
    refine (structOf_MR (.ptr e)).bind fun ρ' x y p r => ?_
    rw [r.1]
    cases Pr.find y.1 m with
    | some g => exact C g ρ' _ _ (.cons (.ptr (prefix_get p e)) (VL.mono p k))
    | none => exact foreign_MR T C (.ptr (prefix_get p e)) (VL.mono p k)
  case case8 =>
    invert h
    subst h
    cases k with
    | cons r k =>
      invert k
      subst k
      exact (walkTrees_MR C _ r).bind fun _ _ _ _ _ => .ret .nil
  case case9 =>
    fun_cases callMethod Pr S' call' u m us
    case case1 =>
      invert h
      obtain ⟨b, rfl, e⟩ := h
      simp_all
    case case8 =>
      invert h
      subst h
      cases k with
      | cons r k =>
        invert k
        subst k
        simp_all
    case case9 => exact .fault
    all_goals (invert h; subst h; invert k; subst k; simp_all)
  all_goals (invert h; subst h; invert k; subst k)
  case case3 e =>
    simp only [callMethod, if_pos e]
    exact .ret (.cons (.flat rfl) .nil)
  case case4 e =>
    simp only [callMethod, if_neg e]
    exact .fault
  case case6 =>
    rw [T.env]
    exact .ret (.cons (.flat rfl) .nil)
  all_goals exact .ret (.cons (.flat rfl) .nil)

/-! ## Expressions -/

theorem MR.single {ρ m m'} (h : MR f VR ρ m m') : MR f VL ρ (do Pure.pure [← m]) (do Pure.pure [← m']) := h.bind fun _ _ _ _ r => .ret (.cons r .nil)

mutual
theorem eval_MR (T : Twin f S S') (C : CallMR f call call') (Pr : Program) : ∀ (e : Expr) {ρ l m}, LR ρ l m →
    MR f VL ρ (eval Pr S call l e) (eval Pr S' call' m e)
  | .nil, _, _, _, h => by simp only [eval]; exact .ret (.cons (.flat rfl) .nil)
  | .str s, _, _, _, h => by simp only [eval]; exact .ret (.cons (.flat rfl) .nil)
  | .int s, _, _, _, h => by simp only [eval]; exact .ret (.cons (.flat rfl) .nil)
  | .bool s, _, _, _, h => by simp only [eval]; exact .ret (.cons (.flat rfl) .nil)
  | .zeroTime, _, _, _, h => by simp only [eval]; exact .ret (.cons (.flat rfl) .nil)
  | .var x, _, _, _, h => by simp only [eval]; exact (MR.orStuck (assoc_LR h)).single
  | .global x, _, _, _, h => by simp only [eval]; exact (globalVal_MR x).single
  | .field e x, _, _, _, h => by
    simp only [eval]
    exact (eval_MR T C Pr e h).bind fun _ _ _ p r => (one_MR r).bind fun _ _ _ q r => (getField_MR r).single
  | .call g args, _, _, _, h => by
    simp only [eval]
    exact (evalAll_MR T C Pr args h).bind fun _ _ _ p r => builtin_MR T r
  | .method e x args, _, _, _, h => by
    simp only [eval]
    exact (eval_MR T C Pr e h).bind fun _ _ _ p r => (one_MR r).bind fun _ _ _ q r =>
      (evalAll_MR T C Pr args (LR.mono (p.trans q) h)).bind fun _ _ _ q' r' => callMethod_MR T C (r.mono q') r'
  | .new ty fs es, _, _, _, h => by
    simp only [eval]
    exact (evalAll_MR T C Pr es h).bind fun _ _ _ p r => (alloc_MR (.struct (fill_LR _ (zip_LR fs r)))).bind fun _ _ _ q e => .ret (.cons (.ptr e) .nil)
  | .emptySlice t, _, _, _, h => by
    simp only [eval]
    exact (alloc_MR (.array .nil)).bind fun _ _ _ q e => .ret (.cons (.slice e) .nil)
  | .assert e t, _, _, _, h => by
    simp only [eval]
    exact (eval_MR T C Pr e h).bind fun _ _ _ p r => (one_MR r).bind fun _ _ _ q r => (assertTy_MR r).single
  | .hasMethod e x t, _, _, _, h => by
    simp only [eval]
    exact (eval_MR T C Pr e h).bind fun _ _ _ p r => (one_MR r).bind fun _ _ _ q r => assertMethod_MR r
  | .index e i, _, _, _, h => by
    simp only [eval]
    exact (eval_MR T C Pr e h).bind fun _ _ _ p r => (one_MR r).bind fun _ _ _ q r =>
      (eval_MR T C Pr i (LR.mono (p.trans q) h)).bind fun _ _ _ p' r' => (one_MR r').bind fun _ _ _ q' r' =>
      (elems_MR (r.mono (p'.trans q'))).bind fun _ _ _ q₂ r₂ => (indexVal_MR r₂ (r'.mono q₂)).single
  | .sliceTo e i, _, _, _, h => by
    simp only [eval]
    exact (eval_MR T C Pr e h).bind fun _ _ _ p r => (one_MR r).bind fun _ _ _ q r =>
      (eval_MR T C Pr i (LR.mono (p.trans q) h)).bind fun _ _ _ p' r' => (one_MR r').bind fun _ _ _ q' r' =>
      (sliceToVal_MR (r.mono (p'.trans q')) r').single
  | .slice e i j, _, _, _, h => by
    simp only [eval]
    exact (eval_MR T C Pr e h).bind fun _ _ _ p r => (one_MR r).bind fun _ _ _ q r =>
      (eval_MR T C Pr i (LR.mono (p.trans q) h)).bind fun _ _ _ p' r' => (one_MR r').bind fun _ _ _ q' r' =>
      (eval_MR T C Pr j (LR.mono ((p.trans q).trans (p'.trans q')) h)).bind fun _ _ _ p₂ r₂ => (one_MR r₂).bind fun _ _ _ q₂ r₂ =>
      (sliceVal_MR (r.mono ((p'.trans q').trans (p₂.trans q₂))) (r'.mono (p₂.trans q₂)) r₂).single
  | .not e, _, _, _, h => by
    simp only [eval]
    exact (eval_MR T C Pr e h).bind fun _ _ _ p r => (one_MR r).bind fun _ _ _ q r => (notVal_MR r).single
  | .neg e, _, _, _, h => by
    simp only [eval]
    exact (eval_MR T C Pr e h).bind fun _ _ _ p r => (one_MR r).bind fun _ _ _ q r => (negVal_MR r).single
  | .append e x, _, _, _, h => by
    simp only [eval]
    exact (eval_MR T C Pr e h).bind fun _ _ _ p r => (one_MR r).bind fun _ _ _ q r =>
      (eval_MR T C Pr x (LR.mono (p.trans q) h)).bind fun _ _ _ p' r' => (one_MR r').bind fun _ _ _ q' r' =>
      (appendVals_MR T (r.mono (p'.trans q')) (.cons r' .nil)).single
  | .appendAll e x, _, _, _, h => by
    simp only [eval]
    exact (eval_MR T C Pr e h).bind fun _ _ _ p r => (one_MR r).bind fun _ _ _ q r =>
      (eval_MR T C Pr x (LR.mono (p.trans q) h)).bind fun _ _ _ p' r' => (one_MR r').bind fun _ _ _ q' r' =>
      (elems_MR r').bind fun _ _ _ q₂ r₂ => (appendVals_MR T (r.mono ((p'.trans q').trans q₂)) r₂).single
  | .bin op a b, ρ, l, m, h => by
    have key : MR f VL ρ (do
          let x ← Go.one (← eval Pr S call l a)
          let y ← Go.one (← eval Pr S call l b)
          pure [← arith op x y]) (do
          let x ← Go.one (← eval Pr S' call' m a)
          let y ← Go.one (← eval Pr S' call' m b)
          pure [← arith op x y]) :=
      (eval_MR T C Pr a h).bind fun _ _ _ p r => (one_MR r).bind fun _ _ _ q r =>
      (eval_MR T C Pr b (LR.mono (p.trans q) h)).bind fun _ _ _ p' r' => (one_MR r').bind fun _ _ _ q' r' =>
      (arith_MR (r.mono (p'.trans q')) r').single
    cases op with
    | and =>
      simp only [eval]
      refine (eval_MR T C Pr a h).bind fun _ _ _ p r => (one_MR r).bind fun _ v u q r => ?_
      cases r with
      | ptr => exact .fault
      | slice => exact .fault
      | flat e =>
        cases v with
        | bool t => cases t with
          | true => exact (eval_MR T C Pr b (LR.mono (p.trans q) h)).bind fun _ _ _ p' r' => (one_MR r').single
          | false => exact .ret (.cons (.flat rfl) .nil)
        | _ => exact .fault
    | _ => simp only [eval]; exact key
theorem evalAll_MR (T : Twin f S S') (C : CallMR f call call') (Pr : Program) : ∀ (es : List Expr) {ρ l m}, LR ρ l m →
    MR f VL ρ (evalAll Pr S call l es) (evalAll Pr S' call' m es)
  | [], _, _, _, h => by simp only [evalAll]; exact .ret .nil
  | e :: es, _, _, _, h => by
    simp only [evalAll]
    exact (eval_MR T C Pr e h).bind fun _ _ _ p r => (one_MR r).bind fun _ _ _ q r =>
      (evalAll_MR T C Pr es (LR.mono (p.trans q) h)).bind fun _ _ _ p' r' => .ret (.cons (r.mono p') r')
end

/-! ## Statements -/

/-- How statements end. -/
inductive CR (ρ : List Nat) : Ctrl → Ctrl → Prop where
  | next {l m} : LR ρ l m → CR ρ (.next l) (.next m)
  | ret {vs us} : VL ρ vs us → CR ρ (.ret vs) (.ret us)

theorem leave_CR {ρ n c d} (h : CR ρ c d) : CR ρ (leave n c) (leave n d) := by
  cases h with
  | next h => simp only [leave, h.length]; exact .next (h.drop _)
  | ret h => exact .ret h

theorem MR.leave {ρ n n' m m'} (e : n = n') (h : MR f CR ρ m m') : MR f CR ρ (do Pure.pure (Go.leave n (← m))) (do Pure.pure (Go.leave n' (← m'))) := by
  subst e
  exact h.bind fun _ _ _ _ r => .ret (leave_CR r)

theorem position_MR {ρ} : ∀ {v u vs us}, VR ρ v u → VL ρ vs us → MR f Eq2 ρ (position v vs) (position u us)
  | _, _, _, _, _, .nil => .ret rfl
  | _, _, _, _, h, .cons r k => by
    simp only [position]
    refine (equal_MR h r).bind fun ρ' a b p e => ?_
    cases e
    split
    · exact .ret rfl
    · exact (position_MR (h.mono p) (VL.mono p k)).bind fun _ _ _ _ e => .ret (by rw [e])

theorem forLoop_MR {body body' : Locals → M Ctrl} {x : Ident} (B : ∀ {ρ l m}, LR ρ l m → MR f CR ρ (body l) (body' m)) :
    ∀ {ρ vs us l m}, VL ρ vs us → LR ρ l m → MR f CR ρ (forLoop body x vs l) (forLoop body' x us m)
  | _, _, _, _, _, .nil, h => .ret (.next h)
  | _, v :: _, u :: _, l, m, .cons r k, h => by
    simp only [forLoop]
    refine (B (.cons (a := (x, v)) (b := (x, u)) ⟨rfl, r⟩ h)).bind fun ρ' a b p e => ?_
    have e' := leave_CR e (n := m.length)
    rw [h.length]
    generalize leave _ a = c, leave _ b = d at e' ⊢
    cases e' with
    | next h' => exact forLoop_MR B (VL.mono p k) h'
    | ret h' => exact .ret (.ret h')

theorem rangeOver_MR {ρ v u} (h : VR ρ v u) : MR f VL ρ (rangeOver v) (rangeOver u) := by
  have key := elems_MR h (f := f)
  cases h with
  | ptr => exact key
  | slice => exact key
  | flat e =>
    cases v with
    | terms cs =>
      refine .ret ?_
      generalize cs = cs
      induction cs with
      | nil => exact .nil
      | cons c cs ih => exact .cons (.flat rfl) ih
    | _ => exact key

mutual
theorem exec_MR (T : Twin f S S') (C : CallMR f call call') (Pr : Program) : ∀ (s : Stmt) {ρ l m}, LR ρ l m →
    MR f CR ρ (exec Pr S call s l) (exec Pr S' call' s m)
  | .varDecl x t, _, _, _, h => by simp only [exec]; exact .ret (.next (.cons (a := (x, zero t)) (b := (x, zero t)) ⟨rfl, .flat (zero_flat t)⟩ h))
  | .define x e, _, _, _, h => by
    simp only [exec]
    exact (eval_MR T C Pr e h).bind fun _ _ _ p r => (one_MR r).bind fun _ v u q r =>
      .ret (.next (.cons (a := (x, v)) (b := (x, u)) ⟨rfl, r⟩ (LR.mono (p.trans q) h)))
  | .define2 x y e, _, _, _, h => by
    simp only [exec]
    refine (eval_MR T C Pr e h).bind fun ρ' vs us p r => ?_
    cases r with
    | nil => exact .fault
    | @cons v u _ _ r k => cases k with
      | nil => exact .fault
      | @cons v' u' _ _ r' k => cases k with
        | nil => exact .ret (.next (.cons (a := (y, v')) (b := (y, u')) ⟨rfl, r'⟩ (.cons (a := (x, v)) (b := (x, u)) ⟨rfl, r⟩ (LR.mono p h))))
        | cons => exact .fault
  | .assign x e, _, _, _, h => by
    simp only [exec]
    exact (eval_MR T C Pr e h).bind fun _ _ _ p r => (one_MR r).bind fun _ v u q r =>
      (MR.orStuck (update_LR r (LR.mono (p.trans q) h))).bind fun _ _ _ _ k => .ret (.next k)
  | .setField a x e, _, _, _, h => by
    simp only [exec]
    exact (eval_MR T C Pr a h).bind fun _ _ _ p r => (one_MR r).bind fun _ _ _ q r =>
      (eval_MR T C Pr e (LR.mono (p.trans q) h)).bind fun _ _ _ p' r' => (one_MR r').bind fun _ _ _ q' r' =>
      (putField_MR (r.mono (p'.trans q')) r').bind fun _ _ _ q₂ _ => .ret (.next (LR.mono ((p.trans q).trans ((p'.trans q').trans q₂)) h))
  | .expr e, _, _, _, h => by
    simp only [exec]
    exact (eval_MR T C Pr e h).bind fun _ _ _ p r => .ret (.next (LR.mono p h))
  | .ret es, _, _, _, h => by
    simp only [exec]
    exact (evalAll_MR T C Pr es h).bind fun _ _ _ p r => .ret (.ret r)
  | .ite c t e, _, _, _, h => by
    simp only [exec]
    refine (eval_MR T C Pr c h).bind fun _ _ _ p r => (one_MR r).bind fun _ v u q r => ?_
    cases r with
    | ptr => exact .fault
    | slice => exact .fault
    | flat _ =>
      cases v with
      | bool b => cases b with
        | true => exact (execs_MR T C Pr t (LR.mono (p.trans q) h)).leave h.length
        | false => exact (execs_MR T C Pr e (LR.mono (p.trans q) h)).leave h.length
      | _ => exact .fault
  | .ifInit i c t e, _, _, _, h => by
    simp only [exec]
    refine (exec_MR T C Pr i h).bind fun _ _ _ p₁ r => ?_
    cases r with
    | ret r => exact .ret (.ret r)
    | next k =>
      refine (eval_MR T C Pr c k).bind fun _ _ _ p r => (one_MR r).bind fun _ v u q r => ?_
      cases r with
      | ptr => exact .fault
      | slice => exact .fault
      | flat _ =>
        cases v with
        | bool b => cases b with
          | true => exact (execs_MR T C Pr t (LR.mono (p.trans q) k)).leave h.length
          | false => exact (execs_MR T C Pr e (LR.mono (p.trans q) k)).leave h.length
        | _ => exact .fault
  | .block ss, _, _, _, h => by
    simp only [exec]
    exact (execs_MR T C Pr ss h).leave h.length
  | .switch e labels bodies dflt, _, _, _, h => by
    simp only [exec]
    refine (eval_MR T C Pr e h).bind fun _ _ _ p r => (one_MR r).bind fun _ v u q r =>
      (evalAll_MR T C Pr labels (LR.mono (p.trans q) h)).bind fun _ _ _ p' r' => (position_MR (r.mono p') r').bind fun _ i _ q' ei => ?_
    have k := LR.mono ((p.trans q).trans (p'.trans q')) h
    cases ei
    cases i with
    | some i => exact execNth_MR T C Pr i bodies k
    | none => exact (execs_MR T C Pr dflt k).leave h.length
  | .forRange x e body, _, _, _, h => by
    simp only [exec]
    exact (eval_MR T C Pr e h).bind fun _ _ _ p r => (one_MR r).bind fun _ v u q r =>
      (rangeOver_MR r).bind fun _ _ _ p' r' => forLoop_MR (fun k => execs_MR T C Pr body k) r' (LR.mono ((p.trans q).trans p') h)
theorem execs_MR (T : Twin f S S') (C : CallMR f call call') (Pr : Program) : ∀ (s : List Stmt) {ρ l m}, LR ρ l m →
    MR f CR ρ (execs Pr S call s l) (execs Pr S' call' s m)
  | [], _, _, _, h => by simp only [execs]; exact .ret (.next h)
  | s :: ss, _, _, _, h => by
    simp only [execs]
    refine (exec_MR T C Pr s h).bind fun _ _ _ p₁ r => ?_
    cases r with
    | ret r => exact .ret (.ret r)
    | next k => exact execs_MR T C Pr ss k
theorem execNth_MR (T : Twin f S S') (C : CallMR f call call') (Pr : Program) : ∀ (n : Nat) (s : List Stmt) {ρ l m}, LR ρ l m →
    MR f CR ρ (execNth Pr S call n s l) (execNth Pr S' call' n s m)
  | _, [], _, _, _, h => by simp only [execNth]; exact .fault
  | 0, s :: ss, _, _, _, h => by simp only [execNth]; exact exec_MR T C Pr s h
  | n + 1, s :: ss, _, _, _, h => by simp only [execNth]; exact execNth_MR T C Pr n ss h
end

theorem bindParams_LR {ρ} : ∀ (ps : List (Ident × Ty)) {vs us}, VL ρ vs us →
    (∃ a b, bindParams ps vs = some a ∧ bindParams ps us = some b ∧ LR ρ a b) ∨ bindParams ps vs = none ∧ bindParams ps us = none
  | [], _, _, .nil => .inl ⟨_, _, rfl, rfl, .nil⟩
  | [], _, _, .cons .. => .inr ⟨rfl, rfl⟩
  | _ :: _, _, _, .nil => .inr ⟨rfl, rfl⟩
  | (x, t) :: ps, v :: _, u :: _, .cons r h => by
    simp only [bindParams]
    rcases bindParams_LR ps h with ⟨a, b, e₁, e₂, k⟩ | ⟨e₁, e₂⟩
    · rw [e₁, e₂]; exact .inl ⟨(x, convert t v) :: a, (x, convert t u) :: b, rfl, rfl, .cons ⟨rfl, convert_VR r⟩ k⟩
    · rw [e₁, e₂]; exact .inr ⟨rfl, rfl⟩

theorem results_VL {ρ} : ∀ (ts : List Ty) {vs us}, VL ρ vs us →
    (∃ a b, results ts vs = some a ∧ results ts us = some b ∧ VL ρ a b) ∨ results ts vs = none ∧ results ts us = none
  | [], _, _, .nil => .inl ⟨_, _, rfl, rfl, .nil⟩
  | [], _, _, .cons .. => .inr ⟨rfl, rfl⟩
  | _ :: _, _, _, .nil => .inr ⟨rfl, rfl⟩
  | t :: ts, v :: _, u :: _, .cons r h => by
    simp only [results]
    rcases results_VL ts h with ⟨a, b, e₁, e₂, k⟩ | ⟨e₁, e₂⟩
    · rw [e₁, e₂]; exact .inl ⟨convert t v :: a, convert t u :: b, rfl, rfl, .cons (convert_VR r) k⟩
    · rw [e₁, e₂]; exact .inr ⟨rfl, rfl⟩

/-- Functions do the same. -/
theorem callFn_MR (T : Twin f S S') (Pr : Program) : ∀ n, CallMR f (callFn Pr S n) (callFn Pr S' n)
  | 0 => fun _ _ _ _ _ => .fault
  | n + 1 => fun g ρ vs us h => by
    simp only [callFn]
    refine (MR.orStuck (bindParams_LR g.params h)).bind fun _ _ _ _ k => (execs_MR T (callFn_MR T Pr n) Pr g.body k).bind fun _ _ _ _ r => ?_
    cases r with
    | next => exact .orStuck (results_VL _ .nil)
    | ret r => exact .orStuck (results_VL _ r)

end Rfc5322.Go
