import Verif.Proofs.GoExit

/-!
# The `EnterX` methods (the cases are listed by a script)
-/

set_option linter.constructorNameAsVariable false
set_option linter.unusedSimpArgs false

namespace Rfc5322.Go

theorem structs_eq : Code.program.structs = Code.structs := rfl

theorem getText_ok (Pr : Program) (S : Setting) (call : Caller) (r : Rule) (ts : List Tree) (h : Heap) :
    callMethod Pr S call (.ctx r ts) .GetText [] h = .ok ([.str (textList ts)], h) := rfl

theorem termText_ok (Pr : Program) (S : Setting) (call : Caller) (c : Char) (h : Heap) :
    callMethod Pr S call (.term c) .GetText [] h = .ok ([.str (encodeRune c)], h) := rfl

/-- The slice of a new struct. -/
def freshSlice : Node → Val
  | .address _ | .addressList _ | .group _ | .groupList _ | .mailboxList _ | .obsMboxList _ => .slice (.ptr .«mail.Address») none 0 0
  | .obsDomain _ | .obsLocalPart _ => .slice .string none 0 0
  | _ => .nil

/-- It is empty. -/
def isFresh : Node → Prop
  | .address l | .addressList l | .group l | .groupList l | .mailboxList l | .obsMboxList l => l = []
  | .obsDomain l | .obsLocalPart l => l = []
  | _ => True

theorem fresh_contents (h : Heap) {nd : Node} (k : isFresh nd) : Contents h (freshSlice nd) [] nd := by
  cases nd <;> first
    | exact ⟨rfl, rfl⟩
    | (cases (show _ = [] from k); exact ⟨IsSlice.nil _ _, NilIff.nil _, .nil⟩)
    | (cases (show _ = [] from k); exact ⟨IsSlice.nil _ _, rfl⟩)

theorem fresh_arr (nd : Node) : arrOf (freshSlice nd) = none := by cases nd <;> rfl

variable {base : Nat} {h : Heap} {wp : Nat} {ns rv ev : Val} {cells : List Cell} {w : Walker}

/-- `w.enter(&x{...})`: the struct is new. -/
theorem newPush (S : Setting) (n : Nat) (R : Rep base h wp ns rv ev cells w) (nd : Node) (k : isFresh nd) :
    ∃ h' ns' cells', callFn Code.program S (n + 1) Code.walker_enter [.ptr wp, .ptr h.length]
        (h ++ [.struct (ruleTy nd.kind) (nodeFields (freshSlice nd) nd)]) = .ok ([], h') ∧
      Rep base h' wp ns' rv ev cells' (w.enter nd) ∧ Keep base h h' := by
  have R1 := R.alloc (.struct (ruleTy nd.kind) (nodeFields (freshSlice nd) nd))
  obtain ⟨h', ns', run, R2, k2⟩ := push_ok S n R1 (b := h.length) (s := freshSlice nd) (nd := nd)
    ⟨getElem?_new _ _, fresh_contents _ k⟩ R.baseLe (fun c mc e => by
      obtain ⟨m, hm⟩ := R.isPtr mc
      have := getElem?_lt hm.1
      omega) (fresh_arr nd)
  exact ⟨h', ns', _, run, R2, ((Frame.alloc [] h _).keep R.baseLe (by simp)).trans k2⟩

/-! ## Numbers -/

theorem digitText_eq (ts : List Tree) : digitText ts = (digitTokens ts).flatMap encodeRune := by
  induction ts with
  | nil => rfl
  | cons t ts ih =>
    cases t with
    | tok c =>
      simp only [digitText, digitTokens]
      split <;> simp [ih]
    | eof => simpa [digitText, digitTokens] using ih
    | node r ts => simpa [digitText, digitTokens] using ih

/-- `for _, digit := range ... { text += digit.GetText() }` -/
theorem digits_loop (S : Setting) (call : Caller) (cs : List Char) (acc : Bytes) (ρ : Locals) (h : Heap) :
    forLoop (fun ρ => execs Code.program S call [.assign .text (.bin .add (.var .text) (.method (.var .digit) .GetText []))] ρ) .digit
      (cs.map .term) ((.text, .str acc) :: ρ) h = .ok (.next ((.text, .str (acc ++ cs.flatMap encodeRune)) :: ρ), h) := by
  induction cs generalizing acc with
  | nil => simp [forLoop, M.pure_apply]
  | cons c cs ih =>
    rw [List.map_cons, forLoop]
    have e : execs Code.program S call [.assign .text (.bin .add (.var .text) (.method (.var .digit) .GetText []))]
        ((.digit, .term c) :: (.text, .str acc) :: ρ) h = .ok (.next ((.digit, .term c) :: (.text, .str (acc ++ encodeRune c)) :: ρ), h) := by
      go_run [termText_ok]
    rw [M.bind_ok _ e]
    have l : leave ((.text, Val.str acc) :: ρ : Locals).length (.next ((.digit, .term c) :: (.text, .str (acc ++ encodeRune c)) :: ρ)) =
        .next ((.text, .str (acc ++ encodeRune c)) :: ρ) := by
      simp [leave]
    rw [l]
    show forLoop _ _ _ _ h = _
    rw [ih]
    simp

theorem allDigit_ok (S : Setting) (call : Caller) {r : Rule} (k : Code.program.hasAllDigit r = true) (ts : List Tree) (h : Heap) :
    callMethod Code.program S call (.ctx r ts) .AllDigit [] h = .ok ([.terms (digitTokens ts)], h) := by
  show (if Code.program.hasAllDigit r then pure [.terms (digitTokens ts)] else stuck : M (List Val)) h = _
  rw [k]; rfl

theorem digits_ok (S : Setting) (call : Caller) {r : Rule} (k : Code.program.hasAllDigit r = true) (ts : List Tree) (w : Val) (h : Heap) :
    exec Code.program S call (.forRange .digit (.method (.var .ctx) .AllDigit [])
        [.assign .text (.bin .add (.var .text) (.method (.var .digit) .GetText []))])
      [(.text, .str []), (.w, w), (.ctx, .ctx r ts)] h = .ok (.next [(.text, .str (digitText ts)), (.w, w), (.ctx, .ctx r ts)], h) := by
  have e := digits_loop S call (digitTokens ts) [] [(.w, w), (.ctx, .ctx r ts)] h
  rw [List.nil_append, ← digitText_eq] at e
  rw [← e, exec]
  have q : eval Code.program S call [(.text, .str []), (.w, w), (.ctx, .ctx r ts)] (.method (.var .ctx) .AllDigit []) h =
      .ok ([.terms (digitTokens ts)], h) := by
    go_run [allDigit_ok S call k]
  rw [M.bind_ok _ q]
  rfl

/-- The body of `EnterDay` and three others. -/
def numberBody (ty : Ident) : List Stmt :=
  [.varDecl .text .string,
   .forRange .digit (.method (.var .ctx) .AllDigit [])
     [.assign .text (.bin .add (.var .text) (.method (.var .digit) .GetText []))],
   .define2 .val .err (.call .«strconv.Atoi» [(.var .text)]),
   .ite (.bin .ne (.var .err) .nil)
     [.setField (.var .w) .err (.var .err)]
     [],
   .expr (.method (.var .w) .enter [(.new ty [.value] [(.var .val)])])]

theorem exec_cons (Pr : Program) (S : Setting) (call : Caller) {s : Stmt} {ρ ρ' : Locals} {h h' : Heap} (e : exec Pr S call s ρ h = .ok (.next ρ', h'))
    (ss : List Stmt) : execs Pr S call (s :: ss) ρ h = execs Pr S call ss ρ' h' := by
  rw [execs, M.bind_ok _ e]

theorem call_next (Pr : Program) (S : Setting) (n : Nat) {f : Fn} {args : List Val} {ρ ρ' : Locals} {h h' : Heap}
    (b : bindParams f.params args = some ρ) (r : f.results = []) (e : execs Pr S (callFn Pr S n) f.body ρ h = .ok (.next ρ', h')) :
    callFn Pr S (n + 1) f args h = .ok ([], h') := by
  rw [callFn]
  dsimp only
  rw [b, r, M.bind_ok _ (orStuck_some ρ h), M.bind_ok _ e]
  rfl

theorem atoi_err (s : Bytes) (x : Err) (e : (atoi s).2 = some x) : errorIs (some x) (.err (.std x)) := by
  have : x = .atoi := by
    unfold atoi at e
    dsimp only at e
    split at e <;> dsimp only at e <;> (repeat' split at e) <;> first | exact (Option.some.inj e).symm | exact absurd e (by simp)
  subst this; rfl

theorem duration_err (s : Bytes) (x : Err) (e : (parseDuration s).2 = some x) : errorIs (some x) (.err (.std x)) := by
  have : x = .duration := by
    unfold parseDuration at e
    dsimp only at e
    split at e <;> dsimp only at e <;> (repeat' split at e) <;> first | exact (Option.some.inj e).symm | exact absurd e (by simp)
  subst this; rfl

/-- `if err != nil { w.err = err }` -/
theorem ifErr_ok (S : Setting) (call : Caller) (R : Rep base h wp ns rv ev cells w) {ρ : Locals} (e : Option Err) (ρe : assoc .err ρ = some (stdErr e))
    (ρw : assoc .w ρ = some (.ptr wp)) (ke : ∀ x, e = some x → errorIs (some x) (.err (.std x))) :
    ∃ h' ev', exec Code.program S call (.ite (.bin .ne (.var .err) .nil) [.setField (.var .w) .err (.var .err)] []) ρ h = .ok (.next ρ, h') ∧
      Rep base h' wp ns rv ev' cells (w.setErrIf e) ∧ Keep base h h' := by
  cases e with
  | none =>
    refine ⟨h, ev, ?_, R, Keep.refl _ _⟩
    simp only [stdErr] at ρe
    go_run [ρe]
  | some e =>
    refine ⟨_, _, ?_, R.setErr (.std e) e (ke e rfl), (R.frameW _).keep R.baseLe fun i m => ?_⟩
    · simp only [stdErr] at ρe
      go_run [ρe, ρw, load_apply R.wobj]
    · simp at m
      subst m
      exact R.wbase

theorem number_ok (S : Setting) (n : Nat) (R : Rep base h wp ns rv ev cells w) {r : Rule} (k : Code.program.hasAllDigit r = true) (ts : List Tree)
    {m cx : Ident} (mk : Int → Node) (hf : ∀ v, nodeFields (freshSlice (mk v)) (mk v) = [(.value, .int v)]) (hk : ∀ v, ruleTy (mk v).kind = ruleTy r)
    (fr : ∀ v, isFresh (mk v)) (hs : fieldsOf Code.program (ruleTy r) = [(.value, .int)]) :
    ∃ h' ns' ev' cells', callFn Code.program S (n + 2) ⟨m, [(.w, .ptr .walker), (.ctx, .ptr cx)], [], numberBody (ruleTy r)⟩
        [.ptr wp, .ctx r ts] h = .ok ([], h') ∧
      Rep base h' wp ns' rv ev' cells' (enterNumber mk ts w) ∧ Keep base h h' := by
  obtain ⟨h₁, ev', run1, R1, k1⟩ := ifErr_ok S (callFn Code.program S (n + 1)) R
    (ρ := [(.err, stdErr (atoi (digitText ts)).2), (.val, .int (atoi (digitText ts)).1), (.text, .str (digitText ts)), (.w, .ptr wp), (.ctx, .ctx r ts)])
    (atoi (digitText ts)).2 rfl rfl (atoi_err _)
  obtain ⟨h₂, ns', cells', run2, R2, k2⟩ := newPush S n R1 (mk (atoi (digitText ts)).1) (fr _)
  rw [hf, hk] at run2
  refine ⟨h₂, ns', ev', cells', ?_, R2, k1.trans k2⟩
  show callFn Code.program S (n + 1 + 1) _ _ h = _
  have e1 : exec Code.program S (callFn Code.program S (n + 1)) (.varDecl .text .string) [(.w, .ptr wp), (.ctx, .ctx r ts)] h =
      .ok (.next [(.text, .str []), (.w, .ptr wp), (.ctx, .ctx r ts)], h) := rfl
  have e2 := digits_ok S (callFn Code.program S (n + 1)) k ts (.ptr wp) h
  have e3 : exec Code.program S (callFn Code.program S (n + 1)) (.define2 .val .err (.call .«strconv.Atoi» [(.var .text)]))
      [(.text, .str (digitText ts)), (.w, .ptr wp), (.ctx, .ctx r ts)] h =
      .ok (.next [(.err, stdErr (atoi (digitText ts)).2), (.val, .int (atoi (digitText ts)).1), (.text, .str (digitText ts)), (.w, .ptr wp), (.ctx, .ctx r ts)], h) := by
    go_run []
  have e4 : exec Code.program S (callFn Code.program S (n + 1)) (.expr (.method (.var .w) .enter [(.new (ruleTy r) [.value] [(.var .val)])]))
      [(.err, stdErr (atoi (digitText ts)).2), (.val, .int (atoi (digitText ts)).1), (.text, .str (digitText ts)), (.w, .ptr wp), (.ctx, .ctx r ts)] h₁ =
      .ok (.next [(.err, stdErr (atoi (digitText ts)).2), (.val, .int (atoi (digitText ts)).1), (.text, .str (digitText ts)), (.w, .ptr wp), (.ctx, .ctx r ts)], h₂) := by
    simp only [exec, eval, evalAll, M.bind_apply, M.pure_apply, orStuck_some, assoc, one, alloc_apply, hs]
    simp [M.bind_apply, M.pure_apply, orStuck_some, assoc, one, fill, method_ok (getElem?_alloc R1.wobj) find_enter, run2]
  have : execs Code.program S (callFn Code.program S (n + 1)) (numberBody (ruleTy r)) [(.w, .ptr wp), (.ctx, .ctx r ts)] h = .ok (.next
      [(.err, stdErr (atoi (digitText ts)).2), (.val, .int (atoi (digitText ts)).1), (.text, .str (digitText ts)), (.w, .ptr wp), (.ctx, .ctx r ts)], h₂) := by
    unfold numberBody
    rw [exec_cons _ _ _ e1, exec_cons _ _ _ e2, exec_cons _ _ _ e3, exec_cons _ _ _ run1, exec_cons _ _ _ e4]
    rfl
  exact call_next _ _ _ rfl rfl this

theorem now_ok (Pr : Program) (S : Setting) (call : Caller) (h : Heap) : callMethod Pr S call .now .Year [] h = .ok ([.int S.env.nowYear], h) := rfl

theorem year_ok (S : Setting) (n : Nat) (R : Rep base h wp ns rv ev cells w) (ts : List Tree) :
    ∃ h' ns' ev' cells', callFn Code.program S (n + 2) Code.walker_EnterYear [.ptr wp, .ctx .year ts] h = .ok ([], h') ∧
      Rep base h' wp ns' rv ev' cells' (enterYear S.env ts w) ∧ Keep base h h' := by
  obtain ⟨h₁, ev', run1, R1, k1⟩ := ifErr_ok S (callFn Code.program S (n + 1)) R
    (ρ := [(.err, stdErr (atoi (digitText ts)).2), (.val, .int (atoi (digitText ts)).1), (.text, .str (digitText ts)), (.w, .ptr wp), (.ctx, .ctx .year ts)])
    (atoi (digitText ts)).2 rfl rfl (atoi_err _)
  let v : Int := if (digitText ts).length = 2 then
      if (atoi (digitText ts)).1 > S.env.nowYear.tmod 100 then (atoi (digitText ts)).1 + 1900 else (atoi (digitText ts)).1 + 2000
    else (atoi (digitText ts)).1
  obtain ⟨h₂, ns', cells', run2, R2, k2⟩ := newPush S n R1 (.year v) trivial
  simp only [nodeFields, Node.kind, ruleTy, freshSlice] at run2
  refine ⟨h₂, ns', ev', cells', ?_, R2, k1.trans k2⟩
  show callFn Code.program S (n + 1 + 1) _ _ h = _
  have e1 : exec Code.program S (callFn Code.program S (n + 1)) (.varDecl .text .string) [(.w, .ptr wp), (.ctx, .ctx .year ts)] h =
      .ok (.next [(.text, .str []), (.w, .ptr wp), (.ctx, .ctx .year ts)], h) := rfl
  have e2 := digits_ok S (callFn Code.program S (n + 1)) (r := .year) rfl ts (.ptr wp) h
  have e3 : exec Code.program S (callFn Code.program S (n + 1)) (.define2 .val .err (.call .«strconv.Atoi» [(.var .text)]))
      [(.text, .str (digitText ts)), (.w, .ptr wp), (.ctx, .ctx .year ts)] h =
      .ok (.next [(.err, stdErr (atoi (digitText ts)).2), (.val, .int (atoi (digitText ts)).1), (.text, .str (digitText ts)), (.w, .ptr wp), (.ctx, .ctx .year ts)], h) := by
    go_run []
  have e5 : exec Code.program S (callFn Code.program S (n + 1))
      (.ite (.bin .eq (.call .len [(.var .text)]) (.int 2))
      [.ite (.bin .gt (.var .val) (.bin .mod (.method (.call .«time.Now» []) .Year []) (.int 100)))
        [.assign .val (.bin .add (.var .val) (.int 1900))]
        [.assign .val (.bin .add (.var .val) (.int 2000))]]
      [])
      [(.err, stdErr (atoi (digitText ts)).2), (.val, .int (atoi (digitText ts)).1), (.text, .str (digitText ts)), (.w, .ptr wp), (.ctx, .ctx .year ts)] h₁ =
      .ok (.next [(.err, stdErr (atoi (digitText ts)).2), (.val, .int v), (.text, .str (digitText ts)), (.w, .ptr wp), (.ctx, .ctx .year ts)], h₁) := by
    have cast : ((digitText ts).length : Int) = 2 ↔ (digitText ts).length = 2 := by omega
    by_cases c1 : (digitText ts).length = 2
    · by_cases c2 : (atoi (digitText ts)).1 > S.env.nowYear.tmod 100
      · have : v = (atoi (digitText ts)).1 + 1900 := by simp only [v, c1, c2, if_true]
        rw [this]
        go_run [c1, c2, now_ok, cast, show S.env.nowYear.tmod 100 < (atoi (digitText ts)).1 from c2]
      · have : v = (atoi (digitText ts)).1 + 2000 := by simp only [v, c1, c2, if_true, if_false]
        rw [this]
        have c3 : ¬ (S.env.nowYear.tmod 100 < (atoi (digitText ts)).1) := c2
        go_run [c1, c3, now_ok, cast]
    · have : v = (atoi (digitText ts)).1 := by simp only [v, c1, if_false]
      rw [this]
      have c3 : ¬ ((digitText ts).length : Int) = 2 := by omega
      go_run [c3]
  have e4 : exec Code.program S (callFn Code.program S (n + 1)) (.expr (.method (.var .w) .enter [(.new .year [.value] [(.var .val)])]))
      [(.err, stdErr (atoi (digitText ts)).2), (.val, .int v), (.text, .str (digitText ts)), (.w, .ptr wp), (.ctx, .ctx .year ts)] h₁ =
      .ok (.next [(.err, stdErr (atoi (digitText ts)).2), (.val, .int v), (.text, .str (digitText ts)), (.w, .ptr wp), (.ctx, .ctx .year ts)], h₂) := by
    generalize v = v at run2 ⊢
    go_run [structs_eq, Code.structs, method_ok (getElem?_alloc R1.wobj) find_enter, run2]
  refine call_next _ _ _ (ρ := [(.w, .ptr wp), (.ctx, .ctx .year ts)]) rfl rfl (ρ' := [(.err, stdErr (atoi (digitText ts)).2), (.val, .int v), (.text, .str (digitText ts)), (.w, .ptr wp), (.ctx, .ctx .year ts)]) ?_
  unfold Code.walker_EnterYear
  dsimp only
  rw [exec_cons _ _ _ e1, exec_cons _ _ _ e2, exec_cons _ _ _ e3, exec_cons _ _ _ run1, exec_cons _ _ _ e5, exec_cons _ _ _ e4]
  rfl

/-! ## Months and zones -/

/-- `switch` on strings: the first label that is equal. -/
theorem position_ok (s : Bytes) (ls : List Bytes) (h : Heap) : position (.str s) (ls.map .str) h = .ok (ls.findIdx? (fun l => decide (s = l)), h) := by
  induction ls with
  | nil => rfl
  | cons l ls ih =>
    rw [List.map_cons, position, M.bind_ok _ (show equal (.str s) (.str l) h = .ok (decide (s = l), h) from rfl), List.findIdx?_cons]
    cases hd : decide (s = l)
    · rw [if_neg (by simp), M.bind_ok _ ih]
      rfl
    · rw [if_pos rfl]
      rfl

set_option maxHeartbeats 1000000 in
theorem month_ok (S : Setting) (n : Nat) (R : Rep base h wp ns rv ev cells w) (ts : List Tree) :
    ∃ h' ns' ev' cells', callFn Code.program S (n + 2) Code.walker_EnterMonth [.ptr wp, .ctx .month ts] h = .ok ([], h') ∧
      Rep base h' wp ns' rv ev' cells' (enterMonth ts w) ∧ Keep base h h' := by
  have good : ∀ m, monthOf (textList ts) = some m → (∀ h₂, callFn Code.program S (n + 1) Code.walker_enter [.ptr wp, .ptr h.length]
        (h ++ [.struct .month [(.value, .int m)]]) = .ok ([], h₂) →
        callFn Code.program S (n + 2) Code.walker_EnterMonth [.ptr wp, .ctx .month ts] h = .ok ([], h₂)) →
      ∃ h' ns' ev' cells', callFn Code.program S (n + 2) Code.walker_EnterMonth [.ptr wp, .ctx .month ts] h = .ok ([], h') ∧
      Rep base h' wp ns' rv ev' cells' (enterMonth ts w) ∧ Keep base h h' := by
    intro m e run
    obtain ⟨h₂, ns', cells', run2, R2, k2⟩ := newPush S n R (.month m) trivial
    refine ⟨h₂, ns', ev, cells', run h₂ run2, ?_, k2⟩
    rw [enterMonth, e]
    exact R2
  unfold monthOf at good
  by_cases c0 : toLower (textList ts) = b!"jan"
  · refine good 1 (by rw [c0]; rfl) fun h₂ run2 => ?_
    show callFn Code.program S (n + 1 + 1) _ _ h = _
    rw [callFn]
    go_run [Code.walker_EnterMonth, getText_ok, c0, position, execNth, structs_eq, Code.structs, method_ok (getElem?_alloc R.wobj) find_enter, run2]
  by_cases c1 : toLower (textList ts) = b!"feb"
  · refine good 2 (by rw [c1]; rfl) fun h₂ run2 => ?_
    show callFn Code.program S (n + 1 + 1) _ _ h = _
    rw [callFn]
    go_run [Code.walker_EnterMonth, getText_ok, c1, position, execNth, structs_eq, Code.structs, method_ok (getElem?_alloc R.wobj) find_enter, run2]
  by_cases c2 : toLower (textList ts) = b!"mar"
  · refine good 3 (by rw [c2]; rfl) fun h₂ run2 => ?_
    show callFn Code.program S (n + 1 + 1) _ _ h = _
    rw [callFn]
    go_run [Code.walker_EnterMonth, getText_ok, c2, position, execNth, structs_eq, Code.structs, method_ok (getElem?_alloc R.wobj) find_enter, run2]
  by_cases c3 : toLower (textList ts) = b!"apr"
  · refine good 4 (by rw [c3]; rfl) fun h₂ run2 => ?_
    show callFn Code.program S (n + 1 + 1) _ _ h = _
    rw [callFn]
    go_run [Code.walker_EnterMonth, getText_ok, c3, position, execNth, structs_eq, Code.structs, method_ok (getElem?_alloc R.wobj) find_enter, run2]
  by_cases c4 : toLower (textList ts) = b!"may"
  · refine good 5 (by rw [c4]; rfl) fun h₂ run2 => ?_
    show callFn Code.program S (n + 1 + 1) _ _ h = _
    rw [callFn]
    go_run [Code.walker_EnterMonth, getText_ok, c4, position, execNth, structs_eq, Code.structs, method_ok (getElem?_alloc R.wobj) find_enter, run2]
  by_cases c5 : toLower (textList ts) = b!"jun"
  · refine good 6 (by rw [c5]; rfl) fun h₂ run2 => ?_
    show callFn Code.program S (n + 1 + 1) _ _ h = _
    rw [callFn]
    go_run [Code.walker_EnterMonth, getText_ok, c5, position, execNth, structs_eq, Code.structs, method_ok (getElem?_alloc R.wobj) find_enter, run2]
  by_cases c6 : toLower (textList ts) = b!"jul"
  · refine good 7 (by rw [c6]; rfl) fun h₂ run2 => ?_
    show callFn Code.program S (n + 1 + 1) _ _ h = _
    rw [callFn]
    go_run [Code.walker_EnterMonth, getText_ok, c6, position, execNth, structs_eq, Code.structs, method_ok (getElem?_alloc R.wobj) find_enter, run2]
  by_cases c7 : toLower (textList ts) = b!"aug"
  · refine good 8 (by rw [c7]; rfl) fun h₂ run2 => ?_
    show callFn Code.program S (n + 1 + 1) _ _ h = _
    rw [callFn]
    go_run [Code.walker_EnterMonth, getText_ok, c7, position, execNth, structs_eq, Code.structs, method_ok (getElem?_alloc R.wobj) find_enter, run2]
  by_cases c8 : toLower (textList ts) = b!"sep"
  · refine good 9 (by rw [c8]; rfl) fun h₂ run2 => ?_
    show callFn Code.program S (n + 1 + 1) _ _ h = _
    rw [callFn]
    go_run [Code.walker_EnterMonth, getText_ok, c8, position, execNth, structs_eq, Code.structs, method_ok (getElem?_alloc R.wobj) find_enter, run2]
  by_cases c9 : toLower (textList ts) = b!"oct"
  · refine good 10 (by rw [c9]; rfl) fun h₂ run2 => ?_
    show callFn Code.program S (n + 1 + 1) _ _ h = _
    rw [callFn]
    go_run [Code.walker_EnterMonth, getText_ok, c9, position, execNth, structs_eq, Code.structs, method_ok (getElem?_alloc R.wobj) find_enter, run2]
  by_cases c10 : toLower (textList ts) = b!"nov"
  · refine good 11 (by rw [c10]; rfl) fun h₂ run2 => ?_
    show callFn Code.program S (n + 1 + 1) _ _ h = _
    rw [callFn]
    go_run [Code.walker_EnterMonth, getText_ok, c10, position, execNth, structs_eq, Code.structs, method_ok (getElem?_alloc R.wobj) find_enter, run2]
  by_cases c11 : toLower (textList ts) = b!"dec"
  · refine good 12 (by rw [c11]; rfl) fun h₂ run2 => ?_
    show callFn Code.program S (n + 1 + 1) _ _ h = _
    rw [callFn]
    go_run [Code.walker_EnterMonth, getText_ok, c11, position, execNth, structs_eq, Code.structs, method_ok (getElem?_alloc R.wobj) find_enter, run2]
  have R1 := R.setErr (.new b!"no such month") .noSuchMonth rfl
  obtain ⟨h₂, ns', cells', run2, R2, k2⟩ := newPush S n R1 (.month 0) trivial
  simp only [nodeFields, Node.kind, ruleTy, freshSlice, List.length_set] at run2
  refine ⟨h₂, ns', .err (.new b!"no such month"), cells', ?_, ?_, ((R.frameW [(.nodes, ns), (.res, rv), (.err, .err (.new b!"no such month"))]).keep R.baseLe fun i m => ?_).trans k2⟩
  · show callFn Code.program S (n + 1 + 1) _ _ h = _
    rw [callFn]
    go_run [Code.walker_EnterMonth, getText_ok, c0, c1, c2, c3, c4, c5, c6, c7, c8, c9, c10, c11, position, load_apply R.wobj, structs_eq, Code.structs,
      method_ok (getElem?_alloc R1.wobj) find_enter, run2]
  · have : monthOf (textList ts) = none := by
      unfold monthOf
      simp only [c0, c1, c2, c3, c4, c5, c6, c7, c8, c9, c10, c11, if_false]
    rw [enterMonth, this]
    exact R2
  · simp at m
    subst m
    exact R.wbase

set_option maxHeartbeats 1000000 in
theorem obsZone_ok (S : Setting) (n : Nat) (R : Rep base h wp ns rv ev cells w) (ts : List Tree) :
    ∃ h' ns' ev' cells', callFn Code.program S (n + 2) Code.walker_EnterObsZone [.ptr wp, .ctx .obsZone ts] h = .ok ([], h') ∧
      Rep base h' wp ns' rv ev' cells' (enterObsZone ts w) ∧ Keep base h h' := by
  have good : ∀ m, obsZoneOffset (textList ts) = some m → (∀ h₂, callFn Code.program S (n + 1) Code.walker_enter [.ptr wp, .ptr h.length]
        (h ++ [.struct .obsZone [(.location, .loc (fixedZone (textList ts) m))]]) = .ok ([], h₂) →
        callFn Code.program S (n + 2) Code.walker_EnterObsZone [.ptr wp, .ctx .obsZone ts] h = .ok ([], h₂)) →
      ∃ h' ns' ev' cells', callFn Code.program S (n + 2) Code.walker_EnterObsZone [.ptr wp, .ctx .obsZone ts] h = .ok ([], h') ∧
      Rep base h' wp ns' rv ev' cells' (enterObsZone ts w) ∧ Keep base h h' := by
    intro m e run
    obtain ⟨h₂, ns', cells', run2, R2, k2⟩ := newPush S n R (.obsZone (fixedZone (textList ts) m)) trivial
    refine ⟨h₂, ns', ev, cells', run h₂ run2, ?_, k2⟩
    simp only [enterObsZone, e]
    exact R2
  unfold obsZoneOffset at good
  by_cases c0 : toLower (textList ts) = b!"ut"
  · refine good (0) (by rw [c0]; rfl) fun h₂ run2 => ?_
    show callFn Code.program S (n + 1 + 1) _ _ h = _
    rw [callFn]
    go_run [Code.walker_EnterObsZone, getText_ok, c0, position, execNth, negVal, structs_eq, Code.structs, method_ok (getElem?_alloc R.wobj) find_enter, run2]
  by_cases c1 : toLower (textList ts) = b!"utc"
  · refine good (0) (by rw [c1]; rfl) fun h₂ run2 => ?_
    show callFn Code.program S (n + 1 + 1) _ _ h = _
    rw [callFn]
    go_run [Code.walker_EnterObsZone, getText_ok, c1, position, execNth, negVal, structs_eq, Code.structs, method_ok (getElem?_alloc R.wobj) find_enter, run2]
  by_cases c2 : toLower (textList ts) = b!"gmt"
  · refine good (0) (by rw [c2]; rfl) fun h₂ run2 => ?_
    show callFn Code.program S (n + 1 + 1) _ _ h = _
    rw [callFn]
    go_run [Code.walker_EnterObsZone, getText_ok, c2, position, execNth, negVal, structs_eq, Code.structs, method_ok (getElem?_alloc R.wobj) find_enter, run2]
  by_cases c3 : toLower (textList ts) = b!"est"
  · refine good (-18000) (by rw [c3]; rfl) fun h₂ run2 => ?_
    show callFn Code.program S (n + 1 + 1) _ _ h = _
    rw [callFn]
    go_run [Code.walker_EnterObsZone, getText_ok, c3, position, execNth, negVal, structs_eq, Code.structs, method_ok (getElem?_alloc R.wobj) find_enter, run2]
  by_cases c4 : toLower (textList ts) = b!"edt"
  · refine good (-14400) (by rw [c4]; rfl) fun h₂ run2 => ?_
    show callFn Code.program S (n + 1 + 1) _ _ h = _
    rw [callFn]
    go_run [Code.walker_EnterObsZone, getText_ok, c4, position, execNth, negVal, structs_eq, Code.structs, method_ok (getElem?_alloc R.wobj) find_enter, run2]
  by_cases c5 : toLower (textList ts) = b!"cst"
  · refine good (-21600) (by rw [c5]; rfl) fun h₂ run2 => ?_
    show callFn Code.program S (n + 1 + 1) _ _ h = _
    rw [callFn]
    go_run [Code.walker_EnterObsZone, getText_ok, c5, position, execNth, negVal, structs_eq, Code.structs, method_ok (getElem?_alloc R.wobj) find_enter, run2]
  by_cases c6 : toLower (textList ts) = b!"cdt"
  · refine good (-18000) (by rw [c6]; rfl) fun h₂ run2 => ?_
    show callFn Code.program S (n + 1 + 1) _ _ h = _
    rw [callFn]
    go_run [Code.walker_EnterObsZone, getText_ok, c6, position, execNth, negVal, structs_eq, Code.structs, method_ok (getElem?_alloc R.wobj) find_enter, run2]
  by_cases c7 : toLower (textList ts) = b!"mst"
  · refine good (-25200) (by rw [c7]; rfl) fun h₂ run2 => ?_
    show callFn Code.program S (n + 1 + 1) _ _ h = _
    rw [callFn]
    go_run [Code.walker_EnterObsZone, getText_ok, c7, position, execNth, negVal, structs_eq, Code.structs, method_ok (getElem?_alloc R.wobj) find_enter, run2]
  by_cases c8 : toLower (textList ts) = b!"mdt"
  · refine good (-21600) (by rw [c8]; rfl) fun h₂ run2 => ?_
    show callFn Code.program S (n + 1 + 1) _ _ h = _
    rw [callFn]
    go_run [Code.walker_EnterObsZone, getText_ok, c8, position, execNth, negVal, structs_eq, Code.structs, method_ok (getElem?_alloc R.wobj) find_enter, run2]
  by_cases c9 : toLower (textList ts) = b!"pst"
  · refine good (-28800) (by rw [c9]; rfl) fun h₂ run2 => ?_
    show callFn Code.program S (n + 1 + 1) _ _ h = _
    rw [callFn]
    go_run [Code.walker_EnterObsZone, getText_ok, c9, position, execNth, negVal, structs_eq, Code.structs, method_ok (getElem?_alloc R.wobj) find_enter, run2]
  by_cases c10 : toLower (textList ts) = b!"pdt"
  · refine good (-25200) (by rw [c10]; rfl) fun h₂ run2 => ?_
    show callFn Code.program S (n + 1 + 1) _ _ h = _
    rw [callFn]
    go_run [Code.walker_EnterObsZone, getText_ok, c10, position, execNth, negVal, structs_eq, Code.structs, method_ok (getElem?_alloc R.wobj) find_enter, run2]
  have R1 := R.setErr (.new b!"bad timezone") .badTimezone rfl
  obtain ⟨h₂, ns', cells', run2, R2, k2⟩ := newPush S n R1 (.obsZone utcLoc) trivial
  simp only [nodeFields, Node.kind, ruleTy, freshSlice, List.length_set] at run2
  refine ⟨h₂, ns', .err (.new b!"bad timezone"), cells', ?_, ?_, ((R.frameW [(.nodes, ns), (.res, rv), (.err, .err (.new b!"bad timezone"))]).keep R.baseLe fun i m => ?_).trans k2⟩
  · show callFn Code.program S (n + 1 + 1) _ _ h = _
    rw [callFn]
    go_run [Code.walker_EnterObsZone, getText_ok, c0, c1, c2, c3, c4, c5, c6, c7, c8, c9, c10, position, load_apply R.wobj, structs_eq, Code.structs,
      method_ok (getElem?_alloc R1.wobj) find_enter, run2]
  · have : obsZoneOffset (textList ts) = none := by
      unfold obsZoneOffset
      simp only [c0, c1, c2, c3, c4, c5, c6, c7, c8, c9, c10, if_false]
    simp only [enterObsZone, this]
    exact R2
  · simp at m
    subst m
    exact R.wbase

/-! ## Offsets -/

theorem sprintf_dur (a b c : Bytes) : sprintf b!"%v%vh%vm" [.str a, .str b, .str c] = some (a ++ b ++ b!"h" ++ c ++ b!"m") := by
  simp [sprintf]

theorem seconds_ok (Pr : Program) (S : Setting) (call : Caller) (d : Int) (h : Heap) : callMethod Pr S call (.dur d) .Seconds [] h = .ok ([.secs d], h) := rfl

theorem sliceVal_ok {s x : Bytes} {i j : Nat} (e : sliceBytes s i j = .ok x) (h : Heap) : sliceVal (.str s) (.int i) (.int j) h = .ok (.str x, h) := by
  show (match sliceBytes s i j with | .ok x => pure (.str x) | .error p => panic p : M Val) h = _
  rw [e]; rfl

theorem offset_ok (S : Setting) (n : Nat) (R : Rep base h wp ns rv ev cells w) (ts : List Tree) {w' : Walker} (ok : enterOffset ts w = .ok w') :
    ∃ h' ns' ev' cells', callFn Code.program S (n + 2) Code.walker_EnterOffset [.ptr wp, .ctx .offset ts] h = .ok ([], h') ∧
      Rep base h' wp ns' rv ev' cells' w' ∧ Keep base h h' := by
  unfold enterOffset at ok
  dsimp only at ok
  generalize ht : (if !(b!"+").isPrefixOf (textList ts) && !(b!"-").isPrefixOf (textList ts) then b!"+" ++ textList ts else textList ts) = text at ok
  split at ok
  case h_2 => cases ok
  case h_1 sgn hrs min s1 s2 s3 =>
  cases ok
  obtain ⟨h₁, ev', run1, R1, k1⟩ := ifErr_ok S (callFn Code.program S (n + 1)) R
    (ρ := [(.err, stdErr (parseDuration (sgn ++ hrs ++ b!"h" ++ min ++ b!"m")).2), (.dur, .dur (parseDuration (sgn ++ hrs ++ b!"h" ++ min ++ b!"m")).1),
      (.min, .str min), (.hrs, .str hrs), (.sgn, .str sgn), (.text, .str text), (.w, .ptr wp), (.ctx, .ctx .offset ts)])
    (parseDuration (sgn ++ hrs ++ b!"h" ++ min ++ b!"m")).2 rfl rfl (duration_err _)
  obtain ⟨h₂, ns', cells', run2, R2, k2⟩ := newPush S n R1 (.offset text (durationSeconds (parseDuration (sgn ++ hrs ++ b!"h" ++ min ++ b!"m")).1)) trivial
  simp only [nodeFields, Node.kind, ruleTy, freshSlice] at run2
  refine ⟨h₂, ns', ev', cells', ?_, R2, k1.trans k2⟩
  show callFn Code.program S (n + 1 + 1) _ _ h = _
  have e1 : exec Code.program S (callFn Code.program S (n + 1)) (.define .text (.method (.var .ctx) .GetText [])) [(.w, .ptr wp), (.ctx, .ctx .offset ts)] h =
      .ok (.next [(.text, .str (textList ts)), (.w, .ptr wp), (.ctx, .ctx .offset ts)], h) := by
    go_run [getText_ok]
  have e2 : exec Code.program S (callFn Code.program S (n + 1))
      (.ite (.bin .and (.not (.call .«strings.HasPrefix» [(.var .text), (.str b!"+")])) (.not (.call .«strings.HasPrefix» [(.var .text), (.str b!"-")])))
      [.assign .text (.bin .add (.str b!"+") (.var .text))]
      []) [(.text, .str (textList ts)), (.w, .ptr wp), (.ctx, .ctx .offset ts)] h =
      .ok (.next [(.text, .str text), (.w, .ptr wp), (.ctx, .ctx .offset ts)], h) := by
    rw [← ht]
    cases c1 : (b!"+").isPrefixOf (textList ts) <;> cases c2 : (b!"-").isPrefixOf (textList ts) <;> go_run [c1, c2, notVal]
  have e3 : exec Code.program S (callFn Code.program S (n + 1)) (.define .sgn (.slice (.var .text) (.int 0) (.int 1)))
      [(.text, .str text), (.w, .ptr wp), (.ctx, .ctx .offset ts)] h =
      .ok (.next [(.sgn, .str sgn), (.text, .str text), (.w, .ptr wp), (.ctx, .ctx .offset ts)], h) := by
    have : sliceVal (.str text) (.int 0) (.int 1) h = _ := sliceVal_ok s1 h
    go_run [this]
  have e4 : exec Code.program S (callFn Code.program S (n + 1)) (.define .hrs (.slice (.var .text) (.int 1) (.int 3)))
      [(.sgn, .str sgn), (.text, .str text), (.w, .ptr wp), (.ctx, .ctx .offset ts)] h =
      .ok (.next [(.hrs, .str hrs), (.sgn, .str sgn), (.text, .str text), (.w, .ptr wp), (.ctx, .ctx .offset ts)], h) := by
    have : sliceVal (.str text) (.int 1) (.int 3) h = _ := sliceVal_ok s2 h
    go_run [this]
  have e5 : exec Code.program S (callFn Code.program S (n + 1)) (.define .min (.slice (.var .text) (.int 3) (.int 5)))
      [(.hrs, .str hrs), (.sgn, .str sgn), (.text, .str text), (.w, .ptr wp), (.ctx, .ctx .offset ts)] h =
      .ok (.next [(.min, .str min), (.hrs, .str hrs), (.sgn, .str sgn), (.text, .str text), (.w, .ptr wp), (.ctx, .ctx .offset ts)], h) := by
    have : sliceVal (.str text) (.int 3) (.int 5) h = _ := sliceVal_ok s3 h
    go_run [this]
  have e6 : exec Code.program S (callFn Code.program S (n + 1))
      (.define2 .dur .err (.call .«time.ParseDuration» [(.call .«fmt.Sprintf» [(.str b!"%v%vh%vm"), (.var .sgn), (.var .hrs), (.var .min)])]))
      [(.min, .str min), (.hrs, .str hrs), (.sgn, .str sgn), (.text, .str text), (.w, .ptr wp), (.ctx, .ctx .offset ts)] h =
      .ok (.next [(.err, stdErr (parseDuration (sgn ++ hrs ++ b!"h" ++ min ++ b!"m")).2), (.dur, .dur (parseDuration (sgn ++ hrs ++ b!"h" ++ min ++ b!"m")).1),
      (.min, .str min), (.hrs, .str hrs), (.sgn, .str sgn), (.text, .str text), (.w, .ptr wp), (.ctx, .ctx .offset ts)], h) := by
    have := sprintf_dur sgn hrs min
    simp at this
    go_run [this]
  have e7 : exec Code.program S (callFn Code.program S (n + 1))
      (.expr (.method (.var .w) .enter [(.new .offset [.rep, .value] [(.var .text), (.call .int [(.method (.var .dur) .Seconds [])])])]))
      [(.err, stdErr (parseDuration (sgn ++ hrs ++ b!"h" ++ min ++ b!"m")).2), (.dur, .dur (parseDuration (sgn ++ hrs ++ b!"h" ++ min ++ b!"m")).1),
      (.min, .str min), (.hrs, .str hrs), (.sgn, .str sgn), (.text, .str text), (.w, .ptr wp), (.ctx, .ctx .offset ts)] h₁ =
      .ok (.next [(.err, stdErr (parseDuration (sgn ++ hrs ++ b!"h" ++ min ++ b!"m")).2), (.dur, .dur (parseDuration (sgn ++ hrs ++ b!"h" ++ min ++ b!"m")).1),
      (.min, .str min), (.hrs, .str hrs), (.sgn, .str sgn), (.text, .str text), (.w, .ptr wp), (.ctx, .ctx .offset ts)], h₂) := by
    generalize parseDuration (sgn ++ hrs ++ b!"h" ++ min ++ b!"m") = pd at run2 ⊢
    go_run [structs_eq, Code.structs, seconds_ok, method_ok (getElem?_alloc R1.wobj) find_enter, run2]
  refine call_next _ _ _ (ρ := [(.w, .ptr wp), (.ctx, .ctx .offset ts)]) rfl rfl (ρ' := [(.err, stdErr (parseDuration (sgn ++ hrs ++ b!"h" ++ min ++ b!"m")).2), (.dur, .dur (parseDuration (sgn ++ hrs ++ b!"h" ++ min ++ b!"m")).1),
      (.min, .str min), (.hrs, .str hrs), (.sgn, .str sgn), (.text, .str text), (.w, .ptr wp), (.ctx, .ctx .offset ts)]) ?_
  unfold Code.walker_EnterOffset
  dsimp only
  rw [exec_cons _ _ _ e1, exec_cons _ _ _ e2, exec_cons _ _ _ e3, exec_cons _ _ _ e4, exec_cons _ _ _ e5, exec_cons _ _ _ e6, exec_cons _ _ _ run1, exec_cons _ _ _ e7]
  rfl

/-! ## Encoded words -/

theorem decode_ok (S : Setting) (call : Caller) {h : Heap} {a : Nat} (e : h[a]? = some (.struct .«mime.WordDecoder» [(.CharsetReader, .reader)])) (s : Bytes) :
    callMethod Code.program S call (.ptr a) .Decode [.str s] h =
      .ok (match S.env.decode s with | some x => [.str x, .nil] | none => [.str [], .err (.new [])], h) := by
  unfold callMethod
  simp only [structOf, M.bind_apply, M.pure_apply, load_apply e, show Code.program.find .«mime.WordDecoder» .Decode = none from rfl]
  unfold foreign
  simp only [getField, structOf, M.bind_apply, M.pure_apply, load_apply e, assoc, if_true, orStuck_some]
  cases S.env.decode s <;> rfl

theorem encodedWord_ok (S : Setting) (n : Nat) (R : Rep base h wp ns rv ev cells w) (ts : List Tree) :
    ∃ h' ns' ev' cells', callFn Code.program S (n + 2) Code.walker_EnterEncodedWord [.ptr wp, .ctx .encodedWord ts] h = .ok ([], h') ∧
      Rep base h' wp ns' rv ev' cells' (enterEncodedWord S.env ts w) ∧ Keep base h h' := by
  let dec : Obj := .struct .«mime.WordDecoder» [(.CharsetReader, .reader)]
  have R1 := R.alloc dec
  have k1 : Keep base h (h ++ [dec]) := (Frame.alloc [] h _).keep R.baseLe (by simp)
  have dk := decode_ok S (callFn Code.program S (n + 1)) (getElem?_new h dec)
  cases hd : S.env.decode (textList ts) with
  | some v =>
    obtain ⟨h₂, ns', cells', run2, R2, k2⟩ := newPush S n R1 (.encodedWord v) trivial
    simp only [nodeFields, Node.kind, ruleTy, freshSlice, dec] at run2 dk
    refine ⟨h₂, ns', ev, cells', ?_, ?_, k1.trans k2⟩
    · show callFn Code.program S (n + 1 + 1) _ _ h = _
      rw [callFn]
      have run3 := (method_ok (S := S) (getElem?_alloc R1.wobj) find_enter _).trans run2
      simp [dec] at run3
      go_run [Code.walker_EnterEncodedWord, getText_ok, dk, hd, structs_eq, Code.structs, run3]
    · rw [enterEncodedWord, hd]
      exact R2
  | none =>
    obtain ⟨h₂, ns', cells', run2, R2, k2⟩ := newPush S n R1 (.encodedWord (textList ts)) trivial
    simp only [nodeFields, Node.kind, ruleTy, freshSlice, dec] at run2 dk
    refine ⟨h₂, ns', ev, cells', ?_, ?_, k1.trans k2⟩
    · show callFn Code.program S (n + 1 + 1) _ _ h = _
      rw [callFn]
      have run3 := (method_ok (S := S) (getElem?_alloc R1.wobj) find_enter _).trans run2
      simp [dec] at run3
      go_run [Code.walker_EnterEncodedWord, getText_ok, dk, hd, structs_eq, Code.structs, run3]
    · rw [enterEncodedWord, hd]
      exact R2

/-! ## All of them -/

set_option maxHeartbeats 2000000 in
/-- Every `EnterX`. -/
theorem enterRule_ok (S : Setting) (n : Nat) (R : Rep base h wp ns rv ev cells w) (r : Rule) (ts : List Tree) {w' : Walker}
    (ok : enterRule S.env r ts w = .ok w') :
    ∃ h' ns' ev' cells', notify Code.program (callFn Code.program S (n + 2)) (.ptr wp) (Code.program.enterName r) (.ctx r ts) h = .ok ((), h') ∧
      Rep base h' wp ns' rv ev' cells' w' ∧ Keep base h h' := by
  have none : (Code.program.find .walker (Code.program.enterName r) = Option.none) → w' = w → ∃ h' ns' ev' cells',
      notify Code.program (callFn Code.program S (n + 2)) (.ptr wp) (Code.program.enterName r) (.ctx r ts) h = .ok ((), h') ∧
      Rep base h' wp ns' rv ev' cells' w' ∧ Keep base h h' := by
    rintro q rfl
    exact ⟨h, ns, ev, cells, notify_none R.wobj q _, R, Keep.refl _ _⟩
  have lift : ∀ f, Code.program.find .walker (Code.program.enterName r) = some f →
      (∃ h' ns' ev' cells', callFn Code.program S (n + 2) f [.ptr wp, .ctx r ts] h = .ok ([], h') ∧
        Rep base h' wp ns' rv ev' cells' w' ∧ Keep base h h') → ∃ h' ns' ev' cells',
      notify Code.program (callFn Code.program S (n + 2)) (.ptr wp) (Code.program.enterName r) (.ctx r ts) h = .ok ((), h') ∧
      Rep base h' wp ns' rv ev' cells' w' ∧ Keep base h h' := by
    rintro f q ⟨h', ns', ev', cells', a, b⟩
    exact ⟨h', ns', ev', cells', notify_ok R.wobj q _ a, b⟩
  cases r
  case addrSpec =>
    cases ok
    refine lift Code.walker_EnterAddrSpec rfl ?_
    obtain ⟨h₂, ns', cells', run2, R2, k2⟩ := newPush S n R (.addrSpec [] []) trivial
    simp only [nodeFields, Node.kind, ruleTy, freshSlice] at run2
    refine ⟨h₂, ns', ev, cells', ?_, R2, k2⟩
    show callFn Code.program S (n + 1 + 1) _ _ h = _
    rw [callFn]
    go_run [Code.walker_EnterAddrSpec, getText_ok, structs_eq, Code.structs, method_ok (getElem?_alloc R.wobj) find_enter, run2]
  case address =>
    cases ok
    refine lift Code.walker_EnterAddress rfl ?_
    obtain ⟨h₂, ns', cells', run2, R2, k2⟩ := newPush S n R (.address []) rfl
    simp only [nodeFields, Node.kind, ruleTy, freshSlice] at run2
    refine ⟨h₂, ns', ev, cells', ?_, R2, k2⟩
    show callFn Code.program S (n + 1 + 1) _ _ h = _
    rw [callFn]
    go_run [Code.walker_EnterAddress, getText_ok, structs_eq, Code.structs, method_ok (getElem?_alloc R.wobj) find_enter, run2]
  case addressList =>
    cases ok
    refine lift Code.walker_EnterAddressList rfl ?_
    obtain ⟨h₂, ns', cells', run2, R2, k2⟩ := newPush S n R (.addressList []) rfl
    simp only [nodeFields, Node.kind, ruleTy, freshSlice] at run2
    refine ⟨h₂, ns', ev, cells', ?_, R2, k2⟩
    show callFn Code.program S (n + 1 + 1) _ _ h = _
    rw [callFn]
    go_run [Code.walker_EnterAddressList, getText_ok, structs_eq, Code.structs, method_ok (getElem?_alloc R.wobj) find_enter, run2]
  case angleAddr =>
    cases ok
    refine lift Code.walker_EnterAngleAddr rfl ?_
    obtain ⟨h₂, ns', cells', run2, R2, k2⟩ := newPush S n R (.angleAddr []) trivial
    simp only [nodeFields, Node.kind, ruleTy, freshSlice] at run2
    refine ⟨h₂, ns', ev, cells', ?_, R2, k2⟩
    show callFn Code.program S (n + 1 + 1) _ _ h = _
    rw [callFn]
    go_run [Code.walker_EnterAngleAddr, getText_ok, structs_eq, Code.structs, method_ok (getElem?_alloc R.wobj) find_enter, run2]
  case atom =>
    cases ok
    refine lift Code.walker_EnterAtom rfl ?_
    obtain ⟨h₂, ns', cells', run2, R2, k2⟩ := newPush S n R (.atom (textList ts)) trivial
    simp only [nodeFields, Node.kind, ruleTy, freshSlice] at run2
    refine ⟨h₂, ns', ev, cells', ?_, R2, k2⟩
    show callFn Code.program S (n + 1 + 1) _ _ h = _
    rw [callFn]
    go_run [Code.walker_EnterAtom, getText_ok, structs_eq, Code.structs, method_ok (getElem?_alloc R.wobj) find_enter, run2]
  case dateTime =>
    cases ok
    refine lift Code.walker_EnterDateTime rfl ?_
    obtain ⟨h₂, ns', cells', run2, R2, k2⟩ := newPush S n R (.dateTime 0 0 0 0 0 0 utcLoc) trivial
    simp only [nodeFields, Node.kind, ruleTy, freshSlice] at run2
    refine ⟨h₂, ns', ev, cells', ?_, R2, k2⟩
    show callFn Code.program S (n + 1 + 1) _ _ h = _
    rw [callFn]
    go_run [Code.walker_EnterDateTime, getText_ok, structs_eq, Code.structs, method_ok (getElem?_alloc R.wobj) find_enter, run2]
  case displayName =>
    cases ok
    refine lift Code.walker_EnterDisplayName rfl ?_
    obtain ⟨h₂, ns', cells', run2, R2, k2⟩ := newPush S n R (.displayName [] false) trivial
    simp only [nodeFields, Node.kind, ruleTy, freshSlice] at run2
    refine ⟨h₂, ns', ev, cells', ?_, R2, k2⟩
    show callFn Code.program S (n + 1 + 1) _ _ h = _
    rw [callFn]
    go_run [Code.walker_EnterDisplayName, getText_ok, structs_eq, Code.structs, method_ok (getElem?_alloc R.wobj) find_enter, run2]
  case domain =>
    cases ok
    refine lift Code.walker_EnterDomain rfl ?_
    obtain ⟨h₂, ns', cells', run2, R2, k2⟩ := newPush S n R (.domain []) trivial
    simp only [nodeFields, Node.kind, ruleTy, freshSlice] at run2
    refine ⟨h₂, ns', ev, cells', ?_, R2, k2⟩
    show callFn Code.program S (n + 1 + 1) _ _ h = _
    rw [callFn]
    go_run [Code.walker_EnterDomain, getText_ok, structs_eq, Code.structs, method_ok (getElem?_alloc R.wobj) find_enter, run2]
  case domainLiteral =>
    cases ok
    refine lift Code.walker_EnterDomainLiteral rfl ?_
    obtain ⟨h₂, ns', cells', run2, R2, k2⟩ := newPush S n R (.domainLiteral (textList ts)) trivial
    simp only [nodeFields, Node.kind, ruleTy, freshSlice] at run2
    refine ⟨h₂, ns', ev, cells', ?_, R2, k2⟩
    show callFn Code.program S (n + 1 + 1) _ _ h = _
    rw [callFn]
    go_run [Code.walker_EnterDomainLiteral, getText_ok, structs_eq, Code.structs, method_ok (getElem?_alloc R.wobj) find_enter, run2]
  case dotAtom =>
    cases ok
    refine lift Code.walker_EnterDotAtom rfl ?_
    obtain ⟨h₂, ns', cells', run2, R2, k2⟩ := newPush S n R (.dotAtom (textList ts)) trivial
    simp only [nodeFields, Node.kind, ruleTy, freshSlice] at run2
    refine ⟨h₂, ns', ev, cells', ?_, R2, k2⟩
    show callFn Code.program S (n + 1 + 1) _ _ h = _
    rw [callFn]
    go_run [Code.walker_EnterDotAtom, getText_ok, structs_eq, Code.structs, method_ok (getElem?_alloc R.wobj) find_enter, run2]
  case fws =>
    cases ok
    refine lift Code.walker_EnterFws rfl ?_
    obtain ⟨h₂, ns', cells', run2, R2, k2⟩ := newPush S n R (.fws (textList ts)) trivial
    simp only [nodeFields, Node.kind, ruleTy, freshSlice] at run2
    refine ⟨h₂, ns', ev, cells', ?_, R2, k2⟩
    show callFn Code.program S (n + 1 + 1) _ _ h = _
    rw [callFn]
    go_run [Code.walker_EnterFws, getText_ok, structs_eq, Code.structs, method_ok (getElem?_alloc R.wobj) find_enter, run2]
  case group =>
    cases ok
    refine lift Code.walker_EnterGroup rfl ?_
    obtain ⟨h₂, ns', cells', run2, R2, k2⟩ := newPush S n R (.group []) rfl
    simp only [nodeFields, Node.kind, ruleTy, freshSlice] at run2
    refine ⟨h₂, ns', ev, cells', ?_, R2, k2⟩
    show callFn Code.program S (n + 1 + 1) _ _ h = _
    rw [callFn]
    go_run [Code.walker_EnterGroup, getText_ok, structs_eq, Code.structs, method_ok (getElem?_alloc R.wobj) find_enter, run2]
  case groupList =>
    cases ok
    refine lift Code.walker_EnterGroupList rfl ?_
    obtain ⟨h₂, ns', cells', run2, R2, k2⟩ := newPush S n R (.groupList []) rfl
    simp only [nodeFields, Node.kind, ruleTy, freshSlice] at run2
    refine ⟨h₂, ns', ev, cells', ?_, R2, k2⟩
    show callFn Code.program S (n + 1 + 1) _ _ h = _
    rw [callFn]
    go_run [Code.walker_EnterGroupList, getText_ok, structs_eq, Code.structs, method_ok (getElem?_alloc R.wobj) find_enter, run2]
  case localPart =>
    cases ok
    refine lift Code.walker_EnterLocalPart rfl ?_
    obtain ⟨h₂, ns', cells', run2, R2, k2⟩ := newPush S n R (.localPart []) trivial
    simp only [nodeFields, Node.kind, ruleTy, freshSlice] at run2
    refine ⟨h₂, ns', ev, cells', ?_, R2, k2⟩
    show callFn Code.program S (n + 1 + 1) _ _ h = _
    rw [callFn]
    go_run [Code.walker_EnterLocalPart, getText_ok, structs_eq, Code.structs, method_ok (getElem?_alloc R.wobj) find_enter, run2]
  case mailbox =>
    cases ok
    refine lift Code.walker_EnterMailbox rfl ?_
    obtain ⟨h₂, ns', cells', run2, R2, k2⟩ := newPush S n R (.mailbox [] []) trivial
    simp only [nodeFields, Node.kind, ruleTy, freshSlice] at run2
    refine ⟨h₂, ns', ev, cells', ?_, R2, k2⟩
    show callFn Code.program S (n + 1 + 1) _ _ h = _
    rw [callFn]
    go_run [Code.walker_EnterMailbox, getText_ok, structs_eq, Code.structs, method_ok (getElem?_alloc R.wobj) find_enter, run2]
  case mailboxList =>
    cases ok
    refine lift Code.walker_EnterMailboxList rfl ?_
    obtain ⟨h₂, ns', cells', run2, R2, k2⟩ := newPush S n R (.mailboxList []) rfl
    simp only [nodeFields, Node.kind, ruleTy, freshSlice] at run2
    refine ⟨h₂, ns', ev, cells', ?_, R2, k2⟩
    show callFn Code.program S (n + 1 + 1) _ _ h = _
    rw [callFn]
    go_run [Code.walker_EnterMailboxList, getText_ok, structs_eq, Code.structs, method_ok (getElem?_alloc R.wobj) find_enter, run2]
  case nameAddr =>
    cases ok
    refine lift Code.walker_EnterNameAddr rfl ?_
    obtain ⟨h₂, ns', cells', run2, R2, k2⟩ := newPush S n R (.nameAddr [] []) trivial
    simp only [nodeFields, Node.kind, ruleTy, freshSlice] at run2
    refine ⟨h₂, ns', ev, cells', ?_, R2, k2⟩
    show callFn Code.program S (n + 1 + 1) _ _ h = _
    rw [callFn]
    go_run [Code.walker_EnterNameAddr, getText_ok, structs_eq, Code.structs, method_ok (getElem?_alloc R.wobj) find_enter, run2]
  case obsAngleAddr =>
    cases ok
    refine lift Code.walker_EnterObsAngleAddr rfl ?_
    obtain ⟨h₂, ns', cells', run2, R2, k2⟩ := newPush S n R (.obsAngleAddr []) trivial
    simp only [nodeFields, Node.kind, ruleTy, freshSlice] at run2
    refine ⟨h₂, ns', ev, cells', ?_, R2, k2⟩
    show callFn Code.program S (n + 1 + 1) _ _ h = _
    rw [callFn]
    go_run [Code.walker_EnterObsAngleAddr, getText_ok, structs_eq, Code.structs, method_ok (getElem?_alloc R.wobj) find_enter, run2]
  case obsDomain =>
    cases ok
    refine lift Code.walker_EnterObsDomain rfl ?_
    obtain ⟨h₂, ns', cells', run2, R2, k2⟩ := newPush S n R (.obsDomain []) rfl
    simp only [nodeFields, Node.kind, ruleTy, freshSlice] at run2
    refine ⟨h₂, ns', ev, cells', ?_, R2, k2⟩
    show callFn Code.program S (n + 1 + 1) _ _ h = _
    rw [callFn]
    go_run [Code.walker_EnterObsDomain, getText_ok, structs_eq, Code.structs, method_ok (getElem?_alloc R.wobj) find_enter, run2]
  case obsLocalPart =>
    cases ok
    refine lift Code.walker_EnterObsLocalPart rfl ?_
    obtain ⟨h₂, ns', cells', run2, R2, k2⟩ := newPush S n R (.obsLocalPart []) rfl
    simp only [nodeFields, Node.kind, ruleTy, freshSlice] at run2
    refine ⟨h₂, ns', ev, cells', ?_, R2, k2⟩
    show callFn Code.program S (n + 1 + 1) _ _ h = _
    rw [callFn]
    go_run [Code.walker_EnterObsLocalPart, getText_ok, structs_eq, Code.structs, method_ok (getElem?_alloc R.wobj) find_enter, run2]
  case obsMboxList =>
    cases ok
    refine lift Code.walker_EnterObsMboxList rfl ?_
    obtain ⟨h₂, ns', cells', run2, R2, k2⟩ := newPush S n R (.obsMboxList []) rfl
    simp only [nodeFields, Node.kind, ruleTy, freshSlice] at run2
    refine ⟨h₂, ns', ev, cells', ?_, R2, k2⟩
    show callFn Code.program S (n + 1 + 1) _ _ h = _
    rw [callFn]
    go_run [Code.walker_EnterObsMboxList, getText_ok, structs_eq, Code.structs, method_ok (getElem?_alloc R.wobj) find_enter, run2]
  case port =>
    cases ok
    refine lift Code.walker_EnterPort rfl ?_
    obtain ⟨h₂, ns', cells', run2, R2, k2⟩ := newPush S n R (.port (textList ts)) trivial
    simp only [nodeFields, Node.kind, ruleTy, freshSlice] at run2
    refine ⟨h₂, ns', ev, cells', ?_, R2, k2⟩
    show callFn Code.program S (n + 1 + 1) _ _ h = _
    rw [callFn]
    go_run [Code.walker_EnterPort, getText_ok, structs_eq, Code.structs, method_ok (getElem?_alloc R.wobj) find_enter, run2]
  case qtext =>
    cases ok
    refine lift Code.walker_EnterQtext rfl ?_
    obtain ⟨h₂, ns', cells', run2, R2, k2⟩ := newPush S n R (.qtext (textList ts)) trivial
    simp only [nodeFields, Node.kind, ruleTy, freshSlice] at run2
    refine ⟨h₂, ns', ev, cells', ?_, R2, k2⟩
    show callFn Code.program S (n + 1 + 1) _ _ h = _
    rw [callFn]
    go_run [Code.walker_EnterQtext, getText_ok, structs_eq, Code.structs, method_ok (getElem?_alloc R.wobj) find_enter, run2]
  case quotedChar =>
    cases ok
    refine lift Code.walker_EnterQuotedChar rfl ?_
    obtain ⟨h₂, ns', cells', run2, R2, k2⟩ := newPush S n R (.quotedChar (textList ts)) trivial
    simp only [nodeFields, Node.kind, ruleTy, freshSlice] at run2
    refine ⟨h₂, ns', ev, cells', ?_, R2, k2⟩
    show callFn Code.program S (n + 1 + 1) _ _ h = _
    rw [callFn]
    go_run [Code.walker_EnterQuotedChar, getText_ok, structs_eq, Code.structs, method_ok (getElem?_alloc R.wobj) find_enter, run2]
  case quotedContent =>
    cases ok
    refine lift Code.walker_EnterQuotedContent rfl ?_
    obtain ⟨h₂, ns', cells', run2, R2, k2⟩ := newPush S n R (.quotedContent []) trivial
    simp only [nodeFields, Node.kind, ruleTy, freshSlice] at run2
    refine ⟨h₂, ns', ev, cells', ?_, R2, k2⟩
    show callFn Code.program S (n + 1 + 1) _ _ h = _
    rw [callFn]
    go_run [Code.walker_EnterQuotedContent, getText_ok, structs_eq, Code.structs, method_ok (getElem?_alloc R.wobj) find_enter, run2]
  case quotedPair =>
    cases ok
    refine lift Code.walker_EnterQuotedPair rfl ?_
    obtain ⟨h₂, ns', cells', run2, R2, k2⟩ := newPush S n R (.quotedPair []) trivial
    simp only [nodeFields, Node.kind, ruleTy, freshSlice] at run2
    refine ⟨h₂, ns', ev, cells', ?_, R2, k2⟩
    show callFn Code.program S (n + 1 + 1) _ _ h = _
    rw [callFn]
    go_run [Code.walker_EnterQuotedPair, getText_ok, structs_eq, Code.structs, method_ok (getElem?_alloc R.wobj) find_enter, run2]
  case quotedString =>
    cases ok
    refine lift Code.walker_EnterQuotedString rfl ?_
    obtain ⟨h₂, ns', cells', run2, R2, k2⟩ := newPush S n R (.quotedString []) trivial
    simp only [nodeFields, Node.kind, ruleTy, freshSlice] at run2
    refine ⟨h₂, ns', ev, cells', ?_, R2, k2⟩
    show callFn Code.program S (n + 1 + 1) _ _ h = _
    rw [callFn]
    go_run [Code.walker_EnterQuotedString, getText_ok, structs_eq, Code.structs, method_ok (getElem?_alloc R.wobj) find_enter, run2]
  case quotedValue =>
    cases ok
    refine lift Code.walker_EnterQuotedValue rfl ?_
    obtain ⟨h₂, ns', cells', run2, R2, k2⟩ := newPush S n R (.quotedValue []) trivial
    simp only [nodeFields, Node.kind, ruleTy, freshSlice] at run2
    refine ⟨h₂, ns', ev, cells', ?_, R2, k2⟩
    show callFn Code.program S (n + 1 + 1) _ _ h = _
    rw [callFn]
    go_run [Code.walker_EnterQuotedValue, getText_ok, structs_eq, Code.structs, method_ok (getElem?_alloc R.wobj) find_enter, run2]
  case unspaced =>
    cases ok
    refine lift Code.walker_EnterUnspaced rfl ?_
    obtain ⟨h₂, ns', cells', run2, R2, k2⟩ := newPush S n R (.unspaced (textList ts)) trivial
    simp only [nodeFields, Node.kind, ruleTy, freshSlice] at run2
    refine ⟨h₂, ns', ev, cells', ?_, R2, k2⟩
    show callFn Code.program S (n + 1 + 1) _ _ h = _
    rw [callFn]
    go_run [Code.walker_EnterUnspaced, getText_ok, structs_eq, Code.structs, method_ok (getElem?_alloc R.wobj) find_enter, run2]
  case word =>
    cases ok
    refine lift Code.walker_EnterWord rfl ?_
    obtain ⟨h₂, ns', cells', run2, R2, k2⟩ := newPush S n R (.word []) trivial
    simp only [nodeFields, Node.kind, ruleTy, freshSlice] at run2
    refine ⟨h₂, ns', ev, cells', ?_, R2, k2⟩
    show callFn Code.program S (n + 1 + 1) _ _ h = _
    rw [callFn]
    go_run [Code.walker_EnterWord, getText_ok, structs_eq, Code.structs, method_ok (getElem?_alloc R.wobj) find_enter, run2]
  case zone =>
    cases ok
    refine lift Code.walker_EnterZone rfl ?_
    obtain ⟨h₂, ns', cells', run2, R2, k2⟩ := newPush S n R (.zone utcLoc) trivial
    simp only [nodeFields, Node.kind, ruleTy, freshSlice] at run2
    refine ⟨h₂, ns', ev, cells', ?_, R2, k2⟩
    show callFn Code.program S (n + 1 + 1) _ _ h = _
    rw [callFn]
    go_run [Code.walker_EnterZone, getText_ok, structs_eq, Code.structs, method_ok (getElem?_alloc R.wobj) find_enter, run2]
  case day =>
    cases ok
    exact lift Code.walker_EnterDay rfl (number_ok S n R (r := .day) rfl ts .day (fun _ => rfl) (fun _ => rfl) (fun _ => trivial) rfl)
  case hour =>
    cases ok
    exact lift Code.walker_EnterHour rfl (number_ok S n R (r := .hour) rfl ts .hour (fun _ => rfl) (fun _ => rfl) (fun _ => trivial) rfl)
  case minute =>
    cases ok
    exact lift Code.walker_EnterMinute rfl (number_ok S n R (r := .minute) rfl ts .minute (fun _ => rfl) (fun _ => rfl) (fun _ => trivial) rfl)
  case second =>
    cases ok
    exact lift Code.walker_EnterSecond rfl (number_ok S n R (r := .second) rfl ts .second (fun _ => rfl) (fun _ => rfl) (fun _ => trivial) rfl)
  case year =>
    cases ok
    exact lift Code.walker_EnterYear rfl (year_ok S n R ts)
  case month =>
    cases ok
    exact lift Code.walker_EnterMonth rfl (month_ok S n R ts)
  case obsZone =>
    cases ok
    exact lift Code.walker_EnterObsZone rfl (obsZone_ok S n R ts)
  case encodedWord =>
    cases ok
    exact lift Code.walker_EnterEncodedWord rfl (encodedWord_ok S n R ts)
  case offset => exact lift Code.walker_EnterOffset rfl (offset_ok S n R ts ok)
  all_goals exact none rfl (by cases ok; rfl)

end Rfc5322.Go
