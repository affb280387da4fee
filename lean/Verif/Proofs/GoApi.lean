import Verif.Proofs.GoWalk
import Verif.Model.Api

/-!
# `ParseAddressList` and `ParseDateTime` as written
-/

set_option linter.constructorNameAsVariable false
set_option linter.unusedSimpArgs false

namespace Rfc5322.Go

variable {base : Nat} {h : Heap} {wp : Nat} {ns rv ev : Val} {cells : List Cell} {w : Walker}

theorem sprintf_syntax (msg : Bytes) : sprintf b!"error parsing rfc5322 input: %v" [.str msg] = some (b!"error parsing rfc5322 input: " ++ msg) := by
  simp [sprintf]

theorem keepW (R : Rep base h wp ns rv ev cells w) (fs) : Keep base h (h.set wp (.struct .walker fs)) :=
  (R.frameW fs).keep R.baseLe fun i m => by
    simp at m
    subst m
    exact R.wbase

/-- The error made of a message (/repo/walker.go:44). -/
def syntaxErr (msg : Bytes) : Val := .err (.new (b!"error parsing rfc5322 input: " ++ msg))

/-- `w.SyntaxError(...)` -/
theorem syntaxError_ok (S : Setting) (n : Nat) (R : Rep base h wp ns rv ev cells w) (msg : Bytes) :
    report Code.program (callFn Code.program S (n + 1)) msg [.ptr wp] h = .ok ((), h.set wp (.struct .walker [(.nodes, ns), (.res, rv), (.err, syntaxErr msg)])) ∧
      Rep base (h.set wp (.struct .walker [(.nodes, ns), (.res, rv), (.err, syntaxErr msg)])) wp ns rv (syntaxErr msg) cells (w.setErr .syntaxError) := by
  refine ⟨?_, R.setErr _ .syntaxError ⟨msg, rfl⟩⟩
  have run : callFn Code.program S (n + 1) Code.walker_SyntaxError [.ptr wp, .nil, .nil, .int 0, .int 0, .str msg, .nil] h =
      .ok ([], h.set wp (.struct .walker [(.nodes, ns), (.res, rv), (.err, .err (.new (b!"error parsing rfc5322 input: " ++ msg)))])) := by
    have := sprintf_syntax msg
    go_run [callFn, Code.walker_SyntaxError, load_apply R.wobj, this]
  rw [report]
  simp only [M.bind_apply, structOf, load_apply R.wobj, M.pure_apply, show Code.program.find .walker .SyntaxError = some Code.walker_SyntaxError from rfl, run, report]
  · rfl
  · intro q; cases q

/-- The errors of the parser. -/
theorem reportAll_ok (S : Setting) (n : Nat) (msg : Bytes) (ms : List Bytes) : ∀ {h ev w}, Rep base h wp ns rv ev cells w →
    reportAll Code.program (callFn Code.program S (n + 1)) [.ptr wp] (msg :: ms) h =
        .ok ((), h.set wp (.struct .walker [(.nodes, ns), (.res, rv), (.err, syntaxErr ((msg :: ms).getLast (by simp)))])) ∧
      Rep base (h.set wp (.struct .walker [(.nodes, ns), (.res, rv), (.err, syntaxErr ((msg :: ms).getLast (by simp)))])) wp ns rv
        (syntaxErr ((msg :: ms).getLast (by simp))) cells (w.setErr .syntaxError) := by
  induction ms generalizing msg with
  | nil =>
    intro h ev w R
    obtain ⟨run, R'⟩ := syntaxError_ok S n R msg
    refine ⟨?_, R'⟩
    rw [reportAll, M.bind_ok _ run]
    rfl
  | cons m ms ih =>
    intro h ev w R
    obtain ⟨run, R'⟩ := syntaxError_ok S n R msg
    obtain ⟨run2, R2⟩ := ih m R'
    rw [List.set_set] at run2 R2
    refine ⟨?_, R2⟩
    rw [reportAll, M.bind_ok _ run, run2]
    rfl

/-! ## The beginning -/

/-- `l := …; p := …; w := …; p.RemoveErrorListeners(); p.AddErrorListener(w)` (/repo/parser.go:24-29, :47-52) -/
def prologue : List Stmt :=
  [.define .l (.call .«parser.NewRFC5322Lexer» [(.call .«antlr.NewInputStream» [(.var .input)])]),
   .define .p (.call .«parser.NewRFC5322Parser» [(.call .«antlr.NewCommonTokenStream» [(.var .l), (.global .«antlr.TokenDefaultChannel»)])]),
   .define .w (.new .walker [] []),
   .expr (.method (.var .p) .RemoveErrorListeners []),
   .expr (.method (.var .p) .AddErrorListener [(.var .w)])]

/-- The variables then. -/
def started (h : Heap) (s : Bytes) : Locals := [(.w, .ptr (h.length + 2)), (.p, .ptr (h.length + 1)), (.l, .lexer s), (.input, .str s)]

theorem foreign_remove (S : Setting) (call : Caller) {h : Heap} {a : Nat} {s : Bytes} {ls : Val}
    (e : h[a]? = some (.struct .«parser.RFC5322Parser» [(.input, .stream s), (.listeners, ls)])) :
    callMethod Code.program S call (.ptr a) .RemoveErrorListeners [] h =
      .ok ([], h.set a (.struct .«parser.RFC5322Parser» [(.input, .stream s), (.listeners, .slice .iface none 0 0)])) := by
  unfold callMethod
  simp only [structOf, M.bind_apply, M.pure_apply, load_apply e, show Code.program.find .«parser.RFC5322Parser» .RemoveErrorListeners = none from rfl]
  unfold foreign
  simp [putField, M.bind_apply, M.pure_apply, load_apply e, update, orStuck_some, store_apply]

theorem foreign_add (S : Setting) (call : Caller) {h : Heap} {a : Nat} {s : Bytes}
    (e : h[a]? = some (.struct .«parser.RFC5322Parser» [(.input, .stream s), (.listeners, .slice .iface none 0 0)])) (v : Val) :
    ∃ h' ls, callMethod Code.program S call (.ptr a) .AddErrorListener [v] h = .ok ([], h') ∧ Frame [a] h h' ∧
      h'[a]? = some (.struct .«parser.RFC5322Parser» [(.input, .stream s), (.listeners, ls)]) ∧ IsSlice h' .iface ls [v] := by
  obtain ⟨ls, h₁, e1, sl, fr, ar, -⟩ := append_spec S (IsSlice.nil h .iface) [v]
  have h1 := fr.get e (by simp [arrOf])
  have fr2 : Frame [a] h₁ (h₁.set a (.struct .«parser.RFC5322Parser» [(.input, .stream s), (.listeners, ls)])) :=
    Frame.set _ h1 (by simp [Obj.isAddress]) (by simp)
  refine ⟨_, ls, ?_, (fr.mono (by simp [arrOf])).trans fr2, getElem?_set_eq _ h1, sl.frame fr2 fun b eb k => ?_⟩
  · unfold callMethod
    simp only [structOf, M.bind_apply, M.pure_apply, load_apply e, show Code.program.find .«parser.RFC5322Parser» .AddErrorListener = none from rfl]
    unfold foreign
    simp [getField, structOf, assoc, putField, M.bind_apply, M.pure_apply, load_apply e, load_apply h1, e1, update, orStuck_some, store_apply]
  · simp at k
    subst k
    obtain ⟨full, q⟩ := sl.arr eb
    rw [h1] at q; cases q

theorem prologue_ok (S : Setting) (call : Caller) (h : Heap) (s : Bytes) (rest : List Stmt) :
    ∃ h₁ ls, execs Code.program S call (prologue ++ rest) [(.input, .str s)] h = execs Code.program S call rest (started h s) h₁ ∧
      Rep h.length h₁ (h.length + 2) (.slice .iface none 0 0) .nil .nil [] Walker.init ∧ Keep h.length h h₁ ∧
      h₁[h.length + 1]? = some (.struct .«parser.RFC5322Parser» [(.input, .stream s), (.listeners, ls)]) ∧ IsSlice h₁ .iface ls [.ptr (h.length + 2)] := by
  let o0 : Obj := .array [.console]
  let o1 : Obj := .struct .«parser.RFC5322Parser» [(.input, .stream s), (.listeners, .slice .iface (some h.length) 1 1)]
  let o2 : Obj := .struct .walker [(.nodes, .slice .iface none 0 0), (.res, .nil), (.err, .nil)]
  let o3 : Obj := .struct .«parser.RFC5322Parser» [(.input, .stream s), (.listeners, .slice .iface none 0 0)]
  let hs := h ++ [o0, o1, o2]
  have g1 : hs[h.length + 1]? = some o1 := by simp [hs]
  have g2 : hs[h.length + 2]? = some o2 := by simp [hs]
  have g3 : (hs.set (h.length + 1) o3)[h.length + 1]? = some o3 := getElem?_set_eq _ g1
  have g4 : (hs.set (h.length + 1) o3)[h.length + 2]? = some o2 := by rw [getElem?_set_ne (by omega)]; exact g2
  have e4 := foreign_remove S call g1
  obtain ⟨h₁, ls, e5, fr, g5, sl⟩ := foreign_add S call g3 (.ptr (h.length + 2))
  have g6 := fr.get g4 (by simp)
  have k1 : Keep h.length h hs := ⟨by simp [hs], fun i l => by simp [hs, List.getElem?_append_left l]⟩
  have k2 : Keep h.length hs (hs.set (h.length + 1) o3) := ⟨by simp, fun i l => getElem?_set_ne (by omega)⟩
  have k3 : Keep h.length (hs.set (h.length + 1) o3) h₁ := fr.keep (by simp [hs]) (by simp)
  refine ⟨h₁, ls, ?_, ?_, (k1.trans k2).trans k3, g5, sl⟩
  · have s1 : exec Code.program S call (.define .l (.call .«parser.NewRFC5322Lexer» [(.call .«antlr.NewInputStream» [(.var .input)])]))
        [(.input, .str s)] h = .ok (.next [(.l, .lexer s), (.input, .str s)], h) := by go_run []
    have s2 : exec Code.program S call (.define .p (.call .«parser.NewRFC5322Parser» [(.call .«antlr.NewCommonTokenStream» [(.var .l), (.global .«antlr.TokenDefaultChannel»)])]))
        [(.l, .lexer s), (.input, .str s)] h = .ok (.next [(.p, .ptr (h.length + 1)), (.l, .lexer s), (.input, .str s)], h ++ [o0, o1]) := by go_run [o0, o1]
    have s3 : exec Code.program S call (.define .w (.new .walker [] [])) [(.p, .ptr (h.length + 1)), (.l, .lexer s), (.input, .str s)] (h ++ [o0, o1]) =
        .ok (.next (started h s), hs) := by go_run [hs, o2, structs_eq, Code.structs, started]
    have s4 : exec Code.program S call (.expr (.method (.var .p) .RemoveErrorListeners [])) (started h s) hs = .ok (.next (started h s), hs.set (h.length + 1) o3) := by
      go_run [started, e4, o3]
    have s5 : exec Code.program S call (.expr (.method (.var .p) .AddErrorListener [(.var .w)])) (started h s) (hs.set (h.length + 1) o3) = .ok (.next (started h s), h₁) := by
      go_run [started, e5]
    unfold prologue
    simp only [List.cons_append, List.nil_append]
    rw [exec_cons _ _ _ s1, exec_cons _ _ _ s2, exec_cons _ _ _ s3, exec_cons _ _ _ s4, exec_cons _ _ _ s5]
  · refine ⟨by omega, g6, IsSlice.nil _ _, .nil, by simp, by simp [arrsOf, arrOf], by simp, by simp, by simp [arrOf], rfl, rfl⟩

/-! ## Parsing -/

theorem exec_ret (Pr : Program) (S : Setting) (call : Caller) {s : Stmt} {ρ : Locals} {vs} {h h' : Heap} (e : exec Pr S call s ρ h = .ok (.ret vs, h'))
    (ss : List Stmt) : execs Pr S call (s :: ss) ρ h = .ok (.ret vs, h') := by
  rw [execs, M.bind_ok _ e]
  rfl

theorem call_ret (Pr : Program) (S : Setting) (n : Nat) {f : Fn} {args : List Val} {ρ : Locals} {vs rs} {h h' : Heap}
    (b : bindParams f.params args = some ρ) (r : results f.results vs = some rs) (e : execs Pr S (callFn Pr S n) f.body ρ h = .ok (.ret vs, h')) :
    callFn Pr S (n + 1) f args h = .ok (rs, h') := by
  rw [callFn]
  dsimp only
  rw [b, M.bind_ok _ (orStuck_some ρ h), M.bind_ok _ e]
  dsimp only
  rw [r]
  rfl

/-- The last message of the parser. -/
def Setting.lastMessage (S : Setting) (r : Rule) (s : Bytes) : Bytes := (S.message r s :: S.messages r s).getLast (by simp)

/-- `p.AddressList()`, `p.DateTime()` -/
theorem parse_ok (S : Setting) (n : Nat) (r : Rule) {h : Heap} {a wp : Nat} {s : Bytes} {ls : Val} (R : Rep base h wp ns rv ev cells w)
    (e : h[a]? = some (.struct .«parser.RFC5322Parser» [(.input, .stream s), (.listeners, ls)])) (sl : IsSlice h .iface ls [.ptr wp]) :
    (∃ ts, S.parse r s = some ts ∧ parseFrom Code.program S (callFn Code.program S (n + 1)) r (.ptr a) h = .ok ([.tree ts], h)) ∨
    (S.parse r s = none ∧ ∃ ev', ev' = syntaxErr (S.lastMessage r s) ∧ parseFrom Code.program S (callFn Code.program S (n + 1)) r (.ptr a) h =
        .ok ([.tree (S.recovered r s)], h.set wp (.struct .walker [(.nodes, ns), (.res, rv), (.err, ev')])) ∧
      Rep base (h.set wp (.struct .walker [(.nodes, ns), (.res, rv), (.err, ev')])) wp ns rv ev' cells (w.setErr .syntaxError)) := by
  cases hp : S.parse r s with
  | some ts =>
    refine Or.inl ⟨ts, rfl, ?_⟩
    simp [parseFrom, getField, structOf, M.bind_apply, M.pure_apply, load_apply e, assoc, orStuck_some, hp]
  | none =>
    obtain ⟨run, R'⟩ := reportAll_ok S n (S.message r s) (S.messages r s) R
    refine Or.inr ⟨rfl, _, rfl, ?_, R'⟩
    simp only [Setting.lastMessage]
    simp [parseFrom, getField, structOf, M.bind_apply, M.pure_apply, load_apply e, assoc, orStuck_some, hp, sl.elems, run]

theorem foreign_addressList (S : Setting) (call : Caller) {h : Heap} {a : Nat} {fs}
    (e : h[a]? = some (.struct .«parser.RFC5322Parser» fs)) :
    callMethod Code.program S call (.ptr a) .AddressList [] h = parseFrom Code.program S call .addressList (.ptr a) h := by
  unfold callMethod
  simp only [structOf, M.bind_apply, M.pure_apply, load_apply e, show Code.program.find .«parser.RFC5322Parser» .AddressList = none from rfl]
  unfold foreign
  rfl

theorem foreign_dateTime (S : Setting) (call : Caller) {h : Heap} {a : Nat} {fs}
    (e : h[a]? = some (.struct .«parser.RFC5322Parser» fs)) :
    callMethod Code.program S call (.ptr a) .DateTime [] h = parseFrom Code.program S call .dateTime (.ptr a) h := by
  unfold callMethod
  simp only [structOf, M.bind_apply, M.pure_apply, load_apply e, show Code.program.find .«parser.RFC5322Parser» .DateTime = none from rfl]
  unfold foreign
  rfl

theorem walk_call (S : Setting) (call : Caller) {w : Val} {ts : List Tree} {h h' : Heap} (e : walkTrees Code.program call w ts h = .ok ((), h')) :
    callMethod Code.program S call .treeWalker .Walk [w, .tree ts] h = .ok ([], h') := by
  show (walkTrees Code.program call w ts >>= fun _ => pure []) h = _
  rw [M.bind_ok _ e]
  rfl

/-- A value is not nil because it is an error. -/
theorem errorIs_some {e : Err} {v : Val} (k : errorIs (some e) v) : ∃ g, v = .err g := by
  cases e <;> first | exact ⟨_, k⟩ | (obtain ⟨m, k⟩ := k; exact ⟨_, k⟩)

/-- The empty string is not parsed. -/
theorem notEmpty {s : Bytes} (k : s ≠ []) : ¬ ((s.length : Int) = 0) := by
  cases s with
  | nil => exact (k rfl).elim
  | cons a s => simp; omega

/-! ### Addresses -/

theorem readAddresses_ok {h : Heap} {adr : List Nat} {l : List Addr} (k : All2 (AddrAt h) adr l) : readAddresses h (adr.map .ptr) = some l := by
  induction k with
  | nil => rfl
  | cons a _ ih =>
    have a' := a
    simp only [AddrAt] at a'
    simp [readAddresses, readAddress, a', ih]

theorem filterMap_ptr (adr : List Nat) : (adr.map Val.ptr).filterMap (fun v => match v with | .ptr b => some b | _ => none) = adr := by
  induction adr with
  | nil => rfl
  | cons a l ih => simp [ih]

/-- A slice as built by the walker, seen by the caller. -/
theorem read_ok {h : Heap} {v : Val} {adr : List Nat} {l : List Addr} (k : IsAddrs h v adr l) (nd : adr.Nodup) {base : Nat} (lo : ∀ a ∈ adr, base ≤ a)
    (la : ∀ a, arrOf v = some a → base ≤ a) :
    readSlice h v = some (goSlice l) ∧ (refersTo h v).Nodup ∧ (∀ a ∈ refersTo h v, base ≤ a) ∧ ∀ a ∈ refersTo h v, a < h.length := by
  obtain ⟨sl, nl, al⟩ := k
  have rd := readAddresses_ok al
  have lt : ∀ a ∈ adr, a < h.length ∧ ∃ fs, h[a]? = some (.struct .«mail.Address» fs) := by
    intro a m
    obtain ⟨x, hx⟩ := al.mem_left m
    exact ⟨getElem?_lt hx, _, hx⟩
  obtain ⟨rfl, q⟩ | ⟨a, full, rfl, e, q⟩ := sl
  · simp at q
    subst q
    cases al
    exact ⟨rfl, by simp [refersTo], by simp [refersTo], by simp [refersTo]⟩
  · have rf : refersTo h (.slice (.ptr .«mail.Address») (some a) (adr.map Val.ptr).length full.length) = a :: adr := by
      simp only [refersTo, e, q]
      exact congrArg _ (filterMap_ptr adr)
    have ne : adr ≠ [] := by
      rintro rfl
      simp [NilIff, arrOf] at nl
    rw [rf]
    refine ⟨?_, ?_, ?_, ?_⟩
    · simp only [readSlice, e, q, rd, Option.map_some]
      cases al with
      | nil => exact (ne rfl).elim
      | cons => simp [goSlice]
    · rw [List.nodup_cons]
      refine ⟨fun m => ?_, nd⟩
      obtain ⟨-, fs, x⟩ := lt a m
      rw [e] at x; cases x
    · intro b m
      rw [List.mem_cons] at m
      obtain rfl | m := m
      · exact la b rfl
      · exact lo b m
    · intro b m
      rw [List.mem_cons] at m
      obtain rfl | m := m
      · exact getElem?_lt e
      · exact (lt b m).1

/-- What is known of a call of `ParseAddressList`. -/
def AddressesAre (h h' : Heap) (v e : Val) (l : AddrSlice) (err : Option Err) : Prop :=
  readSlice h' v = some l ∧ errorIs err e ∧ Keep h.length h h' ∧
    (refersTo h' v).Nodup ∧ (∀ a ∈ refersTo h' v, h.length ≤ a) ∧ ∀ a ∈ refersTo h' v, a < h'.length

theorem addresses_ok (S : Setting) (n : Nat) (P : Predictor) (h : Heap) (s : Bytes)
    (like : S.parse .addressList s = descend P Gr.addressList (tokens s)) {l err} (ok : parseAddressList P S.env s = .ok (l, err)) :
    ∃ v e h', callFn Code.program S (n + 3) Code.ParseAddressList [.str s] h = .ok ([v, e], h') ∧ AddressesAre h h' v e l err ∧
      (s ≠ [] → S.parse .addressList s = none → e = syntaxErr (S.lastMessage .addressList s)) := by
  show ∃ v e h', callFn Code.program S (n + 2 + 1) _ _ h = _ ∧ _
  unfold parseAddressList at ok
  by_cases se : s = []
  · subst se
    cases ok
    refine ⟨.slice (.ptr .«mail.Address») (some h.length) 0 0, .nil, h ++ [.array []], ?_, ⟨?_, rfl,
      (Frame.alloc [] h _).keep (Nat.le_refl _) (by simp), by simp [refersTo], by simp [refersTo], by simp [refersTo]⟩, fun k => (k rfl).elim⟩
    · rw [callFn]
      go_run [Code.ParseAddressList]
    · simp [readSlice, readAddresses]
  · rw [if_neg (by simpa using se)] at ok
    have ne := notEmpty se
    obtain ⟨h₁, ls, pro, R, k1, gp, sl⟩ := prologue_ok S (callFn Code.program S (n + 2)) h s
      [.define .tree (.method (.var .p) .AddressList []),
       .ite (.bin .ne (.field (.var .w) .err) .nil)
         [.ret [.nil, (.field (.var .w) .err)]]
         [],
       .expr (.method (.global .«antlr.ParseTreeWalkerDefault») .Walk [(.var .w), (.var .tree)]),
       .ret [(.assert (.field (.var .w) .res) (.slice (.ptr .«mail.Address»))), (.field (.var .w) .err)]]
    have s0 : exec Code.program S (callFn Code.program S (n + 2)) (.ite (.bin .eq (.call .len [(.var .input)]) (.int 0))
        [.ret [(.emptySlice (.ptr .«mail.Address»)), .nil]] []) [(.input, .str s)] h = .ok (.next [(.input, .str s)], h) := by
      go_run [ne, se]
    have fa := foreign_addressList S (callFn Code.program S (n + 2)) gp
    obtain ⟨ts, hp, run⟩ | ⟨hp, ev', ee, run, R2⟩ := parse_ok S (n + 1) .addressList R gp sl
    · rw [← like, hp] at ok
      dsimp only at ok
      split at ok
      · cases ok
      · rename_i w' wk
        split at ok
        · rename_i l' rs
          cases ok
          obtain ⟨h₂, ns₂, rv₂, ev₂, cells₂, run2, R2, k2⟩ := walkList_ok S n ts R wk
          have rr := R2.res
          rw [rs] at rr
          obtain ⟨adr, ia, nd, lo, la⟩ := rr
          obtain ⟨a1, a2, a3, a4⟩ := read_ok ia nd lo la
          refine ⟨rv₂, ev₂, h₂, ?_, ⟨a1, R2.err, k1.trans k2, a2, a3, a4⟩, fun _ k => by rw [hp] at k; cases k⟩
          obtain ⟨aa, cap, rfl⟩ := ia.1.len
          have s1 : exec Code.program S (callFn Code.program S (n + 2)) (.define .tree (.method (.var .p) .AddressList [])) (started h s) h₁ =
              .ok (.next ((.tree, .tree ts) :: started h s), h₁) := by
            rw [run] at fa
            go_run [started, fa]
          have s2 : exec Code.program S (callFn Code.program S (n + 2)) (.ite (.bin .ne (.field (.var .w) .err) .nil)
              [.ret [.nil, (.field (.var .w) .err)]] []) ((.tree, .tree ts) :: started h s) h₁ = .ok (.next ((.tree, .tree ts) :: started h s), h₁) := by
            go_run [started, load_apply R.wobj]
          have s3 : exec Code.program S (callFn Code.program S (n + 2)) (.expr (.method (.global .«antlr.ParseTreeWalkerDefault») .Walk [(.var .w), (.var .tree)]))
              ((.tree, .tree ts) :: started h s) h₁ = .ok (.next ((.tree, .tree ts) :: started h s), h₂) := by
            go_run [started, walk_call S _ run2]
          have s4 : exec Code.program S (callFn Code.program S (n + 2)) (.ret [(.assert (.field (.var .w) .res) (.slice (.ptr .«mail.Address»))), (.field (.var .w) .err)])
              ((.tree, .tree ts) :: started h s) h₂ = .ok (.ret [.slice (.ptr .«mail.Address») aa (adr.map Val.ptr).length cap, ev₂], h₂) := by
            go_run [started, load_apply R2.wobj, assertTy]
          refine call_ret _ _ _ (ρ := [(.input, .str s)]) (vs := [.slice (.ptr .«mail.Address») aa (adr.map Val.ptr).length cap, ev₂]) rfl rfl ?_
          show execs _ _ _ (_ :: (prologue ++ _)) _ _ = _
          rw [exec_cons _ _ _ s0, pro, exec_cons _ _ _ s1, exec_cons _ _ _ s2, exec_cons _ _ _ s3, exec_ret _ _ _ s4]
        · cases ok
    · rw [← like, hp] at ok
      cases ok
      obtain ⟨g, rfl⟩ := errorIs_some R2.err
      have k2 := keepW R [(.nodes, .slice .iface none 0 0), (.res, .nil), (.err, .err g)]
      generalize h₁.set (h.length + 2) (.struct .walker [(.nodes, .slice .iface none 0 0), (.res, .nil), (.err, .err g)]) = h₂ at run R2 k2
      refine ⟨.slice (.ptr .«mail.Address») none 0 0, .err g, h₂, ?_, ⟨rfl, R2.err, k1.trans k2, by simp [refersTo], by simp [refersTo], by simp [refersTo]⟩, fun _ _ => ee⟩
      have s1 : exec Code.program S (callFn Code.program S (n + 2)) (.define .tree (.method (.var .p) .AddressList [])) (started h s) h₁ =
          .ok (.next ((.tree, .tree (S.recovered .addressList s)) :: started h s), h₂) := by
        rw [run] at fa
        go_run [started, fa]
      have s2 : exec Code.program S (callFn Code.program S (n + 2)) (.ite (.bin .ne (.field (.var .w) .err) .nil)
          [.ret [.nil, (.field (.var .w) .err)]] []) ((.tree, .tree (S.recovered .addressList s)) :: started h s) h₂ = .ok (.ret [.nil, .err g], h₂) := by
        go_run [started, load_apply R2.wobj]
      refine call_ret _ _ _ (ρ := [(.input, .str s)]) (vs := [.nil, .err g]) rfl rfl ?_
      show execs _ _ _ (_ :: (prologue ++ _)) _ _ = _
      rw [exec_cons _ _ _ s0, pro, exec_cons _ _ _ s1, exec_ret _ _ _ s2]

/-! ### Dates -/

theorem dates_ok (S : Setting) (n : Nat) (P : Predictor) (h : Heap) (s : Bytes)
    (like : S.parse .dateTime s = descend P Gr.dateTime (tokens s)) {t err} (ok : parseDateTime P S.env s = .ok (t, err)) :
    ∃ e h', callFn Code.program S (n + 3) Code.ParseDateTime [.str s] h = .ok ([.time t, e], h') ∧ (errorIs err e ∧ Keep h.length h h') ∧
      (s ≠ [] → S.parse .dateTime s = none → e = syntaxErr (S.lastMessage .dateTime s)) := by
  show ∃ e h', callFn Code.program S (n + 2 + 1) _ _ h = _ ∧ _
  unfold parseDateTime at ok
  by_cases se : s = []
  · subst se
    cases ok
    refine ⟨.nil, h, ?_, ⟨rfl, Keep.refl _ _⟩, fun k => (k rfl).elim⟩
    rw [callFn]
    go_run [Code.ParseDateTime]
  · rw [if_neg (by simpa using se)] at ok
    have ne := notEmpty se
    obtain ⟨h₁, ls, pro, R, k1, gp, sl⟩ := prologue_ok S (callFn Code.program S (n + 2)) h s
      [.define .tree (.method (.var .p) .DateTime []),
       .ite (.bin .ne (.field (.var .w) .err) .nil)
         [.ret [.zeroTime, (.field (.var .w) .err)]]
         [],
       .expr (.method (.global .«antlr.ParseTreeWalkerDefault») .Walk [(.var .w), (.var .tree)]),
       .ret [(.assert (.field (.var .w) .res) (.named .«time.Time»)), (.field (.var .w) .err)]]
    have s0 : exec Code.program S (callFn Code.program S (n + 2)) (.ite (.bin .eq (.call .len [(.var .input)]) (.int 0))
        [.ret [.zeroTime, .nil]] []) [(.input, .str s)] h = .ok (.next [(.input, .str s)], h) := by
      go_run [ne, se]
    have fa := foreign_dateTime S (callFn Code.program S (n + 2)) gp
    obtain ⟨ts, hp, run⟩ | ⟨hp, ev', ee, run, R2⟩ := parse_ok S (n + 1) .dateTime R gp sl
    · rw [← like, hp] at ok
      dsimp only at ok
      split at ok
      · cases ok
      · rename_i w' wk
        split at ok
        · rename_i t' rs
          cases ok
          obtain ⟨h₂, ns₂, rv₂, ev₂, cells₂, run2, R2, k2⟩ := walkList_ok S n ts R wk
          have rr := R2.res
          rw [rs] at rr
          cases (show rv₂ = .time t from rr)
          refine ⟨ev₂, h₂, ?_, ⟨R2.err, k1.trans k2⟩, fun _ k => by rw [hp] at k; cases k⟩
          have s1 : exec Code.program S (callFn Code.program S (n + 2)) (.define .tree (.method (.var .p) .DateTime [])) (started h s) h₁ =
              .ok (.next ((.tree, .tree ts) :: started h s), h₁) := by
            rw [run] at fa
            go_run [started, fa]
          have s2 : exec Code.program S (callFn Code.program S (n + 2)) (.ite (.bin .ne (.field (.var .w) .err) .nil)
              [.ret [.zeroTime, (.field (.var .w) .err)]] []) ((.tree, .tree ts) :: started h s) h₁ = .ok (.next ((.tree, .tree ts) :: started h s), h₁) := by
            go_run [started, load_apply R.wobj]
          have s3 : exec Code.program S (callFn Code.program S (n + 2)) (.expr (.method (.global .«antlr.ParseTreeWalkerDefault») .Walk [(.var .w), (.var .tree)]))
              ((.tree, .tree ts) :: started h s) h₁ = .ok (.next ((.tree, .tree ts) :: started h s), h₂) := by
            go_run [started, walk_call S _ run2]
          have s4 : exec Code.program S (callFn Code.program S (n + 2)) (.ret [(.assert (.field (.var .w) .res) (.named .«time.Time»)), (.field (.var .w) .err)])
              ((.tree, .tree ts) :: started h s) h₂ = .ok (.ret [.time t, ev₂], h₂) := by
            go_run [started, load_apply R2.wobj, assertTy]
          refine call_ret _ _ _ (ρ := [(.input, .str s)]) (vs := [.time t, ev₂]) rfl rfl ?_
          show execs _ _ _ (_ :: (prologue ++ _)) _ _ = _
          rw [exec_cons _ _ _ s0, pro, exec_cons _ _ _ s1, exec_cons _ _ _ s2, exec_cons _ _ _ s3, exec_ret _ _ _ s4]
        · cases ok
    · rw [← like, hp] at ok
      cases ok
      obtain ⟨g, rfl⟩ := errorIs_some R2.err
      have k2 := keepW R [(.nodes, .slice .iface none 0 0), (.res, .nil), (.err, .err g)]
      generalize h₁.set (h.length + 2) (.struct .walker [(.nodes, .slice .iface none 0 0), (.res, .nil), (.err, .err g)]) = h₂ at run R2 k2
      refine ⟨.err g, h₂, ?_, ⟨R2.err, k1.trans k2⟩, fun _ _ => ee⟩
      have s1 : exec Code.program S (callFn Code.program S (n + 2)) (.define .tree (.method (.var .p) .DateTime [])) (started h s) h₁ =
          .ok (.next ((.tree, .tree (S.recovered .dateTime s)) :: started h s), h₂) := by
        rw [run] at fa
        go_run [started, fa]
      have s2 : exec Code.program S (callFn Code.program S (n + 2)) (.ite (.bin .ne (.field (.var .w) .err) .nil)
          [.ret [.zeroTime, (.field (.var .w) .err)]] []) ((.tree, .tree (S.recovered .dateTime s)) :: started h s) h₂ = .ok (.ret [.time zeroTime, .err g], h₂) := by
        go_run [started, load_apply R2.wobj]
      refine call_ret _ _ _ (ρ := [(.input, .str s)]) (vs := [.time zeroTime, .err g]) rfl rfl ?_
      show execs _ _ _ (_ :: (prologue ++ _)) _ _ = _
      rw [exec_cons _ _ _ s0, pro, exec_cons _ _ _ s1, exec_ret _ _ _ s2]

end Rfc5322.Go
