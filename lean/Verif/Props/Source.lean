import Verif.Proofs.GoApi
import Verif.Model.Source
import Verif.Props.Generated

/-!
# C61, C62: the hand-written source

Here the Go functions of the hand-written package are executed (`Verif/Model/GoLang.lean`, `Verif/Model/GoCode.lean`), on a heap, with the functions of the
generated parser (`Verif/Model/GeneratedData.lean`): nothing of `Verif/Model/Walk.lean` or of `Verif/Model/Api.lean` is used in `goParseAddressList` and
`goParseDateTime`.  What a caller finds is read from the heap by `readSlice`, `refersTo` and `errorIs` (`Verif/Spec/GoResult.lean`).
-/

namespace Rfc5322.Props

open Spec Atn Gen Go

theorem generated_addresses (T : Runtime parserNet) (P : Predictor) (s : Bytes) : generatedParse T .addressList s = descend P Gr.addressList (tokens s) := by
  have hw : Gr.addressList.wf = true := by decide
  unfold generatedParse
  rw [descend_eq_search P Gr.addressList hw]
  rcases start_run T (i := 34) (R := .addressList) rfl (by decide +kernel) (fun h => (addressList_sound (env := ⟨fun _ => none, 0⟩) h).1) hw (toks := tokens s)
    (Nat.le_refl _) with ⟨h1, h2⟩ | ⟨ts, h1, h2⟩
  · rw [h1, show search Gr.addressList (tokens s) = none from h2]
  · rw [h1, show search Gr.addressList (tokens s) = some _ from h2]

theorem generated_dates (T : Runtime parserNet) (P : Predictor) (s : Bytes) : generatedParse T .dateTime s = descend P Gr.dateTime (tokens s) := by
  have hw : Gr.dateTime.wf = true := by decide
  have hend : ∀ {s ts s'}, Derives (ruleG .dateTime) s [.node .dateTime ts] s' → s' = [] := by
    intro s ts s' hd
    have hd : Derives Gr.dateTime s [.node .dateTime ts] s' := hd
    unfold Gr.dateTime at hd
    cases hd with
    | rule hd => exact ((endMeans_date (env := ⟨fun _ => none, 0⟩)).sound hd).1
  unfold generatedParse
  rw [descend_eq_search P Gr.dateTime hw]
  rcases start_run T (i := 15) (R := .dateTime) rfl (by decide +kernel) hend hw (toks := tokens s) (Nat.le_refl _) with ⟨h1, h2⟩ | ⟨ts, h1, h2⟩
  · rw [h1, show search Gr.dateTime (tokens s) = none from h2]
  · rw [h1, show search Gr.dateTime (tokens s) = some _ from h2]

theorem go_addresses (W : World) (P : Predictor) {n : Nat} (hn : 3 ≤ n) (h : Heap) (s : Bytes) : ∃ l err v e h',
    goParseAddressList W n s h = .ok ([v, e], h') ∧ parseAddressList P W.env s = .ok (l, err) ∧ AddressesAre h h' v e l err ∧
      (s ≠ [] → generatedParse W.runtime .addressList s = none → e = syntaxErr (W.setting.lastMessage .addressList s)) := by
  obtain ⟨l, err, ok⟩ := C02_addresses_never_panic P W.env s
  obtain ⟨m, rfl⟩ := Nat.exists_eq_add_of_le hn
  obtain ⟨v, e, h', r, a, x⟩ := addresses_ok W.setting m P h s (generated_addresses W.runtime P s) ok
  refine ⟨l, err, v, e, h', ?_, ok, a, x⟩
  rw [Nat.add_comm 3 m]
  exact r

theorem go_dates (W : World) (P : Predictor) {n : Nat} (hn : 3 ≤ n) (h : Heap) (s : Bytes) : ∃ t err e h',
    goParseDateTime W n s h = .ok ([.time t, e], h') ∧ parseDateTime P W.env s = .ok (t, err) ∧ (errorIs err e ∧ Keep h.length h h') ∧
      (s ≠ [] → generatedParse W.runtime .dateTime s = none → e = syntaxErr (W.setting.lastMessage .dateTime s)) := by
  obtain ⟨t, err, ok⟩ := C02_dates_never_panic P W.env s
  obtain ⟨m, rfl⟩ := Nat.exists_eq_add_of_le hn
  obtain ⟨e, h', r, a, x⟩ := dates_ok W.setting m P h s (generated_dates W.runtime P s) ok
  refine ⟨t, err, e, h', ?_, ok, a, x⟩
  rw [Nat.add_comm 3 m]
  exact r

/-! ## C61: it computes what the other theorems speak of -/

/-- `ParseAddressList` as written, in any world (any right runtime, any growth of slices, any messages), started on any heap, returns: without a panic, without
an unmodelled operation and without calls nested more than three deep, two values, which are the slice and the error of `parseAddressList`. -/
theorem C61_addresses (W : World) (P : Predictor) {n : Nat} (hn : 3 ≤ n) (h : Heap) (input : Bytes) : ∃ slice err v e h',
    goParseAddressList W n input h = .ok ([v, e], h') ∧ parseAddressList P W.env input = .ok (slice, err) ∧ readSlice h' v = some slice ∧ errorIs err e := by
  obtain ⟨l, err, v, e, h', r, ok, a, -⟩ := go_addresses W P hn h input
  exact ⟨l, err, v, e, h', r, ok, a.1, a.2.1⟩

/-- The same for `ParseDateTime`. -/
theorem C61_dates (W : World) (P : Predictor) {n : Nat} (hn : 3 ≤ n) (h : Heap) (input : Bytes) : ∃ t err e h',
    goParseDateTime W n input h = .ok ([.time t, e], h') ∧ parseDateTime P W.env input = .ok (t, err) ∧ errorIs err e := by
  obtain ⟨t, err, e, h', r, ok, a, -⟩ := go_dates W P hn h input
  exact ⟨t, err, e, h', r, ok, a.1⟩

/-- Without the model in between: the source against the language of `Verif/Spec/Address.lean`.  A text of the language gives the slice of its meaning and the nil
error; any other text the nil slice and the error with the last message of the parser. -/
theorem C61_addresses_language (W : World) {n : Nat} (hn : 3 ≤ n) (h : Heap) {input : Bytes} (hne : input ≠ []) :
    (∃ l v h', AddressList W.env (tokens input) l ∧ goParseAddressList W n input h = .ok ([v, .nil], h') ∧ readSlice h' v = some (goSlice l)) ∨
    ((∀ l, ¬ AddressList W.env (tokens input) l) ∧ ∃ v h',
      goParseAddressList W n input h = .ok ([v, .err (.new (b!"error parsing rfc5322 input: " ++
        (W.message .addressList input :: W.messages .addressList input).getLast (by simp)))], h') ∧ readSlice h' v = some none) := by
  obtain ⟨P⟩ := Predictor.nonempty
  obtain ⟨l, err, v, e, h', r, ok, a, x⟩ := go_addresses W P hn h input
  rcases parseAddressList_spec P W.env hne with ⟨l', hl, ok'⟩ | ⟨hl, ok'⟩
  · rw [ok] at ok'
    cases ok'
    cases (show e = .nil from a.2.1)
    exact .inl ⟨l', v, h', hl, r, a.1⟩
  · rw [ok] at ok'
    cases ok'
    refine .inr ⟨hl, v, h', ?_, a.1⟩
    have hp : generatedParse W.runtime .addressList input = none := by
      have hw : Gr.addressList.wf = true := by decide
      rw [generated_addresses W.runtime P, descend_eq_search P Gr.addressList hw]
      cases hs : search Gr.addressList (tokens input) with
      | none => rfl
      | some ts =>
        obtain ⟨_, l, hl', -⟩ := addressList_sound (env := W.env) (search_sound hs)
        exact (hl l hl').elim
    rw [x hne hp] at r
    exact r

/-- The same for `ParseDateTime`. -/
theorem C61_dates_language (W : World) {n : Nat} (hn : 3 ≤ n) (h : Heap) {input : Bytes} (hne : input ≠ []) :
    (∃ f h', DateTime W.env.nowYear (tokens input) f ∧ goParseDateTime W n input h = .ok ([.time f.time, .nil], h')) ∨
    ((∀ f, ¬ DateTime W.env.nowYear (tokens input) f) ∧ ∃ h',
      goParseDateTime W n input h = .ok ([.time ⟨-62135596800, ⟨b!"UTC", 0⟩⟩, .err (.new (b!"error parsing rfc5322 input: " ++
        (W.message .dateTime input :: W.messages .dateTime input).getLast (by simp)))], h')) := by
  obtain ⟨P⟩ := Predictor.nonempty
  obtain ⟨t, err, e, h', r, ok, a, x⟩ := go_dates W P hn h input
  rcases parseDateTime_spec P W.env hne with ⟨l', hl, ok'⟩ | ⟨hl, ok'⟩
  · rw [ok] at ok'
    simp only [Except.ok.injEq, Prod.mk.injEq] at ok'
    obtain ⟨rfl, rfl⟩ := ok'
    cases (show e = .nil from a.1)
    exact .inl ⟨l', h', hl, r⟩
  · rw [ok] at ok'
    simp only [Except.ok.injEq, Prod.mk.injEq] at ok'
    obtain ⟨rfl, rfl⟩ := ok'
    refine .inr ⟨hl, h', ?_⟩
    have hp : generatedParse W.runtime .dateTime input = none := by
      have hw : Gr.dateTime.wf = true := by decide
      rw [generated_dates W.runtime P, descend_eq_search P Gr.dateTime hw]
      cases hs : search Gr.dateTime (tokens input) with
      | none => rfl
      | some ts =>
        have hd := search_sound hs
        unfold Gr.dateTime at hd
        cases hd with
        | rule hd =>
          obtain ⟨_, g, hg, -⟩ := (endMeans_date (env := W.env)).sound hd
          obtain ⟨f, hf, -⟩ := dateLang_iff hg
          exact (hl f hf).elim
    rw [x hne hp] at r
    exact r

/-- The last message that the parser reports for an input. -/
def lastMessage (W : World) (r : Rule) (input : Bytes) : Bytes := (W.message r input :: W.messages r input).getLast (by simp)

/-- What the caller sees does not depend on the heap the call finds, nor on the growth of slices, nor on how the predictions are made: only on the input, the
`CharsetReader`, the current year, and (in the text of an error) the last message. -/
theorem C61_same_everywhere (W₁ W₂ : World) (henv : W₁.env = W₂.env) {n₁ n₂ : Nat} (hn₁ : 3 ≤ n₁) (hn₂ : 3 ≤ n₂) (h₁ h₂ : Heap) (input : Bytes) :
    ∃ v₁ e₁ h₁' v₂ e₂ h₂', goParseAddressList W₁ n₁ input h₁ = .ok ([v₁, e₁], h₁') ∧ goParseAddressList W₂ n₂ input h₂ = .ok ([v₂, e₂], h₂') ∧
      readSlice h₁' v₁ = readSlice h₂' v₂ ∧ (e₁ = .nil ↔ e₂ = .nil) ∧ (lastMessage W₁ .addressList input = lastMessage W₂ .addressList input → e₁ = e₂) := by
  obtain ⟨P⟩ := Predictor.nonempty
  obtain ⟨l, err, v, e, h', r, ok, rd, er⟩ := C61_addresses W₁ P hn₁ h₁ input
  obtain ⟨l', err', v', e', h'', r', ok', rd', er'⟩ := C61_addresses W₂ P hn₂ h₂ input
  have ok₁ := ok
  rw [henv, ok'] at ok
  cases ok
  refine ⟨v, e, h', v', e', h'', r, r', rd.trans rd'.symm, ?_⟩
  cases err with
  | none => exact ⟨⟨fun _ => er', fun _ => er⟩, fun _ => Eq.trans er (Eq.symm er')⟩
  | some x =>
    obtain ⟨g, rfl⟩ := errorIs_some er
    obtain ⟨g', rfl⟩ := errorIs_some er'
    refine ⟨by simp, fun hm => ?_⟩
    have hne : input ≠ [] := by
      rintro rfl
      simp [Rfc5322.parseAddressList] at ok'
    rcases C61_addresses_language W₁ hn₁ h₁ hne with ⟨_, _, _, -, q, -⟩ | ⟨-, _, _, q, -⟩
    · rw [r] at q; cases q
    rcases C61_addresses_language W₂ hn₂ h₂ hne with ⟨_, _, _, -, q', -⟩ | ⟨-, _, _, q', -⟩
    · rw [r'] at q'; cases q'
    rw [r] at q
    rw [r'] at q'
    simp only [Except.ok.injEq, Prod.mk.injEq, List.cons.injEq, and_true] at q q'
    rw [q.1.2, q'.1.2]
    exact congrArg (fun m => Val.err (.new (b!"error parsing rfc5322 input: " ++ m))) hm

/-- The same for `ParseDateTime`. -/
theorem C61_same_dates_everywhere (W₁ W₂ : World) (henv : W₁.env = W₂.env) {n₁ n₂ : Nat} (hn₁ : 3 ≤ n₁) (hn₂ : 3 ≤ n₂) (h₁ h₂ : Heap) (input : Bytes) :
    ∃ t e₁ h₁' e₂ h₂', goParseDateTime W₁ n₁ input h₁ = .ok ([.time t, e₁], h₁') ∧ goParseDateTime W₂ n₂ input h₂ = .ok ([.time t, e₂], h₂') ∧
      (e₁ = .nil ↔ e₂ = .nil) ∧ (lastMessage W₁ .dateTime input = lastMessage W₂ .dateTime input → e₁ = e₂) := by
  obtain ⟨P⟩ := Predictor.nonempty
  obtain ⟨t, err, e, h', r, ok, er⟩ := C61_dates W₁ P hn₁ h₁ input
  obtain ⟨t', err', e', h'', r', ok', er'⟩ := C61_dates W₂ P hn₂ h₂ input
  rw [henv, ok'] at ok
  cases ok
  refine ⟨t, e, h', e', h'', r, r', ?_⟩
  cases err with
  | none => exact ⟨⟨fun _ => er', fun _ => er⟩, fun _ => Eq.trans er (Eq.symm er')⟩
  | some x =>
    obtain ⟨g, rfl⟩ := errorIs_some er
    obtain ⟨g', rfl⟩ := errorIs_some er'
    refine ⟨by simp, fun hm => ?_⟩
    have hne : input ≠ [] := by
      rintro rfl
      simp [Rfc5322.parseDateTime] at ok'
    rcases C61_dates_language W₁ hn₁ h₁ hne with ⟨_, _, -, q⟩ | ⟨-, _, q⟩
    · rw [r] at q
      simp only [Except.ok.injEq, Prod.mk.injEq, List.cons.injEq, and_true, reduceCtorEq, and_false, false_and] at q
    rcases C61_dates_language W₂ hn₂ h₂ hne with ⟨_, _, -, q'⟩ | ⟨-, _, q'⟩
    · rw [r'] at q'
      simp only [Except.ok.injEq, Prod.mk.injEq, List.cons.injEq, and_true, reduceCtorEq, and_false, false_and] at q'
    rw [r] at q
    rw [r'] at q'
    simp only [Except.ok.injEq, Prod.mk.injEq, List.cons.injEq, and_true] at q q'
    rw [q.1.2, q'.1.2]
    exact congrArg (fun m => Val.err (.new (b!"error parsing rfc5322 input: " ++ m))) hm

/-! ## C62: the results belong to the caller -/

/-- A call changes nothing that was there before. -/
theorem C62_nothing_changes (W : World) {n : Nat} (hn : 3 ≤ n) {h h' : Heap} {input : Bytes} {vs : List Val}
    (call : goParseAddressList W n input h = .ok (vs, h') ∨ goParseDateTime W n input h = .ok (vs, h')) :
    h.length ≤ h'.length ∧ ∀ i, i < h.length → h'[i]? = h[i]? := by
  obtain ⟨P⟩ := Predictor.nonempty
  rcases call with call | call
  · obtain ⟨l, err, v, e, h₁, r, -, a, -⟩ := go_addresses W P hn h input
    rw [call] at r
    cases r
    exact a.2.2.1
  · obtain ⟨t, err, e, h₁, r, -, a, -⟩ := go_dates W P hn h input
    rw [call] at r
    cases r
    exact a.2

/-- The slice and its elements are new objects, and different ones. -/
theorem C62_results_are_new (W : World) {n : Nat} (hn : 3 ≤ n) {h h' : Heap} {input : Bytes} {v e : Val}
    (call : goParseAddressList W n input h = .ok ([v, e], h')) :
    (refersTo h' v).Nodup ∧ ∀ a ∈ refersTo h' v, h.length ≤ a ∧ a < h'.length := by
  obtain ⟨P⟩ := Predictor.nonempty
  obtain ⟨l, err, v₁, e₁, h₁, r, -, a, -⟩ := go_addresses W P hn h input
  rw [call] at r
  cases r
  exact ⟨a.2.2.2.1, fun i m => ⟨a.2.2.2.2.1 i m, a.2.2.2.2.2 i m⟩⟩

/-- What the program may do afterwards without writing to the objects `own`: call the two functions in any worlds, allocate objects, write to others. -/
inductive Later (own : List Nat) : Heap → Heap → Prop
  | refl (h) : Later own h h
  | call {h₁ h₂ h₃ : Heap} {W : World} {n : Nat} {input : Bytes} {vs : List Val} : Later own h₁ h₂ → 3 ≤ n →
      goParseAddressList W n input h₂ = .ok (vs, h₃) ∨ goParseDateTime W n input h₂ = .ok (vs, h₃) → Later own h₁ h₃
  | alloc {h₁ h₂ : Heap} (o : Obj) : Later own h₁ h₂ → Later own h₁ (h₂ ++ [o])
  | write {h₁ h₂ : Heap} (i : Nat) (o : Obj) : Later own h₁ h₂ → i ∉ own → Later own h₁ (h₂.set i o)

theorem Later.keeps {own : List Nat} {h h' : Heap} (k : Later own h h') : (h.length ≤ h'.length) ∧ ∀ i ∈ own, i < h.length → h'[i]? = h[i]? := by
  induction k with
  | refl => exact ⟨Nat.le_refl _, fun _ _ _ => rfl⟩
  | call _ hn c ih =>
    obtain ⟨a, b⟩ := C62_nothing_changes _ hn c
    exact ⟨Nat.le_trans ih.1 a, fun i m l => (b i (Nat.lt_of_lt_of_le l ih.1)).trans (ih.2 i m l)⟩
  | alloc o _ ih =>
    refine ⟨by simp; have := ih.1; omega, fun i m l => ?_⟩
    rw [List.getElem?_append_left (Nat.lt_of_lt_of_le l ih.1)]
    exact ih.2 i m l
  | write i o _ ni ih =>
    refine ⟨by simpa using ih.1, fun j m l => ?_⟩
    rw [getElem?_set_ne (by rintro rfl; exact ni m)]
    exact ih.2 j m l

theorem readAddresses_congr {h h' : Heap} : ∀ {vs : List Val}, (∀ b, Val.ptr b ∈ vs → h'[b]? = h[b]?) → readAddresses h' vs = readAddresses h vs
  | [], _ => rfl
  | v :: vs, k => by
    have e1 : readAddress h' v = readAddress h v := by
      cases v with
      | ptr b => simp [readAddress, k b (by simp)]
      | _ => rfl
    simp [readAddresses, e1, readAddresses_congr (vs := vs) fun b m => k b (by simp [m])]

/-- What is read depends only on the objects the slice refers to. -/
theorem readSlice_congr {h h' : Heap} {v : Val} (k : ∀ i ∈ refersTo h v, h'[i]? = h[i]?) : readSlice h' v = readSlice h v := by
  unfold readSlice
  split
  · rfl
  · rename_i a len cap
    have ka := k a (by simp [refersTo])
    rw [ka]
    cases ha : h[a]? with
    | none => rfl
    | some o =>
      cases o with
      | array vs =>
        dsimp only
        rw [readAddresses_congr fun b m => k b ?_]
        simp only [refersTo, ha, List.mem_cons, List.mem_filterMap]
        exact .inr ⟨_, m, rfl⟩
      | _ => rfl
  · rfl

/-- A result stays as it is, whatever is called later, as long as the program does not write to the slice or its elements. -/
theorem C62_results_last (W : World) {n : Nat} (hn : 3 ≤ n) {h h' h'' : Heap} {input : Bytes} {v e : Val}
    (call : goParseAddressList W n input h = .ok ([v, e], h')) (later : Later (refersTo h' v) h' h'') : readSlice h'' v = readSlice h' v :=
  readSlice_congr fun i m => later.keeps.2 i m ((C62_results_are_new W hn call).2 i m).2

/-- The results of two calls have nothing in common, whatever happens in between. -/
theorem C62_nothing_shared (W₁ W₂ : World) {n₁ n₂ : Nat} (hn₁ : 3 ≤ n₁) (hn₂ : 3 ≤ n₂) {h₁ h₁' h₂ h₂' : Heap} {input₁ input₂ : Bytes} {v₁ e₁ v₂ e₂ : Val}
    (call₁ : goParseAddressList W₁ n₁ input₁ h₁ = .ok ([v₁, e₁], h₁')) (own : List Nat) (later : Later own h₁' h₂)
    (call₂ : goParseAddressList W₂ n₂ input₂ h₂ = .ok ([v₂, e₂], h₂')) : ∀ a ∈ refersTo h₁' v₁, a ∉ refersTo h₂' v₂ := by
  intro a m₁ m₂
  have l1 := ((C62_results_are_new W₁ hn₁ call₁).2 a m₁).2
  have l2 := ((C62_results_are_new W₂ hn₂ call₂).2 a m₂).1
  have := later.keeps.1
  omega

/-- The results of a call may be changed at will: the next call gives the same as ever. -/
theorem C62_results_may_be_changed (W₁ W₂ : World) (P : Predictor) {n₁ n₂ : Nat} (hn₂ : 3 ≤ n₂) {h h' h'' : Heap} {input₁ : Bytes} {v e : Val}
    (_call : goParseAddressList W₁ n₁ input₁ h = .ok ([v, e], h')) (_later : Later [] h' h'') (input₂ : Bytes) : ∃ slice err v₂ e₂ h₂,
    goParseAddressList W₂ n₂ input₂ h'' = .ok ([v₂, e₂], h₂) ∧ parseAddressList P W₂.env input₂ = .ok (slice, err) ∧ readSlice h₂ v₂ = some slice ∧ errorIs err e₂ :=
  C61_addresses W₂ P hn₂ h'' input₂

/-! ## Concrete cases -/

/-- There are worlds. -/
theorem World.nonempty (env : Env) : ∃ W : World, W.env = env := by
  obtain ⟨T⟩ := Runtime.nonempty parserNet
  exact ⟨⟨T, env, fun _ _ n => n, fun _ _ _ => Nat.le_refl _, fun _ _ => [], fun _ _ => [], fun _ _ => []⟩, rfl⟩

/-- A group and a mailbox. -/
example (W : World) (hW : W.env = env0) (h : Heap) : ∃ v h', goParseAddressList W 3 (utf8 c!"g: Joe <a@b>, c@d;") h = .ok ([v, .nil], h') ∧
    readSlice h' v = some (some [⟨b!"Joe", b!"a@b"⟩, ⟨b!"", b!"c@d"⟩]) := by
  obtain ⟨P⟩ := Predictor.nonempty
  obtain ⟨l, err, v, e, h', r, ok, rd, er⟩ := C61_addresses W P (Nat.le_refl 3) h (utf8 c!"g: Joe <a@b>, c@d;")
  rw [hW, show parseAddressList P env0 (utf8 c!"g: Joe <a@b>, c@d;") = .ok (some [⟨b!"Joe", b!"a@b"⟩, ⟨b!"", b!"c@d"⟩], none) by eval_addr] at ok
  cases ok
  cases (show e = .nil from er)
  exact ⟨v, h', r, rd⟩

/-- An empty group: the nil slice, without an error. -/
example (W : World) (hW : W.env = env0) (h : Heap) : ∃ v h', goParseAddressList W 3 (utf8 c!"g:;") h = .ok ([v, .nil], h') ∧ readSlice h' v = some none := by
  obtain ⟨P⟩ := Predictor.nonempty
  obtain ⟨l, err, v, e, h', r, ok, rd, er⟩ := C61_addresses W P (Nat.le_refl 3) h (utf8 c!"g:;")
  rw [hW, show parseAddressList P env0 (utf8 c!"g:;") = .ok (none, none) by eval_addr] at ok
  cases ok
  cases (show e = .nil from er)
  exact ⟨v, h', r, rd⟩

/-- An error. -/
example (W : World) (hW : W.env = env0) (h : Heap) : ∃ v h' msg, goParseAddressList W 3 (utf8 c!"joe") h =
    .ok ([v, .err (.new (b!"error parsing rfc5322 input: " ++ msg))], h') ∧ readSlice h' v = some none := by
  obtain ⟨P⟩ := Predictor.nonempty
  obtain ⟨l, err, v, e, h', r, ok, rd, er⟩ := C61_addresses W P (Nat.le_refl 3) h (utf8 c!"joe")
  rw [hW, show parseAddressList P env0 (utf8 c!"joe") = .ok (none, some .syntaxError) by eval_addr] at ok
  cases ok
  obtain ⟨msg, rfl⟩ := er
  exact ⟨v, h', msg, r, rd⟩

/-- A date. -/
example (W : World) (hW : W.env = env0) (h : Heap) : ∃ h', goParseDateTime W 3 (utf8 c!"2 Jan 2006 15:04:05 -0700") h =
    .ok ([.time ⟨1136239445, ⟨b!"-0700", -25200⟩⟩, .nil], h') := by
  obtain ⟨P⟩ := Predictor.nonempty
  obtain ⟨l, err, e, h', r, ok, er⟩ := C61_dates W P (Nat.le_refl 3) h (utf8 c!"2 Jan 2006 15:04:05 -0700")
  rw [hW, show parseDateTime P env0 (utf8 c!"2 Jan 2006 15:04:05 -0700") = .ok (⟨1136239445, ⟨b!"-0700", -25200⟩⟩, none) by eval_date] at ok
  cases ok
  cases (show e = .nil from er)
  exact ⟨h', r⟩

/-- A call, a write to the client's own object, another call: the hypotheses of `C62_results_last` and `C62_nothing_shared` are met. -/
example (W : World) (hW : W.env = env0) : ∃ v e h₁ h₂, goParseAddressList W 3 (utf8 c!"c@d") [.array []] = .ok ([v, e], h₁) ∧
    Later (refersTo h₁ v) h₁ h₂ ∧ h₁ ≠ h₂ ∧ readSlice h₂ v = some (some [⟨b!"", b!"c@d"⟩]) := by
  obtain ⟨P⟩ := Predictor.nonempty
  obtain ⟨l, err, v, e, h₁, r, ok, rd, er⟩ := C61_addresses W P (Nat.le_refl 3) [.array []] (utf8 c!"c@d")
  rw [hW, show parseAddressList P env0 (utf8 c!"c@d") = .ok (some [⟨b!"", b!"c@d"⟩], none) by eval_addr] at ok
  cases ok
  have nc := C62_nothing_changes W (Nat.le_refl 3) (.inl r)
  have h0 : h₁[0]? = some (.array []) := nc.2 0 (by decide)
  have own : 0 ∉ refersTo h₁ v := fun m => by
    have := ((C62_results_are_new W (Nat.le_refl 3) r).2 0 m).1
    simp at this
  obtain ⟨l₂, err₂, v₂, e₂, h₂, r₂, ok₂, rd₂, er₂⟩ := C61_addresses W P (Nat.le_refl 3) (h₁.set 0 (.array [.nil])) (utf8 c!"joe")
  have la : Later (refersTo h₁ v) h₁ h₂ := .call (.write 0 (.array [.nil]) (.refl h₁) own) (Nat.le_refl 3) (.inl r₂)
  refine ⟨v, e, h₁, h₂, r, la, ?_, (C62_results_last W (Nat.le_refl 3) r la).trans rd⟩
  rintro rfl
  have := (C62_nothing_changes W (Nat.le_refl 3) (.inl r₂)).2 0 (by
    have := getElem?_lt h0
    simpa using this)
  rw [h0, getElem?_set_eq _ h0] at this
  simp at this

end Rfc5322.Props
