import Verif.Model.Whole
import Verif.Props.LexerSim
import Verif.Props.Recovery
import Verif.Props.Source

/-!
# C70: everything together

The functions as written, on the generated parser that recovers from errors, on ALL(*) and the lexer of the runtime with the tables of the process, on the integers of the generated files
(`Verif/Model/Whole.lean`), compared with the languages of `Verif/Spec/Address.lean` and `Verif/Spec/Date.lean`.
-/

namespace Rfc5322.Props

open Spec Atn Gen AllStar Whole

/-- The tokens are found. -/
theorem C70_scan {W : Process} (hW : W.Occurs) (input : Bytes) : scan W input = some (tokens input) := by
  rw [scan, C69_tokens (Nat.le_refl 3) hW.lexer input (Nat.lt_succ_self _), Option.bind_some, List.mapM_map]
  have h : ∀ l : List Char, (∀ c ∈ l, (lexRune c).isSome = true) →
      l.mapM (fun c => if tokenType c = some ((tokenType c).getD 0) then some c else none) = some l := by
    intro l
    induction l with
    | nil => intro _; rfl
    | cons c l ih =>
      intro h
      rw [List.mapM_cons, ih fun c hc => h c (List.mem_cons_of_mem _ hc)]
      have h1 := h c (List.mem_cons_self ..)
      obtain ⟨k, hk⟩ := Option.isSome_iff_exists.mp h1
      have h2 : tokenType c = some ((tokenType c).getD 0) := by rw [tokenType, hk]; rfl
      rw [if_pos h2]
      rfl
  refine h _ fun c hc => ?_
  unfold tokens at hc
  exact (List.mem_filter.mp hc).2

/-- The tables of the process make no difference. -/
theorem whole_predict {W : Process} (hW : W.Occurs) : predict W = (parserRuntime W.graphs).predict := by
  funext d σ s
  refine Option.ext fun n => ?_
  have h := (C67_runtime W.graphs d 0 σ s).1 n
  have h1 := C67_tables_make_no_difference W.graphs (hW.parser d σ s) d σ s
  refine Iff.trans ?_ h.symm
  unfold predict
  rw [h1]
  generalize adaptivePredict W.graphs parserNet d σ s = x
  cases x <;> simp

/-- Parsing comes to an end, whatever the input is: with a tree, after at most one report per token and one more. -/
theorem C70_parse_ends {W : Process} (hW : W.Occurs) (r : Rule) (input : Bytes) : ∃ ts log, parse W r input = some ([.node r ts], log) ∧ log.length ≤ (tokens input).length + 1 := by
  obtain ⟨ts, S, h⟩ := C68_functions_end W.graphs r [] (.init (tokens input)) (n := 20000 * ((tokens input).length + 1)) (Nat.le_refl _)
  refine ⟨ts, S.log, ?_, C68_reports_are_few W.graphs r [] (tokens input) h⟩
  rw [parse, C70_scan hW, Option.bind_some, whole_predict hW, h]

theorem whole_parse {W : Process} (hW : W.Occurs) (r : Rule) (input : Bytes) :
    Go.generatedParse (parserRuntime W.graphs) r input = flawless (parse W r input) := by
  rw [parse, C70_scan hW, Option.bind_some, whole_predict hW, Go.generatedParse,
    C60_steps_do_not_matter (parserRuntime W.graphs) r [] (tokens input) (Nat.le_refl _) (m := 20000 * ((tokens input).length + 1)) (by omega)]
  rcases C68_errors_are_reported W.graphs r [] (tokens input) (Nat.le_refl _) with ⟨ts, rest, S, h1, h2, -, h4⟩ | ⟨ts, S, h1, h2, h3⟩
  · rw [h1, h2]
    dsimp only
    rw [List.length_eq_zero_iff.mp h4]
    rfl
  · rw [h1, h2]
    dsimp only
    obtain ⟨m, log, hm⟩ := List.exists_cons_of_length_pos h3
    rw [hm]
    rfl

/-- The process as a world of C61. -/
noncomputable def _root_.Rfc5322.Whole.Process.world (W : Process) : Go.World where
  runtime := parserRuntime W.graphs
  env := W.env
  grow := W.grow
  grow_ge := W.grow_ge
  message := W.setting.message
  messages := W.setting.messages
  recovered := W.setting.recovered

theorem whole_setting {W : Process} (hW : W.Occurs) : W.setting = W.world.setting := by
  have h : Go.generatedParse (parserRuntime W.graphs) = fun r s => flawless (parse W r s) := by
    funext r s
    exact whole_parse hW r s
  unfold Go.World.setting Whole.Process.world
  dsimp only
  rw [h]
  unfold Process.setting
  dsimp only

theorem whole_addresses {W : Process} (hW : W.Occurs) : Whole.parseAddressList W = Go.goParseAddressList W.world := by
  funext n input
  rw [Whole.parseAddressList, whole_setting hW]
  rfl

theorem whole_dates {W : Process} (hW : W.Occurs) : Whole.parseDateTime W = Go.goParseDateTime W.world := by
  funext n input
  rw [Whole.parseDateTime, whole_setting hW]
  rfl

/-- The last message. -/
theorem whole_message {W : Process} {r : Rule} {input : Bytes} {ts : List Tree} {m : Recovery.Report} {log : List Recovery.Report} (h : parse W r input = some (ts, m :: log)) :
    (W.world.message r input :: W.world.messages r input).getLast (by simp) = W.text m := by
  have h1 : W.world.message r input :: W.world.messages r input = (log.reverse.map W.text) ++ [W.text m] := by
    unfold Whole.Process.world Process.setting
    dsimp only
    rw [h]
    simp only [said, List.reverse_cons, List.map_append, List.map_cons, List.map_nil]
    cases log.reverse.map W.text <;> rfl
  simp [h1]

/-- `ParseAddressList` returns the addresses that the text means, or the last error reported; the slice is on the heap. -/
theorem C70_addresses {W : Process} (hW : W.Occurs) {n : Nat} (hn : 3 ≤ n) (h : Go.Heap) {input : Bytes} (hne : input ≠ []) :
    (∃ l v h', AddressList W.env (tokens input) l ∧ Whole.parseAddressList W n input h = .ok ([v, .nil], h') ∧ Go.readSlice h' v = some (goSlice l)) ∨
    ((∀ l, ¬ AddressList W.env (tokens input) l) ∧ ∃ ts m log v h', parse W .addressList input = some (ts, m :: log) ∧ log.length ≤ (tokens input).length ∧
      Whole.parseAddressList W n input h = .ok ([v, .err (.new (b!"error parsing rfc5322 input: " ++ W.text m))], h') ∧ Go.readSlice h' v = some none) := by
  rw [whole_addresses hW]
  rcases C61_addresses_language W.world hn h hne with h1 | ⟨h1, v, h', h2, h3⟩
  · exact .inl h1
  · refine .inr ⟨h1, ?_⟩
    obtain ⟨ts, log, h4, h5⟩ := C70_parse_ends hW .addressList input
    cases log with
    | nil =>
      exfalso
      have h6 := whole_parse hW .addressList input
      rw [h4] at h6
      obtain ⟨P⟩ := Predictor.nonempty
      rw [generated_addresses _ P, descend_eq_search P Gr.addressList (by decide)] at h6
      obtain ⟨_, l, hl, -⟩ := addressList_sound (env := W.env) (search_sound h6)
      exact h1 l hl
    | cons m log =>
      refine ⟨_, m, log, v, h', h4, Nat.le_of_succ_le_succ h5, ?_, h3⟩
      rw [← whole_message h4]
      exact h2

/-- The same for `ParseDateTime`. -/
theorem C70_dates {W : Process} (hW : W.Occurs) {n : Nat} (hn : 3 ≤ n) (h : Go.Heap) {input : Bytes} (hne : input ≠ []) :
    (∃ f h', DateTime W.env.nowYear (tokens input) f ∧ Whole.parseDateTime W n input h = .ok ([.time f.time, .nil], h')) ∨
    ((∀ f, ¬ DateTime W.env.nowYear (tokens input) f) ∧ ∃ ts m log h', parse W .dateTime input = some (ts, m :: log) ∧ log.length ≤ (tokens input).length ∧
      Whole.parseDateTime W n input h =
        .ok ([.time ⟨-62135596800, ⟨b!"UTC", 0⟩⟩, .err (.new (b!"error parsing rfc5322 input: " ++ W.text m))], h')) := by
  rw [whole_dates hW]
  rcases C61_dates_language W.world hn h hne with h1 | ⟨h1, h', h2⟩
  · exact .inl h1
  · refine .inr ⟨h1, ?_⟩
    obtain ⟨ts, log, h4, h5⟩ := C70_parse_ends hW .dateTime input
    cases log with
    | nil =>
      exfalso
      have h6 := whole_parse hW .dateTime input
      rw [h4] at h6
      obtain ⟨P⟩ := Predictor.nonempty
      rw [generated_dates _ P, descend_eq_search P Gr.dateTime (by decide)] at h6
      have hd := search_sound h6
      unfold Gr.dateTime at hd
      cases hd with
      | rule hd =>
        obtain ⟨_, g, hg, -⟩ := (endMeans_date (env := W.env)).sound hd
        obtain ⟨f, hf, -⟩ := dateLang_iff hg
        exact h1 f hf
    | cons m log =>
      refine ⟨_, m, log, h', h4, Nat.le_of_succ_le_succ h5, ?_⟩
      rw [← whole_message h4]
      exact h2

/-- It is the function of all other theorems. -/
theorem C70_same_addresses {W : Process} (hW : W.Occurs) (P : Predictor) {n : Nat} (hn : 3 ≤ n) (h : Go.Heap) (input : Bytes) : ∃ slice err v e h',
    Whole.parseAddressList W n input h = .ok ([v, e], h') ∧ Rfc5322.parseAddressList P W.env input = .ok (slice, err) ∧ Go.readSlice h' v = some slice ∧ Go.errorIs err e := by
  rw [whole_addresses hW]
  exact C61_addresses W.world P hn h input

/-- The same for dates. -/
theorem C70_same_dates {W : Process} (hW : W.Occurs) (P : Predictor) {n : Nat} (hn : 3 ≤ n) (h : Go.Heap) (input : Bytes) : ∃ t err e h',
    Whole.parseDateTime W n input h = .ok ([.time t, e], h') ∧ Rfc5322.parseDateTime P W.env input = .ok (t, err) ∧ Go.errorIs err e := by
  rw [whole_dates hW]
  exact C61_dates W.world P hn h input

/-- Nor can it be seen in what the parser makes of an input, errors included. -/
theorem C70_same_parse {W₁ W₂ : Process} (h₁ : W₁.Occurs) (h₂ : W₂.Occurs) (hg : W₁.graphs = W₂.graphs) (r : Rule) (input : Bytes) :
    Whole.parse W₁ r input = Whole.parse W₂ r input := by
  rw [Whole.parse, Whole.parse, C70_scan h₁, C70_scan h₂, whole_predict h₁, whole_predict h₂, hg]

theorem whole_lastMessage {W₁ W₂ : Process} (h₁ : W₁.Occurs) (h₂ : W₂.Occurs) (hg : W₁.graphs = W₂.graphs) (ht : W₁.text = W₂.text) (r : Rule) (input : Bytes) :
    lastMessage W₁.world r input = lastMessage W₂.world r input := by
  have e : ∀ W : Process, lastMessage W.world r input = ((said W.text (Whole.parse W r input)).headD [] :: (said W.text (Whole.parse W r input)).tail).getLast (by simp) := by
    intro W
    unfold lastMessage Whole.Process.world Process.setting
    dsimp only
  simp only [e, C70_same_parse h₁ h₂ hg, ht]

/-- What the process has done before, or does meanwhile, cannot be seen in the result, except through `CharsetReader` and the year: not the tables of lexer and parser, not the heap,
not the growth of slices; nor does it decide which error is returned. -/
theorem C70_history_does_not_matter {W₁ W₂ : Process} (h₁ : W₁.Occurs) (h₂ : W₂.Occurs) (henv : W₁.env = W₂.env) {n₁ n₂ : Nat} (hn₁ : 3 ≤ n₁) (hn₂ : 3 ≤ n₂) (g₁ g₂ : Go.Heap)
    (input : Bytes) : ∃ v₁ e₁ g₁' v₂ e₂ g₂', Whole.parseAddressList W₁ n₁ input g₁ = .ok ([v₁, e₁], g₁') ∧ Whole.parseAddressList W₂ n₂ input g₂ = .ok ([v₂, e₂], g₂') ∧
      Go.readSlice g₁' v₁ = Go.readSlice g₂' v₂ ∧ (e₁ = .nil ↔ e₂ = .nil) ∧ (W₁.graphs = W₂.graphs → W₁.text = W₂.text → e₁ = e₂) := by
  rw [whole_addresses h₁, whole_addresses h₂]
  obtain ⟨v₁, e₁, g₁', v₂, e₂, g₂', a, b, c, d, e⟩ := C61_same_everywhere W₁.world W₂.world henv hn₁ hn₂ g₁ g₂ input
  exact ⟨v₁, e₁, g₁', v₂, e₂, g₂', a, b, c, d, fun hg ht => e (whole_lastMessage h₁ h₂ hg ht _ _)⟩

/-- The same for dates. -/
theorem C70_history_of_dates {W₁ W₂ : Process} (h₁ : W₁.Occurs) (h₂ : W₂.Occurs) (henv : W₁.env = W₂.env) {n₁ n₂ : Nat} (hn₁ : 3 ≤ n₁) (hn₂ : 3 ≤ n₂) (g₁ g₂ : Go.Heap)
    (input : Bytes) : ∃ t e₁ g₁' e₂ g₂', Whole.parseDateTime W₁ n₁ input g₁ = .ok ([.time t, e₁], g₁') ∧ Whole.parseDateTime W₂ n₂ input g₂ = .ok ([.time t, e₂], g₂') ∧
      (e₁ = .nil ↔ e₂ = .nil) ∧ (W₁.graphs = W₂.graphs → W₁.text = W₂.text → e₁ = e₂) := by
  rw [whole_dates h₁, whole_dates h₂]
  obtain ⟨t, e₁, g₁', e₂, g₂', a, b, d, e⟩ := C61_same_dates_everywhere W₁.world W₂.world henv hn₁ hn₂ g₁ g₂ input
  exact ⟨t, e₁, g₁', e₂, g₂', a, b, d, fun hg ht => e (whole_lastMessage h₁ h₂ hg ht _ _)⟩

/-! ## Examples -/

/-- A process with empty tables. -/
def fresh (env : Env) : Process := ⟨plainGraphs, fun _ _ _ _ => none, fun _ _ _ _ => .empty, env, fun _ _ n => n, fun _ _ n => Nat.le_refl n, fun _ => b!"x"⟩

theorem fresh_occurs (env : Env) : (fresh env).Occurs := ⟨fun _ _ => .refl, fun _ _ _ _ => .refl⟩

/-- An address list, from an empty heap. -/
example : ∃ v h', Whole.parseAddressList (fresh env0) 3 (utf8 c!"a <b@c>") [] = .ok ([v, .nil], h') ∧ Go.readSlice h' v = some (some [⟨b!"a", b!"b@c"⟩]) := by
  obtain ⟨P⟩ := Predictor.nonempty
  obtain ⟨slice, err, v, e, h', h1, h2, h3, h4⟩ := C70_same_addresses (fresh_occurs env0) P (Nat.le_refl 3) [] (utf8 c!"a <b@c>")
  have h5 : Rfc5322.parseAddressList P env0 (utf8 c!"a <b@c>") = .ok (some [⟨b!"a", b!"b@c"⟩], none) := by eval_addr
  rw [show (fresh env0).env = env0 from rfl, h5] at h2
  cases h2
  cases (show e = .nil from h4)
  exact ⟨v, h', h1, h3⟩

/-- A text that is not one: at most three reports come before the one that is returned. -/
example : ∃ ts m log v h', parse (fresh env0) .addressList (utf8 c!"joe") = some (ts, m :: log) ∧ log.length ≤ 3 ∧ Whole.parseAddressList (fresh env0) 3 (utf8 c!"joe") [] =
    .ok ([v, .err (.new (b!"error parsing rfc5322 input: " ++ (fresh env0).text m))], h') ∧ Go.readSlice h' v = some none := by
  obtain ⟨P⟩ := Predictor.nonempty
  have h5 : Rfc5322.parseAddressList P env0 (utf8 c!"joe") = .ok (none, some .syntaxError) := by eval_addr
  rcases C70_addresses (fresh_occurs env0) (Nat.le_refl 3) [] (input := utf8 c!"joe") (by decide) with ⟨l, v, h', h1, h2, h3⟩ | ⟨-, ts, m, log, v, h', h0, h1, h2, h3⟩
  · exfalso
    obtain ⟨slice, err, v', e, h'', h6, h7, h8, h9⟩ := C70_same_addresses (fresh_occurs env0) P (Nat.le_refl 3) [] (utf8 c!"joe")
    rw [h2] at h6
    cases h6
    rw [show (fresh env0).env = env0 from rfl, h5] at h7
    cases h7
    exact absurd h9 (by simp [Go.errorIs])
  · exact ⟨ts, m, log, v, h', h0, Nat.le_trans h1 (by decide +kernel), h2, h3⟩

end Rfc5322.Props
