import Verif.Proofs.AllStarParser
import Verif.Proofs.AllStarCache
import Verif.Props.Generated

/-!
# C67: the prediction of the runtime, ALL(*)

C60 to C63 speak of the generated functions with any runtime whose predictions are right.  Here the predictions are those of ALL(*) itself (`Verif/Model/AllStar.lean`): as many tokens
are looked at as are needed to tell the alternatives apart; first without the callers, and if that is not enough once more with them; alternatives that have come to the
same point are not told apart any more, and the smallest of them is taken.  `G` is how sets of stacks are represented (graphs that may or may not be
shared and merged).
-/

namespace Rfc5322.Props

open Spec Atn Gen AllStar

/-- At every decision, with every call stack and whatever tokens remain: if the network can go on to the end of the input, and the smallest alternative by which it can has number
`i` (counted from 0), then the prediction is this alternative (counted from 1). -/
theorem C67_prediction_is_smallest_alternative (G : Graphs) {d p : Nat} (hd : parserNet.decisions[d]? = some p) {σ : List Nat}
    (hσ : Proper parserNet σ (ruleAt parserNet p)) {toks : List Char} {i : Nat} (hi : CanEndBy parserNet σ p i toks)
    (hmin : ∀ j, j < i → ¬ CanEndBy parserNet σ p j toks) : adaptivePredict G parserNet d σ toks = .alt (i + 1) := by
  obtain ⟨W, D⟩ := well_of parser_well
  obtain ⟨h1, h2⟩ := D p (List.mem_of_getElem? hd)
  exact adaptivePredict_least W hσ h1 h2 hd hi hmin

/-- It panics only if the network cannot go on to the end of the input. -/
theorem C67_no_false_alarm (G : Graphs) {d p : Nat} (hd : parserNet.decisions[d]? = some p) {σ : List Nat} (hσ : Proper parserNet σ (ruleAt parserNet p))
    {toks : List Char} (h : adaptivePredict G parserNet d σ toks = .panic) (i : Nat) : ¬ CanEndBy parserNet σ p i toks := by
  intro hi
  classical
  have hex : ∃ i, CanEndBy parserNet σ p i toks := ⟨i, hi⟩
  have := C67_prediction_is_smallest_alternative G hd hσ (Nat.find_spec hex) fun j hj => Nat.find_min hex hj
  rw [h] at this
  cases this

/-- Every prediction comes to an end at the end of the input at the latest. -/
theorem C67_predictions_end (G : Graphs) {d p : Nat} (hd : parserNet.decisions[d]? = some p) {σ : List Nat} (hσ : Proper parserNet σ (ruleAt parserNet p))
    (toks : List Char) : adaptivePredict G parserNet d σ toks ≠ .again := by
  obtain ⟨W, D⟩ := well_of parser_well
  obtain ⟨h1, h2⟩ := D p (List.mem_of_getElem? hd)
  exact adaptivePredict_ends W hσ h1 h2 hd

/-- What is predicted is an alternative of the decision, also if there is an error. -/
theorem C67_predictions_are_alternatives (G : Graphs) {d p : Nat} (hd : parserNet.decisions[d]? = some p) {σ : List Nat} {toks : List Char} {n : Nat}
    (h : adaptivePredict G parserNet d σ toks = .alt n) : 1 ≤ n ∧ n ≤ (parserNet.out p).length := adaptivePredict_range hd h

/-- `Sync` does not report an error as long as the network can go on to the end of the input. -/
theorem C67_no_false_synchronisation {st : Nat} {σ : List Nat} (hσ : Proper parserNet σ (ruleAt parserNet st)) {toks : List Char}
    (h : CanEnd parserNet σ st toks) : AllStar.sync parserNet st toks = true := AllStar.sync_ok (well_of parser_well).1 hσ h

/-- The tables in which the first stage keeps its results, shared by all predictions in the process, make no difference: whatever they hold after any number
of other predictions, and however these add to them while this prediction is running. -/
theorem C67_tables_make_no_difference (G : Graphs) {κ : Nat → AllStar.Tables} (hκ : ∀ n, Occurs G parserNet (κ n)) (d : Nat) (σ : List Nat) (toks : List Char) :
    predictWith G parserNet κ d σ toks = adaptivePredict G parserNet d σ toks := predictWith_eq (fun n => (hκ n).sound) d σ toks

/-- `ParseAddressList` with the generated functions and ALL(*) is `ParseAddressList` as in all other theorems. -/
theorem C67_addresses (G : Graphs) (P : Predictor) (env : Env) (input : Bytes) {n : Nat} (hn : 12 * ((tokens input).length + 2) ≤ n) :
    Gen.parseAddressList (parserRuntime G) n env input = some (Rfc5322.parseAddressList P env input) := C60_addresses _ P env input hn

/-- The same for `ParseDateTime`. -/
theorem C67_dates (G : Graphs) (P : Predictor) (env : Env) (input : Bytes) {n : Nat} (hn : 12 * ((tokens input).length + 2) ≤ n) :
    Gen.parseDateTime (parserRuntime G) n env input = some (Rfc5322.parseDateTime P env input) := C60_dates _ P env input hn

/-- What the functions ask is answered by `adaptivePredict` and `AllStar.sync`. -/
theorem C67_runtime (G : Graphs) (d st : Nat) (σ : List Nat) (toks : List Char) :
    (∀ n, (parserRuntime G).predict d σ toks = some n ↔ adaptivePredict G parserNet d σ toks = .alt n) ∧
      (parserRuntime G).sync st σ toks = AllStar.sync parserNet st toks := by
  unfold parserRuntime
  generalize well_of parser_well = h
  exact ⟨fun _ => runtime_predict, runtime_sync⟩

/-! ## Examples -/

/-- Stacks are not merged, and equal sets of stacks are recognised. -/
def plainGraphs : Graphs where
  same C q i j := ∀ st, C ⟨i, q, st⟩ ↔ C ⟨j, q, st⟩
  widen C := C
  finished _ _ := none
  same_refl _ _ _ _ := Iff.rfl
  same_stacks h st := (h st).mp
  same_empty h1 h2 st := (h1 st).trans (h2 st).symm
  widen_covers {_ c} h := ⟨c.stack, [], by simp, h⟩
  widen_from h := ⟨[], by simpa using h⟩
  finished_from h := by cases h

open Classical in
/-- In the first stage, the empty stack replaces all others; in the second, equal sets of stacks are recognised only if there is nothing but the empty stack; after an error
some alternative is taken that may be. -/
noncomputable def mergingGraphs : Graphs where
  same C q i j := i = j ∨ (∀ st, C ⟨i, q, st⟩ ↔ st = []) ∧ ∀ st, C ⟨j, q, st⟩ ↔ st = []
  widen C c := C c ∧ (c.stack = [] ∨ ¬ C ⟨c.alt, c.state, []⟩)
  finished F C := if h : ∃ c, C c ∧ F c.alt then some h.choose.alt else none
  same_refl _ _ _ := .inl rfl
  same_stacks h st hs := by
    rcases h with rfl | ⟨h1, h2⟩
    · exact hs
    · exact (h2 st).mpr ((h1 st).mp hs)
  same_empty h1 h2 := .inr ⟨h1, h2⟩
  widen_covers {C c} h := by
    by_cases h0 : C ⟨c.alt, c.state, []⟩
    · exact ⟨[], c.stack, rfl, h0, .inl rfl⟩
    · exact ⟨c.stack, [], by simp, h, .inr h0⟩
  widen_from h := ⟨[], by simpa using h.1⟩
  finished_from {F C n} h := by
    split at h
    · rename_i hc
      cases h
      exact ⟨hc.choose_spec.2, _, hc.choose_spec.1, rfl⟩
    · cases h

/-- The texts accepted begin with a prediction as described: decision 85 is the one between the two alternatives of `addressList`. -/
theorem decision_reached {toks : List Char} {us : List Tree} (h : Derives Gr.addressList toks us []) :
    parserNet.decisions[85]? = some 634 ∧ Proper parserNet [] (ruleAt parserNet 634) ∧ ∃ i, CanEndBy parserNet [] 634 i toks := by
  have h1 : parserNet.decisions[85]? = some 634 := by decide +kernel
  have h2 : rootB parserNet (ruleAt parserNet 634) = true := by decide +kernel
  have h3 : parserNet.out (parserNet.start 34) = [(.eps, 634)] := by decide +kernel
  have h4 : ruleAt parserNet 634 = 34 := by decide +kernel
  have h5 : parserNet.stop 34 ≠ parserNet.start 34 ∧ parserNet.stop 34 ≠ 634 := by decide +kernel
  refine ⟨h1, root_iff.mp h2, ?_⟩
  obtain ⟨ts, rfl, h6⟩ := (derives_rule (R := .addressList)).mp h
  obtain ⟨n, h7⟩ := runs_iff.mp ((runs_derives parser_good (i := 34) rfl).mpr (derives_rule.mpr ⟨ts, rfl, h6⟩))
  generalize hp : parserNet.start 34 = p at h7 h3 h5
  cases h7 with
  | done => exact absurd rfl h5.1
  | step hm ht h8 =>
    rw [h3, List.mem_singleton] at hm
    cases hm
    cases ht
    generalize hq : 634 = q at h8 h5
    cases h8 with
    | done => exact absurd rfl h5.2
    | @step _ _ l x _ ts1 s1 _ _ hm ht h9 =>
      obtain ⟨i, hi⟩ := List.mem_iff_getElem?.mp hm
      refine ⟨i, (l, x), hi, ts1, s1, ht, ?_⟩
      rw [← hq, h4]
      exact ⟨_, _, _, h9, rfl⟩

/-- For an address list the prediction gives a result. -/
example : ∃ n, adaptivePredict plainGraphs parserNet 85 [] (tokens (utf8 c!"a <b@c>")) = .alt n := by
  have hs : (search Gr.addressList (tokens (utf8 c!"a <b@c>"))).isSome = true := by decide +kernel
  obtain ⟨us, hu⟩ := Option.isSome_iff_exists.mp hs
  obtain ⟨h1, h2, i, hi⟩ := decision_reached (search_sound hu)
  classical
  have hex : ∃ i, CanEndBy parserNet [] 634 i (tokens (utf8 c!"a <b@c>")) := ⟨i, hi⟩
  exact ⟨_, C67_prediction_is_smallest_alternative plainGraphs h1 h2 (Nat.find_spec hex) fun j hj => Nat.find_min hex hj⟩

/-- Tables with an entry. -/
example : ∃ κ, Occurs plainGraphs parserNet κ ∧ κ.start 85 = some (startState plainGraphs parserNet false [] 634) :=
  ⟨_, .single (Grows.start (d := 85) (p := 634) (by decide +kernel)), by simp⟩

/-- The functions, with ALL(*). -/
example : Gen.parseAddressList (parserRuntime mergingGraphs) 108 env0 (utf8 c!"a <b@c>") = some (.ok (some [⟨b!"a", b!"b@c"⟩], none)) := by
  obtain ⟨P⟩ := Predictor.nonempty
  rw [C67_addresses mergingGraphs P env0 _ (by decide)]
  congr 1
  eval_addr

end Rfc5322.Props
