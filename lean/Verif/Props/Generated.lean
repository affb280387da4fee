import Verif.Model.GeneratedApi
import Verif.Proofs.GenNets
import Verif.Props.Atn

/-!
# C60: the functions of the generated parser

The other theorems speak of `parseAddressList` and `parseDateTime` in `Verif/Model/Api.lean`, where the generated parser is an interpreter of the grammar.  Here
the 67 functions of /repo/parser/rfc5322_parser.go themselves are executed, statement by statement (`Verif/Model/Generated.lean`,
`Verif/Model/GeneratedData.lean`), with any runtime `T` whose predictions and synchronisations are right for the transition network of the program.
-/

namespace Rfc5322.Props

open Spec Atn Gen

/-- The functions terminate, whatever the tokens are, whichever function is called and wherever it is called from: with calls nested less than
12 · (number of tokens + 2) deep, and fewer rounds than that in every loop. -/
theorem C60_functions_terminate (T : Runtime parserNet) (R : Rule) (σ : List Nat) (toks : List Char) {n : Nat} (hn : 12 * (toks.length + 2) ≤ n) :
    runRule code T n R σ toks ≠ .timeout := generated_ends (by omega)

/-- More steps do not change how they end. -/
theorem C60_steps_do_not_matter (T : Runtime parserNet) (R : Rule) (σ : List Nat) (toks : List Char) {n m : Nat} (hn : 12 * (toks.length + 2) ≤ n)
    (hm : 12 * (toks.length + 2) ≤ m) : runRule code T n R σ toks = runRule code T m R σ toks := by
  have h : ∀ {a b : Nat}, 12 * (toks.length + 2) ≤ a → a ≤ b → runRule code T a R σ toks = runRule code T b R σ toks := by
    intro a b ha hab
    rcases runRule_le (T := T) (code := code) R σ toks hab with h | h
    · exact absurd h (generated_ends (by omega))
    · exact h
  rcases Nat.le_total n m with h1 | h1
  · exact h hn h1
  · exact (h hm h1).symm

/-- Whenever a function (of rule number `i`) ends without an error, its tree is that of a path through the rule, and the tokens left over are those after the path. -/
theorem C60_functions_follow_the_network (T : Runtime parserNet) {i : Nat} {R : Rule} (hi : ruleOf i = some R) (σ : List Nat) {n : Nat} {toks : List Char}
    {ts : List Tree} {rest : List Char} (h : runRule code T n R σ toks = .ok ts rest) :
    Runs ruleOf tokenType parserNet (parserNet.start i) i toks ts rest := generated_sound hi h

/-- The function of a start rule and the preferred path. -/
theorem start_run (T : Runtime parserNet) {i : Nat} {R : Rule} (hi : ruleOf i = some R) (hs : (followN i).testBit 0 = true ∧ rootB parserNet i = true)
    (hend : ∀ {s ts s'}, Derives (ruleG R) s [.node R ts] s' → s' = []) (hw : (ruleG R).wf = true) {toks : List Char} {n : Nat}
    (hn : 12 * (toks.length + 2) ≤ n) : (runRule code T n R [] toks = .error ∧ search (ruleG R) toks = none) ∨
      ∃ ts, runRule code T n R [] toks = .ok ts [] ∧ search (ruleG R) toks = some [.node R ts] := by
  cases hsr : search (ruleG R) toks with
  | some us =>
    right
    obtain ⟨ts, rfl, _⟩ := preferred_rule.mp (search_preferred hw hsr)
    have hp := (prefers_preferred parser_good hi).mpr (search_preferred hw hsr)
    exact ⟨ts, generated_pref (T := T) (σ := []) hi ⟨hs.1, root_iff.mp hs.2⟩ hp (by omega), rfl⟩
  | none =>
    left
    refine ⟨?_, rfl⟩
    cases hr : runRule code T n R [] toks with
    | timeout => exact absurd hr (generated_ends (by omega))
    | error => rfl
    | ok ts s' =>
      have hd := (runs_derives parser_good hi).mp (generated_sound hi hr)
      have e := hend hd
      subst e
      have := (search_isSome_iff (s := toks) hw).mpr ⟨_, hd⟩
      rw [hsr] at this
      cases this

/-- `ParseAddressList` with the generated functions is `ParseAddressList` as in all other theorems. -/
theorem C60_addresses (T : Runtime parserNet) (P : Predictor) (env : Env) (input : Bytes) {n : Nat} (hn : 12 * ((tokens input).length + 2) ≤ n) :
    Gen.parseAddressList T n env input = some (Rfc5322.parseAddressList P env input) := by
  have hw : Gr.addressList.wf = true := by decide
  unfold Gen.parseAddressList Rfc5322.parseAddressList
  by_cases h0 : input.length = 0
  · rw [if_pos h0, if_pos h0]
  · rw [if_neg h0, if_neg h0, descend_eq_search P Gr.addressList hw]
    rcases start_run T (i := 34) (R := .addressList) rfl (by decide +kernel) (fun h => (addressList_sound (env := env) h).1) hw hn with ⟨h1, h2⟩ | ⟨ts, h1, h2⟩
    · rw [h1, show search Gr.addressList (tokens input) = none from h2]
    · rw [h1, show search Gr.addressList (tokens input) = some _ from h2]
      dsimp only
      split <;> (try split) <;> simp_all

/-- The same for `ParseDateTime`. -/
theorem C60_dates (T : Runtime parserNet) (P : Predictor) (env : Env) (input : Bytes) {n : Nat} (hn : 12 * ((tokens input).length + 2) ≤ n) :
    Gen.parseDateTime T n env input = some (Rfc5322.parseDateTime P env input) := by
  have hw : Gr.dateTime.wf = true := by decide
  have hend : ∀ {s ts s'}, Derives (ruleG .dateTime) s [.node .dateTime ts] s' → s' = [] := by
    intro s ts s' hd
    have hd : Derives Gr.dateTime s [.node .dateTime ts] s' := hd
    unfold Gr.dateTime at hd
    cases hd with
    | rule hd => exact ((endMeans_date (env := env)).sound hd).1
  unfold Gen.parseDateTime Rfc5322.parseDateTime
  by_cases h0 : input.length = 0
  · rw [if_pos h0, if_pos h0]
  · rw [if_neg h0, if_neg h0, descend_eq_search P Gr.dateTime hw]
    rcases start_run T (i := 15) (R := .dateTime) rfl (by decide +kernel) hend hw hn with ⟨h1, h2⟩ | ⟨ts, h1, h2⟩
    · rw [h1, show search Gr.dateTime (tokens input) = none from h2]
    · rw [h1, show search Gr.dateTime (tokens input) = some _ from h2]
      dsimp only
      split <;> (try split) <;> simp_all

/-- There is a runtime as described. -/
example : Nonempty (Runtime parserNet) := Runtime.nonempty parserNet

/-- The functions called, on a text in which there is something to predict. -/
example (T : Runtime parserNet) : Gen.parseAddressList T 108 env0 (utf8 c!"a <b@c>") = some (.ok (some [⟨b!"a", b!"b@c"⟩], none)) := by
  obtain ⟨P⟩ := Predictor.nonempty
  rw [C60_addresses T P env0 _ (by decide)]
  congr 1
  eval_addr

/-- A text that is not accepted. -/
example (T : Runtime parserNet) : Gen.parseAddressList T 60 env0 (utf8 c!"joe") = some (.ok (none, some .syntaxError)) := by
  obtain ⟨P⟩ := Predictor.nonempty
  rw [C60_addresses T P env0 _ (by decide)]
  congr 1
  eval_addr

end Rfc5322.Props
