import Verif.Proofs.RecParser
import Verif.Proofs.RecCount
import Verif.Props.AllStar

/-!
# C68: recovery from errors

When something is wrong with a text, the functions of /repo/parser do not stop: they report it, delete a token, make one up or skip some, and go on
(`Verif/Model/Recovery.lean`).  Whatever happens then, they come to an end, and the result is an error.  `G` is how ALL(*) represents sets of stacks, as in C67.
-/

namespace Rfc5322.Props

open Spec Atn Gen AllStar

/-- What ALL(*) predicts can begin with the next token (or can be left without one), also if there will be an error later. -/
theorem C68_predictions_fit_the_next_token (G : Graphs) {d p : Nat} (hd : parserNet.decisions[d]? = some p) {σ : List Nat} {toks : List Char} {n : Nat}
    (h : adaptivePredict G parserNet d σ toks = .alt n) : ∃ i e, n = i + 1 ∧ (parserNet.out p)[i]? = some e ∧ nextTokens parserNet e.2 toks.head? :=
  adaptivePredict_begins hd h

/-- Every function ends, whatever tokens remain, wherever it is called from and whatever has happened before: calls are nested at most 20000 · (number of tokens + 1) deep, there are
at most that many rounds in every loop, and no panic gets out. -/
theorem C68_functions_end (G : Graphs) (R : Rule) (σ : List Nat) (S : Recovery.St) {n : Nat} (hn : 20000 * (S.rest.length + 1) ≤ n) :
    ∃ ts S', Recovery.runRule parserNet (parserRuntime G).predict code n R σ S = .done ts S' := by
  have h := Recovery.parser_ends G (n := n) (R := R) (σ := σ) (S := S) (by omega)
  cases hr : Recovery.runRule parserNet (parserRuntime G).predict code n R σ S with
  | timeout => exact absurd hr h
  | panic k st S' =>
    exfalso
    cases n with
    | zero => rw [Recovery.runRule] at hr; cases hr
    | succ n =>
      rw [Recovery.runRule] at hr
      split at hr
      · cases hr
      · rename_i h1
        exact h1 _ _ _ hr
  | done ts S' => exact ⟨ts, S', rfl⟩

/-- As long as there is no error it is the same whether functions recover or not; and if there is an error, then it has been reported by the time the function ends. -/
theorem C68_errors_are_reported (G : Graphs) (R : Rule) (σ : List Nat) (toks : List Char) {n : Nat} (hn : 20000 * (toks.length + 1) ≤ n) :
    (∃ ts rest S, Gen.runRule code (parserRuntime G) n R σ toks = .ok ts rest ∧
        Recovery.runRule parserNet (parserRuntime G).predict code n R σ (.init toks) = .done ts S ∧ S.rest = rest ∧ S.errors = 0) ∨
      ∃ ts S, Gen.runRule code (parserRuntime G) n R σ toks = .error ∧
        Recovery.runRule parserNet (parserRuntime G).predict code n R σ (.init toks) = .done ts S ∧ 0 < S.errors := by
  have h := Recovery.runRule_sim (T := parserRuntime G) (code := code) Recovery.parser_sync n R σ (.init toks) ⟨rfl, rfl⟩
  have h1 := C60_functions_terminate (parserRuntime G) R σ toks (n := n) (by omega)
  obtain ⟨us, S', h2⟩ := C68_functions_end G R σ (.init toks) hn
  rw [h2] at h
  rw [h2]
  cases ho : Gen.runRule code (parserRuntime G) n R σ toks with
  | timeout => exact absurd ho h1
  | error =>
    rw [show Gen.runRule code (parserRuntime G) n R σ (Recovery.St.init toks).rest = .error from ho] at h
    exact .inr ⟨us, S', rfl, rfl, h.1⟩
  | ok ts rest =>
    rw [show Gen.runRule code (parserRuntime G) n R σ (Recovery.St.init toks).rest = .ok ts rest from ho] at h
    obtain ⟨S, e, h3, h4⟩ := h
    cases e
    exact .inl ⟨us, rest, S', rfl, rfl, h3, h4.errors⟩

/-- The end of the input is matched at the end of functions only, and these are not called by others. -/
theorem tidy_table : (rules.all fun R => Recovery.tidy (Trie.build 11 parserNet.edges).out (isStop parserNet) (fun R => R == .addressList || R == .dateTime) (code R) &&
    Recovery.eofLast (code R) && (R == .addressList || R == .dateTime || Recovery.noEof (code R))) = true := by decide +kernel

/-- There are at most as many reports as tokens, and one more. -/
theorem C68_reports_are_few (G : Graphs) (R : Rule) (σ : List Nat) (toks : List Char) {n : Nat} {ts : List Tree} {S : Recovery.St}
    (h : Recovery.runRule parserNet (parserRuntime G).predict code n R σ (.init toks) = .done ts S) : S.errors ≤ toks.length + 1 := by
  have e : (Trie.build 11 parserNet.edges).out = parserNet.out := funext fun p => out_build parserNet p
  have ht := tidy_table
  rw [e] at ht
  have h1 := Recovery.runRule_last (N := parserNet) (predict := (parserRuntime G).predict) (code := code) (ends := fun R => R == .addressList || R == .dateTime)
    (fun R => by
      have := List.all_eq_true.mp ht R (mem_rules R)
      rw [Bool.and_eq_true, Bool.and_eq_true] at this
      exact this.1)
    (fun R hR => by
      have := List.all_eq_true.mp ht R (mem_rules R)
      rw [Bool.and_eq_true] at this
      have h2 := this.2
      rw [hR, Bool.false_or] at h2
      exact h2) n R σ (.init toks)
  rw [h] at h1
  refine Nat.le_trans h1 ?_
  simp [Recovery.weight, Recovery.St.errors, Recovery.St.init]

/-- `ParseAddressList` with functions that recover is `ParseAddressList` as in all other theorems. -/
theorem C68_addresses (G : Graphs) (P : Predictor) (env : Env) (input : Bytes) {n : Nat} (hn : 20000 * ((tokens input).length + 1) ≤ n) :
    Recovery.parseAddressList (parserRuntime G).predict n env input = some (Rfc5322.parseAddressList P env input) := by
  rw [← C67_addresses G P env input (n := n) (by omega)]
  unfold Recovery.parseAddressList Gen.parseAddressList
  split
  · rfl
  · rcases C68_errors_are_reported G .addressList [] (tokens input) hn with ⟨ts, rest, S, h1, h2, h3, h4⟩ | ⟨ts, S, h1, h2, h3⟩
    · rw [h1, h2]
      dsimp only
      rw [if_neg (by omega)]
      rfl
    · rw [h1, h2]
      dsimp only
      rw [if_pos h3]

/-- The same for `ParseDateTime`. -/
theorem C68_dates (G : Graphs) (P : Predictor) (env : Env) (input : Bytes) {n : Nat} (hn : 20000 * ((tokens input).length + 1) ≤ n) :
    Recovery.parseDateTime (parserRuntime G).predict n env input = some (Rfc5322.parseDateTime P env input) := by
  rw [← C67_dates G P env input (n := n) (by omega)]
  unfold Recovery.parseDateTime Gen.parseDateTime
  split
  · rfl
  · rcases C68_errors_are_reported G .dateTime [] (tokens input) hn with ⟨ts, rest, S, h1, h2, h3, h4⟩ | ⟨ts, S, h1, h2, h3⟩
    · rw [h1, h2]
      dsimp only
      rw [if_neg (by omega)]
      rfl
    · rw [h1, h2]
      dsimp only
      rw [if_pos h3]

/-! ## Examples -/

/-- A text that is not accepted: the functions go on after the error, to the end, and the result is an error. -/
example : Recovery.parseAddressList (parserRuntime mergingGraphs).predict 80000 env0 (utf8 c!"joe") = some (.ok (none, some .syntaxError)) := by
  obtain ⟨P⟩ := Predictor.nonempty
  rw [C68_addresses mergingGraphs P env0 _ (by decide)]
  congr 1
  eval_addr

/-- One that is. -/
example : Recovery.parseAddressList (parserRuntime plainGraphs).predict 160000 env0 (utf8 c!"a <b@c>") = some (.ok (some [⟨b!"a", b!"b@c"⟩], none)) := by
  obtain ⟨P⟩ := Predictor.nonempty
  rw [C68_addresses plainGraphs P env0 _ (by decide)]
  congr 1
  eval_addr

end Rfc5322.Props
