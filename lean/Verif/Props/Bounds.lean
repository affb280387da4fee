import Verif.Proofs.Depth
import Verif.Proofs.Size
import Verif.Props.Concurrent

/-!
# C52, C53, C54: how much work a call does, how deep it recurses and how big its result is
-/

namespace Rfc5322.Props

open Spec

/-! ## C52: the number of steps is linear in the length of the input

`x.steps k j`: the steps that call number `k` has made before time `j`.  A step is one decision, one token, the start or
the end of a rule function, or one callback of the tree walker. -/

theorem C52_work_is_linear (x : Execution) {k j : Nat} {c : Call} (h : (x.state j).calls[k]? = some c) :
    x.steps k j ≤ 546 * (c.input.length + 1) := by
  have := (x.work h).2
  omega

theorem C52_work_until_return (x : Execution) {k j : Nat} {fn : Fn} {input : Bytes} {o : Obs} (h : x.Returned k j fn input o) :
    x.steps k j ≤ 546 * (input.length + 1) :=
  C52_work_is_linear x h

/-- A call that has done so much work has returned. -/
theorem C52_done_after (x : Execution) {k j : Nat} {c : Call} (h : (x.state j).calls[k]? = some c)
    (hj : 546 * (c.input.length + 1) ≤ x.steps k j) : ∃ o, x.Returned k j c.fn c.input o := by
  have h1 := (x.work h).2
  obtain ⟨fn, input, phase⟩ := c
  cases phase with
  | done o => exact ⟨o, h⟩
  | walking es w => simp only [Phase.work] at h1; dsimp only at hj; omega
  | parsing p => simp only [Phase.work, parseWork] at h1; dsimp only at hj; omega

/-- Such executions exist. -/
theorem C52_executions_exist (P : Predictor) (env : Env) (input : Bytes) : ∃ (x : Execution) (j : Nat),
    x.Returned 0 j .addresses input (.addresses (parseAddressList P env input)) := by
  obtain ⟨words, f, h1, h2, h3⟩ := C51_addresses_in_any_schedule input
  obtain ⟨x, j, h, h4⟩ := h3 env (words.map fun _ => env) (by simp)
  refine ⟨x, j, ?_⟩
  have e : words.map (wordValue env) = List.zipWith (fun v e => wordValue e v) words (words.map fun _ => env) := by
    clear h h3 h1 h2 h4
    induction words with
    | nil => rfl
    | cons v words ih => simpa using ih
  rw [h1 P env, e]
  exact h

/-! ## C53: only nested comments make the recursion deep

`depth`: how many rule functions of the parser, or nodes of the tree in the walker, have been entered and not left. -/

theorem C53_recursion_depth (x : Execution) {k j : Nat} {c : Call} (h : (x.state j).calls[k]? = some c) :
    c.phase.depth ≤ 28 + 6 * c.input.count 0x28 := by
  have h1 := (x.flat h).depth
  have h2 := tokens_paren c.input
  omega

/-- Without parentheses the depth is bounded however long the input is. -/
theorem C53_no_parentheses (x : Execution) {k j : Nat} {c : Call} (h : (x.state j).calls[k]? = some c) (hp : 0x28 ∉ c.input) :
    c.phase.depth ≤ 28 := by
  have := C53_recursion_depth x h
  rw [List.count_eq_zero_of_not_mem hp] at this
  simpa using this

/-! ## C54: the result is not much bigger than the input -/

theorem size_of_result {P : Predictor} {env : Env} {input : Bytes} {l err} {m : Nat} (hd : Expands m env)
    (h : parseAddressList P env input = .ok (some l, err)) : Holds m (tokens input) l := by
  by_cases hi : input = []
  · subst hi; cases h; simp [Holds]
  · rcases parseAddressList_spec P env hi with ⟨l', hl, h'⟩ | ⟨_, h'⟩
    · rw [h] at h'
      have e : l = l' := by
        unfold goSlice at h'
        cases l' <;> simp at h'
        exact h'.1
      subst e
      exact addressList_size hd hl
    · rw [h] at h'; cases h'

/-- If no decoded word is more than `m` times as long as the encoded word, the result for a text in valid UTF-8 is at most `m + 1` times
as long as the text. -/
theorem C54_result_size {P : Predictor} {env : Env} {text : List Char} {l err} {m : Nat} (hm : 1 ≤ m)
    (hd : ∀ w v, env.decode w = some v → v.length ≤ m * w.length)
    (h : parseAddressList P env (encode text) = .ok (some l, err)) :
    (l.map fun a => a.name.length + a.address.length).sum ≤ (m + 1) * (encode text).length := by
  have h1 := (size_of_result ⟨hm, hd⟩ h).1
  have h2 : size (tokens (encode text)) ≤ (encode text).length := by
    rw [tokens_encode, encode_eq]; exact size_filter _ _
  exact Nat.le_trans h1 (Nat.mul_le_mul_left _ h2)

/-- The same for arbitrary bytes: what is not UTF-8 is read as U+FFFD, which takes three bytes. -/
theorem C54_result_size_any_bytes {P : Predictor} {env : Env} {input : Bytes} {l err} {m : Nat} (hm : 1 ≤ m)
    (hd : ∀ w v, env.decode w = some v → v.length ≤ m * w.length)
    (h : parseAddressList P env input = .ok (some l, err)) :
    (l.map fun a => a.name.length + a.address.length).sum ≤ 3 * (m + 1) * input.length := by
  have h1 := (size_of_result ⟨hm, hd⟩ h).1
  have h2 := Nat.mul_le_mul_left (m + 1) (tokens_size input)
  rw [← Nat.mul_assoc, Nat.mul_comm _ 3] at h2
  exact Nat.le_trans h1 h2

/-- With the decoder of the standard library and without a `CharsetReader`, or with one whose output is at most `m` times as long as
its input. -/
theorem C54_result_size_go {P : Predictor} {cr : CharsetReader} {year : Int} {text : List Char} {l err} {m : Nat} (hm : 3 ≤ m)
    (hc : ∀ f, cr = some f → ∀ charset content v, f charset content = some v → v.length ≤ m * content.length)
    (h : parseAddressList P (goEnv cr year) (encode text) = .ok (some l, err)) :
    (l.map fun a => a.name.length + a.address.length).sum ≤ (m + 1) * (encode text).length := by
  refine C54_result_size (by omega) (goEnv_expands hm ?_ year).2 h
  cases cr with
  | none => trivial
  | some f => exact hc f rfl

/-- How many addresses there can be. -/
theorem C54_number_of_addresses {P : Predictor} {env : Env} {input : Bytes} {l err}
    (h : parseAddressList P env input = .ok (some l, err)) : 3 * l.length ≤ input.length + 1 := by
  obtain ⟨x, j, hx⟩ := C52_executions_exist P env input
  obtain ⟨l₁, l₂, err', h1, h2, h3⟩ := C51_outcome_in_any_schedule hx P ⟨fun _ => none, 0⟩
  rw [h] at h1
  cases h1
  cases l₂ with
  | none => simp at h3
  | some l₂ =>
    have h4 := (size_of_result (m := 1) ⟨Nat.le_refl _, fun _ _ h => by cases h⟩ h2).2
    have h5 := tokens_length input
    simp at h3
    omega

example : ∀ w v, (fun _ => none : Bytes → Option Bytes) w = some v → v.length ≤ 1 * w.length := by simp

/-- The decoder can make text longer: each of these bytes becomes three. -/
example : wordDecode none b!"=?us-ascii?q?=80=81=82?=" = some [0xEF, 0xBF, 0xBD, 0xEF, 0xBF, 0xBD, 0xEF, 0xBF, 0xBD] := by decide

/-- This many addresses are possible. -/
example (P : Predictor) : parseAddressList P env0 (utf8 c!"<>,<>") = .ok (some [⟨[], []⟩, ⟨[], []⟩], none) := by eval_addr

end Rfc5322.Props
