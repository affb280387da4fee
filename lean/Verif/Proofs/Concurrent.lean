import Verif.Proofs.Machine

/-!
# Interleaved calls
-/

namespace Rfc5322

open Spec

/-- The environments found at the given times. -/
def Execution.envs (x : Execution) (times : List Nat) : List Env := times.map fun t => (x.state t).env

/-- Times, in order, at which call `k` was running, before `j`. -/
structure Execution.Moments (x : Execution) (k j : Nat) (times : List Nat) : Prop where
  ordered : times.Pairwise (· ≤ ·)
  running : ∀ t ∈ times, t < j ∧ x.Running k t

theorem Execution.Moments.mono {x : Execution} {k j times} (h : x.Moments k j times) : x.Moments k (j + 1) times :=
  ⟨h.1, fun t ht => ⟨Nat.lt_succ_of_lt (h.2 t ht).1, (h.2 t ht).2⟩⟩

theorem Execution.Moments.add {x : Execution} {k j times} (h : x.Moments k j times) (hr : x.Running k j) (n : Nat) :
    x.Moments k (j + 1) (times ++ List.replicate n j) := by
  refine ⟨?_, ?_⟩
  · rw [List.pairwise_append]
    refine ⟨h.1, ?_, ?_⟩
    · rw [List.pairwise_replicate]; exact .inr (Nat.le_refl j)
    · intro a ha b hb
      have := (List.mem_replicate.mp hb).2
      have := (h.2 a ha).1
      omega
  · intro t ht
    rcases List.mem_append.mp ht with ht | ht
    · exact h.mono.2 t ht
    · obtain rfl := (List.mem_replicate.mp ht).2
      exact ⟨Nat.lt_succ_self _, hr⟩

/-- What holds of a call at every time. -/
def CallInv (x : Execution) (k j : Nat) (c : Call) : Prop :=
  if c.input.length = 0 then c.phase = .done c.fn.empty
  else match c.phase with
    | .parsing p => Parse.Inv c.fn.rule (tokens c.input) p ∧ ∀ g ∈ pending p.stack, g.wf = true
    | .walking es w => ∃ ts pre times, search c.fn.rule (tokens c.input) = some ts ∧ eventsList ts = pre ++ es ∧
        x.Moments k j times ∧ times.length = pre.length ∧ runEvents (pre.zip (x.envs times)) Walker.init = .ok w
    | .done o => search c.fn.rule (tokens c.input) = none ∧ o = c.fn.syntaxError ∨
        ∃ ts times, search c.fn.rule (tokens c.input) = some ts ∧ x.Moments k j times ∧
          times.length = (eventsList ts).length ∧ o = c.fn.result ((eventsList ts).zip (x.envs times))

theorem CallInv.mono {x k j c} (h : CallInv x k j c) : CallInv x k (j + 1) c := by
  unfold CallInv at *
  split
  · rwa [if_pos ‹_›] at h
  · rw [if_neg ‹_›] at h
    cases hp : c.phase with
    | parsing p => rw [hp] at h; exact h
    | walking es w =>
      rw [hp] at h
      obtain ⟨ts, pre, times, h1, h2, h3, h4, h5⟩ := h
      exact ⟨ts, pre, times, h1, h2, h3.mono, h4, h5⟩
    | done o =>
      rw [hp] at h
      rcases h with h | ⟨ts, times, h1, h2, h3, h4⟩
      · exact .inl h
      · exact .inr ⟨ts, times, h1, h2.mono, h3, h4⟩

theorem fn_wf (fn : Fn) : fn.rule.wf = true := by cases fn <;> decide

theorem callInv_start {x k j fn input} : CallInv x k j (Call.start fn input) := by
  unfold CallInv Call.start
  dsimp only
  split
  · rfl
  · refine ⟨Parse.inv_start (fn_wf fn), ?_⟩
    simp [pending, fn_wf fn]

theorem runEvents_zip_append {es fs : List Ev} {l m : List Env} {w : Walker} (h : l.length = es.length) :
    runEvents ((es ++ fs).zip (l ++ m)) w = (match runEvents (es.zip l) w with
      | .error p => .error p
      | .ok w' => runEvents (fs.zip m) w') := by
  rw [List.zip_append h.symm, runEvents_append]
  cases runEvents (es.zip l) w <;> rfl

theorem Execution.envs_append (x : Execution) (l m : List Nat) : x.envs (l ++ m) = x.envs l ++ x.envs m := by simp [Execution.envs]

theorem Execution.envs_length (x : Execution) (l : List Nat) : (x.envs l).length = l.length := by simp [Execution.envs]

theorem callInv_step {x : Execution} {k j : Nat} {c : Call} (h : CallInv x k j c) (hr : x.Running k j) :
    CallInv x k (j + 1) (c.step (x.state j).predictor (x.state j).env) := by
  have h0 := h
  unfold CallInv at h
  split at h
  · rename_i hi
    rw [Call.step, h]; exact h0.mono
  · rename_i hi
    obtain ⟨fn, input, phase⟩ := c
    cases phase with
    | done o => exact h0.mono
    | parsing p =>
      obtain ⟨h, hw⟩ := h
      obtain ⟨st, s, out⟩ := p
      cases st with
      | nil =>
        rcases Parse.inv_end h rfl with ⟨h1, h2⟩ | ⟨ts, h1, rfl, rfl⟩
        · have : Call.step (x.state j).predictor (x.state j).env ⟨fn, input, .parsing ⟨[], s, out⟩⟩ = ⟨fn, input, .done fn.syntaxError⟩ := by
            cases s with
            | nil => exact absurd rfl h2
            | cons => rfl
          rw [this, CallInv, if_neg hi]
          exact .inl ⟨h1, rfl⟩
        · rw [Call.step, CallInv, if_neg hi]
          exact ⟨ts, [], [], h1, rfl, ⟨.nil, by simp⟩, rfl, rfl⟩
      | cons i st =>
        simp only [Call.step]
        cases hs : Parse.step (x.state j).predictor ⟨i :: st, s, out⟩ with
        | none =>
          simp only [CallInv]
          rw [if_neg hi]
          exact .inl ⟨Parse.inv_fail h (by simp) hs, by simp⟩
        | some p' =>
          simp only [CallInv]
          rw [if_neg hi]
          exact ⟨Parse.inv_step h hs, Parse.step_wf hs hw⟩
    | walking es w =>
      obtain ⟨ts, pre, times, h1, h2, h3, h4, h5⟩ := h
      dsimp only at h1
      cases es with
      | nil =>
        have e : Call.step (x.state j).predictor (x.state j).env ⟨fn, input, .walking [] w⟩ = ⟨fn, input, .done (fn.finish w)⟩ := rfl
        rw [e, CallInv, if_neg hi]
        refine .inr ⟨ts, times, h1, h3.mono, ?_, ?_⟩
        · rw [h2, h4]; simp
        · rw [h2, List.append_nil, Fn.result, h5]
      | cons e es =>
        have hl : (x.envs times).length = pre.length := by rw [x.envs_length, h4]
        simp only [Call.step]
        cases he : e.apply (x.state j).env w with
        | error q =>
          simp only [CallInv]
          rw [if_neg hi]
          refine .inr ⟨ts, times ++ List.replicate (e :: es).length j, h1, h3.add hr _, ?_, ?_⟩
          · rw [h2]; simp [h4]
          · rw [h2, Fn.result, x.envs_append, runEvents_zip_append hl, h5]
            simp only [List.length_cons, List.replicate_succ, Execution.envs, List.map_cons, List.zip_cons_cons, runEvents]
            rw [he]
        | ok w' =>
          simp only [CallInv]
          rw [if_neg hi]
          refine ⟨ts, pre ++ [e], times ++ List.replicate 1 j, h1, by rw [h2]; simp, h3.add hr 1, by simp [h4], ?_⟩
          rw [x.envs_append, runEvents_zip_append hl, h5]
          simp [Execution.envs, runEvents, he]

theorem callInv (x : Execution) : ∀ j k c, (x.state j).calls[k]? = some c → CallInv x k j c := by
  intro j
  induction j with
  | zero => intro k c h; rw [x.start] at h; simp at h
  | succ j ih =>
    intro k c h
    have ha := x.acts j
    generalize x.action j = a at ha
    generalize hs : x.state (j + 1) = s' at ha h
    cases ha with
    | @call fn input =>
      dsimp only at h
      rw [List.getElem?_append] at h
      split at h
      · exact (ih k c h).mono
      · have : c = Call.start fn input := by
          rcases hk : k - (x.state j).calls.length with _ | m
          · rw [hk] at h; simpa using h.symm
          · rw [hk] at h; simp at h
        subst this
        exact callInv_start
    | environment => exact (ih k c h).mono
    | @step k' c' P' h1 h2 =>
      dsimp only at h
      rw [List.getElem?_set] at h
      split at h
      · rename_i hk
        subst hk
        split at h
        · cases h
          exact callInv_step (ih _ _ h1) ⟨_, h1, h2⟩
        · cases h
      · exact (ih k c h).mono

/-- The result of a call in any execution. -/
theorem returned {x : Execution} {k j fn input o} (h : x.Returned k j fn input o) :
    input.length = 0 ∧ o = fn.empty ∨ input.length ≠ 0 ∧ (search fn.rule (tokens input) = none ∧ o = fn.syntaxError ∨
      ∃ ts times, search fn.rule (tokens input) = some ts ∧ x.Moments k j times ∧ times.length = (eventsList ts).length ∧
        o = fn.result ((eventsList ts).zip (x.envs times))) := by
  have := callInv x j k _ h
  unfold CallInv at this
  split at this
  · exact .inl ⟨‹_›, by injection this⟩
  · exact .inr ⟨‹_›, this⟩

end Rfc5322
