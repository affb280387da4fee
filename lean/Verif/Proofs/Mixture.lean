import Verif.Proofs.Sim

/-!
# Address lists in any schedule
-/

namespace Rfc5322

open Spec

/-- The value of an encoded word: what the decoder makes of it, or the word itself. -/
def wordValue (env : Env) (v : Bytes) : Bytes := (env.decode v).getD v

theorem search_no_year {input : Bytes} {ts} (h : search Gr.addressList (tokens input) = some ts) : ∀ e ∈ eventsList ts, e.isYear = false := by
  have ha := derives_allRules (p := fun r => r != .year) (by decide) (search_sound h) (by decide)
  have := yearsIn_zero (eventsList_ok _ ha)
  rw [yearsIn, List.length_eq_zero_iff, List.filter_eq_nil_iff] at this
  intro e he
  simpa using this e he

/-- The words and the function are determined by the input. -/
theorem mixture (input : Bytes) : ∃ (words : List Bytes) (f : List Bytes → Obs),
    (∀ P env, .addresses (parseAddressList P env input) = f (words.map (wordValue env))) ∧
    (∀ (x : Execution) k j o, x.Returned k j .addresses input o → ∃ times : List Nat, times.length = words.length ∧
      x.Moments k j times ∧ o = f (List.zipWith (fun v t => wordValue (x.state t).env v) words times)) ∧
    (∀ (env : Env) (envs : List Env), envs.length = words.length → ∃ (x : Execution) (j : Nat),
      x.Returned 0 j .addresses input (f (List.zipWith (fun v e => wordValue e v) words envs)) ∧
      ∀ t, (x.state t).env ∈ env :: envs) ∧
    (∀ vs vs' : List Bytes, vs.length = words.length → vs'.length = words.length →
      (∃ p, f vs = .addresses (.error p) ∧ f vs' = .addresses (.error p)) ∨
      ∃ (l l' : AddrSlice) (err : Option Err), f vs = .addresses (.ok (l, err)) ∧ f vs' = .addresses (.ok (l', err)) ∧
        l.map List.length = l'.map List.length) := by
  obtain ⟨P0⟩ := Predictor.nonempty
  by_cases hne : input.length = 0
  · have hi : input = [] := List.length_eq_zero_iff.mp hne
    subst hi
    refine ⟨[], fun _ => Fn.addresses.empty, fun P env => rfl, ?_, ?_, ?_⟩
    · intro x k j o h
      rcases returned h with ⟨_, h⟩ | ⟨h, _⟩
      · exact ⟨[], rfl, ⟨.nil, by simp⟩, h⟩
      · exact absurd rfl h
    · intro env envs _
      have : Path (· ∈ env :: envs) ⟨env, P0, []⟩ ⟨env, P0, [Call.start .addresses []]⟩ :=
        .step (by simp) (.call (s := ⟨env, P0, []⟩)) (.refl (by simp))
      obtain ⟨x, n, hn, hE⟩ := this.execution rfl
      exact ⟨x, n, by rw [Execution.Returned, hn]; rfl, hE⟩
    · intro vs vs' _ _
      exact .inr ⟨_, _, _, rfl, rfl, rfl⟩
  · cases hs : search Gr.addressList (tokens input) with
    | none =>
      refine ⟨[], fun _ => Fn.addresses.syntaxError, fun P env => ?_, ?_, ?_, ?_⟩
      · have := Fn.alone_eq .addresses P env input hne
        rw [show Fn.rule .addresses = Gr.addressList from rfl, hs] at this
        exact this
      · intro x k j o h
        rcases returned h with ⟨h, _⟩ | ⟨_, ⟨_, h⟩ | ⟨ts, times, h, _⟩⟩
        · exact absurd h hne
        · exact ⟨[], rfl, ⟨.nil, by simp⟩, h⟩
        · rw [show Fn.rule .addresses = Gr.addressList from rfl, hs] at h; cases h
      · intro env envs _
        -- let the call run by itself
        have hE : (env : Env) ∈ env :: envs := by simp
        have run : ∀ (m : Nat × Nat × Nat) (c : Call), c.phase.cost = m → c.fn = .addresses → c.input = input →
            (∀ p, c.phase = .parsing p → ∀ g ∈ pending p.stack, g.wf = true) →
            (∀ p, c.phase = .parsing p → Parse.Inv Gr.addressList (tokens input) p) →
            (∀ es w, c.phase ≠ .walking es w) → (∀ o, c.phase = .done o → o = Fn.addresses.syntaxError) →
            Path (· ∈ env :: envs) ⟨env, P0, [c]⟩ ⟨env, P0, [⟨.addresses, input, .done Fn.addresses.syntaxError⟩]⟩ := by
          intro m
          induction m using costLt_wf.induction with
          | h m ih =>
            intro c hm hf hin hw hi hnw hd
            obtain ⟨fn, inp, phase⟩ := c
            cases hf; cases hin
            cases phase with
            | done o => cases hd o rfl; exact .refl hE
            | walking es w => exact absurd rfl (hnw es w)
            | parsing p =>
              have hstep : Program.Acts ⟨env, P0, [⟨.addresses, inp, .parsing p⟩]⟩ (.step 0) ⟨env, P0, [Call.step P0 env ⟨.addresses, inp, .parsing p⟩]⟩ :=
                .step (s := ⟨env, P0, [⟨.addresses, inp, .parsing p⟩]⟩) (k := 0) P0 rfl rfl
              have hlt := Call.step_cost (P := P0) (env := env) (c := ⟨.addresses, inp, .parsing p⟩) rfl hw
              have hp := hi p rfl
              refine .step hE hstep (ih _ (hm ▸ hlt) _ rfl (Call.step_same P0 env ⟨.addresses, inp, .parsing p⟩).1
                (Call.step_same P0 env ⟨.addresses, inp, .parsing p⟩).2 ?_ ?_ ?_ ?_)
              all_goals
                obtain ⟨st, s, out⟩ := p
                cases st with
                | nil =>
                  rcases Parse.inv_end hp rfl with ⟨_, h2⟩ | ⟨ts, h1, _⟩
                  · have : Call.step P0 env ⟨.addresses, inp, .parsing ⟨[], s, out⟩⟩ = ⟨.addresses, inp, .done Fn.addresses.syntaxError⟩ := by
                      cases s with
                      | nil => exact absurd rfl h2
                      | cons => rfl
                    rw [this]
                    intro p
                    first
                      | (intro h; cases h; done)
                      | (intro h _; cases h; done)
                      | (intro h; cases h; rfl)
                      | (intro w h; cases h; done)
                  · rw [hs] at h1; cases h1
                | cons i st =>
                  simp only [Call.step]
                  cases hst : Parse.step P0 ⟨i :: st, s, out⟩ with
                  | none =>
                    intro p
                    first
                      | (intro h; cases h; done)
                      | (intro h _; cases h; done)
                      | (intro h; cases h; rfl)
                      | (intro w h; cases h; done)
                  | some p' =>
                    intro p
                    first
                      | (intro h; cases h; exact Parse.step_wf hst (hw _ rfl))
                      | (intro h; cases h; exact Parse.inv_step hp hst)
                      | (intro h; cases h; done)
                      | (intro w h; cases h; done)
        have hstart : Call.start .addresses input = ⟨.addresses, input, .parsing ⟨[.sym Gr.addressList], tokens input, [[]]⟩⟩ := by
          rw [Call.start, if_neg hne]; rfl
        have : Path (· ∈ env :: envs) ⟨env, P0, []⟩ _ := .step hE (.call (s := ⟨env, P0, []⟩) (fn := .addresses) (input := input))
          (run _ (Call.start .addresses input) rfl rfl rfl
            (by rw [hstart]; intro p hp; cases hp; simp [pending, show Gr.addressList.wf = true by decide])
            (by rw [hstart]; intro p hp; cases hp; exact Parse.inv_start (by decide))
            (by rw [hstart]; intro es w h; cases h)
            (by rw [hstart]; intro o h; cases h))
        obtain ⟨x, n, hn, hE⟩ := this.execution rfl
        exact ⟨x, n, by rw [Execution.Returned, hn]; rfl, hE⟩
      · intro vs vs' _ _
        exact .inr ⟨_, _, _, rfl, rfl, rfl⟩
    | some ts =>
      have hy := search_no_year hs
      refine ⟨wordsOf (eventsList ts), fun vs => match runVals (eventsList ts) vs Walker.init with
        | .error p => Fn.addresses.panic p
        | .ok w => Fn.addresses.finish w, fun P env => ?_, ?_, ?_, ?_⟩
      · have := Fn.alone_eq .addresses P env input hne
        rw [show Fn.rule .addresses = Gr.addressList from rfl, hs] at this
        refine this.trans ?_
        simp only [Fn.result]
        rw [runEvents_vals (by intro p hp; obtain ⟨e, he, rfl⟩ := List.mem_map.mp hp; exact hy e he), valsOf_withEnv]
        have : (withEnv env (eventsList ts)).map (·.1) = eventsList ts := by simp [withEnv, Function.comp_def]
        rw [this]
        rfl
      · intro x k j o h
        rcases returned h with ⟨h, _⟩ | ⟨_, ⟨h, _⟩ | ⟨ts', times, h, hm, hl, ho⟩⟩
        · exact absurd h hne
        · rw [show Fn.rule .addresses = Gr.addressList from rfl, hs] at h; cases h
        · rw [show Fn.rule .addresses = Gr.addressList from rfl, hs] at h; cases h
          have hsub := wordTimes_sublist (eventsList ts) times
          refine ⟨wordTimes (eventsList ts) times, wordTimes_length _ _ hl, ⟨hm.1.sublist hsub, fun t ht => hm.2 t (hsub.subset ht)⟩, ?_⟩
          rw [ho, Fn.result, runEvents_vals (by intro p hp; exact hy _ (List.of_mem_zip hp).1), zip_fst (by rw [x.envs_length, hl]),
            valsOf_times x _ _ hl]
          rfl
      · intro env envs hl
        have h1 := path_parse (· ∈ env :: envs) env P0 .addresses input (by simp) ts _ ⟨[.sym Gr.addressList], tokens input, [[]]⟩ rfl
          (by have := Parse.inv_start (g := Gr.addressList) (s := tokens input) (by decide); unfold Parse.Inv at this; rw [hs] at this; exact this)
          (by simp [pending, show Gr.addressList.wf = true by decide])
        obtain ⟨env', h2⟩ := path_walk (· ∈ env :: envs) P0 .addresses input (eventsList ts) envs env Walker.init hy hl (by simp) (fun e h => by simp [h])
        have hstart : Call.start .addresses input = ⟨.addresses, input, .parsing ⟨[.sym Gr.addressList], tokens input, [[]]⟩⟩ := by
          rw [Call.start, if_neg hne]; rfl
        have h0 : Program.Acts ⟨env, P0, []⟩ (.call .addresses input) ⟨env, P0, [Call.start .addresses input]⟩ := .call (s := ⟨env, P0, []⟩)
        rw [hstart] at h0
        have : Path (· ∈ env :: envs) _ _ := .step (by simp) h0 (h1.trans h2)
        obtain ⟨x, n, hn, hE⟩ := this.execution rfl
        exact ⟨x, n, by rw [Execution.Returned, hn]; rfl, hE⟩
      · intro vs vs' h1 h2
        have := runVals_sim (eventsList ts) vs vs' (h1.trans h2.symm) (Walker.Sim.refl Walker.init)
        cases e1 : runVals (eventsList ts) vs Walker.init with
        | error p => cases e2 : runVals (eventsList ts) vs' Walker.init with
          | error p' => rw [e1, e2] at this; cases this; exact .inl ⟨p, by simp [e1]; rfl, by simp [e2]; rfl⟩
          | ok => rw [e1, e2] at this; cases this
        | ok w => cases e2 : runVals (eventsList ts) vs' Walker.init with
          | error p' => rw [e1, e2] at this; cases this
          | ok w' =>
            rw [e1, e2] at this
            obtain ⟨_, hr, he⟩ := this
            simp only [e1, e2, Fn.finish]
            obtain ⟨_, res, err⟩ := w
            obtain ⟨_, res', err'⟩ := w'
            dsimp only at hr he ⊢
            subst he
            cases res with
            | none => cases res' with
              | none => exact .inl ⟨_, rfl, rfl⟩
              | some r => cases r <;> cases hr
            | some r => cases res' with
              | none => cases r <;> cases hr
              | some r' =>
                cases r with
                | time => cases r' with
                  | time => exact .inl ⟨_, rfl, rfl⟩
                  | addrs => cases hr
                | addrs l => cases r' with
                  | time => cases hr
                  | addrs l' =>
                    refine .inr ⟨_, _, _, rfl, rfl, ?_⟩
                    have hl : l.length = l'.length := by simpa [resShape] using hr
                    cases l <;> cases l' <;> simp [goSlice] at hl ⊢
                    exact hl

end Rfc5322
