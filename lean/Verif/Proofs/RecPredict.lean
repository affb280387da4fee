import Verif.Proofs.AllStarNets

/-!
# A prediction is an alternative that the next token can belong to

Also if there is an error later on.
-/

namespace Rfc5322.AllStar

open Atn Gen Relation

variable {N : Net} {G : Graphs} {P : Nat → Prop}

/-- Either the rule is left, or what lies below on the stack does not matter. -/
theorem path_within {full a base x} (h : ReflTransGen (Moves N full false) (a, base) x) :
    (∃ q, ReflTransGen (Moves N true false) (a, []) (q, []) ∧ isStop N q = true) ∨
      ∃ st, x.2 = st ++ base ∧ ReflTransGen (Moves N true false) (a, []) (x.1, st) := by
  induction h with
  | refl => exact .inr ⟨[], rfl, .refl⟩
  | tail _ h1 ih =>
    rcases ih with ih | ⟨st, h2, h3⟩
    · exact .inl ih
    · cases h1 with
      | eps hm => exact .inr ⟨st, h2, h3.tail (.eps hm)⟩
      | eof h => cases h
      | call hm => exact .inr ⟨_ :: st, by dsimp only at h2; rw [h2]; rfl, h3.tail (.call hm)⟩
      | ret hs =>
        cases st with
        | nil => exact .inl ⟨_, h3, hs⟩
        | cons y st =>
          simp only [List.cons_append, List.cons.injEq] at h2
          obtain ⟨rfl, h2⟩ := h2
          exact .inr ⟨st, h2, h3.tail (.ret hs)⟩
      | out hf hs _ =>
        obtain ⟨rfl, _⟩ := List.append_eq_nil_iff.mp h2.symm
        exact .inl ⟨_, h3, hs⟩

/-- The alternative can begin with this token. -/
def Begins (N : Net) (p : Nat) (t : Option Char) (n : Nat) : Prop := ∃ i e, n = i + 1 ∧ (N.out p)[i]? = some e ∧ nextTokens N e.2 t

theorem startState_from {full σ p c} (h : startState G N full σ p c) : ∃ i e st', c.alt = i + 1 ∧ (N.out p)[i]? = some e ∧
    kept N full ⟨c.alt, c.state, c.stack ++ st'⟩ = true ∧
    ReflTransGen (Moves N full false) (e.2, if full then σ.map (follow N) else []) (c.state, c.stack ++ st') := by
  have h1 : ∃ st', closure N full false (fun d => ∃ i e, (N.out p)[i]? = some e ∧ d = ⟨i + 1, e.2, if full then σ.map (follow N) else []⟩)
      ⟨c.alt, c.state, c.stack ++ st'⟩ := by
    cases full with
    | true => exact ⟨[], by rw [List.append_nil]; exact h⟩
    | false => exact G.widen_from h
  obtain ⟨st', hk, d, ⟨i, e, h2, rfl⟩, h3, h4⟩ := h1
  exact ⟨i, e, st', h3.symm, h2, hk, h4⟩

/-- After the first token, all alternatives left can begin with it. -/
theorem reach_begins {full σ p t} : AltsIn (reachSet G N full (startState G N full σ p) t) (Begins N p t) := by
  have hm : AltsIn (move N t (startState G N full σ p)) (Begins N p t) := by
    rintro d ⟨c, l, h1, h2, h3, h4, _⟩
    obtain ⟨i, e, st', h5, h6, _, h7⟩ := startState_from h1
    rw [h4]
    refine ⟨i, e, h5, h6, ?_⟩
    rcases path_within h7 with h8 | ⟨st, _, h8⟩
    · exact .inr h8
    · exact .inl ⟨_, st, l, _, h8, h2, h3⟩
  rintro c (⟨h1, _⟩ | ⟨⟨h1, h2, _⟩, _⟩)
  · split at h1
    · exact hm.merged c h1
    · exact hm.merged.closure.merged c h1
  · obtain ⟨i, e, st', h5, h6, hk, h7⟩ := startState_from h1
    refine ⟨i, e, h5, h6, .inr ?_⟩
    rcases path_within h7 with h8 | ⟨st, h9, h8⟩
    · exact h8
    · rw [kept, if_pos h2, Bool.and_eq_true, List.isEmpty_iff] at hk
      dsimp only at hk h9
      rw [hk.1] at h9
      obtain ⟨rfl, _⟩ := List.append_eq_nil_iff.mp h9.symm
      exact ⟨_, h8, h2⟩

theorem failed_first {F C n} (hF : ∀ n, F n → P n) (hf : failed G F C = .alt n) : P n := by
  rw [failed] at hf
  split at hf
  · rename_i h1
    cases hf
    exact hF _ (G.finished_from h1).1
  · cases hf

theorem roundLL_first {F B C n next} (hF : ∀ n, F n → P n) (hC : AltsIn C P) (hn : next = .alt n → P n) (h : roundLL G F B C next = .alt n) : P n := by
  rw [roundLL] at h
  split at h
  · exact failed_first hF h
  · split at h
    · rename_i hu
      cases h
      exact hu.choose_spec.alt hC
    · split at h
      · rename_i hu
        cases h
        exact hu.choose_spec.alt hC
      · exact hn h

theorem roundSLL_first {F B C n full next} (hF : ∀ n, F n → P n) (hC : AltsIn C P) (hf : full = .alt n → P n) (hn : next = .alt n → P n)
    (h : roundSLL G N F full B C next = .alt n) : P n := by
  rw [roundSLL] at h
  split at h
  · exact failed_first hF h
  · split at h
    · rename_i hu
      cases h
      exact hu.choose_spec.alt hC
    · split at h
      · exact hf h
      · exact hn h

theorem leaves_begins {p t n} (h : leaves N p n) : Begins N p t n := by
  obtain ⟨i, e, q, h1, h2, h3, h4⟩ := h
  exact ⟨i, e, h1, h2, .inr ⟨q, h3, h4⟩⟩

/-- The next token can belong to the alternative predicted. -/
theorem adaptivePredict_begins {d p σ s n} (hd : N.decisions[d]? = some p) (h : adaptivePredict G N d σ s = .alt n) : Begins N p s.head? n := by
  rw [adaptivePredict, hd] at h
  have hl : ∀ n, leaves N p n → Begins N p s.head? n := fun n => leaves_begins
  have hfull : execLL G N (leaves N p) (startState G N true σ p) s = .alt n → Begins N p s.head? n := by
    intro h
    cases s with
    | nil =>
      rw [execLL] at h
      exact roundLL_first hl reach_begins (by simp) h
    | cons t s =>
      rw [execLL] at h
      exact roundLL_first hl reach_begins (execLL_alt s reach_begins) h
  cases s with
  | nil =>
    dsimp only at h
    rw [execSLL] at h
    exact roundSLL_first hl reach_begins hfull (by simp) h
  | cons t s =>
    dsimp only at h
    rw [execSLL] at h
    exact roundSLL_first hl reach_begins hfull (execSLL_alt hfull s reach_begins) h

end Rfc5322.AllStar
