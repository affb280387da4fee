import Verif.Model.AllStarCache

/-!
# The tables of the first stage make no difference
-/

namespace Rfc5322.AllStar

open Atn Gen

variable {G : Graphs} {N : Net}

theorem takes_key {l : Label} {t t' : Option Char} (h : key t = key t') (ht : takes l t) : takes l t' := by
  cases t with
  | none =>
    cases t' with
    | none => exact ht
    | some c => cases h
  | some c =>
    cases t' with
    | none => cases h
    | some c' =>
      have h : tokenType c = tokenType c' := by simpa [key] using h
      cases l with
      | set is =>
        obtain ⟨k, h1, h2⟩ := ht
        exact ⟨k, h ▸ h1, h2⟩
      | _ => exact ht.elim

theorem move_key {t t' : Option Char} (h : key t = key t') (C : Configs) : move N t C = move N t' C := by
  funext d
  apply propext
  constructor <;> rintro ⟨c, l, h1, h2, h3, h4⟩
  · exact ⟨c, l, h1, h2, takes_key h h3, h4⟩
  · exact ⟨c, l, h1, h2, takes_key h.symm h3, h4⟩

theorem none_key {t t' : Option Char} (h : key t = key t') : t = none ↔ t' = none := by
  cases t <;> cases t' <;> simp_all [key]

open Classical in
theorem reachSet_key {full : Bool} {C : Configs} {t t' : Option Char} (h : key t = key t') : reachSet G N full C t = reachSet G N full C t' := by
  have h1 : skipped N full C t = skipped N full C t' := by
    funext c
    simp [skipped, none_key h]
  have h2 : t.isNone = t'.isNone := by
    cases t <;> cases t' <;> simp_all [key]
  have h3 : ∀ a b : Configs, (if (∀ c, ¬ skipped N full C t c) ∧ t ≠ none ∧ ∃ n, Unique (merged G full (move N t C)) n then a else b) =
      if (∀ c, ¬ skipped N full C t' c) ∧ t' ≠ none ∧ ∃ n, Unique (merged G full (move N t' C)) n then a else b := by
    intro a b
    have e : ((∀ c, ¬ skipped N full C t c) ∧ t ≠ none ∧ ∃ n, Unique (merged G full (move N t C)) n) ↔
        ((∀ c, ¬ skipped N full C t' c) ∧ t' ≠ none ∧ ∃ n, Unique (merged G full (move N t' C)) n) := by
      rw [h1, move_key h, Ne, Ne, none_key h]
    by_cases hc : (∀ c, ¬ skipped N full C t c) ∧ t ≠ none ∧ ∃ n, Unique (merged G full (move N t C)) n
    · rw [if_pos hc, if_pos (e.mp hc)]
    · rw [if_neg hc, if_neg (fun h => hc (e.mpr h))]
  unfold reachSet
  dsimp only
  rw [h3, h1, h2, move_key h]
  simp only [none_key h]

/-- All entries are right. -/
structure Sound (G : Graphs) (N : Net) (κ : Tables) : Prop where
  start : ∀ {d C}, κ.start d = some C → ∃ p, N.decisions[d]? = some p ∧ C = startState G N false [] p
  edge : ∀ {C t R}, κ.edge C (key t) = some R → R = reachSet G N false C t

theorem Occurs.sound {κ : Tables} (h : Occurs G N κ) : Sound G N κ := by
  induction h with
  | refl => exact ⟨fun {d C} h => (by cases h), fun {C t R} h => (by cases h)⟩
  | tail _ h1 ih =>
    cases h1 with
    | @start d p hd =>
      refine ⟨fun {d' C} h => ?_, fun {C t R} h => ih.edge h⟩
      dsimp only at h
      split at h
      · rename_i e
        cases h
        exact ⟨p, e ▸ hd, rfl⟩
      · exact ih.start h
    | @edge C t =>
      refine ⟨fun {d' C} h => ih.start h, fun {C' t' R} h => ?_⟩
      dsimp only at h
      split at h
      · rename_i e
        cases h
        rw [e.1]
        exact reachSet_key e.2.symm
      · exact ih.edge h

theorem target_eq {κ : Tables} (h : Sound G N κ) (C : Configs) (t : Option Char) : target G N κ C t = reachSet G N false C t := by
  rw [target]
  cases he : κ.edge C (key t) with
  | none => rfl
  | some R => exact h.edge he

theorem execWith_eq {κ : Nat → Tables} (h : ∀ n, Sound G N (κ n)) (full : Answer) : ∀ (s : List Char) (F : Nat → Prop) (n : Nat) (C : Configs),
    execWith G N κ F full n C s = execSLL G N F full C s
  | [], F, n, C => by rw [execWith, execSLL, target_eq (h n)]
  | c :: s, F, n, C => by rw [execWith, execSLL, target_eq (h n), execWith_eq h full s]

theorem predictWith_eq {κ : Nat → Tables} (h : ∀ n, Sound G N (κ n)) (d : Nat) (σ : List Nat) (s : List Char) :
    predictWith G N κ d σ s = adaptivePredict G N d σ s := by
  rw [predictWith, adaptivePredict]
  cases hd : N.decisions[d]? with
  | none => rfl
  | some p =>
    dsimp only
    rw [execWith_eq h]
    congr 1
    cases hs : (κ 0).start d with
    | none => rfl
    | some C =>
      obtain ⟨p', h1, h2⟩ := (h 0).start hs
      rw [hd] at h1
      cases h1
      exact h2

end Rfc5322.AllStar
