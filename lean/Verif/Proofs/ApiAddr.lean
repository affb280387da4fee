import Verif.Proofs.Lists

/-!
# `ParseAddressList` against the specification
-/

namespace Rfc5322

open Spec

theorem parseAddressList_spec (P : Predictor) (env : Env) {input : Bytes} (hne : input ≠ []) :
    (∃ l, AddressList env (tokens input) l ∧ parseAddressList P env input = .ok (goSlice l, none)) ∨
    ((∀ l, ¬ AddressList env (tokens input) l) ∧
      parseAddressList P env input = .ok (none, some .syntaxError)) := by
  have h0 : input.length ≠ 0 := by simpa using hne
  have hw : Gr.addressList.wf = true := by decide
  unfold parseAddressList
  rw [if_neg h0, descend_eq_search P Gr.addressList hw]
  cases hs : search Gr.addressList (tokens input) with
  | none =>
    refine .inr ⟨fun l hl => ?_, rfl⟩
    obtain ⟨ts, hd, _⟩ := addressList_complete hl
    have := (search_isSome_iff (s := tokens input) hw).mpr ⟨ts, hd⟩
    rw [hs] at this; exact absurd this (by simp)
  | some ts =>
    obtain ⟨_, l, hl, hw⟩ := addressList_sound (env := env) (search_sound hs)
    refine .inl ⟨l, hl, ?_⟩
    dsimp only
    rw [hw]

end Rfc5322
