import Verif.Spec.Preferred
import Verif.Proofs.First

/-!
# The ordered search finds the preferred derivation, which is unique
-/

namespace Rfc5322

open Spec

theorem Preferred.derives {K g s ts s'} (h : Preferred K g s ts s') : Derives g s ts s' ∧ K s' := by
  induction h with
  | eps h => exact ⟨.eps, h⟩
  | eof h => exact ⟨.eof, h⟩
  | t h k => exact ⟨.t h, k⟩
  | seq _ _ ih1 ih2 => exact ⟨.seq ih1.1 ih2.1, ih2.2⟩
  | first _ ih => exact ⟨.altL ih.1, ih.2⟩
  | second _ _ ih => exact ⟨.altR ih.1, ih.2⟩
  | again _ _ ih1 ih2 => exact ⟨.starCons ih1.1 ih2.1, ih2.2⟩
  | stop _ h => exact ⟨.starNil, h⟩
  | rule _ ih => exact ⟨.rule ih.1, ih.2⟩
  | comment _ ih => exact ⟨.comment ih.1, ih.2⟩

theorem Preferred.completes {K g s ts s'} (h : Preferred K g s ts s') : Completes g K s :=
  ⟨ts, s', (Preferred.derives h).1, (Preferred.derives h).2⟩

/-- `K` may be replaced by an equivalent condition. -/
theorem Preferred.congr {K L g s ts s'} (h : Preferred K g s ts s') (e : ∀ s, K s ↔ L s) : Preferred L g s ts s' := by
  have : K = L := funext fun s => propext (e s)
  exact this ▸ h

/-- At most one derivation is preferred. -/
theorem Preferred.unique {K g s ts s'} (h : Preferred K g s ts s') :
    ∀ {us s''}, Preferred K g s us s'' → us = ts ∧ s'' = s' := by
  induction h with
  | eps _ => intro us s'' h; cases h; exact ⟨rfl, rfl⟩
  | eof _ => intro us s'' h; cases h; exact ⟨rfl, rfl⟩
  | t _ _ => intro us s'' h; cases h; exact ⟨rfl, rfl⟩
  | seq _ _ ih1 ih2 =>
    intro us s'' h
    cases h with
    | seq h1 h2 =>
      obtain ⟨rfl, rfl⟩ := ih1 h1
      obtain ⟨rfl, rfl⟩ := ih2 h2
      exact ⟨rfl, rfl⟩
  | first h1 ih =>
    intro us s'' h
    cases h with
    | first h => exact ih h
    | second hn _ => exact absurd (Preferred.completes h1) hn
  | second hn _ ih =>
    intro us s'' h
    cases h with
    | first h => exact absurd (Preferred.completes h) hn
    | second _ h => exact ih h
  | again h1 h2 ih1 ih2 =>
    intro us s'' h
    cases h with
    | again k1 k2 =>
      obtain ⟨rfl, rfl⟩ := ih1 k1
      obtain ⟨rfl, rfl⟩ := ih2 k2
      exact ⟨rfl, rfl⟩
    | stop hn _ =>
      exact absurd ⟨_, _, .seq (Preferred.derives h1).1 (Preferred.derives h2).1, (Preferred.derives h2).2⟩ hn
  | stop hn _ =>
    intro us s'' h
    cases h with
    | again h1 h2 =>
      exact absurd ⟨_, _, .seq (Preferred.derives h1).1 (Preferred.derives h2).1, (Preferred.derives h2).2⟩ hn
    | stop => exact ⟨rfl, rfl⟩
  | rule _ ih =>
    intro us s'' h
    cases h with
    | rule h => obtain ⟨rfl, rfl⟩ := ih h; exact ⟨rfl, rfl⟩
  | comment _ ih =>
    intro us s'' h
    cases h with
    | comment h => obtain ⟨rfl, rfl⟩ := ih h; exact ⟨rfl, rfl⟩

theorem not_completes_of_run_none {d g s} {R : Type} {k : Cont R} {K : List Char → Prop} (hw : g.wf = true)
    (hl : s.length ≤ d) (hk : ∀ ts s', (k ts s').isSome ↔ K s') (h : searchWith (searchComment d) g s k = none) :
    ¬ Completes g K s := by
  rintro ⟨ts, s', hd, hK⟩
  have := (run_isSome_iff (d := d) (k := k) hw hl).mpr ⟨ts, s', hd, (hk ts s').mpr hK⟩
  rw [h] at this; exact absurd this (by simp)

theorem run_completes {d g s} {R : Type} {k : Cont R} {K : List Char → Prop} (hw : g.wf = true)
    (hl : s.length ≤ d) (hk : ∀ ts s', s'.length ≤ s.length → ((k ts s').isSome ↔ K s')) :
    (searchWith (searchComment d) g s k).isSome ↔ Completes g K s := by
  rw [run_isSome_iff hw hl]
  constructor
  · rintro ⟨ts, s', hd, h⟩; exact ⟨ts, s', hd, (hk _ _ hd.length_le).mp h⟩
  · rintro ⟨ts, s', hd, h⟩; exact ⟨ts, s', hd, (hk _ _ hd.length_le).mpr h⟩

/-- What the search returns comes from the preferred derivation, whatever the recursion does on comments. -/
theorem searchWith_preferred (d : Nat)
    (hc : ∀ {R : Type} (s : List Char) (k : Cont R) (K : List Char → Prop) r, s.length ≤ d →
      (∀ ts s', s'.length ≤ s.length → ((k ts s').isSome ↔ K s')) → searchComment d s k = some r →
      ∃ ts s', Preferred K .comment s ts s' ∧ k ts s' = some r) :
    ∀ (g : G), g.wf = true → ∀ {R : Type} (s : List Char) (k : Cont R) (K : List Char → Prop) r, s.length ≤ d →
      (∀ ts s', s'.length ≤ s.length → ((k ts s').isSome ↔ K s')) → searchWith (searchComment d) g s k = some r →
      ∃ ts s', Preferred K g s ts s' ∧ k ts s' = some r := by
  intro g
  induction g with
  | eps => intro _ R s k K r _ hk h; exact ⟨[], s, .eps ((hk [] s (Nat.le_refl _)).mp (by simp [show k [] s = some r from h])), h⟩
  | eof =>
    intro _ R s k K r _ hk h
    cases s with
    | nil => exact ⟨_, _, .eof ((hk [.eof] [] (Nat.le_refl _)).mp (by simp [show k [.eof] [] = some r from h])), h⟩
    | cons => simp [searchWith] at h
  | t x =>
    intro _ R s k K r _ hk h
    cases s with
    | nil => simp [searchWith] at h
    | cons c s =>
      simp only [searchWith] at h
      split at h
      · exact ⟨_, _, .t ‹_› ((hk _ s (by simp)).mp (by rw [h]; rfl)), h⟩
      · simp at h
  | seq a b iha ihb =>
    intro hw R s k K r hl hk h
    simp only [G.wf, Bool.and_eq_true] at hw
    obtain ⟨ts, s', h1, h2⟩ := iha hw.1 s _ (Completes b K) r hl (fun ts s' hs' =>
      run_completes hw.2 (Nat.le_trans hs' hl) fun us s'' hs'' => hk _ _ (Nat.le_trans hs'' hs')) h
    have hs' := (Preferred.derives h1).1.length_le
    obtain ⟨us, s'', h3, h4⟩ := ihb hw.2 s' _ K r (Nat.le_trans hs' hl)
      (fun us s'' hs'' => hk _ _ (Nat.le_trans hs'' hs')) h2
    exact ⟨_, _, .seq h1 h3, h4⟩
  | alt a b iha ihb =>
    intro hw R s k K r hl hk h
    simp only [G.wf, Bool.and_eq_true] at hw
    simp only [searchWith, Option.or_eq_some_iff] at h
    rcases h with h | ⟨hn, h⟩
    · obtain ⟨ts, s', h1, h2⟩ := iha hw.1 s k K r hl hk h
      exact ⟨ts, s', .first h1, h2⟩
    · obtain ⟨ts, s', h1, h2⟩ := ihb hw.2 s k K r hl hk h
      refine ⟨ts, s', .second ?_ h1, h2⟩
      rw [← run_completes hw.1 hl hk, hn]; simp
  | star a ih =>
    intro hw R s k K r hl hk h
    have hw' := hw
    simp only [G.wf, Bool.and_eq_true, Bool.not_eq_true'] at hw'
    induction hn : s.length using Nat.strongRecOn generalizing s k r with
    | _ n ihn =>
      rw [searchWith_star hw'.2, Option.or_eq_some_iff] at h
      rcases h with h | ⟨hnone, h⟩
      · obtain ⟨ts, s', h1, h2⟩ := ih hw'.1 s _ (Completes (.star a) K) r hl (fun ts s' hs' =>
          run_completes hw (Nat.le_trans hs' hl) fun us s'' hs'' => hk _ _ (Nat.le_trans hs'' hs')) h
        have hlt := (Preferred.derives h1).1.length_lt hw'.2
        obtain ⟨us, s'', h3, h4⟩ := ihn s'.length (by omega) s' _ r (by omega)
          (fun us s'' hs'' => hk _ _ (by omega)) h2 rfl
        exact ⟨_, _, .again h1 h3, h4⟩
      · refine ⟨[], s, .stop ?_ ((hk [] s (Nat.le_refl _)).mp (by rw [h]; rfl)), h⟩
        rintro ⟨ts, s', hd, hK⟩
        cases hd with
        | @seq _ _ _ ts₁ s₁ us₁ _ h1 h2 =>
          have hs₁ := h1.length_le
          have hs' := h2.length_le
          have : (searchWith (searchComment d) a s fun ts s' => searchWith (searchComment d) (.star a) s' fun us s'' =>
              k (ts ++ us) s'').isSome := by
            rw [run_isSome_iff hw'.1 hl]
            refine ⟨ts₁, s₁, h1, ?_⟩
            rw [run_isSome_iff hw (by omega)]
            exact ⟨us₁, s', h2, (hk _ _ (by omega)).mpr hK⟩
          rw [hnone] at this; exact absurd this (by simp)
  | rule q a ih =>
    intro hw R s k K r hl hk h
    obtain ⟨ts, s', h1, h2⟩ := ih hw s _ K r hl (fun ts s' hs' => hk _ _ hs') h
    exact ⟨_, _, .rule h1, h2⟩
  | comment => intro _ R s k K r hl hk h; exact hc s k K r hl hk h

theorem searchComment_preferred : ∀ (d : Nat) {R : Type} (s : List Char) (k : Cont R) (K : List Char → Prop) r,
    s.length ≤ d → (∀ ts s', s'.length ≤ s.length → ((k ts s').isSome ↔ K s')) → searchComment d s k = some r →
      ∃ ts s', Preferred K .comment s ts s' ∧ k ts s' = some r := by
  intro d
  induction d with
  | zero => intro R s k K r _ _ h; simp [searchComment] at h
  | succ d ih =>
    intro R s k K r hl hk h
    simp only [searchComment] at h
    cases s with
    | nil => simp [Gr.commentBody, searchWith] at h
    | cons c s =>
      by_cases hm : Tok.matches .LParens c = true
      · have hl' : s.length ≤ d := by simpa using hl
        unfold Gr.commentBody at h
        rw [searchWith_tok_seq hm] at h
        obtain ⟨ts, s', h1, h2⟩ := searchWith_preferred d ih _ (by decide) s _ K r hl'
          (fun ts s' hs' => hk _ _ (by simp; omega)) h
        exact ⟨_, _, .comment (.seq (.t hm (Preferred.completes h1)) h1), h2⟩
      · simp [Gr.commentBody, searchWith, hm] at h

/-- The search returns the preferred derivation. -/
theorem search_preferred {g s ts} (hw : g.wf = true) (h : search g s = some ts) :
    Preferred (fun s' => s' = []) g s ts [] := by
  unfold search at h
  obtain ⟨us, s', h1, h2⟩ := searchWith_preferred s.length (searchComment_preferred _) g hw s _ (fun s' => s' = []) ts
    (Nat.le_refl _) (fun ts s' _ => by cases s' <;> simp) h
  cases s' with
  | nil => simp at h2; subst h2; exact h1
  | cons => simp at h2

end Rfc5322
