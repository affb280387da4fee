import Verif.Model.Parser

/-!
# Soundness and completeness of the ordered search with respect to `Derives`
-/

namespace Rfc5322

/-- Can the expression derive the empty token list? (over-approximation) -/
def G.nullable : G → Bool
  | .eps => true
  | .eof => true
  | .t _ => false
  | .seq a b => a.nullable && b.nullable
  | .alt a b => a.nullable || b.nullable
  | .star _ => true
  | .rule _ a => a.nullable
  | .comment => false

/-- No repetition has a nullable body. -/
def G.wf : G → Bool
  | .eps | .eof | .t _ | .comment => true
  | .seq a b => a.wf && b.wf
  | .alt a b => a.wf && b.wf
  | .star a => a.wf && !a.nullable
  | .rule _ a => a.wf

theorem Derives.suffix {g s ts s'} (h : Derives g s ts s') : ∃ p, s = p ++ s' := by
  induction h with
  | eps => exact ⟨[], rfl⟩
  | eof => exact ⟨[], rfl⟩
  | t _ => exact ⟨[_], rfl⟩
  | seq _ _ ih1 ih2 =>
    obtain ⟨p, rfl⟩ := ih1; obtain ⟨q, rfl⟩ := ih2
    exact ⟨p ++ q, by simp⟩
  | altL _ ih => exact ih
  | altR _ ih => exact ih
  | starNil => exact ⟨[], rfl⟩
  | starCons _ _ ih1 ih2 =>
    obtain ⟨p, rfl⟩ := ih1; obtain ⟨q, rfl⟩ := ih2
    exact ⟨p ++ q, by simp⟩
  | rule _ ih => exact ih
  | comment _ ih => exact ih

theorem Derives.length_le {g s ts s'} (h : Derives g s ts s') : s'.length ≤ s.length := by
  obtain ⟨p, rfl⟩ := h.suffix; simp

theorem Derives.length_lt {g s ts s'} (h : Derives g s ts s') (hn : g.nullable = false) :
    s'.length < s.length := by
  induction h with
  | eps => simp [G.nullable] at hn
  | eof => simp [G.nullable] at hn
  | t _ => simp
  | @seq a b _ _ _ _ _ h1 h2 ih1 ih2 =>
    simp only [G.nullable, Bool.and_eq_false_iff] at hn
    have := h1.length_le; have := h2.length_le
    rcases hn with hn | hn
    · have := ih1 hn; omega
    · have := ih2 hn; omega
  | altL _ ih => simp [G.nullable] at hn; exact ih hn.1
  | altR _ ih => simp [G.nullable] at hn; exact ih hn.2
  | starNil => simp [G.nullable] at hn
  | starCons => simp [G.nullable] at hn
  | rule _ ih => simp [G.nullable] at hn; exact ih hn
  | comment _ ih => exact ih (by decide)

/-! ## Soundness -/

theorem searchLoop_sound {R : Type} {a : G} {body : List Char → Cont R → Option R}
    (hb : ∀ s k r, body s k = some r → ∃ ts s', Derives a s ts s' ∧ k ts s' = some r) :
    ∀ n s k r, searchLoop body n s k = some r → ∃ ts s', Derives (.star a) s ts s' ∧ k ts s' = some r := by
  intro n
  induction n with
  | zero => intro s k r h; exact ⟨[], s, .starNil, h⟩
  | succ n ih =>
    intro s k r h
    simp only [searchLoop, Option.or_eq_some_iff] at h
    rcases h with h | ⟨_, h⟩
    · obtain ⟨ts, s', h1, h2⟩ := hb _ _ _ h
      obtain ⟨us, s'', h3, h4⟩ := ih _ _ _ h2
      exact ⟨_, _, .starCons h1 h3, h4⟩
    · exact ⟨[], s, .starNil, h⟩

theorem searchWith_sound {R : Type} {cm : List Char → Cont R → Option R}
    (hc : ∀ s k r, cm s k = some r → ∃ ts s', Derives .comment s ts s' ∧ k ts s' = some r) :
    ∀ g s k r, searchWith cm g s k = some r → ∃ ts s', Derives g s ts s' ∧ k ts s' = some r := by
  intro g
  induction g with
  | eps => intro s k r h; exact ⟨_, _, .eps, h⟩
  | eof =>
    intro s k r h
    cases s with
    | nil => exact ⟨_, _, .eof, h⟩
    | cons => simp [searchWith] at h
  | t x =>
    intro s k r h
    cases s with
    | nil => simp [searchWith] at h
    | cons c s =>
      simp only [searchWith] at h
      split at h
      · exact ⟨_, _, .t ‹_›, h⟩
      · simp at h
  | seq a b iha ihb =>
    intro s k r h
    obtain ⟨ts, s', h1, h2⟩ := iha _ _ _ h
    obtain ⟨us, s'', h3, h4⟩ := ihb _ _ _ h2
    exact ⟨_, _, .seq h1 h3, h4⟩
  | alt a b iha ihb =>
    intro s k r h
    simp only [searchWith, Option.or_eq_some_iff] at h
    rcases h with h | ⟨_, h⟩
    · obtain ⟨ts, s', h1, h2⟩ := iha _ _ _ h
      exact ⟨_, _, .altL h1, h2⟩
    · obtain ⟨ts, s', h1, h2⟩ := ihb _ _ _ h
      exact ⟨_, _, .altR h1, h2⟩
  | star a ih => intro s k r h; exact searchLoop_sound ih _ _ _ _ h
  | rule q a ih =>
    intro s k r h
    obtain ⟨ts, s', h1, h2⟩ := ih _ _ _ h
    exact ⟨_, _, .rule h1, h2⟩
  | comment => intro s k r h; exact hc _ _ _ h

theorem searchComment_sound {R : Type} : ∀ d s (k : Cont R) r, searchComment d s k = some r →
    ∃ ts s', Derives .comment s ts s' ∧ k ts s' = some r := by
  intro d
  induction d with
  | zero => intro s k r h; simp [searchComment] at h
  | succ d ih =>
    intro s k r h
    obtain ⟨ts, s', h1, h2⟩ := searchWith_sound ih _ _ _ _ h
    exact ⟨_, _, .comment h1, h2⟩

theorem run_sound {R : Type} {d g s} {k : Cont R} {r} (h : searchWith (searchComment d) g s k = some r) :
    ∃ ts s', Derives g s ts s' ∧ k ts s' = some r :=
  searchWith_sound (searchComment_sound d) _ _ _ _ h

/-! ## Completeness -/

theorem searchLoop_succ_isSome {R : Type} {body : List Char → Cont R → Option R} {n s} {k : Cont R}
    (h : (k [] s).isSome) : (searchLoop body n s k).isSome := by
  cases n with
  | zero => exact h
  | succ n => simp [searchLoop, h]

/-- Completeness at every depth bound at least the number of tokens. -/
theorem run_complete {R : Type} : ∀ (d : Nat) {g s ts s'}, Derives g s ts s' → g.wf = true → s.length ≤ d →
    ∀ (k : Cont R), (k ts s').isSome → (searchWith (searchComment d) g s k).isSome := by
  intro d
  induction d with
  | zero =>
    intro g s ts s' h
    induction h with
    | eps => intro _ _ k hk; exact hk
    | eof => intro _ _ k hk; exact hk
    | t => intro _ h; simp at h
    | seq h1 _ ih1 ih2 =>
      intro hw hl k hk
      simp only [G.wf, Bool.and_eq_true] at hw
      exact ih1 hw.1 hl _ (ih2 hw.2 (Nat.le_trans h1.length_le hl) _ hk)
    | altL _ ih =>
      intro hw hl k hk
      simp only [G.wf, Bool.and_eq_true] at hw
      simp [searchWith, ih hw.1 hl k hk]
    | altR _ ih =>
      intro hw hl k hk
      simp only [G.wf, Bool.and_eq_true] at hw
      simp [searchWith, ih hw.2 hl k hk]
    | starNil => intro _ _ k hk; exact searchLoop_succ_isSome hk
    | starCons h1 _ _ _ =>
      intro hw hl
      simp only [G.wf, Bool.and_eq_true, Bool.not_eq_true'] at hw
      have := h1.length_lt hw.2
      omega
    | rule _ ih => intro hw hl k hk; exact ih hw hl _ hk
    | comment h1 _ =>
      intro _ hl
      have := h1.length_lt (by decide)
      omega
  | succ d ihd =>
    intro g s ts s' h
    induction h with
    | eps => intro _ _ k hk; exact hk
    | eof => intro _ _ k hk; exact hk
    | t h => intro _ _ k hk; simp [searchWith, h, hk]
    | seq h1 _ ih1 ih2 =>
      intro hw hl k hk
      simp only [G.wf, Bool.and_eq_true] at hw
      exact ih1 hw.1 hl _ (ih2 hw.2 (Nat.le_trans h1.length_le hl) _ hk)
    | altL _ ih =>
      intro hw hl k hk
      simp only [G.wf, Bool.and_eq_true] at hw
      simp [searchWith, ih hw.1 hl k hk]
    | altR _ ih =>
      intro hw hl k hk
      simp only [G.wf, Bool.and_eq_true] at hw
      simp [searchWith, ih hw.2 hl k hk]
    | starNil => intro _ _ k hk; exact searchLoop_succ_isSome hk
    | @starCons a s ts s' us s'' h1 h2 ih1 ih2 =>
      intro hw hl k hk
      have hw' := hw
      simp only [G.wf, Bool.and_eq_true, Bool.not_eq_true'] at hw'
      have hlt := h1.length_lt hw'.2
      -- search with exactly the fuel of the tail is available from `ih2`; more fuel does not hurt
      have mono : ∀ (body : List Char → Cont R → Option R)
          (_ : ∀ t (k₁ k₂ : Cont R), (∀ ws t', (k₁ ws t').isSome → (k₂ ws t').isSome) →
            (body t k₁).isSome → (body t k₂).isSome)
          (m n : Nat) (t : List Char) (k₁ k₂ : Cont R), m ≤ n →
          (∀ ws t', (k₁ ws t').isSome → (k₂ ws t').isSome) →
          (searchLoop body m t k₁).isSome → (searchLoop body n t k₂).isSome := by
        intro body hb m
        induction m with
        | zero => intro n t k₁ k₂ _ hk h; exact searchLoop_succ_isSome (hk _ _ h)
        | succ m ihm =>
          intro n t k₁ k₂ hmn hk h
          obtain ⟨n, rfl⟩ : ∃ n', n = n' + 1 := ⟨n - 1, by omega⟩
          simp only [searchLoop, Option.isSome_or, Bool.or_eq_true] at h ⊢
          rcases h with h | h
          · left
            refine hb _ _ _ ?_ h
            intro ws t' h'
            exact ihm n _ _ _ (by omega) (fun _ _ => hk _ _) h'
          · right; exact hk _ _ h
      have monoBody : ∀ (g : G) t (k₁ k₂ : Cont R), (∀ ws t', (k₁ ws t').isSome → (k₂ ws t').isSome) →
          (searchWith (searchComment (d+1)) g t k₁).isSome → (searchWith (searchComment (d+1)) g t k₂).isSome := by
        have monoW : ∀ (cm : List Char → Cont R → Option R),
            (∀ t (k₁ k₂ : Cont R), (∀ ws t', (k₁ ws t').isSome → (k₂ ws t').isSome) →
              (cm t k₁).isSome → (cm t k₂).isSome) →
            ∀ (g : G) t (k₁ k₂ : Cont R), (∀ ws t', (k₁ ws t').isSome → (k₂ ws t').isSome) →
              (searchWith cm g t k₁).isSome → (searchWith cm g t k₂).isSome := by
          intro cm hcm g
          induction g with
          | eps => intro t k₁ k₂ hk h; exact hk _ _ h
          | eof => intro t k₁ k₂ hk h; cases t with
            | nil => exact hk _ _ h
            | cons => simp [searchWith] at h
          | t x => intro t k₁ k₂ hk h; cases t with
            | nil => simp [searchWith] at h
            | cons c t =>
              simp only [searchWith] at h ⊢
              split <;> rename_i hx
              · rw [if_pos hx] at h; exact hk _ _ h
              · rw [if_neg hx] at h; simp at h
          | seq a b iha ihb =>
            intro t k₁ k₂ hk h
            exact iha _ _ _ (fun _ _ h' => ihb _ _ _ (fun _ _ => hk _ _) h') h
          | alt a b iha ihb =>
            intro t k₁ k₂ hk h
            simp only [searchWith, Option.isSome_or, Bool.or_eq_true] at h ⊢
            exact h.imp (iha _ _ _ hk) (ihb _ _ _ hk)
          | star a ih => intro t k₁ k₂ hk h; exact mono _ ih _ _ _ _ _ (Nat.le_refl _) hk h
          | rule q a ih => intro t k₁ k₂ hk h; exact ih _ _ _ (fun _ _ => hk _ _) h
          | comment => intro t k₁ k₂ hk h; exact hcm _ _ _ hk h
        have monoC : ∀ e t (k₁ k₂ : Cont R), (∀ ws t', (k₁ ws t').isSome → (k₂ ws t').isSome) →
            (searchComment e t k₁).isSome → (searchComment e t k₂).isSome := by
          intro e
          induction e with
          | zero => intro t k₁ k₂ _ h; simp [searchComment] at h
          | succ e ihe => intro t k₁ k₂ hk h; exact monoW _ ihe _ _ _ _ (fun _ _ => hk _ _) h
        exact monoW _ (monoC _)
      have tail := ih2 hw (by omega) (fun us s'' => k (ts ++ us) s'') hk
      have : (searchLoop (searchWith (searchComment (d+1)) a) (s.length + 1) s k).isSome := by
        simp only [searchLoop, Option.isSome_or, Bool.or_eq_true]
        left
        refine ih1 hw'.1 hl _ ?_
        exact mono _ (monoBody a) _ _ _ _ _ (by omega) (fun _ _ => id) tail
      exact this
    | rule _ ih => intro hw hl k hk; exact ih hw hl _ hk
    | @comment s ts s' h1 _ =>
      intro _ hl k hk
      unfold Gr.commentBody at h1
      cases h1 with
      | seq ha hb =>
        cases ha with
        | @t _ c _ hm =>
          have := ihd hb (by decide) (by simpa using hl) (fun us s'' => k [.node .comment ([.tok c] ++ us)] s'') hk
          simp only [searchComment, Gr.commentBody, searchWith, hm, if_true]
          exact this

theorem run_isSome_iff {R : Type} {d g s} {k : Cont R} (hw : g.wf = true) (hl : s.length ≤ d) :
    (searchWith (searchComment d) g s k).isSome ↔ ∃ ts s', Derives g s ts s' ∧ (k ts s').isSome := by
  constructor
  · intro h
    obtain ⟨r, hr⟩ := Option.isSome_iff_exists.mp h
    obtain ⟨ts, s', h1, h2⟩ := run_sound hr
    exact ⟨ts, s', h1, by simp [h2]⟩
  · rintro ⟨ts, s', h1, h2⟩
    exact run_complete d h1 hw hl k h2

end Rfc5322
