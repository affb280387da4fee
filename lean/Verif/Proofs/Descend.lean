import Verif.Proofs.Search

/-!
# The recursive descent computes the ordered search, whatever the predictor
-/

namespace Rfc5322

/-! ## Congruence of the search in its continuation -/

theorem searchLoop_congr {R : Type} {a : G} {body : List Char → Cont R → Option R}
    (hb : ∀ s k₁ k₂, (∀ ts s', Derives a s ts s' → k₁ ts s' = k₂ ts s') → body s k₁ = body s k₂) :
    ∀ n s k₁ k₂, (∀ ts s', Derives (.star a) s ts s' → k₁ ts s' = k₂ ts s') →
      searchLoop body n s k₁ = searchLoop body n s k₂ := by
  intro n
  induction n with
  | zero => intro s k₁ k₂ h; exact h _ _ .starNil
  | succ n ih =>
    intro s k₁ k₂ h
    simp only [searchLoop]
    rw [h _ _ .starNil]
    congr 1
    refine hb _ _ _ fun ts s' h1 => ih _ _ _ fun us s'' h2 => h _ _ (.starCons h1 h2)

theorem searchWith_congr {R : Type} {cm : List Char → Cont R → Option R}
    (hc : ∀ s k₁ k₂, (∀ ts s', Derives .comment s ts s' → k₁ ts s' = k₂ ts s') → cm s k₁ = cm s k₂) :
    ∀ g s k₁ k₂, (∀ ts s', Derives g s ts s' → k₁ ts s' = k₂ ts s') →
      searchWith cm g s k₁ = searchWith cm g s k₂ := by
  intro g
  induction g with
  | eps => intro s k₁ k₂ h; exact h _ _ .eps
  | eof => intro s k₁ k₂ h; cases s with
    | nil => exact h _ _ .eof
    | cons => rfl
  | t x => intro s k₁ k₂ h; cases s with
    | nil => rfl
    | cons c s =>
      simp only [searchWith]
      split
      · exact h _ _ (.t ‹_›)
      · rfl
  | seq a b iha ihb =>
    intro s k₁ k₂ h
    exact iha _ _ _ fun ts s' h1 => ihb _ _ _ fun us s'' h2 => h _ _ (.seq h1 h2)
  | alt a b iha ihb =>
    intro s k₁ k₂ h
    simp only [searchWith]
    rw [iha _ _ _ fun ts s' h1 => h _ _ (.altL h1), ihb _ _ _ fun ts s' h1 => h _ _ (.altR h1)]
  | star a ih => intro s k₁ k₂ h; exact searchLoop_congr ih _ _ _ _ h
  | rule q a ih => intro s k₁ k₂ h; exact ih _ _ _ fun ts s' h1 => h _ _ (.rule h1)
  | comment => intro s k₁ k₂ h; exact hc _ _ _ h

theorem searchComment_congr {R : Type} : ∀ d s (k₁ k₂ : Cont R),
    (∀ ts s', Derives .comment s ts s' → k₁ ts s' = k₂ ts s') → searchComment d s k₁ = searchComment d s k₂ := by
  intro d
  induction d with
  | zero => intros; rfl
  | succ d ih => intro s k₁ k₂ h; exact searchWith_congr ih _ _ _ _ fun ts s' h1 => h _ _ (.comment h1)

theorem run_congr {R : Type} {d g s} {k₁ k₂ : Cont R} (h : ∀ ts s', Derives g s ts s' → k₁ ts s' = k₂ ts s') :
    searchWith (searchComment d) g s k₁ = searchWith (searchComment d) g s k₂ :=
  searchWith_congr (searchComment_congr d) _ _ _ _ h

/-- More fuel than tokens does not change the loop. -/
theorem searchLoop_fuel {R : Type} {a : G} {body : List Char → Cont R → Option R}
    (hb : ∀ s k₁ k₂, (∀ ts s', Derives a s ts s' → k₁ ts s' = k₂ ts s') → body s k₁ = body s k₂)
    (hn : a.nullable = false) :
    ∀ n m s k, s.length < n → s.length < m → searchLoop body n s k = searchLoop body m s k := by
  intro n
  induction n with
  | zero => intro m s k h; omega
  | succ n ih =>
    intro m s k h1 h2
    obtain ⟨m, rfl⟩ : ∃ m', m = m' + 1 := ⟨m - 1, by omega⟩
    simp only [searchLoop]
    congr 1
    refine hb _ _ _ fun ts s' hd => ?_
    have := hd.length_lt hn
    exact ih m s' _ (by omega) (by omega)

/-! ## Soundness of the descent -/

theorem descendLoop_sound {P : Predictor} {a : G} {body : List G → List Char → Step} {γ}
    (hb : ∀ γ s ts s', body γ s = some (ts, s') → Derives a s ts s') :
    ∀ n s ts s', descendLoop P a body γ n s = some (ts, s') → Derives (.star a) s ts s' := by
  intro n
  induction n with
  | zero => intro s ts s' h; simp [descendLoop] at h; obtain ⟨rfl, rfl⟩ := h; exact .starNil
  | succ n ih =>
    intro s ts s' h
    simp only [descendLoop] at h
    split at h
    · split at h
      · simp at h
      · rename_i us s₁ h1
        split at h
        · simp at h
        · rename_i vs s₂ h2
          simp only [Option.some.injEq, Prod.mk.injEq] at h
          obtain ⟨rfl, rfl⟩ := h
          exact .starCons (hb _ _ _ _ h1) (ih _ _ _ h2)
    · simp at h; obtain ⟨rfl, rfl⟩ := h; exact .starNil

theorem descendWith_sound {P : Predictor} {cm : List G → List Char → Step}
    (hc : ∀ γ s ts s', cm γ s = some (ts, s') → Derives .comment s ts s') :
    ∀ g γ s ts s', descendWith P cm g γ s = some (ts, s') → Derives g s ts s' := by
  intro g
  induction g with
  | eps => intro γ s ts s' h; simp [descendWith] at h; obtain ⟨rfl, rfl⟩ := h; exact .eps
  | eof =>
    intro γ s ts s' h
    cases s with
    | nil => simp [descendWith] at h; obtain ⟨rfl, rfl⟩ := h; exact .eof
    | cons => simp [descendWith] at h
  | t x =>
    intro γ s ts s' h
    cases s with
    | nil => simp [descendWith] at h
    | cons c s =>
      simp only [descendWith] at h
      split at h
      · simp at h; obtain ⟨rfl, rfl⟩ := h; exact .t ‹_›
      · simp at h
  | seq a b iha ihb =>
    intro γ s ts s' h
    simp only [descendWith] at h
    split at h
    · simp at h
    · split at h
      · simp at h
      · simp at h; obtain ⟨rfl, rfl⟩ := h; exact .seq (iha _ _ _ _ ‹_›) (ihb _ _ _ _ ‹_›)
  | alt a b iha ihb =>
    intro γ s ts s' h
    simp only [descendWith] at h
    split at h
    · exact .altL (iha _ _ _ _ h)
    · exact .altR (ihb _ _ _ _ h)
  | star a ih => intro γ s ts s' h; exact descendLoop_sound ih _ _ _ _ h
  | rule q a ih =>
    intro γ s ts s' h
    simp only [descendWith] at h
    split at h
    · simp at h
    · simp at h; obtain ⟨rfl, rfl⟩ := h; exact .rule (ih _ _ _ _ ‹_›)
  | comment => intro γ s ts s' h; exact hc _ _ _ _ h

theorem descendComment_sound {P : Predictor} : ∀ d γ s ts s', descendComment P d γ s = some (ts, s') →
    Derives .comment s ts s' := by
  intro d
  induction d with
  | zero => intro γ s ts s' h; simp [descendComment] at h
  | succ d ih =>
    intro γ s ts s' h
    simp only [descendComment] at h
    split at h
    · simp at h
    · simp at h; obtain ⟨rfl, rfl⟩ := h; exact .comment (descendWith_sound ih _ _ _ _ _ ‹_›)

/-! ## The descent computes the search -/

theorem viable_cons_iff {g γ s} : Viable (g :: γ) s ↔ ∃ ts s', Derives g s ts s' ∧ Viable γ s' :=
  ⟨fun h => by cases h with | cons h1 h2 => exact ⟨_, _, h1, h2⟩, fun ⟨_, _, h1, h2⟩ => .cons h1 h2⟩

/-- The continuation `k` succeeds exactly on what the stack `γ` can match (on at most `d` tokens). -/
def Matches {R : Type} (d : Nat) (k : Cont R) (γ : List G) : Prop :=
  ∀ ts s, s.length ≤ d → ((k ts s).isSome ↔ Viable γ s)

theorem viable_iff_run {R : Type} {d g γ s} {k : Cont R} (hw : g.wf = true) (hl : s.length ≤ d)
    (hk : Matches d k γ) : Viable (g :: γ) s ↔ (searchWith (searchComment d) g s k).isSome := by
  rw [run_isSome_iff hw hl, viable_cons_iff]
  constructor
  · rintro ⟨ts, s', h1, h2⟩
    exact ⟨ts, s', h1, (hk _ _ (Nat.le_trans h1.length_le hl)).mpr h2⟩
  · rintro ⟨ts, s', h1, h2⟩
    exact ⟨ts, s', h1, (hk _ _ (Nat.le_trans h1.length_le hl)).mp h2⟩

theorem Matches.seq {R : Type} {d b γ} {k : Cont R} (hw : b.wf = true) (hk : Matches d k γ) :
    Matches d (fun ts s' => searchWith (searchComment d) b s' fun us s'' => k (ts ++ us) s'') (b :: γ) := by
  intro ts s hs
  rw [viable_iff_run hw hs (k := fun us s'' => k (ts ++ us) s'') (fun us t ht => hk _ _ ht)]

theorem descendWith_eq (P : Predictor) {R : Type} (d : Nat)
    (hc : ∀ γ s (k : Cont R), s.length ≤ d → Matches d k γ →
      searchComment d s k = (descendComment P d γ s).bind fun p => k p.1 p.2) :
    ∀ g, g.wf = true → ∀ γ s (k : Cont R), s.length ≤ d → Matches d k γ →
      searchWith (searchComment d) g s k = (descendWith P (descendComment P d) g γ s).bind fun p => k p.1 p.2 := by
  intro g
  induction g with
  | eps => intros; rfl
  | eof => intro _ γ s k _ _; cases s <;> rfl
  | t x =>
    intro _ γ s k _ _
    cases s with
    | nil => rfl
    | cons c s => simp only [searchWith, descendWith]; split <;> rfl
  | seq a b iha ihb =>
    intro hw γ s k hl hk
    simp only [G.wf, Bool.and_eq_true] at hw
    simp only [searchWith, descendWith]
    rw [iha hw.1 (b :: γ) s _ hl (hk.seq hw.2)]
    cases h : descendWith P (descendComment P d) a (b :: γ) s with
    | none => rfl
    | some p =>
      have := (descendWith_sound (descendComment_sound d) _ _ _ _ _ h).length_le
      simp only [Option.bind_some]
      rw [ihb hw.2 γ p.2 _ (by omega) (fun us t ht => hk _ _ ht)]
      cases descendWith P (descendComment P d) b γ p.2 <;> rfl
  | alt a b iha ihb =>
    intro hw γ s k hl hk
    simp only [G.wf, Bool.and_eq_true] at hw
    have ha := viable_iff_run hw.1 hl hk
    have hb := viable_iff_run hw.2 hl hk
    simp only [searchWith, descendWith]
    rw [apply_ite (f := fun x : Step => x.bind fun p => k p.1 p.2), ← iha hw.1 γ s k hl hk, ← ihb hw.2 γ s k hl hk]
    cases h1 : searchWith (searchComment d) a s k with
    | some r => rw [P.first _ _ _ (ha.mpr (by simp [h1]))]; simp
    | none =>
      simp only [Option.none_or]
      cases h2 : searchWith (searchComment d) b s k with
      | none => simp
      | some r =>
        rw [P.second _ _ _ (by rw [ha, h1]; simp) (hb.mpr (by simp [h2]))]
        simp
  | star a ih =>
    intro hw γ s k hl hk
    have hws := hw
    simp only [G.wf, Bool.and_eq_true, Bool.not_eq_true'] at hw
    have congr := searchWith_congr (searchComment_congr (R := R) d) a
    -- loop invariant
    have loop : ∀ n s (k : Cont R), s.length < n → s.length ≤ d → Matches d k γ →
        searchLoop (searchWith (searchComment d) a) n s k =
          (descendLoop P a (descendWith P (descendComment P d) a) γ n s).bind fun p => k p.1 p.2 := by
      intro n
      induction n with
      | zero => intro s k h; omega
      | succ n ihn =>
        intro s k hn hl hk
        have hk' : Matches d (fun ts s' => searchWith (searchComment d) (.star a) s' fun us s'' => k (ts ++ us) s'')
            (.star a :: γ) := hk.seq hws
        have fuel : ∀ ts s', Derives a s ts s' →
            (searchLoop (searchWith (searchComment d) a) n s' fun us s'' => k (ts ++ us) s'') =
            searchWith (searchComment d) (.star a) s' fun us s'' => k (ts ++ us) s'' := by
          intro ts s' h1
          have := h1.length_lt hw.2
          exact searchLoop_fuel congr hw.2 _ _ _ _ (by omega) (by omega)
        have e1 : searchLoop (searchWith (searchComment d) a) (n + 1) s k =
            (searchWith (searchComment d) a s fun ts s' => searchWith (searchComment d) (.star a) s' fun us s'' =>
              k (ts ++ us) s'').or (k [] s) := by
          rw [searchLoop]
          congr 1
          exact congr _ _ _ fuel
        rw [e1, descendLoop]
        have hv := viable_iff_run hw.1 hl hk'
        have hs := ih hw.1 _ s _ hl hk'
        have left : (searchWith (searchComment d) a s fun ts s' =>
              searchWith (searchComment d) (.star a) s' fun us s'' => k (ts ++ us) s'') =
            Option.bind (match descendWith P (descendComment P d) a (.star a :: γ) s with
              | none => none
              | some (ts, s') => match descendLoop P a (descendWith P (descendComment P d) a) γ n s' with
                | none => none
                | some (us, s'') => some (ts ++ us, s'')) (fun p => k p.1 p.2) := by
          rw [hs]
          cases h : descendWith P (descendComment P d) a (.star a :: γ) s with
          | none => rfl
          | some p =>
            have hd := descendWith_sound (descendComment_sound d) _ _ _ _ _ h
            have := hd.length_lt hw.2
            simp only [Option.bind_some]
            rw [← fuel _ _ hd, ihn _ _ (by omega) (by omega) (fun us t ht => hk _ _ ht)]
            cases descendLoop P a (descendWith P (descendComment P d) a) γ n p.2 <;> rfl
        cases h1 : (searchWith (searchComment d) a s fun ts s' =>
              searchWith (searchComment d) (.star a) s' fun us s'' => k (ts ++ us) s'') with
        | some r =>
          rw [P.first _ _ _ (hv.mpr (by simp [h1]))]
          simp only [Option.some_or, if_true]
          exact h1.symm.trans left
        | none =>
          simp only [Option.none_or]
          cases h2 : k [] s with
          | some r =>
            rw [P.second _ _ _ (by rw [hv, h1]; simp) ((hk [] s hl).mp (by simp [h2]))]
            simp [h2]
          | none =>
            split
            · exact h1.symm.trans left
            · simp [h2]
    exact loop _ s k (by omega) hl hk
  | rule q a ih =>
    intro hw γ s k hl hk
    simp only [searchWith, descendWith]
    rw [ih hw γ s _ hl (fun us t ht => hk _ _ ht)]
    cases descendWith P (descendComment P d) a γ s <;> rfl
  | comment => intro _ γ s k hl hk; exact hc γ s k hl hk

theorem searchWith_tok_seq {R : Type} {cm : List Char → Cont R → Option R} {x : Tok} {c : Char} {b : G} {s} {k : Cont R}
    (h : x.matches c = true) :
    searchWith cm (.t x ⬝ b) (c :: s) k = searchWith cm b s fun us s'' => k ([.tok c] ++ us) s'' := by
  simp [searchWith, h]

theorem descendWith_tok_seq {P : Predictor} {cm : List G → List Char → Step} {x : Tok} {c : Char} {b : G} {s γ}
    (h : x.matches c = true) :
    descendWith P cm (.t x ⬝ b) γ (c :: s) = (descendWith P cm b γ s).map fun p => ([.tok c] ++ p.1, p.2) := by
  simp only [descendWith, h, if_true]
  cases descendWith P cm b γ s <;> rfl

/-- `commentBody` starts with `(`, so one level less suffices for its content. -/
theorem descendComment_eq (P : Predictor) {R : Type} : ∀ d γ s (k : Cont R), s.length ≤ d → Matches d k γ →
    searchComment d s k = (descendComment P d γ s).bind fun p => k p.1 p.2 := by
  intro d
  induction d with
  | zero => intros; rfl
  | succ d ih =>
    intro γ s k hl hk
    simp only [searchComment, descendComment]
    cases s with
    | nil => rfl
    | cons c s =>
      have hl' : s.length ≤ d := by simpa using hl
      by_cases hm : Tok.matches .LParens c = true
      · unfold Gr.commentBody
        rw [searchWith_tok_seq hm, descendWith_tok_seq hm,
          descendWith_eq P (R := R) d ih _ (by decide) γ s _ hl' (fun us t ht => hk _ _ (by omega))]
        cases descendWith P (descendComment P d) _ γ s <;> rfl
      · simp [Gr.commentBody, searchWith, descendWith, hm]

theorem descend_eq_run (P : Predictor) {R : Type} {d g γ s} {k : Cont R} (hw : g.wf = true) (hl : s.length ≤ d)
    (hk : Matches d k γ) :
    searchWith (searchComment d) g s k = (descendWith P (descendComment P d) g γ s).bind fun p => k p.1 p.2 :=
  descendWith_eq P d (descendComment_eq P d) g hw γ s k hl hk

/-- The generated parser, run with any predictor that meets its contract, returns the first complete derivation. -/
theorem descend_eq_search (P : Predictor) (g : G) (hw : g.wf = true) (s : List Char) :
    descend P g s = search g s := by
  unfold search descend
  rw [descend_eq_run P (γ := []) hw (Nat.le_refl _)]
  · cases descendWith P (descendComment P s.length) g [] s with
    | none => rfl
    | some p => obtain ⟨ts, t⟩ := p; cases t <;> rfl
  · intro ts t _
    cases t with
    | nil => simp [Viable.nil]
    | cons c t => simp; intro h; cases h

theorem search_isSome_iff {g s} (hw : g.wf = true) : (search g s).isSome ↔ ∃ ts, Derives g s ts [] := by
  unfold search
  rw [run_isSome_iff hw (Nat.le_refl _)]
  constructor
  · rintro ⟨ts, s', h1, h2⟩
    cases s' with
    | nil => exact ⟨ts, h1⟩
    | cons => simp at h2
  · rintro ⟨ts, h⟩; exact ⟨ts, [], h, rfl⟩

theorem search_sound {g s ts} (h : search g s = some ts) : Derives g s ts [] := by
  obtain ⟨us, s', h1, h2⟩ := run_sound h
  cases s' with
  | nil => simp at h2; subst h2; exact h1
  | cons => simp at h2

/-- The contract of `Predictor` can be met. -/
theorem Predictor.nonempty : Nonempty Predictor := by
  classical
  exact ⟨⟨fun α _ s => decide (Viable α s), fun _ _ _ h => by simp [h], fun _ _ _ h _ => by simp [h]⟩⟩

end Rfc5322
