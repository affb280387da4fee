import Verif.Proofs.Descend
import Verif.Proofs.Tok

/-!
# FIRST sets, and the relation "is the first derivation the ordered search finds"
-/

namespace Rfc5322

/-- Tokens a non-empty derivation can begin with (over-approximation). -/
def G.first : G → List Tok
  | .eps => []
  | .eof => []
  | .t k => [k]
  | .seq a b => if a.nullable then a.first ++ b.first else a.first
  | .alt a b => a.first ++ b.first
  | .star a => a.first
  | .rule _ a => a.first
  | .comment => [.LParens]

theorem Derives.first {g s ts s'} (h : Derives g s ts s') :
    s = s' ∨ ∃ c r, s = c :: r ∧ anyTok g.first c = true := by
  induction h with
  | eps => exact .inl rfl
  | eof => exact .inl rfl
  | @t k c s h => exact .inr ⟨c, s, rfl, by simp [G.first, anyTok, h]⟩
  | @seq a b s ts s' us s'' h1 h2 ih1 ih2 =>
    simp only [G.first]
    rcases ih1 with rfl | ⟨c, r, rfl, hc⟩
    · have hn : a.nullable = true := by
        cases hn : a.nullable with
        | true => rfl
        | false => have := h1.length_lt hn; omega
      rcases ih2 with rfl | ⟨c, r, rfl, hc⟩
      · exact .inl rfl
      · exact .inr ⟨c, r, rfl, by simp [hn, anyTok_append, hc]⟩
    · refine .inr ⟨c, r, rfl, ?_⟩
      split <;> simp [anyTok_append, hc]
  | altL _ ih =>
    rcases ih with rfl | ⟨c, r, rfl, hc⟩
    · exact .inl rfl
    · exact .inr ⟨c, r, rfl, by simp [G.first, anyTok_append, hc]⟩
  | altR _ ih =>
    rcases ih with rfl | ⟨c, r, rfl, hc⟩
    · exact .inl rfl
    · exact .inr ⟨c, r, rfl, by simp [G.first, anyTok_append, hc]⟩
  | starNil => exact .inl rfl
  | starCons _ _ ih1 ih2 =>
    rcases ih1 with rfl | h
    · exact ih2
    · exact .inr h
  | rule _ ih => exact ih
  | comment h ih =>
    unfold Gr.commentBody at h
    cases h with
    | seq ha _ => cases ha with
      | t hm => exact .inr ⟨_, _, rfl, by simp [G.first, anyTok, hm]⟩

/-- `g` derives no prefix of `s`. -/
def NoDer (g : G) (s : List Char) : Prop := ∀ ts s', ¬ Derives g s ts s'

theorem noDer_nil {g} (hn : g.nullable = false) : NoDer g [] := by
  intro ts s' h; have := h.length_lt hn; simp at this

theorem noDer_cons {g c s} (hn : g.nullable = false) (hf : anyTok g.first c = false) : NoDer g (c :: s) := by
  intro ts s' h
  rcases h.first with rfl | ⟨d, r, e, hd⟩
  · have := h.length_lt hn; omega
  · cases e; simp [hf] at hd

/-- Like `noDer_cons`, the character being known only by its class. -/
theorem noDer_class {g c s} (A : List Tok) (hA : anyTok A c = true) (hn : g.nullable = false)
    (hd : (A.all fun t => !g.first.contains t) = true) : NoDer g (c :: s) :=
  noDer_cons hn (anyTok_disjoint hd hA)

theorem NoDer.seq_left {a b s} (h : NoDer a s) : NoDer (a ⬝ b) s := by
  intro ts s' hd; cases hd with | seq h1 _ => exact h _ _ h1

theorem NoDer.alt {a b s} (h1 : NoDer a s) (h2 : NoDer b s) : NoDer (a ‖ b) s := by
  intro ts s' hd; cases hd with
  | altL h => exact h1 _ _ h
  | altR h => exact h2 _ _ h

theorem NoDer.rule {r a s} (h : NoDer a s) : NoDer (.rule r a) s := by
  intro ts s' hd; cases hd with | rule h1 => exact h _ _ h1

theorem NoDer.of_rule {r a s} (h : NoDer (.rule r a) s) : NoDer a s := fun ts s' hd => h _ _ (.rule hd)

/-! ## First derivations -/

/-- `(ts, s')` is what the ordered search tries first on `s` with `g`, provided the continuation accepts it. -/
def First (g : G) (s : List Char) (ts : List Tree) (s' : List Char) : Prop :=
  Derives g s ts s' ∧ ∀ (d : Nat) (R : Type) (k : Cont R) (r : R), s.length ≤ d → k ts s' = some r →
    searchWith (searchComment d) g s k = some r

theorem First.derives {g s ts s'} (h : First g s ts s') : Derives g s ts s' := h.1

theorem First.eps {s} : First .eps s [] s := ⟨.eps, fun _ _ _ _ _ h => h⟩

theorem First.eof : First .eof [] [.eof] [] := ⟨.eof, fun _ _ _ _ _ h => h⟩

theorem First.t {x c s} (h : Tok.matches x c = true) : First (.t x) (c :: s) [.tok c] s :=
  ⟨.t h, fun _ _ _ _ _ hk => by simp [searchWith, h, hk]⟩

theorem First.seq {a b s ts s' us s''} (h1 : First a s ts s') (h2 : First b s' us s'') :
    First (a ⬝ b) s (ts ++ us) s'' := by
  refine ⟨.seq h1.1 h2.1, fun d R k r hl hk => ?_⟩
  exact h1.2 d R _ r hl (h2.2 d R _ r (Nat.le_trans h1.1.length_le hl) hk)

theorem First.altL {a b s ts s'} (h : First a s ts s') : First (a ‖ b) s ts s' :=
  ⟨.altL h.1, fun d R k r hl hk => by simp [searchWith, h.2 d R k r hl hk]⟩

theorem run_none {R : Type} {d g s} {k : Cont R} (h : NoDer g s) : searchWith (searchComment d) g s k = none := by
  cases e : searchWith (searchComment d) g s k with
  | none => rfl
  | some r => obtain ⟨ts, s', hd, _⟩ := run_sound e; exact absurd hd (h _ _)

theorem First.altR {a b s ts s'} (hn : NoDer a s) (h : First b s ts s') : First (a ‖ b) s ts s' :=
  ⟨.altR h.1, fun d R k r hl hk => by simp [searchWith, run_none hn, h.2 d R k r hl hk]⟩

theorem First.rule {q a s ts s'} (h : First a s ts s') : First (.rule q a) s [.node q ts] s' :=
  ⟨.rule h.1, fun d R k r hl hk => h.2 d R (fun ts s' => k [.node q ts] s') r hl hk⟩

theorem searchWith_star {R : Type} {d a s} {k : Cont R} (hn : a.nullable = false) :
    searchWith (searchComment d) (.star a) s k =
      (searchWith (searchComment d) a s fun ts s' => searchWith (searchComment d) (.star a) s' fun us s'' =>
        k (ts ++ us) s'').or (k [] s) := by
  show searchLoop _ (s.length + 1) s k = _
  rw [searchLoop]
  congr 1
  refine run_congr fun ts s' hd => ?_
  have := hd.length_lt hn
  exact searchLoop_fuel (searchWith_congr (searchComment_congr d) a) hn _ _ _ _ (by omega) (by omega)

theorem First.starNil {a s} (hn : a.nullable = false) (h : NoDer a s) : First (.star a) s [] s :=
  ⟨.starNil, fun d R k r _ hk => by rw [searchWith_star hn, run_none h, hk]; rfl⟩

theorem First.starCons {a s ts s' us s''} (hn : a.nullable = false) (h1 : First a s ts s')
    (h2 : First (.star a) s' us s'') : First (.star a) s (ts ++ us) s'' := by
  refine ⟨.starCons h1.1 h2.1, fun d R k r hl hk => ?_⟩
  rw [searchWith_star hn, h1.2 d R _ r hl (h2.2 d R _ r (Nat.le_trans h1.1.length_le hl) hk)]
  rfl

/-! Depth bounds beyond the number of tokens are irrelevant. -/

theorem searchWith_cm {R : Type} {d e n : Nat}
    (h : ∀ s (k : Cont R), s.length ≤ n → searchComment d s k = searchComment e s k) :
    ∀ g s (k : Cont R), s.length ≤ n → searchWith (searchComment d) g s k = searchWith (searchComment e) g s k := by
  intro g
  induction g with
  | eps => intros; rfl
  | eof => intro s k _; cases s <;> rfl
  | t => intro s k _; cases s <;> rfl
  | seq a b iha ihb =>
    intro s k hl
    simp only [searchWith]
    rw [← iha _ _ hl]
    exact run_congr fun ts s' hd => ihb _ _ (Nat.le_trans hd.length_le hl)
  | alt a b iha ihb => intro s k hl; simp only [searchWith]; rw [iha _ _ hl, ihb _ _ hl]
  | star a ih =>
    intro s k hl
    have loop : ∀ m s (k : Cont R), s.length ≤ n →
        searchLoop (searchWith (searchComment d) a) m s k = searchLoop (searchWith (searchComment e) a) m s k := by
      intro m
      induction m with
      | zero => intros; rfl
      | succ m ihm =>
        intro s k hl
        simp only [searchLoop]
        rw [← ih _ _ hl]
        congr 1
        exact run_congr fun ts s' hd => ihm _ _ (Nat.le_trans hd.length_le hl)
    exact loop _ _ _ hl
  | rule q a ih => intro s k hl; exact ih _ _ hl
  | comment => intro s k hl; exact h _ _ hl

theorem searchComment_depth {R : Type} : ∀ d e s (k : Cont R), s.length ≤ d → s.length ≤ e →
    searchComment d s k = searchComment e s k := by
  intro d
  induction d with
  | zero =>
    intro e s k hd _
    have : s = [] := List.eq_nil_of_length_eq_zero (by omega)
    subst this
    cases e with
    | zero => rfl
    | succ e => simp [searchComment, Gr.commentBody, searchWith]
  | succ d ih =>
    intro e s k hd he
    cases s with
    | nil => cases e <;> simp [searchComment, Gr.commentBody, searchWith]
    | cons c s =>
      obtain ⟨e, rfl⟩ : ∃ e', e = e' + 1 := ⟨e - 1, by simp at he; omega⟩
      simp only [List.length_cons, Nat.add_le_add_iff_right] at hd he
      simp only [searchComment]
      by_cases hm : Tok.matches .LParens c = true
      · unfold Gr.commentBody
        rw [searchWith_tok_seq hm, searchWith_tok_seq hm]
        exact searchWith_cm (n := s.length) (fun t k ht => ih e t k (by omega) (by omega)) _ _ _ (Nat.le_refl _)
      · simp [Gr.commentBody, searchWith, hm]

theorem searchWith_depth {R : Type} {d e g s} {k : Cont R} (hd : s.length ≤ d) (he : s.length ≤ e) :
    searchWith (searchComment d) g s k = searchWith (searchComment e) g s k :=
  searchWith_cm (n := s.length) (fun t k ht => searchComment_depth d e t k (by omega) (by omega)) _ _ _ (Nat.le_refl _)

theorem First.comment {s ts s'} (h : First Gr.commentBody s ts s') : First .comment s [.node .comment ts] s' := by
  refine ⟨.comment h.1, fun d R k r hl hk => ?_⟩
  have hd := h.1
  unfold Gr.commentBody at hd
  cases hd with
  | seq ha hb => cases ha with
    | @t _ c s₁ hm =>
      obtain ⟨d, rfl⟩ : ∃ d', d = d' + 1 := ⟨d - 1, by simp at hl; omega⟩
      have key := h.2 (d + 1) R (fun ts s' => k [.node .comment ts] s') r hl hk
      simp only [searchWith, searchComment]
      unfold Gr.commentBody at key ⊢
      rw [searchWith_tok_seq hm] at key ⊢
      rw [← key]
      simp only [List.length_cons, Nat.add_le_add_iff_right] at hl
      exact searchWith_depth hl (by omega)

/-- What `First` gives for a complete input. -/
theorem First.search {g s ts} (h : First g s ts []) : search g s = some ts :=
  h.2 _ _ _ _ (Nat.le_refl _) rfl

end Rfc5322
