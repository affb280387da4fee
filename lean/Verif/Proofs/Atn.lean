import Verif.Proofs.AtnCheck
import Verif.Proofs.Preferred
import Verif.Proofs.Tok

/-!
# Networks and grammar expressions

If `check` succeeds then the paths of the network are the derivations of the expression, and the preferred paths are the preferred derivations.
-/

namespace Rfc5322.Atn

open Spec

variable {N : Net} {r : Nat} {C : Calls}

/-- A path that begins with one of some transitions. -/
def From (N : Net) (C : Calls) (r n : Nat) (es : List (Label × Nat)) (s : List Char) (ts : List Tree) (s' : List Char) : Prop :=
  ∃ l q ts1 s1 us m, (l, q) ∈ es ∧ Take ruleOf tokenType C l s ts1 s1 ∧ Path ruleOf tokenType N C r m q s1 us s' ∧ ts = ts1 ++ us ∧ n = m + 1

theorem Path.from {n p s ts s'} (h : Path ruleOf tokenType N C r n p s ts s') (hp : p ≠ r) : From N C r n (N.out p) s ts s' := by
  cases h with
  | done => exact absurd rfl hp
  | step h1 h2 h3 => exact ⟨_, _, _, _, _, _, h1, h2, h3, rfl, rfl⟩

theorem From.path {n p s ts s'} (h : From N C r n (N.out p) s ts s') : Path ruleOf tokenType N C r n p s ts s' := by
  obtain ⟨l, q, ts1, s1, us, m, h1, h2, h3, rfl, rfl⟩ := h
  exact .step h1 h2 h3

theorem From.eps {n q s ts s'} (h : From N C r n [(.eps, q)] s ts s') : ∃ m, n = m + 1 ∧ Path ruleOf tokenType N C r m q s ts s' := by
  obtain ⟨l, q', ts1, s1, us, m, h1, h2, h3, rfl, rfl⟩ := h
  simp only [List.mem_singleton, Prod.mk.injEq] at h1
  obtain ⟨rfl, rfl⟩ := h1
  cases h2
  exact ⟨m, rfl, h3⟩

theorem From.ofEps {n q s ts s'} (h : Path ruleOf tokenType N C r n q s ts s') : From N C r (n + 1) [(.eps, q)] s ts s' :=
  ⟨_, _, _, _, _, _, by simp, .eps, h, rfl, rfl⟩

theorem From.one {n l q s ts s'} (h : From N C r n [(l, q)] s ts s') : ∃ m ts1 s1 us, n = m + 1 ∧ Take ruleOf tokenType C l s ts1 s1 ∧
    Path ruleOf tokenType N C r m q s1 us s' ∧ ts = ts1 ++ us := by
  obtain ⟨l, q', ts1, s1, us, m, h1, h2, h3, rfl, rfl⟩ := h
  simp only [List.mem_singleton, Prod.mk.injEq] at h1
  obtain ⟨rfl, rfl⟩ := h1
  exact ⟨m, ts1, s1, us, rfl, h2, h3, rfl⟩

theorem From.mono {n es es' s ts s'} (h : From N C r n es s ts s') (he : ∀ e ∈ es, e ∈ es') : From N C r n es' s ts s' := by
  obtain ⟨l, q', ts1, s1, us, m, h1, h⟩ := h
  exact ⟨l, q', ts1, s1, us, m, he _ h1, h⟩

theorem ne_of_out {p : Nat} (hr : N.out r = []) (h : N.out p ≠ []) : p ≠ r := by rintro rfl; exact h hr

theorem settle_from (hr : N.out r = []) : ∀ (k : Nat) {n es s ts s'}, settle N.out k es ≠ [] → From N C r n es s ts s' →
    ∃ m, m ≤ n ∧ From N C r m (settle N.out k es) s ts s'
  | 0, n, es, s, ts, s', _, h => ⟨n, Nat.le_refl _, h⟩
  | k + 1, n, es, s, ts, s', hne, h => by
    rw [settle.eq_def] at hne ⊢
    dsimp only at hne ⊢
    split at hne
    · rename_i q
      have h0 := h
      clear h
      obtain ⟨m, rfl, h⟩ := h0.eps
      clear h0
      have hq : N.out q ≠ [] := by
        intro e
        rw [e] at hne
        cases k <;> exact hne rfl
      obtain ⟨m', hm, h⟩ := settle_from hr k hne (h.from (ne_of_out hr hq))
      exact ⟨m', by omega, h⟩
    · exact ⟨n, Nat.le_refl _, h⟩

theorem from_settle : ∀ (k : Nat) {n es s ts s'}, From N C r n (settle N.out k es) s ts s' → ∃ m, From N C r m es s ts s'
  | 0, n, es, s, ts, s', h => ⟨n, h⟩
  | k + 1, n, es, s, ts, s', h => by
    rw [settle.eq_def] at h
    dsimp only at h
    split at h
    · obtain ⟨m, h⟩ := from_settle k h
      exact ⟨_, .ofEps h.path⟩
    · exact ⟨n, h⟩

theorem epsTo_path (hr : N.out r = []) {j : Nat} : ∀ (k : Nat) {n x s ts s'}, epsTo N.out k x j = true → Path ruleOf tokenType N C r n x s ts s' →
    ∃ m, m ≤ n ∧ Path ruleOf tokenType N C r m j s ts s'
  | 0, n, x, s, ts, s', hx, h => by
    rw [epsTo, beq_iff_eq] at hx
    exact ⟨n, Nat.le_refl _, hx ▸ h⟩
  | k + 1, n, x, s, ts, s', hx, h => by
    rw [epsTo, Bool.or_eq_true, beq_iff_eq] at hx
    rcases hx with rfl | hx
    · exact ⟨n, Nat.le_refl _, h⟩
    · split at hx
      · rename_i x' he
        have h1 := h.from (ne_of_out hr (by simp [he]))
        rw [he] at h1
        obtain ⟨m, rfl, h2⟩ := h1.eps
        obtain ⟨m', hm, h3⟩ := epsTo_path hr k hx h2
        exact ⟨m', by omega, h3⟩
      · cases hx

theorem path_epsTo {j : Nat} : ∀ (k : Nat) {n x s ts s'}, epsTo N.out k x j = true → Path ruleOf tokenType N C r n j s ts s' →
    ∃ m, Path ruleOf tokenType N C r m x s ts s'
  | 0, n, x, s, ts, s', hx, h => by
    rw [epsTo, beq_iff_eq] at hx
    exact ⟨n, hx ▸ h⟩
  | k + 1, n, x, s, ts, s', hx, h => by
    rw [epsTo, Bool.or_eq_true, beq_iff_eq] at hx
    rcases hx with rfl | hx
    · exact ⟨n, h⟩
    · split at hx
      · rename_i x' he
        obtain ⟨m, h⟩ := path_epsTo k hx h
        exact ⟨m + 1, .step (l := .eps) (q := x') (by simp [he]) .eps h⟩
      · cases hx

/-! ## Tokens -/

theorem derives_oneOf : ∀ {ks : List Tok} {s ts s'}, ks ≠ [] → (Derives (oneOf ks) s ts s' ↔ ∃ c, s = c :: s' ∧ ts = [.tok c] ∧ ∃ k ∈ ks, k.matches c = true)
  | [], _, _, _, h => absurd rfl h
  | [k], s, ts, s', _ => by
    constructor
    · intro h
      cases h with
      | t h => exact ⟨_, rfl, rfl, k, by simp, h⟩
    · rintro ⟨c, rfl, rfl, k', hk, h⟩
      simp only [List.mem_singleton] at hk
      subst hk
      exact .t h
  | k :: k' :: ks, s, ts, s', _ => by
    constructor
    · intro h
      cases h with
      | altL h =>
        cases h with
        | t h => exact ⟨_, rfl, rfl, k, by simp, h⟩
      | altR h =>
        obtain ⟨c, h1, h2, k'', hk, h⟩ := (derives_oneOf (ks := k' :: ks) (by simp)).mp h
        exact ⟨c, h1, h2, k'', List.mem_cons_of_mem _ hk, h⟩
    · rintro ⟨c, rfl, rfl, k'', hk, h⟩
      rw [List.mem_cons] at hk
      rcases hk with rfl | hk
      · exact .altL (.t h)
      · exact .altR ((derives_oneOf (ks := k' :: ks) (by simp)).mpr ⟨c, rfl, rfl, k'', hk, h⟩)

theorem preferred_oneOf {K : List Char → Prop} {c : Char} {s : List Char} (hK : K s) : ∀ {ks : List Tok}, (∃ k ∈ ks, k.matches c = true) → Preferred K (oneOf ks) (c :: s) [.tok c] s
  | [], ⟨k, hk, _⟩ => by cases hk
  | [k], ⟨k', hk, h⟩ => by
    simp only [List.mem_singleton] at hk
    subst hk
    exact .t h hK
  | k :: k' :: ks, h => by
    by_cases hk : k.matches c = true
    · exact .first (.t hk hK)
    · refine .second ?_ (preferred_oneOf hK ?_)
      · rintro ⟨ts, s', hd, _⟩
        cases hd with
        | t h => exact hk h
      · obtain ⟨k'', h1, h2⟩ := h
        rw [List.mem_cons] at h1
        rcases h1 with rfl | h1
        · exact absurd h2 hk
        · exact ⟨k'', h1, h2⟩

theorem mem_spread {k : Nat} : ∀ {is : List (Nat × Nat)}, k ∈ spread is ↔ inSet is k = true
  | [] => by simp [spread, inSet]
  | (a, b) :: is => by
    have ih := mem_spread (k := k) (is := is)
    rw [spread, List.mem_append, ih]
    unfold inSet
    rw [List.any_cons, Bool.or_eq_true, Bool.and_eq_true, Nat.ble_eq, Nat.ble_eq, List.mem_range'_1]
    constructor
    · rintro (h | h)
      · exact .inl (by dsimp only; omega)
      · exact .inr h
    · rintro (h | h)
      · exact .inl (by dsimp only at h; omega)
      · exact .inr h

theorem mem_all (k : Tok) : k ∈ Tok.all := by cases k <;> decide

theorem typeOf_inj {k k' : Tok} (h : typeOf k = typeOf k') : k = k' := by
  unfold typeOf at h
  have h1 := List.idxOf_lt_length_of_mem (mem_all k)
  have h2 := List.idxOf_lt_length_of_mem (mem_all k')
  have e : Tok.all.idxOf k = Tok.all.idxOf k' := by omega
  have e1 := List.getElem_idxOf h1
  have e2 := List.getElem_idxOf h2
  rw [← e1, ← e2]
  simp only [e]

/-- A transition with a set of tokens. -/
theorem tokens_iff {is : List (Nat × Nat)} {ks : List Tok} (h : spread is = ks.map typeOf) (c : Char) :
    (∃ k, tokenType c = some k ∧ inSet is k = true) ↔ ∃ k ∈ ks, k.matches c = true := by
  constructor
  · rintro ⟨k, h1, h2⟩
    unfold tokenType at h1
    rw [Option.map_eq_some_iff] at h1
    obtain ⟨k', h1, rfl⟩ := h1
    rw [← mem_spread, h, List.mem_map] at h2
    obtain ⟨k'', h2, h3⟩ := h2
    obtain rfl := typeOf_inj h3
    exact ⟨k'', h2, (lexRune_eq_some_iff c k'').mp h1⟩
  · rintro ⟨k, h1, h2⟩
    refine ⟨typeOf k, ?_, ?_⟩
    · unfold tokenType
      rw [(lexRune_eq_some_iff c k).mpr h2]; rfl
    · rw [← mem_spread, h]
      exact List.mem_map_of_mem h1

/-! ## Paths and derivations -/

/-- The only transition that is not empty. -/
theorem settle_one (hr : N.out r = []) {es l q n s ts s'} (he : settle N.out fuel es = [(l, q)]) (h : From N C r n es s ts s') :
    ∃ m ts1 s1 us, m < n ∧ Take ruleOf tokenType C l s ts1 s1 ∧ Path ruleOf tokenType N C r m q s1 us s' ∧ ts = ts1 ++ us := by
  obtain ⟨m, hm, h1⟩ := settle_from hr fuel (by simp [he]) h
  rw [he] at h1
  obtain ⟨m', ts1, s1, us, e, h2, h3, h4⟩ := h1.one
  exact ⟨m', ts1, s1, us, by omega, h2, h3, h4⟩

/-- And back. -/
theorem one_settle {es l q n s ts1 s1 us s'} (he : settle N.out fuel es = [(l, q)]) (h : Take ruleOf tokenType C l s ts1 s1)
    (h' : Path ruleOf tokenType N C r n q s1 us s') : ∃ m, From N C r m es s (ts1 ++ us) s' :=
  from_settle fuel (by rw [he]; exact ⟨_, _, _, _, _, _, by simp, h, h', rfl, rfl⟩)

theorem settle_nil : ∀ k, settle N.out k [] = []
  | 0 => rfl
  | _ + 1 => rfl

theorem check_ne : ∀ (c : Cert) {q}, check N.out N.start c [] ≠ some q := by
  intro c
  induction c with
  | seq a b iha _ =>
    intro q h
    rw [check.eq_def] at h
    dsimp only at h
    split at h
    · rename_i x hx; exact iha hx
    · cases h
  | _ =>
    intro q h
    rw [check.eq_def] at h
    simp [settle_nil] at h

/-- The calls are derivations. -/
def SoundCalls (N : Net) (C : Calls) : Prop := ∀ {i R s ts s'}, ruleOf i = some R → C (N.start i) i s ts s' → Derives (ruleG R) s [.node R ts] s'

/-- What `check` has found out. -/
theorem check_toks {ks es q} (h : check N.out N.start (.toks ks) es = some q) :
    ∃ is, settle N.out fuel es = [(.set is, q)] ∧ ks ≠ [] ∧ spread is = ks.map typeOf := by
  rw [check.eq_def] at h
  dsimp only at h
  split at h
  · rename_i is q' he
    split at h
    · rename_i hks
      injection h with h
      subst h
      exact ⟨is, he, hks⟩
    · cases h
  · cases h

theorem check_call {R es q} (h : check N.out N.start (.call R) es = some q) :
    ∃ i, settle N.out fuel es = [(.call (N.start i) i, q)] ∧ ruleOf i = some R := by
  rw [check.eq_def] at h
  dsimp only at h
  split at h
  · rename_i p i q' he
    split at h
    · rename_i hR
      injection h with h
      subst h
      rw [← hR.2] at he
      exact ⟨i, he, hR.1⟩
    · cases h
  · cases h

theorem check_eof {es q} (h : check N.out N.start .eof es = some q) : settle N.out fuel es = [(.eof, q)] := by
  rw [check.eq_def] at h
  dsimp only at h
  split at h
  · rename_i q' he
    injection h with h
    rwa [h] at he
  · cases h

theorem check_eps {es q} (h : check N.out N.start .eps es = some q) : es = [(.eps, q)] := by
  rw [check.eq_def] at h
  dsimp only at h
  split at h
  · injection h with h
    rw [h]
  · cases h

theorem check_seq {a b es q} (h : check N.out N.start (.seq a b) es = some q) :
    ∃ x, check N.out N.start a es = some x ∧ check N.out N.start b (N.out x) = some q ∧ N.out x ≠ [] := by
  rw [check.eq_def] at h
  dsimp only at h
  split at h
  · rename_i x hx
    refine ⟨x, hx, h, fun e => ?_⟩
    rw [e] at h
    exact check_ne _ h
  · cases h

theorem check_alt {j a b es q} (h : check N.out N.start (.alt j a b) es = some q) : q = j ∧ ∃ e es' x y, settle N.out fuel es = e :: es' ∧
    check N.out N.start a [e] = some x ∧ check N.out N.start b es' = some y ∧ epsTo N.out fuel x j = true ∧ epsTo N.out fuel y j = true := by
  rw [check.eq_def] at h
  dsimp only at h
  split at h
  · rename_i e e' es' he
    split at h
    · rename_i x y hx hy
      split at h
      · rename_i hj
        rw [Bool.and_eq_true] at hj
        injection h with h
        exact ⟨h.symm, e, _, x, y, he, hx, hy, hj⟩
      · cases h
    · cases h
  · cases h

theorem check_star {p a es q} (h : check N.out N.start (.star p a) es = some q) : ∃ b x, settle N.out fuel es = [(.eps, b), (.eps, q)] ∧
    N.out p = [(.eps, b), (.eps, q)] ∧ check N.out N.start a (N.out b) = some x ∧ epsTo N.out fuel x p = true ∧ N.out b ≠ [] := by
  rw [check.eq_def] at h
  dsimp only at h
  split at h
  · rename_i b e he
    split at h
    · rename_i hp
      split at h
      · rename_i x hx
        split at h
        · rename_i hxp
          injection h with h
          subst h
          refine ⟨b, x, he, hp, hx, hxp, fun e => ?_⟩
          rw [e] at hx
          exact check_ne _ hx
        · cases h
      · cases h
    · cases h
  · cases h

theorem check_sound (hr : N.out r = []) (hC : SoundCalls N C) : ∀ (c : Cert) {es q n s ts s'}, check N.out N.start c es = some q → From N C r n es s ts s' →
    ∃ ts1 s1 ts2 m, m < n ∧ Derives c.expand s ts1 s1 ∧ Path ruleOf tokenType N C r m q s1 ts2 s' ∧ ts = ts1 ++ ts2 := by
  intro c
  induction c with
  | eps =>
    intro es q n s ts s' hc h
    obtain rfl := check_eps hc
    obtain ⟨m, rfl, h1⟩ := h.eps
    exact ⟨[], s, ts, m, by omega, .eps, h1, rfl⟩
  | eof =>
    intro es q n s ts s' hc h
    obtain ⟨m, ts1, s1, us, hm, ht, h1, e⟩ := settle_one hr (check_eof hc) h
    cases ht
    exact ⟨_, _, us, m, hm, .eof, h1, e⟩
  | toks ks =>
    intro es q n s ts s' hc h
    obtain ⟨is, he, hks, hi⟩ := check_toks hc
    obtain ⟨m, ts1, s1, us, hm, ht, h1, e⟩ := settle_one hr he h
    cases ht with
    | set h2 h3 => exact ⟨_, _, us, m, hm, (derives_oneOf hks).mpr ⟨_, rfl, rfl, (tokens_iff hi _).mp ⟨_, h2, h3⟩⟩, h1, e⟩
  | call R =>
    intro es q n s ts s' hc h
    obtain ⟨i, he, hi⟩ := check_call hc
    obtain ⟨m, ts1, s1, us, hm, ht, h1, e⟩ := settle_one hr he h
    cases ht with
    | call h2 h3 =>
      rw [hi] at h2
      injection h2 with h2
      subst h2
      exact ⟨_, _, us, m, hm, hC hi h3, h1, e⟩
  | seq a b iha ihb =>
    intro es q n s ts s' hc h
    obtain ⟨x, hx, hb, hne⟩ := check_seq hc
    obtain ⟨ts1, s1, ts2, m, hm, hd, h1, e⟩ := iha hx h
    obtain ⟨us1, s2, us2, m', hm', hd', h2, e'⟩ := ihb hb (h1.from (ne_of_out hr hne))
    exact ⟨_, _, us2, m', by omega, .seq hd hd', h2, by simp [e, e']⟩
  | alt j a b iha ihb =>
    intro es q n s ts s' hc h
    obtain ⟨rfl, e, es', x, y, he, hx, hy, hxj, hyj⟩ := check_alt hc
    obtain ⟨m, hm, h1⟩ := settle_from hr fuel (by simp [he]) h
    rw [he] at h1
    obtain ⟨l, q', ts1, s1, us, m', h2, h3⟩ := h1
    rw [List.mem_cons] at h2
    rcases h2 with h2 | h2
    · obtain ⟨ts1, s1, ts2, k, hk, hd, h4, e⟩ := iha hx ⟨l, q', ts1, s1, us, m', by simp [h2], h3⟩
      obtain ⟨k', hk', h5⟩ := epsTo_path hr fuel hxj h4
      exact ⟨_, _, _, k', by omega, .altL hd, h5, e⟩
    · obtain ⟨ts1, s1, ts2, k, hk, hd, h4, e⟩ := ihb hy ⟨l, q', ts1, s1, us, m', h2, h3⟩
      obtain ⟨k', hk', h5⟩ := epsTo_path hr fuel hyj h4
      exact ⟨_, _, _, k', by omega, .altR hd, h5, e⟩
  | star p a iha =>
    intro es q n s ts s' hc h
    obtain ⟨b, x, he, hp, hx, hxp, hb⟩ := check_star hc
    have key : ∀ n s ts, From N C r n [(.eps, b), (.eps, q)] s ts s' → ∃ ts1 s1 ts2 m, m < n ∧ Derives (.star a.expand) s ts1 s1 ∧
        Path ruleOf tokenType N C r m q s1 ts2 s' ∧ ts = ts1 ++ ts2 := by
      intro n
      induction n using Nat.strongRecOn with
      | ind n ih =>
        rintro s ts ⟨l, q', ts1, s1, us, m', h1, h2, h3, e1, e2⟩
        simp only [List.mem_cons, Prod.mk.injEq, List.not_mem_nil, or_false] at h1
        rcases h1 with ⟨rfl, rfl⟩ | ⟨rfl, rfl⟩
        · cases h2
          obtain ⟨ts1, s1, ts2, k, hk, hd, h4, e⟩ := iha hx (h3.from (ne_of_out hr hb))
          obtain ⟨k', hk', h5⟩ := epsTo_path hr fuel hxp h4
          have h6 := h5.from (ne_of_out hr (by simp [hp]))
          rw [hp] at h6
          obtain ⟨us1, s2, us2, m, hm, hd', h7, e'⟩ := ih k' (by omega) _ _ h6
          exact ⟨_, _, us2, m, by omega, .starCons hd hd', h7, by simp [e1, e, e']⟩
        · cases h2
          exact ⟨[], s, _, m', by omega, .starNil, h3, e1⟩
    obtain ⟨m, hm, h1⟩ := settle_from hr fuel (by simp [he]) h
    rw [he] at h1
    obtain ⟨ts1, s1, ts2, k, hk, h2⟩ := key m s ts h1
    exact ⟨ts1, s1, ts2, k, by omega, h2⟩

mutual
/-- Number of nodes. -/
def weight : Tree → Nat
  | .tok _ => 1
  | .eof => 1
  | .node _ ts => weights ts + 1
def weights : List Tree → Nat
  | [] => 0
  | t :: ts => weight t + weights ts
end

theorem weights_append : ∀ (ts us : List Tree), weights (ts ++ us) = weights ts + weights us
  | [], us => by simp [weights]
  | t :: ts, us => by
    have := weights_append ts us
    simp only [List.cons_append, weights]
    omega

/-- Derivations that build fewer than `w` nodes are calls. -/
def CompleteCalls (N : Net) (C : Calls) (w : Nat) : Prop :=
  ∀ {i R s us s'}, ruleOf i = some R → weights us ≤ w → Derives (ruleG R) s us s' → ∃ ts, us = [.node R ts] ∧ C (N.start i) i s ts s'

theorem check_complete {w : Nat} (hC : CompleteCalls N C w) : ∀ (c : Cert) {es q n s ts1 s1 ts2 s'}, check N.out N.start c es = some q →
    weights ts1 ≤ w → Derives c.expand s ts1 s1 → Path ruleOf tokenType N C r n q s1 ts2 s' → ∃ m, From N C r m es s (ts1 ++ ts2) s' := by
  intro c
  induction c with
  | eps =>
    intro es q n s ts1 s1 ts2 s' hc _ hd h
    obtain rfl := check_eps hc
    cases hd
    exact ⟨_, .ofEps h⟩
  | eof =>
    intro es q n s ts1 s1 ts2 s' hc _ hd h
    cases hd
    exact one_settle (check_eof hc) .eof h
  | toks ks =>
    intro es q n s ts1 s1 ts2 s' hc _ hd h
    obtain ⟨is, he, hks, hi⟩ := check_toks hc
    obtain ⟨c, rfl, rfl, hk⟩ := (derives_oneOf hks).mp hd
    obtain ⟨k, h1, h2⟩ := (tokens_iff hi c).mpr hk
    exact one_settle he (.set h1 h2) h
  | call R =>
    intro es q n s ts1 s1 ts2 s' hc hw hd h
    obtain ⟨i, he, hi⟩ := check_call hc
    obtain ⟨ts, rfl, h1⟩ := hC hi hw hd
    exact one_settle he (.call hi h1) h
  | seq a b iha ihb =>
    intro es q n s ts1 s1 ts2 s' hc hw hd h
    obtain ⟨x, hx, hb, hne⟩ := check_seq hc
    cases hd with
    | seq h1 h2 =>
      rw [weights_append] at hw
      obtain ⟨m, h3⟩ := ihb hb (by omega) h2 h
      obtain ⟨m, h4⟩ := iha hx (by omega) h1 h3.path
      exact ⟨m, by simpa using h4⟩
  | alt j a b iha ihb =>
    intro es q n s ts1 s1 ts2 s' hc hw hd h
    obtain ⟨rfl, e, es', x, y, he, hx, hy, hxj, hyj⟩ := check_alt hc
    cases hd with
    | altL hd =>
      obtain ⟨k, h1⟩ := path_epsTo fuel hxj h
      obtain ⟨m, h2⟩ := iha hx hw hd h1
      exact from_settle fuel (by rw [he]; exact h2.mono (by simp))
    | altR hd =>
      obtain ⟨k, h1⟩ := path_epsTo fuel hyj h
      obtain ⟨m, h2⟩ := ihb hy hw hd h1
      exact from_settle fuel (by rw [he]; exact h2.mono (fun e h => List.mem_cons_of_mem _ h))
  | star p a iha =>
    intro es q n s ts1 s1 ts2 s' hc hw hd h
    obtain ⟨b, x, he, hp, hx, hxp, hb⟩ := check_star hc
    have key : ∀ {g}, g = G.star a.expand → ∀ {s ts1 s1}, weights ts1 ≤ w → Derives g s ts1 s1 → Path ruleOf tokenType N C r n q s1 ts2 s' →
        ∃ m, From N C r m [(.eps, b), (.eps, q)] s (ts1 ++ ts2) s' := by
      intro g hg s ts1 s1 hw hd h
      induction hd with
      | starNil => exact ⟨_, .mono (.ofEps h) (by simp)⟩
      | starCons hd1 hd2 _ ih =>
        injection hg with hg
        subst hg
        rw [weights_append] at hw
        obtain ⟨m, h1⟩ := ih rfl (by omega) h
        obtain ⟨k, h2⟩ := path_epsTo (x := x) fuel hxp (From.path (p := p) (by rw [hp]; exact h1))
        obtain ⟨k, h3⟩ := iha hx (by omega) hd1 h2
        exact ⟨_, .mono (by simpa using From.ofEps h3.path) (by simp)⟩
      | _ => cases hg
    obtain ⟨m, h1⟩ := key rfl hw hd h
    exact from_settle fuel (by rw [he]; exact h1)

end Rfc5322.Atn
