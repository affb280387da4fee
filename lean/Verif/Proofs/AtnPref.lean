import Verif.Proofs.AtnRules

/-!
# Preferred paths and preferred derivations
-/

namespace Rfc5322.Atn

open Spec

variable {N : Net} {r : Nat} {C : PrefCalls} {K : List Char → Prop}

/-- A preferred path that begins with one of some transitions. -/
def PrefFrom (N : Net) (C : PrefCalls) (r : Nat) (K : List Char → Prop) (n : Nat) (es : List (Label × Nat)) (s : List Char) (ts : List Tree)
    (s' : List Char) : Prop :=
  ∃ es1 l q es2 ts1 s1 us m, es = es1 ++ (l, q) :: es2 ∧ (∀ e ∈ es1, ¬ CanBy ruleOf tokenType N r K e s) ∧
    Take ruleOf tokenType (C (CanN N r K q)) l s ts1 s1 ∧ Pref ruleOf tokenType N C r K m q s1 us s' ∧ ts = ts1 ++ us ∧ n = m + 1

theorem Pref.from {n p s ts s'} (h : Pref ruleOf tokenType N C r K n p s ts s') (hp : p ≠ r) : PrefFrom N C r K n (N.out p) s ts s' := by
  cases h with
  | done => exact absurd rfl hp
  | step h1 h2 h3 h4 => exact ⟨_, _, _, _, _, _, _, _, h1, h2, h3, h4, rfl, rfl⟩

theorem PrefFrom.pref {n p s ts s'} (h : PrefFrom N C r K n (N.out p) s ts s') : Pref ruleOf tokenType N C r K n p s ts s' := by
  obtain ⟨es1, l, q, es2, ts1, s1, us, m, h1, h2, h3, h4, rfl, rfl⟩ := h
  exact .step h1 h2 h3 h4

theorem PrefFrom.one {n l q s ts s'} (h : PrefFrom N C r K n [(l, q)] s ts s') : ∃ m ts1 s1 us, n = m + 1 ∧
    Take ruleOf tokenType (C (CanN N r K q)) l s ts1 s1 ∧ Pref ruleOf tokenType N C r K m q s1 us s' ∧ ts = ts1 ++ us := by
  obtain ⟨es1, l', q', es2, ts1, s1, us, m, h1, h2, h3, h4, e1, e2⟩ := h
  cases es1 with
  | nil =>
    injection h1 with h1 _
    injection h1 with h1 h1'
    subst h1 h1'
    exact ⟨m, ts1, s1, us, e2, h3, h4, e1⟩
  | cons e es1 =>
    injection h1 with _ h1
    cases es1 <;> cases h1

theorem PrefFrom.ofOne {n l q s ts1 s1 us s'} (h : Take ruleOf tokenType (C (CanN N r K q)) l s ts1 s1)
    (h' : Pref ruleOf tokenType N C r K n q s1 us s') : PrefFrom N C r K (n + 1) [(l, q)] s (ts1 ++ us) s' :=
  ⟨[], l, q, [], ts1, s1, us, n, rfl, by simp, h, h', rfl, rfl⟩

theorem PrefFrom.eps {n q s ts s'} (h : PrefFrom N C r K n [(.eps, q)] s ts s') : ∃ m, n = m + 1 ∧ Pref ruleOf tokenType N C r K m q s ts s' := by
  obtain ⟨m, ts1, s1, us, e, h1, h2, e'⟩ := h.one
  cases h1
  exact ⟨m, e, e' ▸ h2⟩

theorem PrefFrom.ofEps {n q s ts s'} (h : Pref ruleOf tokenType N C r K n q s ts s') : PrefFrom N C r K (n + 1) [(.eps, q)] s ts s' :=
  .ofOne .eps h

theorem prefFrom_cons {n e es s ts s'} : PrefFrom N C r K n (e :: es) s ts s' ↔
    PrefFrom N C r K n [e] s ts s' ∨ ¬ CanBy ruleOf tokenType N r K e s ∧ PrefFrom N C r K n es s ts s' := by
  constructor
  · rintro ⟨es1, l, q, es2, ts1, s1, us, m, h1, h2, h⟩
    cases es1 with
    | nil =>
      injection h1 with h1 _
      exact .inl ⟨[], l, q, [], ts1, s1, us, m, by rw [h1]; rfl, by simp, h⟩
    | cons e1 es1 =>
      injection h1 with h1 h1'
      subst h1
      exact .inr ⟨h2 _ (by simp), es1, l, q, es2, ts1, s1, us, m, h1', fun e he => h2 e (List.mem_cons_of_mem _ he), h⟩
  · rintro (⟨es1, l, q, es2, ts1, s1, us, m, h1, h2, h⟩ | ⟨h0, es1, l, q, es2, ts1, s1, us, m, h1, h2, h⟩)
    · cases es1 with
      | nil =>
        injection h1 with h1 _
        exact ⟨[], l, q, es, ts1, s1, us, m, by rw [h1]; rfl, by simp, h⟩
      | cons e1 es1 =>
        injection h1 with _ h1
        cases es1 <;> cases h1
    · refine ⟨e :: es1, l, q, es2, ts1, s1, us, m, by rw [h1]; rfl, fun e' he => ?_, h⟩
      rw [List.mem_cons] at he
      rcases he with rfl | he
      · exact h0
      · exact h2 e' he

theorem settle_pref (hr : N.out r = []) : ∀ (k : Nat) {n es s ts s'}, settle N.out k es ≠ [] → PrefFrom N C r K n es s ts s' →
    ∃ m, m ≤ n ∧ PrefFrom N C r K m (settle N.out k es) s ts s'
  | 0, n, es, s, ts, s', _, h => ⟨n, Nat.le_refl _, h⟩
  | k + 1, n, es, s, ts, s', hne, h => by
    rw [settle.eq_def] at hne ⊢
    dsimp only at hne ⊢
    split at hne
    · rename_i q
      obtain ⟨m, hm0, h1⟩ := h.eps
      have hq : N.out q ≠ [] := by
        intro e
        rw [e] at hne
        cases k <;> exact hne rfl
      obtain ⟨m', hm, h2⟩ := settle_pref hr k hne (h1.from (ne_of_out hr hq))
      exact ⟨m', by omega, h2⟩
    · exact ⟨n, Nat.le_refl _, h⟩

theorem pref_settle : ∀ (k : Nat) {n es s ts s'}, PrefFrom N C r K n (settle N.out k es) s ts s' → ∃ m, PrefFrom N C r K m es s ts s'
  | 0, n, es, s, ts, s', h => ⟨n, h⟩
  | k + 1, n, es, s, ts, s', h => by
    rw [settle.eq_def] at h
    dsimp only at h
    split at h
    · obtain ⟨m, h1⟩ := pref_settle k h
      exact ⟨_, .ofEps h1.pref⟩
    · exact ⟨n, h⟩

theorem epsTo_pref (hr : N.out r = []) {j : Nat} : ∀ (k : Nat) {n x s ts s'}, epsTo N.out k x j = true → Pref ruleOf tokenType N C r K n x s ts s' →
    ∃ m, m ≤ n ∧ Pref ruleOf tokenType N C r K m j s ts s'
  | 0, n, x, s, ts, s', hx, h => by
    rw [epsTo, beq_iff_eq] at hx
    exact ⟨n, Nat.le_refl _, hx ▸ h⟩
  | k + 1, n, x, s, ts, s', hx, h => by
    rw [epsTo, Bool.or_eq_true, beq_iff_eq] at hx
    rcases hx with rfl | hx
    · exact ⟨n, Nat.le_refl _, h⟩
    · split at hx
      · rename_i x' he
        have h1 := h.from (ne_of_out hr (by simp [he]))
        rw [he] at h1
        obtain ⟨m, hm0, h2⟩ := h1.eps
        obtain ⟨m', hm, h3⟩ := epsTo_pref hr k hx h2
        exact ⟨m', by omega, h3⟩
      · cases hx

theorem pref_epsTo {j : Nat} : ∀ (k : Nat) {n x s ts s'}, epsTo N.out k x j = true → Pref ruleOf tokenType N C r K n j s ts s' →
    ∃ m, Pref ruleOf tokenType N C r K m x s ts s'
  | 0, n, x, s, ts, s', hx, h => by
    rw [epsTo, beq_iff_eq] at hx
    exact ⟨n, hx ▸ h⟩
  | k + 1, n, x, s, ts, s', hx, h => by
    rw [epsTo, Bool.or_eq_true, beq_iff_eq] at hx
    rcases hx with rfl | hx
    · exact ⟨n, h⟩
    · split at hx
      · rename_i x' he
        obtain ⟨m, h1⟩ := pref_epsTo k hx h
        exact ⟨m + 1, PrefFrom.pref (by rw [he]; exact .ofEps h1)⟩
      · cases hx

/-! ## Calls -/

/-- Preferred paths of called rules are paths that leave what they should. -/
def RunCalls (N : Net) (C : PrefCalls) : Prop := ∀ {K p i s ts s'}, C K p i s ts s' → Runs ruleOf tokenType N p i s ts s' ∧ K s'

theorem take_runs (hC : RunCalls N C) {l s ts s'} (h : Take ruleOf tokenType (C K) l s ts s') : Take ruleOf tokenType (Runs ruleOf tokenType N) l s ts s' :=
  h.mono fun h => (hC h).1

theorem pref_path (hC : RunCalls N C) {n p s ts s'} (h : Pref ruleOf tokenType N C r K n p s ts s') :
    Path ruleOf tokenType N (Runs ruleOf tokenType N) r n p s ts s' ∧ K s' := by
  induction h with
  | done h => exact ⟨.done, h⟩
  | step h1 _ h2 _ ih => exact ⟨.step (by simp [h1]) (take_runs hC h2) ih.1, ih.2⟩

theorem pref_can (hC : RunCalls N C) {n p s ts s'} (h : Pref ruleOf tokenType N C r K n p s ts s') : CanN N r K p s :=
  ⟨n, ts, s', pref_path hC h⟩

theorem prefCalled_runs : ∀ d, RunCalls N (prefCalled ruleOf tokenType N d)
  | 0, _, _, _, _, _, _, h => h.elim
  | d + 1, _, _, _, _, _, _, ⟨_, h⟩ => ⟨runs_iff.mpr ⟨_, (pref_path (prefCalled_runs d) h).1⟩, (pref_path (prefCalled_runs d) h).2⟩

theorem prefers_runs : RunCalls N (Prefers ruleOf tokenType N) := by
  rintro K p i s ts s' ⟨d, h⟩
  exact prefCalled_runs d h

theorem Pref.mono {C' : PrefCalls} {n p s ts s'} (h : Pref ruleOf tokenType N C r K n p s ts s')
    (hC : ∀ {K p i s ts s'}, C K p i s ts s' → C' K p i s ts s') : Pref ruleOf tokenType N C' r K n p s ts s' := by
  induction h with
  | done h => exact .done h
  | step h1 h2 h3 _ ih => exact .step h1 h2 (h3.mono hC) ih

theorem prefCalled_succ : ∀ (d : Nat) {K p i s ts s'}, prefCalled ruleOf tokenType N d K p i s ts s' → prefCalled ruleOf tokenType N (d + 1) K p i s ts s'
  | 0, _, _, _, _, _, _, h => h.elim
  | d + 1, _, _, _, _, _, _, ⟨n, h⟩ => ⟨n, h.mono (prefCalled_succ d)⟩

theorem prefCalled_le {d d' : Nat} (h : d ≤ d') {K p i s ts s'} (hc : prefCalled ruleOf tokenType N d K p i s ts s') :
    prefCalled ruleOf tokenType N d' K p i s ts s' := by
  induction h with
  | refl => exact hc
  | step _ ih => exact prefCalled_succ _ ih

theorem pref_depth {n p s ts s'} (h : Pref ruleOf tokenType N (Prefers ruleOf tokenType N) r K n p s ts s') :
    ∃ d, Pref ruleOf tokenType N (prefCalled ruleOf tokenType N d) r K n p s ts s' := by
  induction h with
  | done h => exact ⟨0, .done h⟩
  | @step n p es l q es' s ts s1 us s2 h1 h2 h3 _ ih =>
    obtain ⟨d, ih⟩ := ih
    have : ∃ d, Take ruleOf tokenType (prefCalled ruleOf tokenType N d (CanN N r K q)) l s ts s1 := by
      cases h3 with
      | eps => exact ⟨0, .eps⟩
      | eof => exact ⟨0, .eof⟩
      | set h4 h5 => exact ⟨0, .set h4 h5⟩
      | call h4 h5 =>
        obtain ⟨d, h5⟩ := h5
        exact ⟨d, .call h4 h5⟩
    obtain ⟨d', h6⟩ := this
    exact ⟨max d d', .step h1 h2 (h6.mono (prefCalled_le (Nat.le_max_right ..))) (ih.mono (prefCalled_le (Nat.le_max_left ..)))⟩

theorem prefers_iff {p i s ts s'} : Prefers ruleOf tokenType N K p i s ts s' ↔
    ∃ n, Pref ruleOf tokenType N (Prefers ruleOf tokenType N) (N.stop i) K n p s ts s' := by
  constructor
  · rintro ⟨d, h⟩
    cases d with
    | zero => exact h.elim
    | succ d =>
      obtain ⟨n, h⟩ := h
      exact ⟨n, h.mono fun h => ⟨d, h⟩⟩
  · rintro ⟨n, h⟩
    obtain ⟨d, h⟩ := pref_depth h
    exact ⟨d + 1, n, h⟩

/-! ## Expressions -/

/-- The calls are preferred derivations. -/
def SoundPref (N : Net) (C : PrefCalls) : Prop :=
  ∀ {i R K s ts s'}, ruleOf i = some R → C K (N.start i) i s ts s' → Preferred K (ruleG R) s [.node R ts] s'

theorem pref_one (hr : N.out r = []) {es l q n s ts s'} (he : settle N.out fuel es = [(l, q)]) (h : PrefFrom N C r K n es s ts s') :
    ∃ m ts1 s1 us, m < n ∧ Take ruleOf tokenType (C (CanN N r K q)) l s ts1 s1 ∧ Pref ruleOf tokenType N C r K m q s1 us s' ∧ ts = ts1 ++ us := by
  obtain ⟨m, hm, h1⟩ := settle_pref hr fuel (by simp [he]) h
  rw [he] at h1
  obtain ⟨m', ts1, s1, us, e, h2, h3, h4⟩ := h1.one
  exact ⟨m', ts1, s1, us, by omega, h2, h3, h4⟩

theorem one_pref {es l q n s ts1 s1 us s'} (he : settle N.out fuel es = [(l, q)]) (h : Take ruleOf tokenType (C (CanN N r K q)) l s ts1 s1)
    (h' : Pref ruleOf tokenType N C r K n q s1 us s') : ∃ m, PrefFrom N C r K m es s (ts1 ++ us) s' :=
  pref_settle fuel (by rw [he]; exact .ofOne h h')

theorem can_seq (hN : Good N) (hr : N.out r = []) {b x q} (hb : check N.out N.start b (N.out x) = some q) (hne : N.out x ≠ []) (s : List Char) :
    CanN N r K x s ↔ Completes b.expand (CanN N r K q) s :=
  (can_iff (ne_of_out hr hne)).trans (canFrom_check hN hr hb s)

theorem can_star (hN : Good N) (hr : N.out r = []) {p a es q} (hc : check N.out N.start (.star p a) es = some q) (s : List Char) :
    CanN N r K p s ↔ Completes (.star a.expand) (CanN N r K q) s := by
  obtain ⟨b, x, he, hp, hx, hxp, hb⟩ := check_star hc
  have hes : check N.out N.start (.star p a) (N.out p) = some q := by
    have e : settle N.out fuel (N.out p) = [(.eps, b), (.eps, q)] := by rw [hp]; rfl
    rw [check]
    rw [e]
    dsimp only
    rw [if_pos hp, hx]
    dsimp only
    rw [if_pos hxp]
  exact (can_iff (ne_of_out hr (by simp [hp]))).trans (canFrom_check hN hr hes s)

theorem completes_seq {a b : G} {K : List Char → Prop} {s} : Completes (a ⬝ b) K s ↔ Completes a (Completes b K) s := by
  constructor
  · rintro ⟨ts, s', h, hK⟩
    cases h with
    | seq h1 h2 => exact ⟨_, _, h1, _, _, h2, hK⟩
  · rintro ⟨ts, s', h1, us, s'', h2, hK⟩
    exact ⟨_, _, .seq h1 h2, hK⟩

theorem completes_congr {g : G} {K L : List Char → Prop} {s} (h : ∀ s, K s ↔ L s) : Completes g K s ↔ Completes g L s := by
  have : K = L := funext fun s => propext (h s)
  rw [this]

/-- Entering a loop. -/
theorem canBy_star (hN : Good N) (hr : N.out r = []) {p a es q b x} (hc : check N.out N.start (.star p a) es = some q)
    (hx : check N.out N.start a (N.out b) = some x) (hxp : epsTo N.out fuel x p = true) (hb : N.out b ≠ []) (s : List Char) :
    CanBy ruleOf tokenType N r K (.eps, b) s ↔ Completes (a.expand ⬝ .star a.expand) (CanN N r K q) s := by
  rw [completes_seq]
  refine Iff.trans ?_ ((can_seq hN hr hx hb s).trans (completes_congr fun s => (can_epsTo hr hxp s).trans (can_star hN hr hc s)))
  constructor
  · rintro ⟨ts, s', h1, h2⟩
    cases h1
    exact h2
  · intro h
    exact ⟨[], s, .eps, h⟩

/-- Preferred paths are preferred derivations. -/
theorem pref_sound (hN : Good N) (hr : N.out r = []) (hR : RunCalls N C) (hC : SoundPref N C) : ∀ (c : Cert) {es q n s ts s'},
    check N.out N.start c es = some q → PrefFrom N C r K n es s ts s' →
    ∃ ts1 s1 ts2 m, m < n ∧ Preferred (CanN N r K q) c.expand s ts1 s1 ∧ Pref ruleOf tokenType N C r K m q s1 ts2 s' ∧ ts = ts1 ++ ts2 := by
  intro c
  induction c with
  | eps =>
    intro es q n s ts s' hc h
    obtain rfl := check_eps hc
    obtain ⟨m, hm, h1⟩ := h.eps
    exact ⟨[], s, ts, m, by omega, .eps (pref_can hR h1), h1, rfl⟩
  | eof =>
    intro es q n s ts s' hc h
    obtain ⟨m, ts1, s1, us, hm, ht, h1, e⟩ := pref_one hr (check_eof hc) h
    cases ht
    exact ⟨_, _, us, m, hm, .eof (pref_can hR h1), h1, e⟩
  | toks ks =>
    intro es q n s ts s' hc h
    obtain ⟨is, he, hks, hi⟩ := check_toks hc
    obtain ⟨m, ts1, s1, us, hm, ht, h1, e⟩ := pref_one hr he h
    cases ht with
    | set h2 h3 => exact ⟨_, _, us, m, hm, preferred_oneOf (pref_can hR h1) ((tokens_iff hi _).mp ⟨_, h2, h3⟩), h1, e⟩
  | call R =>
    intro es q n s ts s' hc h
    obtain ⟨i, he, hi⟩ := check_call hc
    obtain ⟨m, ts1, s1, us, hm, ht, h1, e⟩ := pref_one hr he h
    cases ht with
    | call h2 h3 =>
      rw [hi] at h2
      injection h2 with h2
      subst h2
      exact ⟨_, _, us, m, hm, hC hi h3, h1, e⟩
  | seq a b iha ihb =>
    intro es q n s ts s' hc h
    obtain ⟨x, hx, hb, hne⟩ := check_seq hc
    obtain ⟨ts1, s1, ts2, m, hm, hd, h1, e⟩ := iha hx h
    obtain ⟨us1, s2, us2, m', hm', hd', h2, e'⟩ := ihb hb (h1.from (ne_of_out hr hne))
    exact ⟨_, _, us2, m', by omega, .seq (Preferred.congr hd (can_seq hN hr hb hne)) hd', h2, by simp [e, e']⟩
  | alt j a b iha ihb =>
    intro es q n s ts s' hc h
    obtain ⟨rfl, e, es', x, y, he, hx, hy, hxj, hyj⟩ := check_alt hc
    obtain ⟨m, hm, h1⟩ := settle_pref hr fuel (by simp [he]) h
    rw [he, prefFrom_cons] at h1
    rcases h1 with h1 | ⟨h0, h1⟩
    · obtain ⟨ts1, s1, ts2, k, hk, hd, h4, e⟩ := iha hx h1
      obtain ⟨k', hk', h5⟩ := epsTo_pref hr fuel hxj h4
      exact ⟨_, _, _, k', by omega, .first (Preferred.congr hd (can_epsTo hr hxj)), h5, e⟩
    · obtain ⟨ts1, s1, ts2, k, hk, hd, h4, e⟩ := ihb hy h1
      obtain ⟨k', hk', h5⟩ := epsTo_pref hr fuel hyj h4
      refine ⟨_, _, _, k', by omega, .second (fun hco => h0 ?_) (Preferred.congr hd (can_epsTo hr hyj)), h5, e⟩
      rw [canBy_iff, canFrom_check hN hr hx, completes_congr (can_epsTo hr hxj)]
      exact hco
  | star p a iha =>
    intro es q n s ts s' hc h
    obtain ⟨b, x, he, hp, hx, hxp, hb⟩ := check_star hc
    have key : ∀ n s ts, PrefFrom N C r K n [(.eps, b), (.eps, q)] s ts s' → ∃ ts1 s1 ts2 m, m < n ∧ Preferred (CanN N r K q) (.star a.expand) s ts1 s1 ∧
        Pref ruleOf tokenType N C r K m q s1 ts2 s' ∧ ts = ts1 ++ ts2 := by
      intro n
      induction n using Nat.strongRecOn with
      | ind n ih =>
        intro s ts h
        rw [prefFrom_cons] at h
        rcases h with h | ⟨h0, h⟩
        · obtain ⟨m', hm', h3⟩ := h.eps
          obtain ⟨ts1, s1, ts2, k, hk, hd, h4, e⟩ := iha hx (h3.from (ne_of_out hr hb))
          obtain ⟨k', hk', h5⟩ := epsTo_pref hr fuel hxp h4
          have h6 := h5.from (ne_of_out hr (by simp [hp]))
          rw [hp] at h6
          obtain ⟨us1, s2, us2, m, hm, hd', h7, e'⟩ := ih k' (by omega) _ _ h6
          exact ⟨_, _, us2, m, by omega,
            .again (Preferred.congr hd fun s => (can_epsTo hr hxp s).trans (can_star hN hr hc s)) hd', h7, by simp [e, e']⟩
        · obtain ⟨m', hm', h3⟩ := h.eps
          exact ⟨[], s, ts, m', by omega, .stop (fun hco => h0 ((canBy_star hN hr hc hx hxp hb s).mpr hco)) (pref_can hR h3), h3, rfl⟩
    obtain ⟨m, hm, h1⟩ := settle_pref hr fuel (by simp [he]) h
    rw [he] at h1
    obtain ⟨ts1, s1, ts2, k, hk, h2⟩ := key m s ts h1
    exact ⟨ts1, s1, ts2, k, by omega, h2⟩

/-- Preferred derivations that build few nodes are calls. -/
def CompletePref (N : Net) (C : PrefCalls) (w : Nat) : Prop :=
  ∀ {i R K s us s'}, ruleOf i = some R → weights us ≤ w → Preferred K (ruleG R) s us s' → ∃ ts, us = [.node R ts] ∧ C K (N.start i) i s ts s'

/-- Preferred derivations are preferred paths. -/
theorem pref_complete (hN : Good N) (hr : N.out r = []) {w : Nat} (hC : CompletePref N C w) : ∀ (c : Cert) {es q n s ts1 s1 ts2 s'},
    check N.out N.start c es = some q → weights ts1 ≤ w → Preferred (CanN N r K q) c.expand s ts1 s1 → Pref ruleOf tokenType N C r K n q s1 ts2 s' →
    ∃ m, PrefFrom N C r K m es s (ts1 ++ ts2) s' := by
  intro c
  induction c with
  | eps =>
    intro es q n s ts1 s1 ts2 s' hc _ hd h
    obtain rfl := check_eps hc
    cases hd
    exact ⟨_, .ofEps h⟩
  | eof =>
    intro es q n s ts1 s1 ts2 s' hc _ hd h
    cases hd
    exact one_pref (check_eof hc) .eof h
  | toks ks =>
    intro es q n s ts1 s1 ts2 s' hc _ hd h
    obtain ⟨is, he, hks, hi⟩ := check_toks hc
    obtain ⟨c, e1, e2, hk⟩ := (derives_oneOf hks).mp (Preferred.derives hd).1
    subst e1 e2
    obtain ⟨k, h1, h2⟩ := (tokens_iff hi c).mpr hk
    exact one_pref he (.set h1 h2) h
  | call R =>
    intro es q n s ts1 s1 ts2 s' hc hw hd h
    obtain ⟨i, he, hi⟩ := check_call hc
    obtain ⟨ts, e, h1⟩ := hC hi hw hd
    subst e
    exact one_pref he (.call hi h1) h
  | seq a b iha ihb =>
    intro es q n s ts1 s1 ts2 s' hc hw hd h
    obtain ⟨x, hx, hb, hne⟩ := check_seq hc
    cases hd with
    | seq h1 h2 =>
      rw [weights_append] at hw
      obtain ⟨m, h3⟩ := ihb hb (by omega) h2 h
      obtain ⟨m, h4⟩ := iha hx (by omega) (Preferred.congr h1 fun s => (can_seq hN hr hb hne s).symm) h3.pref
      exact ⟨m, by simpa using h4⟩
  | alt j a b iha ihb =>
    intro es q n s ts1 s1 ts2 s' hc hw hd h
    obtain ⟨rfl, e, es', x, y, he, hx, hy, hxj, hyj⟩ := check_alt hc
    cases hd with
    | first hd =>
      obtain ⟨k, h1⟩ := pref_epsTo fuel hxj h
      obtain ⟨m, h2⟩ := iha hx hw (Preferred.congr hd fun s => (can_epsTo hr hxj s).symm) h1
      exact pref_settle fuel (by rw [he, prefFrom_cons]; exact .inl h2)
    | second h0 hd =>
      obtain ⟨k, h1⟩ := pref_epsTo fuel hyj h
      obtain ⟨m, h2⟩ := ihb hy hw (Preferred.congr hd fun s => (can_epsTo hr hyj s).symm) h1
      refine pref_settle fuel (n := m) ?_
      rw [he, prefFrom_cons]
      refine .inr ⟨fun hco => h0 ?_, h2⟩
      rw [canBy_iff, canFrom_check hN hr hx, completes_congr (can_epsTo hr hxj)] at hco
      exact hco
  | star p a iha =>
    intro es q n s ts1 s1 ts2 s' hc hw hd h
    obtain ⟨b, x, he, hp, hx, hxp, hb⟩ := check_star hc
    have key : ∀ {g L}, g = G.star a.expand → L = CanN N r K q → ∀ {s ts1 s1}, weights ts1 ≤ w → Preferred L g s ts1 s1 →
        Pref ruleOf tokenType N C r K n q s1 ts2 s' → ∃ m, PrefFrom N C r K m [(.eps, b), (.eps, q)] s (ts1 ++ ts2) s' := by
      intro g L hg hL s ts1 s1 hw hd h
      induction hd with
      | stop h0 h1 =>
        injection hg with hg
        subst hg hL
        exact ⟨_, prefFrom_cons.mpr (.inr ⟨fun hco => h0 ((canBy_star hN hr hc hx hxp hb _).mp hco), .ofEps h⟩)⟩
      | again hd1 hd2 _ ih =>
        injection hg with hg
        subst hg hL
        rw [weights_append] at hw
        obtain ⟨m, h1⟩ := ih rfl rfl (by omega) h
        obtain ⟨k, h2⟩ := pref_epsTo (x := x) fuel hxp (PrefFrom.pref (p := p) (by rw [hp]; exact h1))
        obtain ⟨k, h3⟩ := iha hx (by omega) (Preferred.congr hd1 fun s => ((can_epsTo hr hxp s).trans (can_star hN hr hc s)).symm) h2
        exact ⟨_, prefFrom_cons.mpr (.inl (by simpa using PrefFrom.ofEps h3.pref))⟩
      | _ => cases hg
    obtain ⟨m, h1⟩ := key rfl rfl hw hd h
    exact pref_settle fuel (by rw [he]; exact h1)

/-! ## Rules -/

theorem pref_stop {n s ts s'} (hr : N.out r = []) (h : Pref ruleOf tokenType N C r K n r s ts s') : ts = [] ∧ s = s' := by
  cases h with
  | done => exact ⟨rfl, rfl⟩
  | step h1 => rw [hr] at h1; simp at h1

theorem rule_pref_sound (hN : Good N) (hR : RunCalls N C) (hC : SoundPref N C) {i R} (hi : ruleOf i = some R) {n s ts s'}
    (h : Pref ruleOf tokenType N C (N.stop i) K n (N.start i) s ts s') : Preferred K (cert R).expand s ts s' := by
  obtain ⟨hr, q, hq, he, hne⟩ := hN.rule hi
  obtain ⟨ts1, s1, ts2, m, _, hd, h1, e⟩ := pref_sound hN hr hR hC (cert R) hq (h.from (ne_of_out hr hne))
  obtain ⟨m', _, h2⟩ := epsTo_pref hr fuel he h1
  obtain ⟨e1, e2⟩ := pref_stop hr h2
  subst e1 e2
  rw [List.append_nil] at e
  exact e ▸ Preferred.congr hd fun s => (can_epsTo hr he s).trans (can_stop hr s)

theorem prefCalled_sound (hN : Good N) : ∀ d, SoundPref N (prefCalled ruleOf tokenType N d)
  | 0, _, _, _, _, _, _, _, h => h.elim
  | d + 1, _, _, _, _, _, _, hi, ⟨_, h⟩ => preferred_rule.mpr ⟨_, rfl, rule_pref_sound hN (prefCalled_runs d) (prefCalled_sound hN d) hi h⟩

theorem rule_pref_complete (hN : Good N) {w : Nat} (hC : CompletePref N C w) {i R} (hi : ruleOf i = some R) {s ts s'} (hw : weights ts ≤ w)
    (h : Preferred K (cert R).expand s ts s') : ∃ n, Pref ruleOf tokenType N C (N.stop i) K n (N.start i) s ts s' := by
  obtain ⟨hr, q, hq, he, hne⟩ := hN.rule hi
  obtain ⟨n, h1⟩ := pref_epsTo (C := C) (r := N.stop i) (K := K) fuel he (.done (Preferred.derives h).2)
  obtain ⟨m, h2⟩ := pref_complete hN hr hC (cert R) hq hw (Preferred.congr h fun s => ((can_epsTo hr he s).trans (can_stop hr s)).symm) h1
  exact ⟨m, by simpa using h2.pref⟩

theorem prefers_completeTo (hN : Good N) : ∀ w, CompletePref N (Prefers ruleOf tokenType N) w := by
  intro w
  induction w with
  | zero =>
    intro i R K s us s' hi hw h
    obtain ⟨ts, e, h1⟩ := preferred_rule.mp h
    subst e
    simp [weights, weight] at hw
  | succ w ih =>
    intro i R K s us s' hi hw h
    obtain ⟨ts, e, h1⟩ := preferred_rule.mp h
    subst e
    refine ⟨ts, rfl, prefers_iff.mpr (rule_pref_complete hN ih hi ?_ h1)⟩
    simp only [weights, weight] at hw
    omega

/-- The preferred paths through a rule are its preferred derivations. -/
theorem prefers_preferred (hN : Good N) {i R} (hi : ruleOf i = some R) {s ts s'} :
    Prefers ruleOf tokenType N K (N.start i) i s ts s' ↔ Preferred K (ruleG R) s [.node R ts] s' := by
  constructor
  · rintro ⟨d, h⟩
    exact prefCalled_sound hN d hi h
  · intro h
    obtain ⟨ts', e, h1⟩ := prefers_completeTo hN (weights [.node R ts]) hi (Nat.le_refl _) h
    injection e with e _
    injection e with _ e
    exact e ▸ h1

end Rfc5322.Atn
