import Verif.Proofs.GenSound

/-!
# The generated functions follow the preferred path
-/

namespace Rfc5322.Gen

open Atn

variable {N : Net} {T : Runtime N} {σ : List Nat} {L F : Nat → Nat} {Q : Nat} {C : PrefCalls} {recs : Nat → Rule → List Nat → List Char → Outcome}

/-- From now on. -/
def Ends (exec : Nat → List Char → Outcome) (s : List Char) (ts : List Tree) (s' : List Char) : Prop := ∃ f0, ∀ f, f0 ≤ f → exec f s = .ok ts s'

/-- Preferred paths of a rule, with this call stack. -/
abbrev Goes (N : Net) (C : PrefCalls) (σ : List Nat) (Q : Nat) := Pref ruleOf tokenType N C (N.stop Q) (Rest N σ)

/-- Every preferred path begins with what is executed. -/
def Sim (N : Net) (C : PrefCalls) (σ : List Nat) (Q : Nat) (exec : Nat → List Char → Outcome) (p q : Nat) : Prop :=
  ∀ n s ts s', Goes N C σ Q n p s ts s' → ∃ ts1 s1 ts2 m, m ≤ n ∧ Ends exec s ts1 s1 ∧ Goes N C σ Q m q s1 ts2 s' ∧ ts = ts1 ++ ts2

/-- What is known about the function. -/
structure Here (N : Net) (L F : Nat → Nat) (σ : List Nat) (Q : Nat) (C : PrefCalls) : Prop where
  tables : Tables N L F
  rule : ∃ R, ruleOf Q = some R
  chain : Chain N F σ Q
  stop : N.out (N.stop Q) = []
  runs : RunCalls N C

/-- Calls do what is preferred. -/
def RecSim (N : Net) (F : Nat → Nat) (C : PrefCalls) (recs : Nat → Rule → List Nat → List Char → Outcome) : Prop :=
  ∀ i R σ s ts s', ruleOf i = some R → Chain N F σ i → C (Rest N σ) (N.start i) i s ts s' → Ends (fun f => recs f R σ) s ts s'

theorem Ends.andThen {e1 e2 : Nat → List Char → Outcome} {s ts s1 us s2} (h1 : Ends e1 s ts s1) (h2 : Ends e2 s1 us s2) :
    Ends (fun f s => (e1 f s).andThen (e2 f)) s (ts ++ us) s2 := by
  obtain ⟨f1, h1⟩ := h1
  obtain ⟨f2, h2⟩ := h2
  exact ⟨max f1 f2, fun f hf => andThen_ok.mpr ⟨_, _, _, h1 f (by omega), h2 f (by omega), rfl⟩⟩

theorem Ends.of {e : Nat → List Char → Outcome} {s ts s'} (h : ∀ f, e f s = .ok ts s') : Ends e s ts s' := ⟨0, fun f _ => h f⟩

theorem Ends.congr {e e' : Nat → List Char → Outcome} {s ts s'} (h : Ends e s ts s') (he : ∀ f, e' f s = e f s) : Ends e' s ts s' := by
  obtain ⟨f0, h⟩ := h
  exact ⟨f0, fun f hf => (he f).trans (h f hf)⟩

section
variable (H : Here N L F σ Q C)
include H

theorem goes_norm {n p s ts s'} (h : Goes N C σ Q n p s ts s') : ∃ m, m ≤ n ∧ Goes N C σ Q m (norm N.out fuel p) s ts s' := norm_pref H.stop fuel h

theorem Sim.norm {exec p q} (h : Sim N C σ Q exec (norm N.out fuel p) q) : Sim N C σ Q exec p q := by
  intro n s ts s' hp
  obtain ⟨m, hm, h1⟩ := goes_norm H hp
  obtain ⟨ts1, s1, ts2, m', hm', h2⟩ := h m s ts s' h1
  exact ⟨ts1, s1, ts2, m', by omega, h2⟩

theorem Sim.normed {exec p q} (h : Sim N C σ Q exec p q) : Sim N C σ Q exec p (Gen.norm N.out fuel q) := by
  intro n s ts s' hp
  obtain ⟨ts1, s1, ts2, m, hm, h1, h2, h3⟩ := h n s ts s' hp
  obtain ⟨m', hm', h4⟩ := goes_norm H h2
  exact ⟨ts1, s1, ts2, m', by omega, h1, h4, h3⟩

theorem goes_can {n p s ts s'} (h : Goes N C σ Q n p s ts s') : CanN N (N.stop Q) (Rest N σ) p s := pref_can H.runs h

/-- `Sync` does not report anything. -/
theorem goes_sync {n p s ts s' st} (h : Goes N C σ Q n (Gen.norm N.out fuel p) s ts s') (he : Gen.norm N.out fuel st = Gen.norm N.out fuel p)
    (hq : ruleAt N st = Q) (o : Outcome) : synced T σ st s o = o := by
  have h1 : CanEnd N σ st s := by
    unfold CanEnd
    rw [hq]
    exact (can_norm H.stop).mp (by rw [he]; exact goes_can H h)
  rw [synced, if_pos (T.sync_ok st σ s (hq ▸ H.chain.proper) h1)]

theorem goes_from {n p s ts s'} (h : Goes N C σ Q n p s ts s') (hne : N.out p ≠ []) :
    PrefFrom N C (N.stop Q) (Rest N σ) n (N.out p) s ts s' := h.from (ne_of_out H.stop hne)

theorem goes_one {n p l q s ts s'} (h : Goes N C σ Q n p s ts s') (ho : N.out p = [(l, q)]) : ∃ m ts1 s1 us, m ≤ n ∧
    Take ruleOf tokenType (C (CanN N (N.stop Q) (Rest N σ) q)) l s ts1 s1 ∧ Goes N C σ Q m q s1 us s' ∧ ts = ts1 ++ us := by
  have h1 := goes_from H h (by simp [ho])
  rw [ho] at h1
  obtain ⟨m, ts1, s1, us, e, h2⟩ := h1.one
  exact ⟨m, ts1, s1, us, by omega, h2⟩

/-- Decisions with any number of alternatives, all without label. -/
theorem goes_alt {n p s ts s'} (h : Goes N C σ Q n p s ts s') (hne : N.out p ≠ []) (hq : ruleAt N p = Q) (he : ∀ e ∈ N.out p, e.1 = .eps) :
    ∃ (j m q : Nat), (N.out p)[j]? = some (.eps, q) ∧ m < n ∧ Goes N C σ Q m q s ts s' ∧ ∀ d, N.decisions[d]? = some p → T.predict d σ s = some (j + 1) := by
  obtain ⟨es1, l, q, es2, ts1, s1, us, m, h1, h2, h3, h4, rfl, rfl⟩ := goes_from H h hne
  have h5 : l = .eps := he (l, q) (by simp [h1])
  subst h5
  cases h3
  have hj : (N.out p)[es1.length]? = some (.eps, q) := by simp [h1]
  refine ⟨es1.length, m, q, hj, by omega, h4, fun d hd => ?_⟩
  refine T.least d p σ s es1.length hd (hq ▸ H.chain.proper) ⟨_, hj, ?_⟩ ?_
  · rw [hq]
    exact ⟨[], s, .eps, goes_can H h4⟩
  · rintro j hlt ⟨e, hj', hcan⟩
    rw [h1, List.getElem?_append_left hlt] at hj'
    rw [hq] at hcan
    exact h2 e (List.mem_of_getElem? hj') hcan

theorem goes_look {n p s ts s'} (h : Goes N C σ Q n p s ts s') (hp : ruleAt N p = Q) :
    ∃ k, Head s k ∧ (lookFar (ruleAt N) L F p).testBit k = true := by
  obtain ⟨R, hR⟩ := H.rule
  exact can_seen H.tables hR H.chain hp (goes_can H h)

/-- Tests of the next token. -/
theorem goes_test {n p b e s ts s' t} (h : Goes N C σ Q n p s ts s') (ho : N.out p = [(.eps, b), (.eps, e)]) (hb : ruleAt N b = Q) (he : ruleAt N e = Q)
    (ht : separates (lookFar (ruleAt N) L F) t b e = true) :
    (t.eval (la1 s) = true ∧ ∃ m, m < n ∧ Goes N C σ Q m b s ts s') ∨ (t.eval (la1 s) = false ∧ ∃ m, m < n ∧ Goes N C σ Q m e s ts s') := by
  have h1 := goes_from H h (by simp [ho])
  rw [ho] at h1
  rcases prefFrom_cons.mp h1 with h2 | ⟨_, h2⟩
  · obtain ⟨m, e', h3⟩ := h2.eps
    obtain ⟨k, h4, h5⟩ := goes_look H h3 hb
    exact .inl ⟨by rw [h4.la]; exact (separates_true ht h4.types).1 h5, m, by omega, h3⟩
  · obtain ⟨m, e', h3⟩ := h2.eps
    obtain ⟨k, h4, h5⟩ := goes_look H h3 he
    exact .inr ⟨by rw [h4.la]; exact (separates_true ht h4.types).2 h5, m, by omega, h3⟩

/-- The decision of loops. -/
theorem goes_ask {n p b e s ts s'} {a : Ask} (h : Goes N C σ Q n p s ts s') (ho : N.out p = [(.eps, b), (.eps, e)]) (hp : ruleAt N p = Q)
    (hb : ruleAt N b = Q) (he : ruleAt N e = Q) (ha : askOk N.decisions (lookFar (ruleAt N) L F) p b e a = true) :
    (a.choose T σ s = .enter ∧ ∃ m, m < n ∧ Goes N C σ Q m b s ts s') ∨ (a.choose T σ s = .leave ∧ ∃ m, m < n ∧ Goes N C σ Q m e s ts s') := by
  cases a with
  | la t =>
    rcases goes_test H h ho hb he ha with ⟨h1, h2⟩ | ⟨h1, h2⟩
    · exact .inl ⟨by simp [Ask.choose, h1], h2⟩
    · exact .inr ⟨by simp [Ask.choose, h1], h2⟩
  | alt d =>
    have hd : N.decisions[d]? = some p := by simpa [askOk] using ha
    obtain ⟨j, m, q, hj, hm, h1, h2⟩ := goes_alt (T := T) H h (by simp [ho]) hp (by simp [ho])
    have h3 := h2 d hd
    rw [ho] at hj
    match j, hj with
    | 0, hj =>
      simp at hj; subst hj
      exact .inl ⟨by simp [Ask.choose, h3], m, hm, h1⟩
    | 1, hj =>
      simp at hj; subst hj
      exact .inr ⟨by simp [Ask.choose, h3], m, hm, h1⟩

theorem star_sim {p b e a st'} {body : Nat → List Char → Outcome} (ho : N.out p = [(.eps, b), (.eps, e)]) (hp : ruleAt N p = Q)
    (hb : ruleAt N b = Q) (he : ruleAt N e = Q) (ha : askOk N.decisions (lookFar (ruleAt N) L F) p b e a = true)
    (hst' : ruleAt N st' = Q) (hn' : ∀ s, CanN N (N.stop Q) (Rest N σ) p s → T.sync st' σ s = true) (hbody : Sim N C σ Q body b p) :
    ∀ (n : Nat) (st : Nat) s ts s', (∀ s, CanN N (N.stop Q) (Rest N σ) p s → T.sync st σ s = true) → Goes N C σ Q n p s ts s' →
      ∃ ts1 s1 ts2 m, m ≤ n ∧ (∃ f0 g0, ∀ f g, f0 ≤ f → g0 ≤ g → star T σ st st' a (body f) g s = .ok ts1 s1) ∧ Goes N C σ Q m e s1 ts2 s' ∧
        ts = ts1 ++ ts2 := by
  intro n
  induction n using Nat.strongRecOn with
  | ind n ih =>
    intro st s ts s' hst h
    have hsy : ∀ o, synced T σ st s o = o := fun o => by rw [synced, if_pos (hst s (goes_can H h))]
    rcases goes_ask (T := T) H h ho hp hb he ha with ⟨h1, m, hm, h2⟩ | ⟨h1, m, hm, h2⟩
    · obtain ⟨ts1, s1, ts2, m1, hm1, ⟨f1, h3⟩, h4, rfl⟩ := hbody m s ts s' h2
      obtain ⟨us1, s2, us2, m2, hm2, ⟨f2, g2, h5⟩, h6, rfl⟩ := ih m1 (by omega) st' s1 ts2 s' hn' h4
      refine ⟨ts1 ++ us1, s2, us2, m2, by omega, ⟨max f1 f2, g2 + 1, fun f g hf hg => ?_⟩, h6, by rw [List.append_assoc]⟩
      match g, hg with
      | g + 1, hg =>
        rw [star, hsy, h1]
        exact andThen_ok.mpr ⟨_, _, _, h3 f (by omega), h5 f g (by omega) (by omega), rfl⟩
    · refine ⟨[], s, ts, m, by omega, ⟨0, 1, fun f g _ hg => ?_⟩, h2, rfl⟩
      match g, hg with
      | g + 1, _ => rw [star, hsy, h1]

theorem plus_sim {p b x e a st'} {body : Nat → List Char → Outcome} (ho : N.out x = [(.eps, b), (.eps, e)]) (hx : ruleAt N x = Q)
    (hb : ruleAt N b = Q) (he : ruleAt N e = Q) (ha : askOk N.decisions (lookFar (ruleAt N) L F) x b e a = true)
    (hn' : ∀ s, CanN N (N.stop Q) (Rest N σ) x s → T.sync st' σ s = true) (hbody : Sim N C σ Q body p x) (hbp : Gen.norm N.out fuel b = p) :
    ∀ (n : Nat) s ts s', Goes N C σ Q n p s ts s' →
      ∃ ts1 s1 ts2 m, m ≤ n ∧ (∃ f0 g0, ∀ f g, f0 ≤ f → g0 ≤ g → plus T σ st' a (body f) g s = .ok ts1 s1) ∧ Goes N C σ Q m e s1 ts2 s' ∧
        ts = ts1 ++ ts2 := by
  intro n
  induction n using Nat.strongRecOn with
  | ind n ih =>
    intro s ts s' h
    obtain ⟨ts1, s1, ts2, m1, hm1, ⟨f1, h3⟩, h4, rfl⟩ := hbody n s ts s' h
    have hsy : ∀ o, synced T σ st' s1 o = o := fun o => by rw [synced, if_pos (hn' s1 (goes_can H h4))]
    rcases goes_ask (T := T) H h4 ho hx hb he ha with ⟨h1, m, hm, h2⟩ | ⟨h1, m, hm, h2⟩
    · obtain ⟨m', hm', h5⟩ := goes_norm H h2
      rw [hbp] at h5
      obtain ⟨us1, s2, us2, m2, hm2, ⟨f2, g2, h6⟩, h7, rfl⟩ := ih m' (by omega) s1 ts2 s' h5
      refine ⟨ts1 ++ us1, s2, us2, m2, by omega, ⟨max f1 f2, g2 + 1, fun f g hf hg => ?_⟩, h7, by rw [List.append_assoc]⟩
      match g, hg with
      | g + 1, hg =>
        rw [plus]
        refine andThen_ok.mpr ⟨_, _, _, h3 f (by omega), ?_, rfl⟩
        rw [hsy, h1]
        exact h6 f g (by omega) (by omega)
    · refine ⟨ts1 ++ [], s1, ts2, m, by omega, ⟨f1, 1, fun f g hf hg => ?_⟩, h2, by simp⟩
      match g, hg with
      | g + 1, _ =>
        rw [plus]
        refine andThen_ok.mpr ⟨_, _, _, h3 f hf, ?_, rfl⟩
        rw [hsy, h1]

theorem sync_of {p st : Nat} (he : Gen.norm N.out fuel st = Gen.norm N.out fuel p) (hq : ruleAt N st = Q) (s : List Char)
    (h : CanN N (N.stop Q) (Rest N σ) (Gen.norm N.out fuel p) s) : T.sync st σ s = true := by
  refine T.sync_ok st σ s (hq ▸ H.chain.proper) ?_
  unfold CanEnd
  rw [hq]
  exact (can_norm H.stop).mp (by rw [he]; exact h)

end

theorem chkAlt_eps {out start decisions rule lf Q} : ∀ (cs : Cases) {m es l}, chkAlt out start decisions rule lf Q m cs es = some l → ∀ e ∈ es, e.1 = .eps
  | .nil, m, es, l, h, e, he => by
    rw [chkAlt.eq_def] at h
    obtain ⟨j, hj⟩ := List.getElem?_of_mem he
    exact (ends_get h hj).1
  | .alt m' c cs, m, es, l, h, e, he => by
    obtain ⟨h1, q, es', x, l', rfl, h2, h3, rfl⟩ := chkAlt_alt h
    rcases List.mem_cons.mp he with rfl | he
    · rfl
    · exact chkAlt_eps cs h3 e he
  | .toks _ _ _, m, es, l, h, e, he => (chkAlt_toks h).elim

theorem chkLa_eps {out start decisions rule lf Q} : ∀ (cs : Cases) {seen es l}, chkLa out start decisions rule lf Q seen cs es = some l →
    ∀ e ∈ es, e.1 = .eps ∧ rule e.2 = Q
  | .nil, m, es, l, h, e, he => by rw [chkLa_nil h] at he; cases he
  | .alt _ _ _, m, es, l, h, e, he => (chkLa_alt h).elim
  | .toks ks c cs, m, es, l, h, e, he => by
    obtain ⟨q, es', x, l', rfl, h1, h2, h3, h4, rfl⟩ := chkLa_toks h
    rcases List.mem_cons.mp he with rfl | he
    · exact ⟨rfl, h1⟩
    · exact chkLa_eps cs h4 e he

/-- An alternative is not one of those seen earlier. -/
theorem chkLa_seen {out start decisions rule lf Q} : ∀ (cs : Cases) {seen es l}, chkLa out start decisions rule lf Q seen cs es = some l →
    ∀ e ∈ es, ∀ k ∈ types, (lf e.2).testBit k = true → seen.any (fun x => laOf k == (typeOf x : Nat)) = false
  | .nil, m, es, l, h, e, he => by rw [chkLa_nil h] at he; cases he
  | .alt _ _ _, m, es, l, h, e, he => (chkLa_alt h).elim
  | .toks ks c cs, m, es, l, h, e, he => by
    obtain ⟨q, es', x, l', rfl, h1, h2, h3, h4, rfl⟩ := chkLa_toks h
    intro k hk hb
    rcases List.mem_cons.mp he with rfl | he
    · exact (h2 k hk hb).2
    · have := chkLa_seen cs h4 e he k hk hb
      rw [List.any_append, Bool.or_eq_false_iff] at this
      exact this.2

mutual
theorem run_sim (H : Here N L F σ Q C) (hrec : RecSim N F C recs) : ∀ (c : Code) {p q},
    chk N.out N.start N.decisions (ruleAt N) (lookFar (ruleAt N) L F) Q c p = some q → Sim N C σ Q (fun f => run T σ (recs f) f c) p q
  | .skip, p, q, h => by
    intro n s ts s' hp
    cases h
    exact ⟨[], s, ts, n, Nat.le_refl _, .of fun f => by rw [run], hp, rfl⟩
  | .seq a b, p, q, h => by
    obtain ⟨x, h1, h2⟩ := chk_seq h
    intro n s ts s' hp
    obtain ⟨ts1, s1, ts2, m1, hm1, h3, h4, rfl⟩ := run_sim H hrec a h1 n s ts s' hp
    obtain ⟨us1, s2, us2, m2, hm2, h5, h6, rfl⟩ := run_sim H hrec b h2 m1 s1 ts2 s' h4
    exact ⟨ts1 ++ us1, s2, us2, m2, by omega, (h3.andThen h5).congr fun f => by rw [run], h6, by rw [List.append_assoc]⟩
  | .tok st k, p, q, h => by
    obtain ⟨is, h1, h2⟩ := chk_tok h
    refine Sim.norm H ?_
    intro n s ts s' hp
    obtain ⟨m, ts1, s1, us, hm, ht, h3, rfl⟩ := goes_one H hp h1
    cases ht with
    | @set _ c k' _ h4 h5 =>
      have h6 : k' = typeOf k := by simpa [h2] using mem_spread.mpr h5
      subst h6
      exact ⟨_, _, _, m, hm, .of fun f => by rw [run, consume, if_pos (by simp [la1, h4])], h3, rfl⟩
  | .eof st, p, q, h => by
    have h1 := chk_eof h
    refine Sim.norm H ?_
    intro n s ts s' hp
    obtain ⟨m, ts1, s1, us, hm, ht, h3, rfl⟩ := goes_one H hp h1
    cases ht with
    | eof => exact ⟨_, _, _, m, hm, .of fun f => by rw [run], h3, rfl⟩
  | .set st t, p, q, h => by
    obtain ⟨is, h1, h0, h2⟩ := chk_set h
    refine Sim.norm H ?_
    intro n s ts s' hp
    obtain ⟨m, ts1, s1, us, hm, ht, h3, rfl⟩ := goes_one H hp h1
    cases ht with
    | @set _ c k' _ h4 h5 =>
      have hh : Head (c :: s1) k' := h4
      have h6 : t.eval (laOf k') = true := by
        rcases h2 k' hh.types with h6 | h6
        · have := (tokenType_pos h4).1; omega
        · rw [h6, h5]
      exact ⟨_, _, _, m, hm, .of fun f => by rw [run, consume, if_pos (by rw [hh.la, h6])], h3, rfl⟩
  | .call st R, p, q, h => by
    obtain ⟨h1, h2, i, h3, h4⟩ := chk_call h
    refine Sim.norm H ?_
    rw [h1]
    intro n s ts s' hp
    obtain ⟨m, ts1, s1, us, hm, ht, h5, rfl⟩ := goes_one H hp h3
    cases ht with
    | @call _ _ R' _ ts _ h6 h7 =>
      have e : R' = R := by rw [h4] at h6; exact (Option.some.inj h6).symm
      subst e
      have hK : CanN N (N.stop Q) (Rest N σ) q = Rest N (st :: σ) := by
        have hf : follow N st = q := by rw [follow, h3]
        funext s
        rw [Rest, h2, hf]
      rw [hK] at h7
      have hc : Chain N F (st :: σ) i := by
        obtain ⟨R0, hR0⟩ := H.rule
        exact ⟨⟨q, h3⟩, ⟨R0, by rw [h2]; exact hR0⟩, by rw [h2]; exact H.chain⟩
      obtain ⟨f0, h8⟩ := hrec i R' (st :: σ) s ts s1 h4 hc h7
      exact ⟨_, _, _, m, hm, ⟨f0, fun f hf => by dsimp only; rw [run.eq_def]; dsimp only; rw [show recs f R' (st :: σ) s = _ from h8 f hf]⟩, h5, rfl⟩
  | .switchAlt st d cs, p, q, h => by
    obtain ⟨h1, h2, h3, h4, l, h5, h6⟩ := chk_switchAlt h
    refine Sim.norm H ?_
    intro n s ts s' hp
    have hsy := goes_sync (T := T) H hp h2 h3
    by_cases hne : N.out (Gen.norm N.out fuel p) = []
    · exfalso
      rw [hne] at h5
      cases cs with
      | nil =>
        rw [chkAlt.eq_def] at h5
        cases h5
        have hl := h
        rw [chk.eq_def] at hl
        dsimp only at hl
        rw [if_pos ⟨h1, h2, h3, h4⟩, hne, chkAlt.eq_def] at hl
        cases hl
      | alt _ _ _ => obtain ⟨_, _, _, _, _, e, _⟩ := chkAlt_alt h5; cases e
      | toks _ _ _ => exact chkAlt_toks h5
    · obtain ⟨j, m, q', hj, hm, h7, h8⟩ := goes_alt (T := T) H hp hne h4 (chkAlt_eps cs h5)
      obtain ⟨x, h9, h10⟩ := runAlt_sim H hrec cs h5 j _ hj
      have : x = q := h6 x (List.mem_of_getElem? h9)
      subst this
      obtain ⟨ts1, s1, ts2, m', hm', h11, h12, rfl⟩ := h10 m s ts s' h7
      refine ⟨ts1, s1, ts2, m', by omega, h11.congr fun f => ?_, h12, rfl⟩
      rw [run, hsy, h8 d h1, Nat.add_comm j 1]
  | .ifLa st t c, p, q, h => by
    obtain ⟨h1, h2, b, e, x, h3, h4, h5, h6, h7, h8, h9⟩ := chk_ifLa h
    refine Sim.norm H ?_
    intro n s ts s' hp
    have hsy := goes_sync (T := T) H hp h1 h2
    rcases goes_test H hp h3 h4 h5 h6 with ⟨h10, m, hm, h11⟩ | ⟨h10, m, hm, h11⟩
    · obtain ⟨ts1, s1, ts2, m1, hm1, h12, h13, rfl⟩ := (run_sim H hrec c h7).normed H m s ts s' h11
      rw [h8] at h13
      exact ⟨ts1, s1, ts2, m1, by omega, h12.congr fun f => by rw [run.eq_def]; dsimp only; rw [hsy, if_pos h10], h13, rfl⟩
    · obtain ⟨m1, hm1, h12⟩ := goes_norm H h11
      rw [h9] at h12
      exact ⟨[], s, ts, m1, by omega, .of fun f => by rw [run.eq_def]; dsimp only; rw [hsy, if_neg (by simp [h10])], h12, rfl⟩
  | .switchLa st cs, p, q, h => by
    obtain ⟨h1, h2, l, h3, h4⟩ := chk_switchLa h
    refine Sim.norm H ?_
    intro n s ts s' hp
    have hsy := goes_sync (T := T) H hp h1 h2
    have hne : N.out (Gen.norm N.out fuel p) ≠ [] := by
      intro hne
      rw [hne] at h3
      cases cs with
      | nil =>
        have hl := h
        rw [chk.eq_def] at hl
        dsimp only at hl
        rw [if_pos ⟨h1, h2⟩, hne, chkLa.eq_def] at hl
        cases hl
      | alt _ _ _ => exact chkLa_alt h3
      | toks _ _ _ => obtain ⟨_, _, _, _, e, _⟩ := chkLa_toks h3; cases e
    obtain ⟨es1, l', q', es2, ts1, s1, us, m, h5, h6, h7, h8, rfl, rfl⟩ := goes_from H hp hne
    have h9 : l' = .eps := (chkLa_eps cs h3 (l', q') (by simp [h5])).1
    subst h9
    cases h7
    obtain ⟨x, h10, h11⟩ := runLa_sim H hrec cs h3 es1.length (.eps, q') (by simp [h5])
    have : x = q := h4 x (List.mem_of_getElem? h10)
    subst this
    obtain ⟨ts1, s1, ts2, m', hm', h12, h13, rfl⟩ := h11 m s us s' h8
    exact ⟨ts1, s1, ts2, m', by omega, h12.congr fun f => by rw [run.eq_def]; dsimp only; rw [hsy], h13, rfl⟩
  | .star st st' a c, p, q, h => by
    obtain ⟨h1, h2, h3, h4, h5, b, x, h6, h7, h8, h9, h10, h11⟩ := chk_star h
    refine Sim.norm H ?_
    intro n s ts s' hp
    have hb := (run_sim H hrec c h10).normed H
    rw [h11] at hb
    obtain ⟨ts1, s1, ts2, m, hm, ⟨f0, g0, h12⟩, h13, h14⟩ := star_sim (T := T) H h6 h5 h7 h8 h9 h4 (sync_of H h3 h4) hb n st s ts s' (sync_of H h1 h2) hp
    exact ⟨ts1, s1, ts2, m, hm, ⟨max f0 g0, fun f hf => by dsimp only; rw [run]; exact h12 f f (by omega) (by omega)⟩, h13, h14⟩
  | .plus st st' a c, p, q, h => by
    obtain ⟨h1, h2, x, h3, h4, h5, h6, b, h7, h8, h9, h10, h11⟩ := chk_plus h
    refine Sim.norm H ?_
    intro n s ts s' hp
    have hsy := goes_sync (T := T) H hp h1 h2
    have hb := (run_sim H hrec c h3).normed H
    obtain ⟨ts1, s1, ts2, m, hm, ⟨f0, g0, h12⟩, h13, h14⟩ := plus_sim (T := T) H h7 h6 h8 h9 h10 (sync_of H h4 h5) hb h11 n s ts s' hp
    exact ⟨ts1, s1, ts2, m, hm, ⟨max f0 g0, fun f hf => by dsimp only; rw [run, hsy]; exact h12 f f (by omega) (by omega)⟩, h13, h14⟩
theorem runAlt_sim (H : Here N L F σ Q C) (hrec : RecSim N F C recs) : ∀ (cs : Cases) {m es l},
    chkAlt N.out N.start N.decisions (ruleAt N) (lookFar (ruleAt N) L F) Q m cs es = some l → ∀ (j : Nat) (e : Label × Nat), es[j]? = some e →
    ∃ x, l[j]? = some x ∧ Sim N C σ Q (fun f => runAlt T σ (recs f) f (m + j) cs) e.2 x
  | .nil, m, es, l, h, j, e, hj => by
    rw [chkAlt.eq_def] at h
    obtain ⟨h1, h2⟩ := ends_get h hj
    refine ⟨_, h2, Sim.normed H ?_⟩
    intro n s ts s' hp
    exact ⟨[], s, ts, n, Nat.le_refl _, .of fun f => by rw [runAlt], hp, rfl⟩
  | .alt m' c cs, m, es, l, h, j, e, hj => by
    obtain ⟨h1, q, es', x, l', rfl, h2, h3, rfl⟩ := chkAlt_alt h
    subst h1
    cases j with
    | zero =>
      simp at hj
      subst hj
      refine ⟨_, rfl, Sim.normed H ?_⟩
      intro n s ts s' hp
      obtain ⟨ts1, s1, ts2, m1, hm1, h4, h5, rfl⟩ := run_sim H hrec c h2 n s ts s' hp
      exact ⟨ts1, s1, ts2, m1, hm1, h4.congr fun f => by rw [runAlt, if_pos (by omega)], h5, rfl⟩
    | succ j =>
      simp only [List.getElem?_cons_succ] at hj ⊢
      obtain ⟨y, h5, h6⟩ := runAlt_sim H hrec cs h3 j e hj
      refine ⟨y, h5, ?_⟩
      intro n s ts s' hp
      obtain ⟨ts1, s1, ts2, m1, hm1, h7, h8, rfl⟩ := h6 n s ts s' hp
      refine ⟨ts1, s1, ts2, m1, hm1, h7.congr fun f => ?_, h8, rfl⟩
      rw [runAlt, if_neg (by omega), show m' + (j + 1) = m' + 1 + j by omega]
  | .toks _ _ _, m, es, l, h, j, e, hj => (chkAlt_toks h).elim
theorem runLa_sim (H : Here N L F σ Q C) (hrec : RecSim N F C recs) : ∀ (cs : Cases) {seen es l},
    chkLa N.out N.start N.decisions (ruleAt N) (lookFar (ruleAt N) L F) Q seen cs es = some l → ∀ (j : Nat) (e : Label × Nat), es[j]? = some e →
    ∃ x, l[j]? = some x ∧ Sim N C σ Q (fun f => runLa T σ (recs f) f cs) e.2 x
  | .nil, seen, es, l, h, j, e, hj => by rw [chkLa_nil h] at hj; simp at hj
  | .alt _ _ _, seen, es, l, h, j, e, hj => (chkLa_alt h).elim
  | .toks ks c cs, seen, es, l, h, j, e, hj => by
    obtain ⟨q, es', x, l', rfl, h1, h2, h3, h4, rfl⟩ := chkLa_toks h
    cases j with
    | zero =>
      simp at hj
      subst hj
      refine ⟨_, rfl, Sim.normed H ?_⟩
      intro n s ts s' hp
      obtain ⟨ts1, s1, ts2, m1, hm1, h5, h6, rfl⟩ := run_sim H hrec c h3 n s ts s' hp
      refine ⟨ts1, s1, ts2, m1, hm1, h5.congr fun f => ?_, h6, rfl⟩
      obtain ⟨k, hk, hb⟩ := goes_look H hp h1
      rw [runLa, hk.la, (h2 k hk.types hb).1, if_pos rfl]
    | succ j =>
      simp only [List.getElem?_cons_succ] at hj ⊢
      obtain ⟨y, h5, h6⟩ := runLa_sim H hrec cs h4 j e hj
      refine ⟨y, h5, ?_⟩
      intro n s ts s' hp
      obtain ⟨ts1, s1, ts2, m1, hm1, h7, h8, rfl⟩ := h6 n s ts s' hp
      refine ⟨ts1, s1, ts2, m1, hm1, h7.congr fun f => ?_, h8, rfl⟩
      have hm := List.mem_of_getElem? hj
      obtain ⟨k, hk, hb⟩ := goes_look H hp (chkLa_eps cs h4 e hm).2
      have h9 := chkLa_seen cs h4 e hm k hk.types hb
      rw [List.any_append, Bool.or_eq_false_iff] at h9
      rw [runLa, hk.la, h9.1]
      rfl
end

/-- Functions build the tree of the preferred path. -/
theorem runRule_sim {code : Rule → Code} (hN : Checked N code L F) : ∀ d, RecSim N F (prefCalled ruleOf tokenType N d) (runRule code T)
  | 0 => by intro i R σ s ts s' hi hc h; exact h.elim
  | d + 1 => by
    intro i R σ s ts s' hi hc h
    obtain ⟨n, h⟩ := h
    obtain ⟨hr, _, q, hq, he⟩ := chkRule_true (hN.rule i R hi)
    have H : Here N L F σ i (prefCalled ruleOf tokenType N d) := ⟨hN.tables, ⟨R, hi⟩, hc, hr, prefCalled_runs d⟩
    obtain ⟨ts1, s1, ts2, m, hm, ⟨f0, h1⟩, h2, rfl⟩ := run_sim (T := T) H (runRule_sim hN d) (code R) hq n s ts s' h
    obtain ⟨m', _, h3⟩ := goes_norm H h2
    rw [he] at h3
    obtain ⟨rfl, rfl⟩ := pref_stop hr h3
    refine ⟨f0 + 1, fun f hf => ?_⟩
    match f, hf with
    | f + 1, hf =>
      rw [List.append_nil]
      exact h1 f (by omega)

end Rfc5322.Gen
