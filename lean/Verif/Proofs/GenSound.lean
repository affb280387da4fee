import Verif.Proofs.GenInv

/-!
# Runs of the generated functions without an error are paths of the network
-/

namespace Rfc5322.Gen

open Atn

variable {N : Net} {T : Runtime N} {σ : List Nat} {r : Nat} {lf : Nat → Nat} {Q : Nat} {rec : Rule → List Nat → List Char → Outcome} {n : Nat}

theorem andThen_ok {o : Outcome} {f : List Char → Outcome} {ts s} : o.andThen f = .ok ts s ↔
    ∃ ts1 s1 ts2, o = .ok ts1 s1 ∧ f s1 = .ok ts2 s ∧ ts = ts1 ++ ts2 := by
  cases o with
  | timeout => simp [Outcome.andThen]
  | error => simp [Outcome.andThen]
  | ok ts1 s1 =>
    simp only [Outcome.andThen]
    constructor
    · intro h
      split at h
      · cases h
      · cases h
      · rename_i us s' hf
        cases h
        exact ⟨ts1, s1, us, rfl, hf, rfl⟩
    · rintro ⟨ts1', s1', ts2, e, hf, rfl⟩
      cases e
      rw [hf]

theorem synced_ok {st s o ts s'} (h : synced T σ st s o = .ok ts s') : o = .ok ts s' := by
  rw [synced] at h
  split at h
  · exact h
  · cases h

/-- Paths from the state after a statement become paths from the state before it. -/
def Extends (N : Net) (r p q : Nat) (exec : List Char → Outcome) : Prop :=
  ∀ s ts s1, exec s = .ok ts s1 → ∀ n us s', Path ruleOf tokenType N (Runs ruleOf tokenType N) r n q s1 us s' →
    ∃ n', Path ruleOf tokenType N (Runs ruleOf tokenType N) r n' p s (ts ++ us) s'

def RecSound (N : Net) (rec : Rule → List Nat → List Char → Outcome) : Prop :=
  ∀ R σ s ts s' i, ruleOf i = some R → rec R σ s = .ok ts s' → Runs ruleOf tokenType N (N.start i) i s ts s'

theorem Extends.norm {p q exec} (h : Extends N r (norm N.out fuel p) q exec) : Extends N r p q exec := by
  intro s ts s1 he n us s' hp
  obtain ⟨n', h1⟩ := h _ _ _ he _ _ _ hp
  exact path_norm fuel h1

theorem path_same (hr : N.out r = []) {C : Calls} {x q n s ts s'} (he : Gen.norm N.out fuel x = Gen.norm N.out fuel q)
    (h : Path ruleOf tokenType N C r n q s ts s') : ∃ m, Path ruleOf tokenType N C r m x s ts s' := by
  obtain ⟨m, _, h1⟩ := norm_path hr fuel h
  rw [← he] at h1
  exact path_norm fuel h1

theorem Extends.same (hr : N.out r = []) {p x q exec} (h : Extends N r p x exec) (he : Gen.norm N.out fuel x = Gen.norm N.out fuel q) :
    Extends N r p q exec := by
  intro s ts s1 hx n us s' hp
  obtain ⟨m, h1⟩ := path_same hr he hp
  exact h _ _ _ hx _ _ _ h1

theorem Extends.normed {p x exec} (h : Extends N r p x exec) : Extends N r p (Gen.norm N.out fuel x) exec := by
  intro s ts s1 hx n us s' hp
  obtain ⟨m, h1⟩ := path_norm fuel hp
  exact h _ _ _ hx _ _ _ h1

theorem path_one {p l q s ts1 s1 us s' m} (ho : N.out p = [(l, q)]) (ht : Take ruleOf tokenType (Runs ruleOf tokenType N) l s ts1 s1)
    (h : Path ruleOf tokenType N (Runs ruleOf tokenType N) r m q s1 us s') :
    ∃ n, Path ruleOf tokenType N (Runs ruleOf tokenType N) r n p s (ts1 ++ us) s' :=
  ⟨m + 1, .step (by simp [ho]) ht h⟩

theorem path_eps {p q s us s' m} (ho : (Label.eps, q) ∈ N.out p)
    (h : Path ruleOf tokenType N (Runs ruleOf tokenType N) r m q s us s') :
    ∃ n, Path ruleOf tokenType N (Runs ruleOf tokenType N) r n p s us s' :=
  ⟨m + 1, .step (ts := []) ho .eps h⟩

theorem consume_ok {test : Int → Bool} {s ts s'} (h : consume test s = .ok ts s') : ∃ c, s = c :: s' ∧ ts = [.tok c] ∧ test (la1 s) = true := by
  cases s with
  | nil => cases h
  | cons c s =>
    rw [consume] at h
    split at h
    · cases h; exact ⟨c, rfl, rfl, by assumption⟩
    · cases h

/-- Every character has a token type (as is the case in `tokens`). -/
def Typed (s : List Char) : Prop := ∀ c ∈ s, (tokenType c).isSome = true

theorem star_extends {b e p a body} (ho : N.out p = [(.eps, b), (.eps, e)]) (hb : Extends N r b p body) :
    ∀ (n : Nat) (st st' : Nat), Extends N r p e (star T σ st st' a body n)
  | 0, st, st' => by intro s ts s1 h; cases h
  | n + 1, st, st' => by
    intro s ts s1 h m us s' hp
    rw [star] at h
    have h := synced_ok h
    split at h
    · cases h
    · cases h
      exact path_eps (by simp [ho]) hp
    · obtain ⟨ts1, s2, ts2, h1, h2, rfl⟩ := andThen_ok.mp h
      obtain ⟨m1, h3⟩ := star_extends ho hb n st' st' _ _ _ h2 _ _ _ hp
      obtain ⟨m2, h4⟩ := hb _ _ _ h1 _ _ _ h3
      rw [List.append_assoc]
      exact path_eps (by simp [ho]) h4
    · exact star_extends ho hb n st' st' _ _ _ h _ _ _ hp

theorem plus_extends {b e x p a body} (ho : N.out x = [(.eps, b), (.eps, e)]) (hb : Extends N r p x body)
    (hp : Gen.norm N.out fuel b = p) :
    ∀ (n : Nat) (st' : Nat), Extends N r p e (plus T σ st' a body n)
  | 0, st' => by intro s ts s1 h; cases h
  | n + 1, st' => by
    intro s ts s1 h m us s' hq
    rw [plus] at h
    obtain ⟨ts1, s2, ts2, h1, h2, rfl⟩ := andThen_ok.mp h
    have h2 := synced_ok h2
    split at h2
    · cases h2
    · cases h2
      obtain ⟨m1, h3⟩ := path_eps (p := x) (by simp [ho]) hq
      rw [List.append_nil]
      exact hb _ _ _ h1 _ _ _ h3
    · obtain ⟨m1, h3⟩ := plus_extends ho hb hp n st' _ _ _ h2 _ _ _ hq
      rw [← hp] at h3
      obtain ⟨m2, h4⟩ := path_norm fuel h3
      obtain ⟨m3, h5⟩ := path_eps (p := x) (by simp [ho]) h4
      rw [List.append_assoc]
      exact hb _ _ _ h1 _ _ _ h5
    · cases h2

mutual
theorem run_extends (hr : N.out r = []) (hrec : RecSound N rec) : ∀ (c : Code) {p q},
    chk N.out N.start N.decisions (ruleAt N) lf Q c p = some q → Extends N r p q (run T σ rec n c)
  | .skip, p, q, h => by
    intro s ts s1 he m us s' hp
    cases h
    rw [run] at he
    cases he
    exact ⟨m, hp⟩
  | .seq a b, p, q, h => by
    obtain ⟨x, h1, h2⟩ := chk_seq h
    intro s ts s1 he m us s' hp
    rw [run] at he
    obtain ⟨ts1, s2, ts2, h3, h4, rfl⟩ := andThen_ok.mp he
    obtain ⟨m1, h5⟩ := run_extends hr hrec b h2 _ _ _ h4 _ _ _ hp
    obtain ⟨m2, h6⟩ := run_extends hr hrec a h1 _ _ _ h3 _ _ _ h5
    rw [List.append_assoc]
    exact ⟨m2, h6⟩
  | .tok st k, p, q, h => by
    obtain ⟨is, h1, h2⟩ := chk_tok h
    refine Extends.norm ?_
    intro s ts s1 he m us s' hp
    rw [run] at he
    obtain ⟨c, rfl, rfl, h3⟩ := consume_ok he
    refine path_one h1 ?_ hp
    have h3 : ((tokenType c).getD 0 : Int) = (typeOf k : Nat) := by simpa [la1] using h3
    have h4 : tokenType c = some (typeOf k) := by
      cases hc : tokenType c with
      | none => rw [hc] at h3; have := typeOf_pos k; simp at h3; omega
      | some x => rw [hc] at h3; simp at h3; rw [Int.ofNat_inj.mp h3]
    exact .set h4 (mem_spread.mp (by simp [h2]))
  | .eof st, p, q, h => by
    have h1 := chk_eof h
    refine Extends.norm ?_
    intro s ts s1 he m us s' hp
    rw [run.eq_def] at he
    dsimp only at he
    split at he
    · cases he
      exact path_one h1 .eof hp
    · cases he
  | .set st t, p, q, h => by
    obtain ⟨is, h1, h0, h2⟩ := chk_set h
    refine Extends.norm ?_
    intro s ts s1 he m us s' hp
    rw [run] at he
    obtain ⟨c, rfl, rfl, h3⟩ := consume_ok he
    refine path_one h1 ?_ hp
    cases hc : tokenType c with
    | none => simp only [la1, hc, Option.getD_none, Int.natCast_zero] at h3; rw [h0] at h3; cases h3
    | some k =>
      have hh : Head (c :: s1) k := hc
      rw [hh.la] at h3
      rcases h2 k hh.types with h4 | h4
      · have := (tokenType_pos hc).1; omega
      · exact .set hc (by rw [← h4, h3])
  | .call st R, p, q, h => by
    obtain ⟨h1, h2, i, h3, h4⟩ := chk_call h
    refine Extends.norm ?_
    rw [h1]
    intro s ts s1 he m us s' hp
    rw [run.eq_def] at he
    dsimp only at he
    split at he
    · cases he
    · cases he
    · rename_i ts' s2 hx
      cases he
      exact path_one h3 (.call h4 (hrec _ _ _ _ _ _ h4 hx)) hp
  | .switchAlt st d cs, p, q, h => by
    obtain ⟨h1, h2, h3, h4, l, h5, h6⟩ := chk_switchAlt h
    refine Extends.norm ?_
    intro s ts s1 he m us s' hp
    rw [run.eq_def] at he
    dsimp only at he
    have he := synced_ok he
    split at he
    · cases he
    · rename_i a ha
      have hra := T.range d _ σ s a h1 ha
      obtain ⟨e, hj⟩ : ∃ e, (N.out (Gen.norm N.out fuel p))[a - 1]? = some e := ⟨_, List.getElem?_eq_getElem (by omega)⟩
      have e1 : a = 1 + (a - 1) := by omega
      rw [e1] at he
      obtain ⟨h7, x, h8, h9⟩ := runAlt_extends hr hrec cs h5 (a - 1) e hj
      have : x = q := h6 x (List.mem_of_getElem? h8)
      subst this
      obtain ⟨m1, h10⟩ := h9 _ _ _ he _ _ _ hp
      have hm := List.mem_of_getElem? hj
      obtain ⟨l', q'⟩ := e
      cases h7
      exact path_eps hm h10
  | .ifLa st t c, p, q, h => by
    obtain ⟨h1, h2, b, e, x, h3, h4, h5, h6, h7, h8, h9⟩ := chk_ifLa h
    refine Extends.norm ?_
    intro s ts s1 he m us s' hp
    rw [run.eq_def] at he
    dsimp only at he
    have he := synced_ok he
    split at he
    · rw [← h8] at hp
      obtain ⟨m1, h10⟩ := (run_extends hr hrec c h7).normed _ _ _ he _ _ _ hp
      exact path_eps (by simp [h3]) h10
    · cases he
      rw [← h9] at hp
      obtain ⟨m1, h10⟩ := path_norm fuel hp
      exact path_eps (by simp [h3]) h10
  | .switchLa st cs, p, q, h => by
    obtain ⟨h1, h2, l, h3, h4⟩ := chk_switchLa h
    refine Extends.norm ?_
    intro s ts s1 he m us s' hp
    rw [run.eq_def] at he
    dsimp only at he
    have he := synced_ok he
    obtain ⟨e, h5, h6, x, h7, h8⟩ := runLa_extends hr hrec cs h3 he
    have : x = q := h4 x h7
    subst this
    obtain ⟨m1, h9⟩ := h8 hp
    obtain ⟨l', q'⟩ := e
    cases h6
    exact path_eps h5 h9
  | .star st st' a c, p, q, h => by
    obtain ⟨h1, h2, h3, h4, h5, b, x, h6, h7, h8, h9, h10, h11⟩ := chk_star h
    refine Extends.norm ?_
    intro s ts s1 he m us s' hp
    rw [run.eq_def] at he
    dsimp only at he
    refine star_extends h6 ?_ _ _ _ _ _ _ he _ _ _ hp
    rw [← h11]
    exact (run_extends hr hrec c h10).normed
  | .plus st st' a c, p, q, h => by
    obtain ⟨h1, h2, x, h3, h4, h5, h6, b, h7, h8, h9, h10, h11⟩ := chk_plus h
    refine Extends.norm ?_
    intro s ts s1 he m us s' hp
    rw [run.eq_def] at he
    dsimp only at he
    have he := synced_ok he
    exact plus_extends h7 (run_extends hr hrec c h3).normed h11 _ _ _ _ _ he _ _ _ hp
theorem runAlt_extends (hr : N.out r = []) (hrec : RecSound N rec) : ∀ (cs : Cases) {m es l},
    chkAlt N.out N.start N.decisions (ruleAt N) lf Q m cs es = some l → ∀ (j : Nat) (e : Label × Nat), es[j]? = some e →
    e.1 = .eps ∧ ∃ x, l[j]? = some x ∧ Extends N r e.2 x (runAlt T σ rec n (m + j) cs)
  | .nil, m, es, l, h, j, e, hj => by
    rw [chkAlt.eq_def] at h
    obtain ⟨h1, h2⟩ := ends_get h hj
    refine ⟨h1, _, h2, ?_⟩
    intro s ts s1 he k us s' hp
    rw [runAlt] at he
    cases he
    exact path_norm fuel hp
  | .alt m' c cs, m, es, l, h, j, e, hj => by
    obtain ⟨h1, q, es', x, l', rfl, h2, h3, rfl⟩ := chkAlt_alt h
    subst h1
    cases j with
    | zero =>
      simp at hj
      subst hj
      refine ⟨rfl, _, rfl, ?_⟩
      intro s ts s1 he k us s' hp
      rw [runAlt, if_pos (by omega)] at he
      obtain ⟨k', h4⟩ := path_norm fuel hp
      exact run_extends hr hrec c h2 _ _ _ he _ _ _ h4
    | succ j =>
      simp only [List.getElem?_cons_succ] at hj ⊢
      obtain ⟨h4, y, h5, h6⟩ := runAlt_extends hr hrec cs h3 j e hj
      refine ⟨h4, y, h5, ?_⟩
      intro s ts s1 he k us s' hp
      rw [runAlt, if_neg (by omega)] at he
      rw [show m' + (j + 1) = m' + 1 + j by omega] at he
      exact h6 _ _ _ he _ _ _ hp
  | .toks _ _ _, m, es, l, h, j, e, hj => (chkAlt_toks h).elim
theorem runLa_extends (hr : N.out r = []) (hrec : RecSound N rec) : ∀ (cs : Cases) {seen es l},
    chkLa N.out N.start N.decisions (ruleAt N) lf Q seen cs es = some l → ∀ {s ts s1}, runLa T σ rec n cs s = .ok ts s1 →
    ∃ e ∈ es, e.1 = .eps ∧ ∃ x ∈ l, ∀ {k us s'}, Path ruleOf tokenType N (Runs ruleOf tokenType N) r k x s1 us s' →
    ∃ n', Path ruleOf tokenType N (Runs ruleOf tokenType N) r n' e.2 s (ts ++ us) s'
  | .nil, seen, es, l, h, s, ts, s1, he => by rw [runLa] at he; cases he
  | .alt _ _ _, seen, es, l, h, s, ts, s1, he => (chkLa_alt h).elim
  | .toks ks c cs, seen, es, l, h, s, ts, s1, he => by
    obtain ⟨q, es', x, l', rfl, h1, h2, h3, h4, rfl⟩ := chkLa_toks h
    rw [runLa] at he
    split at he
    · refine ⟨(.eps, q), by simp, rfl, _, List.mem_cons_self, ?_⟩
      intro k us s' hp
      obtain ⟨k', h5⟩ := path_norm fuel hp
      exact run_extends hr hrec c h3 _ _ _ he _ _ _ h5
    · obtain ⟨e, h5, h6, x', h7, h8⟩ := runLa_extends hr hrec cs h4 he
      exact ⟨e, List.mem_cons_of_mem _ h5, h6, x', List.mem_cons_of_mem _ h7, h8⟩
end

/-- The functions have been compared with the network. -/
structure Checked (N : Net) (code : Rule → Code) (L F : Nat → Nat) : Prop where
  tables : Tables N L F
  rule : ∀ i R, ruleOf i = some R → chkRule N.out N.start N.decisions (ruleAt N) (lookFar (ruleAt N) L F) i (N.stop i) (code R) = true

theorem chkRule_true {out start decisions rule lf Q stop c} (h : chkRule out start decisions rule lf Q stop c = true) : out stop = [] ∧ rule stop = Q ∧
    ∃ q, chk out start decisions rule lf Q c (start Q) = some q ∧ Gen.norm out fuel q = stop := by
  rw [chkRule] at h
  simp only [Bool.and_eq_true, beq_iff_eq] at h
  obtain ⟨⟨h1, h2⟩, h3⟩ := h
  split at h3
  · exact ⟨h1, h2, _, by assumption, by simpa using h3⟩
  · cases h3

/-- A run without an error is a path. -/
theorem runRule_sound {code : Rule → Code} {L F : Nat → Nat} (hN : Checked N code L F) : ∀ n, RecSound N (runRule code T n)
  | 0 => by intro R σ s ts s' i hi h; cases h
  | n + 1 => by
    intro R σ s ts s' i hi h
    obtain ⟨hr, _, q, hq, he⟩ := chkRule_true (hN.rule i R hi)
    rw [runRule] at h
    obtain ⟨m, h1⟩ := path_norm (C := Runs ruleOf tokenType N) (r := N.stop i) (p := q) (s := s') fuel (by rw [he]; exact .done)
    obtain ⟨m', h2⟩ := run_extends hr (runRule_sound hN n) (code R) hq _ _ _ h _ _ _ h1
    rw [List.append_nil] at h2
    exact runs_iff.mpr ⟨m', h2⟩

end Rfc5322.Gen
