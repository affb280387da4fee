import Verif.Proofs.GenSound

/-!
# The generated functions terminate
-/

namespace Rfc5322.Gen

open Atn

/-! ## More steps do not change anything -/

/-- The same outcome, unless the first one is for lack of steps. -/
def Outcome.Le (o o' : Outcome) : Prop := o = .timeout ∨ o = o'

theorem Outcome.Le.refl (o : Outcome) : o.Le o := .inr rfl

theorem Outcome.Le.andThen {o o' : Outcome} {f f' : List Char → Outcome} (h : o.Le o') (hf : ∀ s, (f s).Le (f' s)) : (o.andThen f).Le (o'.andThen f') := by
  rcases h with rfl | rfl
  · exact .inl rfl
  · cases o with
    | timeout => exact .inl rfl
    | error => exact .inr rfl
    | ok ts s =>
      rcases hf s with h | h
      · left; simp only [Outcome.andThen, h]
      · right; simp only [Outcome.andThen, h]

section
variable {N : Net} {T : Runtime N} {σ : List Nat}

theorem synced_le {st s} {o o' : Outcome} (h : o.Le o') : (synced T σ st s o).Le (synced T σ st s o') := by
  rw [synced, synced]
  split
  · exact h
  · exact .refl _

theorem star_le {a : Ask} {body body' : List Char → Outcome} (hb : ∀ s, (body s).Le (body' s)) : ∀ {n n' : Nat} (st st' : Nat) (s : List Char), n ≤ n' →
    (star T σ st st' a body n s).Le (star T σ st st' a body' n' s)
  | 0, _, _, _, _, _ => .inl rfl
  | n + 1, 0, _, _, _, h => by omega
  | n + 1, n' + 1, st, st', s, h => by
    rw [star, star]
    refine synced_le ?_
    cases a.choose T σ s with
    | panic => exact .refl _
    | leave => exact .refl _
    | enter => exact (hb s).andThen fun s => star_le hb st' st' s (by omega)
    | other => exact star_le hb st' st' s (by omega)

theorem plus_le {a : Ask} {body body' : List Char → Outcome} (hb : ∀ s, (body s).Le (body' s)) : ∀ {n n' : Nat} (st' : Nat) (s : List Char), n ≤ n' →
    (plus T σ st' a body n s).Le (plus T σ st' a body' n' s)
  | 0, _, _, _, _ => .inl rfl
  | n + 1, 0, _, _, h => by omega
  | n + 1, n' + 1, st', s, h => by
    rw [plus, plus]
    refine (hb s).andThen fun s => ?_
    refine synced_le ?_
    cases a.choose T σ s with
    | panic => exact .refl _
    | leave => exact .refl _
    | enter => exact plus_le hb st' s (by omega)
    | other => exact .refl _

variable {rec rec' : Rule → List Nat → List Char → Outcome} {n n' : Nat}

mutual
theorem run_le (hrec : ∀ R σ s, (rec R σ s).Le (rec' R σ s)) (hn : n ≤ n') : ∀ (c : Code) (s : List Char), (run T σ rec n c s).Le (run T σ rec' n' c s)
  | .skip, s => by rw [run, run]; exact .refl _
  | .seq a b, s => by
    rw [run, run]
    exact (run_le hrec hn a s).andThen fun s => run_le hrec hn b s
  | .tok _ _, s => by rw [run, run]; exact .refl _
  | .eof _, s => by rw [run.eq_def, run.eq_def]; exact .refl _
  | .set _ _, s => by rw [run, run]; exact .refl _
  | .call st r, s => by
    rw [run.eq_def, run.eq_def]
    dsimp only
    rcases hrec r (st :: σ) s with h | h
    · rw [h]; exact .inl rfl
    · rw [h]; exact .refl _
  | .switchAlt st d cs, s => by
    rw [run.eq_def, run.eq_def]
    dsimp only
    refine synced_le ?_
    cases T.predict d σ s with
    | none => exact .refl _
    | some a => exact runAlt_le hrec hn a cs s
  | .ifLa st t c, s => by
    rw [run.eq_def, run.eq_def]
    dsimp only
    refine synced_le ?_
    split
    · exact run_le hrec hn c s
    · exact .refl _
  | .switchLa st cs, s => by
    rw [run, run]
    exact synced_le (runLa_le hrec hn cs s)
  | .star st st' a c, s => by
    rw [run, run]
    exact star_le (fun s => run_le hrec hn c s) st st' s hn
  | .plus st st' a c, s => by
    rw [run, run]
    exact synced_le (plus_le (fun s => run_le hrec hn c s) st' s hn)
theorem runAlt_le (hrec : ∀ R σ s, (rec R σ s).Le (rec' R σ s)) (hn : n ≤ n') (a : Nat) : ∀ (cs : Cases) (s : List Char),
    (runAlt T σ rec n a cs s).Le (runAlt T σ rec' n' a cs s)
  | .nil, s => by rw [runAlt, runAlt]; exact .refl _
  | .alt m c cs, s => by
    rw [runAlt, runAlt]
    split
    · exact run_le hrec hn c s
    · exact runAlt_le hrec hn a cs s
  | .toks _ _ cs, s => by
    rw [runAlt, runAlt]
    exact runAlt_le hrec hn a cs s
theorem runLa_le (hrec : ∀ R σ s, (rec R σ s).Le (rec' R σ s)) (hn : n ≤ n') : ∀ (cs : Cases) (s : List Char),
    (runLa T σ rec n cs s).Le (runLa T σ rec' n' cs s)
  | .nil, s => by rw [runLa, runLa]; exact .refl _
  | .alt m c cs, s => by
    rw [runLa, runLa]
    exact runLa_le hrec hn cs s
  | .toks _ c cs, s => by
    rw [runLa, runLa]
    split
    · exact run_le hrec hn c s
    · exact runLa_le hrec hn cs s
end

theorem runRule_le {code : Rule → Code} : ∀ {n n' : Nat} (R : Rule) (σ : List Nat) (s : List Char), n ≤ n' → (runRule code T n R σ s).Le (runRule code T n' R σ s)
  | 0, _, _, _, _, _ => .inl rfl
  | n + 1, 0, _, _, _, h => by omega
  | n + 1, n' + 1, R, σ, s, h => by
    rw [runRule, runRule]
    exact run_le (fun R σ s => runRule_le R σ s (by omega)) (by omega) (code R) s

end

/-! ## What eats tokens -/

section
variable (out : Nat → List (Label × Nat)) (decisions : List Nat) (eR : Rule → Bool)

/-- Number of alternatives of a decision. -/
def alternatives (d : Nat) : Option Nat := (decisions[d]?).map fun p => (out p).length

mutual
/-- Every execution without an error consumes a token. -/
def eats : Code → Bool
  | .skip => false
  | .seq a b => eats a || eats b
  | .tok _ _ => true
  | .eof _ => false
  | .set _ _ => true
  | .call _ r => eR r
  | .switchAlt _ d cs =>
    match alternatives out decisions d with
    | some n => (List.range n).all fun j => eatsAlt (j + 1) cs
    | none => false
  | .ifLa _ _ _ => false
  | .switchLa _ cs => eatsLa cs
  | .star _ _ _ _ => false
  | .plus _ _ _ c => eats c
def eatsAlt (a : Nat) : Cases → Bool
  | .nil => false
  | .alt m c cs => if a = m then eats c else eatsAlt a cs
  | .toks _ _ cs => eatsAlt a cs
def eatsLa : Cases → Bool
  | .nil => true
  | .alt _ _ cs => eatsLa cs
  | .toks _ c cs => eats c && eatsLa cs
end

/-- No decision with more than two alternatives. -/
def askTwo : Ask → Bool
  | .alt d => match alternatives out decisions d with
    | some n => n ≤ 2
    | none => false
  | .la _ => true

variable (rk : Rule → Nat)

mutual
/-- Before the first token is consumed only functions with a rank less than `k` are called, and bodies of loops consume tokens. -/
def tame : Nat → Code → Bool
  | _, .skip => true
  | k, .seq a b => tame k a && tame (if eats out decisions eR a then 100 else k) b
  | _, .tok _ _ => true
  | _, .eof _ => true
  | _, .set _ _ => true
  | k, .call _ r => rk r < k
  | k, .switchAlt _ _ cs => tameCases k cs
  | k, .ifLa _ _ c => tame k c
  | k, .switchLa _ cs => tameCases k cs
  | k, .star _ _ a c => eats out decisions eR c && askTwo out decisions a && tame k c
  | k, .plus _ _ _ c => eats out decisions eR c && tame k c
def tameCases : Nat → Cases → Bool
  | _, .nil => true
  | k, .alt _ c cs => tame k c && tameCases k cs
  | k, .toks _ c cs => tame k c && tameCases k cs
end

end

section
variable {N : Net} {T : Runtime N} {eR : Rule → Bool} {rec : Rule → List Nat → List Char → Outcome} {n : Nat} {σ : List Nat}

/-- At least so many tokens are consumed, if there is no error. -/
def Eats (b : Bool) (exec : List Char → Outcome) : Prop := ∀ s ts s', exec s = .ok ts s' → s'.length + b.toNat ≤ s.length

theorem Eats.mono {b : Bool} {exec} (h : Eats b exec) : Eats false exec := fun s ts s' he => by have := h s ts s' he; simp; omega

theorem star_eats {b : Bool} {a : Ask} {body} (hb : Eats b body) : ∀ (n st st' : Nat), Eats false (star T σ st st' a body n)
  | 0, _, _, _, _, _, h => by cases h
  | n + 1, st, st', s, ts, s', h => by
    rw [star] at h
    have h := synced_ok h
    split at h
    · cases h
    · cases h; simp
    · obtain ⟨ts1, s2, ts2, h1, h2, _⟩ := andThen_ok.mp h
      have := hb.mono _ _ _ h1
      have := star_eats hb n st' st' _ _ _ h2
      simp at *; omega
    · exact star_eats hb n st' st' _ _ _ h

theorem plus_eats {b : Bool} {a : Ask} {body} (hb : Eats b body) : ∀ (n st' : Nat), Eats b (plus T σ st' a body n)
  | 0, _, _, _, _, h => by cases h
  | n + 1, st', s, ts, s', h => by
    rw [plus] at h
    obtain ⟨ts1, s2, ts2, h1, h2, _⟩ := andThen_ok.mp h
    have h3 := hb _ _ _ h1
    have h2 := synced_ok h2
    split at h2
    · cases h2
    · cases h2; exact h3
    · have := (plus_eats hb n st').mono _ _ _ h2
      simp at this; omega
    · cases h2

/-- The decisions of the network have as many alternatives as the runtime believes. -/
theorem predict_range {d a k s} (h : T.predict d σ s = some a) (hd : alternatives N.out N.decisions d = some k) : 1 ≤ a ∧ a ≤ k := by
  rw [alternatives] at hd
  obtain ⟨p, h1, rfl⟩ := Option.map_eq_some_iff.mp hd
  exact T.range d p σ s a h1 h

mutual
theorem run_eats (hrec : ∀ R σ, Eats (eR R) (rec R σ)) : ∀ (c : Code), Eats (eats N.out N.decisions eR c) (run T σ rec n c)
  | .skip, s, ts, s', h => by rw [run] at h; cases h; simp [eats]
  | .seq a b, s, ts, s', h => by
    rw [run] at h
    obtain ⟨ts1, s2, ts2, h1, h2, _⟩ := andThen_ok.mp h
    have h3 := run_eats hrec a _ _ _ h1
    have h4 := run_eats hrec b _ _ _ h2
    rw [eats]
    cases h5 : eats N.out N.decisions eR a <;> cases h6 : eats N.out N.decisions eR b <;> simp [h5, h6] at * <;> omega
  | .tok _ _, s, ts, s', h => by
    rw [run] at h
    obtain ⟨c, rfl, _, _⟩ := consume_ok h
    simp [eats]
  | .eof _, s, ts, s', h => by
    rw [run.eq_def] at h
    dsimp only at h
    split at h
    · cases h; simp [eats]
    · cases h
  | .set _ _, s, ts, s', h => by
    rw [run] at h
    obtain ⟨c, rfl, _, _⟩ := consume_ok h
    simp [eats]
  | .call st R, s, ts, s', h => by
    rw [run.eq_def] at h
    dsimp only at h
    split at h
    · cases h
    · cases h
    · rename_i ts' s2 hx
      cases h
      rw [eats]
      exact hrec R _ _ _ _ hx
  | .switchAlt st d cs, s, ts, s', h => by
    rw [run.eq_def] at h
    dsimp only at h
    have h := synced_ok h
    split at h
    · cases h
    · rename_i a ha
      have h1 := runAlt_eats hrec a cs _ _ _ h
      rw [eats]
      split
      · rename_i k hk
        have hr := predict_range ha hk
        cases hall : (List.range k).all fun j => eatsAlt N.out N.decisions eR (j + 1) cs with
        | false =>
          have : s'.length ≤ s.length := by omega
          simpa using this
        | true =>
          have := List.all_eq_true.mp hall (a - 1) (List.mem_range.mpr (by omega))
          rw [show a - 1 + 1 = a by omega] at this
          rw [this] at h1
          exact h1
      · simp only [Bool.toNat_false]; omega
  | .ifLa st t c, s, ts, s', h => by
    rw [run.eq_def] at h
    dsimp only at h
    have h := synced_ok h
    rw [eats]
    split at h
    · exact (run_eats hrec c).mono _ _ _ h
    · cases h; simp
  | .switchLa st cs, s, ts, s', h => by
    rw [run.eq_def] at h
    dsimp only at h
    have h := synced_ok h
    rw [eats]
    exact runLa_eats hrec cs _ _ _ h
  | .star st st' a c, s, ts, s', h => by
    rw [run] at h
    rw [eats]
    exact star_eats (run_eats hrec c) _ _ _ _ _ _ h
  | .plus st st' a c, s, ts, s', h => by
    rw [run] at h
    have h := synced_ok h
    rw [eats]
    exact plus_eats (run_eats hrec c) _ _ _ _ _ h
theorem runAlt_eats (hrec : ∀ R σ, Eats (eR R) (rec R σ)) (a : Nat) : ∀ (cs : Cases), Eats (eatsAlt N.out N.decisions eR a cs) (runAlt T σ rec n a cs)
  | .nil, s, ts, s', h => by rw [runAlt] at h; cases h; simp [eatsAlt]
  | .alt m c cs, s, ts, s', h => by
    rw [runAlt] at h
    rw [eatsAlt]
    split at h
    · rw [if_pos (by assumption)]; exact run_eats hrec c _ _ _ h
    · rw [if_neg (by assumption)]; exact runAlt_eats hrec a cs _ _ _ h
  | .toks _ _ cs, s, ts, s', h => by
    rw [runAlt] at h
    rw [eatsAlt]
    exact runAlt_eats hrec a cs _ _ _ h
theorem runLa_eats (hrec : ∀ R σ, Eats (eR R) (rec R σ)) : ∀ (cs : Cases), Eats (eatsLa N.out N.decisions eR cs) (runLa T σ rec n cs)
  | .nil, s, ts, s', h => by rw [runLa] at h; cases h
  | .alt m c cs, s, ts, s', h => by
    rw [runLa] at h
    rw [eatsLa]
    exact runLa_eats hrec cs _ _ _ h
  | .toks _ c cs, s, ts, s', h => by
    rw [runLa] at h
    rw [eatsLa]
    split at h
    · have h1 := run_eats hrec c _ _ _ h
      cases h5 : eats N.out N.decisions eR c <;> cases h6 : eatsLa N.out N.decisions eR cs <;> simp [h5, h6] at * <;> omega
    · have h1 := runLa_eats hrec cs _ _ _ h
      cases h5 : eats N.out N.decisions eR c <;> cases h6 : eatsLa N.out N.decisions eR cs <;> simp [h5, h6] at * <;> omega
end

theorem runRule_eats {code : Rule → Code} (hc : ∀ R, eR R = true → eats N.out N.decisions eR (code R) = true) : ∀ n R σ, Eats (eR R) (runRule code T n R σ)
  | 0, _, _, _, _, _, h => by cases h
  | n + 1, R, σ, s, ts, s', h => by
    rw [runRule] at h
    have h1 := run_eats (runRule_eats hc n) (code R) _ _ _ h
    cases hR : eR R with
    | false => simp only [Bool.toNat_false]; omega
    | true => rw [hc R hR] at h1; exact h1

/-! ## Termination -/

variable {rk : Rule → Nat}

/-- Calls end if there are fewer tokens, or as many and the rank is less than `k`. -/
def Ready (rk : Rule → Nat) (rec : Rule → List Nat → List Char → Outcome) (k len : Nat) : Prop :=
  ∀ R σ (s : List Char), s.length < len ∨ (s.length = len ∧ rk R < k) → rec R σ s ≠ .timeout

theorem Ready.less {k len len' k' : Nat} (h : Ready rk rec k len) (hl : len' < len) : Ready rk rec k' len' :=
  fun R σ s hs => h R σ s (.inl (by omega))

theorem Ready.le {k len len' : Nat} (h : Ready rk rec k len) (hl : len' ≤ len) : Ready rk rec k len' :=
  fun R σ s hs => h R σ s (by omega)

theorem andThen_ends {o : Outcome} {f : List Char → Outcome} (h : o ≠ .timeout) (hf : ∀ ts s, o = .ok ts s → f s ≠ .timeout) : o.andThen f ≠ .timeout := by
  cases o with
  | timeout => exact absurd rfl h
  | error => simp [Outcome.andThen]
  | ok ts s =>
    have := hf ts s rfl
    simp only [Outcome.andThen]
    split <;> simp_all

theorem synced_ends {st s} {o : Outcome} (h : o ≠ .timeout) : synced T σ st s o ≠ .timeout := by
  rw [synced]
  split
  · exact h
  · simp

theorem star_ends {a : Ask} {body} (ha : askTwo N.out N.decisions a = true) (hb : Eats true body) : ∀ (n st st' : Nat) (s : List Char), s.length < n →
    (∀ s' : List Char, s'.length ≤ s.length → body s' ≠ .timeout) → star T σ st st' a body n s ≠ .timeout
  | 0, _, _, _, h, _ => by omega
  | n + 1, st, st', s, h, hbody => by
    rw [star]
    refine synced_ends ?_
    have hno : a.choose T σ s ≠ .other := by
      cases a with
      | la t => simp only [Ask.choose]; split <;> simp
      | alt d =>
        rw [askTwo] at ha
        split at ha
        · rename_i k hk
          simp only [Ask.choose]
          split
          · simp
          · rename_i x hx
            have hr := predict_range hx hk
            have hk2 : k ≤ 2 := by simpa using ha
            split
            · simp
            · split
              · simp
              · omega
        · cases ha
    split
    · simp
    · simp
    · refine andThen_ends (hbody s (Nat.le_refl _)) fun ts s1 h1 => ?_
      have := hb _ _ _ h1
      simp only [Bool.toNat_true] at this
      exact star_ends ha hb n st' st' s1 (by omega) fun s' hs' => hbody s' (by omega)
    · exact absurd (by assumption) hno

theorem plus_ends {a : Ask} {body} (hb : Eats true body) : ∀ (n st' : Nat) (s : List Char), s.length < n →
    (∀ s' : List Char, s'.length ≤ s.length → body s' ≠ .timeout) → plus T σ st' a body n s ≠ .timeout
  | 0, _, _, h, _ => by omega
  | n + 1, st', s, h, hbody => by
    rw [plus]
    refine andThen_ends (hbody s (Nat.le_refl _)) fun ts s1 h1 => ?_
    have := hb _ _ _ h1
    simp only [Bool.toNat_true] at this
    refine synced_ends ?_
    split
    · simp
    · simp
    · exact plus_ends hb n st' s1 (by omega) fun s' hs' => hbody s' (by omega)
    · simp

mutual
theorem run_ends (hrec : ∀ R σ, Eats (eR R) (rec R σ)) : ∀ (c : Code) {k} (s : List Char), tame N.out N.decisions eR rk k c = true → Ready rk rec k s.length →
    s.length < n → run T σ rec n c s ≠ .timeout
  | .skip, k, s, h, hk, hn => by rw [run]; simp
  | .seq a b, k, s, h, hk, hn => by
    rw [run]
    rw [tame, Bool.and_eq_true] at h
    refine andThen_ends (run_ends hrec a s h.1 hk hn) fun ts s1 h1 => ?_
    have h2 := run_eats hrec a _ _ _ h1
    have h3 := h.2
    cases he : eats N.out N.decisions eR a with
    | true =>
      rw [he] at h2 h3
      simp only [Bool.toNat_true] at h2
      exact run_ends hrec b s1 h3 (hk.less (by omega)) (by omega)
    | false =>
      rw [he] at h2 h3
      simp only [Bool.toNat_false] at h2
      exact run_ends hrec b s1 h3 (hk.le (by omega)) (by omega)
  | .tok _ _, k, s, h, hk, hn => by
    rw [run]
    cases s with
    | nil => simp [consume]
    | cons c s => rw [consume]; split <;> simp
  | .eof _, k, s, h, hk, hn => by rw [run.eq_def]; dsimp only; split <;> simp
  | .set _ _, k, s, h, hk, hn => by
    rw [run]
    cases s with
    | nil => simp [consume]
    | cons c s => rw [consume]; split <;> simp
  | .call st R, k, s, h, hk, hn => by
    rw [run.eq_def]
    dsimp only
    have h1 : rk R < k := by simpa [tame] using h
    have h2 := hk R (st :: σ) s (.inr ⟨rfl, h1⟩)
    split
    · rename_i h3; exact absurd h3 h2
    · simp
    · simp
  | .switchAlt st d cs, k, s, h, hk, hn => by
    rw [run.eq_def]
    dsimp only
    rw [tame] at h
    refine synced_ends ?_
    split
    · simp
    · exact runAlt_ends hrec _ cs s h hk hn
  | .ifLa st t c, k, s, h, hk, hn => by
    rw [run.eq_def]
    dsimp only
    rw [tame] at h
    refine synced_ends ?_
    split
    · exact run_ends hrec c s h hk hn
    · simp
  | .switchLa st cs, k, s, h, hk, hn => by
    rw [run]
    rw [tame] at h
    exact synced_ends (runLa_ends hrec cs s h hk hn)
  | .star st st' a c, k, s, h, hk, hn => by
    rw [run]
    rw [tame, Bool.and_eq_true, Bool.and_eq_true] at h
    refine star_ends h.1.2 ?_ _ _ _ _ hn fun s' hs' => run_ends hrec c s' h.2 (hk.le hs') (by omega)
    have := run_eats (T := T) (σ := σ) (n := n) hrec c
    rw [h.1.1] at this
    exact this
  | .plus st st' a c, k, s, h, hk, hn => by
    rw [run]
    rw [tame, Bool.and_eq_true] at h
    refine synced_ends (plus_ends ?_ _ _ _ hn fun s' hs' => run_ends hrec c s' h.2 (hk.le hs') (by omega))
    have := run_eats (T := T) (σ := σ) (n := n) hrec c
    rw [h.1] at this
    exact this
theorem runAlt_ends (hrec : ∀ R σ, Eats (eR R) (rec R σ)) (a : Nat) : ∀ (cs : Cases) {k} (s : List Char), tameCases N.out N.decisions eR rk k cs = true →
    Ready rk rec k s.length → s.length < n → runAlt T σ rec n a cs s ≠ .timeout
  | .nil, k, s, h, hk, hn => by rw [runAlt]; simp
  | .alt m c cs, k, s, h, hk, hn => by
    rw [runAlt]
    rw [tameCases, Bool.and_eq_true] at h
    split
    · exact run_ends hrec c s h.1 hk hn
    · exact runAlt_ends hrec a cs s h.2 hk hn
  | .toks _ c cs, k, s, h, hk, hn => by
    rw [runAlt]
    rw [tameCases, Bool.and_eq_true] at h
    exact runAlt_ends hrec a cs s h.2 hk hn
theorem runLa_ends (hrec : ∀ R σ, Eats (eR R) (rec R σ)) : ∀ (cs : Cases) {k} (s : List Char), tameCases N.out N.decisions eR rk k cs = true →
    Ready rk rec k s.length → s.length < n → runLa T σ rec n cs s ≠ .timeout
  | .nil, k, s, h, hk, hn => by rw [runLa]; simp
  | .alt m c cs, k, s, h, hk, hn => by
    rw [runLa]
    rw [tameCases, Bool.and_eq_true] at h
    exact runLa_ends hrec cs s h.2 hk hn
  | .toks _ c cs, k, s, h, hk, hn => by
    rw [runLa]
    rw [tameCases, Bool.and_eq_true] at h
    split
    · exact run_ends hrec c s h.1 hk hn
    · exact runLa_ends hrec cs s h.2 hk hn
end

/-- Nested calls and rounds of loops are bounded. -/
theorem runRule_ends {code : Rule → Code} {M : Nat} (hM : ∀ R, rk R < M) (hc : ∀ R, eR R = true → eats N.out N.decisions eR (code R) = true)
    (ht : ∀ R, tame N.out N.decisions eR rk (rk R) (code R) = true) : ∀ n R σ (s : List Char), (s.length + 1) * M + rk R < n → runRule code T n R σ s ≠ .timeout
  | 0, _, _, _, h => by omega
  | n + 1, R, σ, s, h => by
    rw [runRule]
    have hM1 : 0 < M := Nat.lt_of_le_of_lt (Nat.zero_le _) (hM R)
    have hlen : s.length + 1 ≤ (s.length + 1) * M := Nat.le_mul_of_pos_right _ hM1
    refine run_ends (runRule_eats hc n) (code R) s (ht R) ?_ (by omega)
    intro R' σ' s' hs
    refine runRule_ends hM hc ht n R' σ' s' ?_
    have := hM R'
    rcases hs with h1 | ⟨h1, h2⟩
    · have h3 : (s'.length + 1 + 1) * M ≤ (s.length + 1) * M := Nat.mul_le_mul_right _ (by omega)
      rw [Nat.add_mul _ 1 M] at h3
      omega
    · rw [h1]; omega

end

end Rfc5322.Gen
