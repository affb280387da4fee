import Verif.Proofs.Atn
import Verif.Proofs.AtnCert
import Verif.Model.AtnData

/-!
# The rules of the parser network
-/

namespace Rfc5322.Atn

open Spec

/-! ## The grammar, rule by rule -/

theorem ruleG_eq (R : Rule) (h : R ≠ .comment) : ruleG R = .rule R (cert R).expand := by
  cases R <;> first | rfl | exact absurd rfl h

theorem comment_eq : Gr.commentBody = (cert .comment).expand := rfl

theorem derives_rule {R : Rule} {s us s'} : Derives (ruleG R) s us s' ↔ ∃ ts, us = [.node R ts] ∧ Derives (cert R).expand s ts s' := by
  by_cases hR : R = .comment
  · subst hR
    constructor
    · intro h
      cases h with
      | comment h => exact ⟨_, rfl, h⟩
    · rintro ⟨ts, rfl, h⟩
      exact .comment h
  · rw [ruleG_eq R hR]
    constructor
    · intro h
      cases h with
      | rule h => exact ⟨_, rfl, h⟩
    · rintro ⟨ts, rfl, h⟩
      exact .rule h

theorem preferred_rule {K : List Char → Prop} {R : Rule} {s us s'} : Preferred K (ruleG R) s us s' ↔ ∃ ts, us = [.node R ts] ∧ Preferred K (cert R).expand s ts s' := by
  by_cases hR : R = .comment
  · subst hR
    constructor
    · intro h
      cases h with
      | comment h => exact ⟨_, rfl, h⟩
    · rintro ⟨ts, rfl, h⟩
      exact .comment h
  · rw [ruleG_eq R hR]
    constructor
    · intro h
      cases h with
      | rule h => exact ⟨_, rfl, h⟩
    · rintro ⟨ts, rfl, h⟩
      exact .rule h

/-! ## Nested calls -/

variable {N : Net} {r : Nat} {C C' : Calls}

theorem Take.mono {l s ts s'} (h : Take ruleOf tokenType C l s ts s') (hC : ∀ {p i s ts s'}, C p i s ts s' → C' p i s ts s') :
    Take ruleOf tokenType C' l s ts s' := by
  cases h with
  | eps => exact .eps
  | eof => exact .eof
  | set h1 h2 => exact .set h1 h2
  | call h1 h2 => exact .call h1 (hC h2)

theorem Path.mono {n p s ts s'} (h : Path ruleOf tokenType N C r n p s ts s') (hC : ∀ {p i s ts s'}, C p i s ts s' → C' p i s ts s') :
    Path ruleOf tokenType N C' r n p s ts s' := by
  induction h with
  | done => exact .done
  | step h1 h2 _ ih => exact .step h1 (h2.mono hC) ih

theorem called_succ : ∀ (d : Nat) {p i s ts s'}, called ruleOf tokenType N d p i s ts s' → called ruleOf tokenType N (d + 1) p i s ts s'
  | 0, _, _, _, _, _, h => h.elim
  | d + 1, _, _, _, _, _, ⟨n, h⟩ => ⟨n, h.mono (called_succ d)⟩

theorem called_le {d d' : Nat} (h : d ≤ d') {p i s ts s'} (hc : called ruleOf tokenType N d p i s ts s') : called ruleOf tokenType N d' p i s ts s' := by
  induction h with
  | refl => exact hc
  | step _ ih => exact called_succ _ ih

theorem path_depth {n p s ts s'} (h : Path ruleOf tokenType N (Runs ruleOf tokenType N) r n p s ts s') :
    ∃ d, Path ruleOf tokenType N (called ruleOf tokenType N d) r n p s ts s' := by
  induction h with
  | done => exact ⟨0, .done⟩
  | @step n p l q s ts s1 us s2 h1 h2 _ ih =>
    obtain ⟨d, ih⟩ := ih
    have : ∃ d, Take ruleOf tokenType (called ruleOf tokenType N d) l s ts s1 := by
      cases h2 with
      | eps => exact ⟨0, .eps⟩
      | eof => exact ⟨0, .eof⟩
      | set h3 h4 => exact ⟨0, .set h3 h4⟩
      | call h3 h4 =>
        obtain ⟨d, h4⟩ := h4
        exact ⟨d, .call h3 h4⟩
    obtain ⟨d', h2⟩ := this
    exact ⟨max d d', .step h1 (h2.mono (called_le (Nat.le_max_right ..))) (ih.mono (called_le (Nat.le_max_left ..)))⟩

theorem runs_iff {p i s ts s'} : Runs ruleOf tokenType N p i s ts s' ↔ ∃ n, Path ruleOf tokenType N (Runs ruleOf tokenType N) (N.stop i) n p s ts s' := by
  constructor
  · rintro ⟨d, h⟩
    cases d with
    | zero => exact h.elim
    | succ d =>
      obtain ⟨n, h⟩ := h
      exact ⟨n, h.mono fun h => ⟨d, h⟩⟩
  · rintro ⟨n, h⟩
    obtain ⟨d, h⟩ := path_depth h
    exact ⟨d + 1, n, h⟩

/-! ## Paths and derivations -/

/-- The network has the structure of the certificates. -/
def Good (N : Net) : Prop := ∀ i R, ruleOf i = some R → checkRule N.out N.start i (N.stop i) (cert R) = true

theorem Good.rule (hN : Good N) {i R} (h : ruleOf i = some R) : N.out (N.stop i) = [] ∧
    ∃ q, check N.out N.start (cert R) (N.out (N.start i)) = some q ∧ epsTo N.out fuel q (N.stop i) = true ∧ N.out (N.start i) ≠ [] := by
  have := hN i R h
  rw [checkRule, Bool.and_eq_true, beq_iff_eq] at this
  refine ⟨this.1, ?_⟩
  have h := this.2
  split at h
  · rename_i q hq
    refine ⟨q, hq, h, fun e => ?_⟩
    rw [e] at hq
    exact check_ne _ hq
  · cases h

theorem path_stop {n s ts s'} (hr : N.out r = []) (h : Path ruleOf tokenType N C r n r s ts s') : ts = [] ∧ s = s' := by
  cases h with
  | done => exact ⟨rfl, rfl⟩
  | step h1 => rw [hr] at h1; cases h1

theorem rule_sound (hN : Good N) (hC : SoundCalls N C) {i R} (hi : ruleOf i = some R) {n s ts s'}
    (h : Path ruleOf tokenType N C (N.stop i) n (N.start i) s ts s') : Derives (cert R).expand s ts s' := by
  obtain ⟨hr, q, hq, he, hne⟩ := hN.rule hi
  obtain ⟨ts1, s1, ts2, m, _, hd, h1, e⟩ := check_sound hr hC (cert R) hq (h.from (ne_of_out hr hne))
  obtain ⟨m', _, h2⟩ := epsTo_path hr fuel he h1
  obtain ⟨rfl, rfl⟩ := path_stop hr h2
  rw [List.append_nil] at e
  exact e ▸ hd

theorem called_sound (hN : Good N) : ∀ d, SoundCalls N (called ruleOf tokenType N d)
  | 0, _, _, _, _, _, _, h => h.elim
  | d + 1, _, _, _, _, _, hi, ⟨_, h⟩ => derives_rule.mpr ⟨_, rfl, rule_sound hN (called_sound hN d) hi h⟩

theorem runs_sound (hN : Good N) : SoundCalls N (Runs ruleOf tokenType N) := by
  rintro i R s ts s' hi ⟨d, h⟩
  exact called_sound hN d hi h

theorem rule_complete (hN : Good N) {w : Nat} (hC : CompleteCalls N C w) {i R} (hi : ruleOf i = some R) {s ts s'} (hw : weights ts ≤ w)
    (h : Derives (cert R).expand s ts s') : ∃ n, Path ruleOf tokenType N C (N.stop i) n (N.start i) s ts s' := by
  obtain ⟨hr, q, hq, he, hne⟩ := hN.rule hi
  obtain ⟨n, h1⟩ := path_epsTo (C := C) (r := N.stop i) fuel he (.done (s := s'))
  obtain ⟨m, h2⟩ := check_complete hC (cert R) hq hw h h1
  exact ⟨m, by simpa using h2.path⟩

theorem runs_completeTo (hN : Good N) : ∀ w, CompleteCalls N (Runs ruleOf tokenType N) w := by
  intro w
  induction w with
  | zero =>
    intro i R s us s' hi hw h
    obtain ⟨ts, rfl, h1⟩ := derives_rule.mp h
    simp [weights, weight] at hw
  | succ w ih =>
    intro i R s us s' hi hw h
    obtain ⟨ts, rfl, h1⟩ := derives_rule.mp h
    refine ⟨ts, rfl, runs_iff.mpr (rule_complete hN ih hi ?_ h1)⟩
    simp only [weights, weight] at hw
    omega

/-- The paths through a rule are its derivations. -/
theorem runs_derives (hN : Good N) {i R} (hi : ruleOf i = some R) {s ts s'} :
    Runs ruleOf tokenType N (N.start i) i s ts s' ↔ Derives (ruleG R) s [.node R ts] s' := by
  constructor
  · exact runs_sound hN hi
  · intro h
    obtain ⟨ts', e, h⟩ := runs_completeTo hN (weights [.node R ts]) hi (Nat.le_refl _) h
    injection e with e _
    injection e with _ e
    exact e ▸ h

/-! ## What can be completed -/

abbrev CanN (N : Net) (r : Nat) (K : List Char → Prop) : Nat → List Char → Prop := Can ruleOf tokenType N r K

variable {K : List Char → Prop}

theorem can_epsTo (hr : N.out r = []) {x j : Nat} (h : epsTo N.out fuel x j = true) (s : List Char) : CanN N r K x s ↔ CanN N r K j s := by
  constructor
  · rintro ⟨n, ts, s', hp, hK⟩
    obtain ⟨m, _, hp⟩ := epsTo_path hr fuel h hp
    exact ⟨m, ts, s', hp, hK⟩
  · rintro ⟨n, ts, s', hp, hK⟩
    obtain ⟨m, hp⟩ := path_epsTo fuel h hp
    exact ⟨m, ts, s', hp, hK⟩

theorem can_stop (hr : N.out r = []) (s : List Char) : CanN N r K r s ↔ K s := by
  constructor
  · rintro ⟨n, ts, s', hp, hK⟩
    obtain ⟨_, rfl⟩ := path_stop hr hp
    exact hK
  · intro h
    exact ⟨0, [], s, .done, h⟩

/-- A path from one of some transitions can be completed. -/
def CanFrom (N : Net) (r : Nat) (K : List Char → Prop) (es : List (Label × Nat)) (s : List Char) : Prop :=
  ∃ n ts s', From N (Runs ruleOf tokenType N) r n es s ts s' ∧ K s'

theorem canBy_iff {e : Label × Nat} {s : List Char} : CanBy ruleOf tokenType N r K e s ↔ CanFrom N r K [e] s := by
  constructor
  · rintro ⟨ts, s1, h1, n, us, s', h2, hK⟩
    exact ⟨n + 1, ts ++ us, s', ⟨_, _, _, _, _, _, by simp, h1, h2, rfl, rfl⟩, hK⟩
  · rintro ⟨n, ts, s', h, hK⟩
    obtain ⟨m, ts1, s1, us, _, h1, h2, _⟩ := h.one
    exact ⟨ts1, s1, h1, m, us, s', h2, hK⟩

theorem can_iff {p : Nat} (hp : p ≠ r) {s : List Char} : CanN N r K p s ↔ CanFrom N r K (N.out p) s := by
  constructor
  · rintro ⟨n, ts, s', h, hK⟩
    exact ⟨n, ts, s', h.from hp, hK⟩
  · rintro ⟨n, ts, s', h, hK⟩
    exact ⟨n, ts, s', h.path, hK⟩

theorem canFrom_cons {e es} {s : List Char} : CanFrom N r K (e :: es) s ↔ CanFrom N r K [e] s ∨ CanFrom N r K es s := by
  constructor
  · rintro ⟨n, ts, s', ⟨l, q, ts1, s1, us, m, h1, h⟩, hK⟩
    rw [List.mem_cons] at h1
    rcases h1 with h1 | h1
    · exact .inl ⟨n, ts, s', ⟨l, q, ts1, s1, us, m, by simp [h1], h⟩, hK⟩
    · exact .inr ⟨n, ts, s', ⟨l, q, ts1, s1, us, m, h1, h⟩, hK⟩
  · rintro (⟨n, ts, s', h, hK⟩ | ⟨n, ts, s', h, hK⟩)
    · exact ⟨n, ts, s', h.mono (by simp), hK⟩
    · exact ⟨n, ts, s', h.mono fun e h => List.mem_cons_of_mem _ h, hK⟩

theorem canFrom_check (hN : Good N) (hr : N.out r = []) {c : Cert} {es q} (hc : check N.out N.start c es = some q) (s : List Char) :
    CanFrom N r K es s ↔ Completes c.expand (CanN N r K q) s := by
  constructor
  · rintro ⟨n, ts, s', h, hK⟩
    obtain ⟨ts1, s1, ts2, m, _, hd, h1, _⟩ := check_sound hr (runs_sound hN) c hc h
    exact ⟨ts1, s1, hd, m, ts2, s', h1, hK⟩
  · rintro ⟨ts1, s1, hd, n, ts2, s', h, hK⟩
    obtain ⟨m, h⟩ := check_complete (runs_completeTo hN _) c hc (Nat.le_refl _) hd h
    exact ⟨m, _, s', h, hK⟩

end Rfc5322.Atn
