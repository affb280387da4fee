import Verif.Proofs.AllStarStages

/-!
# ALL(*) on the network of the parser
-/

namespace Rfc5322.AllStar

open Atn Gen Relation

variable {N : Net} {late : Nat → Bool} {G : Graphs}

/-! ## The beginning of a prediction -/

section
variable (W : Well N late)
include W

theorem linked_of_proper : ∀ (σ : List Nat) {i x}, Proper N σ i → ruleAt N x = i → Linked N x (σ.map (follow N))
  | [], _, _, h, hx => by rw [← hx] at h; exact h
  | st :: σ, i, x, ⟨⟨q, hq⟩, hp⟩, hx => by
    have hf : follow N st = q := by rw [follow, hq]
    have hm : (Label.call (N.start i) i, q) ∈ N.out st := by rw [hq]; exact List.mem_singleton.mpr rfl
    rw [List.map_cons, hf]
    exact ⟨mem_afterCalls hm hx, linked_of_proper σ hp (W.rule hm)⟩

theorem early_of_proper : ∀ (σ : List Nat) {i x}, Proper N σ i → late x = false → late (bottom x (σ.map (follow N))) = false
  | [], _, _, _, hx => hx
  | st :: σ, i, x, ⟨⟨q, hq⟩, hp⟩, _ => by
    have hf : follow N st = q := by rw [follow, hq]
    have hm : (Label.call (N.start i) i, q) ∈ N.out st := by rw [hq]; exact List.mem_singleton.mpr rfl
    rw [List.map_cons, bottom, hf]
    exact early_of_proper σ hp (W.call hm).2.1

theorem good_start {σ p q} (hσ : Proper N σ (ruleAt N p)) (hl : late p = false) (hm : (.eps, q) ∈ N.out p) :
    Good N late (ruleAt N (bottom p (σ.map (follow N)))) q (σ.map (follow N)) :=
  Good.congr ⟨linked_of_proper W σ hσ rfl, rfl, early_of_proper W σ hσ hl⟩ (W.rule hm) fun h => (W.eps hm).trans h

/-- The alternatives, counted from 1. -/
def Completes (N : Net) (σ : List Nat) (p : Nat) (s : List Char) (n : Nat) : Prop := ∃ i e, n = i + 1 ∧ (N.out p)[i]? = some e ∧ Done N e.2 (σ.map (follow N)) s

variable {σ : List Nat} {p : Nat} (hσ : Proper N σ (ruleAt N p)) (hl : late p = false) (he : ∀ e ∈ N.out p, e.1 = .eps)
include hσ hl he

theorem steady_start (s : List Char) :
    Steady N late (ruleAt N (bottom p (σ.map (follow N)))) (Completes N σ p s) (startState G N true σ p) s := by
  refine steady_closure W ⟨?_, ?_⟩ ?_
  · rintro _ ⟨i, e, rfl, h1, h2⟩
    exact ⟨_, ⟨i, e, h1, rfl⟩, rfl, h2⟩
  · rintro _ ⟨i, e, h1, rfl⟩ h2
    exact ⟨i, e, rfl, h1, h2⟩
  · rintro _ ⟨i, ⟨l, q⟩, h1, rfl⟩
    have hm := List.mem_of_getElem? h1
    cases (he _ hm : l = .eps)
    exact good_start W hσ hl hm

theorem covers_start (s : List Char) :
    CoversNow N late (ruleAt N (bottom p (σ.map (follow N)))) (Completes N σ p s) (startState G N false [] p) s := by
  refine CoversNow.widen (covers_closure W ?_)
  rintro _ ⟨i, ⟨l, q⟩, rfl, h1, h2⟩
  have hm := List.mem_of_getElem? h1
  cases (he _ hm : l = .eps)
  exact ⟨q, [], σ.map (follow N), ⟨i, _, h1, rfl⟩, good_start W hσ hl hm, h2⟩

/-- The smallest alternative is found. -/
theorem adaptivePredict_least {d s i} (hd : N.decisions[d]? = some p) (hi : CanEndBy N σ p i s) (hmin : ∀ j, j < i → ¬ CanEndBy N σ p j s) :
    adaptivePredict G N d σ s = .alt (i + 1) := by
  have hA : Least (Completes N σ p s) (i + 1) := by
    constructor
    · obtain ⟨e, h1, h2⟩ := (canEndBy_iff W hσ he).mp hi
      exact ⟨i, e, rfl, h1, h2⟩
    · rintro _ ⟨j, e, rfl, h1, h2⟩
      rcases Nat.lt_or_ge j i with h | h
      · exact absurd ((canEndBy_iff W hσ he).mpr ⟨e, h1, h2⟩) (hmin j h)
      · omega
  rw [adaptivePredict, hd]
  exact execSLL_least W hA (execLL_least W hA s (steady_start W hσ hl he s)) s (covers_start W hσ hl he s)

/-- A prediction comes to an end. -/
theorem adaptivePredict_ends {d s} (hd : N.decisions[d]? = some p) : adaptivePredict G N d σ s ≠ .again := by
  rw [adaptivePredict, hd]
  exact execSLL_ends (execLL_ends W s (steady_start W hσ hl he s)) s

end

/-! ## Results are alternatives -/

/-- Alternatives of a set. -/
def AltsIn (C : Configs) (P : Nat → Prop) : Prop := ∀ c, C c → P c.alt

variable {P : Nat → Prop}

theorem AltsIn.merged {full C} (h : AltsIn C P) : AltsIn (merged G full C) P := by
  intro c hc
  cases full with
  | true => exact h c hc
  | false =>
    obtain ⟨st, h1⟩ := G.widen_from hc
    have := h _ h1
    exact this

theorem AltsIn.closure {full atEnd D} (h : AltsIn D P) : AltsIn (closure N full atEnd D) P := by
  rintro c ⟨_, d, h1, h2, _⟩
  rw [← h2]; exact h d h1

theorem AltsIn.move {t C} (h : AltsIn C P) : AltsIn (move N t C) P := by
  rintro d ⟨c, l, h1, _, _, h2, _⟩
  rw [h2]; exact h c h1

theorem AltsIn.reachSet {full t C} (h : AltsIn C P) : AltsIn (reachSet G N full C t) P := by
  rintro c (⟨h1, _⟩ | ⟨⟨h1, _⟩, _⟩)
  · split at h1
    · exact h.move.merged c h1
    · exact h.move.merged.closure.merged c h1
  · exact h c h1

theorem failed_alt {F C n} (h : AltsIn C P) (hf : failed G F C = .alt n) : P n := by
  rw [failed] at hf
  split at hf
  · rename_i h1
    cases hf
    obtain ⟨_, c, h2, rfl⟩ := G.finished_from h1
    exact h c h2
  · cases hf

theorem Unique.alt {C n} (h : AltsIn C P) (hu : Unique C n) : P n := by
  obtain ⟨⟨c, hc⟩, h2⟩ := hu
  rw [← h2 c hc]; exact h c hc

theorem Resolves.alt {C n} (h : AltsIn C P) (hu : Resolves G C n) : P n := by
  obtain ⟨⟨c, hc⟩, h2⟩ := hu
  obtain ⟨⟨⟨st, h3⟩, _⟩, _⟩ := h2 c hc
  exact h _ h3

theorem roundLL_alt {F B C n next} (hB : AltsIn B P) (hC : AltsIn C P) (hn : next = .alt n → P n) (h : roundLL G F B C next = .alt n) : P n := by
  rw [roundLL] at h
  split at h
  · exact failed_alt hB h
  · split at h
    · rename_i hu
      cases h
      exact hu.choose_spec.alt hC
    · split at h
      · rename_i hu
        cases h
        exact hu.choose_spec.alt hC
      · exact hn h

theorem roundSLL_alt {F B C n full next} (hB : AltsIn B P) (hC : AltsIn C P) (hf : full = .alt n → P n) (hn : next = .alt n → P n)
    (h : roundSLL G N F full B C next = .alt n) : P n := by
  rw [roundSLL] at h
  split at h
  · exact failed_alt hB h
  · split at h
    · rename_i hu
      cases h
      exact hu.choose_spec.alt hC
    · split at h
      · exact hf h
      · exact hn h

theorem execLL_alt : ∀ (s : List Char) {F C n}, AltsIn C P → execLL G N F C s = .alt n → P n
  | [], F, C, n, h, he => roundLL_alt h h.reachSet (by simp) he
  | t :: s, F, C, n, h, he => roundLL_alt h h.reachSet (execLL_alt s h.reachSet) he

theorem execSLL_alt {full n} (hf : full = .alt n → P n) : ∀ (s : List Char) {F C}, AltsIn C P → execSLL G N F full C s = .alt n → P n
  | [], F, C, h, he => roundSLL_alt h h.reachSet hf (by simp) he
  | t :: s, F, C, h, he => roundSLL_alt h h.reachSet hf (execSLL_alt hf s h.reachSet) he

theorem startState_alt {full σ p} : AltsIn (startState G N full σ p) fun n => 1 ≤ n ∧ n ≤ (N.out p).length := by
  refine AltsIn.merged (AltsIn.closure ?_)
  rintro _ ⟨i, e, h1, rfl⟩
  have := (List.getElem?_eq_some_iff.mp h1).1
  exact ⟨Nat.succ_pos i, this⟩

theorem adaptivePredict_range {d p σ s n} (hd : N.decisions[d]? = some p) (h : adaptivePredict G N d σ s = .alt n) : 1 ≤ n ∧ n ≤ (N.out p).length := by
  rw [adaptivePredict, hd] at h
  exact execSLL_alt (execLL_alt s startState_alt) s startState_alt h

/-! ## Synchronisation -/

theorem next_of_done {p st s} (h : Done N p st s) : ∀ {w v}, st = w ++ v →
    (∃ q st' l x, ReflTransGen (Moves N true false) (p, w) (q, st') ∧ (l, x) ∈ N.out q ∧ takes l s.head?) ∨
      ∃ q, ReflTransGen (Moves N true false) (p, w) (q, []) ∧ isStop N q = true := by
  induction h with
  | stop h =>
    intro w v hw
    obtain ⟨rfl, rfl⟩ := List.append_eq_nil_iff.mp hw.symm
    exact .inr ⟨_, .refl, h⟩
  | tok h1 h2 => intro w v _; exact .inl ⟨_, _, _, _, .refl, h1, h2⟩
  | eof h1 => intro w v _; exact .inl ⟨_, _, _, _, .refl, h1, trivial⟩
  | moves h1 _ ih =>
    intro w v hw
    have go : ∀ {p w q w'}, Moves N true false (p, w) (q, w') → ∀ {t : Option Char},
        ((∃ y st' l x, ReflTransGen (Moves N true false) (q, w') (y, st') ∧ (l, x) ∈ N.out y ∧ takes l t) ∨
          ∃ y, ReflTransGen (Moves N true false) (q, w') (y, []) ∧ isStop N y = true) →
        (∃ y st' l x, ReflTransGen (Moves N true false) (p, w) (y, st') ∧ (l, x) ∈ N.out y ∧ takes l t) ∨
          ∃ y, ReflTransGen (Moves N true false) (p, w) (y, []) ∧ isStop N y = true := by
      rintro p w q w' hm t (⟨y, st', l, x, g1, g2⟩ | ⟨y, g1, g2⟩)
      · exact .inl ⟨y, st', l, x, .head hm g1, g2⟩
      · exact .inr ⟨y, .head hm g1, g2⟩
    cases h1 with
    | eps hm => exact go (.eps hm) (ih hw)
    | eof h => cases h
    | out h => cases h
    | call hm => exact go (.call hm) (ih (w := _ :: w) (v := v) (by rw [hw]; rfl))
    | ret hs =>
      cases w with
      | nil => exact .inr ⟨_, .refl, hs⟩
      | cons y w =>
        simp only [List.cons_append, List.cons.injEq] at hw
        obtain ⟨rfl, hw⟩ := hw
        exact go (.ret hs) (ih hw)

theorem sync_ok (W : Well N late) {st σ s} (hσ : Proper N σ (ruleAt N st)) (h : CanEnd N σ st s) : sync N st s = true := by
  have h1 := done_of_can W h fun s' hs => done_of_rest W σ hσ (W.known st) hs
  have h2 : nextTokens N st s.head? := next_of_done h1 (w := []) rfl
  simp [sync, h2]

/-! ## The runtime -/

/-- Decisions lie before the end of the input, and their transitions have no labels. -/
def Decides (N : Net) (late : Nat → Bool) : Prop := ∀ p ∈ N.decisions, late p = false ∧ ∀ e ∈ N.out p, e.1 = .eps

/-- ALL(*) is a runtime as the generated functions need it. -/
noncomputable def runtime (G : Graphs) (W : Well N late) (hd : Decides N late) : Runtime N where
  predict d σ s := match adaptivePredict G N d σ s with
    | .alt n => some n
    | _ => none
  sync st _ s := sync N st s
  least d p σ s i h hσ hi hmin := by
    obtain ⟨h1, h2⟩ := hd p (List.mem_of_getElem? h)
    rw [adaptivePredict_least W hσ h1 h2 h hi hmin]
  range d p σ s n h hn := by
    split at hn
    · rename_i h1
      cases hn
      exact adaptivePredict_range h h1
    · cases hn
  sync_ok st σ s hσ h := sync_ok W hσ h

theorem runtime_predict {W : Well N late} {hd : Decides N late} {d σ s n} : (runtime G W hd).predict d σ s = some n ↔ adaptivePredict G N d σ s = .alt n := by
  show (match adaptivePredict G N d σ s with | .alt n => some n | _ => none) = some n ↔ _
  cases adaptivePredict G N d σ s <;> simp

theorem runtime_sync {W : Well N late} {hd : Decides N late} {st σ s} : (runtime G W hd).sync st σ s = sync N st s := rfl

end Rfc5322.AllStar
