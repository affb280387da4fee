import Verif.Model.AllStar
import Verif.Proofs.GenNorm

/-!
# ALL(*) finds the smallest alternative

First what a configuration has to do with paths (`Done`), then the second stage (nothing is lost and nothing is added: `Tracks`), then the first (nothing is lost: `Covers`).
-/

namespace Rfc5322.AllStar

open Atn Gen Relation

/-- The network: transitions stay within rules, the end of the input is needed in start rules only, and there by every path; `late` are the states after it. -/
structure Well (N : Net) (late : Nat → Bool) : Prop where
  rule : ∀ {p l q}, (l, q) ∈ N.out p → ruleAt N q = ruleAt N p
  notStop : ∀ {p l q}, (l, q) ∈ N.out p → isStop N p = false
  eps : ∀ {p q}, (.eps, q) ∈ N.out p → late q = late p
  eof : ∀ {p q}, (.eof, q) ∈ N.out p → Root N (ruleAt N p) ∧ late p = false ∧ late q = true
  set : ∀ {p is q}, (.set is, q) ∈ N.out p → late p = false ∧ late q = false
  call : ∀ {p a r q}, (.call a r, q) ∈ N.out p → late p = false ∧ late q = false ∧ ruleAt N a = r ∧ ∃ R, ruleOf r = some R
  stop : ∀ {q}, isStop N q = true → N.stop (ruleAt N q) = q
  atStop : ∀ {r R}, ruleOf r = some R → isStop N (N.stop r) = true
  known : ∀ p, ∃ R, ruleOf (ruleAt N p) = some R
  lateStop : ∀ {q}, isStop N q = true → Root N (ruleAt N q) → late q = true

variable {N : Net} {late : Nat → Bool}

/-- From a configuration the end of the outermost rule and of the input can be reached. -/
inductive Done (N : Net) : Nat → List Nat → List Char → Prop where
  | stop {q} : isStop N q = true → Done N q [] []
  | moves {p st q st' s} : Moves N true false (p, st) (q, st') → Done N q st' s → Done N p st s
  | tok {p l q st c s} : (l, q) ∈ N.out p → takes l (some c) → Done N q st s → Done N p st (c :: s)
  | eof {p q st} : (.eof, q) ∈ N.out p → Done N q st [] → Done N p st []

theorem takes_some {l : Label} {c : Char} (h : takes l (some c)) : ∃ is k, l = .set is ∧ tokenType c = some k ∧ inSet is k = true := by
  cases l <;> simp [takes] at h
  exact ⟨_, h.choose, rfl, h.choose_spec⟩

theorem takes_none {l : Label} (h : takes l none) : l = .eof := by
  cases l <;> simp [takes] at h
  rfl

theorem Done.star {c c' : Nat × List Nat} {s} (h : ReflTransGen (Moves N true false) c c') (hd : Done N c'.1 c'.2 s) : Done N c.1 c.2 s := by
  induction h using ReflTransGen.head_induction_on with
  | refl => exact hd
  | head h1 _ ih => exact .moves h1 ih

/-! ## Configurations and paths -/

section
variable (W : Well N late)
include W

theorem done_of_path {C : Calls} {r : Nat} (hC : ∀ {a i s ts s' st}, (∃ R, ruleOf i = some R) → C a i s ts s' → Done N (N.stop i) st s' → Done N a st s)
    {n p s ts s'} (h : Path ruleOf tokenType N C r n p s ts s') : ∀ {st}, Done N r st s' → Done N p st s := by
  induction h with
  | done => exact fun h => h
  | step hm ht _ ih =>
    intro st hd
    have h1 := ih hd
    cases ht with
    | eps => exact .moves (.eps hm) h1
    | eof => exact .eof hm h1
    | set h2 h3 => exact .tok hm ⟨_, h2, h3⟩ h1
    | call h2 h3 => exact .moves (.call hm) (hC ⟨_, h2⟩ h3 (.moves (.ret (W.atStop h2)) h1))

theorem done_of_called : ∀ (d : Nat) {a i s ts s' st}, (∃ R, ruleOf i = some R) → called ruleOf tokenType N d a i s ts s' → Done N (N.stop i) st s' → Done N a st s
  | 0, _, _, _, _, _, _, _, h, _ => h.elim
  | d + 1, _, _, _, _, _, _, _, ⟨_, h⟩, hd => done_of_path W (done_of_called d) h hd

theorem done_of_can {r : Nat} {K : List Char → Prop} {p s st} (h : Can ruleOf tokenType N r K p s) (hK : ∀ s', K s' → Done N r st s') : Done N p st s := by
  obtain ⟨n, ts, s', h1, h2⟩ := h
  exact done_of_path W (fun hi hr hd => done_of_called W _ hi hr.choose_spec hd) h1 (hK _ h2)

theorem done_of_rest : ∀ (σ : List Nat) {i s}, Proper N σ i → (∃ R, ruleOf i = some R) → Rest N σ s → Done N (N.stop i) (σ.map (follow N)) s
  | [], i, s, _, ⟨_, hi⟩, h => by
    cases (show s = [] from h)
    exact .stop (W.atStop hi)
  | st :: σ, i, s, ⟨⟨q, hq⟩, hp⟩, ⟨_, hi⟩, h =>
    .moves (.ret (W.atStop hi)) (done_of_can W h fun s' hs => done_of_rest σ hp (W.known st) hs)

/-- `Rest`, with return states. -/
def RestR (N : Net) : List Nat → List Char → Prop
  | [], s => s = []
  | x :: st, s => Can ruleOf tokenType N (N.stop (ruleAt N x)) (RestR N st) x s

theorem restR_map : ∀ (σ : List Nat) {i}, Proper N σ i → RestR N (σ.map (follow N)) = Rest N σ
  | [], _, _ => rfl
  | st :: σ, i, ⟨⟨q, hq⟩, hp⟩ => by
    have hf : follow N st = q := by rw [follow, hq]
    have hr : ruleAt N q = ruleAt N st := W.rule (by rw [hq]; exact List.mem_singleton.mpr rfl)
    funext s
    simp only [List.map_cons, RestR, Rest]
    rw [restR_map σ hp, hf, hr]

theorem can_of_done {p st s} (h : Done N p st s) : Can ruleOf tokenType N (N.stop (ruleAt N p)) (RestR N st) p s := by
  induction h with
  | stop h =>
    refine ⟨0, [], [], ?_, rfl⟩
    have := W.stop h
    rw [this]; exact .done
  | tok hm ht _ ih =>
    obtain ⟨is, k, rfl, h1, h2⟩ := takes_some ht
    obtain ⟨n, ts, s', h3, h4⟩ := ih
    rw [W.rule hm] at h3
    exact ⟨_, _, _, .step hm (.set h1 h2) h3, h4⟩
  | eof hm _ ih =>
    obtain ⟨n, ts, s', h3, h4⟩ := ih
    rw [W.rule hm] at h3
    exact ⟨_, _, _, .step hm .eof h3, h4⟩
  | moves hm _ ih =>
    cases hm with
    | eps hm =>
      obtain ⟨n, ts, s', h3, h4⟩ := ih
      rw [W.rule hm] at h3
      exact ⟨_, _, _, .step hm .eps h3, h4⟩
    | eof h => cases h
    | out h => cases h
    | call hm =>
      obtain ⟨_, _, ha, R, hR⟩ := W.call hm
      obtain ⟨n, ts, s', h3, m, us, s'', h4, h5⟩ := ih
      rw [ha] at h3
      rw [W.rule hm] at h4
      exact ⟨_, _, _, .step hm (.call hR (runs_iff.mpr ⟨n, h3⟩)) h4, h5⟩
    | ret h =>
      refine ⟨0, [], _, ?_, ih⟩
      rw [W.stop h]; exact .done

/-- Alternatives by which the network can go on to the end of the input. -/
theorem canEndBy_iff {σ p i s} (hσ : Proper N σ (ruleAt N p)) (he : ∀ e ∈ N.out p, e.1 = .eps) :
    CanEndBy N σ p i s ↔ ∃ e, (N.out p)[i]? = some e ∧ Done N e.2 (σ.map (follow N)) s := by
  constructor
  · rintro ⟨⟨l, q⟩, h1, ts, s', h2, h3⟩
    cases (he _ (List.mem_of_getElem? h1) : l = .eps)
    cases h2
    exact ⟨_, h1, done_of_can W h3 fun s' hs => done_of_rest W σ hσ (W.known p) hs⟩
  · rintro ⟨⟨l, q⟩, h1, h2⟩
    cases (he _ (List.mem_of_getElem? h1) : l = .eps)
    refine ⟨_, h1, [], s, .eps, ?_⟩
    have := can_of_done W h2
    rw [restR_map W σ hσ, W.rule (List.mem_of_getElem? h1)] at this
    exact this

end

/-! ## Configurations that can occur before the end of the input -/

/-- The state in the outermost rule. -/
def bottom : Nat → List Nat → Nat
  | q, [] => q
  | _, x :: st => bottom x st

/-- Every return state belongs to a call of the rule before it; the last rule is not called by any. -/
def Linked (N : Net) : Nat → List Nat → Prop
  | q, [] => Root N (ruleAt N q)
  | q, x :: st => x ∈ afterCalls N q ∧ Linked N x st

/-- Before the end of the input, with outermost rule `r`. -/
structure Good (N : Net) (late : Nat → Bool) (r q : Nat) (st : List Nat) : Prop where
  linked : Linked N q st
  rule : ruleAt N (bottom q st) = r
  early : late (bottom q st) = false

theorem mem_afterCalls {p a r q x : Nat} (h : (.call a r, q) ∈ N.out p) (hx : ruleAt N x = r) : q ∈ afterCalls N x := by
  rw [afterCalls, List.mem_filterMap]
  exact ⟨_, mem_out h, by simp [hx]⟩

theorem not_root {q x : Nat} (h : x ∈ afterCalls N q) : ¬ Root N (ruleAt N q) := by
  rw [afterCalls, List.mem_filterMap] at h
  obtain ⟨e, he, h⟩ := h
  intro hr
  split at h
  · rename_i a r hl
    split at h
    · rename_i h1
      exact hr e he a (by rw [hl, h1])
    · cases h
  · cases h

theorem afterCalls_root {q : Nat} (h : Root N (ruleAt N q)) : afterCalls N q = [] := by
  cases h1 : afterCalls N q with
  | nil => rfl
  | cons x l => exact absurd h (not_root (by rw [h1]; exact List.mem_cons_self))

theorem Linked.congr {p q st} (h : Linked N p st) (hr : ruleAt N q = ruleAt N p) : Linked N q st := by
  cases st with
  | nil => simpa [Linked, hr] using h
  | cons x st => exact ⟨by have := h.1; simpa [afterCalls, hr] using this, h.2⟩

theorem Good.congr {r p q st} (h : Good N late r p st) (hr : ruleAt N q = ruleAt N p) (hl : late p = false → late q = false) : Good N late r q st := by
  refine ⟨h.linked.congr hr, ?_, ?_⟩
  · cases st with
    | nil => exact hr.trans h.rule
    | cons x st => exact h.rule
  · cases st with
    | nil => exact hl h.early
    | cons x st => exact h.early

section
variable (W : Well N late)
include W

theorem Good.ret {r p x st} (h : Good N late r p (x :: st)) : Good N late r x st := ⟨h.linked.2, h.rule, h.early⟩

theorem Good.call {r p a i q st} (h : Good N late r p st) (hm : (.call a i, q) ∈ N.out p) : Good N late r a (q :: st) := by
  obtain ⟨h1, h2, h3, _⟩ := W.call hm
  have := h.congr (W.rule hm) fun _ => h2
  exact ⟨⟨mem_afterCalls hm h3, this.linked⟩, this.rule, this.early⟩

theorem Good.moves {r p st q st'} (h : Good N late r p st) (hm : Moves N true false (p, st) (q, st')) : Good N late r q st' := by
  cases hm with
  | eps hm => exact h.congr (W.rule hm) fun hl => (W.eps hm).trans hl
  | eof h1 => cases h1
  | out h1 => cases h1
  | call hm => exact h.call W hm
  | ret hm => exact h.ret W

theorem Good.star {r} {c c' : Nat × List Nat} (hm : ReflTransGen (Moves N true false) c c') (h : Good N late r c.1 c.2) : Good N late r c'.1 c'.2 := by
  induction hm with
  | refl => exact h
  | tail _ h1 ih => exact ih.moves W h1

theorem Good.notStop {r q} (h : Good N late r q []) : isStop N q = false := by
  cases h1 : isStop N q with
  | false => rfl
  | true =>
    have h2 := W.lateStop h1 h.linked
    rw [show late q = false from h.early] at h2
    cases h2

theorem Good.set {r p st is q} (h : Good N late r p st) (hm : (.set is, q) ∈ N.out p) : Good N late r q st :=
  h.congr (W.rule hm) fun _ => (W.set hm).2

/-- The end of the input is needed in the outermost rule. -/
theorem Good.eof {r p st q} (h : Good N late r p st) (hm : (.eof, q) ∈ N.out p) : st = [] ∧ late q = true ∧ ruleAt N q = r := by
  obtain ⟨h1, h2, h3⟩ := W.eof hm
  cases st with
  | nil => exact ⟨rfl, h3, (W.rule hm).trans h.rule⟩
  | cons x st => exact absurd h1 (not_root h.linked.1)

/-- The end can be reached, beginning with a transition that needs this token. -/
def Now (N : Net) (q : Nat) (st : List Nat) (t : Option Char) (s : List Char) : Prop := ∃ l q', (l, q') ∈ N.out q ∧ takes l t ∧ Done N q' st s

theorem kept_of_takes {full c l q t} (hm : (l, q) ∈ N.out c.state) (ht : takes l t) : kept N full c = true := by
  have h1 := W.notStop hm
  have h2 : isEpsilon l = false := by cases l <;> cases t <;> simp_all [takes, isEpsilon]
  rw [kept, h1]
  simp only [Bool.false_eq_true, if_false, Bool.not_eq_true', epsilonOnly, h1]
  rw [Bool.and_eq_false_iff]
  right
  rw [List.all_eq_false]
  exact ⟨_, hm, by simp [h2]⟩

theorem Now.done {q st s} (h : Now N q st s.head? s.tail) : Done N q st s := by
  obtain ⟨l, q', h1, h2, h3⟩ := h
  cases s with
  | nil =>
    cases takes_none h2
    exact .eof h1 h3
  | cons c s => exact .tok h1 h2 h3

/-- Before a token is needed. -/
theorem now_of_done {r p st s} (h : Done N p st s) (hg : Good N late r p st) :
    ∃ q st', ReflTransGen (Moves N true false) (p, st) (q, st') ∧ Good N late r q st' ∧ Now N q st' s.head? s.tail := by
  induction h with
  | stop h =>
    rw [hg.notStop W] at h
    cases h
  | moves h1 _ ih =>
    obtain ⟨q, st', h2, h3, h4⟩ := ih (hg.moves W h1)
    exact ⟨q, st', .head h1 h2, h3, h4⟩
  | tok h1 h2 h3 => exact ⟨_, _, .refl, hg, _, _, h1, h2, h3⟩
  | eof h1 h3 => exact ⟨_, _, .refl, hg, _, _, h1, trivial, h3⟩

/-- The same with what is known of the stack in the first stage. -/
theorem now_of_done_sll {r p st s} (h : Done N p st s) : ∀ {w v}, st = w ++ v → Good N late r p st →
    ∃ q w' v', ReflTransGen (Moves N false false) (p, w) (q, w') ∧ Good N late r q (w' ++ v') ∧ Now N q (w' ++ v') s.head? s.tail := by
  induction h with
  | stop h =>
    intro w v _ hg
    rw [hg.notStop W] at h
    cases h
  | tok h1 h2 h3 => rintro w v rfl hg; exact ⟨_, _, _, .refl, hg, _, _, h1, h2, h3⟩
  | eof h1 h3 => rintro w v rfl hg; exact ⟨_, _, _, .refl, hg, _, _, h1, trivial, h3⟩
  | moves h1 _ ih =>
    intro w v hw hg
    have hg' := hg.moves W h1
    cases h1 with
    | eps hm =>
      obtain ⟨q, w', v', h2, h3, h4⟩ := ih hw hg'
      exact ⟨q, w', v', .head (.eps hm) h2, h3, h4⟩
    | eof h => cases h
    | out h => cases h
    | call hm =>
      obtain ⟨q, w', v', h2, h3, h4⟩ := ih (w := _ :: w) (v := v) (by rw [hw]; rfl) hg'
      exact ⟨q, w', v', .head (.call hm) h2, h3, h4⟩
    | @ret _ x st' hs =>
      cases w with
      | nil =>
        obtain ⟨q, w', v', h2, h3, h4⟩ := ih (w := []) (v := _) rfl hg'
        exact ⟨q, w', v', .head (.out rfl hs hg.linked.1) h2, h3, h4⟩
      | cons y w =>
        simp only [List.cons_append, List.cons.injEq] at hw
        obtain ⟨rfl, hw⟩ := hw
        obtain ⟨q, w', v', h2, h3, h4⟩ := ih hw hg'
        exact ⟨q, w', v', .head (.ret hs) h2, h3, h4⟩

/-! ## The end of the input -/

/-- After the end of the input there is nothing but transitions without label. -/
theorem late_moves {full atEnd p q st'} (hl : late p = true) (hn : Root N (ruleAt N p)) (h : Moves N full atEnd (p, []) (q, st')) :
    (.eps, q) ∈ N.out p ∧ st' = [] ∧ late q = true ∧ ruleAt N q = ruleAt N p := by
  cases h with
  | eps hm => exact ⟨hm, rfl, (W.eps hm).trans hl, W.rule hm⟩
  | eof _ hm => have := (W.eof hm).2.1; rw [hl] at this; cases this
  | call hm => have := (W.call hm).1; rw [hl] at this; cases this
  | out _ _ hm => exact absurd hn (not_root hm)

theorem late_star {full atEnd} {c c' : Nat × List Nat} (h : ReflTransGen (Moves N full atEnd) c c') (h0 : c.2 = []) (hl : late c.1 = true)
    (hn : Root N (ruleAt N c.1)) : c'.2 = [] ∧ late c'.1 = true ∧ ruleAt N c'.1 = ruleAt N c.1 ∧ ReflTransGen (Moves N true false) c c' := by
  induction h with
  | refl => exact ⟨h0, hl, rfl, .refl⟩
  | @tail b c _ h2 ih =>
    obtain ⟨h3, h4, h5, h9⟩ := ih
    obtain ⟨p, st⟩ := b
    obtain ⟨q, st'⟩ := c
    dsimp only at h3 h4 h5
    subst h3
    obtain ⟨h10, h6, h7, h8⟩ := late_moves W h4 (by rw [h5]; exact hn) h2
    subst h6
    exact ⟨rfl, h7, h8.trans h5, h9.tail (.eps h10)⟩

theorem late_done {full atEnd q st s} (h : Done N q st s) : st = [] → s = [] → late q = true → Root N (ruleAt N q) →
    ∃ q', ReflTransGen (Moves N full atEnd) (q, []) (q', []) ∧ isStop N q' = true := by
  induction h with
  | stop h => exact fun _ _ _ _ => ⟨_, .refl, h⟩
  | tok => intro _ h; cases h
  | eof hm => intro _ _ hl; have := (W.eof hm).2.1; rw [hl] at this; cases this
  | moves h1 _ ih =>
    rintro rfl rfl hl hn
    obtain ⟨h2, rfl, h4, h5⟩ := late_moves W hl hn h1
    obtain ⟨q', h6, h7⟩ := ih rfl rfl h4 (by rw [h5]; exact hn)
    exact ⟨q', .head (.eps h2) h6, h7⟩

end

end Rfc5322.AllStar
