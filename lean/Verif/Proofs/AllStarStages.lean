import Verif.Proofs.AllStar
import Mathlib.Data.Nat.Find

/-!
# The two stages
-/

namespace Rfc5322.AllStar

open Atn Gen Relation

variable {N : Net} {late : Nat → Bool} {G : Graphs} {r : Nat} {A : Nat → Prop}

/-- The configurations with their whole stacks tell which alternatives (`A`) can be completed. -/
structure Tracks (N : Net) (A : Nat → Prop) (C : Configs) (s : List Char) : Prop where
  fwd : ∀ i, A i → ∃ c, C c ∧ c.alt = i ∧ Done N c.state c.stack s
  bwd : ∀ c, C c → Done N c.state c.stack s → A c.alt

/-- The same, with configurations at which a token is needed. -/
structure Steady (N : Net) (late : Nat → Bool) (r : Nat) (A : Nat → Prop) (C : Configs) (s : List Char) : Prop where
  good : ∀ c, C c → Good N late r c.state c.stack
  going : ∀ c, C c → isStop N c.state = false
  fwd : ∀ i, A i → ∃ c, C c ∧ c.alt = i ∧ Now N c.state c.stack s.head? s.tail
  bwd : ∀ c, C c → Done N c.state c.stack s → A c.alt

/-- The smallest number with a property. -/
def Least (A : Nat → Prop) (i : Nat) : Prop := A i ∧ ∀ j, A j → i ≤ j

theorem Tracks.unique {C s n i} (h : Tracks N A C s) (hu : Unique C n) (hi : Least A i) : n = i := by
  obtain ⟨c, h1, h2, _⟩ := h.fwd i hi.1
  exact (hu.2 c h1).symm.trans h2

theorem Tracks.resolves {C s n i} (h : Tracks N A C s) (hu : Resolves G C n) (hi : Least A i) : n = i := by
  obtain ⟨c, h1, h2, h3⟩ := h.fwd i hi.1
  obtain ⟨⟨⟨st, h4⟩, h5⟩, h6⟩ := hu.2 c h1
  have h7 : n ≤ c.alt := h6 _ ⟨⟨c.stack, h1⟩, G.same_refl _ _ _⟩
  have h8 := G.same_stacks h5 c.stack h1
  have h9 : A n := h.bwd _ h8 h3
  have := hi.2 n h9
  omega

theorem roundLL_least {F B C s i next} (h : Tracks N A C s) (hi : Least A i) (hn : (¬ ∃ n, Unique C n) → (¬ ∃ n, Resolves G C n) → next = .alt i) :
    roundLL G F B C next = .alt i := by
  obtain ⟨c, h1, _⟩ := h.fwd i hi.1
  rw [roundLL, if_neg (fun hc => hc c h1)]
  split
  · rename_i hu
    rw [h.unique hu.choose_spec hi]
  · split
    · rename_i hu hr
      rw [h.resolves hr.choose_spec hi]
    · rename_i hu hr
      exact hn hu hr

theorem failed_ends {F C} : failed G F C ≠ .again := by
  rw [failed]; split <;> simp

theorem roundLL_ends {F B C next} (hn : (∃ c, C c) → (¬ ∃ n, Unique C n) → (¬ ∃ n, Resolves G C n) → next ≠ .again) : roundLL G F B C next ≠ .again := by
  rw [roundLL]
  split
  · exact failed_ends
  · rename_i hne
    split
    · simp
    · split
      · simp
      · rename_i hu hr
        refine hn ?_ hu hr
        obtain ⟨c, hc⟩ := Classical.not_forall.mp hne
        exact ⟨c, Classical.not_not.mp hc⟩

section
variable (W : Well N late)
include W

/-! ## The second stage -/

theorem Steady.tracks {C s} (h : Steady N late r A C s) : Tracks N A C s :=
  ⟨fun i hi => by obtain ⟨c, h1, h2, h3⟩ := h.fwd i hi; exact ⟨c, h1, h2, h3.done W⟩, h.bwd⟩

theorem steady_closure {D : Configs} {s} (h : Tracks N A D s) (hg : ∀ c, D c → Good N late r c.state c.stack) : Steady N late r A (closure N true false D) s where
  good := by
    rintro c ⟨_, d, h1, _, h2⟩
    exact Good.star W h2 (hg d h1)
  going := by
    rintro c ⟨h0, d, h1, _, h2⟩
    have h3 := Good.star W h2 (hg d h1)
    cases hs : isStop N c.state with
    | false => rfl
    | true =>
      rw [kept, if_pos hs, Bool.and_eq_true, List.isEmpty_iff] at h0
      dsimp only at h3
      rw [h0.1] at h3
      rw [h3.notStop W] at hs
      cases hs
  fwd i hi := by
    obtain ⟨d, h1, h2, h3⟩ := h.fwd i hi
    obtain ⟨q, st, h4, h5, h6⟩ := now_of_done W h3 (hg d h1)
    obtain ⟨l, q', h7, h8, h9⟩ := h6
    exact ⟨⟨i, q, st⟩, ⟨kept_of_takes W h7 h8, d, h1, h2, h4⟩, rfl, l, q', h7, h8, h9⟩
  bwd c := by
    rintro ⟨_, d, h1, h2, h3⟩ hd
    rw [← h2]
    exact h.bwd d h1 (Done.star h3 hd)

omit W in
theorem Steady.not_skipped {C : Configs} {s t} (h : Steady N late r A C s) : ∀ c, ¬ skipped N true C t c := by
  rintro c ⟨h1, h2, _⟩
  rw [h.going c h1] at h2
  cases h2

omit W in
theorem tracks_move {C : Configs} {t s} (h : Steady N late r A C (t :: s)) : Tracks N A (move N (some t) C) s where
  fwd i hi := by
    obtain ⟨c, h1, h2, l, q, h3, h4, h5⟩ := h.fwd i hi
    exact ⟨⟨i, q, c.stack⟩, ⟨c, l, h1, h3, h4, h2.symm, rfl⟩, rfl, h5⟩
  bwd d := by
    rintro ⟨c, l, h1, h2, h3, h4, h5⟩ hd
    rw [h4]
    rw [h5] at hd
    exact h.bwd c h1 (.tok h2 h3 hd)

theorem good_move {C : Configs} {t} (h : ∀ c, C c → Good N late r c.state c.stack) : ∀ c, move N (some t) C c → Good N late r c.state c.stack := by
  rintro d ⟨c, l, h1, h2, h3, _, h5⟩
  obtain ⟨is, k, rfl, _⟩ := takes_some h3
  rw [h5]
  exact (h c h1).set W h2

/-- After a token. -/
theorem reach_token {C : Configs} {t s} (h : Steady N late r A C (t :: s)) : Tracks N A (reachSet G N true C (some t)) s ∧
    ((¬ ∃ n, Unique (reachSet G N true C (some t)) n) → Steady N late r A (reachSet G N true C (some t)) s) := by
  have h1 := tracks_move h
  have h2 := steady_closure W h1 (good_move W h.good)
  have h3 : ¬ ∃ c, skipped N true C (some t) c := fun ⟨c, hc⟩ => h.not_skipped c hc
  by_cases hu : ∃ n, Unique (move N (some t) C) n
  · have e : reachSet G N true C (some t) = move N (some t) C := by
      simp [reachSet, merged, h3, hu, h.not_skipped]
    rw [e]
    exact ⟨h1, fun hn => absurd hu hn⟩
  · have e : reachSet G N true C (some t) = closure N true false (move N (some t) C) := by
      simp [reachSet, merged, h3, hu, h.not_skipped]
    rw [e]
    exact ⟨h2.tracks W, fun _ => h2⟩

/-- At the end of the input. -/
theorem reach_end {C : Configs} (h : Steady N late r A C []) : Tracks N A (reachSet G N true C none) [] ∧
    ∀ c, reachSet G N true C none c → c.state = N.stop r ∧ c.stack = [] := by
  have h3 : ¬ ∃ c, skipped N true C none c := fun ⟨c, hc⟩ => h.not_skipped c hc
  have h4 : reachSet G N true C none = fun c => closure N true true (move N none C) c ∧ isStop N c.state = true := by
    simp [reachSet, merged, h.not_skipped]
  rw [h4]
  have h5 : ∀ d, move N none C d → ∃ c, C c ∧ d.alt = c.alt ∧ (.eof, d.state) ∈ N.out c.state ∧ c.stack = [] ∧ d.stack = [] ∧ late d.state = true ∧
      ruleAt N d.state = r ∧ Root N r := by
    rintro d ⟨c, l, g1, g2, g3, g4, g5⟩
    cases takes_none g3
    obtain ⟨e1, e2, e3⟩ := (h.good c g1).eof W g2
    refine ⟨c, g1, g4, g2, e1, by rw [g5, e1], e2, e3, ?_⟩
    rw [← e3, W.rule g2]
    exact (W.eof g2).1
  have h6 : ∀ c, closure N true true (move N none C) c ∧ isStop N c.state = true → c.state = N.stop r ∧ c.stack = [] ∧ A c.alt := by
    rintro c ⟨⟨_, d, g1, g2, g3⟩, g4⟩
    obtain ⟨c0, e1, e2, e3, e4, e5, e6, e7, e8⟩ := h5 d g1
    obtain ⟨f1, f2, f3, f4⟩ := late_star W g3 e5 e6 (by rw [e7]; exact e8)
    dsimp only at f1 f2 f3
    refine ⟨?_, f1, ?_⟩
    · rw [← W.stop g4, f3, e7]
    · rw [← g2, e2]
      refine h.bwd c0 e1 ?_
      rw [e4]
      refine .eof e3 ?_
      have := Done.star (s := []) f4 (by rw [f1]; exact .stop g4)
      rw [e5] at this
      exact this
  refine ⟨⟨fun i hi => ?_, fun c hc _ => (h6 c hc).2.2⟩, fun c hc => ⟨(h6 c hc).1, (h6 c hc).2.1⟩⟩
  obtain ⟨c, g1, g2, l, q, g3, g4, g5⟩ := h.fwd i hi
  have hm : move N none C ⟨i, q, c.stack⟩ := ⟨c, l, g1, g3, g4, g2.symm, rfl⟩
  obtain ⟨c0, e1, e2, e3, e4, e5, e6, e7, e8⟩ := h5 _ hm
  dsimp only at e5 e6 e7
  obtain ⟨q', f1, f2⟩ := late_done (full := true) (atEnd := true) W g5 e5 rfl e6 (by rw [e7]; exact e8)
  refine ⟨⟨i, q', []⟩, ⟨⟨?_, _, hm, rfl, ?_⟩, f2⟩, rfl, .stop f2⟩
  · simp [kept, f2]
  · rw [e5]; exact f1

end

/-- If all configurations have reached the end of the outermost rule, there is a decision. -/
theorem resolves_end {C : Configs} {q : Nat} (h : ∀ c, C c → c.state = q ∧ c.stack = []) (hne : ∃ c, C c) : ∃ n, Resolves G C n := by
  have h0 : ∃ i, C ⟨i, q, []⟩ := by
    obtain ⟨c, hc⟩ := hne
    obtain ⟨h1, h2⟩ := h c hc
    exact ⟨c.alt, by rw [← h1, ← h2]; exact hc⟩
  have hall : ∀ i j, C ⟨i, q, []⟩ → C ⟨j, q, []⟩ → G.same C q i j := fun i j hi hj =>
    G.same_empty (fun st => ⟨fun hs => (h _ hs).2, fun e => e ▸ hi⟩) (fun st => ⟨fun hs => (h _ hs).2, fun e => e ▸ hj⟩)
  classical
  refine ⟨Nat.find h0, hne, fun c hc => ?_⟩
  obtain ⟨h1, h2⟩ := h c hc
  have hc' : C ⟨c.alt, q, []⟩ := by rw [← h1, ← h2]; exact hc
  rw [h1]
  refine ⟨⟨⟨[], Nat.find_spec h0⟩, hall _ _ hc' (Nat.find_spec h0)⟩, ?_⟩
  rintro j ⟨⟨st, hj⟩, _⟩
  have := (h _ hj).2
  dsimp only at this
  rw [this] at hj
  exact Nat.find_min' h0 hj

section
variable (W : Well N late)
include W

/-- The second stage is right. -/
theorem execLL_least {i} (hi : Least A i) : ∀ (s : List Char) {F} {C : Configs}, Steady N late r A C s → execLL G N F C s = .alt i
  | [], F, C, h => by
    obtain ⟨h1, h2⟩ := reach_end (G := G) W h
    rw [execLL]
    refine roundLL_least h1 hi fun _ hr => absurd (resolves_end h2 ?_) hr
    obtain ⟨c, hc, _⟩ := h1.fwd i hi.1
    exact ⟨c, hc⟩
  | t :: s, F, C, h => by
    obtain ⟨h1, h2⟩ := reach_token (G := G) W h
    rw [execLL]
    exact roundLL_least h1 hi fun hu _ => execLL_least hi s (h2 hu)

/-- The second stage comes to an end. -/
theorem execLL_ends : ∀ (s : List Char) {F} {C : Configs}, Steady N late r A C s → execLL G N F C s ≠ .again
  | [], F, C, h => by
    obtain ⟨_, h2⟩ := reach_end (G := G) W h
    rw [execLL]
    exact roundLL_ends fun hne _ hr => absurd (resolves_end h2 hne) hr
  | t :: s, F, C, h => by
    obtain ⟨_, h2⟩ := reach_token (G := G) W h
    rw [execLL]
    exact roundLL_ends fun _ hu _ => execLL_ends s (h2 hu)

end

/-! ## The first stage -/

/-- Alternatives that can be completed are covered by configurations, if their stacks are continued in the right way. -/
def Covers (N : Net) (late : Nat → Bool) (r : Nat) (A : Nat → Prop) (C : Configs) (s : List Char) : Prop :=
  ∀ i, A i → ∃ q w v, C ⟨i, q, w⟩ ∧ Good N late r q (w ++ v) ∧ Done N q (w ++ v) s

/-- The same, with configurations at which a token is needed. -/
def CoversNow (N : Net) (late : Nat → Bool) (r : Nat) (A : Nat → Prop) (C : Configs) (s : List Char) : Prop :=
  ∀ i, A i → ∃ q w v, C ⟨i, q, w⟩ ∧ Good N late r q (w ++ v) ∧ Now N q (w ++ v) s.head? s.tail

theorem Covers.widen {C s} (h : Covers N late r A C s) : Covers N late r A (G.widen C) s := by
  intro i hi
  obtain ⟨q, w, v, h1, h2, h3⟩ := h i hi
  obtain ⟨w1, w2, (rfl : w = w1 ++ w2), h5⟩ := G.widen_covers h1
  rw [List.append_assoc] at h2 h3
  exact ⟨q, w1, w2 ++ v, h5, h2, h3⟩

theorem CoversNow.widen {C s} (h : CoversNow N late r A C s) : CoversNow N late r A (G.widen C) s := by
  intro i hi
  obtain ⟨q, w, v, h1, h2, h3⟩ := h i hi
  obtain ⟨w1, w2, (rfl : w = w1 ++ w2), h5⟩ := G.widen_covers h1
  rw [List.append_assoc] at h2 h3
  exact ⟨q, w1, w2 ++ v, h5, h2, h3⟩

theorem roundSLL_least {F B C i full next} (h : ∀ i, A i → ∃ c, C c ∧ c.alt = i) (hi : Least A i) (hf : full = .alt i)
    (hn : (¬ ∃ n, Unique C n) → ¬ Conflict G N C → next = .alt i) : roundSLL G N F full B C next = .alt i := by
  obtain ⟨c, h1, h2⟩ := h i hi.1
  rw [roundSLL, if_neg (fun hc => hc c h1)]
  split
  · rename_i hu
    rw [← hu.choose_spec.2 c h1, h2]
  · split
    · exact hf
    · rename_i hu hc
      exact hn hu hc

theorem roundSLL_ends {F B C full next} (hf : full ≠ .again) (hn : (¬ ∃ n, Unique C n) → ¬ Conflict G N C → next ≠ .again) : roundSLL G N F full B C next ≠ .again := by
  rw [roundSLL]
  split
  · exact failed_ends
  · split
    · simp
    · split
      · exact hf
      · rename_i hu hc
        exact hn hu hc

/-- At the end of the input everything has ended. -/
theorem reach_end_stop {full C c} (h : reachSet G N full C none c) : isStop N c.state = true := by
  rcases h with h | h
  · exact h.2 rfl
  · exact h.1.2.1

/-- The first stage comes to an end. -/
theorem execSLL_ends {full} (hf : full ≠ .again) : ∀ (s : List Char) {F} {C : Configs}, execSLL G N F full C s ≠ .again
  | [], F, C => by
    rw [execSLL]
    exact roundSLL_ends hf fun _ hc => absurd (.inl fun c h => reach_end_stop h) hc
  | t :: s, F, C => by
    rw [execSLL]
    exact roundSLL_ends hf fun _ _ => execSLL_ends hf s

section
variable (W : Well N late)
include W

theorem covers_closure {D : Configs} {s} (h : Covers N late r A D s) : CoversNow N late r A (closure N false false D) s := by
  intro i hi
  obtain ⟨q, w, v, h1, h2, h3⟩ := h i hi
  obtain ⟨q', w', v', h4, h5, h6⟩ := now_of_done_sll W h3 rfl h2
  obtain ⟨l, q'', h7, h8, h9⟩ := h6
  exact ⟨q', w', v', ⟨kept_of_takes W h7 h8, _, h1, rfl, h4⟩, h5, l, q'', h7, h8, h9⟩

theorem covers_move {C : Configs} {t s} (h : CoversNow N late r A C (t :: s)) : Covers N late r A (move N (some t) C) s := by
  intro i hi
  obtain ⟨q, w, v, h1, h2, l, q', h3, h4, h5⟩ := h i hi
  obtain ⟨is, k, rfl, _⟩ := takes_some h4
  exact ⟨q', w, v, ⟨_, _, h1, h3, h4, rfl, rfl⟩, h2.set W h3, h5⟩

/-- After a token. -/
theorem reach_token_sll {C : Configs} {t s} (h : CoversNow N late r A C (t :: s)) : Covers N late r A (reachSet G N false C (some t)) s ∧
    ((¬ ∃ n, Unique (reachSet G N false C (some t)) n) → CoversNow N late r A (reachSet G N false C (some t)) s) := by
  have h1 : Covers N late r A (G.widen (move N (some t) C)) s := (covers_move W h).widen
  have h2 : CoversNow N late r A (G.widen (closure N false false (G.widen (move N (some t) C)))) s := (covers_closure W h1).widen
  have h3 : ∀ c, ¬ skipped N false C (some t) c := by
    rintro c ⟨_, _, h⟩
    rcases h with h | h <;> cases h
  have h4 : ¬ ∃ c, skipped N false C (some t) c := fun ⟨c, hc⟩ => h3 c hc
  by_cases hu : ∃ n, Unique (G.widen (move N (some t) C)) n
  · have e : reachSet G N false C (some t) = G.widen (move N (some t) C) := by
      simp [reachSet, merged, h3, hu]
    rw [e]
    exact ⟨h1, fun hn => absurd hu hn⟩
  · have e : reachSet G N false C (some t) = G.widen (closure N false false (G.widen (move N (some t) C))) := by
      simp [reachSet, merged, h3, hu]
    rw [e]
    refine ⟨fun i hi => ?_, fun _ => h2⟩
    obtain ⟨q, w, v, g1, g2, g3⟩ := h2 i hi
    exact ⟨q, w, v, g1, g2, g3.done W⟩

/-- At the end of the input. -/
theorem reach_end_sll {C : Configs} (h : CoversNow N late r A C []) : ∀ i, A i → ∃ c, reachSet G N false C none c ∧ c.alt = i := by
  intro i hi
  obtain ⟨q, w, v, h1, h2, l, q', h3, h4, h5⟩ := h i hi
  cases takes_none h4
  obtain ⟨e1, e2, e3⟩ := h2.eof W h3
  have hn : Root N (ruleAt N q') := by rw [W.rule h3]; exact (W.eof h3).1
  obtain ⟨rfl, rfl⟩ := List.append_eq_nil_iff.mp e1
  obtain ⟨q'', f1, f2⟩ := late_done (full := false) (atEnd := true) W h5 rfl rfl e2 hn
  obtain ⟨w1, w2, g1, g2⟩ := G.widen_covers (show move N none C ⟨i, q', []⟩ from ⟨_, _, h1, h3, h4, rfl, rfl⟩)
  obtain ⟨rfl, rfl⟩ := List.append_eq_nil_iff.mp g1.symm
  have hk : closure N false true (G.widen (move N none C)) ⟨i, q'', []⟩ := by
    refine ⟨?_, _, g2, rfl, f1⟩
    have := (late_star W f1 rfl e2 hn).2.2.1
    dsimp only at this
    rw [kept, if_pos f2]
    simp [epsilonOnly, f2, afterCalls_root (show Root N (ruleAt N q'') by rw [this]; exact hn)]
  obtain ⟨w1, w2, g3, g4⟩ := G.widen_covers hk
  obtain ⟨rfl, rfl⟩ := List.append_eq_nil_iff.mp g3.symm
  refine ⟨⟨i, q'', []⟩, ?_, rfl⟩
  refine .inl ⟨?_, fun _ => f2⟩
  simpa [merged] using g4

/-- The first stage is right. -/
theorem execSLL_least {i full} (hi : Least A i) (hf : full = .alt i) : ∀ (s : List Char) {F} {C : Configs}, CoversNow N late r A C s → execSLL G N F full C s = .alt i
  | [], F, C, h => by
    rw [execSLL]
    exact roundSLL_least (reach_end_sll W h) hi hf fun _ hc => absurd (.inl fun c h => reach_end_stop h) hc
  | t :: s, F, C, h => by
    obtain ⟨h1, h2⟩ := reach_token_sll (G := G) W h
    rw [execSLL]
    refine roundSLL_least (fun i hi => ?_) hi hf fun hu _ => execSLL_least hi hf s (h2 hu)
    obtain ⟨q, w, v, g1, _⟩ := h1 i hi
    exact ⟨_, g1, rfl⟩

end

end Rfc5322.AllStar
