import Verif.Model.LexerSim
import Verif.Proofs.AtnNets

/-!
# The lexer of the runtime yields the tokens expected
-/

namespace Rfc5322.LexerSim

open Atn Gen AllStar

/-- What is checked of a rule of the lexer: its states and their transitions. -/
def ruleCheck (N : Net) (i : Nat) : Bool := match Tok.all[i]? with
  | none => false
  | some k => N.out (2 * i + 1) == [(.eps, 2 * i + 141)] && N.out (2 * i + 141) == [(.set k.ranges, 2 * i + 142)] && N.out (2 * i + 142) == [(.eps, 2 * i + 2)] &&
    N.out (2 * i + 2) == [] && !isStop N (2 * i + 1) && !isStop N (2 * i + 141) && !isStop N (2 * i + 142) && isStop N (2 * i + 2) && ruleAt N (2 * i + 2) == i &&
    N.type i == i + 1

theorem rules_checked : ((List.range 70).all (ruleCheck lexerNet) && (lexerNet.out 0 == (List.range 70).map fun i => (.eps, 2 * i + 1)) &&
    lexerNet.modes.headD 0 == 0) = true := by decide +kernel

/-- The same as propositions. -/
structure Rules (N : Net) : Prop where
  modes : N.modes.headD 0 = 0
  first : N.out 0 = (List.range 70).map fun i => (.eps, 2 * i + 1)
  start : ∀ {i k}, Tok.all[i]? = some k → N.out (2 * i + 1) = [(.eps, 2 * i + 141)] ∧ isStop N (2 * i + 1) = false
  char : ∀ {i k}, Tok.all[i]? = some k → N.out (2 * i + 141) = [(.set k.ranges, 2 * i + 142)] ∧ isStop N (2 * i + 141) = false
  after : ∀ {i k}, Tok.all[i]? = some k → N.out (2 * i + 142) = [(.eps, 2 * i + 2)] ∧ isStop N (2 * i + 142) = false
  stop : ∀ {i k}, Tok.all[i]? = some k → N.out (2 * i + 2) = [] ∧ isStop N (2 * i + 2) = true ∧ ruleAt N (2 * i + 2) = i ∧ N.type i = i + 1

theorem rules_of {N : Net} (h : ((List.range 70).all (ruleCheck N) && (N.out 0 == (List.range 70).map fun i => (.eps, 2 * i + 1)) && N.modes.headD 0 == 0) = true) :
    Rules N := by
  rw [Bool.and_eq_true, Bool.and_eq_true] at h
  obtain ⟨⟨h1, h2⟩, h3⟩ := h
  have key : ∀ {i k}, Tok.all[i]? = some k → ruleCheck N i = true := fun {i k} hk =>
    List.all_eq_true.mp h1 i (List.mem_range.mpr (List.getElem?_eq_some_iff.mp hk).1)
  refine ⟨by simpa using h3, by simpa using h2, ?_, ?_, ?_, ?_⟩ <;> intro i k hk <;> have := key hk <;> rw [ruleCheck, hk] at this <;>
    simp only [Bool.and_eq_true, beq_iff_eq, Bool.not_eq_true'] at this
  · exact ⟨this.1.1.1.1.1.1.1.1.1, this.1.1.1.1.1.2⟩
  · exact ⟨this.1.1.1.1.1.1.1.1.2, this.1.1.1.1.2⟩
  · exact ⟨this.1.1.1.1.1.1.1.2, this.1.1.1.2⟩
  · exact ⟨this.1.1.1.1.1.1.2, this.1.1.2, this.1.2, this.2⟩

theorem lexer_rules : Rules lexerNet := rules_of rules_checked

variable {N : Net} (hN : Rules N)
include hN

theorem closure_start {n i k C} (hk : Tok.all[i]? = some k) :
    closure N false (n + 3) ⟨i + 1, 2 * i + 1, []⟩ C = some (add C ⟨i + 1, 2 * i + 141, []⟩) := by
  obtain ⟨h1, h2⟩ := hN.start hk
  obtain ⟨h3, h4⟩ := hN.char hk
  have e1 : epsilonOnly N (2 * i + 1) = true := by simp [epsilonOnly, h1, h2, isEpsilon]
  have e2 : epsilonOnly N (2 * i + 141) = false := by simp [epsilonOnly, h3, h4, isEpsilon]
  rw [closure, if_neg (by simp [h2]), if_pos e1, h1]
  simp only [List.foldlM_cons, List.foldlM_nil]
  rw [closure]
  dsimp only
  rw [if_neg (by simp [h4]), if_neg (by simp [e2]), h3]
  rfl

theorem closure_after {atEnd n i k C} (hk : Tok.all[i]? = some k) :
    closure N atEnd (n + 3) ⟨i + 1, 2 * i + 142, []⟩ C = some (add C ⟨i + 1, 2 * i + 2, []⟩) := by
  obtain ⟨h1, h2⟩ := hN.after hk
  obtain ⟨h3, h4, _⟩ := hN.stop hk
  have e1 : epsilonOnly N (2 * i + 142) = true := by simp [epsilonOnly, h1, h2, isEpsilon]
  rw [closure, if_neg (by simp [h2]), if_pos e1, h1]
  simp only [List.foldlM_cons, List.foldlM_nil]
  rw [closure]
  dsimp only
  rw [if_pos h4]
  rfl

omit hN in
theorem tok_at {i : Nat} (h : i < 70) : ∃ k, Tok.all[i]? = some k := ⟨_, List.getElem?_eq_getElem h⟩

/-- The configuration of a rule at the beginning. -/
def leaf (i : Nat) : Conf := ⟨i + 1, 2 * i + 141, []⟩

/-- The configuration of a rule at its end. -/
def final (i : Nat) : Conf := ⟨i + 1, 2 * i + 2, []⟩

theorem startState_eq {n} : startState N (n + 3) = some ((List.range 70).map leaf) := by
  have key : ∀ j, j ≤ 70 → (((List.range j).map fun i => ((Label.eps, 2 * i + 1) : Label × Nat)).zipIdx).foldlM
      (fun C e => closure N false (n + 3) ⟨e.2 + 1, e.1.2, []⟩ C) [] = some ((List.range j).map leaf) := by
    intro j
    induction j with
    | zero => intro _; rfl
    | succ j ih =>
      intro hj
      obtain ⟨k, hk⟩ := tok_at (i := j) hj
      rw [List.range_succ, List.map_append, List.zipIdx_append, List.foldlM_append, ih (Nat.le_of_succ_le hj)]
      simp only [List.map_cons, List.map_nil, List.zipIdx_cons, List.zipIdx_nil, List.length_map, List.length_range, Nat.zero_add, List.foldlM_cons, List.foldlM_nil]
      show (closure N false (n + 3) ⟨j + 1, 2 * j + 1, []⟩ _).bind (fun C => some C) = _
      rw [closure_start hN hk, add, if_neg]
      · rw [List.map_append]; rfl
      · intro hm
        obtain ⟨i, hi, he⟩ := List.mem_map.mp hm
        have := List.mem_range.mp hi
        simp only [leaf, Conf.mk.injEq] at he
        omega
  rw [startState, hN.modes, hN.first]
  exact key 70 (Nat.le_refl _)

/-- One step from the configuration of a rule. -/
theorem step_leaf {n i k C} (hk : Tok.all[i]? = some k) (t : Option Char) :
    (N.out (leaf i).state).foldlM (fun R e => if takes e.1 t then closure N t.isNone (n + 3) ⟨(leaf i).alt, e.2, (leaf i).stack⟩ R else some R) C =
      some (if (match t with | some c => k.matches c | none => false) then add C (final i) else C) := by
  rw [show (leaf i).state = 2 * i + 141 from rfl, (hN.char hk).1]
  simp only [List.foldlM_cons, List.foldlM_nil]
  cases t with
  | none => rfl
  | some c =>
    show (if takes (.set k.ranges) (some c) = true then _ else _ : Option Confs).bind _ = _
    have e : takes (.set k.ranges) (some c) = k.matches c := rfl
    rw [e]
    by_cases h : k.matches c = true
    · rw [if_pos h]
      dsimp only
      rw [if_pos h]
      show (closure N false (n + 3) ⟨i + 1, 2 * i + 142, []⟩ C).bind _ = _
      rw [closure_after hN hk]
      rfl
    · rw [if_neg h]
      dsimp only
      rw [if_neg h]
      rfl

/-- After a character of no type. -/
theorem reach_none {n} {t : Option Char} (h : ∀ (k : Tok) c, t = some c → k.matches c = false) : ∀ (l : List Nat) (C : Confs), (∀ i ∈ l, i < 70) →
    (l.map leaf).foldlM (fun R c => (N.out c.state).foldlM (fun R e => if takes e.1 t then closure N t.isNone (n + 3) ⟨c.alt, e.2, c.stack⟩ R else some R) R) C = some C
  | [], _, _ => rfl
  | i :: l, C, hl => by
    obtain ⟨k, hk⟩ := tok_at (hl i (by simp))
    rw [List.map_cons, List.foldlM_cons, step_leaf hN hk]
    rw [if_neg (by
      cases t with
      | none => simp
      | some c => simp [h k c rfl])]
    exact reach_none h l C fun i hi => hl i (by simp [hi])

omit hN in
theorem matches_unique {i j : Nat} {k k' : Tok} {c : Char} (hi : Tok.all[i]? = some k) (hj : Tok.all[j]? = some k') (h : k.matches c = true) (h' : k'.matches c = true) :
    i = j := by
  have h1 := (lexRune_eq_some_iff c k).mpr h
  rw [(lexRune_eq_some_iff c k').mpr h'] at h1
  cases h1
  have := typeOf_index hi
  rw [typeOf_index hj] at this
  omega

/-- After a character of type `k`. -/
theorem reach_one {n i k} {c : Char} (hk : Tok.all[i]? = some k) (hc : k.matches c = true) : ∀ (l : List Nat) (C : Confs), (∀ j ∈ l, j < 70) → l.Nodup → i ∈ l → final i ∉ C →
    (l.map leaf).foldlM (fun R d => (N.out d.state).foldlM (fun R e => if takes e.1 (some c) then closure N (some c).isNone (n + 3) ⟨d.alt, e.2, d.stack⟩ R else some R) R) C =
      some (C ++ [final i])
  | [], _, _, _, h, _ => by cases h
  | j :: l, C, hl, hd, hm, hC => by
    obtain ⟨k', hk'⟩ := tok_at (hl j (by simp))
    rw [List.map_cons, List.foldlM_cons, step_leaf hN hk']
    by_cases hj : j = i
    · subst hj
      rw [hk] at hk'
      cases hk'
      dsimp only
      rw [if_pos hc, add, if_neg hC]
      -- no other rule matches
      have hrest : ∀ (l : List Nat) (C : Confs), (∀ x ∈ l, x < 70) → j ∉ l →
          (l.map leaf).foldlM (fun R d => (N.out d.state).foldlM (fun R e => if takes e.1 (some c) then closure N (some c).isNone (n + 3) ⟨d.alt, e.2, d.stack⟩ R else some R) R) C
            = some C := by
        intro l
        induction l with
        | nil => intro C _ _; rfl
        | cons x l ih =>
          intro C hl hn
          obtain ⟨k'', hk''⟩ := tok_at (hl x (by simp))
          rw [List.map_cons, List.foldlM_cons, step_leaf hN hk'']
          dsimp only
          rw [if_neg (fun h => hn (by simp [matches_unique hk hk'' hc h]))]
          exact ih C (fun y hy => hl y (by simp [hy])) (fun h => hn (by simp [h]))
      exact hrest l _ (fun x hx => hl x (by simp [hx])) (List.nodup_cons.mp hd).1
    · dsimp only
      rw [if_neg (fun h => hj (matches_unique hk' hk h hc))]
      exact reach_one hk hc l C (fun x hx => hl x (by simp [hx])) (List.nodup_cons.mp hd).2 (by simpa [Ne.symm hj] using hm) hC

theorem reach_final {n i k t} (hk : Tok.all[i]? = some k) : reach N n [final i] t = some [] := by
  rw [reach, List.foldlM_cons, show (final i).state = 2 * i + 2 from rfl, (hN.stop hk).1]
  rfl

theorem reach_start {n} (t : Option Char) : (∃ i k c, t = some c ∧ Tok.all[i]? = some k ∧ k.matches c = true ∧ reach N (n + 3) ((List.range 70).map leaf) t = some [final i]) ∨
    ((∀ (k : Tok) c, t = some c → k.matches c = false) ∧ reach N (n + 3) ((List.range 70).map leaf) t = some []) := by
  by_cases h : ∀ (k : Tok) c, t = some c → k.matches c = false
  · exact .inr ⟨h, reach_none hN h _ _ fun i hi => List.mem_range.mp hi⟩
  · left
    have h : ∃ (k : Tok) (c : Char), t = some c ∧ k.matches c = true := by
      simp only [Classical.not_forall] at h
      obtain ⟨k, c, h1, h2⟩ := h
      exact ⟨k, c, h1, by simpa using h2⟩
    obtain ⟨k, c, rfl, hc⟩ := h
    obtain ⟨i, hi⟩ := List.getElem?_of_mem (mem_all k)
    refine ⟨i, k, c, rfl, hi, hc, ?_⟩
    exact reach_one hN hi hc _ [] (fun j hj => List.mem_range.mp hj) List.nodup_range (List.mem_range.mpr (List.getElem?_eq_some_iff.mp hi).1) (by simp)

theorem accepts_start : accepts N ((List.range 70).map leaf) = none := by
  rw [accepts, List.find?_eq_none.mpr]
  · rfl
  · intro c hc
    obtain ⟨i, hi, rfl⟩ := List.mem_map.mp hc
    obtain ⟨k, hk⟩ := tok_at (List.mem_range.mp hi)
    rw [show (leaf i).state = 2 * i + 141 from rfl, (hN.char hk).2]
    simp

theorem accepts_final {i k} (hk : Tok.all[i]? = some k) : accepts N [final i] = some (i + 1) := by
  obtain ⟨_, h1, h2, h3⟩ := hN.stop hk
  rw [accepts, List.find?_cons_of_pos (by exact h1)]
  show some (N.type (ruleAt N (2 * i + 2))) = _
  rw [h2, h3]

/-! ## Tables -/

omit hN in
/-- Entries are what would be computed. -/
theorem Occurs.sound {n κ} (h : Occurs N n κ) : ∀ {C t R}, κ C t = some R → reach N n C t = some R := by
  induction h with
  | refl => intro C t R h; cases h
  | tail _ h1 ih =>
    cases h1 with
    | edge _ h2 =>
      intro C t R h
      dsimp only at h
      split at h
      · rename_i e
        cases h
        rw [e.1, e.2]; exact h2
      · exact ih h

omit hN in
theorem target_eq {n κ} (h : Occurs N n κ) (C : Confs) (t : Option Char) : target N n κ C t = reach N n C t := by
  rw [target]
  split
  · rename_i R hR
    exact (h.sound hR).symm
  · rfl

/-! ## Tokens -/

theorem match_nil {n κ} (hκ : ∀ a b, Occurs N (n + 3) (κ a b)) : matchToken N (n + 3) κ [] = .eof := by
  rw [matchToken, startState_eq hN]
  dsimp only
  rw [exec, target_eq (hκ _ _), accepts_start hN]
  rcases reach_start hN (n := n) none with ⟨i, k, c, h, _⟩ | ⟨_, h⟩
  · cases h
  · rw [h]; rfl

theorem match_cons {n κ} (hκ : ∀ a b, Occurs N (n + 3) (κ a b)) (c : Char) (s : List Char) :
    (∃ i k, Tok.all[i]? = some k ∧ k.matches c = true ∧ matchToken N (n + 3) κ (c :: s) = .token (i + 1) s) ∨
      (∀ k : Tok, k.matches c = false) ∧ matchToken N (n + 3) κ (c :: s) = .noViable (c :: s) := by
  rw [matchToken, startState_eq hN]
  dsimp only
  rw [exec, target_eq (hκ _ _), accepts_start hN]
  rcases reach_start hN (n := n) (some c) with ⟨i, k, c', e, hk, hc, h⟩ | ⟨h1, h⟩
  · cases e
    left
    refine ⟨i, k, hk, hc, ?_⟩
    rw [h]
    dsimp only
    rw [accepts_final hN hk]
    cases s with
    | nil => rw [exec, target_eq (hκ _ _), reach_final hN hk]; rfl
    | cons d s => rw [exec, target_eq (hκ _ _), reach_final hN hk]; rfl
  · exact .inr ⟨fun k => h1 k c rfl, by rw [h]; rfl⟩

theorem lex_eq {n κ} (hκ : ∀ a b, Occurs N (n + 3) (κ a b)) : ∀ (m : Nat) (s : List Char), s.length < m → lex N (n + 3) κ m s = some (typed s)
  | 0, _, h => by omega
  | m + 1, [], _ => by rw [lex, match_nil hN hκ]; rfl
  | m + 1, c :: s, hm => by
    have ih : (if s = [] then some [] else lex N (n + 3) κ m s) = some (typed s) := by
      split
      · rename_i h; rw [h]; rfl
      · exact lex_eq hκ m s (by simp at hm; omega)
    rcases match_cons hN hκ c s with ⟨i, k, hk, hc, h⟩ | ⟨hc, h⟩
    · rw [lex, h]
      dsimp only
      rw [ih]
      have h1 := (lexRune_eq_some_iff c k).mpr hc
      have h2 : tokenType c = some (i + 1) := by rw [tokenType, h1, Option.map_some, typeOf_index hk]
      simp [typed, tokenize, h1, h2]
    · rw [lex, h]
      dsimp only
      rw [List.tail_cons, ih]
      have h1 : lexRune c = none := by
        cases h2 : lexRune c with
        | none => rfl
        | some k => have := (lexRune_eq_some_iff c k).mp h2; rw [hc k] at this; cases this
      simp [typed, tokenize, h1]

end Rfc5322.LexerSim
