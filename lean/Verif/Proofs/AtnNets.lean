import Verif.Model.AtnNets
import Verif.Proofs.AtnPref

/-!
# The two networks have the structure claimed
-/

namespace Rfc5322.Atn

open Spec

theorem decode_parser : decode parserData = some parserNet := by
  have h : (decode parserData).isSome = true := by decide +kernel
  obtain ⟨N, hN⟩ := Option.isSome_iff_exists.mp h
  rw [parserNet, hN]; rfl

theorem decode_lexer : decode lexerData = some lexerNet := by
  have h : (decode lexerData).isSome = true := by decide +kernel
  obtain ⟨N, hN⟩ := Option.isSome_iff_exists.mp h
  rw [lexerNet, hN]; rfl

/-- All rules have been checked. -/
def checkAll (N : Net) : Bool := (List.range 67).all fun i => match ruleOf i with
  | some r => checkRule (Trie.build 11 N.edges).out N.start i (N.stop i) (cert r)
  | none => false

theorem good_of_checkAll {N : Net} (hN : checkAll N = true) : Good N := by
  intro i R hi
  have hlt : i < 67 := by
    unfold ruleOf at hi
    exact (List.getElem?_eq_some_iff.mp hi).1
  have h := List.all_eq_true.mp hN i (List.mem_range.mpr hlt)
  rw [hi] at h
  have e : (Trie.build 11 N.edges).out = N.out := funext (out_build N)
  rw [e] at h
  exact h

theorem parser_good : Good parserNet := good_of_checkAll (by decide +kernel)

/-! ## The lexer -/

/-- What is checked of a lexer rule. -/
def lexCheck (N : Nat → List (Label × Nat)) (start stop : Nat) (k : Tok) : Bool :=
  match N start with
  | [(.eps, x)] =>
    match N x with
    | [(.set is, y)] => is == k.ranges && N y == [(.eps, stop)] && N stop == []
    | _ => false
  | _ => false

theorem lexer_checked : (List.range 70).all (fun i => match Tok.all[i]? with
    | some k => lexCheck lexerNet.out (lexerNet.start i) (lexerNet.stop i) k && lexerNet.stop i == 2 * i + 2 && lexerNet.type i == i + 1
    | none => false) = true := by decide +kernel

theorem lexer_modes : lexerNet.modes.headD 0 = 0 := by decide +kernel

theorem lexer_rules : lexerNet.rules.length = 70 := by decide +kernel

theorem lexer_begin : lexerNet.out 0 = (List.range 70).map fun i => (.eps, lexerNet.start i) := by decide +kernel

theorem lexer_rule {i : Nat} (hi : i < 70) : ∃ k x y, Tok.all[i]? = some k ∧ lexerNet.out (lexerNet.start i) = [(.eps, x)] ∧
    lexerNet.out x = [(.set k.ranges, y)] ∧ lexerNet.out y = [(.eps, lexerNet.stop i)] ∧ lexerNet.out (lexerNet.stop i) = [] ∧
    lexerNet.stop i = 2 * i + 2 ∧ lexerNet.type i = i + 1 := by
  have h := List.all_eq_true.mp lexer_checked i (List.mem_range.mpr hi)
  split at h
  · rename_i k hk
    simp only [Bool.and_eq_true, beq_iff_eq] at h
    obtain ⟨⟨h, h2⟩, h3⟩ := h
    unfold lexCheck at h
    split at h
    · rename_i x hx
      split at h
      · rename_i is y hy
        simp only [Bool.and_eq_true, beq_iff_eq] at h
        obtain ⟨⟨h4, h5⟩, h6⟩ := h
        exact ⟨k, x, y, hk, hx, h4 ▸ hy, h5, h6, h2, h3⟩
      · cases h
    · cases h
  · cases h

abbrev LexPath (r n p : Nat) (s : List Char) (ts : List Tree) (s' : List Char) : Prop :=
  Path (fun _ => none) (fun c => some c.toNat) lexerNet (fun _ _ _ _ _ => False) r n p s ts s'

theorem lexPath_step {r n p l q s ts s'} (h : LexPath r n p s ts s') (ho : lexerNet.out p = [(l, q)]) (hr : lexerNet.out r = []) :
    ∃ m ts1 s1 us, Take (fun _ => none) (fun c => some c.toNat) (fun _ _ _ _ _ => False) l s ts1 s1 ∧ LexPath r m q s1 us s' := by
  cases h with
  | done => rw [ho] at hr; cases hr
  | step h1 h2 h3 =>
    rw [ho, List.mem_singleton] at h1
    injection h1 with h1 h1'
    subst h1 h1'
    exact ⟨_, _, _, _, h2, h3⟩

theorem accepts_iff {i : Nat} {s s' : List Char} : Accepts lexerNet i s s' ↔
    ∃ c k, s = c :: s' ∧ Tok.all[i]? = some k ∧ k.matches c = true := by
  constructor
  · rintro ⟨hi, n, ts, h⟩
    rw [lexer_rules] at hi
    rw [lexer_modes] at h
    obtain ⟨_, _, _, _, _, _, _, hr, hri, _⟩ := lexer_rule hi
    have h0 : lexerNet.out 0 ≠ [] := by rw [lexer_begin]; simp
    generalize hp : (0 : Nat) = p at h
    cases h with
    | done => exact absurd hr (hp ▸ h0)
    | step h1 h2 h3 =>
      rw [← hp, lexer_begin, List.mem_map] at h1
      obtain ⟨j, hj, e⟩ := h1
      injection e with e1 e2
      subst e1 e2
      cases h2
      obtain ⟨k, x, y, hk, hx, hy, hz, hs, hsj, _⟩ := lexer_rule (List.mem_range.mp hj)
      obtain ⟨m, ts1, s1, us, ht, h4⟩ := lexPath_step h3 hx hr
      cases ht
      obtain ⟨m, ts1, s1, us, ht, h5⟩ := lexPath_step h4 hy hr
      obtain ⟨m, ts2, s2, us, ht', h6⟩ := lexPath_step h5 hz hr
      cases ht'
      have : lexerNet.stop j = lexerNet.stop i ∧ s' = s1 := by
        generalize hq : lexerNet.stop j = q at h6
        cases h6 with
        | done => exact ⟨rfl, rfl⟩
        | step h7 => rw [← hq, hs] at h7; cases h7
      obtain ⟨e, e'⟩ := this
      subst e'
      have hij : j = i := by omega
      subst hij
      cases ht with
      | set h7 h8 =>
        rename_i c k'
        injection h7 with h7
        exact ⟨c, k, rfl, hk, by rw [← h7] at h8; exact h8⟩
  · rintro ⟨c, k, rfl, hk, hc⟩
    have hi : i < 70 := (List.getElem?_eq_some_iff.mp hk).1
    obtain ⟨k', x, y, hk', hx, hy, hz, hs, hsj, _⟩ := lexer_rule hi
    rw [hk] at hk'
    injection hk' with e
    subst e
    refine ⟨by rw [lexer_rules]; exact hi, 4, [] ++ ([] ++ ([.tok c] ++ ([] ++ []))), ?_⟩
    rw [lexer_modes]
    refine .step (l := .eps) (q := lexerNet.start i) (by rw [lexer_begin]; exact List.mem_map.mpr ⟨i, List.mem_range.mpr hi, rfl⟩) .eps ?_
    refine .step (l := .eps) (q := x) (by simp [hx]) .eps ?_
    refine .step (l := .set k.ranges) (q := y) (by simp [hy]) (.set rfl hc) ?_
    exact .step (l := .eps) (by simp [hz]) .eps .done

theorem typeOf_index {i : Nat} {k : Tok} (h : Tok.all[i]? = some k) : typeOf k = i + 1 := by
  have : ∀ i < 70, ∀ k ∈ Tok.all, Tok.all[i]? = some k → typeOf k = i + 1 := by decide +kernel
  exact this i (List.getElem?_eq_some_iff.mp h).1 k (mem_all k) h

/-- Tokens with types. -/
def typed (s : List Char) : List (Nat × List Char) := (tokenize s).map fun c => ((tokenType c).getD 0, [c])

theorem accepts_type {i : Nat} {k : Tok} {c : Char} (h : Tok.all[i]? = some k) (hc : k.matches c = true) :
    (lexRune c).isSome = true ∧ (tokenType c).getD 0 = lexerNet.type i := by
  have hl := (lexRune_eq_some_iff c k).mpr hc
  obtain ⟨_, _, _, _, _, _, _, _, _, ht⟩ := lexer_rule (List.getElem?_eq_some_iff.mp h).1
  refine ⟨by rw [hl]; rfl, ?_⟩
  rw [tokenType, hl, ht]
  exact typeOf_index h

/-- The lexer network yields the tokens of the model. -/
theorem lexes_iff {s : List Char} {ts : List (Nat × List Char)} : Lexes lexerNet s ts ↔ ts = typed s := by
  constructor
  · intro h
    induction h with
    | nil => rfl
    | @token i w s' ts h1 h2 h3 h4 _ ih =>
      obtain ⟨c, k, e, hk, hc⟩ := accepts_iff.mp h1
      have hw : w = [c] := by
        have : w ++ s' = [c] ++ s' := e
        exact List.append_cancel_right this
      subst hw
      obtain ⟨hl, ht⟩ := accepts_type hk hc
      rw [ih, ← ht]
      simp [typed, tokenize, hl]
    | @skip c s ts h1 _ ih =>
      have hl : (lexRune c).isSome = false := by
        cases hl : lexRune c with
        | none => rfl
        | some k =>
          have hm := (lexRune_eq_some_iff c k).mp hl
          obtain ⟨i, hi⟩ := List.getElem?_of_mem (mem_all k)
          exact absurd (accepts_iff.mpr ⟨c, k, rfl, hi, hm⟩) (h1 i s)
      rw [ih]
      simp [typed, tokenize, hl]
  · intro h
    subst h
    induction s with
    | nil => exact .nil
    | cons c s ih =>
      cases hl : lexRune c with
      | none =>
        have e : typed (c :: s) = typed s := by simp [typed, tokenize, hl]
        rw [e]
        refine .skip (fun i s' h => ?_) ih
        obtain ⟨c', k, e, _, hc⟩ := accepts_iff.mp h
        injection e with e _
        subst e
        rw [(lexRune_eq_some_iff c k).mpr hc] at hl
        cases hl
      | some k =>
        have hm := (lexRune_eq_some_iff c k).mp hl
        obtain ⟨i, hi⟩ := List.getElem?_of_mem (mem_all k)
        have e : typed (c :: s) = (lexerNet.type i, [c]) :: typed s := by
          have := (accepts_type hi hm).2
          simp [typed, tokenize, hl, ← this]
        rw [e]
        refine .token (w := [c]) (accepts_iff.mpr ⟨c, k, rfl, hi, hm⟩) (fun j s'' h => ?_) (fun j hj h => ?_) (by simp) ih
        · obtain ⟨c', k', e, _⟩ := accepts_iff.mp h
          have e := (List.cons.inj e).2
          subst e
          exact Nat.le_refl _
        · obtain ⟨c', k', e, hj', hc'⟩ := accepts_iff.mp h
          injection e with e _
          subst e
          rw [(lexRune_eq_some_iff c k').mpr hc'] at hl
          injection hl with hl
          subst hl
          have h1 := typeOf_index hi
          have h2 := typeOf_index hj'
          omega

end Rfc5322.Atn
