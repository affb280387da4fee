import Verif.Proofs.GenNorm

/-!
# What `chk` has found out
-/

namespace Rfc5322.Gen

open Atn

section
variable {out : Nat → List (Label × Nat)} {start : Nat → Nat} {decisions : List Nat} {rule : Nat → Nat} {lf : Nat → Nat} {Q : Nat}

theorem chk_seq {a b p q} (h : chk out start decisions rule lf Q (.seq a b) p = some q) :
    ∃ x, chk out start decisions rule lf Q a p = some x ∧ chk out start decisions rule lf Q b x = some q := by
  rw [chk.eq_def] at h
  dsimp only at h
  split at h
  · exact ⟨_, by assumption, h⟩
  · cases h

theorem chk_tok {st k p q} (h : chk out start decisions rule lf Q (.tok st k) p = some q) :
    ∃ is, out (norm out fuel p) = [(.set is, q)] ∧ spread is = [typeOf k] := by
  rw [chk.eq_def] at h
  dsimp only at h
  split at h
  · split at h
    · cases h; exact ⟨_, by assumption, by assumption⟩
    · cases h
  · cases h

theorem chk_eof {st p q} (h : chk out start decisions rule lf Q (.eof st) p = some q) : out (norm out fuel p) = [(.eof, q)] := by
  rw [chk.eq_def] at h
  dsimp only at h
  split at h
  · cases h; assumption
  · cases h

theorem chk_set {st t p q} (h : chk out start decisions rule lf Q (.set st t) p = some q) :
    ∃ is, out (norm out fuel p) = [(.set is, q)] ∧ t.eval 0 = false ∧ ∀ k ∈ types, k = 0 ∨ t.eval (laOf k) = inSet is k := by
  rw [chk.eq_def] at h
  dsimp only at h
  split at h
  · split at h
    · rename_i hall
      cases h
      refine ⟨_, by assumption, hall.1, fun k hk => ?_⟩
      simpa using List.all_eq_true.mp hall.2 k hk
    · cases h
  · cases h

theorem chk_call {st R p q} (h : chk out start decisions rule lf Q (.call st R) p = some q) :
    norm out fuel p = st ∧ rule st = Q ∧ ∃ i, out st = [(.call (start i) i, q)] ∧ ruleOf i = some R := by
  rw [chk.eq_def] at h
  dsimp only at h
  split at h
  · rename_i h1
    split at h
    · split at h
      · rename_i h2
        cases h
        obtain ⟨h2, h3⟩ := h2
        subst h3
        exact ⟨h1.1, h1.2, _, by assumption, h2⟩
      · cases h
    · cases h
  · cases h

theorem same_all {l : List Nat} {x : Nat} (h : same l = some x) : ∀ y ∈ l, y = x := by
  cases l with
  | nil => cases h
  | cons j js =>
    rw [same] at h
    split at h
    · rename_i h1
      cases h
      intro y hy
      rcases List.mem_cons.mp hy with h2 | h2
      · exact h2
      · simpa using List.all_eq_true.mp h1 y h2
    · cases h

theorem chk_switchAlt {st d cs p q} (h : chk out start decisions rule lf Q (.switchAlt st d cs) p = some q) :
    decisions[d]? = some (norm out fuel p) ∧ norm out fuel st = norm out fuel p ∧ rule st = Q ∧ rule (norm out fuel p) = Q ∧
      ∃ l, chkAlt out start decisions rule lf Q 1 cs (out (norm out fuel p)) = some l ∧ ∀ y ∈ l, y = q := by
  rw [chk.eq_def] at h
  dsimp only at h
  split at h
  · rename_i h1
    split at h
    · exact ⟨h1.1, h1.2.1, h1.2.2.1, h1.2.2.2, _, by assumption, same_all h⟩
    · cases h
  · cases h

theorem chk_ifLa {st t c p q} (h : chk out start decisions rule lf Q (.ifLa st t c) p = some q) :
    norm out fuel st = norm out fuel p ∧ rule st = Q ∧ ∃ b e x, out (norm out fuel p) = [(.eps, b), (.eps, e)] ∧ rule b = Q ∧ rule e = Q ∧
      separates lf t b e = true ∧ chk out start decisions rule lf Q c b = some x ∧ norm out fuel x = q ∧ norm out fuel e = q := by
  rw [chk.eq_def] at h
  dsimp only at h
  split at h
  · rename_i h1
    split at h
    · split at h
      · rename_i h2
        split at h
        · split at h
          · cases h
            exact ⟨h1.1, h1.2, _, _, _, by assumption, h2.1, h2.2.1, h2.2.2, by assumption, by assumption, rfl⟩
          · cases h
        · cases h
      · cases h
    · cases h
  · cases h

theorem chk_switchLa {st cs p q} (h : chk out start decisions rule lf Q (.switchLa st cs) p = some q) :
    norm out fuel st = norm out fuel p ∧ rule st = Q ∧
      ∃ l, chkLa out start decisions rule lf Q [] cs (out (norm out fuel p)) = some l ∧ ∀ y ∈ l, y = q := by
  rw [chk.eq_def] at h
  dsimp only at h
  split at h
  · rename_i h1
    split at h
    · exact ⟨h1.1, h1.2, _, by assumption, same_all h⟩
    · cases h
  · cases h

theorem chk_star {st st' a c p q} (h : chk out start decisions rule lf Q (.star st st' a c) p = some q) :
    norm out fuel st = norm out fuel p ∧ rule st = Q ∧ norm out fuel st' = norm out fuel p ∧ rule st' = Q ∧ rule (norm out fuel p) = Q ∧
      ∃ b x, out (norm out fuel p) = [(.eps, b), (.eps, q)] ∧ rule b = Q ∧ rule q = Q ∧ askOk decisions lf (norm out fuel p) b q a = true ∧
        chk out start decisions rule lf Q c b = some x ∧ norm out fuel x = norm out fuel p := by
  rw [chk.eq_def] at h
  dsimp only at h
  split at h
  · rename_i h1
    split at h
    · split at h
      · rename_i h2
        split at h
        · split at h
          · cases h
            exact ⟨h1.1, h1.2.1, h1.2.2.1, h1.2.2.2.1, h1.2.2.2.2, _, _, by assumption, h2.1, h2.2.1, h2.2.2, by assumption, by assumption⟩
          · cases h
        · cases h
      · cases h
    · cases h
  · cases h

theorem chk_plus {st st' a c p q} (h : chk out start decisions rule lf Q (.plus st st' a c) p = some q) :
    norm out fuel st = norm out fuel p ∧ rule st = Q ∧ ∃ x, chk out start decisions rule lf Q c (norm out fuel p) = some x ∧
      norm out fuel st' = norm out fuel x ∧ rule st' = Q ∧ rule (norm out fuel x) = Q ∧
      ∃ b, out (norm out fuel x) = [(.eps, b), (.eps, q)] ∧ rule b = Q ∧ rule q = Q ∧ askOk decisions lf (norm out fuel x) b q a = true ∧
        norm out fuel b = norm out fuel p := by
  rw [chk.eq_def] at h
  dsimp only at h
  split at h
  · rename_i h1
    split at h
    · split at h
      · rename_i h2
        split at h
        · split at h
          · rename_i h3
            cases h
            exact ⟨h1.1, h1.2, _, by assumption, h2.1, h2.2.1, h2.2.2, _, by assumption, h3.1, h3.2.1, h3.2.2.1, h3.2.2.2⟩
          · cases h
        · cases h
      · cases h
    · cases h
  · cases h

theorem ends_get : ∀ {es : List (Label × Nat)} {l : List Nat}, ends out es = some l → ∀ {j : Nat} {e : Label × Nat}, es[j]? = some e →
    e.1 = .eps ∧ l[j]? = some (norm out fuel e.2)
  | [], l, h, j, e, hj => by simp at hj
  | (.eps, q) :: es, l, h, j, e, hj => by
    rw [ends] at h
    obtain ⟨l', h1, rfl⟩ := Option.map_eq_some_iff.mp h
    cases j with
    | zero => simp at hj; subst hj; exact ⟨rfl, rfl⟩
    | succ j =>
      simp only [List.getElem?_cons_succ] at hj ⊢
      exact ends_get h1 hj
  | (.eof, q) :: es, l, h, _, _, _ => by cases h
  | (.set _, q) :: es, l, h, _, _, _ => by cases h
  | (.call _ _, q) :: es, l, h, _, _, _ => by cases h

theorem chkAlt_alt {m m' c cs es l} (h : chkAlt out start decisions rule lf Q m (.alt m' c cs) es = some l) : m' = m ∧ ∃ q es' x l',
    es = (.eps, q) :: es' ∧ chk out start decisions rule lf Q c q = some x ∧ chkAlt out start decisions rule lf Q (m + 1) cs es' = some l' ∧
      l = norm out fuel x :: l' := by
  rw [chkAlt.eq_def] at h
  split at h
  · rename_i h1; cases h1
  · rename_i e
    injection e with e1 e2 e3
    subst e1; subst e2; subst e3
    split at h
    · rename_i e'
      split at h
      · cases h; exact ⟨e', _, _, _, _, rfl, by assumption, by assumption, rfl⟩
      · cases h
    · cases h
  · cases h

theorem chkAlt_toks {m ks c cs es l} (h : chkAlt out start decisions rule lf Q m (.toks ks c cs) es = some l) : False := by
  rw [chkAlt.eq_def] at h
  split at h
  · rename_i h1; cases h1
  · rename_i h1; cases h1
  · cases h

theorem chkLa_toks {seen ks c cs es l} (h : chkLa out start decisions rule lf Q seen (.toks ks c cs) es = some l) : ∃ q es' x l',
    es = (.eps, q) :: es' ∧ rule q = Q ∧
      (∀ k ∈ types, (lf q).testBit k = true → ks.any (fun x => laOf k == (typeOf x : Nat)) = true ∧ seen.any (fun x => laOf k == (typeOf x : Nat)) = false) ∧
      chk out start decisions rule lf Q c q = some x ∧ chkLa out start decisions rule lf Q (ks ++ seen) cs es' = some l' ∧
      l = norm out fuel x :: l' := by
  rw [chkLa.eq_def] at h
  split at h
  · rename_i h1; cases h1
  · rename_i e
    injection e with e1 e2 e3
    subst e1; subst e2; subst e3
    split at h
    · rename_i h1
      split at h
      · cases h
        refine ⟨_, _, _, _, rfl, h1.1, fun k hk hb => ?_, by assumption, by assumption, rfl⟩
        have := List.all_eq_true.mp h1.2 k hk
        rw [hb] at this
        simpa only [Bool.not_true, Bool.false_or, Bool.and_eq_true, Bool.not_eq_true'] using this
      · cases h
    · cases h
  · cases h

theorem chkLa_alt {seen m c cs es l} (h : chkLa out start decisions rule lf Q seen (.alt m c cs) es = some l) : False := by
  rw [chkLa.eq_def] at h
  split at h
  · rename_i h1; cases h1
  · rename_i h1; cases h1
  · cases h

theorem chkLa_nil {seen es l} (h : chkLa out start decisions rule lf Q seen .nil es = some l) : es = [] := by
  rw [chkLa.eq_def] at h
  split at h
  · rfl
  · rename_i h1; cases h1
  · cases h

theorem separates_true {t : Test} {b e k : Nat} (h : separates lf t b e = true) (hk : k ∈ types) :
    ((lf b).testBit k = true → t.eval (laOf k) = true) ∧ ((lf e).testBit k = true → t.eval (laOf k) = false) := by
  have := List.all_eq_true.mp h k hk
  simp only [Bool.and_eq_true, Bool.or_eq_true, Bool.not_eq_true'] at this
  refine ⟨fun hb => this.1.resolve_left (by rw [hb]; simp), fun hb => this.2.resolve_left (by rw [hb]; simp)⟩

end

end Rfc5322.Gen
