import Verif.Spec.Strip

/-!
# Removing comments and white space
-/

namespace Rfc5322

open Spec

theorem wsp_blank {c : Char} (h : isWsp c = true) : isBlank c = true := by
  simp only [isWsp, Bool.or_eq_true, beq_iff_eq] at h
  rcases h with rfl | rfl <;> rfl

/-- Characters that begin neither white space nor a comment. -/
def solid (c : Char) : Bool := !isBlank c && c != '('

theorem solid_iff {c : Char} : solid c = true ↔ isBlank c = false ∧ c ≠ '(' := by simp [solid]

theorem strip_solid {c : Char} (h : solid c = true) (r) : strip (c :: r) = c :: strip r := by
  rw [solid_iff] at h
  simp [strip, stripFrom, h.1, h.2]

theorem strip_solids {x : List Char} (h : ∀ c ∈ x, solid c = true) (r) : strip (x ++ r) = x ++ strip r := by
  induction x with
  | nil => rfl
  | cons c x ih =>
    rw [List.cons_append, strip_solid (h c (by simp)), ih (fun c hc => h c (by simp [hc])), List.cons_append]

theorem skip_solid {c : Char} (h : solid c = true) (r) : skip (c :: r) = c :: r := by
  rw [solid_iff] at h
  simp [skip, skipFrom, h.1, h.2]

/-- Neither special inside a comment. -/
theorem blank_in {c : Char} (h : isBlank c = true) : c ≠ '\\' ∧ c ≠ '(' ∧ c ≠ ')' := by
  refine ⟨?_, ?_, ?_⟩ <;> (rintro rfl; exact absurd h (by decide))

section generic
/-! `strip` and `skip` treat what they remove in the same way. -/

/-- The common part of the two functions. -/
structure Remover (f : Nat → List Char → List Char) : Prop where
  blank : ∀ {c} r, isBlank c = true → ∀ d, f d (c :: r) = f d r
  open' : ∀ d r, f d ('(' :: r) = f (d + 1) r
  close : ∀ d r, f (d + 1) (')' :: r) = f d r
  pair : ∀ d c r, f (d + 1) ('\\' :: c :: r) = f (d + 1) r
  char : ∀ {c} d r, c ≠ '\\' → c ≠ '(' → c ≠ ')' → f (d + 1) (c :: r) = f (d + 1) r

theorem remover_strip : Remover (fun d => stripFrom d false) where
  blank {c} r h d := by
    have := blank_in h
    cases d with
    | zero => simp [stripFrom, h]
    | succ d => simp only [stripFrom, if_neg this.1, if_neg this.2.1, if_neg this.2.2]
  open' d r := by cases d <;> simp [stripFrom, isBlank]
  close d r := by simp [stripFrom]
  pair d c r := by simp [stripFrom]
  char d r h1 h2 h3 := by simp only [stripFrom, if_neg h1, if_neg h2, if_neg h3]

theorem remover_skip : Remover (fun d => skipFrom d false) where
  blank {c} r h d := by
    have := blank_in h
    cases d with
    | zero => simp [skipFrom, h]
    | succ d => simp only [skipFrom, if_neg this.1, if_neg this.2.1, if_neg this.2.2]
  open' d r := by cases d <;> simp [skipFrom, isBlank]
  close d r := by simp [skipFrom]
  pair d c r := by simp [skipFrom]
  char d r h1 h2 h3 := by simp only [skipFrom, if_neg h1, if_neg h2, if_neg h3]

variable {f : Nat → List Char → List Char} (F : Remover f)
include F

theorem Remover.blanks {w : List Char} (h : ∀ c ∈ w, isBlank c = true) (d r) : f d (w ++ r) = f d r := by
  induction w with
  | nil => rfl
  | cons c w ih => rw [List.cons_append, F.blank _ (h c (by simp)), ih fun c hc => h c (by simp [hc])]

omit F in
theorem fws_blank {w : List Char} (h : Fws w) : ∀ c ∈ w, isBlank c = true := by
  cases h with
  | plain _ hw => exact fun c hc => wsp_blank (hw c hc)
  | folded hv _ hw =>
    intro c hc
    simp only [List.mem_append, List.mem_cons] at hc
    rcases hc with hc | rfl | rfl | hc
    · exact wsp_blank (hv c hc)
    · rfl
    · rfl
    · exact wsp_blank (hw c hc)

theorem Remover.fws {w : List Char} (h : Fws w) (d r) : f d (w ++ r) = f d r := F.blanks (fws_blank h) d r

theorem Remover.optFws {w : List Char} (h : OptFws w) (d r) : f d (w ++ r) = f d r := by
  rcases h with rfl | h
  · rfl
  · exact F.fws h d r

omit F in
theorem ctext_plain {c : Char} (h : isCtext c = true) : c ≠ '\\' ∧ c ≠ '(' ∧ c ≠ ')' := by
  refine ⟨?_, ?_, ?_⟩ <;> (rintro rfl; exact absurd h (by decide))

theorem Remover.items {x : List Char} (h : CommentItems x) : ∀ d r, f (d + 1) (x ++ r) = f (d + 1) r := by
  induction h with
  | nil => intros; rfl
  | char hf hc _ ih =>
    intro d r
    obtain ⟨h1, h2, h3⟩ := ctext_plain hc
    rw [List.append_assoc, F.optFws hf, List.cons_append, F.char _ _ h1 h2 h3, ih]
  | pair hf hc _ ih =>
    intro d r
    rw [List.append_assoc, F.optFws hf, List.cons_append, List.cons_append, F.pair, ih]
  | nested hf _ hg _ ih1 ih2 =>
    intro d r
    rw [List.append_assoc, F.optFws hf, List.cons_append, F.open', List.append_assoc, ih1, List.append_assoc, F.optFws hg,
      List.cons_append, F.close, ih2]

theorem Remover.comment {x : List Char} (h : Comment x) (d r) : f d (x ++ r) = f d r := by
  obtain ⟨xs, g, hx, hg, rfl⟩ := h
  rw [List.cons_append, F.open', List.append_assoc, F.items hx, List.append_assoc, F.optFws hg]
  exact F.close d r

theorem Remover.comments {x : List Char} (h : Comments x) : ∀ d r, f d (x ++ r) = f d r := by
  induction h with
  | nil => intros; rfl
  | cons hf hc _ ih => intro d r; rw [List.append_assoc, F.optFws hf, List.append_assoc, F.comment hc, ih]

theorem Remover.cfws {x : List Char} (h : OptCfws x) (d r) : f d (x ++ r) = f d r := by
  obtain ⟨a, b, ha, hb, rfl⟩ := h
  rw [List.append_assoc, F.comments ha, F.optFws hb]

end generic

theorem strip_cfws {x : List Char} (h : OptCfws x) (r) : strip (x ++ r) = strip r := remover_strip.cfws h 0 r
theorem strip_fws {x : List Char} (h : Fws x) (r) : strip (x ++ r) = strip r := remover_strip.fws h 0 r
theorem skip_cfws {x : List Char} (h : OptCfws x) (r) : skip (x ++ r) = skip r := remover_skip.cfws h 0 r

/-- Where CFWS ends is determined by what follows. -/
theorem cfws_split {a a' : List Char} {c c' : Char} {r r' : List Char} (ha : OptCfws a) (ha' : OptCfws a')
    (hc : solid c = true) (hc' : solid c' = true) (h : a ++ c :: r = a' ++ c' :: r') : a = a' ∧ c = c' ∧ r = r' := by
  have := congrArg (skip) h
  rw [skip_cfws ha, skip_cfws ha', skip_solid hc, skip_solid hc'] at this
  rw [this] at h
  exact ⟨List.append_cancel_right h, by injection this, by injection this⟩

/-- CFWS before a solid character, against CFWS at the end. -/
theorem cfws_ne {a a' : List Char} {c : Char} {r : List Char} (ha : OptCfws a) (ha' : OptCfws a')
    (hc : solid c = true) (h : a ++ c :: r = a') : False := by
  have := congrArg (skip) h
  have e : skip a' = [] := by have := skip_cfws ha' []; simpa [skip, skipFrom] using this
  rw [skip_cfws ha, skip_solid hc, e] at this
  cases this

end Rfc5322
