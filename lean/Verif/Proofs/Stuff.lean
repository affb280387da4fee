import Verif.Proofs.Clear

/-!
# Texts from which a display name cannot escape

`Stuff p e s`: `s` consists of characters satisfying `p`, blanks, comments and quoted strings, followed by `e`; what follows an
encoded word in it is again such a text.
Whatever word or piece of display name is read from `s`, the remainder is again such a text.
-/

namespace Rfc5322

open Spec

inductive Stuff (p : Char → Bool) (e : List Char) : List Char → Prop where
  | done : Stuff p e e
  | char {c s} : p c = true → (∀ t x, EncodedWord t → c :: s = t ++ x → Stuff p e x) → Stuff p e s → Stuff p e (c :: s)
  | blank {c s} : isBlank c = true → Stuff p e s → Stuff p e (c :: s)
  | comment {t s} : Comment t → Stuff p e s → Stuff p e (t ++ s)
  | quoted {t v s} : QuotedString t v → Stuff p e s → Stuff p e (t ++ s)

/-- Characters of words and the punctuation of display names. -/
def wordChar (c : Char) : Bool := isAtext c || c == '.' || c == '@'

/-- Neither part of a word or display name, nor the beginning of a comment, white space or a quoted string. -/
def barrier (c : Char) : Bool := !wordChar c && solid c && c != '"'

theorem barrier_iff {c : Char} : barrier c = true ↔ (isAtext c = false ∧ c ≠ '.' ∧ c ≠ '@') ∧ (isBlank c = false ∧ c ≠ '(') ∧ c ≠ '"' := by
  simp [barrier, wordChar, solid_iff, and_assoc]

theorem wordChar_solid {c : Char} (h : wordChar c = true) : isBlank c = false ∧ c ≠ '(' ∧ c ≠ '"' := by
  simp only [wordChar, Bool.or_eq_true, beq_iff_eq] at h
  rcases h with (h | rfl) | rfl
  · refine ⟨(solid_iff.mp (atext_solid h)).1, (solid_iff.mp (atext_solid h)).2, by rintro rfl; exact absurd h (by decide)⟩
  · decide
  · decide

/-- `W` are characters that can be read past, `p` those that occur, and `e` starts with something else. -/
structure Walls (W p : Char → Bool) (e : List Char) : Prop where
  solid : ∀ c, W c = true → isBlank c = false ∧ c ≠ '(' ∧ c ≠ '"'
  sub : ∀ c, p c = true → W c = true
  atext : ∀ c, isAtext c = true → W c = true
  wall : ∀ c s, e = c :: s → W c = false ∧ isBlank c = false ∧ c ≠ '(' ∧ c ≠ '"'

section
variable {W p : Char → Bool} {e : List Char} (hs : Walls W p e)
include hs

theorem Stuff.blank_inv {c s} (h : Stuff p e (c :: s)) (hc : isBlank c = true) : Stuff p e s := by
  generalize hx : c :: s = x at h
  cases h with
  | done => have := (hs.wall _ _ hx.symm).2.1; rw [hc] at this; cases this
  | char h1 _ _ => injection hx with h2 h3; subst h2; have := (hs.solid _ (hs.sub _ h1)).1; rw [hc] at this; cases this
  | blank _ h => injection hx with _ h3; exact h3 ▸ h
  | comment h _ => obtain ⟨y, rfl⟩ := comment_head h; injection hx with h2 _; subst h2; cases hc
  | quoted h _ => obtain ⟨y, rfl⟩ := quotedString_head h; injection hx with h2 _; subst h2; cases hc

theorem Stuff.blanks_inv {w s : List Char} (hw : ∀ c ∈ w, isBlank c = true) (h : Stuff p e (w ++ s)) : Stuff p e s := by
  induction w with
  | nil => exact h
  | cons c w ih => exact ih (fun c hc => hw c (by simp [hc])) (Stuff.blank_inv hs h (hw c (by simp)))

theorem Stuff.comment_inv {t s} (ht : Comment t) (h : Stuff p e (t ++ s)) : Stuff p e s := by
  obtain ⟨y, rfl⟩ := comment_head ht
  generalize hx : '(' :: y ++ s = x at h
  cases h with
  | done => exact absurd rfl (hs.wall _ _ hx.symm).2.2.1
  | char h1 _ _ => injection hx with h2 h3; subst h2; exact absurd rfl (hs.solid _ (hs.sub _ h1)).2.1
  | blank h _ => injection hx with h2 _; subst h2; cases h
  | comment h h' => exact comment_unique ht h hx ▸ h'
  | quoted h _ => obtain ⟨y, rfl⟩ := quotedString_head h; injection hx with h2 _; cases h2

theorem Stuff.quoted_inv {t v s} (ht : QuotedString t v) (h : Stuff p e (t ++ s)) : Stuff p e s := by
  obtain ⟨y, rfl⟩ := quotedString_head ht
  generalize hx : '"' :: y ++ s = x at h
  cases h with
  | done => exact absurd rfl (hs.wall _ _ hx.symm).2.2.2
  | char h1 _ _ => injection hx with h2 h3; subst h2; exact absurd rfl (hs.solid _ (hs.sub _ h1)).2.2
  | blank h _ => injection hx with h2 _; subst h2; cases h
  | comment h _ => obtain ⟨y, rfl⟩ := comment_head h; injection hx with h2 _; cases h2
  | quoted h h' => exact (quotedString_unique ht h hx).2.1 ▸ h'

theorem Stuff.char_inv {c s} (h : Stuff p e (c :: s)) (hc : W c = true) :
    p c = true ∧ (∀ t x, EncodedWord t → c :: s = t ++ x → Stuff p e x) ∧ Stuff p e s := by
  have hd := hs.solid _ hc
  generalize hx : c :: s = x at h
  cases h with
  | done => have := (hs.wall _ _ hx.symm).1; rw [hc] at this; cases this
  | char h1 h2 h3 => injection hx with h4 h5; subst h4 h5; exact ⟨h1, h2, h3⟩
  | blank h _ => injection hx with h2 _; subst h2; rw [h] at hd; cases hd.1
  | comment h _ => obtain ⟨y, rfl⟩ := comment_head h; injection hx with h2 _; subst h2; exact absurd rfl hd.2.1
  | quoted h _ => obtain ⟨y, rfl⟩ := quotedString_head h; injection hx with h2 _; subst h2; exact absurd rfl hd.2.2

theorem Stuff.comments_inv {x s : List Char} (hx : Comments x) (h : Stuff p e (x ++ s)) : Stuff p e s := by
  induction hx with
  | nil => exact h
  | cons hf hc _ ih =>
    rw [List.append_assoc, List.append_assoc] at h
    exact ih (Stuff.comment_inv hs hc (Stuff.blanks_inv hs (optFws_blank hf) h))

theorem Stuff.cfws_inv {x s : List Char} (hx : OptCfws x) (h : Stuff p e (x ++ s)) : Stuff p e s := by
  obtain ⟨r, f, hr, hf, rfl⟩ := hx
  rw [List.append_assoc] at h
  exact Stuff.blanks_inv hs (optFws_blank hf) (Stuff.comments_inv hs hr h)

theorem Stuff.atom_inv {x s : List Char} (hx : ∀ c ∈ x, isAtext c = true) (h : Stuff p e (x ++ s)) : Stuff p e s := by
  induction x with
  | nil => exact h
  | cons c x ih => exact ih (fun c hc => hx c (by simp [hc])) (Stuff.char_inv hs h (hs.atext _ (hx c (by simp)))).2.2

theorem Stuff.enc_inv {t s : List Char} (ht : EncodedWord t) (h : Stuff p e (t ++ s)) : Stuff p e s := by
  obtain ⟨y, hy⟩ := encodedWord_head ht
  have h' := h
  rw [hy] at h'
  exact (Stuff.char_inv hs h' (hs.atext _ (by decide))).2.1 t s ht (by rw [hy]; rfl)

theorem Stuff.word_inv {env : Env} {t v s} (ht : Word env t v) (h : Stuff p e (t ++ s)) : Stuff p e s := by
  cases ht with
  | encoded ht =>
    induction ht with
    | one ha ht hb =>
      rw [List.append_assoc, List.append_assoc] at h
      exact Stuff.cfws_inv hs hb (Stuff.enc_inv hs ht (Stuff.cfws_inv hs ha h))
    | cons ha ht hb _ ih =>
      rw [List.append_assoc, List.append_assoc, List.append_assoc] at h
      exact ih (Stuff.cfws_inv hs hb (Stuff.enc_inv hs ht (Stuff.cfws_inv hs ha h)))
  | atom ha ht hb =>
    rw [List.append_assoc, List.append_assoc] at h
    exact Stuff.cfws_inv hs hb (Stuff.atom_inv hs ht.2 (Stuff.cfws_inv hs ha h))
  | quoted ha ht hb =>
    rw [List.append_assoc, List.append_assoc] at h
    exact Stuff.cfws_inv hs hb (Stuff.quoted_inv hs ht (Stuff.cfws_inv hs ha h))

/-- A solid character that cannot be read past is the first of `e`. -/
theorem Stuff.end_inv {c s} (h : Stuff p e (c :: s)) (hc : W c = false) (h2 : solid c = true) (h3 : c ≠ '"') : e = c :: s := by
  have h2 := solid_iff.mp h2
  generalize hx : c :: s = x at h
  cases h with
  | done => rfl
  | char h1 _ _ => injection hx with h4 h5; subst h4; have := hs.sub _ h1; rw [hc] at this; cases this
  | blank h _ => injection hx with h4 _; subst h4; rw [h] at h2; cases h2.1
  | comment h _ => obtain ⟨y, rfl⟩ := comment_head h; injection hx with h4 _; exact absurd h4 h2.2
  | quoted h _ => obtain ⟨y, rfl⟩ := quotedString_head h; injection hx with h4 _; exact absurd h4 h3

end

theorem walls_word {p : Char → Bool} {e : List Char} (hp : ∀ c, p c = true → wordChar c = true) (he : Heads barrier e) : Walls wordChar p e where
  solid _ := wordChar_solid
  sub := hp
  atext c h := by simp [wordChar, h]
  wall c s h := by
    obtain ⟨h1, h2, h3⟩ := barrier_iff.mp (he _ _ h)
    exact ⟨by simp [wordChar, h1], h2.1, h2.2, h3⟩

theorem walls_atext {e : List Char} (he : Heads noWord e) : Walls isAtext isAtext e where
  solid c h := wordChar_solid (by simp [wordChar, h])
  sub _ h := h
  atext _ h := h
  wall c s h := by
    obtain ⟨h1, h2, h3⟩ := noWord_iff.mp (he _ _ h)
    exact ⟨h2, (solid_iff.mp h1).1, (solid_iff.mp h1).2, h3⟩

section
variable {p : Char → Bool} {e : List Char} (hs : Walls wordChar p e)
include hs

theorem Stuff.tail_inv {env : Env} {t ps s} (ht : NameTail env t ps) (h : Stuff p e (t ++ s)) : Stuff p e s := by
  induction ht with
  | nil => exact h
  | word hw _ ih => rw [List.append_assoc] at h; exact ih (Stuff.word_inv hs hw h)
  | dot _ ih => exact ih (Stuff.char_inv hs h (by decide)).2.2
  | «at» _ ih => exact ih (Stuff.char_inv hs h (by decide)).2.2
  | cfws hc _ ih => rw [List.append_assoc] at h; exact ih (Stuff.cfws_inv hs hc.1 h)

theorem Stuff.name_inv {env : Env} {t v s} (ht : DisplayName env t v) (h : Stuff p e (t ++ s)) : Stuff p e s := by
  obtain ⟨w, u, r, ps, hw, hr, rfl, _⟩ := ht
  rw [List.append_assoc] at h
  exact Stuff.tail_inv hs hr (Stuff.word_inv hs hw h)

theorem Stuff.dotted_inv {x s : List Char} (hx : Dotted x) (h : Stuff p e (x ++ s)) : Stuff p e s := by
  induction hx with
  | one ha => exact Stuff.atom_inv hs ha.2 h
  | cons ha _ ih =>
    rw [List.append_assoc] at h
    exact ih (Stuff.char_inv hs (Stuff.atom_inv hs ha.2 h) (by decide)).2.2

theorem Stuff.dotAtom_inv {x s : List Char} (hx : DotAtom x) (h : Stuff p e (x ++ s)) : Stuff p e s := by
  rcases hx with hx | ⟨r, hx, rfl⟩
  · exact Stuff.dotted_inv hs hx h
  · rw [List.append_assoc] at h
    exact (Stuff.char_inv hs (Stuff.dotted_inv hs hx h) (by decide)).2.2

theorem Stuff.dottedWords_inv {env : Env} {t v s} (ht : DottedWords env t v) (h : Stuff p e (t ++ s)) : Stuff p e s := by
  induction ht with
  | one ht => exact Stuff.word_inv hs ht h
  | cons ht _ ih =>
    rw [List.append_assoc] at h
    exact ih (Stuff.char_inv hs (Stuff.word_inv hs ht h) (by decide)).2.2

theorem Stuff.local_inv {env : Env} {t v s} (ht : LocalPart env t v) (h : Stuff p e (t ++ s)) : Stuff p e s := by
  cases ht with
  | dotAtom ha ht hb =>
    rw [List.append_assoc, List.append_assoc] at h
    exact Stuff.cfws_inv hs hb (Stuff.dotAtom_inv hs ht (Stuff.cfws_inv hs ha h))
  | quoted ha ht hb =>
    rw [List.append_assoc, List.append_assoc] at h
    exact Stuff.cfws_inv hs hb (Stuff.quoted_inv hs ht (Stuff.cfws_inv hs ha h))
  | obs ht => exact Stuff.dottedWords_inv hs ht h

theorem noDer_nameAddr_stuff {s : List Char} (h : Stuff p e s) (hl : Heads (fun c => c != '<') e) : NoDer Gr.nameAddr s := by
  refine .rule ?_
  intro ts s' hd
  have angle : ∀ {s ts s'}, Stuff p e s → ¬ Derives Gr.angleAddr s ts s' := by
    intro s ts s' h hd
    obtain ⟨t, _, rfl, ⟨v, hv, _⟩, _⟩ := (means_angleAddr (Q := anyK) (env := nenv)).sound hd
    have : ∃ a x, OptCfws a ∧ t = a ++ '<' :: x := by
      cases hv with
      | null ha _ => exact ⟨_, _, ha, rfl⟩
      | addr ha _ _ => exact ⟨_, _, ha, rfl⟩
      | routed ha _ _ _ => exact ⟨_, _, ha, rfl⟩
    obtain ⟨a, x, ha, rfl⟩ := this
    rw [List.append_assoc] at h
    have := Stuff.end_inv hs (Stuff.cfws_inv hs ha h) (by decide) (by decide) (by decide)
    exact absurd (hl _ _ this) (by decide)
  cases hd with
  | seq h1 h2 =>
    cases h1 with
    | altL h1 =>
      obtain ⟨t, _, rfl, ⟨v, hv, _⟩, _⟩ := (means_displayName (Q := anyK) (env := nenv)).sound h1
      exact angle (Stuff.name_inv hs hv h) h2
    | altR h1 => cases h1; exact angle h h2

theorem noDer_addrSpec_stuff {s : List Char} (h : Stuff p e s) (hat : p '@' = false) : NoDer Gr.addrSpec s := by
  refine .rule ?_
  intro ts s' hd
  cases hd with
  | seq h1 h2 =>
    obtain ⟨t, _, rfl, ⟨v, hv, _⟩, _⟩ := (means_localPart (Q := anyK) (env := nenv)).sound h1
    cases h2 with
    | seq h2 _ =>
      obtain ⟨_, _, rfl, ⟨rfl, _⟩, _⟩ := (means_at (Q := anyK) (env := nenv)).sound h2
      have := (Stuff.char_inv hs (Stuff.local_inv hs hv h) (by decide)).1
      rw [hat] at this; cases this

theorem noDer_mailbox_stuff {s : List Char} (h : Stuff p e s) (hl : Heads (fun c => c != '<') e) (hat : p '@' = false) :
    NoDer Gr.mailbox s :=
  .rule (.alt (noDer_nameAddr_stuff hs h hl) (noDer_addrSpec_stuff hs h hat))

end

/-! ## Building such texts -/

variable {p : Char → Bool} {e : List Char}

theorem Stuff.addBlanks {w s : List Char} (hw : ∀ c ∈ w, isBlank c = true) (h : Stuff p e s) : Stuff p e (w ++ s) := by
  induction w with
  | nil => exact h
  | cons c w ih => exact .blank (hw c (by simp)) (ih fun c hc => hw c (by simp [hc]))

theorem Stuff.addComments {x s : List Char} (hx : Comments x) (h : Stuff p e s) : Stuff p e (x ++ s) := by
  induction hx with
  | nil => exact h
  | cons hf hc _ ih =>
    rw [List.append_assoc, List.append_assoc]
    exact .addBlanks (optFws_blank hf) (.comment hc ih)

theorem Stuff.addCfws {x s : List Char} (hx : OptCfws x) (h : Stuff p e s) : Stuff p e (x ++ s) := by
  obtain ⟨r, f, hr, hf, rfl⟩ := hx
  rw [List.append_assoc]
  exact .addComments hr (.addBlanks (optFws_blank hf) h)

theorem noMark_enc {c : Char} {s : List Char} (h : c = '=' → s.head? ≠ some '?') {t x : List Char} (ht : EncodedWord t) : c :: s ≠ t ++ x := by
  obtain ⟨y, rfl⟩ := encodedWord_head ht
  intro e
  injection e with e1 e2
  exact h e1 (by rw [e2]; rfl)

theorem Stuff.plain {c : Char} {s : List Char} (hc : p c = true) (hn : c = '=' → s.head? ≠ some '?') (h : Stuff p e s) : Stuff p e (c :: s) :=
  .char hc (fun _ _ ht e => (noMark_enc hn ht e).elim) h

/-- A run of characters without `=?`, also at its end. -/
theorem Stuff.addChars {x s : List Char} (hx : ∀ c ∈ x, p c = true) (hn : NoMark x) (hs : s.head? ≠ some '?') (h : Stuff p e s) :
    Stuff p e (x ++ s) := by
  induction x with
  | nil => exact h
  | cons c x ih =>
    refine .plain (hx c (by simp)) ?_ (ih (fun c hc => hx c (by simp [hc])) fun hi => hn (hi.trans (List.suffix_cons _ _).isInfix))
    rintro rfl hh
    cases x with
    | nil => exact hs hh
    | cons d x =>
      simp at hh
      subst hh
      exact hn ⟨[], x, rfl⟩

/-- No encoded word begins at an equal sign that is followed by `?=`, or not followed by `?`. -/
theorem Stuff.addRun {x s : List Char} (hx : ∀ c ∈ x, p c = true) (hn : '?' ∉ x) (he : '=' ∈ x → s.head? ≠ some '?' ∨ ∃ y, s = '?' :: '=' :: y)
    (h : Stuff p e s) : Stuff p e (x ++ s) := by
  induction x with
  | nil => exact h
  | cons c x ih =>
    refine .char (hx c (by simp)) ?_ (ih (fun c hc => hx c (by simp [hc])) (fun hm => hn (by simp [hm])) fun hm => he (by simp [hm]))
    intro t z ht e'
    exfalso
    cases x with
    | nil =>
      have hc : c = '=' := by obtain ⟨y, rfl⟩ := encodedWord_head ht; injection e'
      subst hc
      rcases he (by simp) with h | ⟨y, rfl⟩
      · exact noMark_enc (fun _ => h) ht e'
      · obtain ⟨cs, en, tx, h1, _, _, h2, _, _, rfl⟩ := ht
        obtain ⟨d, cs, rfl⟩ := List.exists_cons_of_ne_nil h1
        injection e' with _ e'
        injection e' with _ e'
        injection e' with e' _
        subst e'
        exact absurd (h2 '=' (by simp)) (by decide)
    | cons d x =>
      refine noMark_enc (c := c) (s := d :: x ++ s) ?_ ht e'
      rintro rfl hh
      simp at hh
      subst hh
      simp at hn

/-- An encoded word. -/
theorem Stuff.addEnc {t s : List Char} (ht : EncodedWord t) (hx : ∀ c ∈ t, p c = true) (hq : s.head? ≠ some '?') (h : Stuff p e s) : Stuff p e (t ++ s) := by
  have ht' := ht
  obtain ⟨cs, en, tx, _, _, _, h1, h2, h3, rfl⟩ := ht
  have tk : ∀ {x : List Char}, (∀ c ∈ x, isTokenChar c = true) → '?' ∉ x ∧ '=' ∉ x := fun h =>
    ⟨fun hm => absurd (h _ hm) (by decide), fun hm => absurd (h _ hm) (by decide)⟩
  have s1 : Stuff p e ('?' :: '=' :: s) := .plain (hx _ (by simp)) (by rintro ⟨⟩) (.plain (hx _ (by simp)) (fun _ => hq) h)
  have s2 := Stuff.addRun (x := tx) (fun c hc => hx c (by simp [hc])) (fun hm => absurd (h3 _ hm) (by decide)) (fun _ => .inr ⟨_, rfl⟩) s1
  have s3 := Stuff.addRun (x := en) (fun c hc => hx c (by simp [hc])) (tk h2).1 (fun hm => absurd hm (tk h2).2)
    (.plain (c := '?') (hx _ (by simp)) (by rintro ⟨⟩) s2)
  have s4 := Stuff.addRun (x := cs) (fun c hc => hx c (by simp [hc])) (tk h1).1 (fun hm => absurd hm (tk h1).2)
    (.plain (c := '?') (hx _ (by simp)) (by rintro ⟨⟩) s3)
  have s5 : Stuff p e ('?' :: _) := .plain (hx _ (by simp)) (by rintro ⟨⟩) s4
  refine (show Stuff p e ('=' :: _) from .char (hx _ (by simp)) ?_ (by simpa using s5))
  intro t' x' ht'' e'
  rw [← (encodedWord_unique ht' ht'' e').2] at h
  exact h

end Rfc5322
