import Verif.Spec.Rfc5322
import Verif.Spec.Date
import Verif.Proofs.Bmp
import Verif.Proofs.DateText

/-!
# What the rules of the RFC, restricted and extended, derive: the address lists and date-times of `Spec`
-/

set_option linter.unusedSimpArgs false

namespace Rfc5322.Rfc

open Spec Name Abnf

/-! ## General facts on derivations -/

section general
variable {g g' : Name → Abnf}

@[simp] theorem d_range {lo hi x} : Derivable g (.range lo hi) x ↔ ∃ c, x = [c] ∧ lo ≤ c.toNat ∧ c.toNat ≤ hi := by
  constructor
  · rintro ⟨⟩; exact ⟨_, rfl, ‹_›, ‹_›⟩
  · rintro ⟨c, rfl, h1, h2⟩; exact .range h1 h2

theorem d_text {s x} : Derivable g (.text s) x ↔ x.map Char.toLower = s.map Char.toLower :=
  ⟨fun h => by cases h; assumption, .text⟩

theorem d_rule {n x} : Derivable g (.rule n) x ↔ Derivable g (g n) x := ⟨fun h => by cases h; assumption, .rule⟩

@[simp] theorem d_seq {a b x} : Derivable g (.seq a b) x ↔ ∃ y z, x = y ++ z ∧ Derivable g a y ∧ Derivable g b z := by
  constructor
  · rintro ⟨⟩; exact ⟨_, _, rfl, ‹_›, ‹_›⟩
  · rintro ⟨y, z, rfl, h1, h2⟩; exact .seq h1 h2

@[simp] theorem d_alt {a b x} : Derivable g (.alt a b) x ↔ Derivable g a x ∨ Derivable g b x := by
  constructor
  · intro h
    cases h
    · exact .inl ‹_›
    · exact .inr ‹_›
  · rintro (h | h)
    · exact .left h
    · exact .right h

theorem d_rep {min max a x} : Derivable g (.rep min max a) x ↔
    ∃ xs : List (List Char), x = xs.flatten ∧ min ≤ xs.length ∧ (∀ m ∈ max, xs.length ≤ m) ∧ ∀ y ∈ xs, Derivable g a y := by
  constructor
  · rintro ⟨⟩; exact ⟨_, rfl, ‹_›, ‹_›, ‹_›⟩
  · rintro ⟨xs, rfl, h1, h2, h3⟩; exact .rep h1 h2 h3

@[simp] theorem d_opt {a x} : Derivable g (opt a) x ↔ x = [] ∨ Derivable g a x := by
  rw [opt, d_rep]
  constructor
  · rintro ⟨xs, rfl, -, h, h'⟩
    have h := h 1 rfl
    match xs, h with
    | [], _ => exact .inl rfl
    | [y], _ => exact .inr (by simpa using h')
  · rintro (rfl | h)
    · exact ⟨[], rfl, by simp, by simp, by simp⟩
    · exact ⟨[x], by simp, by simp, by simp, by simpa using h⟩

/-- Repetition. -/
inductive Many (p : List Char → Prop) : List Char → Prop where
  | nil : Many p []
  | cons {x y} : p x → Many p y → Many p (x ++ y)

theorem many_iff {p : List Char → Prop} {x} : Many p x ↔ ∃ xs : List (List Char), x = xs.flatten ∧ ∀ y ∈ xs, p y := by
  constructor
  · intro h
    induction h with
    | nil => exact ⟨[], rfl, by simp⟩
    | cons h _ ih =>
      obtain ⟨xs, rfl, hx⟩ := ih
      exact ⟨_ :: xs, rfl, by simpa using ⟨h, hx⟩⟩
  · rintro ⟨xs, rfl, h⟩
    induction xs with
    | nil => exact .nil
    | cons y ys ih => exact .cons (h y (by simp)) (ih fun z hz => h z (by simp [hz]))

theorem Many.mono {p q : List Char → Prop} (h : ∀ x, p x → q x) {x} (hx : Many p x) : Many q x := by
  induction hx with
  | nil => exact .nil
  | cons h1 _ ih => exact .cons (h _ h1) ih

@[simp] theorem d_many {a x} : Derivable g (many a) x ↔ Many (Derivable g a) x := by
  rw [many, d_rep, many_iff]
  simp

@[simp] theorem d_some1 {a x} : Derivable g (some1 a) x ↔ ∃ y z, x = y ++ z ∧ Derivable g a y ∧ Many (Derivable g a) z := by
  rw [some1, d_rep]
  constructor
  · rintro ⟨xs, rfl, h1, -, h⟩
    match xs, h1 with
    | y :: ys, _ => exact ⟨y, ys.flatten, rfl, h y (by simp), many_iff.mpr ⟨ys, rfl, fun z hz => h z (by simp [hz])⟩⟩
  · rintro ⟨y, z, rfl, h1, h2⟩
    obtain ⟨ys, rfl, h⟩ := many_iff.mp h2
    exact ⟨y :: ys, rfl, by simp, by simp, by simpa using ⟨h1, h⟩⟩

@[simp] theorem d_code {n x} : Derivable g (code n) x ↔ ∃ c, x = [c] ∧ c.toNat = n := by
  rw [code, d_range]
  constructor
  · rintro ⟨c, rfl, h1, h2⟩; exact ⟨c, rfl, by omega⟩
  · rintro ⟨c, rfl, h⟩; exact ⟨c, rfl, by omega, by omega⟩

@[simp] theorem d_nothing {x} : ¬ Derivable g nothing x := by
  rw [nothing, d_range]
  rintro ⟨c, -, h1, h2⟩
  omega

/-- Repetition of single characters. -/
theorem many_chars {a} {p : Char → Prop} (h : ∀ x, Derivable g a x ↔ ∃ c, x = [c] ∧ p c) {x} :
    Many (Derivable g a) x ↔ ∀ c ∈ x, p c := by
  constructor
  · intro hx
    induction hx with
    | nil => simp
    | cons h1 _ ih =>
      obtain ⟨c, rfl, hc⟩ := (h _).mp h1
      simpa using ⟨hc, ih⟩
  · intro hx
    induction x with
    | nil => exact .nil
    | cons c r ih => exact .cons (x := [c]) ((h _).mpr ⟨c, rfl, hx c (by simp)⟩) (ih fun d hd => hx d (by simp [hd]))

theorem some1_chars {a} {p : Char → Prop} (h : ∀ x, Derivable g a x ↔ ∃ c, x = [c] ∧ p c) {x} :
    Derivable g (some1 a) x ↔ x ≠ [] ∧ ∀ c ∈ x, p c := by
  rw [d_some1]
  constructor
  · rintro ⟨y, z, rfl, h1, h2⟩
    obtain ⟨c, rfl, hc⟩ := (h _).mp h1
    exact ⟨by simp, by simpa using ⟨hc, (many_chars h).mp h2⟩⟩
  · rintro ⟨hne, hx⟩
    match x, hne with
    | c :: r, _ => exact ⟨[c], r, rfl, (h _).mpr ⟨c, rfl, hx c (by simp)⟩, (many_chars h).mpr fun d hd => hx d (by simp [hd])⟩

theorem rep_chars {a min max} {p : Char → Prop} (h : ∀ x, Derivable g a x ↔ ∃ c, x = [c] ∧ p c) {x} :
    Derivable g (.rep min max a) x ↔ min ≤ x.length ∧ (∀ m ∈ max, x.length ≤ m) ∧ ∀ c ∈ x, p c := by
  rw [d_rep]
  have key : ∀ xs : List (List Char), (∀ y ∈ xs, Derivable g a y) → xs.flatten.length = xs.length ∧ ∀ c ∈ xs.flatten, p c := by
    intro xs hx
    induction xs with
    | nil => simp
    | cons y ys ih =>
      obtain ⟨h1, h2⟩ := ih fun z hz => hx z (by simp [hz])
      obtain ⟨c, rfl, hc⟩ := (h _).mp (hx y (by simp))
      refine ⟨by simp [h1], ?_⟩
      intro d hd
      simp only [List.flatten_cons, List.singleton_append, List.mem_cons] at hd
      rcases hd with rfl | hd
      · exact hc
      · exact h2 d hd
  constructor
  · rintro ⟨xs, rfl, h1, h2, h3⟩
    obtain ⟨hl, hp⟩ := key xs h3
    rw [hl]
    exact ⟨h1, h2, hp⟩
  · rintro ⟨h1, h2, h3⟩
    refine ⟨x.map fun c => [c], ?_, by simpa using h1, by simpa using h2, ?_⟩
    · clear h1 h2 h3
      induction x with
      | nil => rfl
      | cons c r ih => simp [← ih]
    · intro y hy
      obtain ⟨c, hc, rfl⟩ := List.mem_map.mp hy
      exact (h _).mpr ⟨c, rfl, h3 c hc⟩

/-- Rules that derive no less than others. -/
theorem Derivable.mono (h : ∀ n x, Derivable g' (g n) x → Derivable g' (g' n) x) {e x} (hx : Derivable g e x) : Derivable g' e x := by
  induction hx with
  | range h1 h2 => exact .range h1 h2
  | text h => exact .text h
  | rule _ ih => exact .rule (h _ _ ih)
  | seq _ _ h1 h2 => exact .seq h1 h2
  | left _ ih => exact .left ih
  | right _ ih => exact .right ih
  | rep h1 h2 _ ih => exact .rep h1 h2 ih

end general

/-! ## Characters -/

theorem punct_lower {c d : Char} (h : d ∈ c!"\\()!#$%&'*+-/=?^_`{|}~.,:;<>@[]") : c.toLower = d.toLower ↔ c = d := by
  rcases Nat.lt_or_ge c.toNat 128 with hc | hc
  · have key : ∀ d ∈ c!"\\()!#$%&'*+-/=?^_`{|}~.,:;<>@[]", ∀ n < 128, (Char.ofNat n).toLower = d.toLower ↔ Char.ofNat n = d := by decide +kernel
    have := key d h c.toNat hc
    rwa [Char.ofNat_toNat] at this
  · have hd : d.toNat < 128 ∧ d.toLower = d := by
      revert h; revert d; decide +kernel
    rw [toLower_ge (by omega), hd.2]

/-- Single characters. -/
def Cls (e : Abnf) (p : Char → Prop) : Prop := ∀ x, Derivable accepted e x ↔ ∃ c, x = [c] ∧ p c

theorem Cls.range {lo hi} : Cls (.range lo hi) fun c => lo ≤ c.toNat ∧ c.toNat ≤ hi := fun _ => d_range

theorem Cls.code {n} : Cls (Rfc.code n) fun c => c.toNat = n := fun _ => d_code

theorem d_punct {g} (d : Char) (h : d ∈ c!"\\()!#$%&'*+-/=?^_`{|}~.,:;<>@[]") {x} : Derivable g (.text [d]) x ↔ x = [d] := by
  rw [d_text]
  constructor
  · intro hx
    cases x with
    | nil => simp at hx
    | cons c r =>
      simp only [List.map_cons, List.map_nil, List.cons.injEq, List.map_eq_nil_iff] at hx
      rw [(punct_lower h).mp hx.1, hx.2]
  · rintro rfl; rfl

theorem Cls.punct {d : Char} (h : d ∈ c!"\\()!#$%&'*+-/=?^_`{|}~.,:;<>@[]" := by decide) : Cls (.text [d]) fun c => c.toNat = d.toNat := by
  intro x
  rw [d_punct d h]
  constructor
  · rintro rfl; exact ⟨d, rfl, rfl⟩
  · rintro ⟨c, rfl, hc⟩; rw [← Char.ofNat_toNat c, hc, Char.ofNat_toNat]

theorem Cls.alt {a b p q} (ha : Cls a p) (hb : Cls b q) : Cls (.alt a b) fun c => p c ∨ q c := by
  intro x
  rw [d_alt, ha x, hb x]
  constructor
  · rintro (⟨c, rfl, h⟩ | ⟨c, rfl, h⟩)
    · exact ⟨c, rfl, .inl h⟩
    · exact ⟨c, rfl, .inr h⟩
  · rintro ⟨c, rfl, h | h⟩
    · exact .inl ⟨c, rfl, h⟩
    · exact .inr ⟨c, rfl, h⟩

theorem Cls.rule {n p} (h : Cls (accepted n) p) : Cls (.rule n) p := fun x => by rw [d_rule, h x]

theorem Cls.nothing : Cls Rfc.nothing fun _ => False := fun x => by simp

theorem Cls.congr {e p q} (h : Cls e p) (h' : ∀ c, p c ↔ q c) : Cls e q := fun x => by rw [h x]; simp only [h']

theorem char_cases {p : Char → Prop} {q : Char → Bool} (h1 : ∀ n < 128, p (Char.ofNat n) ↔ q (Char.ofNat n) = true)
    (h2 : ∀ c, 128 ≤ c.toNat → (p c ↔ q c = true)) (c : Char) : p c ↔ q c = true := by
  rcases Nat.lt_or_ge c.toNat 128 with hc | hc
  · simpa only [Char.ofNat_toNat] using h1 c.toNat hc
  · exact h2 c hc

theorem contains_high {l : List Char} {c : Char} (hc : 128 ≤ c.toNat) (h : ∀ d ∈ l, d.toNat < 128) : l.contains c = false := by
  rw [Bool.eq_false_iff]
  intro hl
  have := h c (by simpa using hl)
  omega

theorem vchar_high {c : Char} (hc : 128 ≤ c.toNat) : isVchar c = decide (c.toNat ≤ 0xFFFF) := by
  unfold isVchar nonAscii
  rw [decide_eq_true (p := 0x80 ≤ c.toNat) hc, decide_eq_false (p := c.toNat ≤ 0x7E) (by omega)]
  simp

theorem ctl_high {c : Char} (hc : 128 ≤ c.toNat) : isCtl c = false := by
  unfold isCtl
  rw [decide_eq_false (p := c.toNat ≤ 8) (by omega), decide_eq_false (p := c.toNat ≤ 31) (by omega), beq_eq_false_iff_ne.mpr (show c.toNat ≠ 11 by omega),
    beq_eq_false_iff_ne.mpr (show c.toNat ≠ 12 by omega), beq_eq_false_iff_ne.mpr (show c.toNat ≠ 127 by omega)]
  simp

theorem nonAscii_high {c : Char} (hc : 128 ≤ c.toNat) : nonAscii c = decide (c.toNat ≤ 0xFFFF) := by
  unfold nonAscii
  rw [decide_eq_true (p := 0x80 ≤ c.toNat) hc]
  simp

theorem cls_VCHAR : Cls VCHAR (fun c => isVchar c = true) :=
  .congr (.rule (n := VCHAR) (.alt .range (.rule (n := «UTF8-non-ascii») .range)))
    (char_cases (by decide +kernel) fun c hc => by rw [vchar_high hc, decide_eq_true_iff]; omega)

theorem cls_WSP : Cls WSP (fun c => isWsp c = true) :=
  .congr (.rule (n := WSP) (.alt (.rule (n := SP) .code) (.rule (n := HTAB) .code)))
    (char_cases (by decide +kernel) fun c hc => by
      have h1 : c ≠ ' ' := by rintro rfl; revert hc; decide
      have h2 : c ≠ '\t' := by rintro rfl; revert hc; decide
      simp only [isWsp, beq_eq_false_iff_ne.mpr h1, beq_eq_false_iff_ne.mpr h2]
      simp; omega)

theorem cls_DIGIT : Cls DIGIT (fun c => isDigit c = true) :=
  .congr (.rule (n := DIGIT) .range) (char_cases (by decide +kernel) fun c hc => by
    have : ¬ c ≤ '9' := by
      intro h
      have : c.toNat ≤ '9'.toNat := h
      have : '9'.toNat = 57 := rfl
      omega
    simp only [isDigit, decide_eq_false this]
    simp; omega)

theorem cls_ctl : Cls «obs-NO-WS-CTL» (fun c => isCtl c = true) :=
  .congr (.rule (n := «obs-NO-WS-CTL») (.alt .range (.alt .code (.alt .code (.alt .range .code)))))
    (char_cases (by decide +kernel) fun c hc => by rw [ctl_high hc]; simp; omega)

theorem cls_ctext : Cls ctext (fun c => isCtext c = true) :=
  .congr (.rule (n := ctext) (.alt .range (.alt .range (.alt .range (.alt (.rule (n := «obs-ctext») cls_ctl) (.rule (n := «UTF8-non-ascii») .range))))))
    (char_cases (by decide +kernel) fun c hc => by rw [isCtext, vchar_high hc, ctl_high hc, contains_high hc (by decide)]; simp; omega)

theorem cls_qtext : Cls qtext (fun c => isQtext c = true) :=
  .congr (.rule (n := qtext) (.alt .code (.alt .range (.alt .range (.alt (.rule (n := «obs-qtext») cls_ctl) (.rule (n := «UTF8-non-ascii») .range))))))
    (char_cases (by decide +kernel) fun c hc => by rw [isQtext, vchar_high hc, ctl_high hc, contains_high hc (by decide)]; simp; omega)

theorem cls_dtext : Cls dtext (fun c => isDtext c = true) :=
  .congr (.rule (n := dtext) (.alt .range (.alt .range (.alt (.rule (n := «obs-dtext») .nothing) (.rule (n := «UTF8-non-ascii») .range)))))
    (char_cases (by decide +kernel) fun c hc => by rw [isDtext, vchar_high hc, contains_high hc (by decide)]; simp; omega)

theorem cls_atext : Cls atext (fun c => isAtext c = true) :=
  .congr (.rule (n := atext) (.alt (.rule (n := ALPHA) (.alt .range .range)) (.alt (.rule (n := DIGIT) .range)
    (.alt .punct (.alt .punct (.alt .punct (.alt .punct (.alt .punct (.alt .punct (.alt .punct (.alt .punct (.alt .punct (.alt .punct (.alt .punct (.alt .punct
    (.alt .punct (.alt .punct (.alt .punct (.alt .punct (.alt .punct (.alt .punct (.alt .punct (.rule (n := «UTF8-non-ascii») .range)))))))))))))))))))))))
    (char_cases (by decide +kernel) fun c hc => by
      rw [isAtext, vchar_high hc, contains_high hc (by decide)]
      constructor
      · intro h; simp; rcases h with h | h | h
        all_goals first | omega | skip
        iterate 19 (rcases h with h | h; (have : c.toNat < 128 := by rw [h]; decide); omega)
        exact h.2
      · intro h
        simp at h
        iterate 21 refine .inr ?_
        exact ⟨hc, h⟩)

theorem cls_token : Cls (code 33 / range 35 39 / code 42 / code 43 / code 45 / range 48 57 / range 65 90 / code 92 / range 94 126) (fun c => isTokenChar c = true) :=
  .congr (.alt .code (.alt .range (.alt .code (.alt .code (.alt .code (.alt .range (.alt .range (.alt .code .range))))))))
    (char_cases (by decide +kernel) fun c hc => by rw [isTokenChar, vchar_high hc, nonAscii_high hc]; simp; omega)

theorem cls_encoded : Cls (range 33 62 / range 64 126) (fun c => isEncodedChar c = true) :=
  .congr (.alt .range .range)
    (char_cases (by decide +kernel) fun c hc => by rw [isEncodedChar, vchar_high hc, nonAscii_high hc]; simp; omega)

theorem cls_obsqp : Cls (code 0 / «obs-NO-WS-CTL» / LF / CR) (fun c => isObsQuoted c = true) :=
  .congr (.alt .code (.alt cls_ctl (.alt (.rule (n := LF) .code) (.rule (n := CR) .code))))
    (char_cases (by decide +kernel) fun c hc => by
      have h1 : c ≠ '\n' := by rintro rfl; revert hc; decide
      have h2 : c ≠ '\r' := by rintro rfl; revert hc; decide
      simp only [isObsQuoted, beq_eq_false_iff_ne.mpr h1, beq_eq_false_iff_ne.mpr h2, ctl_high hc]
      simp
      omega)

theorem cls_quotable : Cls (VCHAR / WSP) (fun c => isQuotable c = true) :=
  .congr (.alt cls_VCHAR cls_WSP) fun c => by simp [isQuotable]

theorem cls_DQUOTE : Cls DQUOTE (fun c => c = '"') :=
  .congr (.rule (n := DQUOTE) .code) fun c => ⟨fun h => by rw [← Char.ofNat_toNat c, h], fun h => by rw [h]; rfl⟩

/-! ## White space and comments -/

/-- Unfold a rule. -/
macro "unfold_rule" : tactic => `(tactic| (rw [d_rule]; simp only [accepted, extensions, restricted, restrictions, rfc, Option.getD]))

local notation "D" => Derivable accepted

theorem d_CRLF {x} : D CRLF x ↔ x = ['\r', '\n'] := by
  unfold_rule
  rw [d_seq]
  constructor
  · rintro ⟨y, z, rfl, h1, h2⟩
    obtain ⟨c, rfl, h⟩ := (Cls.rule (n := CR) .code _).mp h1
    obtain ⟨c', rfl, h'⟩ := (Cls.rule (n := LF) .code _).mp h2
    rw [← Char.ofNat_toNat c, ← Char.ofNat_toNat c', h, h']
    rfl
  · rintro rfl
    exact ⟨['\r'], ['\n'], rfl, (Cls.rule (n := CR) .code _).mpr ⟨_, rfl, rfl⟩, (Cls.rule (n := LF) .code _).mpr ⟨_, rfl, rfl⟩⟩

theorem d_wsps {x} : D (some1 WSP) x ↔ x ≠ [] ∧ ∀ c ∈ x, isWsp c = true := some1_chars cls_WSP

theorem d_wsps0 {x} : Many (D WSP) x ↔ ∀ c ∈ x, isWsp c = true := many_chars cls_WSP

theorem d_FWS {x} : D FWS x ↔ Fws x := by
  unfold_rule
  rw [d_alt, d_seq]
  constructor
  · rintro (⟨y, z, rfl, h1, h2⟩ | h)
    · obtain ⟨hz, hz'⟩ := d_wsps.mp h2
      rcases d_opt.mp h1 with rfl | h1
      · exact .plain hz hz'
      · obtain ⟨v, w, rfl, hv, hw⟩ := d_seq.mp h1
        rw [d_CRLF] at hw
        rw [d_many, d_wsps0] at hv
        subst hw
        simpa using Fws.folded hv hz hz'
    · have h : Derivable accepted (accepted «obs-FWS») x := d_rule.mp h
      simp only [accepted, extensions, restricted, restrictions, Option.getD] at h
      obtain ⟨v, w, rfl, hv, hw⟩ := d_seq.mp h
      obtain ⟨hv, hv'⟩ := d_wsps.mp hv
      rcases d_opt.mp hw with rfl | hw
      · simpa using Fws.plain hv hv'
      · obtain ⟨v', w', rfl, h1, h2⟩ := d_seq.mp hw
        rw [d_CRLF] at h1
        obtain ⟨h2, h3⟩ := d_wsps.mp h2
        subst h1
        exact .folded hv' h2 h3
  · intro h
    left
    cases h with
    | plain h1 h2 => exact ⟨[], _, rfl, d_opt.mpr (.inl rfl), d_wsps.mpr ⟨h1, h2⟩⟩
    | @folded v w h1 h2 h3 =>
      refine ⟨v ++ ['\r', '\n'], w, by simp, d_opt.mpr (.inr ?_), d_wsps.mpr ⟨h2, h3⟩⟩
      exact .seq (d_many.mpr (d_wsps0.mpr h1)) (d_CRLF.mpr rfl)

theorem d_optFWS {x} : D (opt FWS) x ↔ OptFws x := by
  rw [d_opt, d_FWS]; rfl

/-- A punctuation character. -/
theorem d_char {x} (d : Char) (h : d ∈ c!"\\()!#$%&'*+-/=?^_`{|}~.,:;<>@[]" := by decide) : D (.text [d]) x ↔ x = [d] := d_punct d h

theorem d_pair {x} : D «quoted-pair» x ↔ ∃ c, x = ['\\', c] ∧ (isQuotable c || isObsQuoted c) = true := by
  unfold_rule
  rw [d_alt, d_seq, d_rule (n := «obs-qp»)]
  simp only [accepted, extensions, restricted, restrictions, rfc, Option.getD]
  rw [d_seq]
  constructor
  · rintro (⟨y, z, rfl, h1, h2⟩ | ⟨y, z, rfl, h1, h2⟩)
    · obtain ⟨c, rfl, hc⟩ := (cls_quotable _).mp h2
      rw [(d_char '\\').mp h1]
      exact ⟨c, rfl, by simp [hc]⟩
    · obtain ⟨c, rfl, hc⟩ := (cls_obsqp _).mp h2
      rw [(d_char '\\').mp h1]
      exact ⟨c, rfl, by simp [hc]⟩
  · rintro ⟨c, rfl, h⟩
    rcases Bool.or_eq_true_iff.mp h with h | h
    · exact .inl ⟨['\\'], [c], rfl, (d_char '\\').mpr rfl, (cls_quotable _).mpr ⟨c, rfl, h⟩⟩
    · exact .inr ⟨['\\'], [c], rfl, (d_char '\\').mpr rfl, (cls_obsqp _).mpr ⟨c, rfl, h⟩⟩

theorem d_ccontent {x} : D ccontent x ↔ (∃ c, x = [c] ∧ isCtext c = true) ∨ (∃ c, x = ['\\', c] ∧ (isQuotable c || isObsQuoted c) = true) ∨ D comment x := by
  unfold_rule
  rw [d_alt, d_alt, cls_ctext, d_pair]

theorem d_comment_iff {x} : D comment x ↔ ∃ m f, x = '(' :: (m ++ (f ++ [')'])) ∧ Many (D (opt FWS ⬝ ccontent)) m ∧ OptFws f := by
  unfold_rule
  rw [d_seq]
  constructor
  · rintro ⟨y, z, rfl, h1, h2⟩
    obtain ⟨m, w, rfl, hm, hw⟩ := d_seq.mp h2
    obtain ⟨f, e, rfl, hf, he⟩ := d_seq.mp hw
    rw [(d_char '(').mp h1, (d_char ')').mp he]
    exact ⟨m, f, rfl, d_many.mp hm, d_optFWS.mp hf⟩
  · rintro ⟨m, f, rfl, hm, hf⟩
    exact ⟨['('], _, rfl, (d_char '(').mpr rfl, .seq (d_many.mpr hm) (.seq (d_optFWS.mpr hf) ((d_char ')').mpr rfl))⟩

theorem items_of_many {m} (hm : Many (D (opt FWS ⬝ ccontent)) m) (ih : ∀ y, y.length ≤ m.length → D comment y → Comment y) : CommentItems m := by
  induction hm with
  | nil => exact .nil
  | @cons x y hx _ ihm =>
    have hy := ihm fun z hz => ih z (by simp; omega)
    obtain ⟨f, c, rfl, hf, hc⟩ := d_seq.mp hx
    have hf := d_optFWS.mp hf
    rcases d_ccontent.mp hc with ⟨c, rfl, h⟩ | ⟨c, rfl, h⟩ | h
    · simpa using CommentItems.char hf h hy
    · simpa using CommentItems.pair hf h hy
    · obtain ⟨xs, g, h1, h2, rfl⟩ := ih _ (by simp; omega) h
      simpa using CommentItems.nested hf h1 h2 hy

theorem many_of_items {m} (h : CommentItems m) : Many (D (opt FWS ⬝ ccontent)) m := by
  induction h with
  | nil => exact .nil
  | @char f c r hf hc _ ih =>
    rw [List.append_cons]
    exact .cons (.seq (d_optFWS.mpr hf) (d_ccontent.mpr (.inl ⟨c, rfl, hc⟩))) ih
  | @pair f c r hf hc _ ih =>
    rw [show f ++ '\\' :: c :: r = (f ++ ['\\', c]) ++ r by simp]
    exact .cons (.seq (d_optFWS.mpr hf) (d_ccontent.mpr (.inr (.inl ⟨c, rfl, hc⟩)))) ih
  | @nested f xs g r hf _ hg _ ih1 ih2 =>
    rw [show f ++ '(' :: (xs ++ (g ++ ')' :: r)) = (f ++ ('(' :: (xs ++ (g ++ [')'])))) ++ r by simp]
    exact .cons (.seq (d_optFWS.mpr hf) (d_ccontent.mpr (.inr (.inr (d_comment_iff.mpr ⟨xs, g, rfl, ih1, hg⟩))))) ih2

theorem d_comment {x} : D comment x ↔ Comment x := by
  constructor
  · have key : ∀ n, ∀ x : List Char, x.length ≤ n → D comment x → Comment x := by
      intro n
      induction n with
      | zero =>
        intro x hx h
        obtain ⟨m, f, rfl, _⟩ := d_comment_iff.mp h
        simp at hx
      | succ n ih =>
        intro x hx h
        obtain ⟨m, f, rfl, hm, hf⟩ := d_comment_iff.mp h
        exact ⟨m, f, items_of_many hm fun y hy => ih y (by simp at hx; omega), hf, rfl⟩
    exact key _ x (Nat.le_refl _)
  · rintro ⟨xs, f, h1, h2, rfl⟩
    exact d_comment_iff.mpr ⟨xs, f, rfl, many_of_items h1, h2⟩

theorem many_comments {x} : Many (D (opt FWS ⬝ comment)) x ↔ Comments x := by
  constructor
  · intro h
    induction h with
    | nil => exact .nil
    | cons h _ ih =>
      obtain ⟨f, c, rfl, hf, hc⟩ := d_seq.mp h
      simpa using Comments.cons (d_optFWS.mp hf) (d_comment.mp hc) ih
  · intro h
    induction h with
    | nil => exact .nil
    | cons hf hc _ ih => rw [← List.append_assoc]; exact .cons (.seq (d_optFWS.mpr hf) (d_comment.mpr hc)) ih

theorem d_CFWS {x} : D CFWS x ↔ Cfws x := by
  unfold_rule
  rw [d_alt, d_seq, d_FWS]
  constructor
  · rintro (⟨y, z, rfl, h1, h2⟩ | h)
    · obtain ⟨u, v, rfl, hu, hv⟩ := d_some1.mp h1
      refine ⟨⟨u ++ v, z, many_comments.mp (.cons hu hv), d_optFWS.mp h2, rfl⟩, ?_⟩
      obtain ⟨f, c, rfl, hf, hc⟩ := d_seq.mp hu
      obtain ⟨_, _, _, _, rfl⟩ := d_comment.mp hc
      simp
    · refine ⟨⟨[], x, .nil, .inr h, rfl⟩, ?_⟩
      cases h <;> simp_all
  · rintro ⟨⟨r, f, hr, hf, rfl⟩, hne⟩
    have hm := many_comments.mpr hr
    cases hm with
    | nil =>
      rcases hf with rfl | hf
      · simp at hne
      · exact .inr hf
    | cons h1 h2 => exact .inl ⟨_, f, rfl, d_some1.mpr ⟨_, _, rfl, h1, h2⟩, d_optFWS.mpr hf⟩

theorem d_optCFWS {x} : D (opt CFWS) x ↔ OptCfws x := by
  rw [d_opt, d_CFWS]
  constructor
  · rintro (rfl | h)
    · exact ⟨[], [], .nil, .inl rfl, rfl⟩
    · exact h.1
  · intro h
    by_cases he : x = []
    · exact .inl he
    · exact .inr ⟨h, he⟩

/-! ## Words -/

theorem d_padded {e x} : D (opt CFWS ⬝ e ⬝ opt CFWS) x ↔ ∃ a t b, OptCfws a ∧ D e t ∧ OptCfws b ∧ x = a ++ (t ++ b) := by
  rw [d_seq]
  constructor
  · rintro ⟨a, y, rfl, ha, h⟩
    obtain ⟨t, b, rfl, ht, hb⟩ := d_seq.mp h
    exact ⟨a, t, b, d_optCFWS.mp ha, ht, d_optCFWS.mp hb, rfl⟩
  · rintro ⟨a, t, b, ha, ht, hb, rfl⟩
    exact ⟨a, _, rfl, d_optCFWS.mpr ha, .seq ht (d_optCFWS.mpr hb)⟩

theorem d_atexts {x} : D (some1 atext) x ↔ Atom x := some1_chars cls_atext

theorem d_atom {x} : D Name.atom x ↔ ∃ a t b, OptCfws a ∧ Atom t ∧ OptCfws b ∧ x = a ++ (t ++ b) := by
  unfold_rule
  rw [d_padded]
  simp only [d_atexts]

theorem dotted_iff {x} : D (some1 atext ⬝ many (text c!"." ⬝ some1 atext)) x ↔ Dotted x := by
  rw [d_seq]
  constructor
  · rintro ⟨a, y, rfl, ha, hy⟩
    rw [d_atexts] at ha
    rw [d_many] at hy
    induction hy generalizing a with
    | nil => simpa using Dotted.one ha
    | cons h _ ih =>
      obtain ⟨d, b, rfl, hd, hb⟩ := d_seq.mp h
      rw [(d_char '.').mp hd]
      simpa using Dotted.cons ha (ih _ (d_atexts.mp hb))
  · intro h
    induction h with
    | one h => exact ⟨_, [], by simp, d_atexts.mpr h, d_many.mpr .nil⟩
    | cons h _ ih =>
      obtain ⟨b, y, rfl, hb, hy⟩ := ih
      refine ⟨_, _, rfl, d_atexts.mpr h, d_many.mpr (.cons (x := '.' :: b) ?_ (d_many.mp hy))⟩
      exact .seq (x := ['.']) ((d_char '.').mpr rfl) hb

theorem d_dotAtomText {x} : D «dot-atom-text» x ↔ DotAtom x := by
  unfold_rule
  constructor
  · intro h
    obtain ⟨a, y, rfl, ha, h⟩ := d_seq.mp h
    obtain ⟨b, p, rfl, hb, hp⟩ := d_seq.mp h
    have hab : Dotted (a ++ b) := dotted_iff.mp (.seq ha hb)
    rcases d_opt.mp hp with rfl | hp
    · exact .inl (by simpa using hab)
    · rw [(d_char '.').mp hp]
      exact .inr ⟨_, hab, by simp⟩
  · intro h
    have key : ∀ r p, Dotted r → D (opt (text c!".")) p → D (some1 atext ⬝ many (text c!"." ⬝ some1 atext) ⬝ opt (text c!".")) (r ++ p) := by
      intro r p hr hp
      obtain ⟨a, y, rfl, ha, hy⟩ := d_seq.mp (dotted_iff.mpr hr)
      rw [List.append_assoc]
      exact .seq ha (.seq hy hp)
    rcases h with h | ⟨r, h, rfl⟩
    · simpa using key _ [] h (d_opt.mpr (.inl rfl))
    · exact key _ _ h (d_opt.mpr (.inr ((d_char '.').mpr rfl)))

theorem d_dotAtom {x} : D «dot-atom» x ↔ ∃ a t b, OptCfws a ∧ DotAtom t ∧ OptCfws b ∧ x = a ++ (t ++ b) := by
  unfold_rule
  rw [d_padded]
  simp only [d_dotAtomText]

theorem d_dquote {x} : D DQUOTE x ↔ x = ['"'] := by
  rw [cls_DQUOTE]
  constructor
  · rintro ⟨c, rfl, rfl⟩; rfl
  · rintro rfl; exact ⟨_, rfl, rfl⟩

theorem d_qcontent {x} : D qcontent x ↔ (∃ c, x = [c] ∧ isQtext c = true) ∨ ∃ c, x = ['\\', c] ∧ (isQuotable c || isObsQuoted c) = true := by
  unfold_rule
  rw [d_alt, cls_qtext, d_pair]

theorem quoted_iff {x} : Many (D (opt FWS ⬝ qcontent)) x ↔ ∃ v, QuotedText x v := by
  constructor
  · intro h
    induction h with
    | nil => exact ⟨_, .nil⟩
    | cons h _ ih =>
      obtain ⟨v, hv⟩ := ih
      obtain ⟨f, c, rfl, hf, hc⟩ := d_seq.mp h
      have hf := d_optFWS.mp hf
      rcases d_qcontent.mp hc with ⟨c, rfl, h'⟩ | ⟨c, rfl, h'⟩
      · exact ⟨_, by simpa using QuotedText.char hf h' hv⟩
      · rcases Bool.or_eq_true_iff.mp h' with h' | h'
        · exact ⟨_, by simpa using QuotedText.pair hf h' hv⟩
        · exact ⟨_, by simpa using QuotedText.obsPair hf h' hv⟩
  · rintro ⟨v, h⟩
    induction h with
    | nil => exact .nil
    | @char f c r v hf hc _ ih =>
      rw [List.append_cons]
      exact .cons (.seq (d_optFWS.mpr hf) (d_qcontent.mpr (.inl ⟨c, rfl, hc⟩))) ih
    | @pair f c r v hf hc _ ih =>
      rw [show f ++ '\\' :: c :: r = (f ++ ['\\', c]) ++ r by simp]
      exact .cons (.seq (d_optFWS.mpr hf) (d_qcontent.mpr (.inr ⟨c, rfl, by simp [hc]⟩))) ih
    | @obsPair f c r v hf hc _ ih =>
      rw [show f ++ '\\' :: c :: r = (f ++ ['\\', c]) ++ r by simp]
      exact .cons (.seq (d_optFWS.mpr hf) (d_qcontent.mpr (.inr ⟨c, rfl, by simp [hc]⟩))) ih

theorem d_quotedString {x} : D «quoted-string» x ↔ ∃ a t v b, OptCfws a ∧ QuotedString t v ∧ OptCfws b ∧ x = a ++ (t ++ b) := by
  unfold_rule
  constructor
  · intro h
    obtain ⟨a, y, rfl, ha, h⟩ := d_seq.mp h
    obtain ⟨q, y, rfl, hq, h⟩ := d_seq.mp h
    obtain ⟨m, y, rfl, hm, h⟩ := d_seq.mp h
    obtain ⟨f, y, rfl, hf, h⟩ := d_seq.mp h
    obtain ⟨q', b, rfl, hq', hb⟩ := d_seq.mp h
    rw [d_dquote.mp hq, d_dquote.mp hq']
    obtain ⟨v, hv⟩ := quoted_iff.mp (d_many.mp hm)
    exact ⟨a, _, v, b, d_optCFWS.mp ha, ⟨m, f, hv, d_optFWS.mp hf, rfl⟩, d_optCFWS.mp hb, by simp⟩
  · rintro ⟨a, t, v, b, ha, ⟨m, f, hm, hf, rfl⟩, hb, rfl⟩
    refine .seq (d_optCFWS.mpr ha) ?_
    rw [show ('"' :: (m ++ (f ++ ['"']))) ++ b = ['"'] ++ (m ++ (f ++ (['"'] ++ b))) by simp]
    exact .seq (d_dquote.mpr rfl) (.seq (d_many.mpr (quoted_iff.mpr ⟨v, hm⟩)) (.seq (d_optFWS.mpr hf) (.seq (d_dquote.mpr rfl) (d_optCFWS.mpr hb))))

theorem d_token {x} : D token x ↔ x ≠ [] ∧ ∀ c ∈ x, isTokenChar c = true := by
  unfold_rule
  exact some1_chars cls_token

theorem d_encodedText {x} : D «encoded-text» x ↔ x ≠ [] ∧ ∀ c ∈ x, isEncodedChar c = true := by
  unfold_rule
  exact some1_chars cls_encoded

theorem d_mark {x} (s : List Char) (h : ∀ d ∈ s, d ∈ c!"\\()!#$%&'*+-/=?^_`{|}~.,:;<>@[]") : D (.text s) x ↔ x = s := by
  rw [d_text]
  constructor
  · intro hx
    induction s generalizing x with
    | nil => simpa using hx
    | cons d s ih =>
      cases x with
      | nil => simp at hx
      | cons c x =>
        simp only [List.map_cons, List.cons.injEq] at hx
        rw [(punct_lower (h d (by simp))).mp hx.1, ih (fun e he => h e (by simp [he])) hx.2]
  · rintro rfl; rfl

theorem d_encodedWord {x} : D «encoded-word» x ↔ EncodedWord x := by
  have hc : ∀ {y}, D charset y ↔ D token y := by intro y; unfold_rule
  have he : ∀ {y}, D encoding y ↔ D token y := by intro y; unfold_rule
  unfold_rule
  constructor
  · intro h
    obtain ⟨m, y, rfl, hm, h⟩ := d_seq.mp h
    obtain ⟨cs, y, rfl, h1, h⟩ := d_seq.mp h
    obtain ⟨q, y, rfl, hq, h⟩ := d_seq.mp h
    obtain ⟨en, y, rfl, h2, h⟩ := d_seq.mp h
    obtain ⟨q', y, rfl, hq', h⟩ := d_seq.mp h
    obtain ⟨tx, m', rfl, h3, hm'⟩ := d_seq.mp h
    rw [(d_mark c!"=?" (by decide)).mp hm, (d_char '?').mp hq, (d_char '?').mp hq', (d_mark c!"?=" (by decide)).mp hm']
    rw [hc, d_token] at h1
    rw [he, d_token] at h2
    rw [d_encodedText] at h3
    exact ⟨cs, en, tx, h1.1, h2.1, h3.1, h1.2, h2.2, h3.2, rfl⟩
  · rintro ⟨cs, en, tx, h1, h2, h3, h4, h5, h6, rfl⟩
    exact .seq (x := c!"=?") ((d_mark _ (by decide)).mpr rfl) (.seq (hc.mpr (d_token.mpr ⟨h1, h4⟩)) (.seq (x := ['?']) ((d_char '?').mpr rfl)
      (.seq (he.mpr (d_token.mpr ⟨h2, h5⟩)) (.seq (x := ['?']) ((d_char '?').mpr rfl) (.seq (d_encodedText.mpr ⟨h3, h6⟩) ((d_mark c!"?=" (by decide)).mpr rfl))))))

theorem encodedWords_iff {env x} : D (some1 (opt CFWS ⬝ «encoded-word» ⬝ opt CFWS)) x ↔ ∃ v, EncodedWords env x v := by
  rw [d_some1]
  constructor
  · rintro ⟨y, z, rfl, hy, hz⟩
    obtain ⟨a, t, b, ha, ht, hb, rfl⟩ := d_padded.mp hy
    rw [d_encodedWord] at ht
    clear hy
    induction hz generalizing a t b with
    | nil => exact ⟨_, by simpa using EncodedWords.one ha ht hb⟩
    | cons h _ ih =>
      obtain ⟨a', t', b', ha', ht', hb', rfl⟩ := d_padded.mp h
      obtain ⟨v, hv⟩ := ih a' t' b' ha' (d_encodedWord.mp ht') hb'
      exact ⟨_, by simpa using EncodedWords.cons ha ht hb hv⟩
  · rintro ⟨v, h⟩
    induction h with
    | one ha ht hb => exact ⟨_, [], by simp, d_padded.mpr ⟨_, _, _, ha, d_encodedWord.mpr ht, hb, rfl⟩, .nil⟩
    | @cons a t b r v ha ht hb _ ih =>
      obtain ⟨y, z, rfl, hy, hz⟩ := ih
      exact ⟨a ++ (t ++ b), y ++ z, by simp, d_padded.mpr ⟨_, _, _, ha, d_encodedWord.mpr ht, hb, rfl⟩, .cons hy hz⟩

variable {env : Env}

theorem d_word {x} : D Name.word x ↔ ∃ v, Word env x v := by
  unfold_rule
  rw [d_alt, d_alt, d_atom, d_quotedString, encodedWords_iff (env := env)]
  constructor
  · rintro (⟨v, h⟩ | ⟨a, t, b, ha, ht, hb, rfl⟩ | ⟨a, t, v, b, ha, ht, hb, rfl⟩)
    · exact ⟨v, .encoded h⟩
    · exact ⟨_, .atom ha ht hb⟩
    · exact ⟨_, .quoted ha ht hb⟩
  · rintro ⟨v, h⟩
    cases h with
    | encoded h => exact .inl ⟨v, h⟩
    | atom ha ht hb => exact .inr (.inl ⟨_, _, _, ha, ht, hb, rfl⟩)
    | quoted ha ht hb => exact .inr (.inr ⟨_, _, _, _, ha, ht, hb, rfl⟩)

theorem nameTail_iff {x} : Many (D (Name.word / text c!"." / text c!"@" / CFWS)) x ↔ ∃ ps, NameTail env x ps := by
  constructor
  · intro h
    induction h with
    | nil => exact ⟨_, .nil⟩
    | cons h _ ih =>
      obtain ⟨ps, hps⟩ := ih
      rw [d_alt, d_alt, d_alt, d_word (env := env), d_char '.', d_char '@', d_CFWS] at h
      rcases h with ⟨v, h⟩ | rfl | rfl | h
      · exact ⟨_, .word h hps⟩
      · exact ⟨_, .dot hps⟩
      · exact ⟨_, .at hps⟩
      · exact ⟨_, .cfws h hps⟩
  · rintro ⟨ps, h⟩
    induction h with
    | nil => exact .nil
    | word h _ ih => exact .cons (.left (d_word.mpr ⟨_, h⟩)) ih
    | dot _ ih => exact .cons (x := ['.']) (.right (.left ((d_char '.').mpr rfl))) ih
    | «at» _ ih => exact .cons (x := ['@']) (.right (.right (.left ((d_char '@').mpr rfl)))) ih
    | cfws h _ ih => exact .cons (.right (.right (.right (d_CFWS.mpr h)))) ih

theorem d_displayName {x} : D «display-name» x ↔ ∃ v, DisplayName env x v := by
  unfold_rule
  unfold_rule
  rw [d_alt, d_rule (n := «obs-phrase»)]
  simp only [accepted, extensions, Option.getD]
  constructor
  · rintro (h | h)
    · obtain ⟨y, z, rfl, hy, hz⟩ := d_some1.mp h
      obtain ⟨v, hv⟩ := (d_word (env := env)).mp hy
      obtain ⟨ps, hps⟩ := (nameTail_iff (env := env)).mp (hz.mono fun _ h => .left h)
      exact ⟨_, y, v, z, ps, hv, hps, rfl, rfl⟩
    · obtain ⟨y, z, rfl, hy, hz⟩ := d_seq.mp h
      obtain ⟨v, hv⟩ := (d_word (env := env)).mp hy
      obtain ⟨ps, hps⟩ := (nameTail_iff (env := env)).mp (d_many.mp hz)
      exact ⟨_, y, v, z, ps, hv, hps, rfl, rfl⟩
  · rintro ⟨_, w, v, r, ps, hw, hr, rfl, rfl⟩
    exact .inr (.seq (d_word.mpr ⟨v, hw⟩) (d_many.mpr (nameTail_iff.mpr ⟨ps, hr⟩)))

/-! ## Addresses -/

theorem d_localPart {x} : D «local-part» x ↔ ∃ v, LocalPart env x v := by
  have hobs : ∀ {x}, D «obs-local-part» x ↔ ∃ v, DottedWords env x v := by
    intro x
    unfold_rule
    constructor
    · intro h
      obtain ⟨y, z, rfl, hy, hz⟩ := d_seq.mp h
      obtain ⟨v, hv⟩ := (d_word (env := env)).mp hy
      rw [d_many] at hz
      clear hy h
      induction hz generalizing y v with
      | nil => exact ⟨v, by simpa using DottedWords.one hv⟩
      | cons h _ ih =>
        obtain ⟨d, w, rfl, hd, hw⟩ := d_seq.mp h
        obtain ⟨u, hu⟩ := (d_word (env := env)).mp hw
        obtain ⟨u, hu⟩ := ih w u hu
        rw [(d_char '.').mp hd]
        exact ⟨_, by simpa using DottedWords.cons hv hu⟩
    · rintro ⟨v, h⟩
      induction h with
      | one h => exact d_seq.mpr ⟨_, [], by simp, d_word.mpr ⟨_, h⟩, d_many.mpr .nil⟩
      | cons h _ ih =>
        obtain ⟨y, z, rfl, hy, hz⟩ := d_seq.mp ih
        refine .seq (d_word.mpr ⟨_, h⟩) (d_many.mpr (.cons (x := '.' :: y) ?_ (d_many.mp hz)))
        exact .seq (x := ['.']) ((d_char '.').mpr rfl) hy
  unfold_rule
  rw [d_alt, d_alt, d_dotAtom, d_quotedString, hobs]
  constructor
  · rintro (⟨a, t, b, ha, ht, hb, rfl⟩ | ⟨a, t, v, b, ha, ht, hb, rfl⟩ | ⟨v, h⟩)
    · exact ⟨_, .dotAtom ha ht hb⟩
    · exact ⟨_, .quoted ha ht hb⟩
    · exact ⟨_, .obs h⟩
  · rintro ⟨v, h⟩
    cases h with
    | dotAtom ha ht hb => exact .inl ⟨_, _, _, ha, ht, hb, rfl⟩
    | quoted ha ht hb => exact .inr (.inl ⟨_, _, _, _, ha, ht, hb, rfl⟩)
    | obs h => exact .inr (.inr ⟨_, h⟩)

theorem literal_iff {x} : Many (D (opt FWS ⬝ dtext)) x ↔ LiteralItems x := by
  constructor
  · intro h
    induction h with
    | nil => exact .nil
    | cons h _ ih =>
      obtain ⟨f, c, rfl, hf, hc⟩ := d_seq.mp h
      obtain ⟨c, rfl, h'⟩ := (cls_dtext _).mp hc
      simpa using LiteralItems.char (d_optFWS.mp hf) h' ih
  · intro h
    induction h with
    | nil => exact .nil
    | @char f c r hf hc _ ih =>
      rw [List.append_cons]
      exact .cons (.seq (d_optFWS.mpr hf) ((cls_dtext _).mpr ⟨c, rfl, hc⟩)) ih

theorem d_domainLiteral {x} : D «domain-literal» x ↔ ∃ a t b, OptCfws a ∧ DomainLiteral t ∧ OptCfws b ∧ x = a ++ (t ++ b) := by
  unfold_rule
  constructor
  · intro h
    obtain ⟨a, y, rfl, ha, h⟩ := d_seq.mp h
    obtain ⟨q, y, rfl, hq, h⟩ := d_seq.mp h
    obtain ⟨m, y, rfl, hm, h⟩ := d_seq.mp h
    obtain ⟨f, y, rfl, hf, h⟩ := d_seq.mp h
    obtain ⟨q', b, rfl, hq', hb⟩ := d_seq.mp h
    rw [(d_char '[').mp hq, (d_char ']').mp hq']
    exact ⟨a, _, b, d_optCFWS.mp ha, ⟨m, f, literal_iff.mp (d_many.mp hm), d_optFWS.mp hf, rfl⟩, d_optCFWS.mp hb, by simp⟩
  · rintro ⟨a, t, b, ha, ⟨m, f, hm, hf, rfl⟩, hb, rfl⟩
    refine .seq (d_optCFWS.mpr ha) ?_
    rw [show ('[' :: (m ++ (f ++ [']']))) ++ b = ['['] ++ (m ++ (f ++ ([']'] ++ b))) by simp]
    exact .seq ((d_char '[').mpr rfl) (.seq (d_many.mpr (literal_iff.mpr hm)) (.seq (d_optFWS.mpr hf) (.seq ((d_char ']').mpr rfl) (d_optCFWS.mpr hb))))

theorem d_domain {x} : D Name.domain x ↔ ∃ v, Domain x v := by
  unfold_rule
  rw [d_alt, d_alt, d_dotAtom, d_domainLiteral, d_rule (n := «obs-domain»)]
  simp only [accepted, extensions, restricted, restrictions, Option.getD, d_nothing, or_false]
  constructor
  · rintro (⟨a, t, b, ha, ht, hb, rfl⟩ | ⟨a, t, b, ha, ht, hb, rfl⟩)
    · exact ⟨_, .dotAtom ha ht hb⟩
    · exact ⟨_, .literal ha ht hb⟩
  · rintro ⟨v, h⟩
    cases h with
    | dotAtom ha ht hb => exact .inl ⟨_, _, _, ha, ht, hb, rfl⟩
    | literal ha ht hb => exact .inr ⟨_, _, _, ha, ht, hb, rfl⟩

theorem d_addrSpec {x} : D «addr-spec» x ↔ ∃ v, AddrSpec env x v := by
  unfold_rule
  constructor
  · intro h
    obtain ⟨l, y, rfl, hl, h⟩ := d_seq.mp h
    obtain ⟨q, y, rfl, hq, h⟩ := d_seq.mp h
    obtain ⟨d, p, rfl, hd, hp⟩ := d_seq.mp h
    rw [(d_char '@').mp hq]
    obtain ⟨lv, hl⟩ := (d_localPart (env := env)).mp hl
    obtain ⟨dv, hd⟩ := d_domain.mp hd
    rcases d_opt.mp hp with rfl | hp
    · exact ⟨_, by simpa using AddrSpec.plain hl hd⟩
    · obtain ⟨c, n, rfl, hc, hn⟩ := d_seq.mp hp
      rw [(d_char ':').mp hc]
      obtain ⟨h1, h2⟩ := (some1_chars cls_DIGIT).mp hn
      exact ⟨_, AddrSpec.port hl hd h1 h2⟩
  · rintro ⟨v, h⟩
    cases h with
    | @plain l lv d dv hl hd =>
      have := Derivable.seq (d_localPart.mpr ⟨_, hl⟩) (.seq (x := ['@']) ((d_char '@').mpr rfl) (.seq (d_domain.mpr ⟨_, hd⟩)
        (d_opt (a := text c!":" ⬝ some1 DIGIT).mpr (.inl rfl))))
      simp only [List.append_nil] at this
      exact this
    | @port l lv d dv p hl hd h1 h2 =>
      exact .seq (d_localPart.mpr ⟨_, hl⟩) (.seq (x := ['@']) ((d_char '@').mpr rfl) (.seq (d_domain.mpr ⟨_, hd⟩)
        (d_opt.mpr (.inr (.seq (x := [':']) ((d_char ':').mpr rfl) ((some1_chars cls_DIGIT).mpr ⟨h1, h2⟩))))))

theorem d_route {x} : D «obs-route» x ↔ Route x := by
  have hhead : ∀ {x}, Many (D (CFWS / text c!",")) x ↔ RouteHead x := by
    intro x
    constructor
    · intro h
      induction h with
      | nil => exact .nil
      | cons h _ ih =>
        rw [d_alt, d_CFWS, d_char ','] at h
        rcases h with h | rfl
        · exact .cfws h ih
        · exact .comma ih
    · intro h
      induction h with
      | nil => exact .nil
      | comma _ ih => exact .cons (x := [',']) (.right ((d_char ',').mpr rfl)) ih
      | cfws h _ ih => exact .cons (.left (d_CFWS.mpr h)) ih
  have htail : ∀ {x}, Many (D (text c!"," ⬝ opt CFWS ⬝ opt (text c!"@" ⬝ Name.domain))) x ↔ RouteTail x := by
    intro x
    constructor
    · intro h
      induction h with
      | nil => exact .nil
      | cons h _ ih =>
        obtain ⟨c, y, rfl, hc, h⟩ := d_seq.mp h
        obtain ⟨t, d, rfl, ht, hd⟩ := d_seq.mp h
        rw [(d_char ',').mp hc]
        rcases d_opt.mp hd with rfl | hd
        · simpa using RouteTail.empty (d_optCFWS.mp ht) ih
        · obtain ⟨a, d, rfl, ha, hd⟩ := d_seq.mp hd
          obtain ⟨v, hd⟩ := d_domain.mp hd
          rw [(d_char '@').mp ha]
          simpa using RouteTail.hop (d_optCFWS.mp ht) hd ih
    · intro h
      induction h with
      | nil => exact .nil
      | @empty t r ht _ ih =>
        refine .cons (x := ',' :: t) ?_ ih
        have := Derivable.seq (x := [',']) ((d_char ',').mpr rfl) (.seq (d_optCFWS.mpr ht) (d_opt (a := text c!"@" ⬝ Name.domain).mpr (.inl rfl)))
        simp only [List.append_nil] at this
        exact this
      | @hop t d v r ht hd _ ih =>
        rw [show ',' :: (t ++ '@' :: (d ++ r)) = (',' :: (t ++ '@' :: d)) ++ r by simp]
        refine .cons ?_ ih
        exact .seq (x := [',']) ((d_char ',').mpr rfl) (.seq (d_optCFWS.mpr ht) (d_opt.mpr (.inr (.seq (x := ['@']) ((d_char '@').mpr rfl) (d_domain.mpr ⟨v, hd⟩)))))
  unfold_rule
  rw [d_seq]
  constructor
  · rintro ⟨l, c, rfl, hl, hc⟩
    rw [(d_char ':').mp hc]
    rw [d_rule] at hl
    simp only [accepted, extensions, restricted, restrictions, rfc, Option.getD] at hl
    obtain ⟨h, y, rfl, hh, hl⟩ := d_seq.mp hl
    obtain ⟨q, y, rfl, hq, hl⟩ := d_seq.mp hl
    obtain ⟨d, r, rfl, hd, hr⟩ := d_seq.mp hl
    obtain ⟨v, hd⟩ := d_domain.mp hd
    rw [(d_char '@').mp hq]
    exact ⟨h, d, v, r, hhead.mp (d_many.mp hh), hd, htail.mp (d_many.mp hr), by simp⟩
  · rintro ⟨h, d, v, r, hh, hd, hr, rfl⟩
    refine ⟨h ++ '@' :: (d ++ r), [':'], by simp, ?_, (d_char ':').mpr rfl⟩
    unfold_rule
    exact .seq (d_many.mpr (hhead.mpr hh)) (.seq (x := ['@']) ((d_char '@').mpr rfl) (.seq (d_domain.mpr ⟨v, hd⟩) (d_many.mpr (htail.mpr hr))))

theorem d_angleAddr {x} : D «angle-addr» x ↔ ∃ v, AngleAddr env x v := by
  unfold_rule
  rw [d_alt, d_rule (n := «obs-angle-addr»)]
  simp only [accepted, extensions, restricted, restrictions, rfc, Option.getD]
  constructor
  · rintro (h | h)
    · obtain ⟨a, y, rfl, ha, h⟩ := d_seq.mp h
      obtain ⟨q, y, rfl, hq, h⟩ := d_seq.mp h
      obtain ⟨t, y, rfl, ht, h⟩ := d_seq.mp h
      obtain ⟨q', b, rfl, hq', hb⟩ := d_seq.mp h
      rw [(d_char '<').mp hq, (d_char '>').mp hq']
      rcases d_opt.mp ht with rfl | ht
      · exact ⟨_, by simpa using AngleAddr.null (d_optCFWS.mp ha) (d_optCFWS.mp hb)⟩
      · obtain ⟨v, ht⟩ := (d_addrSpec (env := env)).mp ht
        exact ⟨_, .addr (d_optCFWS.mp ha) ht (d_optCFWS.mp hb)⟩
    · obtain ⟨a, y, rfl, ha, h⟩ := d_seq.mp h
      obtain ⟨q, y, rfl, hq, h⟩ := d_seq.mp h
      obtain ⟨r, y, rfl, hr, h⟩ := d_seq.mp h
      obtain ⟨t, y, rfl, ht, h⟩ := d_seq.mp h
      obtain ⟨q', b, rfl, hq', hb⟩ := d_seq.mp h
      rw [(d_char '<').mp hq, (d_char '>').mp hq']
      obtain ⟨v, ht⟩ := (d_addrSpec (env := env)).mp ht
      exact ⟨_, .routed (d_optCFWS.mp ha) (d_route.mp hr) ht (d_optCFWS.mp hb)⟩
  · rintro ⟨v, h⟩
    cases h with
    | null ha hb =>
      exact .inl (.seq (d_optCFWS.mpr ha) (.seq (x := ['<']) ((d_char '<').mpr rfl) (.seq (x := []) (d_opt.mpr (.inl rfl))
        (.seq (x := ['>']) ((d_char '>').mpr rfl) (d_optCFWS.mpr hb)))))
    | addr ha ht hb =>
      exact .inl (.seq (d_optCFWS.mpr ha) (.seq (x := ['<']) ((d_char '<').mpr rfl) (.seq (d_opt.mpr (.inr (d_addrSpec.mpr ⟨_, ht⟩)))
        (.seq (x := ['>']) ((d_char '>').mpr rfl) (d_optCFWS.mpr hb)))))
    | routed ha hr ht hb =>
      exact .inr (.seq (d_optCFWS.mpr ha) (.seq (x := ['<']) ((d_char '<').mpr rfl) (.seq (d_route.mpr hr) (.seq (d_addrSpec.mpr ⟨_, ht⟩)
        (.seq (x := ['>']) ((d_char '>').mpr rfl) (d_optCFWS.mpr hb))))))

theorem d_mailbox {x} : D Name.mailbox x ↔ ∃ a, Mailbox env x a := by
  unfold_rule
  rw [d_alt, d_addrSpec (env := env), d_rule (n := «name-addr»)]
  simp only [accepted, extensions, restricted, restrictions, rfc, Option.getD]
  rw [d_seq]
  constructor
  · rintro (⟨n, a, rfl, hn, ha⟩ | ⟨v, h⟩)
    · obtain ⟨av, ha⟩ := (d_angleAddr (env := env)).mp ha
      rcases d_opt.mp hn with rfl | hn
      · exact ⟨_, .angle ha⟩
      · obtain ⟨nv, hn⟩ := (d_displayName (env := env)).mp hn
        exact ⟨_, .named hn ha⟩
    · exact ⟨_, .bare h⟩
  · rintro ⟨a, h⟩
    cases h with
    | named hn ha => exact .inl ⟨_, _, rfl, d_opt.mpr (.inr (d_displayName.mpr ⟨_, hn⟩)), d_angleAddr.mpr ⟨_, ha⟩⟩
    | angle ha => exact .inl ⟨[], _, rfl, d_opt.mpr (.inl rfl), d_angleAddr.mpr ⟨_, ha⟩⟩
    | bare h => exact .inr ⟨_, h⟩

theorem commas_iff {x} : Many (D (opt CFWS ⬝ text c!",")) x ↔ Commas x := by
  constructor
  · intro h
    induction h with
    | nil => exact .nil
    | cons h _ ih =>
      obtain ⟨t, c, rfl, ht, hc⟩ := d_seq.mp h
      rw [(d_char ',').mp hc]
      simpa using Commas.cons (d_optCFWS.mp ht) ih
  · intro h
    induction h with
    | nil => exact .nil
    | @cons t r ht _ ih =>
      rw [List.append_cons]
      exact .cons (.seq (d_optCFWS.mpr ht) ((d_char ',').mpr rfl)) ih

theorem commaTail_iff {e : Abnf} {Item : List Char → List Addr → Prop} (he : ∀ x, D e x ↔ ∃ as, Item x as) {x} :
    Many (D (text c!"," ⬝ opt (e / CFWS))) x ↔ ∃ as, CommaTail Item x as := by
  constructor
  · intro h
    induction h with
    | nil => exact ⟨_, .nil⟩
    | cons h _ ih =>
      obtain ⟨bs, hbs⟩ := ih
      obtain ⟨c, t, rfl, hc, ht⟩ := d_seq.mp h
      rw [(d_char ',').mp hc]
      rw [d_opt, d_alt, he, d_CFWS] at ht
      rcases ht with rfl | ⟨as, ht⟩ | ht
      · exact ⟨_, CommaTail.empty ⟨[], [], .nil, .inl rfl, rfl⟩ hbs⟩
      · exact ⟨_, CommaTail.item ht hbs⟩
      · exact ⟨_, CommaTail.empty ht.1 hbs⟩
  · rintro ⟨as, h⟩
    induction h with
    | nil => exact .nil
    | @item t as r bs h _ ih =>
      refine .cons (x := ',' :: t) ?_ ih
      exact .seq (x := [',']) ((d_char ',').mpr rfl) (d_opt.mpr (.inr (.left ((he _).mpr ⟨as, h⟩))))
    | @empty t r bs h _ ih =>
      refine .cons (x := ',' :: t) ?_ ih
      refine .seq (x := [',']) ((d_char ',').mpr rfl) ?_
      rcases d_opt.mp (d_optCFWS.mpr h) with rfl | h
      · exact d_opt.mpr (.inl rfl)
      · exact d_opt.mpr (.inr (.right h))

theorem d_mailboxItem (x) : D Name.mailbox x ↔ ∃ as, MailboxItem env x as := by
  rw [d_mailbox (env := env)]
  exact ⟨fun ⟨a, h⟩ => ⟨[a], a, h, rfl⟩, fun ⟨_, a, h, _⟩ => ⟨a, h⟩⟩

theorem d_mailboxList {x} : D «mailbox-list» x ↔ ∃ as, MailboxList env x as := by
  unfold_rule
  rw [d_alt, d_rule (n := «obs-mbox-list»)]
  simp only [accepted, extensions, restricted, restrictions, rfc, Option.getD]
  constructor
  · rintro (h | h)
    · obtain ⟨m, r, rfl, hm, hr⟩ := d_seq.mp h
      obtain ⟨a, hm⟩ := (d_mailbox (env := env)).mp hm
      obtain ⟨bs, hr⟩ := (commaTail_iff (d_mailboxItem (env := env))).mp ((d_many.mp hr).mono fun y hy => by
        obtain ⟨c, t, rfl, hc, ht⟩ := d_seq.mp hy
        exact .seq hc (d_opt.mpr (.inr (.left ht))))
      exact ⟨_, [], m, a, r, bs, .nil, hm, hr, rfl, rfl⟩
    · obtain ⟨c, y, rfl, hc, h⟩ := d_seq.mp h
      obtain ⟨m, r, rfl, hm, hr⟩ := d_seq.mp h
      obtain ⟨a, hm⟩ := (d_mailbox (env := env)).mp hm
      obtain ⟨bs, hr⟩ := (commaTail_iff (d_mailboxItem (env := env))).mp (d_many.mp hr)
      exact ⟨_, c, m, a, r, bs, commas_iff.mp (d_many.mp hc), hm, hr, rfl, rfl⟩
  · rintro ⟨as, h, m, a, r, bs, hh, hm, hr, rfl, rfl⟩
    exact .inr (.seq (d_many.mpr (commas_iff.mpr hh)) (.seq (d_mailbox.mpr ⟨a, hm⟩) (d_many.mpr ((commaTail_iff (d_mailboxItem (env := env))).mpr ⟨bs, hr⟩))))

theorem d_groupList {x} : D (opt «group-list») x ↔ ∃ as, GroupBody env x as := by
  rw [d_opt, d_rule (n := «group-list»)]
  simp only [accepted, extensions, restricted, restrictions, rfc, Option.getD]
  rw [d_alt, d_alt, d_mailboxList (env := env), d_CFWS, d_rule (n := «obs-group-list»)]
  simp only [accepted, extensions, restricted, restrictions, rfc, Option.getD]
  constructor
  · rintro (rfl | ⟨as, h⟩ | h | h)
    · exact ⟨[], .empty (h := []) (t := []) .nil ⟨[], [], .nil, .inl rfl, rfl⟩⟩
    · exact ⟨as, .list h⟩
    · exact ⟨[], .empty (h := []) .nil h.1⟩
    · obtain ⟨c, t, rfl, hc, ht⟩ := d_seq.mp h
      obtain ⟨y, z, rfl, hy, hz⟩ := d_some1.mp hc
      exact ⟨[], .empty (commas_iff.mp (.cons hy hz)) (d_optCFWS.mp ht)⟩
  · rintro ⟨as, h⟩
    cases h with
    | list h => exact .inr (.inl ⟨_, h⟩)
    | @empty c t hc ht =>
      have := commas_iff.mpr hc
      cases this with
      | nil =>
        rcases d_opt.mp (d_optCFWS.mpr ht) with rfl | h
        · exact .inl rfl
        · exact .inr (.inr (.inl (d_CFWS.mp h)))
      | cons h1 h2 => exact .inr (.inr (.inr (.seq (d_some1.mpr ⟨_, _, rfl, h1, h2⟩) (d_optCFWS.mpr ht))))

theorem d_group {x} : D Name.group x ↔ ∃ as, Group env x as := by
  unfold_rule
  constructor
  · intro h
    obtain ⟨q, y, rfl, hq, h⟩ := d_seq.mp h
    obtain ⟨n, y, rfl, hn, h⟩ := d_seq.mp h
    obtain ⟨k, y, rfl, hk, h⟩ := d_seq.mp h
    obtain ⟨b, y, rfl, hb, h⟩ := d_seq.mp h
    obtain ⟨q', y, rfl, hq', h⟩ := d_seq.mp h
    obtain ⟨e, c, rfl, he, hc⟩ := d_seq.mp h
    obtain ⟨nv, hn⟩ := (d_displayName (env := env)).mp hn
    obtain ⟨as, hb⟩ := (d_groupList (env := env)).mp hb
    rw [d_opt, d_dquote] at hq hq'
    rw [d_opt, d_char ';'] at he
    rw [(d_char ':').mp hk]
    exact ⟨as, q, n, nv, b, q', e, c, hq, hn, hb, hq', he, d_optCFWS.mp hc, by simp⟩
  · rintro ⟨as, q, n, nv, b, q', e, c, hq, hn, hb, hq', he, hc, rfl⟩
    refine .seq (d_opt.mpr ?_) (.seq (d_displayName.mpr ⟨nv, hn⟩) (.seq (x := [':']) ((d_char ':').mpr rfl) (.seq (d_groupList.mpr ⟨as, hb⟩)
      (.seq (d_opt.mpr ?_) (.seq (d_opt.mpr ?_) (d_optCFWS.mpr hc))))))
    · rwa [d_dquote]
    · rwa [d_dquote]
    · rwa [d_char ';']

theorem d_address (x) : D Name.address x ↔ ∃ as, Address env x as := by
  unfold_rule
  rw [d_alt, d_mailbox (env := env), d_group (env := env)]
  constructor
  · rintro (⟨a, h⟩ | ⟨as, h⟩)
    · exact ⟨_, .mailbox h⟩
    · exact ⟨_, .group h⟩
  · rintro ⟨as, h⟩
    cases h with
    | mailbox h => exact .inl ⟨_, h⟩
    | group h => exact .inr ⟨_, h⟩

theorem sepTail_iff {x} : Many (D ((text c!"," / text c!";") ⬝ Name.address)) x ↔ ∃ as, SepTail env x as := by
  constructor
  · intro h
    induction h with
    | nil => exact ⟨_, .nil⟩
    | cons h _ ih =>
      obtain ⟨bs, hbs⟩ := ih
      obtain ⟨c, t, rfl, hc, ht⟩ := d_seq.mp h
      obtain ⟨as, ht⟩ := (d_address (env := env) _).mp ht
      rw [d_alt, d_char ',', d_char ';'] at hc
      rcases hc with rfl | rfl
      · exact ⟨_, SepTail.item (.inl rfl) ht hbs⟩
      · exact ⟨_, SepTail.item (.inr rfl) ht hbs⟩
  · rintro ⟨as, h⟩
    induction h with
    | nil => exact .nil
    | @item sep t as r bs hs h _ ih =>
      refine .cons (x := sep :: t) ?_ ih
      refine .seq (x := [sep]) ?_ ((d_address _).mpr ⟨as, h⟩)
      rw [d_alt, d_char ',', d_char ';']
      rcases hs with rfl | rfl
      · exact .inl rfl
      · exact .inr rfl

/-- The address lists. -/
theorem d_addressList {x} : D «address-list» x ↔ ∃ as, AddressList env x as := by
  unfold_rule
  rw [d_alt, d_rule (n := «obs-addr-list»)]
  simp only [accepted, extensions, restricted, restrictions, rfc, Option.getD]
  constructor
  · rintro (h | h)
    · obtain ⟨m, r, rfl, hm, hr⟩ := d_seq.mp h
      obtain ⟨as, hm⟩ := (d_address (env := env) _).mp hm
      obtain ⟨bs, hr⟩ := (sepTail_iff (env := env)).mp (d_many.mp hr)
      exact ⟨_, .strict hm hr⟩
    · obtain ⟨c, y, rfl, hc, h⟩ := d_seq.mp h
      obtain ⟨m, r, rfl, hm, hr⟩ := d_seq.mp h
      obtain ⟨as, hm⟩ := (d_address (env := env) _).mp hm
      obtain ⟨bs, hr⟩ := (commaTail_iff (d_address (env := env))).mp (d_many.mp hr)
      exact ⟨_, .obs (commas_iff.mp (d_many.mp hc)) hm hr⟩
  · rintro ⟨as, h⟩
    cases h with
    | strict h1 h2 => exact .inl (.seq ((d_address _).mpr ⟨_, h1⟩) (d_many.mpr (sepTail_iff.mpr ⟨_, h2⟩)))
    | obs h1 h2 h3 =>
      exact .inr (.seq (d_many.mpr (commas_iff.mpr h1)) (.seq ((d_address _).mpr ⟨_, h2⟩) (d_many.mpr ((commaTail_iff (d_address (env := env))).mpr ⟨_, h3⟩))))

/-! ## Dates -/

theorem d_name {s x : List Char} : D (.text s) x ↔ Spec.lower x = Spec.lower s := d_text

theorem fws_optCfws {f} (h : Fws f) : OptCfws f := ⟨[], f, .nil, .inr h, rfl⟩

theorem optFws_optCfws {f} (h : OptFws f) : OptCfws f := ⟨[], f, .nil, h, rfl⟩

theorem d_dayName {x} : D «day-name» x ↔ Spec.lower x ∈ dayNames := by
  unfold_rule
  simp only [d_alt, d_name, dayNames, List.mem_cons, List.not_mem_nil, or_false]
  rfl

theorem d_dayOfWeek {x} : D (opt («day-of-week» ⬝ text c!",")) x ↔ DayOfWeek x := by
  rw [d_opt, DayOfWeek]
  refine or_congr Iff.rfl ?_
  rw [d_seq]
  constructor
  · rintro ⟨y, z, rfl, hy, hz⟩
    rw [(d_char ',').mp hz]
    rw [d_rule] at hy
    simp only [accepted, extensions, restricted, restrictions, rfc, Option.getD] at hy
    rw [d_alt, d_seq, d_rule (n := «obs-day-of-week»)] at hy
    simp only [accepted, extensions, restricted, restrictions, rfc, Option.getD] at hy
    rw [d_padded] at hy
    rcases hy with ⟨f, n, rfl, hf, hn⟩ | ⟨a, n, b, ha, hn, hb, rfl⟩
    · exact ⟨f, n, [], optFws_optCfws (d_optFWS.mp hf), d_dayName.mp hn, ⟨[], [], .nil, .inl rfl, rfl⟩, by simp⟩
    · exact ⟨a, n, b, ha, d_dayName.mp hn, hb, by simp⟩
  · rintro ⟨a, n, b, ha, hn, hb, rfl⟩
    refine ⟨a ++ (n ++ b), [','], by simp, ?_, (d_char ',').mpr rfl⟩
    unfold_rule
    rw [d_alt, d_rule (n := «obs-day-of-week»)]
    simp only [accepted, extensions, restricted, restrictions, rfc, Option.getD]
    exact .inr (d_padded.mpr ⟨a, n, b, ha, d_dayName.mpr hn, hb, rfl⟩)

theorem d_digits12 {x} : D (.rep 1 (some 2) DIGIT) x ↔ Digits12 x := by
  rw [rep_chars cls_DIGIT, Digits12, Digits, Digits]
  simp only [Option.mem_def, Option.some.injEq, forall_eq']
  constructor
  · rintro ⟨h1, h2, h3⟩
    rcases Nat.lt_or_ge x.length 2 with h | h
    · exact .inl ⟨by omega, h3⟩
    · exact .inr ⟨by omega, h3⟩
  · rintro (⟨h1, h2⟩ | ⟨h1, h2⟩)
    · exact ⟨by omega, by omega, h2⟩
    · exact ⟨by omega, by omega, h2⟩

theorem d_digits {n x} : D (times n DIGIT) x ↔ Digits n x := by
  rw [times, rep_chars cls_DIGIT, Digits]
  simp only [Option.mem_def, Option.some.injEq, forall_eq']
  constructor
  · rintro ⟨h1, h2, h3⟩; exact ⟨by omega, h3⟩
  · rintro ⟨h1, h2⟩; exact ⟨by omega, by omega, h2⟩

theorem padded_iff {e : Abnf} {P : List Char → Prop} (h : ∀ {x}, D e x ↔ P x) {x} : D (opt CFWS ⬝ e ⬝ opt CFWS) x ↔ ∃ v, Padded P x v := by
  rw [d_padded]
  constructor
  · rintro ⟨a, t, b, ha, ht, hb, rfl⟩; exact ⟨_, a, t, b, ha, h.mp ht, hb, rfl, rfl⟩
  · rintro ⟨_, a, t, b, ha, ht, hb, rfl, rfl⟩; exact ⟨a, t, b, ha, h.mpr ht, hb, rfl⟩

theorem padded_bare {P : List Char → Prop} {x} (h : P x) : ∃ v, Padded P x v :=
  ⟨_, [], x, [], ⟨[], [], .nil, .inl rfl, rfl⟩, h, ⟨[], [], .nil, .inl rfl, rfl⟩, by simp, rfl⟩

theorem d_day {x} : D Name.day x ↔ ∃ v, Padded Digits12 x v := by
  unfold_rule
  rw [d_alt, d_rule (n := «obs-day»)]
  simp only [accepted, extensions, restricted, restrictions, rfc, Option.getD]
  rw [padded_iff d_digits12]
  refine ⟨?_, .inr⟩
  rintro (h | h)
  · obtain ⟨f, y, rfl, hf, h⟩ := d_seq.mp h
    obtain ⟨t, f', rfl, ht, hf'⟩ := d_seq.mp h
    exact ⟨_, f, t, f', optFws_optCfws (d_optFWS.mp hf), d_digits12.mp ht, fws_optCfws (d_FWS.mp hf'), rfl, rfl⟩
  · exact h

theorem d_month {x} : D Name.month x ↔ ∃ m, Month x m := by
  unfold_rule
  simp only [d_alt, d_name]
  constructor
  · rintro (h | h | h | h | h | h | h | h | h | h | h | h)
    · exact ⟨1, by omega, by rw [h]; rfl⟩
    · exact ⟨2, by omega, by rw [h]; rfl⟩
    · exact ⟨3, by omega, by rw [h]; rfl⟩
    · exact ⟨4, by omega, by rw [h]; rfl⟩
    · exact ⟨5, by omega, by rw [h]; rfl⟩
    · exact ⟨6, by omega, by rw [h]; rfl⟩
    · exact ⟨7, by omega, by rw [h]; rfl⟩
    · exact ⟨8, by omega, by rw [h]; rfl⟩
    · exact ⟨9, by omega, by rw [h]; rfl⟩
    · exact ⟨10, by omega, by rw [h]; rfl⟩
    · exact ⟨11, by omega, by rw [h]; rfl⟩
    · exact ⟨12, by omega, by rw [h]; rfl⟩
  · rintro ⟨m, h1, h⟩
    have hm := List.mem_of_getElem? h
    simp only [monthNames, List.mem_cons, List.not_mem_nil, or_false] at hm
    exact hm

theorem d_year {now x} : D Name.year x ↔ ∃ v, Year now x v := by
  unfold_rule
  rw [d_alt, d_rule (n := «obs-year»)]
  simp only [accepted, extensions, restricted, restrictions, rfc, Option.getD]
  rw [d_padded]
  constructor
  · rintro (h | ⟨a, t, b, ha, ht, hb, rfl⟩)
    · obtain ⟨f, y, rfl, hf, h⟩ := d_seq.mp h
      obtain ⟨t, f', rfl, ht, hf'⟩ := d_seq.mp h
      exact ⟨_, .four (d_FWS.mp hf) (d_digits.mp ht) (d_FWS.mp hf')⟩
    · exact ⟨_, .two ha (d_digits.mp ht) hb⟩
  · rintro ⟨v, h⟩
    cases h with
    | four ha ht hb => exact .inl (.seq (d_FWS.mpr ha) (.seq (d_digits.mpr ht) (d_FWS.mpr hb)))
    | two ha ht hb => exact .inr ⟨_, _, _, ha, d_digits.mpr ht, hb, rfl⟩

theorem d_hour {x} : D Name.hour x ↔ ∃ v, Padded Digits12 x v := by
  unfold_rule
  rw [d_alt, d_rule (n := «obs-hour»)]
  simp only [accepted, extensions, restricted, restrictions, rfc, Option.getD]
  rw [padded_iff d_digits12, d_digits]
  exact ⟨fun h => h.elim (fun h => padded_bare (.inr h)) id, .inr⟩

theorem d_minute {x} : D Name.minute x ↔ ∃ v, Padded (Digits 2) x v := by
  unfold_rule
  rw [d_alt, d_rule (n := «obs-minute»)]
  simp only [accepted, extensions, restricted, restrictions, rfc, Option.getD]
  rw [padded_iff d_digits, d_digits]
  exact ⟨fun h => h.elim (fun h => padded_bare h) id, .inr⟩

theorem d_second {x} : D Name.second x ↔ ∃ v, Padded (Digits 2) x v := by
  unfold_rule
  rw [d_alt, d_rule (n := «obs-second»)]
  simp only [accepted, extensions, restricted, restrictions, rfc, Option.getD]
  rw [padded_iff d_digits, d_digits]
  exact ⟨fun h => h.elim (fun h => padded_bare h) id, .inr⟩

theorem d_seconds {x} : D (opt (text c!":" ⬝ Name.second)) x ↔ ∃ v, Seconds x v := by
  rw [d_opt, d_seq]
  constructor
  · rintro (rfl | ⟨c, t, rfl, hc, ht⟩)
    · exact ⟨0, .none⟩
    · obtain ⟨v, hv⟩ := d_second.mp ht
      rw [(d_char ':').mp hc]
      exact ⟨v, .some hv⟩
  · rintro ⟨v, h⟩
    cases h with
    | none => exact .inl rfl
    | some h => exact .inr ⟨[':'], _, rfl, (d_char ':').mpr rfl, d_second.mpr ⟨_, h⟩⟩

theorem digits_split {x} (h : Digits 4 x) : ∃ u v, Digits 2 u ∧ Digits 2 v ∧ x = u ++ v :=
  ⟨x.take 2, x.drop 2, ⟨by simp [h.1], fun c hc => h.2 c (List.mem_of_mem_take hc)⟩,
    ⟨by simp [h.1], fun c hc => h.2 c (List.mem_of_mem_drop hc)⟩, (List.take_append_drop 2 x).symm⟩

theorem digits_join {u v} (h : Digits 2 u) (h' : Digits 2 v) : Digits 4 (u ++ v) :=
  ⟨by simp [h.1, h'.1], fun c hc => by
    rcases List.mem_append.mp hc with hc | hc
    · exact h.2 c hc
    · exact h'.2 c hc⟩

theorem d_numericZone {x} : D (opt (text c!"+" / text c!"-") ⬝ times 4 DIGIT) x ↔ ∃ l, NumericZone x l := by
  rw [d_seq]
  constructor
  · rintro ⟨s, t, rfl, hs, ht⟩
    obtain ⟨u, v, hu, hv, rfl⟩ := digits_split (d_digits.mp ht)
    rw [d_opt, d_alt, d_char '+', d_char '-'] at hs
    rcases hs with rfl | rfl | rfl
    · exact ⟨_, .unsigned (h := u) (m := v) hu hv⟩
    · exact ⟨_, .plus (h := u) (m := v) hu hv⟩
    · exact ⟨_, .minus (h := u) (m := v) hu hv⟩
  · rintro ⟨l, h⟩
    cases h with
    | plus hu hv => exact ⟨['+'], _, rfl, d_opt.mpr (.inr (.left ((d_char '+').mpr rfl))), d_digits.mpr (digits_join hu hv)⟩
    | minus hu hv => exact ⟨['-'], _, rfl, d_opt.mpr (.inr (.right ((d_char '-').mpr rfl))), d_digits.mpr (digits_join hu hv)⟩
    | unsigned hu hv => exact ⟨[], _, rfl, d_opt.mpr (.inl rfl), d_digits.mpr (digits_join hu hv)⟩

theorem d_namedZone {x} : D («obs-zone» / text c!"UTC") x ↔ ∃ h, (Spec.lower x, h) ∈ zoneNames := by
  rw [d_alt, d_rule]
  simp only [accepted, extensions, restricted, restrictions, rfc, Option.getD]
  simp only [d_alt, d_name, zoneNames, List.mem_cons, Prod.mk.injEq, List.not_mem_nil, or_false]
  constructor
  · rintro ((h | h | h | h | h | h | h | h | h | h) | h) <;> rw [h]
    · exact ⟨0, .inl ⟨rfl, rfl⟩⟩
    · exact ⟨0, .inr (.inr (.inl ⟨rfl, rfl⟩))⟩
    · exact ⟨-5, by decide⟩
    · exact ⟨-4, by decide⟩
    · exact ⟨-6, by decide⟩
    · exact ⟨-5, by decide⟩
    · exact ⟨-7, by decide⟩
    · exact ⟨-6, by decide⟩
    · exact ⟨-8, by decide⟩
    · exact ⟨-7, by decide⟩
    · exact ⟨0, by decide⟩
  · rintro ⟨h, h'⟩
    rcases h' with h' | h' | h' | h' | h' | h' | h' | h' | h' | h' | h' <;> rw [h'.1] <;> decide

theorem d_zone {x} : D (opt Name.zone) x ↔ ∃ l, Zone x l := by
  rw [d_opt, d_rule]
  simp only [accepted, extensions, restricted, restrictions, rfc, Option.getD]
  rw [d_alt, d_namedZone, d_seq]
  constructor
  · rintro (rfl | ⟨f, z, rfl, hf, hz⟩ | ⟨h, hx⟩)
    · exact ⟨_, .none⟩
    · obtain ⟨l, hl⟩ := d_numericZone.mp hz
      exact ⟨l, .numeric (d_FWS.mp hf) hl⟩
    · exact ⟨_, .named hx⟩
  · rintro ⟨l, h⟩
    cases h with
    | none => exact .inl rfl
    | numeric hf hz => exact .inr (.inl ⟨_, _, rfl, d_FWS.mpr hf, d_numericZone.mpr ⟨_, hz⟩⟩)
    | named h => exact .inr (.inr ⟨_, h⟩)

/-- The date-times. -/
theorem d_dateTime {now x} : D «date-time» x ↔ ∃ f, DateTime now x f := by
  have htime : ∀ {y}, D Name.time y ↔ D ((Name.hour ⬝ text c!":" ⬝ Name.minute ⬝ opt (text c!":" ⬝ Name.second)) ⬝ opt Name.zone) y := by
    intro y
    unfold_rule
    rw [d_seq, d_seq]
    simp only [d_rule (n := «time-of-day»)]
    simp only [accepted, extensions, restricted, restrictions, rfc, Option.getD]
  have hdate : ∀ {y}, D Name.date y ↔ D (Name.day ⬝ Name.month ⬝ Name.year) y := by
    intro y
    unfold_rule
  unfold_rule
  constructor
  · intro h
    obtain ⟨dw, y, rfl, hdw, h⟩ := d_seq.mp h
    obtain ⟨da, y, rfl, hda, h⟩ := d_seq.mp h
    obtain ⟨ti, c, rfl, hti, hc⟩ := d_seq.mp h
    obtain ⟨d, y, rfl, hd, h⟩ := d_seq.mp (hdate.mp hda)
    obtain ⟨mo, y, rfl, hmo, hy⟩ := d_seq.mp h
    obtain ⟨td, z, rfl, htd, hz⟩ := d_seq.mp (htime.mp hti)
    obtain ⟨ho, w, rfl, hh, hr⟩ := d_seq.mp htd
    obtain ⟨k, w, rfl, hk, hr⟩ := d_seq.mp hr
    obtain ⟨mi, s, rfl, hmi, hs⟩ := d_seq.mp hr
    rw [(d_char ':').mp hk]
    obtain ⟨v1, hd⟩ := d_day.mp hd
    obtain ⟨v2, hmo⟩ := d_month.mp hmo
    obtain ⟨v3, hy⟩ := (d_year (now := now)).mp hy
    obtain ⟨v4, hh⟩ := d_hour.mp hh
    obtain ⟨v5, hmi⟩ := d_minute.mp hmi
    obtain ⟨v6, hs⟩ := d_seconds.mp hs
    obtain ⟨v7, hz⟩ := d_zone.mp hz
    exact ⟨⟨v1, v2, v3, v4, v5, v6, v7⟩, dw, d, mo, y, ho, mi, s, z, c, d_dayOfWeek.mp hdw, hd, hmo, hy, hh, hmi, hs, hz, d_optCFWS.mp hc, by simp⟩
  · rintro ⟨f, dw, d, mo, y, h, mi, s, z, c, hdw, hd, hmo, hy, hh, hmi, hs, hz, hc, rfl⟩
    rw [show dw ++ (d ++ (mo ++ (y ++ (h ++ ':' :: (mi ++ (s ++ (z ++ c))))))) = dw ++ ((d ++ (mo ++ y)) ++ (((h ++ ([':'] ++ (mi ++ s))) ++ z) ++ c)) by simp]
    exact .seq (d_dayOfWeek.mpr hdw) (.seq (hdate.mpr (.seq (d_day.mpr ⟨_, hd⟩) (.seq (d_month.mpr ⟨_, hmo⟩) (d_year.mpr ⟨_, hy⟩))))
      (.seq (htime.mpr (.seq (.seq (d_hour.mpr ⟨_, hh⟩) (.seq ((d_char ':').mpr rfl) (.seq (d_minute.mpr ⟨_, hmi⟩) (d_seconds.mpr ⟨_, hs⟩)))) (d_zone.mpr ⟨_, hz⟩)))
        (d_optCFWS.mpr hc)))

/-! ## The three sets of rules -/

theorem some1_mono {a b : Abnf} (h : ∀ x, D a x → D b x) {x} (hx : D (some1 a) x) : D (some1 b) x := by
  obtain ⟨y, z, rfl, h1, h2⟩ := d_some1.mp hx
  exact d_some1.mpr ⟨y, z, rfl, h _ h1, h2.mono h⟩

theorem many_mono {a b : Abnf} (h : ∀ x, D a x → D b x) {x} (hx : D (many a) x) : D (many b) x :=
  d_many.mpr ((d_many.mp hx).mono h)

theorem seq_mono {a b a' b' : Abnf} (h : ∀ x, D a x → D a' x) (h' : ∀ x, D b x → D b' x) {x} (hx : D (a ⬝ b) x) : D (a' ⬝ b') x := by
  obtain ⟨y, z, rfl, h1, h2⟩ := d_seq.mp hx
  exact .seq (h _ h1) (h' _ h2)

theorem alt_mono {a b a' b' : Abnf} (h : ∀ x, D a x → D a' x) (h' : ∀ x, D b x → D b' x) {x} (hx : D (a / b) x) : D (a' / b') x := by
  rcases d_alt.mp hx with hx | hx
  · exact .left (h _ hx)
  · exact .right (h' _ hx)

theorem opt_intro {a : Abnf} {x} (h : D a x) : D (opt a) x := d_opt.mpr (.inr h)

theorem seq_opt {a b : Abnf} {x} (h : D a x) : D (a ⬝ opt b) x := d_seq.mpr ⟨x, [], by simp, h, d_opt.mpr (.inl rfl)⟩

theorem opt_seq {a b : Abnf} {x} (h : D b x) : D (opt a ⬝ b) x := d_seq.mpr ⟨[], x, by simp, d_opt.mpr (.inl rfl), h⟩

theorem restricted_accepted {e x} (h : Derivable restricted e x) : Derivable accepted e x := by
  refine h.mono ?_
  intro n x h
  cases n
  case «UTF8-non-ascii» => exact absurd h d_nothing
  case VCHAR => exact .left h
  case ctext => exact alt_mono (fun _ h => h) (fun _ => alt_mono (fun _ h => h) fun _ => alt_mono (fun _ h => h) fun _ => .left) h
  case qtext => exact alt_mono (fun _ h => h) (fun _ => alt_mono (fun _ h => h) fun _ => alt_mono (fun _ h => h) fun _ => .left) h
  case dtext => exact alt_mono (fun _ h => h) (fun _ => alt_mono (fun _ h => h) fun _ => .left) h
  case atext =>
    refine alt_mono (fun _ h => h) (fun _ => alt_mono (fun _ h => h) fun _ => ?_) h
    iterate 18 refine alt_mono (fun _ h => h) fun _ => ?_
    exact .left
  case «dot-atom-text» => exact seq_mono (fun _ h => h) (fun _ h => seq_opt h) h
  case word => exact .right h
  case token =>
    refine some1_mono (fun _ => ?_) h
    iterate 7 refine alt_mono (fun _ h => h) fun _ => ?_
    exact .right
  case «obs-phrase» =>
    exact seq_mono (fun _ h => h) (fun _ => many_mono fun _ => alt_mono (fun _ h => h) fun _ => alt_mono (fun _ h => h) fun _ => .right) h
  case «angle-addr» =>
    exact alt_mono (fun _ => seq_mono (fun _ h => h) fun _ => seq_mono (fun _ h => h) fun _ => seq_mono (fun _ => opt_intro) fun _ h => h) (fun _ h => h) h
  case group =>
    exact opt_seq (seq_mono (fun _ h => h) (fun _ => seq_mono (fun _ h => h) fun _ => seq_mono (fun _ h => h) fun _ h =>
      opt_seq (seq_mono (fun _ => opt_intro) (fun _ h => h) h)) h)
  case «address-list» =>
    exact alt_mono (fun _ => seq_mono (fun _ h => h) fun _ => many_mono fun _ => seq_mono (fun _ => .left) fun _ h => h) (fun _ h => h) h
  case «addr-spec» => exact seq_mono (fun _ h => h) (fun _ => seq_mono (fun _ h => h) fun _ h => seq_opt h) h
  case «obs-hour» =>
    refine seq_mono (fun _ h => h) (fun _ => seq_mono (fun y hy => ?_) fun _ h => h) h
    exact d_digits12.mpr (.inr (d_digits.mp hy))
  case time => exact seq_mono (fun _ h => h) (fun _ => opt_intro) h
  case zone => exact alt_mono (fun _ => seq_mono (fun _ h => h) fun _ => seq_mono (fun _ => opt_intro) fun _ h => h) (fun _ => .left) h
  all_goals exact h

theorem current_restricted {e x} (h : Derivable current e x) : Derivable restricted e x := by
  refine h.mono ?_
  intro n x h
  cases n
  all_goals first | exact h | exact absurd h d_nothing

theorem restricted_rfc {e x} (h : Derivable restricted e x) : Derivable rfc e x := by
  have hr : ∀ {n m : Nat} {k : Option Nat} {a : Abnf} {x}, (∀ j ∈ k, m ≤ j) → Derivable rfc (.rep n (some m) a) x → Derivable rfc (.rep n k a) x := by
    intro n m k a x hk h
    obtain ⟨xs, rfl, h1, h2, h3⟩ := d_rep.mp h
    exact .rep h1 (fun j hj => Nat.le_trans (h2 m rfl) (hk j hj)) h3
  refine h.mono ?_
  intro n x h
  cases n
  case «obs-domain» => exact absurd h d_nothing
  case «obs-dtext» => exact absurd h d_nothing
  case «obs-FWS» =>
    obtain ⟨y, z, rfl, h1, h2⟩ := d_seq.mp h
    exact .seq h1 (hr (by simp) h2)
  case year =>
    rcases d_alt.mp h with h | h
    · obtain ⟨y, z, rfl, h1, h2⟩ := d_seq.mp h
      obtain ⟨z, w, rfl, h2, h3⟩ := d_seq.mp h2
      exact .left (.seq h1 (.seq (hr (by simp) h2) h3))
    · exact .right h
  case «obs-year» =>
    obtain ⟨y, z, rfl, h1, h2⟩ := d_seq.mp h
    obtain ⟨z, w, rfl, h2, h3⟩ := d_seq.mp h2
    exact .seq h1 (.seq (hr (by simp) h2) h3)
  case «obs-zone» =>
    rcases d_alt.mp h with h | h
    · exact .left h
    refine .right ?_
    iterate 8
      rcases d_alt.mp h with h | h
      · exact .left h
      refine .right ?_
    exact .left h
  all_goals exact h

/-- All characters are in the basic multilingual plane. -/
def low : Abnf → Bool
  | .range _ hi => decide (hi ≤ 0xFFFF)
  | .text s => s.all bmp
  | .rule _ => true
  | .seq a b | .alt a b => low a && low b
  | .rep _ _ a => low a

theorem accepted_low (n : Name) : low (accepted n) = true := by cases n <;> decide +kernel

theorem derivable_bmp {e x} (he : low e = true) (h : Derivable accepted e x) : ∀ c ∈ x, bmp c = true := by
  induction h with
  | @range lo hi c h1 h2 =>
    simp only [low, decide_eq_true_eq] at he
    simp only [List.mem_singleton, forall_eq, bmp, decide_eq_true_eq]
    omega
  | @text s x h =>
    intro c hc
    have : c.toLower ∈ s.map Char.toLower := by rw [← h]; exact List.mem_map_of_mem hc
    obtain ⟨d, hd, hcd⟩ := List.mem_map.mp this
    rw [← bmp_toLower, ← hcd, bmp_toLower]
    exact List.all_eq_true.mp he d hd
  | rule _ ih => exact ih (accepted_low _)
  | seq _ _ ih1 ih2 =>
    simp only [low, Bool.and_eq_true] at he
    intro c hc
    rcases List.mem_append.mp hc with hc | hc
    · exact ih1 he.1 c hc
    · exact ih2 he.2 c hc
  | left _ ih => simp only [low, Bool.and_eq_true] at he; exact ih he.1
  | right _ ih => simp only [low, Bool.and_eq_true] at he; exact ih he.2
  | rep _ _ _ ih =>
    intro c hc
    obtain ⟨y, hy, hc⟩ := List.mem_flatten.mp hc
    exact ih y hy he c hc

/-! ## A recogniser, for examples -/

/-- The rest of a text behind a given beginning. -/
def strip : List Char → List Char → List (List Char)
  | [], x => [x]
  | _ :: _, [] => []
  | a :: s, c :: x => if a.toLower == c.toLower then strip s x else []

/-- Add what is not there yet. -/
def union : List (List Char) → List (List Char) → List (List Char)
  | [], ys => ys
  | x :: xs, ys => if ys.any fun y => y.length == x.length then union xs ys else union xs (x :: ys)

/-- All results, without repetitions. -/
def each (f : List Char → List (List Char)) : List (List Char) → List (List Char)
  | [] => []
  | x :: xs => union (f x) (each f xs)

/-- What can be left of a text when a beginning of it is derived. -/
def tails (g : Name → Abnf) : Nat → Abnf → List Char → List (List Char)
  | 0, _, _ => []
  | _ + 1, .range lo hi, x => match x with
    | c :: x => if Nat.ble lo c.toNat && Nat.ble c.toNat hi then [x] else []
    | [] => []
  | _ + 1, .text s, x => strip s x
  | n + 1, .rule r, x => tails g n (g r) x
  | n + 1, .seq a b, x => each (tails g n b) (tails g n a x)
  | n + 1, .alt a b, x => union (tails g n a x) (tails g n b x)
  | n + 1, .rep min max a, x => match max with
    | some 0 => if min == 0 then [x] else []
    | some (m + 1) => union (if min == 0 then [x] else []) (each (tails g n (.rep (min - 1) (some m) a)) (tails g n a x))
    | none => union (if min == 0 then [x] else []) (each (tails g n (.rep (min - 1) none a)) (tails g n a x))

theorem strip_sound {s x y} (h : y ∈ strip s x) : ∃ z, x = z ++ y ∧ z.map Char.toLower = s.map Char.toLower := by
  induction s generalizing x with
  | nil => simp only [strip, List.mem_singleton] at h; subst h; exact ⟨[], rfl, rfl⟩
  | cons a s ih =>
    cases x with
    | nil => simp [strip] at h
    | cons c x =>
      simp only [strip] at h
      split at h
      · rename_i hac
        obtain ⟨z, rfl, hz⟩ := ih h
        exact ⟨c :: z, rfl, by simp [hz, (beq_iff_eq.mp hac).symm]⟩
      · simp at h

theorem mem_union {xs ys y} (h : y ∈ union xs ys) : y ∈ xs ∨ y ∈ ys := by
  induction xs generalizing ys with
  | nil => exact .inr h
  | cons x xs ih =>
    simp only [union] at h
    split at h
    · rcases ih h with h | h
      · exact .inl (by simp [h])
      · exact .inr h
    · rcases ih h with h | h
      · exact .inl (by simp [h])
      · rcases List.mem_cons.mp h with rfl | h
        · exact .inl (by simp)
        · exact .inr h

theorem mem_each {f xs y} (h : y ∈ each f xs) : ∃ x ∈ xs, y ∈ f x := by
  induction xs with
  | nil => simp [each] at h
  | cons x xs ih =>
    rcases mem_union h with h | h
    · exact ⟨x, by simp, h⟩
    · obtain ⟨z, hz, h⟩ := ih h
      exact ⟨z, by simp [hz], h⟩

theorem tails_sound {g : Name → Abnf} {n e x y} (h : y ∈ tails g n e x) : ∃ z, x = z ++ y ∧ Derivable g e z := by
  induction n generalizing e x y with
  | zero => simp [tails] at h
  | succ n ih =>
    have hstep : ∀ {k : Nat} {max max' : Option Nat} {a : Abnf}, (∀ m ∈ max, ∃ m' ∈ max', m = m' + 1) →
        y ∈ each (tails g n (.rep (k - 1) max' a)) (tails g n a x) → ∃ z, x = z ++ y ∧ Derivable g (.rep k max a) z := by
      intro k max max' a hm h
      obtain ⟨w, hw, hy⟩ := mem_each h
      obtain ⟨z, rfl, hz⟩ := ih hw
      obtain ⟨z', rfl, hz'⟩ := ih hy
      obtain ⟨xs, rfl, h1, h2, h3⟩ := d_rep.mp hz'
      refine ⟨z ++ xs.flatten, by simp, .rep (xs := z :: xs) (by simp; omega) ?_ (by simpa using ⟨hz, h3⟩)⟩
      intro m hmx
      obtain ⟨m', hm', rfl⟩ := hm m hmx
      have := h2 m' hm'
      simp only [List.length_cons]
      omega
    have hzero : ∀ {k : Nat} {max : Option Nat} {a : Abnf}, y ∈ (if k == 0 then [x] else []) → ∃ z, x = z ++ y ∧ Derivable g (.rep k max a) z := by
      intro k max a h
      split at h
      · rename_i hk
        simp only [List.mem_singleton] at h
        subst h
        exact ⟨[], rfl, .rep (xs := []) (by simpa using hk) (by simp) (by simp)⟩
      · simp at h
    cases e with
    | range lo hi =>
      cases x with
      | nil => simp [tails] at h
      | cons c x =>
        simp only [tails] at h
        split at h
        · rename_i hr
          simp only [List.mem_singleton] at h
          subst h
          rw [Bool.and_eq_true, Nat.ble_eq, Nat.ble_eq] at hr
          exact ⟨[c], rfl, .range hr.1 hr.2⟩
        · simp at h
    | text s =>
      obtain ⟨z, rfl, hz⟩ := strip_sound (by simpa only [tails] using h)
      exact ⟨z, rfl, .text hz⟩
    | rule r =>
      obtain ⟨z, rfl, hz⟩ := ih (by simpa only [tails] using h)
      exact ⟨z, rfl, .rule hz⟩
    | seq a b =>
      obtain ⟨w, hw, hy⟩ := mem_each (by simpa only [tails] using h)
      obtain ⟨z, rfl, hz⟩ := ih hw
      obtain ⟨z', rfl, hz'⟩ := ih hy
      exact ⟨z ++ z', by simp, .seq hz hz'⟩
    | alt a b =>
      rcases mem_union (by simpa only [tails] using h) with h | h
      · obtain ⟨z, rfl, hz⟩ := ih h
        exact ⟨z, rfl, .left hz⟩
      · obtain ⟨z, rfl, hz⟩ := ih h
        exact ⟨z, rfl, .right hz⟩
    | rep min max a =>
      cases max with
      | none =>
        simp only [tails] at h
        rcases mem_union h with h | h
        · exact hzero h
        · exact hstep (by simp) h
      | some m =>
        cases m with
        | zero => simp only [tails] at h; exact hzero h
        | succ m =>
          simp only [tails] at h
          rcases mem_union h with h | h
          · exact hzero h
          · exact hstep (by simp) h

/-- Whether a text is derived from a rule. -/
def check (g : Name → Abnf) (r : Name) (x : List Char) : Bool := (tails g 200 (.rule r) x).any List.isEmpty

theorem derivable_of_check {g r x} (h : check g r x = true) : Derivable g (.rule r) x := by
  obtain ⟨z, hz, hd⟩ := tails_sound (by simpa [check] using h)
  simp at hz
  exact hz ▸ hd

end Rfc5322.Rfc
