import Verif.Model.Grammar
import Verif.Spec.Chars

/-!
# Tokens: disjointness, and the character classes of the specification as sets of tokens
-/

namespace Rfc5322

/-- `Tok.matches` on code points. -/
def Tok.matchesN (t : Tok) (n : Nat) : Bool := t.ranges.any fun r => Nat.ble r.1 n && Nat.ble n r.2

theorem Tok.matches_eq (t : Tok) (c : Char) : t.matches c = t.matchesN c.toNat := rfl

/-- The token of a code point. -/
def lexN (n : Nat) : Option Tok := Tok.all.find? fun t => t.matchesN n

theorem lexRune_eq (c : Char) : lexRune c = lexN c.toNat := rfl

theorem Tok.mem_all (t : Tok) : t ∈ Tok.all := by cases t <;> decide

theorem lexN_ascii : ∀ n < 128, ∀ t ∈ Tok.all, t.matchesN n = true → lexN n = some t := by
  decide +kernel

theorem lexN_ascii_isSome : ∀ n < 128, (lexN n).isSome = true := by
  decide +kernel

theorem Tok.matchesN_ge {t : Tok} {n : Nat} (h : 128 ≤ n) :
    t.matchesN n = (decide (t = .UTF8NonAscii) && decide (n ≤ 0xFFFF)) := by
  have key : ∀ r ∈ t.ranges, r.2 < 128 ∨ (t = .UTF8NonAscii ∧ r = (0x80, 0xFFFF)) := by
    cases t <;> decide
  by_cases ht : t = .UTF8NonAscii
  · subst ht
    rw [Bool.eq_iff_iff]
    simp [Tok.matchesN, Tok.ranges, h]
  · simp only [Tok.matchesN, ht, decide_false, Bool.false_and, List.any_eq_false, Bool.and_eq_true, Nat.ble_eq]
    intro r hr
    have := key r hr
    simp only [ht, false_and, or_false] at this
    omega

theorem lexN_ge {n : Nat} (h : 128 ≤ n) : lexN n = if n ≤ 0xFFFF then some .UTF8NonAscii else none := by
  unfold lexN
  by_cases hn : n ≤ 0xFFFF
  · rw [if_pos hn]
    have : (fun t : Tok => t.matchesN n) = fun t => decide (t = .UTF8NonAscii) := by
      funext t; rw [Tok.matchesN_ge h]; simp [hn]
    rw [this]; decide
  · rw [if_neg hn]
    have : (fun t : Tok => t.matchesN n) = fun _ => false := by
      funext t; rw [Tok.matchesN_ge h]; simp [hn]
    rw [this]; decide

/-- The lexer gives every rune to the one rule that matches it. -/
theorem lexRune_eq_some_iff (c : Char) (t : Tok) : lexRune c = some t ↔ t.matches c = true := by
  constructor
  · intro h; exact List.find?_some (p := fun t : Tok => t.matches c) h
  · intro h
    rw [Tok.matches_eq] at h
    rw [lexRune_eq]
    by_cases hc : c.toNat < 128
    · exact lexN_ascii _ hc t t.mem_all h
    · rw [lexN_ge (by omega)]
      rw [Tok.matchesN_ge (by omega)] at h
      simp at h
      simp [h]

theorem Tok.matches_unique {t u : Tok} {c : Char} (h1 : t.matches c = true) (h2 : u.matches c = true) : t = u := by
  have a := (lexRune_eq_some_iff c t).mpr h1
  have b := (lexRune_eq_some_iff c u).mpr h2
  rw [a] at b; exact Option.some.inj b

theorem lexRune_isSome (c : Char) : (lexRune c).isSome = decide (c.toNat ≤ 0xFFFF) := by
  rw [lexRune_eq]
  by_cases hc : c.toNat < 128
  · rw [lexN_ascii_isSome _ hc]; simp; omega
  · rw [lexN_ge (by omega)]; split <;> simp [*]

/-- Does a set of tokens match the character? -/
def anyTok (ts : List Tok) (c : Char) : Bool := ts.any fun t => t.matches c

theorem anyTok_iff {ts c} : anyTok ts c = true ↔ ∃ t ∈ ts, t.matches c = true := by simp [anyTok]

theorem anyTok_disjoint {A B : List Tok} {c : Char} (hd : (A.all fun t => !B.contains t) = true)
    (h : anyTok A c = true) : anyTok B c = false := by
  obtain ⟨t, ht, hm⟩ := anyTok_iff.mp h
  cases hb : anyTok B c with
  | false => rfl
  | true =>
    obtain ⟨u, hu, hn⟩ := anyTok_iff.mp hb
    cases Tok.matches_unique hm hn
    simp only [List.all_eq_true] at hd
    have := hd t ht
    simp [hu] at this

theorem anyTok_append {A B : List Tok} {c : Char} : anyTok (A ++ B) c = (anyTok A c || anyTok B c) := by
  simp [anyTok]

/-! ## Classes -/

open Spec

theorem char_ext {P : Char → Prop} (ascii : ∀ n < 128, P (Char.ofNat n))
    (rest : ∀ c : Char, 128 ≤ c.toNat → P c) : ∀ c, P c := by
  intro c
  by_cases h : c.toNat < 128
  · have := ascii c.toNat h
    rwa [Char.ofNat_toNat] at this
  · exact rest c (by omega)

theorem contains_ge {l : List Char} {c : Char} (h : 128 ≤ c.toNat) (hl : l.all (fun d => decide (d.toNat < 128)) = true) :
    l.contains c = false := by
  cases hc : l.contains c with
  | false => rfl
  | true =>
    rw [List.contains_iff_mem] at hc
    simp only [List.all_eq_true, decide_eq_true_eq] at hl
    have := hl c hc
    omega

theorem isVchar_ge {c : Char} (h : 128 ≤ c.toNat) : isVchar c = decide (c.toNat ≤ 0xFFFF) := by
  simp [isVchar, nonAscii, h]; omega

theorem nonAscii_ge {c : Char} (h : 128 ≤ c.toNat) : nonAscii c = decide (c.toNat ≤ 0xFFFF) := by
  simp [nonAscii, h]

theorem isCtl_ge {c : Char} (h : 128 ≤ c.toNat) : isCtl c = false := by
  simp [isCtl]; omega

theorem isWsp_ge {c : Char} (h : 128 ≤ c.toNat) : isWsp c = false := by
  have : ∀ d : Char, d.toNat < 128 → (c == d) = false := by
    intro d hd; simp; rintro rfl; omega
  simp only [isWsp]; rw [this _ (by decide), this _ (by decide)]; rfl

theorem isDigit_ge {c : Char} (h : 128 ≤ c.toNat) : isDigit c = false := by
  simp only [isDigit, Bool.and_eq_false_iff, decide_eq_false_iff_not]
  right
  intro h'
  have h2 : c.val.toNat ≤ 57 := h'
  have h3 : c.val.toNat = c.toNat := rfl
  omega

theorem anyTok_ge {ts : List Tok} {c : Char} (h : 128 ≤ c.toNat) :
    anyTok ts c = (ts.contains .UTF8NonAscii && decide (c.toNat ≤ 0xFFFF)) := by
  induction ts with
  | nil => rfl
  | cons t ts ih =>
    rw [show anyTok (t :: ts) c = (t.matches c || anyTok ts c) from rfl, ih, Tok.matches_eq, Tok.matchesN_ge h]
    by_cases ht : t = .UTF8NonAscii
    · subst ht; simp
    · have : Tok.UTF8NonAscii ≠ t := fun h => ht h.symm
      simp [ht, this]

def alphaToks : List Tok := [.A, .B, .C, .D, .E, .F, .G, .H, .I, .J, .K, .L, .M, .N, .O, .P, .Q, .R, .S, .T, .U,
  .V, .W, .X, .Y, .Z]

def vcharToks : List Tok := alphaToks ++ [.Exclamation, .DQuote, .Hash, .Dollar, .Percent, .Ampersand, .SQuote,
  .LParens, .RParens, .Asterisk, .Plus, .Comma, .Minus, .Period, .Slash, .Digit, .Colon, .Semicolon, .Less,
  .Equal, .Greater, .Question, .At, .LBracket, .Backslash, .RBracket, .Caret, .Underscore, .Backtick, .LCurly, .Pipe,
  .RCurly, .Tilde, .UTF8NonAscii]

def ctlToks : List Tok := [.U_01_08, .U_0B, .U_0C, .U_0E_1F, .Delete]
def wspToks : List Tok := [.TAB, .SP]

def atextToks : List Tok := alphaToks ++ [.Digit, .Exclamation, .Hash, .Dollar, .Percent, .Ampersand, .SQuote,
  .Asterisk, .Plus, .Minus, .Slash, .Equal, .Question, .Caret, .Underscore, .Backtick, .LCurly, .Pipe, .RCurly,
  .Tilde, .UTF8NonAscii]

def ctextToks : List Tok := (vcharToks.filter fun t => !([.LParens, .RParens, .Backslash] : List Tok).contains t) ++ ctlToks
def qtextToks : List Tok := (vcharToks.filter fun t => !([.DQuote, .Backslash] : List Tok).contains t) ++ ctlToks
def dtextToks : List Tok := vcharToks.filter fun t => !([.LBracket, .RBracket, .Backslash] : List Tok).contains t
def tokenToks : List Tok := alphaToks ++ [.Exclamation, .Hash, .Dollar, .Percent, .Ampersand, .SQuote, .Asterisk,
  .Plus, .Minus, .Digit, .Backslash, .Caret, .Underscore, .Backtick, .LCurly, .Pipe, .RCurly, .Tilde]
def encodedToks : List Tok := vcharToks.filter fun t => !([.Question, .UTF8NonAscii] : List Tok).contains t

theorem anyTok_vchar : ∀ c, anyTok vcharToks c = isVchar c :=
  char_ext (by decide +kernel) fun c h => by rw [anyTok_ge h, isVchar_ge h]; simp [vcharToks]

theorem anyTok_ctl : ∀ c, anyTok ctlToks c = isCtl c :=
  char_ext (by decide +kernel) fun c h => by rw [anyTok_ge h, isCtl_ge h]; rfl

theorem anyTok_wsp : ∀ c, anyTok wspToks c = isWsp c :=
  char_ext (by decide +kernel) fun c h => by rw [anyTok_ge h, isWsp_ge h]; rfl

theorem anyTok_atext : ∀ c, anyTok atextToks c = isAtext c :=
  char_ext (by decide +kernel) fun c h => by
    rw [anyTok_ge h, isAtext, isVchar_ge h, contains_ge h (by decide)]; simp [atextToks]

theorem anyTok_ctext : ∀ c, anyTok ctextToks c = isCtext c :=
  char_ext (by decide +kernel) fun c h => by
    rw [anyTok_ge h, isCtext, isVchar_ge h, isCtl_ge h, contains_ge h (by decide)]
    rw [show ctextToks.contains .UTF8NonAscii = true by decide]; simp

theorem anyTok_qtext : ∀ c, anyTok qtextToks c = isQtext c :=
  char_ext (by decide +kernel) fun c h => by
    rw [anyTok_ge h, isQtext, isVchar_ge h, isCtl_ge h, contains_ge h (by decide)]
    rw [show qtextToks.contains .UTF8NonAscii = true by decide]; simp

theorem anyTok_dtext : ∀ c, anyTok dtextToks c = isDtext c :=
  char_ext (by decide +kernel) fun c h => by
    rw [anyTok_ge h, isDtext, isVchar_ge h, contains_ge h (by decide)]
    rw [show dtextToks.contains .UTF8NonAscii = true by decide]; simp

theorem anyTok_token : ∀ c, anyTok tokenToks c = isTokenChar c :=
  char_ext (by decide +kernel) fun c h => by
    rw [anyTok_ge h, isTokenChar, isVchar_ge h, nonAscii_ge h]
    rw [show tokenToks.contains .UTF8NonAscii = false by decide]; simp

theorem anyTok_encoded : ∀ c, anyTok encodedToks c = isEncodedChar c :=
  char_ext (by decide +kernel) fun c h => by
    rw [anyTok_ge h, isEncodedChar, isVchar_ge h, nonAscii_ge h]
    rw [show encodedToks.contains .UTF8NonAscii = false by decide]; simp

theorem digit_matches : ∀ c, Tok.matches .Digit c = isDigit c :=
  char_ext (by decide +kernel) fun c h => by
    rw [Tok.matches_eq, Tok.matchesN_ge h, isDigit_ge h]; rfl

/-- A token whose rule is a single character. -/
theorem single_matches {t : Tok} {d : Char} (hd : d.toNat < 128)
    (h : (List.range 128).all (fun n => t.matchesN n == (n == d.toNat)) = true)
    (h8 : t ≠ .UTF8NonAscii) (c : Char) : t.matches c = true ↔ c = d := by
  rw [Tok.matches_eq]
  by_cases hc : c.toNat < 128
  · simp only [List.all_eq_true, List.mem_range, beq_iff_eq] at h
    rw [h _ hc]
    simp only [beq_iff_eq]
    constructor
    · intro e
      have := congrArg Char.ofNat e
      rwa [Char.ofNat_toNat, Char.ofNat_toNat] at this
    · rintro rfl; rfl
  · rw [Tok.matchesN_ge (by omega)]
    simp [h8]
    rintro rfl; omega

end Rfc5322
