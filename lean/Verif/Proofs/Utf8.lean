import Verif.Proofs.Tok
import Verif.Proofs.Eff
import Verif.Model.Api
import Verif.Spec.Text

/-!
# Decoding and encoding of UTF-8
-/

namespace Rfc5322

theorem toNat_ofNat {n : Nat} (h : n.isValidChar) : (Char.ofNat n).toNat = n := by
  unfold Char.ofNat
  rw [dif_pos h]
  show (Char.ofNatAux n h).val.toNat = n
  simp [Char.ofNatAux]

theorem char_valid (c : Char) : c.toNat < 55296 ∨ 57343 < c.toNat ∧ c.toNat < 1114112 := c.valid

theorem ofNat_eq {n : Nat} {c : Char} (h : n = c.toNat) : Char.ofNat n = c := by rw [h, Char.ofNat_toNat]

theorem byteVal {n : Nat} (h : n < 256) : (UInt8.ofNat n).toNat = n := by rw [UInt8.toNat_ofNat']; omega

theorem byte_eq {b : UInt8} {n : Nat} (h : b.toNat = n) : b = UInt8.ofNat n := by
  subst h
  exact (UInt8.ofNat_toNat).symm

theorem secondRange_iff (b x : Nat) : ((secondRange b).1 ≤ x ∧ x ≤ (secondRange b).2) ↔
    0x80 ≤ x ∧ x ≤ 0xBF ∧ (b = 0xE0 → 0xA0 ≤ x) ∧ (b = 0xED → x ≤ 0x9F) ∧ (b = 0xF0 → 0x90 ≤ x) ∧
      (b = 0xF4 → x ≤ 0x8F) := by
  unfold secondRange
  split
  · simp only; omega
  · split
    · simp only; omega
    · split
      · simp only; omega
      · split
        · simp only; omega
        · simp only; omega

/-- Decoding the encoding of a rune. -/
theorem decodeRune_encode (c : Char) (r : Bytes) :
    ∃ b bs, encodeRune c = b :: bs ∧ decodeRune b (bs ++ r) = (c, bs.length) := by
  have hv := char_valid c
  unfold encodeRune
  dsimp only
  split
  · rename_i h
    refine ⟨_, _, rfl, ?_⟩
    unfold decodeRune
    simp only [byteVal (show c.toNat < 256 by omega)]
    rw [show seqLen c.toNat = 1 by simp [seqLen, h]]
    simp [Char.ofNat_toNat]
  · split
    · rename_i h1 h2
      refine ⟨_, _, rfl, ?_⟩
      unfold decodeRune
      have e0 : (UInt8.ofNat (0xC0 + c.toNat / 64)).toNat = 0xC0 + c.toNat / 64 := byteVal (by omega)
      have e1 : (UInt8.ofNat (0x80 + c.toNat % 64)).toNat = 0x80 + c.toNat % 64 := byteVal (by omega)
      simp only [e0]
      rw [show seqLen (0xC0 + c.toNat / 64) = 2 by
        unfold seqLen; rw [if_neg (by omega), if_neg (by omega), if_pos (by omega)]]
      simp only [List.cons_append, List.nil_append, inRange, e1]
      rw [if_pos (by simp; omega)]
      simp only [List.length_cons, List.length_nil, Prod.mk.injEq, and_true]
      exact ofNat_eq (by omega)
    · split
      · rename_i h1 h2 h3
        refine ⟨_, _, rfl, ?_⟩
        unfold decodeRune
        have e0 : (UInt8.ofNat (0xE0 + c.toNat / 4096)).toNat = 0xE0 + c.toNat / 4096 := byteVal (by omega)
        have e1 : (UInt8.ofNat (0x80 + c.toNat / 64 % 64)).toNat = 0x80 + c.toNat / 64 % 64 := byteVal (by omega)
        have e2 : (UInt8.ofNat (0x80 + c.toNat % 64)).toNat = 0x80 + c.toNat % 64 := byteVal (by omega)
        simp only [e0]
        rw [show seqLen (0xE0 + c.toNat / 4096) = 3 by
          unfold seqLen; rw [if_neg (by omega), if_neg (by omega), if_neg (by omega), if_pos (by omega)]]
        simp only [List.cons_append, List.nil_append, inRange, e1, e2]
        rw [if_pos]
        · simp only [List.length_cons, List.length_nil, Prod.mk.injEq, and_true]
          exact ofNat_eq (by omega)
        · simp only [Bool.and_eq_true, decide_eq_true_eq, secondRange_iff]
          omega
      · rename_i h1 h2 h3
        refine ⟨_, _, rfl, ?_⟩
        unfold decodeRune
        have e0 : (UInt8.ofNat (0xF0 + c.toNat / 262144)).toNat = 0xF0 + c.toNat / 262144 := byteVal (by omega)
        have e1 : (UInt8.ofNat (0x80 + c.toNat / 4096 % 64)).toNat = 0x80 + c.toNat / 4096 % 64 := byteVal (by omega)
        have e2 : (UInt8.ofNat (0x80 + c.toNat / 64 % 64)).toNat = 0x80 + c.toNat / 64 % 64 := byteVal (by omega)
        have e3 : (UInt8.ofNat (0x80 + c.toNat % 64)).toNat = 0x80 + c.toNat % 64 := byteVal (by omega)
        simp only [e0]
        rw [show seqLen (0xF0 + c.toNat / 262144) = 4 by
          unfold seqLen
          rw [if_neg (by omega), if_neg (by omega), if_neg (by omega), if_neg (by omega), if_pos (by omega)]]
        simp only [List.cons_append, List.nil_append, inRange, e1, e2, e3]
        rw [if_pos]
        · simp only [List.length_cons, List.length_nil, Prod.mk.injEq, and_true]
          exact ofNat_eq (by omega)
        · simp only [Bool.and_eq_true, decide_eq_true_eq, secondRange_iff]
          omega

/-- A byte sequence that is decoded properly is the encoding of the rune. -/
theorem decodeRune_cases (b : UInt8) (r : Bytes) :
    decodeRune b r = (runeError, 0) ∨ encodeRune (decodeRune b r).1 = b :: r.take (decodeRune b r).2 := by
  unfold decodeRune
  have hb := b.toNat_lt
  dsimp only
  split
  · rename_i h
    right
    have h1 : b.toNat < 128 := by
      unfold seqLen at h; split at h
      · assumption
      · repeat (split at h <;> try omega)
    have hv : b.toNat.isValidChar := .inl (by omega)
    simp [encodeRune, toNat_ofNat hv, h1]
  · rename_i b1 r' h
    split
    · rename_i hr
      right
      have hrange : 0xC2 ≤ b.toNat ∧ b.toNat < 0xE0 := by
        unfold seqLen at h
        by_cases h1 : b.toNat < 0x80
        · rw [if_pos h1] at h; omega
        rw [if_neg h1] at h
        by_cases h2 : b.toNat < 0xC2
        · rw [if_pos h2] at h; omega
        rw [if_neg h2] at h
        by_cases h3 : b.toNat < 0xE0
        · omega
        rw [if_neg h3] at h
        by_cases h4 : b.toNat < 0xF0
        · rw [if_pos h4] at h; omega
        rw [if_neg h4] at h
        split at h <;> omega
      simp only [inRange, Bool.and_eq_true, decide_eq_true_eq] at hr
      have hv : ((b.toNat - 0xC0) * 64 + (b1.toNat - 0x80)).isValidChar := .inl (by omega)
      simp only [encodeRune, toNat_ofNat hv]
      rw [if_neg (by omega), if_pos (by omega)]
      simp only [List.take_succ_cons, List.take_zero, List.cons.injEq, and_true]
      exact ⟨(byte_eq (by omega)).symm, (byte_eq (by omega)).symm⟩
    · exact .inl rfl
  · rename_i b1 b2 r' h
    split
    · rename_i hr
      right
      have hrange : 0xE0 ≤ b.toNat ∧ b.toNat < 0xF0 := by
        unfold seqLen at h
        by_cases h1 : b.toNat < 0x80
        · rw [if_pos h1] at h; omega
        rw [if_neg h1] at h
        by_cases h2 : b.toNat < 0xC2
        · rw [if_pos h2] at h; omega
        rw [if_neg h2] at h
        by_cases h3 : b.toNat < 0xE0
        · rw [if_pos h3] at h; omega
        rw [if_neg h3] at h
        by_cases h4 : b.toNat < 0xF0
        · omega
        rw [if_neg h4] at h
        split at h <;> omega
      simp only [inRange, Bool.and_eq_true, decide_eq_true_eq, secondRange_iff] at hr
      have hs : 0x80 ≤ b1.toNat ∧ b1.toNat ≤ 0xBF ∧ (b.toNat = 0xE0 → 0xA0 ≤ b1.toNat) ∧
          (b.toNat = 0xED → b1.toNat ≤ 0x9F) := by
        omega
      have hv : ((b.toNat - 0xE0) * 4096 + (b1.toNat - 0x80) * 64 + (b2.toNat - 0x80)).isValidChar := by
        by_cases hd : b.toNat ≤ 0xED
        · left; omega
        · right; omega
      simp only [encodeRune, toNat_ofNat hv]
      rw [if_neg (by omega), if_neg (by omega), if_pos (by omega)]
      simp only [List.take_succ_cons, List.take_zero, List.cons.injEq, and_true]
      exact ⟨(byte_eq (by omega)).symm, (byte_eq (by omega)).symm, (byte_eq (by omega)).symm⟩
    · exact .inl rfl
  · rename_i b1 b2 b3 r' h
    split
    · rename_i hr
      right
      have hrange : 0xF0 ≤ b.toNat ∧ b.toNat < 0xF5 := by
        unfold seqLen at h
        by_cases h1 : b.toNat < 0x80
        · rw [if_pos h1] at h; omega
        rw [if_neg h1] at h
        by_cases h2 : b.toNat < 0xC2
        · rw [if_pos h2] at h; omega
        rw [if_neg h2] at h
        by_cases h3 : b.toNat < 0xE0
        · rw [if_pos h3] at h; omega
        rw [if_neg h3] at h
        by_cases h4 : b.toNat < 0xF0
        · rw [if_pos h4] at h; omega
        rw [if_neg h4] at h
        split at h <;> omega
      simp only [inRange, Bool.and_eq_true, decide_eq_true_eq, secondRange_iff] at hr
      have hs : 0x80 ≤ b1.toNat ∧ b1.toNat ≤ 0xBF ∧ (b.toNat = 0xF0 → 0x90 ≤ b1.toNat) ∧
          (b.toNat = 0xF4 → b1.toNat ≤ 0x8F) := by
        omega
      have hv : ((b.toNat - 0xF0) * 262144 + (b1.toNat - 0x80) * 4096 + (b2.toNat - 0x80) * 64 +
          (b3.toNat - 0x80)).isValidChar := .inr (by omega)
      simp only [encodeRune, toNat_ofNat hv]
      rw [if_neg (by omega), if_neg (by omega), if_neg (by omega)]
      simp only [List.take_succ_cons, List.take_zero, List.cons.injEq, and_true]
      exact ⟨(byte_eq (by omega)).symm, (byte_eq (by omega)).symm, (byte_eq (by omega)).symm, (byte_eq (by omega)).symm⟩
    · exact .inl rfl
  · exact .inl rfl

theorem runesAux_skip (bs r : Bytes) : runesAux bs.length (bs ++ r) = runesAux 0 r := by
  induction bs with
  | nil => rfl
  | cons b bs ih => simpa [runesAux] using ih

/-- Well-formed sequences are decoded one by one. -/
theorem runes_encode (c : Char) (r : Bytes) : runes (encodeRune c ++ r) = c :: runes r := by
  obtain ⟨b, bs, he, hd⟩ := decodeRune_encode c r
  unfold runes
  rw [he, List.cons_append, runesAux, hd]
  simp [runesAux_skip]

/-- A byte at which no well-formed sequence begins is decoded as U+FFFD. -/
theorem runes_bad {b : UInt8} {r : Bytes} (h : ∀ c, ¬ encodeRune c <+: b :: r) :
    runes (b :: r) = runeError :: runes r := by
  unfold runes
  rw [runesAux]
  rcases decodeRune_cases b r with hd | hd
  · rw [hd]
  · exact absurd (by rw [hd]; exact List.prefix_cons_inj b |>.mpr (List.take_prefix _ _)) (h (decodeRune b r).1)

theorem runes_utf8 (t : List Char) : runes (utf8 t) = t := by
  induction t with
  | nil => rfl
  | cons c t ih => rw [utf8_cons, runes_encode, ih]

theorem encodeRune_ne_nil (c : Char) : encodeRune c ≠ [] := by
  obtain ⟨b, bs, he, _⟩ := decodeRune_encode c []
  rw [he]; simp

theorem utf8_eq_nil {t : List Char} : utf8 t = [] ↔ t = [] := by
  cases t with
  | nil => simp [utf8_nil]
  | cons c t => simp [utf8_cons, encodeRune_ne_nil]

theorem utf8_injective {t u : List Char} (h : utf8 t = utf8 u) : t = u := by
  have := congrArg runes h
  rwa [runes_utf8, runes_utf8] at this

/-- Tokens of a text: code points above U+FFFF disappear. -/
theorem tokens_utf8 (t : List Char) : tokens (utf8 t) = t.filter fun c => decide (c.toNat ≤ 0xFFFF) := by
  unfold tokens tokenize
  rw [runes_utf8]
  congr 1
  funext c
  exact lexRune_isSome c

theorem tokens_eq (s : Bytes) : tokens s = (runes s).filter fun c => decide (c.toNat ≤ 0xFFFF) := by
  unfold tokens tokenize
  congr 1
  funext c
  exact lexRune_isSome c

theorem runes_eq_nil {s : Bytes} : runes s = [] ↔ s = [] := by
  cases s with
  | nil => simp [runes, runesAux]
  | cons b s => simp [runes, runesAux]

/-- Texts of the basic multilingual plane are their own tokens. -/
theorem tokens_bmp {t : List Char} (h : ∀ c ∈ t, c.toNat ≤ 0xFFFF) : tokens (utf8 t) = t := by
  rw [tokens_utf8, List.filter_eq_self]
  simpa using h

/-! ## Agreement with the specification -/

open Spec

theorem encodeRune_eq (c : Char) : String.utf8EncodeChar c = encodeRune c := by
  have hv := char_valid c
  have e : c.val.toNat = c.toNat := rfl
  unfold encodeRune String.utf8EncodeChar
  simp only [e]
  by_cases h1 : c.toNat < 0x80
  · rw [if_pos (by omega), if_pos h1]
  rw [if_neg (by omega), if_neg h1]
  by_cases h2 : c.toNat < 0x800
  · rw [if_pos (by omega), if_pos h2, show c.toNat / 64 % 32 + 192 = 0xC0 + c.toNat / 64 by omega,
      show c.toNat % 64 + 128 = 0x80 + c.toNat % 64 by omega]
  rw [if_neg (by omega), if_neg h2]
  by_cases h3 : c.toNat < 0x10000
  · rw [if_pos (by omega), if_pos h3, show c.toNat / 4096 % 16 + 224 = 0xE0 + c.toNat / 4096 by omega,
      show c.toNat / 64 % 64 + 128 = 0x80 + c.toNat / 64 % 64 by omega,
      show c.toNat % 64 + 128 = 0x80 + c.toNat % 64 by omega]
  rw [if_neg (by omega), if_neg h3, show c.toNat / 262144 % 8 + 240 = 0xF0 + c.toNat / 262144 by omega,
      show c.toNat / 4096 % 64 + 128 = 0x80 + c.toNat / 4096 % 64 by omega,
      show c.toNat / 64 % 64 + 128 = 0x80 + c.toNat / 64 % 64 by omega,
      show c.toNat % 64 + 128 = 0x80 + c.toNat % 64 by omega]

theorem encode_eq (t : List Char) : encode t = utf8 t := by
  unfold encode utf8
  congr 1
  funext c
  exact encodeRune_eq c

theorem reads_runes {s t} (h : ReadsAs s t) : runes s = t := by
  induction h with
  | nil => rfl
  | char _ ih => rw [encodeRune_eq, runes_encode, ih]
  | bad hb _ ih =>
    rw [runes_bad (fun c => by rw [← encodeRune_eq]; exact hb c), ih]
    rfl

theorem reads_exists : ∀ (n : Nat) (s : Bytes), s.length ≤ n → ∃ t, ReadsAs s t := by
  intro n
  induction n with
  | zero => intro s h; cases s with | nil => exact ⟨_, .nil⟩ | cons => simp at h
  | succ n ih =>
    intro s h
    cases s with
    | nil => exact ⟨_, .nil⟩
    | cons b s =>
      by_cases hb : ∀ c, ¬ String.utf8EncodeChar c <+: b :: s
      · obtain ⟨t, ht⟩ := ih s (by simpa using h)
        exact ⟨_, .bad hb ht⟩
      · have : ∃ c, String.utf8EncodeChar c <+: b :: s := Classical.byContradiction fun hc =>
          hb fun c hp => hc ⟨c, hp⟩
        obtain ⟨c, r, hr⟩ := this
        have hl : r.length ≤ n := by
          have := congrArg List.length hr
          obtain ⟨x, xs, he, _⟩ := decodeRune_encode c []
          rw [encodeRune_eq, he] at this
          simp at this h
          omega
        obtain ⟨t, ht⟩ := ih r hl
        rw [← hr]
        exact ⟨_, .char ht⟩

theorem reads_iff {s t} : ReadsAs s t ↔ runes s = t := by
  refine ⟨reads_runes, fun h => ?_⟩
  obtain ⟨t', h'⟩ := reads_exists s.length s (Nat.le_refl _)
  rw [← h, reads_runes h']
  exact h'

/-- The token stream is the text read, without its characters above U+FFFF. -/
theorem tokens_reads {s t} (h : ReadsAs s t) : tokens s = dropAstral t := by
  rw [tokens_eq, reads_runes h]; rfl

theorem tokens_encode {t} : tokens (encode t) = dropAstral t := by
  rw [encode_eq, tokens_utf8]; rfl

end Rfc5322
