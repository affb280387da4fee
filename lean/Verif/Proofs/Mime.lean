import Verif.Model.Mime
import Verif.Spec.Rfc2047
import Verif.Proofs.Utf8

/-!
# The word decoder on encoded words
-/

namespace Rfc5322

open Spec

/-- ASCII texts. -/
def Ascii (t : List Char) : Prop := ∀ c ∈ t, c.toNat < 0x80

/-- The byte of an ASCII character. -/
def byteOf (c : Char) : UInt8 := UInt8.ofNat c.toNat

theorem encodeRune_byteOf {c : Char} (h : c.toNat < 0x80) : encodeRune c = [byteOf c] := by
  simp [encodeRune, byteOf, h]

theorem utf8_ascii {t : List Char} (h : Ascii t) : utf8 t = t.map byteOf := by
  induction t with
  | nil => rfl
  | cons c t ih =>
    have h1 := encodeRune_byteOf (h c (by simp))
    simp only [utf8, List.flatMap_cons, List.map_cons] at *
    rw [h1, ih fun c hc => h c (by simp [hc])]
    rfl

theorem byteOf_inj {c d : Char} (hc : c.toNat < 0x80) (hd : d.toNat < 0x80) (h : byteOf c = byteOf d) : c = d := by
  have := congrArg UInt8.toNat h
  simp only [byteOf, UInt8.toNat_ofNat'] at this
  rw [Nat.mod_eq_of_lt (by omega), Nat.mod_eq_of_lt (by omega)] at this
  exact Char.ext (UInt32.toNat_inj.mp this)

theorem byteOf_ne {c d : Char} (hc : c.toNat < 0x80) (hd : d.toNat < 0x80) (h : c ≠ d) : byteOf c ≠ byteOf d :=
  fun e => h (byteOf_inj hc hd e)

theorem ascii_of_encoded {c : Char} (h : isEncodedChar c = true) : c.toNat < 0x80 ∧ 0x20 < c.toNat ∧ c.toNat ≤ 0x7E ∧ c ≠ '?' := by
  simp only [isEncodedChar, isVchar, nonAscii, Bool.and_eq_true, Bool.or_eq_true, decide_eq_true_eq, Bool.not_eq_true',
    Bool.and_eq_false_iff, decide_eq_false_iff_not, bne_iff_ne, ne_eq] at h
  refine ⟨by omega, by omega, by omega, h.2⟩

theorem ascii_of_token {c : Char} (h : isTokenChar c = true) : c.toNat < 0x80 ∧ c ≠ '?' := by
  simp only [isTokenChar, isVchar, nonAscii, Bool.and_eq_true, Bool.or_eq_true, decide_eq_true_eq, Bool.not_eq_true',
    Bool.and_eq_false_iff, decide_eq_false_iff_not] at h
  refine ⟨by omega, ?_⟩
  rintro rfl
  exact absurd h.2 (by decide)

theorem count_byteOf {t : List Char} (h : ∀ c ∈ t, c.toNat < 0x80 ∧ c ≠ '?') : (t.map byteOf).count 0x3F = 0 := by
  rw [List.count_eq_zero]
  intro hm
  obtain ⟨c, hc, e⟩ := List.mem_map.mp hm
  obtain ⟨h1, h2⟩ := h c hc
  exact byteOf_ne h1 (by decide) h2 (e.trans (by decide : (0x3F : UInt8) = byteOf '?'))

theorem takeWhile_map {t : List Char} (h : ∀ c ∈ t, c.toNat < 0x80 ∧ c ≠ '?') (r : Bytes) :
    (t.map byteOf ++ 0x3F :: r).takeWhile (· != 0x3F) = t.map byteOf ∧
    (t.map byteOf ++ 0x3F :: r).dropWhile (· != 0x3F) = 0x3F :: r := by
  induction t with
  | nil => simp
  | cons c t ih =>
    have h1 : (byteOf c != 0x3F) = true := by
      obtain ⟨h1, h2⟩ := h c (by simp)
      rw [bne_iff_ne]
      exact fun e => byteOf_ne h1 (by decide) h2 (e.trans (by decide : (0x3F : UInt8) = byteOf '?'))
    have := ih fun c hc => h c (by simp [hc])
    simp [h1, this.1, this.2]

/-- What the decoder does with an encoded word. -/
theorem wordDecode_word (cr : CharsetReader) {cs en tx : List Char} (hc : cs ≠ []) (he : en ≠ []) (ht : tx ≠ [])
    (hcs : ∀ c ∈ cs, isTokenChar c) (hen : ∀ c ∈ en, isTokenChar c) (htx : ∀ c ∈ tx, isEncodedChar c) :
    wordDecode cr (utf8 (encodedWord cs en tx)) =
      match en with
      | [e] => (decodeText (byteOf e) (utf8 tx)).bind (convert cr (utf8 cs))
      | _ => none := by
  have a1 : ∀ c ∈ cs, c.toNat < 0x80 ∧ c ≠ '?' := fun c h => ascii_of_token (hcs c h)
  have a2 : ∀ c ∈ en, c.toNat < 0x80 ∧ c ≠ '?' := fun c h => ascii_of_token (hen c h)
  have a3 : ∀ c ∈ tx, c.toNat < 0x80 ∧ c ≠ '?' := fun c h => ⟨(ascii_of_encoded (htx c h)).1, (ascii_of_encoded (htx c h)).2.2.2⟩
  have e : utf8 (encodedWord cs en tx) = 0x3D :: 0x3F :: (cs.map byteOf ++ 0x3F :: (en.map byteOf ++ 0x3F :: (tx.map byteOf ++ b!"?="))) := by
    rw [utf8_ascii (by
      intro c hm
      simp only [encodedWord, List.mem_append, List.mem_cons, List.not_mem_nil, or_false] at hm
      rcases hm with (rfl | rfl) | (h | rfl) | (h | rfl) | h | rfl | rfl <;>
        first | decide | exact (a1 _ h).1 | exact (a2 _ h).1 | exact (a3 _ h).1)]
    simp [encodedWord, byteOf]
  have l1 : 0 < cs.length := List.length_pos_iff.mpr hc
  have l2 : 0 < en.length := List.length_pos_iff.mpr he
  have l3 : 0 < tx.length := List.length_pos_iff.mpr ht
  rw [e, wordDecode, if_neg (by
    simp only [List.length_cons, List.length_append, List.length_map, List.length_nil, List.count_cons, List.count_append,
      count_byteOf a1, count_byteOf a2, count_byteOf a3]
    simp
    omega)]
  have hcut : cutEnd (cs.map byteOf ++ 0x3F :: (en.map byteOf ++ 0x3F :: (tx.map byteOf ++ b!"?="))) =
      some (cs.map byteOf ++ 0x3F :: (en.map byteOf ++ 0x3F :: tx.map byteOf)) := by
    have : ∀ x : Bytes, cutEnd (x ++ b!"?=") = some x := by
      intro x
      simp [cutEnd]
    have h := this (cs.map byteOf ++ 0x3F :: (en.map byteOf ++ 0x3F :: tx.map byteOf))
    simpa using h
  simp only [hcut]
  obtain ⟨t1, t2⟩ := takeWhile_map a1 (en.map byteOf ++ 0x3F :: tx.map byteOf)
  rw [t1, t2]
  have hcs' : (cs.map byteOf).isEmpty = false := by cases cs <;> simp_all
  have u1 : utf8 cs = cs.map byteOf := utf8_ascii fun c h => (a1 c h).1
  have u2 : utf8 tx = tx.map byteOf := utf8_ascii fun c h => (a3 c h).1
  match en, he with
  | [x], _ =>
    simp only [List.map_cons, List.map_nil, List.singleton_append, List.nil_append, hcs', u1, u2]
    cases decodeText (byteOf x) (tx.map byteOf) <;> simp
  | x :: y :: en, _ =>
    have : byteOf y ≠ 0x3F := by
      obtain ⟨h1, h2⟩ := a2 y (by simp)
      exact fun e => byteOf_ne h1 (by decide) h2 (e.trans (by decide : (0x3F : UInt8) = byteOf '?'))
    simp only [List.map_cons, List.cons_append]
    split
    · rename_i h
      simp only [List.cons.injEq] at h
      exact absurd h.2.2.1 this
    · rfl

/-! ## The Q encoding -/

theorem fromHex_isHex {n : Nat} {c : Char} (h : IsHex n c) : c.toNat < 0x80 ∧ n < 16 ∧ fromHex (byteOf c) = some n ∧ isEncodedChar c = true := by
  have hn : n < 16 := by
    rcases h with h | h
    · exact (List.getElem?_eq_some_iff.mp h).1
    · exact (List.getElem?_eq_some_iff.mp h).1
  have key : ∀ n < 16, ∀ c ∈ (c!"0123456789ABCDEF"[n]?).toList ++ (c!"0123456789abcdef"[n]?).toList,
      c.toNat < 0x80 ∧ fromHex (byteOf c) = some n ∧ isEncodedChar c = true := by decide
  have := key n hn c (by rcases h with h | h <;> simp [h])
  exact ⟨this.1, hn, this.2⟩

theorem qText_chars {bs t} (h : QText bs t) : ∀ c ∈ t, isEncodedChar c := by
  induction h with
  | nil => simp
  | char h _ _ _ ih => intro c hc; exact (List.mem_cons.mp hc).elim (fun e => e ▸ h) (ih c)
  | space _ ih => intro c hc; exact (List.mem_cons.mp hc).elim (fun e => e ▸ by decide) (ih c)
  | hex h1 h2 _ ih =>
    intro c hc
    simp only [List.mem_cons] at hc
    rcases hc with rfl | rfl | rfl | hc
    · decide
    · exact (fromHex_isHex h1).2.2.2
    · exact (fromHex_isHex h2).2.2.2
    · exact ih c hc

theorem qText_ascii {bs t} (h : QText bs t) : Ascii t := fun c hc => (ascii_of_encoded (qText_chars h c hc)).1

theorem qDecode_qText {bs t} (h : QText bs t) : qDecode (utf8 t) = some bs := by
  rw [utf8_ascii (qText_ascii h)]
  induction h with
  | nil => rfl
  | @char c bs t h h1 h2 _ ih =>
    obtain ⟨ha, hb, hc, _⟩ := ascii_of_encoded h
    have e : encode [c] = [byteOf c] := by rw [encode_eq]; simp [utf8, encodeRune_byteOf ha]
    have n1 : byteOf c ≠ 0x5F := fun e => byteOf_ne ha (by decide) h1 (e.trans (by decide : (0x5F : UInt8) = byteOf '_'))
    have n2 : byteOf c ≠ 0x3D := fun e => byteOf_ne ha (by decide) h2 (e.trans (by decide : (0x3D : UInt8) = byteOf '='))
    have hr : inRange (byteOf c) 0x20 0x7E = true := by
      simp only [inRange, byteOf, UInt8.toNat_ofNat', Bool.and_eq_true, decide_eq_true_eq]
      rw [Nat.mod_eq_of_lt (by omega)]
      omega
    rw [List.map_cons, qDecode.eq_def]
    simp only
    rw [if_neg n1, if_neg n2, if_pos (by simp [hr]), ih, e]
    rfl
  | space _ ih =>
    rw [List.map_cons, qDecode.eq_def]
    simp only
    rw [if_pos (by decide), ih]; rfl
  | @hex b hi lo bs t h1 h2 _ ih =>
    rw [List.map_cons, List.map_cons, List.map_cons, qDecode, if_neg (by decide), if_pos (by decide)]
    simp only [readHexByte, (fromHex_isHex h1).2.2.1, (fromHex_isHex h2).2.2.1, ih]
    rw [show b.toNat / 16 * 16 + b.toNat % 16 = b.toNat by omega]
    simp

theorem isHex_hexDigit {n : Nat} (h : n < 16) : IsHex n (hexDigit n) := by
  left
  have : ∀ n < 16, c!"0123456789ABCDEF"[n]? = some (hexDigit n) := by decide
  exact this n h

theorem qText_qEncode (bs : Bytes) : QText bs (qEncode bs) := by
  induction bs with
  | nil => exact .nil
  | cons b bs ih =>
    have := b.toNat_lt
    exact .hex (isHex_hexDigit (by omega)) (isHex_hexDigit (by omega)) ih

/-! ## Base 64 -/

theorem b64Digit_spec {n : Nat} (h : n < 64) :
    (b64Digit n).toNat < 0x80 ∧ b64Value (byteOf (b64Digit n)) = some n ∧ isEncodedChar (b64Digit n) = true ∧
    byteOf (b64Digit n) ≠ 0x3D ∧ byteOf (b64Digit n) ≠ 0x0A ∧ byteOf (b64Digit n) ≠ 0x0D := by
  have : ∀ n < 64, (b64Digit n).toNat < 0x80 ∧ b64Value (byteOf (b64Digit n)) = some n ∧ isEncodedChar (b64Digit n) = true ∧
    byteOf (b64Digit n) ≠ 0x3D ∧ byteOf (b64Digit n) ≠ 0x0A ∧ byteOf (b64Digit n) ≠ 0x0D := by decide +kernel
  exact this n h

theorem b64_chars (bs : Bytes) : ∀ c ∈ b64 bs, isEncodedChar c = true ∧ byteOf c ≠ 0x0A ∧ byteOf c ≠ 0x0D := by
  have d : ∀ {n}, n < 64 → isEncodedChar (b64Digit n) = true ∧ byteOf (b64Digit n) ≠ 0x0A ∧ byteOf (b64Digit n) ≠ 0x0D :=
    fun h => ⟨(b64Digit_spec h).2.2.1, (b64Digit_spec h).2.2.2.2⟩
  have p : isEncodedChar '=' = true ∧ byteOf '=' ≠ 0x0A ∧ byteOf '=' ≠ 0x0D := by decide
  induction bs using b64.induct with
  | case1 => simp [b64]
  | case2 a =>
    have := a.toNat_lt
    intro x hx
    simp only [b64, List.mem_cons, List.not_mem_nil, or_false] at hx
    rcases hx with rfl | rfl | rfl | rfl <;> first | exact p | exact d (by omega)
  | case3 a b =>
    have := a.toNat_lt
    have := b.toNat_lt
    intro x hx
    simp only [b64, List.mem_cons, List.not_mem_nil, or_false] at hx
    rcases hx with rfl | rfl | rfl | rfl <;> first | exact p | exact d (by omega)
  | case4 a b c r ih =>
    have := a.toNat_lt
    have := b.toNat_lt
    have := c.toNat_lt
    intro x hx
    simp only [b64, List.mem_cons] at hx
    rcases hx with rfl | rfl | rfl | rfl | hx
    · exact d (by omega)
    · exact d (by omega)
    · exact d (by omega)
    · exact d (by omega)
    · exact ih x hx

theorem b64_ascii (bs : Bytes) : Ascii (b64 bs) := fun c hc => (ascii_of_encoded (b64_chars bs c hc).1).1

theorem b64_ne_nil {bs : Bytes} (h : bs ≠ []) : b64 bs ≠ [] := by
  match bs with
  | [a] => simp [b64]
  | [a, b] => simp [b64]
  | a :: b :: c :: r => simp [b64]

theorem b64Quanta_b64 (bs : Bytes) : b64Quanta ((b64 bs).map byteOf) = some bs := by
  have v : ∀ {n}, n < 64 → b64Value (byteOf (b64Digit n)) = some n := fun h => (b64Digit_spec h).2.1
  have q : ∀ {n}, n < 64 → byteOf (b64Digit n) ≠ 0x3D := fun h => (b64Digit_spec h).2.2.2.1
  have p : byteOf '=' = 0x3D := by decide
  induction bs using b64.induct with
  | case1 => rfl
  | case2 a =>
    have := a.toNat_lt
    simp only [b64, List.map_cons, List.map_nil, b64Quanta, p, v (show a.toNat / 4 < 64 by omega), v (show a.toNat % 4 * 16 < 64 by omega), if_true]
    rw [show a.toNat / 4 * 4 + a.toNat % 4 * 16 / 16 = a.toNat by omega]
    simp
  | case3 a b =>
    have := a.toNat_lt
    have := b.toNat_lt
    simp only [b64, List.map_cons, List.map_nil, b64Quanta, p, v (show a.toNat / 4 < 64 by omega),
      v (show a.toNat % 4 * 16 + b.toNat / 16 < 64 by omega), v (show b.toNat % 16 * 4 < 64 by omega),
      if_neg (q (show b.toNat % 16 * 4 < 64 by omega)), if_true]
    rw [show a.toNat / 4 * 4 + (a.toNat % 4 * 16 + b.toNat / 16) / 16 = a.toNat by omega,
      show (a.toNat % 4 * 16 + b.toNat / 16) % 16 * 16 + b.toNat % 16 * 4 / 4 = b.toNat by omega]
    simp
  | case4 a b c r ih =>
    have := a.toNat_lt
    have := b.toNat_lt
    have := c.toNat_lt
    have e1 : a.toNat / 4 * 4 + (a.toNat % 4 * 16 + b.toNat / 16) / 16 = a.toNat := by omega
    have e2 : (a.toNat % 4 * 16 + b.toNat / 16) % 16 * 16 + (b.toNat % 16 * 4 + c.toNat / 64) / 4 = b.toNat := by omega
    have e3 : (b.toNat % 16 * 4 + c.toNat / 64) % 4 * 64 + c.toNat % 64 = c.toNat := by omega
    simp only [b64, List.map_cons]
    cases r with
    | nil =>
      simp only [b64, List.map_nil, b64Quanta, v (show a.toNat / 4 < 64 by omega),
        v (show a.toNat % 4 * 16 + b.toNat / 16 < 64 by omega), v (show b.toNat % 16 * 4 + c.toNat / 64 < 64 by omega),
        v (show c.toNat % 64 < 64 by omega), if_neg (q (show b.toNat % 16 * 4 + c.toNat / 64 < 64 by omega)),
        if_neg (q (show c.toNat % 64 < 64 by omega))]
      rw [e1, e2, e3]
      simp
    | cons x r =>
      have hne : (b64 (x :: r)).map byteOf ≠ [] := by simpa using b64_ne_nil (bs := x :: r) (by simp)
      generalize hy : (b64 (x :: r)).map byteOf = y at ih hne ⊢
      cases y with
      | nil => exact absurd rfl hne
      | cons z y =>
        simp only [b64Quanta, v (show a.toNat / 4 < 64 by omega),
          v (show a.toNat % 4 * 16 + b.toNat / 16 < 64 by omega), v (show b.toNat % 16 * 4 + c.toNat / 64 < 64 by omega),
          v (show c.toNat % 64 < 64 by omega), ih]
        rw [e1, e2, e3]
        simp

theorem b64Decode_b64 (bs : Bytes) : b64Decode (utf8 (b64 bs)) = some bs := by
  rw [utf8_ascii (b64_ascii bs), b64Decode, List.filter_eq_self.mpr, b64Quanta_b64]
  intro x hx
  obtain ⟨c, hc, rfl⟩ := List.mem_map.mp hx
  have := b64_chars bs c hc
  simp [this.2.1, this.2.2]

/-! ## Charset names -/

theorem toLower_ascii_utf8 {t : List Char} (h : Ascii t) : toLower (utf8 t) = utf8 (t.map Char.toLower) := by
  have key : ∀ n < 0x80, (if inRange (byteOf (Char.ofNat n)) 0x41 0x5A then byteOf (Char.ofNat n) + 0x20 else byteOf (Char.ofNat n)) =
      byteOf (Char.ofNat n).toLower ∧ (Char.ofNat n).toLower.toNat < 0x80 := by decide +kernel
  have hl : ∀ c ∈ t, (if inRange (byteOf c) 0x41 0x5A then byteOf c + 0x20 else byteOf c) = byteOf c.toLower ∧ c.toLower.toNat < 0x80 := by
    intro c hc
    have := key c.toNat (h c hc)
    rwa [Char.ofNat_toNat] at this
  rw [utf8_ascii h, utf8_ascii (by
    intro c hc
    obtain ⟨d, hd, rfl⟩ := List.mem_map.mp hc
    exact (hl d hd).2), toLower, List.map_map, List.map_map]
  exact List.map_congr_left fun c hc => (hl c hc).1

theorem toLower_token {c : Char} (h : isTokenChar c.toLower = true) : isTokenChar c = true := by
  have key : ∀ n < 0x80, isTokenChar (Char.ofNat n).toLower = true → isTokenChar (Char.ofNat n) = true := by decide +kernel
  by_cases hc : c.toNat < 0x80
  · have := key c.toNat hc
    rw [Char.ofNat_toNat] at this
    exact this h
  · have e : c.toLower = c := by
      rw [Char.toLower]
      split
      · rename_i h'
        have h1 : c.val.toNat ≤ 90 := by have := h'.2; rw [UInt32.le_iff_toNat_le] at this; exact this
        exact absurd (show c.toNat < 0x80 by show c.val.toNat < 0x80; omega) hc
      · rfl
    rwa [e] at h

theorem spells_token {t name : List Char} (h : Spells t name) (hn : ∀ c ∈ name, isTokenChar c) : ∀ c ∈ t, isTokenChar c := by
  intro c hc
  exact toLower_token (hn _ (h ▸ List.mem_map_of_mem hc))

theorem token_ascii {t : List Char} (h : ∀ c ∈ t, isTokenChar c) : Ascii t := fun c hc => (ascii_of_token (h c hc)).1

theorem spells_lower {t name : List Char} (h : Spells t name) (hn : ∀ c ∈ name, isTokenChar c) : toLower (utf8 t) = utf8 name := by
  rw [toLower_ascii_utf8 (token_ascii (spells_token h hn)), h]

theorem utf8_ascii_inj {t u : List Char} (ht : Ascii t) (hu : Ascii u) (h : utf8 t = utf8 u) : t = u := by
  rw [utf8_ascii ht, utf8_ascii hu] at h
  induction t generalizing u with
  | nil => cases u with
    | nil => rfl
    | cons => cases h
  | cons c t ih => cases u with
    | nil => cases h
    | cons d u =>
      simp only [List.map_cons, List.cons.injEq] at h
      rw [byteOf_inj (ht c (by simp)) (hu d (by simp)) h.1, ih (fun c hc => ht c (by simp [hc])) (fun c hc => hu c (by simp [hc])) h.2]

theorem lower_ascii {t : List Char} (h : Ascii t) : Ascii (t.map Char.toLower) := by
  have key : ∀ n < 0x80, (Char.ofNat n).toLower.toNat < 0x80 := by decide +kernel
  intro c hc
  obtain ⟨d, hd, rfl⟩ := List.mem_map.mp hc
  have := key d.toNat (h d hd)
  rwa [Char.ofNat_toNat] at this

theorem lower_spells {t name : List Char} (ht : Ascii t) (hn : Ascii name) (h : toLower (utf8 t) = utf8 name) : Spells t name := by
  rw [toLower_ascii_utf8 ht] at h
  exact utf8_ascii_inj (lower_ascii ht) hn h

theorem spells_single {en : List Char} {x : Char} (h : Spells en [x]) : ∃ e, en = [e] ∧ e.toLower = x := by
  match en, h with
  | [e], h => exact ⟨e, rfl, by simpa [Spells] using h⟩
  | [], h => simp [Spells] at h
  | _ :: _ :: _, h => simp [Spells] at h

theorem lower_char {e : Char} {x : Char} (he : e.toNat < 0x80) (hx : x.toNat < 0x80) :
    e.toLower = x ↔ (if inRange (byteOf e) 0x41 0x5A then byteOf e + 0x20 else byteOf e) = byteOf x := by
  have h1 : Ascii [e] := by simpa [Ascii] using he
  have h2 := toLower_ascii_utf8 h1
  rw [utf8_ascii h1, utf8_ascii (lower_ascii h1)] at h2
  simp only [toLower, List.map_cons, List.map_nil, List.cons.injEq, and_true] at h2
  rw [h2]
  constructor
  · rintro rfl; rfl
  · intro h
    exact byteOf_inj (lower_ascii h1 _ (by simp)) hx h

theorem decodeText_q {e : Char} (h : e.toLower = 'q') (he : e.toNat < 0x80) (t : Bytes) : decodeText (byteOf e) t = qDecode t := by
  have key : ∀ n < 0x80, (Char.ofNat n).toLower = 'q' → byteOf (Char.ofNat n) = 0x51 ∨ byteOf (Char.ofNat n) = 0x71 := by decide +kernel
  have := key e.toNat he
  rw [Char.ofNat_toNat] at this
  rcases this h with h | h <;> rw [decodeText, h] <;> rfl

theorem decodeText_b {e : Char} (h : e.toLower = 'b') (he : e.toNat < 0x80) (t : Bytes) : decodeText (byteOf e) t = b64Decode t := by
  have key : ∀ n < 0x80, (Char.ofNat n).toLower = 'b' → byteOf (Char.ofNat n) = 0x42 ∨ byteOf (Char.ofNat n) = 0x62 := by decide +kernel
  have := key e.toNat he
  rw [Char.ofNat_toNat] at this
  rcases this h with h | h <;> rw [decodeText, h] <;> rfl

theorem decodeText_other {e : Char} (he : e.toNat < 0x80) (hq : e.toLower ≠ 'q') (hb : e.toLower ≠ 'b') (t : Bytes) : decodeText (byteOf e) t = none := by
  have key : ∀ n < 0x80, (Char.ofNat n).toLower ≠ 'q' → (Char.ofNat n).toLower ≠ 'b' →
      byteOf (Char.ofNat n) ≠ 0x42 ∧ byteOf (Char.ofNat n) ≠ 0x62 ∧ byteOf (Char.ofNat n) ≠ 0x51 ∧ byteOf (Char.ofNat n) ≠ 0x71 := by decide +kernel
  have := key e.toNat he
  rw [Char.ofNat_toNat] at this
  obtain ⟨h1, h2, h3, h4⟩ := this hq hb
  rw [decodeText, if_neg (by simp [h1, h2]), if_neg (by simp [h3, h4])]

theorem carries_chars {en tx bs} (h : Carries en tx bs) : (∀ c ∈ tx, isEncodedChar c) ∧ (∀ c ∈ en, isTokenChar c) ∧ en ≠ [] := by
  cases h with
  | q h1 h2 =>
    refine ⟨qText_chars h2, spells_token h1 (by decide), ?_⟩
    obtain ⟨e, rfl, _⟩ := spells_single h1
    simp
  | b h1 =>
    refine ⟨fun c hc => (b64_chars bs c hc).1, spells_token h1 (by decide), ?_⟩
    obtain ⟨e, rfl, _⟩ := spells_single h1
    simp

/-- The decoder on a well-formed word. -/
theorem wordDecode_carries (cr : CharsetReader) {cs en tx bs} (hc : cs ≠ []) (hcs : ∀ c ∈ cs, isTokenChar c) (ht : tx ≠ [])
    (h : Carries en tx bs) : wordDecode cr (utf8 (Spec.encodedWord cs en tx)) = convert cr (utf8 cs) bs := by
  obtain ⟨h1, h2, h3⟩ := carries_chars h
  rw [wordDecode_word cr hc h3 ht hcs h2 h1]
  cases h with
  | q hs hq =>
    obtain ⟨e, rfl, he⟩ := spells_single hs
    have := (ascii_of_token (h2 e (by simp))).1
    simp only [decodeText_q he this, qDecode_qText hq]
    rfl
  | b hs =>
    obtain ⟨e, rfl, he⟩ := spells_single hs
    have := (ascii_of_token (h2 e (by simp))).1
    simp only [decodeText_b he this, b64Decode_b64]
    rfl

theorem carries_encodedWord {cs en tx bs} (hc : cs ≠ []) (hcs : ∀ c ∈ cs, isTokenChar c) (ht : tx ≠ [])
    (h : Carries en tx bs) : EncodedWord (Spec.encodedWord cs en tx) := by
  obtain ⟨h1, h2, h3⟩ := carries_chars h
  exact ⟨cs, en, tx, hc, h3, ht, hcs, h2, h1, by simp [Spec.encodedWord]⟩

theorem convert_known (cr cr' : CharsetReader) {cs : List Char} (h : KnownCharset cs) (bs : Bytes) :
    convert cr (utf8 cs) bs = convert cr' (utf8 cs) bs := by
  have : toLower (utf8 cs) = b!"utf-8" ∨ toLower (utf8 cs) = b!"iso-8859-1" ∨ toLower (utf8 cs) = b!"us-ascii" := by
    rcases h with h | h | h
    · exact .inl (spells_lower h (by decide))
    · exact .inr (.inl (spells_lower h (by decide)))
    · exact .inr (.inr (spells_lower h (by decide)))
  unfold convert
  rcases this with h | h | h <;> rw [h] <;> rfl

/-- Completeness of the description of the Q encoding. -/
theorem qDecode_sound {t : List Char} (ht : ∀ c ∈ t, isEncodedChar c) {bs} (h : qDecode (utf8 t) = some bs) : QText bs t := by
  have ha : Ascii t := fun c hc => (ascii_of_encoded (ht c hc)).1
  rw [utf8_ascii ha] at h
  have hex : ∀ {c : Char} {n}, c.toNat < 0x80 → fromHex (byteOf c) = some n → IsHex n c := by
    have key : ∀ m < 0x80, ∀ n ∈ (fromHex (byteOf (Char.ofNat m))).toList, IsHex n (Char.ofNat m) := by unfold IsHex; decide +kernel
    intro c n hc hn
    have := key c.toNat hc n (by
      rw [Char.ofNat_toNat, hn]; simp)
    rwa [Char.ofNat_toNat] at this
  generalize hl : t.length = n
  induction n using Nat.strongRecOn generalizing t bs with
  | ind n ih =>
    cases t with
    | nil => cases h; exact .nil
    | cons c r =>
      have hc := ha c (by simp)
      rw [List.map_cons, qDecode.eq_def] at h
      simp only at h
      by_cases c1 : byteOf c = 0x5F
      · have : c = '_' := byteOf_inj hc (by decide) c1
        subst this
        rw [if_pos c1] at h
        obtain ⟨x, hx, rfl⟩ := Option.map_eq_some_iff.mp h
        exact .space (ih r.length (by simp at hl; omega) (fun c hc => ht c (by simp [hc])) hx (fun c hc => ha c (by simp [hc])) rfl)
      · rw [if_neg c1] at h
        by_cases c2 : byteOf c = 0x3D
        · have : c = '=' := byteOf_inj hc (by decide) c2
          subst this
          rw [if_pos c2] at h
          match r, h with
          | x :: y :: r, h =>
            simp only [List.map_cons] at h
            cases hh : readHexByte (byteOf x) (byteOf y) with
            | none => rw [hh] at h; cases h
            | some b =>
              rw [hh] at h
              obtain ⟨z, hz, rfl⟩ := Option.map_eq_some_iff.mp h
              have hx := ha x (by simp)
              have hy := ha y (by simp)
              simp only [readHexByte] at hh
              split at hh
              · rename_i u v h1 h2
                have hu := (hex hx h1)
                have hv := (hex hy h2)
                have l1 := (fromHex_isHex hu).2.1
                have l2 := (fromHex_isHex hv).2.1
                cases hh
                have e : (UInt8.ofNat (u * 16 + v)).toNat = u * 16 + v := by
                  rw [UInt8.toNat_ofNat', Nat.mod_eq_of_lt (by omega)]
                refine .hex (by rw [e, show (u * 16 + v) / 16 = u by omega]; exact hu) (by rw [e, show (u * 16 + v) % 16 = v by omega]; exact hv)
                  (ih r.length (by simp at hl; omega) (fun c hc => ht c (by simp [hc])) hz (fun c hc => ha c (by simp [hc])) rfl)
              · cases hh
        · rw [if_neg c2] at h
          split at h
          · obtain ⟨z, hz, rfl⟩ := Option.map_eq_some_iff.mp h
            have hz' := ih r.length (by simp at hl; omega) (fun c hc => ht c (by simp [hc])) hz (fun c hc => ha c (by simp [hc])) rfl
            have e : encode [c] = [byteOf c] := by rw [encode_eq]; simp [utf8, encodeRune_byteOf hc]
            have := QText.char (ht c (by simp)) (fun e => c1 (by rw [e]; rfl)) (fun e => c2 (by rw [e]; rfl)) hz'
            rwa [e] at this
          · cases h

end Rfc5322
