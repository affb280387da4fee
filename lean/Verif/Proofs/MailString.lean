import Verif.Model.MailString
import Verif.Spec.Format
import Verif.Proofs.Mime
import Verif.Proofs.ClearApi

/-!
# Reading back what `(*mail.Address).String` writes
-/

namespace Rfc5322

open Spec

/-! ## Bytes and characters -/

theorem utf8_low {t : List Char} {b : UInt8} (hb : b ∈ utf8 t) (h : b.toNat < 0x80) : ∃ c ∈ t, c.toNat = b.toNat := by
  simp only [utf8, List.mem_flatMap] at hb
  obtain ⟨c, hc, hb⟩ := hb
  refine ⟨c, hc, ?_⟩
  have hv := char_valid c
  simp only [encodeRune] at hb
  split at hb
  · simp only [List.mem_singleton] at hb; subst hb; rw [byteVal (by omega)]
  · split at hb
    · simp only [List.mem_cons, List.not_mem_nil, or_false] at hb
      rcases hb with rfl | rfl <;> rw [byteVal (by omega)] at h <;> omega
    · split at hb
      · simp only [List.mem_cons, List.not_mem_nil, or_false] at hb
        rcases hb with rfl | rfl | rfl <;> rw [byteVal (by omega)] at h <;> omega
      · simp only [List.mem_cons, List.not_mem_nil, or_false] at hb
        rcases hb with rfl | rfl | rfl | rfl <;> rw [byteVal (by omega)] at h <;> omega

theorem char_eq {c d : Char} (h : c.toNat = d.toNat) : c = d := Char.ext (UInt32.toNat_inj.mp h)

theorem splitAt_utf8 {l d : List Char} (hd : '@' ∉ d) : splitAt (utf8 (l ++ '@' :: d)) = (utf8 l, utf8 d) := by
  have hn : (0x40 : UInt8) ∉ utf8 d := by
    intro h
    obtain ⟨c, hc, e⟩ := utf8_low h (by decide)
    exact hd (char_eq (c := c) (d := '@') e ▸ hc)
  have e : utf8 (l ++ '@' :: d) = utf8 l ++ 0x40 :: utf8 d := by rw [utf8_append, utf8_cons]; rfl
  have hall : ∀ b ∈ (utf8 d).reverse, (b != 0x40) = true := by
    intro b hb
    rw [bne_iff_ne]
    rintro rfl
    exact hn (by simpa using hb)
  rw [e, splitAt, if_pos (by simp)]
  simp only [List.reverse_append, List.reverse_cons, List.append_assoc, List.singleton_append]
  rw [List.dropWhile_append_of_pos hall, List.takeWhile_append_of_pos hall]
  simp

/-- The runes of an ASCII string. -/
theorem runes_low {s : Bytes} (h : ∀ c ∈ runes s, c.toNat < 0x80) : s = utf8 (runes s) := by
  obtain ⟨t, ht⟩ := reads_exists s.length s (Nat.le_refl _)
  rw [reads_runes ht] at h ⊢
  induction ht with
  | nil => rfl
  | char _ ih => rw [utf8_cons, ← encodeRune_eq, ← ih fun c hc => h c (by simp [hc])]
  | bad _ _ _ => exact absurd (h '\uFFFD' (by simp)) (by decide)

/-! ## The local part -/

theorem range_encode (i : Nat) (c : Char) (r : Bytes) :
    rangeAux i 0 (encodeRune c ++ r) = (i, c) :: rangeAux (i + (encodeRune c).length) 0 r := by
  have skip : ∀ (bs : Bytes) i, rangeAux i bs.length (bs ++ r) = rangeAux (i + bs.length) 0 r := by
    intro bs
    induction bs with
    | nil => intro i; rfl
    | cons b bs ih => intro i; simp only [List.length_cons, List.cons_append, rangeAux, ih]; congr 1; omega
  obtain ⟨b, bs, e1, e2⟩ := decodeRune_encode c r
  rw [e1, List.cons_append, rangeAux, e2]
  simp only [skip, List.length_cons]
  congr 2; omega

theorem lastByte (c : Char) (x : Bytes) : (x ++ encodeRune c)[(x ++ encodeRune c).length - 1]? = some 0x2E ↔ c = '.' := by
  have hv := char_valid c
  rw [← List.getLast?_eq_getElem?, List.getLast?_append]
  have hne : ∀ n : Nat, 0x80 ≤ n → n < 256 → UInt8.ofNat n ≠ 0x2E := by
    intro n h1 h2 e
    have := congrArg UInt8.toNat e
    rw [byteVal h2] at this
    simp at this; omega
  simp only [encodeRune]
  split
  · rename_i h
    simp only [List.getLast?_singleton, Option.some_or, Option.some.injEq]
    constructor
    · intro e
      have := congrArg UInt8.toNat e
      rw [byteVal (by omega)] at this
      exact char_eq this
    · rintro rfl; rfl
  · have hc : c ≠ '.' := by rintro rfl; contradiction
    split
    · simp only [List.getLast?_cons_cons, List.getLast?_singleton, Option.some_or, Option.some.injEq, hc, iff_false]; exact hne _ (by omega) (by omega)
    · split
      · simp only [List.getLast?_cons_cons, List.getLast?_singleton, Option.some_or, Option.some.injEq, hc, iff_false]; exact hne _ (by omega) (by omega)
      · simp only [List.getLast?_cons_cons, List.getLast?_singleton, Option.some_or, Option.some.injEq, hc, iff_false]; exact hne _ (by omega) (by omega)

/-- What the loop has checked. -/
def Unquoted (x y : List Char) : Prop :=
  ∀ u c v, y = u ++ c :: v → goAtext c = true ∨ c = '.' ∧ x ++ u ≠ [] ∧ (x ++ u).getLast? ≠ some '.' ∧ v ≠ []

theorem unquoted_of_loop {x y : List Char} (h : (rangeAux (utf8 x).length 0 (utf8 y)).any (fun (i, r) =>
    !(goAtext r || (r == '.' && decide (0 < i) && decide ((utf8 (x ++ y))[i - 1]? ≠ some 0x2E) && decide (i + 1 < (utf8 (x ++ y)).length)))) = false) :
    Unquoted x y := by
  induction y generalizing x with
  | nil => intro u c v e; simp at e
  | cons d y ih =>
    rw [utf8_cons, range_encode, List.any_cons, Bool.or_eq_false_iff] at h
    obtain ⟨h1, h2⟩ := h
    have := ih (x := x ++ [d]) (by
      rw [utf8_append, List.length_append, show utf8 [d] = encodeRune d by simp [utf8], List.append_assoc]
      exact h2)
    intro u c v e
    cases u with
    | nil =>
      simp only [List.nil_append, List.cons.injEq] at e
      obtain ⟨rfl, rfl⟩ := e
      simp only [Bool.not_eq_false', Bool.or_eq_true, Bool.and_eq_true, beq_iff_eq, decide_eq_true_eq] at h1
      rcases h1 with h1 | ⟨⟨⟨h1, h2⟩, h3⟩, h4⟩
      · exact .inl h1
      · refine .inr ⟨h1, ?_, ?_, ?_⟩
        · rw [List.append_nil]; rintro rfl; simp [utf8] at h2
        · rw [List.append_nil]
          intro hl
          obtain ⟨z, rfl⟩ := List.getLast?_eq_some_iff.mp hl
          refine h3 ?_
          rw [utf8_append, List.getElem?_append_left (by omega)]
          have := (lastByte '.' (utf8 z)).mpr rfl
          rw [utf8_append, show utf8 ['.'] = encodeRune '.' by simp [utf8]]
          exact this
        · rintro rfl
          subst h1
          simp [utf8] at h4
          have : (encodeRune '.').length = 1 := rfl
          omega
    | cons u0 u =>
      simp only [List.cons_append, List.cons.injEq] at e
      obtain ⟨rfl, rfl⟩ := e
      simpa using this u c v rfl

theorem goAtext_spec {c : Char} (h : goAtext c = true) (hb : c.toNat ≤ 0xFFFF) : isAtext c = true := by
  simp only [goAtext] at h
  split at h
  · cases h
  · rename_i hc
    rw [isAtext, Bool.and_eq_true]
    constructor
    · simp only [goVchar, goMultibyte, isVchar, nonAscii, Bool.or_eq_true, Bool.and_eq_true, decide_eq_true_eq] at *
      rcases h with h | h
      · exact .inl h
      · exact .inr ⟨h, hb⟩
    · simp only [List.contains_eq_mem, List.mem_cons, List.not_mem_nil, or_false, Bool.not_eq_true', decide_eq_false_iff_not, decide_eq_true_eq, not_or] at hc ⊢
      simp [hc]

theorem dotted_unquoted {x y : List Char} (hx : x = [] ∨ x.getLast? = some '.') (hy : y ≠ []) (hb : ∀ c ∈ y, c.toNat ≤ 0xFFFF)
    (h : Unquoted x y) : Dotted y := by
  induction hn : y.length using Nat.strongRecOn generalizing x y with
  | _ n ih =>
    have hsplit := List.takeWhile_append_dropWhile (p := goAtext) (l := y)
    have hall : ∀ c ∈ y.takeWhile goAtext, goAtext c = true := fun c hc => List.all_eq_true.mp List.all_takeWhile c hc
    have hmem : ∀ c ∈ y.takeWhile goAtext, c ∈ y := fun c hc => (List.takeWhile_sublist _).subset hc
    generalize ha : y.takeWhile goAtext = a at *
    generalize hr : y.dropWhile goAtext = r at *
    have hatom : a ≠ [] → Atom a := fun hne => ⟨hne, fun c hc => goAtext_spec (hall c hc) (hb c (hmem c hc))⟩
    cases r with
    | nil =>
      rw [List.append_nil] at hsplit
      subst hsplit
      exact .one (hatom hy)
    | cons c r =>
      have hc : goAtext c = false := by
        have := List.head?_dropWhile_not goAtext y
        rw [hr] at this
        simpa using this
      rcases h a c r hsplit.symm with h' | ⟨rfl, h1, h2, h3⟩
      · rw [hc] at h'; cases h'
      · have hne : a ≠ [] := by
          rintro rfl
          rw [List.append_nil] at h1 h2
          rcases hx with rfl | hx
          · exact h1 rfl
          · exact h2 hx
        rw [← hsplit]
        refine .cons (hatom hne) (ih r.length ?_ (x := x ++ (a ++ ['.'])) (.inr (by simp)) h3 ?_ ?_ rfl)
        · rw [← hn, ← hsplit]; simp; omega
        · intro c hc; exact hb c (by rw [← hsplit]; simp [hc])
        · intro u d v e
          have := h (a ++ '.' :: u) d v (by rw [← hsplit, e]; simp)
          simpa using this

theorem dotted_of_unquoted {l : List Char} (hl : l ≠ []) (hb : ∀ c ∈ l, c.toNat ≤ 0xFFFF) (h : quoteLocal (utf8 l) = false) : Dotted l :=
  dotted_unquoted (x := []) (.inl rfl) hl hb (unquoted_of_loop h)

/-! ## Quoting -/

theorem goQuote_utf8 {t : List Char} (h : ∀ c ∈ t, (isVchar c || isWsp c) = true) : goQuote (utf8 t) = utf8 (quote t) := by
  have key : ∀ c, (isVchar c || isWsp c) = true →
      (if goQtext c || goWSP c then encodeRune c else if goVchar c then 0x5C :: encodeRune c else []) =
        utf8 (if c = '"' ∨ c = '\\' then ['\\', c] else [c]) := by
    intro c hc
    by_cases hq : c = '"' ∨ c = '\\'
    · rw [if_pos hq]
      rcases hq with rfl | rfl <;> decide
    · rw [if_neg hq]
      have : (goQtext c || goWSP c) = true := by
        simp only [Bool.or_eq_true] at hc ⊢
        rcases hc with hc | hc
        · left
          have : ¬ (c == '\\' || c == '"') = true := by simp only [Bool.or_eq_true, beq_iff_eq]; rintro (h | h); exact hq (.inr h); exact hq (.inl h)
          rw [goQtext, if_neg this]
          simp only [isVchar, nonAscii, goVchar, goMultibyte, Bool.or_eq_true, Bool.and_eq_true, decide_eq_true_eq] at hc ⊢
          omega
        · right; exact hc
      rw [if_pos this]
      simp [utf8]
  have hf : ∀ t : List Char, (∀ c ∈ t, (isVchar c || isWsp c) = true) →
      (t.flatMap fun c => if goQtext c || goWSP c then encodeRune c else if goVchar c then 0x5C :: encodeRune c else []) = utf8 (escape t) := by
    intro t ht
    induction t with
    | nil => rfl
    | cons c t ih =>
      rw [List.flatMap_cons, ih fun c hc => ht c (by simp [hc]), key c (ht c (by simp)), ← utf8_append]; rfl
  rw [goQuote, runes_utf8, hf t h, quote, utf8_cons, utf8_append]
  rfl

/-! ## Encoded words -/

theorem decodeRune_le (b : UInt8) (r : Bytes) : (decodeRune b r).2 ≤ 3 := by
  unfold decodeRune
  dsimp only
  split <;> (try split) <;> simp

theorem qText_append {bs t cs u} (h : QText bs t) (h' : QText cs u) : QText (bs ++ cs) (t ++ u) := by
  induction h with
  | nil => exact h'
  | char h1 h2 h3 _ ih => rw [List.append_assoc]; exact .char h1 h2 h3 ih
  | space _ ih => exact .space ih
  | hex h1 h2 _ ih => exact .hex h1 h2 ih

theorem writeQ_spec (bs : Bytes) : ∃ t, QText bs t ∧ writeQ bs = utf8 t ∧ (bs ≠ [] → t ≠ []) := by
  induction bs with
  | nil => exact ⟨[], .nil, rfl, fun h => absurd rfl h⟩
  | cons b bs ih =>
    obtain ⟨t, h1, h2, _⟩ := ih
    have hw : writeQ (b :: bs) = (if b = 0x20 then [0x5F] else if qPlain b then [b] else [0x3D, upperHex (b.toNat / 16), upperHex (b.toNat % 16)]) ++ writeQ bs := by
      simp [writeQ]
    rw [hw, h2]
    by_cases h : b = 0x20
    · subst h
      exact ⟨'_' :: t, .space h1, rfl, by simp⟩
    · rw [if_neg h]
      cases hp : qPlain b with
      | true =>
        simp only [qPlain, inRange, Bool.and_eq_true, decide_eq_true_eq, bne_iff_ne] at hp
        obtain ⟨⟨⟨⟨g1, g2⟩, g3⟩, g4⟩, g5⟩ := hp
        have ht : (Char.ofNat b.toNat).toNat = b.toNat := toNat_ofNat (.inl (by omega))
        have henc : encodeRune (Char.ofNat b.toNat) = [b] := by
          rw [encodeRune_byteOf (by omega), byteOf, ht]; simp
        have hne : ∀ d : Char, d.toNat < 0x80 → b ≠ byteOf d → Char.ofNat b.toNat ≠ d := by
          intro d hd hbd e
          exact hbd (by rw [byteOf, ← e, ht]; simp)
        refine ⟨Char.ofNat b.toNat :: t, ?_, ?_, by simp⟩
        · have : QText (encode [Char.ofNat b.toNat] ++ bs) (Char.ofNat b.toNat :: t) := by
            refine .char ?_ (hne '_' (by decide) g5) (hne '=' (by decide) g3) h1
            simp only [isEncodedChar, isVchar, nonAscii, ht, Bool.and_eq_true, Bool.or_eq_true, decide_eq_true_eq, Bool.not_eq_true',
              Bool.and_eq_false_iff, decide_eq_false_iff_not, bne_iff_ne]
            exact ⟨⟨.inl ⟨by omega, by omega⟩, .inl (by omega)⟩, hne '?' (by decide) g4⟩
          rwa [encode_eq, show utf8 [Char.ofNat b.toNat] = [b] by simp [utf8, henc]] at this
        · simp [utf8_cons, henc]
      | false =>
        refine ⟨'=' :: hexDigit (b.toNat / 16) :: hexDigit (b.toNat % 16) :: t, ?_, ?_, by simp⟩
        · have := b.toNat_lt
          exact .hex (isHex_hexDigit (by omega)) (isHex_hexDigit (by omega)) h1
        · have hx : ∀ n < 16, encodeRune (hexDigit n) = [upperHex n] := by decide
          have := b.toNat_lt
          simp only [utf8_cons, hx (b.toNat / 16) (by omega), hx (b.toNat % 16) (by omega)]
          rfl

theorem b64Encode_spec (bs : Bytes) : b64Encode bs = utf8 (b64 bs) := by
  have hd : ∀ n < 64, encodeRune (b64Digit n) = [b64Char n] := by decide
  induction bs using b64Encode.induct with
  | case1 => rfl
  | case2 a =>
    have := a.toNat_lt
    simp only [b64Encode, b64, utf8_cons, hd (a.toNat / 4) (by omega), hd (a.toNat % 4 * 16) (by omega),
      show a.toNat * 65536 / 262144 % 64 = a.toNat / 4 by omega, show a.toNat * 65536 / 4096 % 64 = a.toNat % 4 * 16 by omega]
    rfl
  | case3 a b =>
    have := a.toNat_lt
    have := b.toNat_lt
    simp only [b64Encode, b64, utf8_cons, hd (a.toNat / 4) (by omega), hd (a.toNat % 4 * 16 + b.toNat / 16) (by omega), hd (b.toNat % 16 * 4) (by omega),
      show (a.toNat * 65536 + b.toNat * 256) / 262144 % 64 = a.toNat / 4 by omega,
      show (a.toNat * 65536 + b.toNat * 256) / 4096 % 64 = a.toNat % 4 * 16 + b.toNat / 16 by omega,
      show (a.toNat * 65536 + b.toNat * 256) / 64 % 64 = b.toNat % 16 * 4 by omega]
    rfl
  | case4 a b c r ih =>
    have := a.toNat_lt
    have := b.toNat_lt
    have := c.toNat_lt
    simp only [b64Encode, b64, utf8_cons, ih, hd (a.toNat / 4) (by omega), hd (a.toNat % 4 * 16 + b.toNat / 16) (by omega),
      hd (b.toNat % 16 * 4 + c.toNat / 64) (by omega), hd (c.toNat % 64) (by omega),
      show (a.toNat * 65536 + b.toNat * 256 + c.toNat) / 262144 % 64 = a.toNat / 4 by omega,
      show (a.toNat * 65536 + b.toNat * 256 + c.toNat) / 4096 % 64 = a.toNat % 4 * 16 + b.toNat / 16 by omega,
      show (a.toNat * 65536 + b.toNat * 256 + c.toNat) / 64 % 64 = b.toNat % 16 * 4 + c.toNat / 64 by omega,
      show (a.toNat * 65536 + b.toNat * 256 + c.toNat) % 64 = c.toNat % 64 by omega]
    rfl

variable (cr : CharsetReader) (year : Int)

/-- A UTF-8 word as a whole. -/
theorem word_spec {en tx bs} (hc : Carries en tx bs) (ht : tx ≠ []) :
    EncodedWord (Spec.encodedWord c!"utf-8" en tx) ∧ decoded (goEnv cr year) (Spec.encodedWord c!"utf-8" en tx) = bs := by
  refine ⟨carries_encodedWord (by simp) (by decide) ht hc, ?_⟩
  rw [decoded]
  simp only [goEnv]
  rw [wordDecode_carries cr (by simp) (by decide) ht hc, convert.eq_def]
  rfl

theorem optCfws_space : OptCfws [' '] := ⟨[], [' '], .nil, .inr (.plain (by simp) (by decide)), rfl⟩

theorem utf8_word (e : Char) (he : e.toNat < 0x80) (tx : List Char) :
    utf8 (Spec.encodedWord c!"utf-8" [e] tx) = openWord (byteOf e) ++ (utf8 tx ++ closeWord) := by
  simp only [Spec.encodedWord, utf8_append, List.append_assoc]
  rw [show utf8 [e] = [byteOf e] by simp [utf8, encodeRune_byteOf he]]
  rfl

theorem run_one {en tx bs} (hc : Carries en tx bs) (ht : tx ≠ []) :
    EncodedRun (goEnv cr year) (Spec.encodedWord c!"utf-8" en tx ++ [' ']) bs := by
  obtain ⟨h1, h2⟩ := word_spec cr year hc ht
  have := EncodedRun.one (env := goEnv cr year) h1 optCfws_space
  rwa [h2] at this

theorem run_cons {en tx bs r v} (hc : Carries en tx bs) (ht : tx ≠ []) (hr : EncodedRun (goEnv cr year) r v) :
    EncodedRun (goEnv cr year) (Spec.encodedWord c!"utf-8" en tx ++ ([' '] ++ r)) (bs ++ v) := by
  obtain ⟨h1, h2⟩ := word_spec cr year hc ht
  have := EncodedRun.cons h1 optCfws_space hr
  rwa [h2] at this

theorem qLoop_spec (s : Bytes) : ∀ (bs : Bytes) (t : List Char) (cur : Nat), QText bs t → (t ≠ [] ∨ s ≠ [] ∧ cur = 0) →
    ∃ r, EncodedRun (goEnv cr year) r (bs ++ s) ∧ openWord 0x71 ++ (utf8 t ++ (qLoop cur s ++ closeWord)) ++ [0x20] = utf8 r := by
  induction hn : s.length using Nat.strongRecOn generalizing s with
  | _ n ih =>
    intro bs t cur hq hne
    cases s with
    | nil =>
      have ht : t ≠ [] := by rcases hne with h | h; exact h; exact absurd rfl h.1
      refine ⟨_, by rw [List.append_nil]; exact run_one cr year (en := ['q']) (.q rfl hq) ht, ?_⟩
      rw [utf8_append, utf8_word 'q' (by decide), qLoop]
      rfl
    | cons b rest =>
      rw [qLoop]
      have hle := decodeRune_le b rest
      generalize hpl : (qPlain b || b == 0x20) = plain
      generalize hk : (if plain then 0 else (decodeRune b rest).2) = k
      generalize hl : (if plain then 1 else 3 * (k + 1)) = len
      have hk3 : k ≤ 3 := by subst hk; split <;> omega
      have hl12 : len ≤ 12 := by subst hl; split <;> omega
      obtain ⟨u, hu1, hu2, hu3⟩ := writeQ_spec (b :: rest.take k)
      have hu3 := hu3 (by simp)
      have hs : b :: rest = (b :: rest.take k) ++ rest.drop k := by simp
      have hlen : (rest.drop k).length < n := by rw [← hn]; simp; omega
      by_cases hc : cur + len > maxContentLen
      · have ht : t ≠ [] := by
          rcases hne with h | h
          · exact h
          · rw [h.2, maxContentLen] at hc; omega
        rw [if_pos hc, hu2]
        obtain ⟨r, hr1, hr2⟩ := ih _ hlen (rest.drop k) rfl _ _ len hu1 (.inl hu3)
        refine ⟨_, by rw [hs]; exact run_cons cr year (en := ['q']) (.q rfl hq) ht hr1, ?_⟩
        rw [utf8_append, utf8_append, ← hr2, utf8_word 'q' (by decide)]
        simp [splitWord, show byteOf 'q' = 0x71 from rfl, show utf8 [' '] = [0x20] from rfl]
      · rw [if_neg hc, hu2]
        obtain ⟨r, hr1, hr2⟩ := ih _ hlen (rest.drop k) rfl _ _ (cur + len) (qText_append hq hu1) (.inl (by simp [hu3]))
        refine ⟨r, by rw [hs, ← List.append_assoc]; exact hr1, ?_⟩
        rw [← hr2, utf8_append]
        simp

theorem bLoop_spec (s : Bytes) : ∀ (chunk : Bytes), (chunk ≠ [] ∨ s ≠ []) →
    ∃ r, EncodedRun (goEnv cr year) r (chunk ++ s) ∧ openWord 0x62 ++ (bLoop chunk s ++ closeWord) ++ [0x20] = utf8 r := by
  induction hn : s.length using Nat.strongRecOn generalizing s with
  | _ n ih =>
    intro chunk hne
    cases s with
    | nil =>
      have ht : chunk ≠ [] := by rcases hne with h | h; exact h; exact absurd rfl h
      refine ⟨_, by rw [List.append_nil]; exact run_one cr year (en := ['b']) (.b rfl) (b64_ne_nil ht), ?_⟩
      rw [utf8_append, utf8_word 'b' (by decide), bLoop, b64Encode_spec]
      rfl
    | cons b rest =>
      rw [bLoop]
      have hle := decodeRune_le b rest
      generalize hk : (decodeRune b rest).2 = k at hle
      have hs : b :: rest = (b :: rest.take k) ++ rest.drop k := by simp
      have hlen : (rest.drop k).length < n := by rw [← hn]; simp; omega
      by_cases hc : chunk.length + (k + 1) ≤ maxBase64Len
      · rw [if_pos hc]
        obtain ⟨r, hr1, hr2⟩ := ih _ hlen (rest.drop k) rfl (chunk ++ b :: rest.take k) (.inl (by simp))
        exact ⟨r, by rw [hs, ← List.append_assoc]; exact hr1, hr2⟩
      · have ht : chunk ≠ [] := by
          rintro rfl
          simp [maxBase64Len] at hc; omega
        rw [if_neg hc]
        obtain ⟨r, hr1, hr2⟩ := ih _ hlen (rest.drop k) rfl (b :: rest.take k) (.inl (by simp))
        refine ⟨_, by rw [hs]; exact run_cons cr year (en := ['b']) (.b rfl) (b64_ne_nil ht) hr1, ?_⟩
        rw [utf8_append, utf8_append, ← hr2, utf8_word 'b' (by decide), b64Encode_spec]
        simp [splitWord, show byteOf 'b' = 0x62 from rfl, show utf8 [' '] = [0x20] from rfl]

theorem goQEncode_spec {s : Bytes} (h : needsEncoding s = true) (hne : s ≠ []) :
    ∃ r, EncodedRun (goEnv cr year) r s ∧ goQEncode s ++ [0x20] = utf8 r := by
  obtain ⟨r, h1, h2⟩ := qLoop_spec cr year s [] [] 0 .nil (.inr ⟨hne, rfl⟩)
  refine ⟨r, by simpa using h1, ?_⟩
  rw [goQEncode, if_pos h, ← h2]
  rfl

theorem goBEncode_spec {s : Bytes} (h : needsEncoding s = true) (hne : s ≠ []) :
    ∃ r, EncodedRun (goEnv cr year) r s ∧ goBEncode s ++ [0x20] = utf8 r := by
  rw [goBEncode, if_pos h, bEncode]
  split
  · refine ⟨_, run_one cr year (en := ['b']) (.b rfl) (b64_ne_nil hne), ?_⟩
    rw [utf8_append, utf8_word 'b' (by decide), b64Encode_spec]
    rfl
  · obtain ⟨r, h1, h2⟩ := bLoop_spec cr year s [] (.inr hne)
    exact ⟨r, by simpa using h1, h2⟩

/-! ## Names -/

theorem printable_rune (c : Char) : ((goVchar c || goWSP c) && !goMultibyte c) = true ↔ 0x20 ≤ c.toNat ∧ c.toNat ≤ 0x7E ∨ c.toNat = 9 := by
  have h1 : goWSP c = true ↔ c.toNat = 32 ∨ c.toNat = 9 := by
    simp only [goWSP, Bool.or_eq_true, beq_iff_eq]
    constructor
    · rintro (rfl | rfl) <;> decide
    · rintro (h | h)
      · exact .inl (char_eq h)
      · exact .inr (char_eq h)
  simp only [Bool.and_eq_true, Bool.or_eq_true, h1, goVchar, goMultibyte, decide_eq_true_eq, Bool.not_eq_true', decide_eq_false_iff_not]
  omega

theorem printable_runes {name : Bytes} : ((runes name).all fun r => (goVchar r || goWSP r) && !goMultibyte r) = printable name := by
  rw [Bool.eq_iff_iff]
  have key := printable_rune
  constructor
  · intro h
    rw [List.all_eq_true] at h
    have ha : ∀ c ∈ runes name, c.toNat < 0x80 := fun c hc => by have := (key c).mp (h c hc); omega
    rw [runes_low ha, utf8_ascii ha, printable, List.all_eq_true]
    intro b hb
    obtain ⟨c, hc, rfl⟩ := List.mem_map.mp hb
    have h1 := (key c).mp (h c hc)
    have h2 : (byteOf c).toNat = c.toNat := byteVal (by have := ha c hc; omega)
    have h3 : (byteOf c == 0x09) = true ↔ c.toNat = 9 := by
      rw [beq_iff_eq, ← UInt8.toNat_inj, h2]; rfl
    simp only [Bool.or_eq_true, Bool.and_eq_true, decide_eq_true_eq, h2, h3]
    omega
  · intro h
    have : ∃ t, Ascii t ∧ name = utf8 t := by
      refine ⟨name.map fun b => Char.ofNat b.toNat, ?_, ?_⟩
      · intro c hc
        obtain ⟨b, hb, rfl⟩ := List.mem_map.mp hc
        have := List.all_eq_true.mp h b hb
        simp only [Bool.or_eq_true, Bool.and_eq_true, decide_eq_true_eq, beq_iff_eq] at this
        have : b.toNat < 0x80 := by rcases this with h | rfl; omega; decide
        rw [toNat_ofNat (.inl (by omega))]; exact this
      · induction name with
        | nil => rfl
        | cons b name ih =>
          rw [printable, List.all_cons, Bool.and_eq_true] at h
          have : b.toNat < 0x80 := by
            have := h.1
            simp only [Bool.or_eq_true, Bool.and_eq_true, decide_eq_true_eq, beq_iff_eq] at this
            rcases this with h | rfl; omega; decide
          have ht : (Char.ofNat b.toNat).toNat = b.toNat := toNat_ofNat (.inl (by omega))
          rw [List.map_cons, utf8_cons, ← ih h.2, encodeRune_byteOf (by omega), byteOf, ht]; simp
    obtain ⟨t, ha, rfl⟩ := this
    rw [runes_utf8, List.all_eq_true]
    rw [utf8_ascii ha, printable, List.all_eq_true] at h
    intro c hc
    rw [key]
    have := h _ (List.mem_map.mpr ⟨c, hc, rfl⟩)
    have h2 : (byteOf c).toNat = c.toNat := byteVal (by have := ha c hc; omega)
    have h3 : (byteOf c == 0x09) = true ↔ c.toNat = 9 := by
      rw [beq_iff_eq, ← UInt8.toNat_inj, h2]; rfl
    simp only [Bool.or_eq_true, Bool.and_eq_true, decide_eq_true_eq, h2, h3] at this
    omega

theorem trimEnd_utf8 {t : List Char} (h : Ascii t) : trimEnd (utf8 t) = utf8 (trimRight t) := by
  have hr : Ascii (trimRight t) := fun c hc => h c (by
    simp only [trimRight, List.mem_reverse] at hc
    exact List.mem_reverse.mp ((List.dropWhile_sublist _).subset hc))
  rw [utf8_ascii h, utf8_ascii hr, trimEnd, trimRight, ← List.map_reverse]
  have : ∀ u : List Char, Ascii u → (u.map byteOf).dropWhile (fun b => b == 0x20 || b == 0x09) = (u.dropWhile isWsp).map byteOf := by
    intro u hu
    induction u with
    | nil => rfl
    | cons c u ih =>
      have hc := hu c (by simp)
      have e : (byteOf c == 0x20 || byteOf c == 0x09) = isWsp c := by
        rw [Bool.eq_iff_iff]
        simp only [isWsp, Bool.or_eq_true, beq_iff_eq]
        constructor
        · rintro (h | h)
          · exact .inl (byteOf_inj hc (by decide) h)
          · exact .inr (byteOf_inj hc (by decide) h)
        · rintro (rfl | rfl)
          · exact .inl rfl
          · exact .inr rfl
      rw [List.map_cons, List.dropWhile_cons, List.dropWhile_cons, e]
      split
      · exact ih fun c hc => hu c (by simp [hc])
      · rfl
  rw [this _ fun c hc => h c (by simpa using hc), List.map_reverse]

theorem needs_of_not_printable {name : Bytes} (h : printable name = false) : needsEncoding name = true := by
  rw [← printable_runes, List.all_eq_false] at h
  obtain ⟨c, hc, h⟩ := h
  rw [needsEncoding, List.any_eq_true]
  refine ⟨c, hc, ?_⟩
  rw [printable_rune] at h
  simp only [Bool.and_eq_true, Bool.or_eq_true, decide_eq_true_eq, bne_iff_ne]
  refine ⟨by omega, ?_⟩
  rintro rfl
  exact h (.inr rfl)

/-! ## The whole address -/

theorem clearAddr_host {env : Env} {l : List Char} {lt : List Char} {d : List Char} (hl : ClearLocal env lt (utf8 l)) (hd : HostText d) :
    ClearAddr env (lt ++ '@' :: d) (utf8 (l ++ '@' :: d)) := by
  rw [utf8_append, utf8_cons, show encodeRune '@' = b!"@" from rfl]
  cases hd with
  | dotAtom h => simpa using ClearAddr.plain hl (.dotAtom (a := []) (b := []) OptCfws.nil h OptCfws.nil)
  | literal h => simpa using ClearAddr.plain hl (.literal (a := []) (b := []) OptCfws.nil h OptCfws.nil)
  | dotAtomPort h hp hd =>
    rw [utf8_append, utf8_cons, show encodeRune ':' = b!":" from rfl]
    simpa using ClearAddr.port hl (.dotAtom (a := []) (b := []) OptCfws.nil h OptCfws.nil) hp hd
  | literalPort h hp hd =>
    rw [utf8_append, utf8_cons, show encodeRune ':' = b!":" from rfl]
    simpa using ClearAddr.port hl (.literal (a := []) (b := []) OptCfws.nil h OptCfws.nil) hp hd

theorem trimRight_id {t : List Char} (h : ∀ c ∈ t.getLast?, isWsp c = false) : trimRight t = t := by
  rcases List.eq_nil_or_concat t with rfl | ⟨x, c, rfl⟩
  · rfl
  · rw [List.concat_eq_append] at h ⊢
    have := trimRight_stop (w := x) (t := []) (h c (by simp))
    rw [this]
    simp [trimRight]

/-- The text `String` gives is a mailbox with a single value. -/
theorem addressString_box {name : Bytes} {l d : List Char} (hl : LocalText l) (hd : HostText d) (hat : '@' ∉ d)
    {w : List Char} (hw : OptCfws w) :
    ∃ t, addressString ⟨name, utf8 (l ++ '@' :: d)⟩ = utf8 t ∧
      ClearBox (goEnv cr year) (w ++ t) ⟨if printable name then trimEnd name else name, utf8 (l ++ '@' :: d)⟩ := by
  obtain ⟨hl1, hl2, hl3⟩ := hl
  have hbmp : ∀ c ∈ l, c.toNat ≤ 0xFFFF := by
    intro c hc
    have := hl2 c hc
    simp only [isVchar, nonAscii, isWsp, Bool.or_eq_true, Bool.and_eq_true, decide_eq_true_eq, beq_iff_eq] at this
    rcases this with (h | h) | (rfl | rfl)
    · omega
    · omega
    · decide
    · decide
  -- the local part
  have hloc : ∃ lt, (if quoteLocal (utf8 l) then goQuote (utf8 l) else utf8 l) = utf8 lt ∧ ClearLocal (goEnv cr year) lt (utf8 l) := by
    cases hq : quoteLocal (utf8 l) with
    | true =>
      refine ⟨quote l, by rw [if_pos rfl]; exact goQuote_utf8 hl2, ?_⟩
      have := quote_string (t := l) fun c hc => by
        have := hl2 c hc
        simp only [quoteOk, Bool.or_eq_true] at this ⊢
        exact .inl this
      rw [trimRight_id hl3] at this
      simpa using ClearLocal.quoted (a := []) (b := []) OptCfws.nil this OptCfws.nil
    | false =>
      refine ⟨l, by simp, ?_⟩
      simpa using ClearLocal.dotAtom (a := []) (b := []) OptCfws.nil (.inl (dotted_of_unquoted hl1 hbmp hq)) OptCfws.nil
  obtain ⟨lt, e1, h1⟩ := hloc
  have hang : ClearAngle (goEnv cr year) ('<' :: ((lt ++ '@' :: d) ++ ['>'])) (utf8 (l ++ '@' :: d)) :=
    .addr (clearAddr_host h1 hd) OptCfws.nil
  have es : (0x3C :: (utf8 lt ++ (0x40 :: (utf8 d ++ [0x3E]))) : Bytes) = utf8 ('<' :: ((lt ++ '@' :: d) ++ ['>'])) := by
    rw [utf8_cons, utf8_append, utf8_append, utf8_cons]; simp [show encodeRune '<' = [0x3C] from rfl, show encodeRune '@' = [0x40] from rfl, show utf8 ['>'] = [0x3E] from rfl]
  simp only [addressString, splitAt_utf8 hat, e1, es]
  cases hn : name.isEmpty with
  | true =>
    rw [List.isEmpty_iff] at hn
    subst hn
    exact ⟨_, rfl, .angle hw hang⟩
  | false =>
    have hne : name ≠ [] := by rintro rfl; cases hn
    rw [if_neg (by simp), printable_runes]
    cases hp : printable name with
    | true =>
      rw [if_pos rfl, if_pos rfl]
      have ha : ∀ c ∈ runes name, c.toNat < 0x80 ∧ (isVchar c || isWsp c) = true := by
        rw [← printable_runes, List.all_eq_true] at hp
        intro c hc
        have := hp c hc
        simp only [Bool.and_eq_true, Bool.or_eq_true, goVchar, goMultibyte, goWSP, isVchar, isWsp, nonAscii, decide_eq_true_eq, Bool.not_eq_true', decide_eq_false_iff_not] at this ⊢
        refine ⟨by omega, ?_⟩
        rcases this with ⟨(h | h) | h, h'⟩
        · exact .inl (.inl h)
        · omega
        · exact .inr h
      have e := runes_low fun c hc => (ha c hc).1
      generalize runes name = t at ha e
      subst e
      refine ⟨quote t ++ ([' '] ++ ('<' :: ((lt ++ '@' :: d) ++ ['>']))), ?_, ?_⟩
      · rw [goQuote_utf8 fun c hc => (ha c hc).2, utf8_append, utf8_append]; rfl
      · rw [trimEnd_utf8 fun c hc => (ha c hc).1]
        have hph : Phrase (goEnv cr year) (quote t ++ [' ']) [utf8 (trimRight t)] := by
          simpa using Phrase.quoted (env := goEnv cr year) (quote_string fun c hc => by
            have := (ha c hc).2
            simp only [quoteOk, Bool.or_eq_true] at this ⊢
            exact .inl this) optCfws_space .nil
        have := ClearBox.named hw hph (by simp) hang
        rw [wordsName_one] at this
        simpa using this
    | false =>
      simp only [Bool.false_eq_true, if_false]
      have henc : ∃ r, EncodedRun (goEnv cr year) r name ∧
          (if name.any fun b => (b!"\"#$%&'(),.:;<>@[]^`{|}~").contains b then goBEncode name else goQEncode name) ++ [0x20] = utf8 r := by
        split
        · exact goBEncode_spec cr year (needs_of_not_printable hp) hne
        · exact goQEncode_spec cr year (needs_of_not_printable hp) hne
      obtain ⟨r, h2, h3⟩ := henc
      refine ⟨r ++ ('<' :: ((lt ++ '@' :: d) ++ ['>'])), ?_, ?_⟩
      · rw [utf8_append, ← h3]
        split <;> simp
      · have hph : Phrase (goEnv cr year) r [name] := by
          simpa using Phrase.encoded (env := goEnv cr year) h2 (by simp) .nil
        have := ClearBox.named hw hph (by simp) hang
        rwa [wordsName_one] at this

end Rfc5322
