import Verif.Proofs.Dates

/-!
# Denotations: month names, day names, zones
-/

namespace Rfc5322

open Spec

variable {env : Env} {Q : Rule → Prop}

/-! ## Names spelled letter by letter -/

/-- The lower-case letter of a letter token. -/
def Tok.letter : Tok → Char
  | .A => 'a' | .B => 'b' | .C => 'c' | .D => 'd' | .E => 'e' | .F => 'f' | .G => 'g' | .H => 'h' | .I => 'i'
  | .J => 'j' | .K => 'k' | .L => 'l' | .M => 'm' | .N => 'n' | .O => 'o' | .P => 'p' | .Q => 'q' | .R => 'r'
  | .S => 's' | .T => 't' | .U => 'u' | .V => 'v' | .W => 'w' | .X => 'x' | .Y => 'y' | .Z => 'z'
  | _ => '?'

theorem toLower_ge {c : Char} (h : 128 ≤ c.toNat) : c.toLower = c := by
  have : ¬ (c.val ≥ 'A'.val ∧ c.val ≤ 'Z'.val) := by
    intro ⟨_, h2⟩
    have h2 : c.val.toNat ≤ 90 := h2
    have h3 : c.val.toNat = c.toNat := rfl
    omega
  unfold Char.toLower
  rw [dif_neg this]

theorem letter_matches {k : Tok} (hk : k ∈ alphaToks) : ∀ c, k.matches c = (c.toLower == k.letter) := by
  have hasc : ∀ k ∈ alphaToks, ∀ n < 128, k.matches (Char.ofNat n) = ((Char.ofNat n).toLower == k.letter) := by
    decide +kernel
  have hne : ∀ k ∈ alphaToks, k ≠ .UTF8NonAscii ∧ k.letter.toNat < 128 := by decide
  refine char_ext (hasc k hk) fun c h => ?_
  rw [Tok.matches_eq, Tok.matchesN_ge h, toLower_ge h]
  obtain ⟨h1, h2⟩ := hne k hk
  simp [h1]
  rintro rfl; omega

/-- The spellings of an expression that is a choice of fixed sequences of tokens. -/
def G.words : G → Option (List (List Tok))
  | .t k => some [[k]]
  | .seq (.t k) g => match g.words with
    | some ws => some (ws.map (k :: ·))
    | none => none
  | .alt a b => match a.words, b.words with
    | some A, some B => some (A ++ B)
    | _, _ => none
  | _ => none

theorem lower_cons {c t} : lower (c :: t) = c.toLower :: lower t := rfl
theorem lower_append {t u} : lower (t ++ u) = lower t ++ lower u := by simp [lower]

theorem Means.words {g ws} (h : g.words = some ws) (ha : ws.all (fun w => w.all alphaToks.contains) = true) :
    Means Q env g (.quiet fun t => lower t ∈ ws.map (·.map Tok.letter)) := by
  induction g using G.words.induct generalizing ws with
  | case1 k =>
    simp only [G.words, Option.some.injEq] at h; subst h
    have hk : k ∈ alphaToks := by simpa using ha
    refine Means.t.congr fun t f => ?_
    simp only [Lang.char, Lang.quiet, letter_matches hk, beq_iff_eq]
    constructor
    · rintro ⟨c, rfl, h, rfl⟩; exact ⟨by simp [lower, h], rfl⟩
    · rintro ⟨h, rfl⟩
      match t, h with
      | [], h => simp [lower] at h
      | [c], h => exact ⟨c, rfl, by simpa [lower] using h, rfl⟩
      | c :: d :: t, h => simp [lower] at h
  | case2 k g ws' hg ih =>
    simp only [G.words, hg, Option.some.injEq] at h; subst h
    rw [List.all_map] at ha
    by_cases he : ws' = []
    · subst he
      have hn := ih hg (by rfl)
      refine (Means.t.seq hn).congr fun t f => ?_
      simp only [Lang.seq, Lang.quiet]; constructor
      · rintro ⟨_, _, _, _, _, ⟨h, _⟩, _⟩; simp at h
      · rintro ⟨h, _⟩; simp at h
    have hk : k ∈ alphaToks := by
      obtain ⟨w, r, rfl⟩ := List.exists_cons_of_ne_nil he
      simp only [List.all_cons, Function.comp, List.all_cons, Bool.and_eq_true] at ha
      exact List.contains_iff_mem.mp ha.1.1
    have ha' : ws'.all (fun w => w.all alphaToks.contains) = true := by
      simp only [List.all_eq_true, Function.comp, List.all_cons, Bool.and_eq_true] at ha ⊢
      exact fun w hw => (ha w hw).2
    refine (Means.t.seq (ih hg ha')).congr fun t f => ?_
    simp only [Lang.seq, Lang.quiet, Lang.char, letter_matches hk, beq_iff_eq]
    constructor
    · rintro ⟨_, _, u, _, ⟨c, rfl, hc, rfl⟩, ⟨hu, rfl⟩, rfl, rfl⟩
      refine ⟨?_, rfl⟩
      simp only [List.mem_map] at hu ⊢
      obtain ⟨w, hw, e⟩ := hu
      exact ⟨k :: w, ⟨w, hw, rfl⟩, by simp [lower_cons, ← e, hc]⟩
    · rintro ⟨h, rfl⟩
      simp only [List.mem_map] at h
      obtain ⟨_, ⟨w, hw, rfl⟩, e⟩ := h
      match t, e with
      | [], e => simp [lower] at e
      | c :: t, e =>
        simp only [List.map_cons, lower_cons, List.cons.injEq] at e
        exact ⟨[c], id, t, id, ⟨c, rfl, e.1.symm, rfl⟩, ⟨by simpa using ⟨w, hw, e.2⟩, rfl⟩, rfl, rfl⟩
  | case3 k g hg ih => simp [G.words, hg] at h
  | case4 a b A B hb' ha' iha ihb =>
    simp only [G.words, ha', hb', Option.some.injEq] at h; subst h
    simp only [List.all_append, Bool.and_eq_true] at ha
    refine ((iha ha' ha.1).alt (ihb hb' ha.2)).congr fun t f => ?_
    simp only [Lang.alt, Lang.quiet, List.map_append, List.mem_append]
    constructor
    · rintro (⟨h, rfl⟩ | ⟨h, rfl⟩)
      · exact ⟨.inl h, rfl⟩
      · exact ⟨.inr h, rfl⟩
    · rintro ⟨h | h, rfl⟩
      · exact .inl ⟨h, rfl⟩
      · exact .inr ⟨h, rfl⟩
  | case5 a b hn => simp [G.words, hn] at h
  | case6 g => 
    exfalso
    unfold G.words at h
    split at h <;> simp_all

theorem toLower_ascii {c : Char} (h : c.toLower.toNat < 128) : c.toNat < 128 := by
  by_cases hc : c.toNat < 128
  · exact hc
  · rw [toLower_ge (by omega)] at h; exact h

theorem toLower_byte : ∀ n < 128, toLower [UInt8.ofNat n] = [UInt8.ofNat (Char.ofNat n).toLower.toNat] := by
  decide +kernel

theorem toLower_lt : ∀ n < 128, (Char.ofNat n).toLower.toNat < 128 := by decide +kernel

/-- `strings.ToLower` of an ASCII text. -/
theorem toLower_utf8 {t : List Char} (h : ∀ c ∈ lower t, c.toNat < 128) : toLower (utf8 t) = utf8 (lower t) := by
  induction t with
  | nil => rfl
  | cons c t ih =>
    simp only [lower_cons, List.mem_cons, forall_eq_or_imp] at h
    have hc := toLower_ascii h.1
    have := toLower_byte _ hc
    rw [Char.ofNat_toNat] at this
    rw [utf8_cons, lower_cons, utf8_cons, ← ih h.2, encodeRune_ascii hc, encodeRune_ascii h.1, ← this]
    simp [toLower]

theorem names_ascii {ns : List (List Char)} (h : ns.all (fun n => n.all fun c => decide (c.toNat < 128)) = true)
    {t} (ht : t ∈ ns) : ∀ c ∈ t, c.toNat < 128 := by
  simp only [List.all_eq_true, decide_eq_true_eq] at h
  exact h t ht

/-- A text spelling the `i`-th name, as the model's table sees it. -/
theorem monthOf_name {t : List Char} (h : lower t ∈ monthNames) :
    monthOf (utf8 t) = some ((monthNames.idxOf (lower t) : Int) + 1) := by
  have e := toLower_utf8 (names_ascii (by decide) h)
  have key : ∀ n ∈ monthNames, monthOf (utf8 n) = some ((monthNames.idxOf n : Int) + 1) ∧ toLower (utf8 n) = utf8 n := by
    decide +kernel
  have hm : monthOf (utf8 t) = monthOf (utf8 (lower t)) := by
    unfold monthOf; rw [e, (key _ h).2]
  rw [hm, (key _ h).1]

theorem month_iff {t m} : Month t m ↔ lower t ∈ monthNames ∧ m = monthNames.idxOf (lower t) + 1 := by
  have key : ∀ n ∈ monthNames, ∀ i < 12, monthNames[i]? = some n → i = monthNames.idxOf n := by decide +kernel
  have key2 : ∀ n ∈ monthNames, monthNames[monthNames.idxOf n]? = some n := by decide +kernel
  constructor
  · rintro ⟨h1, h2⟩
    have hm := List.mem_of_getElem? h2
    obtain ⟨hl, _⟩ := List.getElem?_eq_some_iff.mp h2
    have := key _ hm (m - 1) hl h2
    exact ⟨hm, by omega⟩
  · rintro ⟨h, rfl⟩
    exact ⟨by omega, by simpa using key2 _ h⟩

theorem means_month : Means Q env Gr.month (.value Month fun m : Nat => deliver (.month m)) := by
  have body : Means anyK env _ _ := Means.words (env := env) (Q := anyK) (g := .t .J ⬝ .t .A ⬝ .t .N ‖ .t .F ⬝ .t .E ⬝ .t .B ‖ .t .M ⬝ .t .A ⬝ .t .R ‖ .t .A ⬝ .t .P ⬝ .t .R ‖
    .t .M ⬝ .t .A ⬝ .t .Y ‖ .t .J ⬝ .t .U ⬝ .t .N ‖ .t .J ⬝ .t .U ⬝ .t .L ‖ .t .A ⬝ .t .U ⬝ .t .G ‖
    .t .S ⬝ .t .E ⬝ .t .P ‖ .t .O ⬝ .t .C ⬝ .t .T ‖ .t .N ⬝ .t .O ⬝ .t .V ‖ .t .D ⬝ .t .E ⬝ .t .C) rfl (by decide)
  refine (Means.push (Q := Q) (Q' := anyK) (r := .month) (mk := fun t => .month ((monthOf (utf8 t)).getD 0)) rfl
    (fun _ => rfl) trivial body ?_).congr fun t f => ?_
  · rintro t f ts w ⟨h, rfl⟩ ht
    have h : lower t ∈ monthNames := h
    simp only [enterRule, enterMonth, ht, monthOf_name h]; rfl
  · constructor
    · rintro ⟨_, ⟨h, rfl⟩, rfl⟩
      have h : lower t ∈ monthNames := h
      refine ⟨_, month_iff.mpr ⟨h, rfl⟩, ?_⟩
      rw [monthOf_name h]; rfl
    · rintro ⟨m, hm, rfl⟩
      obtain ⟨h', rfl⟩ := month_iff.mp hm
      refine ⟨id, ⟨h', rfl⟩, ?_⟩
      rw [monthOf_name h']; rfl

theorem means_dayName : Means Q env Gr.dayName (.quiet fun t => lower t ∈ dayNames) :=
  (Means.words (g := .t .M ⬝ .t .O ⬝ .t .N ‖ .t .T ⬝ .t .U ⬝ .t .E ‖ .t .W ⬝ .t .E ⬝ .t .D ‖ .t .T ⬝ .t .H ⬝ .t .U ‖
    .t .F ⬝ .t .R ⬝ .t .I ‖ .t .S ⬝ .t .A ⬝ .t .T ‖ .t .S ⬝ .t .U ⬝ .t .N) rfl (by decide)).silent (r := .dayName) rfl
    |>.congr fun t f => by
      simp only [Lang.quiet]
      rw [and_congr_left_iff]
      intro _
      have key : ∀ n, n ∈ List.map (fun x => x.map Tok.letter) [[Tok.M, .O, .N], [.T, .U, .E], [.W, .E, .D], [.T, .H, .U], [.F, .R, .I], [.S, .A, .T], [.S, .U, .N]] ↔ n ∈ dayNames := by
        intro n; rfl
      exact key _

theorem zoneNames_map : zoneNames.map Prod.fst = [c!"ut", c!"utc", c!"gmt", c!"est", c!"edt", c!"cst", c!"cdt", c!"mst", c!"mdt", c!"pst", c!"pdt"] := rfl

theorem obsZoneOffset_name {t : List Char} {h : Int} (hz : (lower t, h) ∈ zoneNames) :
    obsZoneOffset (utf8 t) = some (3600 * h) := by
  have hm : lower t ∈ zoneNames.map Prod.fst := List.mem_map.mpr ⟨_, hz, rfl⟩
  have e := toLower_utf8 (names_ascii (by decide) hm)
  have key : ∀ p ∈ zoneNames, obsZoneOffset (utf8 p.1) = some (3600 * p.2) ∧ toLower (utf8 p.1) = utf8 p.1 := by
    decide +kernel
  have : obsZoneOffset (utf8 t) = obsZoneOffset (utf8 (lower t)) := by
    unfold obsZoneOffset; rw [e, (key _ hz).2]
  rw [this, (key _ hz).1]

theorem means_obsZone : Means Q env Gr.obsZone
    (.value (fun t l => ∃ h, (lower t, h) ∈ zoneNames ∧ l = ⟨utf8 t, 3600 * h⟩) fun l => deliver (.obsZone l)) := by
  have body : Means anyK env _ _ := Means.words (env := env) (Q := anyK) (g := .t .U ⬝ .t .T ‖ .t .U ⬝ .t .T ⬝ .t .C ‖ .t .G ⬝ .t .M ⬝ .t .T ‖ .t .E ⬝ .t .S ⬝ .t .T ‖
    .t .E ⬝ .t .D ⬝ .t .T ‖ .t .C ⬝ .t .S ⬝ .t .T ‖ .t .C ⬝ .t .D ⬝ .t .T ‖ .t .M ⬝ .t .S ⬝ .t .T ‖
    .t .M ⬝ .t .D ⬝ .t .T ‖ .t .P ⬝ .t .S ⬝ .t .T ‖ .t .P ⬝ .t .D ⬝ .t .T) rfl (by decide)
  have mem : ∀ t : List Char, lower t ∈ zoneNames.map Prod.fst → ∃ h, (lower t, h) ∈ zoneNames := by
    intro t h
    obtain ⟨p, hp, e⟩ := List.mem_map.mp h
    exact ⟨p.2, by rw [← e]; exact hp⟩
  refine (Means.push (Q := Q) (Q' := anyK) (r := .obsZone)
    (mk := fun t => .obsZone ⟨utf8 t, (obsZoneOffset (utf8 t)).getD 0⟩) rfl
    (fun _ => rfl) trivial body ?_).congr fun t f => ?_
  · rintro t f ts w ⟨h, rfl⟩ ht
    obtain ⟨o, h⟩ := mem t h
    simp only [enterRule, enterObsZone, ht, obsZoneOffset_name h]; rfl
  · constructor
    · rintro ⟨_, ⟨h, rfl⟩, rfl⟩
      obtain ⟨o, h⟩ := mem t h
      refine ⟨_, ⟨o, h, rfl⟩, ?_⟩
      rw [obsZoneOffset_name h]; rfl
    · rintro ⟨l, ⟨o, h, rfl⟩, rfl⟩
      have hm : lower t ∈ zoneNames.map Prod.fst := List.mem_map.mpr ⟨_, h, rfl⟩
      refine ⟨id, ⟨hm, rfl⟩, ?_⟩
      rw [obsZoneOffset_name h]; rfl

/-! ## Numeric zones -/

theorem digitByte_two (c : Char) (h : isDigit c = true) :
    ∃ b : UInt8, encodeRune c = [b] ∧ isDigitByte b = true ∧ b.toNat - 48 = c.toNat - 48 := by
  have := isDigit_iff.mp h
  refine ⟨_, encodeRune_ascii (by omega), (digit_byte h).1, by rw [(digit_byte h).2]⟩

theorem parseDuration_hm {neg : Bool} {a b c d : UInt8} (ha : isDigitByte a = true) (hb : isDigitByte b = true)
    (hc : isDigitByte c = true) (hd : isDigitByte d = true) :
    parseDuration [if neg then 0x2D else 0x2B, a, b, 0x68, c, d, 0x6D] =
      ((if neg then -1 else 1) * ((digitsVal [a, b] : Int) * 3600000000000 + digitsVal [c, d] * 60000000000), none) := by
  have h1 : isDigitByte 0x68 = false := by decide
  have h2 : isDigitByte 0x6D = false := by decide
  have loop : durationLoop 6 [a, b, 0x68, c, d, 0x6D] 0 =
      some ((digitsVal [a, b] : Int) * 3600000000000 + digitsVal [c, d] * 60000000000) := by
    simp [durationLoop, ha, hb, hc, hd, h1, h2, durationUnit]
  cases neg <;> simp only [parseDuration] <;> simp [loop]

/-- `EnterOffset` on explicit bytes, with a sign or without. -/
theorem enterOffset_bytes {neg : Bool} {a b c d : UInt8} (ha : isDigitByte a = true) (hb : isDigitByte b = true)
    (hc : isDigitByte c = true) (hd : isDigitByte d = true) {ts w}
    (ht : textList ts = [if neg then 0x2D else 0x2B, a, b, c, d] ∨ neg = false ∧ textList ts = [a, b, c, d]) :
    enterOffset ts w = .ok (w.enter (.offset [if neg then 0x2D else 0x2B, a, b, c, d]
      ((if neg then -1 else 1) * (3600 * digitsVal [a, b] + 60 * digitsVal [c, d])))) := by
  have fin : ∀ text : Bytes, text = [if neg then 0x2D else 0x2B, a, b, c, d] →
      (match sliceBytes text 0 1, sliceBytes text 1 3, sliceBytes text 3 5 with
      | .ok sgn, .ok hrs, .ok min =>
        Except.ok ((w.setErrIf (parseDuration (sgn ++ hrs ++ b!"h" ++ min ++ b!"m")).2).enter (.offset text
          (durationSeconds (parseDuration (sgn ++ hrs ++ b!"h" ++ min ++ b!"m")).1)))
      | _, _, _ => .error Panic.sliceBounds) =
      .ok (w.enter (.offset text ((if neg then -1 else 1) * (3600 * digitsVal [a, b] + 60 * digitsVal [c, d])))) := by
    rintro _ rfl
    have s1 : ∀ s, sliceBytes [s, a, b, c, d] 0 1 = .ok [s] := fun _ => rfl
    have s2 : ∀ s, sliceBytes [s, a, b, c, d] 1 3 = .ok [a, b] := fun _ => rfl
    have s3 : ∀ s, sliceBytes [s, a, b, c, d] 3 5 = .ok [c, d] := fun _ => rfl
    rw [s1, s2, s3]
    have pd := parseDuration_hm (neg := neg) ha hb hc hd
    simp only [List.cons_append, List.nil_append, pd, Walker.setErrIf]
    congr 3
    have tq : ((digitsVal [a, b] : Int) * 3600000000000 + digitsVal [c, d] * 60000000000).tdiv 1000000000 =
        3600 * digitsVal [a, b] + 60 * digitsVal [c, d] := by
      rw [Int.tdiv_eq_ediv_of_nonneg (by omega)]; omega
    cases neg
    · simp only [durationSeconds, Bool.false_eq_true, if_false, Int.one_mul, tq]
    · simp only [durationSeconds, if_true, Int.neg_mul, Int.one_mul, Int.neg_tdiv, tq]
  have hne : a ≠ 0x2B ∧ a ≠ 0x2D := by
    constructor <;> (rintro rfl; revert ha; decide)
  have hpre : (if !(b!"+").isPrefixOf (textList ts) && !(b!"-").isPrefixOf (textList ts) then b!"+" ++ textList ts
      else textList ts) = [if neg then 0x2D else 0x2B, a, b, c, d] := by
    rcases ht with ht | ⟨rfl, ht⟩
    · rw [ht]; cases neg <;> simp
    · rw [ht]; simp [List.isPrefixOf, Ne.symm hne.1, Ne.symm hne.2]
  have := fin _ hpre
  rw [← hpre]
  exact this

/-- `EnterOffset` on the text of a numeric zone. -/
theorem enterOffset_eq {t l ts w} (h : NumericZone t l) (ht : textList ts = utf8 t) :
    enterOffset ts w = .ok (w.enter (.offset l.name l.offset)) := by
  have two : ∀ {x : List Char}, Digits 2 x → ∃ a b, utf8 x = [a, b] ∧ isDigitByte a = true ∧ isDigitByte b = true ∧
      digitsVal [a, b] = num x := by
    rintro x ⟨hx, hx'⟩
    match x, hx with
    | [a, b], _ =>
      obtain ⟨a', ea, da, _⟩ := digitByte_two a (hx' a (by simp))
      obtain ⟨b', eb, db, _⟩ := digitByte_two b (hx' b (by simp))
      have hu : utf8 [a, b] = [a', b'] := by simp [utf8, ea, eb]
      exact ⟨a', b', hu, da, db, by rw [← hu, digitsVal_utf8 hx']⟩
  have hp : encodeRune '+' = [0x2B] := by decide
  have hm : encodeRune '-' = [0x2D] := by decide
  cases h with
  | @plus x y hx hy =>
    obtain ⟨a, b, hxu, ha, hb, hv⟩ := two hx
    obtain ⟨c, d, hyu, hc, hd, hv'⟩ := two hy
    rw [utf8_cons, utf8_append, hxu, hyu, hp] at ht
    rw [enterOffset_bytes (neg := false) ha hb hc hd (.inl ht), utf8_cons, utf8_append, hxu, hyu, hp, hv, hv']
    simp
  | @minus x y hx hy =>
    obtain ⟨a, b, hxu, ha, hb, hv⟩ := two hx
    obtain ⟨c, d, hyu, hc, hd, hv'⟩ := two hy
    rw [utf8_cons, utf8_append, hxu, hyu, hm] at ht
    rw [enterOffset_bytes (neg := true) ha hb hc hd (.inl ht), utf8_cons, utf8_append, hxu, hyu, hm, hv, hv']
    simp
  | @unsigned x y hx hy =>
    obtain ⟨a, b, hxu, ha, hb, hv⟩ := two hx
    obtain ⟨c, d, hyu, hc, hd, hv'⟩ := two hy
    rw [utf8_append, hxu, hyu] at ht
    rw [enterOffset_bytes (neg := false) ha hb hc hd (.inr ⟨rfl, ht⟩), utf8_cons, utf8_append, hxu, hyu, hp, hv, hv']
    simp

theorem means_plus : Means Q env (.t .Plus) (.lit '+') := Means.lit (by decide) (by decide +kernel) (by decide)
theorem means_minus : Means Q env (.t .Minus) (.lit '-') := Means.lit (by decide) (by decide +kernel) (by decide)

theorem means_offsetBody : Means Q env
    (.opt (.t .Plus ‖ .t .Minus) ⬝ .t .Digit ⬝ .t .Digit ⬝ .t .Digit ⬝ .t .Digit)
    (.quiet fun t => ∃ l, NumericZone t l) := by
  refine (((means_plus.alt means_minus).opt).seq (means_digit.seq (means_digit.seq (means_digit.seq means_digit)))).congr
    fun t f => ?_
  constructor
  · rintro ⟨s, _, _, _, hs, ⟨_, _, _, _, ⟨a, rfl, ha, rfl⟩, ⟨_, _, _, _, ⟨b, rfl, hb, rfl⟩, ⟨_, _, _, _, ⟨c, rfl, hc, rfl⟩, ⟨d, rfl, hd, rfl⟩,
      rfl, rfl⟩, rfl, rfl⟩, rfl, rfl⟩, rfl, rfl⟩
    have hx : Digits 2 [a, b] := ⟨rfl, by simp [ha, hb]⟩
    have hy : Digits 2 [c, d] := ⟨rfl, by simp [hc, hd]⟩
    rcases hs with (⟨rfl, rfl⟩ | ⟨rfl, rfl⟩) | ⟨rfl, rfl⟩
    · exact ⟨⟨_, NumericZone.plus (h := [a, b]) (m := [c, d]) hx hy⟩, rfl⟩
    · exact ⟨⟨_, NumericZone.minus (h := [a, b]) (m := [c, d]) hx hy⟩, rfl⟩
    · exact ⟨⟨_, NumericZone.unsigned (h := [a, b]) (m := [c, d]) hx hy⟩, rfl⟩
  · rintro ⟨⟨l, h⟩, rfl⟩
    have dig : ∀ {x y : List Char}, Digits 2 x → Digits 2 y →
        Lang.seq (.char isDigit) (.seq (.char isDigit) (.seq (.char isDigit) (.char isDigit))) (x ++ y) id := by
      rintro x y ⟨hx, hx'⟩ ⟨hy, hy'⟩
      match x, hx, y, hy with
      | [a, b], _, [c, d], _ =>
        exact ⟨[a], id, [b, c, d], id, ⟨a, rfl, hx' a (by simp), rfl⟩, ⟨[b], id, [c, d], id, ⟨b, rfl, hx' b (by simp), rfl⟩,
          ⟨[c], id, [d], id, ⟨c, rfl, hy' c (by simp), rfl⟩, ⟨d, rfl, hy' d (by simp), rfl⟩, rfl, rfl⟩, rfl, rfl⟩, rfl, rfl⟩
    cases h with
    | plus hx hy => exact ⟨['+'], id, _, id, .inl (.inl ⟨rfl, rfl⟩), dig hx hy, rfl, rfl⟩
    | minus hx hy => exact ⟨['-'], id, _, id, .inl (.inr ⟨rfl, rfl⟩), dig hx hy, rfl, rfl⟩
    | unsigned hx hy => exact ⟨[], id, _, id, .inr ⟨rfl, rfl⟩, dig hx hy, rfl, rfl⟩

theorem isDigit_ne {c d : Char} (h : isDigit c = true) (hd : isDigit d = false) : c ≠ d := by
  rintro rfl; rw [h] at hd; exact absurd hd (by decide)

theorem digits_append_inj {x y x' y' : List Char} {n : Nat} (hx : Digits n x) (hx' : Digits n x') (h : x ++ y = x' ++ y') :
    x = x' ∧ y = y' := List.append_inj h (by rw [hx.1, hx'.1])

theorem digits_head {x r s : List Char} {c : Char} {n : Nat} (hx : Digits (n + 1) x) (h : x ++ r = c :: s) : isDigit c = true := by
  obtain ⟨hl, ha⟩ := hx
  cases x with
  | nil => simp at hl
  | cons a x => simp at h; exact h.1 ▸ ha a (by simp)

/-- A numeric zone has one value. -/
theorem numericZone_unique {t l l'} (h : NumericZone t l) (h' : NumericZone t l') : l = l' := by
  generalize ht : t = t' at h'
  cases h with
  | plus hx hy =>
    cases h' with
    | plus hx' hy' =>
      simp only [List.cons.injEq, true_and] at ht
      obtain ⟨rfl, rfl⟩ := digits_append_inj hx hx' ht; rfl
    | minus => simp at ht
    | unsigned hx' hy' => exact absurd (digits_head hx' ht.symm) (by decide)
  | minus hx hy =>
    cases h' with
    | minus hx' hy' =>
      simp only [List.cons.injEq, true_and] at ht
      obtain ⟨rfl, rfl⟩ := digits_append_inj hx hx' ht; rfl
    | plus => simp at ht
    | unsigned hx' hy' => exact absurd (digits_head hx' ht.symm) (by decide)
  | unsigned hx hy =>
    cases h' with
    | plus => exact absurd (digits_head hx ht) (by decide)
    | minus => exact absurd (digits_head hx ht) (by decide)
    | unsigned hx' hy' => obtain ⟨rfl, rfl⟩ := digits_append_inj hx hx' ht; rfl

theorem means_offset : Means Q env Gr.offset (.value NumericZone fun l => deliver (.offset l.name l.offset)) := by
  constructor
  · intro s ts s' hd
    unfold Gr.offset at hd
    cases hd with
    | rule hd =>
      obtain ⟨t, f, h1, ⟨⟨l, h2⟩, rfl⟩, h3, h4⟩ := (means_offsetBody (env := env) (Q := anyK)).sound hd
      exact ⟨t, _, h1, ⟨l, h2, rfl⟩, by rw [textList_node, h3],
        h4.push (r := .offset) rfl rfl trivial (fun w => enterOffset_eq h2 h3)⟩
  · rintro t f ⟨l, h2, rfl⟩ s'
    obtain ⟨ts, hd, h3, h4⟩ := (means_offsetBody (env := env) (Q := anyK)).complete ⟨⟨l, h2⟩, rfl⟩ s'
    exact ⟨_, .rule hd, by rw [textList_node, h3],
        h4.push (r := .offset) rfl rfl trivial (fun w => enterOffset_eq h2 h3)⟩

theorem means_zone : Means Q env Gr.zone
    (.value (fun t l => (∃ f z, Fws f ∧ NumericZone z l ∧ t = f ++ z) ∨
      ∃ h, (lower t, h) ∈ zoneNames ∧ l = ⟨utf8 t, 3600 * h⟩) fun l => deliver (.zone l)) := by
  have body := (means_fws_plain.seq (means_offset (env := env) (Q := plainK))).alt means_obsZone
  refine (Means.push₀ (Q := Q) (r := .zone) (mk := .zone utcLoc) rfl rfl (plainK_of rfl) body (fun _ _ => rfl)).congr
    fun t f => ?_
  constructor
  · rintro ⟨_, ⟨u, _, z, _, ⟨hu, rfl⟩, ⟨l, hl, rfl⟩, rfl, rfl⟩ | ⟨l, hl, rfl⟩, rfl⟩
    · exact ⟨l, .inl ⟨u, z, hu, hl, rfl⟩, rfl⟩
    · exact ⟨l, .inr hl, rfl⟩
  · rintro ⟨l, ⟨u, z, hu, hl, rfl⟩ | hl, rfl⟩
    · exact ⟨_, .inl ⟨u, _, z, _, ⟨hu, rfl⟩, ⟨l, hl, rfl⟩, rfl, rfl⟩, rfl⟩
    · exact ⟨_, .inr ⟨l, hl, rfl⟩, rfl⟩

end Rfc5322
