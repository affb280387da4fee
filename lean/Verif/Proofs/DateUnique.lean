import Verif.Proofs.ApiDate
import Verif.Proofs.Strip

/-!
# A date-time has one reading
-/

namespace Rfc5322

open Spec

/-! ## Letter case -/

theorem lower_lower_char (c : Char) : c.toLower.toLower = c.toLower := by
  by_cases h : c.toNat < 128
  · have key : ∀ n < 128, (Char.ofNat n).toLower.toLower = (Char.ofNat n).toLower := by decide +kernel
    have := key c.toNat h
    rwa [Char.ofNat_toNat] at this
  · rw [toLower_ge (c := c) (by omega), toLower_ge (by omega)]

theorem lower_lower (t : List Char) : lower (lower t) = lower t := by
  simp only [lower, List.map_map]
  congr 1
  funext c
  exact lower_lower_char c

theorem lower_length (t : List Char) : (lower t).length = t.length := by simp [lower]

theorem toLower_digit {c : Char} (h : isDigit c = true) : c.toLower = c := by
  have h1 := isDigit_iff.mp h
  have key : ∀ n < 58, 48 ≤ n → (Char.ofNat n).toLower = Char.ofNat n := by decide +kernel
  have := key c.toNat (by omega) h1.1
  rwa [Char.ofNat_toNat] at this

theorem lower_digits {x : List Char} (h : ∀ c ∈ x, isDigit c = true) : lower x = x := by
  induction x with
  | nil => rfl
  | cons c x ih => rw [lower_cons, toLower_digit (h c (by simp)), ih fun c hc => h c (by simp [hc])]

/-- Characters that are not letters are the only ones in their case class. -/
theorem toLower_eq_of {c d : Char} (hr : ∀ n < 128, (Char.ofNat n).toLower = d → Char.ofNat n = d)
    (hd' : d.toNat < 128) (h : c.toLower = d) : c = d := by
  have h1 : c.toNat < 128 := toLower_ascii (by rw [h]; exact hd')
  have := hr c.toNat h1 (by rw [Char.ofNat_toNat]; exact h)
  rwa [Char.ofNat_toNat] at this

theorem solid_toLower (c : Char) : solid c.toLower = solid c := by
  by_cases h : c.toNat < 128
  · have key : ∀ n < 128, solid (Char.ofNat n).toLower = solid (Char.ofNat n) := by decide +kernel
    have := key c.toNat h
    rwa [Char.ofNat_toNat] at this
  · rw [toLower_ge (by omega)]

theorem isDigit_toLower (c : Char) : isDigit c.toLower = isDigit c := by
  by_cases h : c.toNat < 128
  · have key : ∀ n < 128, isDigit (Char.ofNat n).toLower = isDigit (Char.ofNat n) := by decide +kernel
    have := key c.toNat h
    rwa [Char.ofNat_toNat] at this
  · rw [toLower_ge (by omega)]

theorem solid_of_lower {t : List Char} (h : ∀ c ∈ lower t, solid c = true) : ∀ c ∈ t, solid c = true := by
  intro c hc
  rw [← solid_toLower]
  exact h _ (List.mem_map.mpr ⟨c, hc, rfl⟩)

theorem digit_solid {c : Char} (h : isDigit c = true) : solid c = true := by
  have := isDigit_iff.mp h
  have key : ∀ n < 58, 48 ≤ n → solid (Char.ofNat n) = true := by decide +kernel
  have := key c.toNat (by omega) (by omega)
  rwa [Char.ofNat_toNat] at this

/-! ## The parts of a date-time without comments and white space -/

/-- The parts. -/
structure Parts where
  (dw d mo y h mi s z : List Char)

/-- The text they make up. -/
def Parts.text (p : Parts) : List Char :=
  p.dw ++ (p.d ++ (p.mo ++ (p.y ++ (p.h ++ ':' :: (p.mi ++ (p.s ++ p.z))))))

/-- Their shape. -/
structure Parts.Ok (p : Parts) : Prop where
  dw : p.dw = [] ∨ ∃ n, lower n ∈ dayNames ∧ p.dw = n ++ [',']
  d : Digits12 p.d
  mo : lower p.mo ∈ monthNames
  y : Digits 4 p.y ∨ Digits 2 p.y
  h : Digits12 p.h
  mi : Digits 2 p.mi
  s : p.s = [] ∨ ∃ x, Digits 2 x ∧ p.s = ':' :: x
  z : ∀ r, p.z ≠ ':' :: r

/-- Zones without white space. -/
inductive BareZone : List Char → Location → Prop where
  | none : BareZone [] ⟨b!"UTC", 0⟩
  | numeric {z l} : NumericZone z l → BareZone z l
  | named {t h} : (lower t, h) ∈ zoneNames → BareZone t ⟨utf8 t, 3600 * h⟩

/-- Value of a year of two or four digits. -/
def yearVal (now : Int) (y : List Char) : Nat :=
  if y.length = 4 then num y else if (num y : Int) > now.tmod 100 then 1900 + num y else 2000 + num y

/-- The fields given by the parts. -/
structure Parts.Means (p : Parts) (now : Int) (f : Fields) : Prop where
  d : f.day = num p.d
  mo : Month p.mo f.month
  y : f.year = yearVal now p.y
  h : f.hour = num p.h
  mi : f.min = num p.mi
  s : f.sec = num (p.s.drop 1)
  z : BareZone p.z f.zone

theorem strip_digits {x : List Char} (h : ∀ c ∈ x, isDigit c = true) (r) : strip (x ++ r) = x ++ strip r :=
  strip_solids (fun c hc => digit_solid (h c hc)) r

theorem strip_lower {x : List Char} {ns : List (List Char)} (hn : ns.all (·.all solid) = true) (h : lower x ∈ ns) (r) :
    strip (x ++ r) = x ++ strip r := by
  refine strip_solids (solid_of_lower fun c hc => ?_) r
  rw [List.all_eq_true] at hn
  have := hn _ h
  rw [List.all_eq_true] at this
  exact this c hc

theorem strip_padded {D : List Char → Prop} {t v} (hD : ∀ x, D x → ∀ c ∈ x, isDigit c = true) (h : Padded D t v) :
    ∃ x, D x ∧ v = num x ∧ ∀ r, strip (t ++ r) = x ++ strip r := by
  obtain ⟨a, x, b, ha, hx, hb, rfl, rfl⟩ := h
  refine ⟨x, hx, rfl, fun r => ?_⟩
  rw [List.append_assoc, strip_cfws ha, List.append_assoc, strip_digits (hD x hx), strip_cfws hb]

theorem strip_year {now t v} (h : Year now t v) :
    ∃ x, (Digits 4 x ∨ Digits 2 x) ∧ v = yearVal now x ∧ ∀ r, strip (t ++ r) = x ++ strip r := by
  cases h with
  | four ha hx hb =>
    rename_i a x b
    refine ⟨x, .inl hx, by simp [yearVal, hx.1], fun r => ?_⟩
    rw [List.append_assoc, strip_fws ha, List.append_assoc, strip_digits hx.2, strip_fws hb]
  | two ha hx hb =>
    rename_i a x b
    refine ⟨x, .inr hx, by simp [yearVal, hx.1], fun r => ?_⟩
    rw [List.append_assoc, strip_cfws ha, List.append_assoc, strip_digits hx.2, strip_cfws hb]

theorem strip_month {t m} (h : Month t m) (r) : strip (t ++ r) = t ++ strip r :=
  strip_lower (ns := monthNames) (by decide) (month_iff.mp h).1 r

theorem strip_dow {t} (h : DayOfWeek t) :
    ∃ x, (x = [] ∨ ∃ n, lower n ∈ dayNames ∧ x = n ++ [',']) ∧ (x = [] → t = []) ∧ ∀ r, strip (t ++ r) = x ++ strip r := by
  rcases h with rfl | ⟨a, n, b, ha, hn, hb, rfl⟩
  · exact ⟨[], .inl rfl, fun _ => rfl, fun r => rfl⟩
  · refine ⟨n ++ [','], .inr ⟨n, hn, rfl⟩, by simp, fun r => ?_⟩
    simp only [List.append_assoc]
    rw [strip_cfws ha, strip_lower (ns := dayNames) (by decide) hn, strip_cfws hb]
    rw [strip_solids (x := [',']) (by decide)]

theorem strip_seconds {t v} (h : Seconds t v) :
    ∃ x, (x = [] ∨ ∃ y, Digits 2 y ∧ x = ':' :: y) ∧ v = num (x.drop 1) ∧ ∀ r, strip (t ++ r) = x ++ strip r := by
  cases h with
  | none => exact ⟨[], .inl rfl, rfl, fun r => rfl⟩
  | some h =>
    obtain ⟨x, hx, hv, hs⟩ := strip_padded (D := Digits 2) (fun x hx => hx.2) h
    refine ⟨':' :: x, .inr ⟨x, hx, rfl⟩, hv, fun r => ?_⟩
    rw [List.cons_append, strip_solid (by decide), hs, List.cons_append]

theorem numericZone_solid {z l} (h : NumericZone z l) : ∀ c ∈ z, solid c = true := by
  have key : ∀ {h m : List Char}, Digits 2 h → Digits 2 m → ∀ c ∈ h ++ m, solid c = true := by
    intro h m hh hm c hc
    rcases List.mem_append.mp hc with hc | hc
    · exact digit_solid (hh.2 c hc)
    · exact digit_solid (hm.2 c hc)
  cases h with
  | plus h1 h2 => intro c hc; exact (List.mem_cons.mp hc).elim (fun e => by rw [e]; decide) (key h1 h2 c)
  | minus h1 h2 => intro c hc; exact (List.mem_cons.mp hc).elim (fun e => by rw [e]; decide) (key h1 h2 c)
  | unsigned h1 h2 => exact key h1 h2

theorem zoneNames_mem {t : List Char} {h : Int} (hz : (lower t, h) ∈ zoneNames) : lower t ∈ zoneNames.map Prod.fst :=
  List.mem_map.mpr ⟨_, hz, rfl⟩

theorem strip_zone {t l} (h : Zone t l) : ∃ x, BareZone x l ∧ ∀ r, strip (t ++ r) = x ++ strip r := by
  cases h with
  | none => exact ⟨[], .none, fun r => rfl⟩
  | numeric hf hz =>
    rename_i f z
    refine ⟨z, .numeric hz, fun r => ?_⟩
    rw [List.append_assoc, strip_fws hf, strip_solids (numericZone_solid hz)]
  | named hz => exact ⟨t, .named hz, fun r => strip_lower (by decide) (zoneNames_mem hz) r⟩

theorem digits12_digit {x} (h : Digits12 x) : ∀ c ∈ x, isDigit c = true := (digits12_ok h).1

theorem lower_colon {t r : List Char} (h : t = ':' :: r) : ∃ r', lower t = ':' :: r' := by
  subst h; exact ⟨lower r, rfl⟩

theorem zoneNames_colon : ∀ n ∈ zoneNames.map Prod.fst, ∀ c ∈ n, c ≠ ':' := by decide

theorem bareZone_colon {z l} (h : BareZone z l) : ∀ r, z ≠ ':' :: r := by
  intro r he
  cases h with
  | none => cases he
  | numeric h =>
    cases h with
    | plus => cases he
    | minus => cases he
    | unsigned hh hm =>
      have := digits_head (n := 1) hh he
      exact absurd this (by decide)
  | named h =>
    subst he
    exact zoneNames_colon _ (zoneNames_mem h) ':' (by simp [lower_cons]) rfl

/-- Every reading comes from parts. -/
theorem reading_parts {now t f} (h : DateTime now t f) : ∃ p : Parts, p.Ok ∧ p.Means now f ∧ strip t = p.text := by
  obtain ⟨dw, d, mo, y, hr, mi, s, z, c, hdw, hd, hm, hy, hh, hi, hs, hz, hc, rfl⟩ := h
  obtain ⟨xdw, odw, _, edw⟩ := strip_dow hdw
  obtain ⟨xd, od, vd, ed⟩ := strip_padded (fun x => digits12_digit) hd
  obtain ⟨xy, oy, vy, ey⟩ := strip_year hy
  obtain ⟨xh, oh, vh, eh⟩ := strip_padded (fun x => digits12_digit) hh
  obtain ⟨xi, oi, vi, ei⟩ := strip_padded (fun x hx => hx.2) hi
  obtain ⟨xs, os, vs, es⟩ := strip_seconds hs
  obtain ⟨xz, oz, ez⟩ := strip_zone hz
  refine ⟨⟨xdw, xd, mo, xy, xh, xi, xs, xz⟩, ⟨odw, od, (month_iff.mp hm).1, oy, oh, oi, os, bareZone_colon oz⟩,
    ⟨vd, hm, vy, vh, vi, vs, oz⟩, ?_⟩
  have ec : strip c = [] := by have := strip_cfws hc []; simpa [strip, stripFrom] using this
  rw [edw, ed, strip_month hm, ey, eh, strip_solid (by decide), ei, es, ez, ec, List.append_nil]
  rfl

/-! ## Uniqueness of the parts -/

theorem span_unique {p : Char → Bool} {x x' : List Char} {c c' : Char} {r r' : List Char}
    (hx : ∀ c ∈ x, p c = true) (hx' : ∀ c ∈ x', p c = true) (hc : p c = false) (hc' : p c' = false)
    (h : x ++ c :: r = x' ++ c' :: r') : x = x' ∧ c :: r = c' :: r' := by
  induction x generalizing x' with
  | nil =>
    cases x' with
    | nil => exact ⟨rfl, h⟩
    | cons d x' =>
      injection h with h1 h2
      have := hx' d (by simp)
      rw [← h1, hc] at this; cases this
  | cons d x ih =>
    cases x' with
    | nil =>
      injection h with h1 h2
      have := hx d (by simp)
      rw [h1, hc'] at this; cases this
    | cons e x' =>
      injection h with h1 h2
      obtain ⟨h3, h4⟩ := ih (fun c hc => hx c (by simp [hc])) (fun c hc => hx' c (by simp [hc])) h2
      exact ⟨by rw [h1, h3], h4⟩

/-- Names: three characters, none of them a digit. -/
theorem name3 {t : List Char} {ns : List (List Char)}
    (hn : ns.all (fun n => n.length == 3 && n.all fun c => !isDigit c) = true) (h : lower t ∈ ns) :
    ∃ a b c, t = [a, b, c] ∧ isDigit a = false ∧ isDigit b = false ∧ isDigit c = false := by
  rw [List.all_eq_true] at hn
  have := hn _ h
  simp only [Bool.and_eq_true, beq_iff_eq, lower_length, List.all_eq_true, Bool.not_eq_true'] at this
  obtain ⟨h1, h2⟩ := this
  match t, h1 with
  | [a, b, c], _ =>
    refine ⟨a, b, c, rfl, ?_, ?_, ?_⟩ <;> rw [← isDigit_toLower] <;> apply h2 <;> simp [lower]

theorem digits12_head {x} (h : Digits12 x) : ∃ c r, x = c :: r ∧ isDigit c = true := by
  have := digits12_ok h
  cases x with
  | nil => exact absurd rfl this.2.1
  | cons c r => exact ⟨c, r, rfl, this.1 c (by simp)⟩

theorem Parts.unique {p q : Parts} (hp : p.Ok) (hq : q.Ok) (h : p.text = q.text) : p = q := by
  obtain ⟨dw, d, mo, y, hr, mi, s, z⟩ := p
  obtain ⟨dw', d', mo', y', hr', mi', s', z'⟩ := q
  obtain ⟨odw, od, omo, oy, oh, omi, os, oz⟩ := hp
  obtain ⟨odw', od', omo', oy', oh', omi', os', oz'⟩ := hq
  simp only [Parts.text] at *
  have e1 : dw = dw' ∧ d ++ (mo ++ (y ++ (hr ++ ':' :: (mi ++ (s ++ z))))) =
      d' ++ (mo' ++ (y' ++ (hr' ++ ':' :: (mi' ++ (s' ++ z'))))) := by
    rcases odw with rfl | ⟨n, hn, rfl⟩ <;> rcases odw' with rfl | ⟨n', hn', rfl⟩
    · exact ⟨rfl, h⟩
    · obtain ⟨a, b, c, rfl, ha, _⟩ := name3 (by decide) hn'
      obtain ⟨e, r, rfl, he⟩ := digits12_head od
      injection h with h1
      rw [h1, ha] at he; cases he
    · obtain ⟨a, b, c, rfl, ha, _⟩ := name3 (by decide) hn
      obtain ⟨e, r, rfl, he⟩ := digits12_head od'
      injection h with h1
      rw [← h1, ha] at he; cases he
    · obtain ⟨a, b, c, rfl, _⟩ := name3 (by decide) hn
      obtain ⟨a', b', c', rfl, _⟩ := name3 (by decide) hn'
      exact List.append_inj h rfl
  obtain ⟨rfl, k1⟩ := e1
  clear h
  have e2 : d = d' ∧ mo ++ (y ++ (hr ++ ':' :: (mi ++ (s ++ z)))) = mo' ++ (y' ++ (hr' ++ ':' :: (mi' ++ (s' ++ z')))) := by
    obtain ⟨a, b, c, rfl, ha, _⟩ := name3 (by decide) omo
    obtain ⟨a', b', c', rfl, ha', _⟩ := name3 (by decide) omo'
    exact span_unique (digits12_digit od) (digits12_digit od') ha ha' k1
  obtain ⟨rfl, k2⟩ := e2
  clear k1
  have e3 : mo = mo' ∧ y ++ (hr ++ ':' :: (mi ++ (s ++ z))) = y' ++ (hr' ++ ':' :: (mi' ++ (s' ++ z'))) := by
    obtain ⟨a, b, c, rfl, _⟩ := name3 (by decide) omo
    obtain ⟨a', b', c', rfl, _⟩ := name3 (by decide) omo'
    exact List.append_inj k2 rfl
  obtain ⟨rfl, k3⟩ := e3
  clear k2
  have dy : ∀ c ∈ y, isDigit c = true := by rcases oy with h | h <;> exact h.2
  have dy' : ∀ c ∈ y', isDigit c = true := by rcases oy' with h | h <;> exact h.2
  have e4 : y ++ hr = y' ++ hr' ∧ mi ++ (s ++ z) = mi' ++ (s' ++ z') := by
    rw [← List.append_assoc, ← List.append_assoc y'] at k3
    have := span_unique (p := isDigit) (c := ':') (c' := ':')
      (fun c hc => (List.mem_append.mp hc).elim (dy c) (digits12_digit oh c))
      (fun c hc => (List.mem_append.mp hc).elim (dy' c) (digits12_digit oh' c)) (by decide) (by decide) k3
    exact ⟨this.1, by simpa using this.2⟩
  obtain ⟨h1, k4⟩ := e4
  clear k3
  have e5 : y = y' ∧ hr = hr' := by
    refine List.append_inj h1 ?_
    have := congrArg List.length h1
    simp only [List.length_append] at this
    rcases oy with ⟨a, _⟩ | ⟨a, _⟩ <;> rcases oy' with ⟨a', _⟩ | ⟨a', _⟩ <;> rcases oh with ⟨b, _⟩ | ⟨b, _⟩ <;>
      rcases oh' with ⟨b', _⟩ | ⟨b', _⟩ <;> omega
  obtain ⟨rfl, rfl⟩ := e5
  obtain ⟨rfl, k5⟩ := List.append_inj k4 (by rw [omi.1, omi'.1])
  clear k4
  have e6 : s = s' ∧ z = z' := by
    rcases os with rfl | ⟨x, hx, rfl⟩ <;> rcases os' with rfl | ⟨x', hx', rfl⟩
    · exact ⟨rfl, k5⟩
    · exact absurd k5 (oz _)
    · exact absurd k5.symm (oz' _)
    · exact List.append_inj k5 (by simp [hx.1, hx'.1])
  obtain ⟨rfl, rfl⟩ := e6
  rfl

/-! ## Parts in lower case -/

/-- The parts in lower case. -/
def Parts.low (p : Parts) : Parts := ⟨lower p.dw, lower p.d, lower p.mo, lower p.y, lower p.h, lower p.mi, lower p.s, lower p.z⟩

theorem Parts.low_text (p : Parts) : p.low.text = lower p.text := by
  have : lower [':'] = [':'] := by decide
  simp only [Parts.text, Parts.low, lower_append, lower_cons]
  rfl

theorem Parts.Ok.low {p : Parts} (h : p.Ok) : p.low.Ok where
  dw := by
    rcases h.dw with e | ⟨n, hn, e⟩
    · left; simp [Parts.low, e, lower]
    · right; exact ⟨lower n, by rw [lower_lower]; exact hn, by simp only [Parts.low, e, lower_append]; rfl⟩
  d := by simp only [Parts.low, lower_digits (digits12_digit h.d)]; exact h.d
  mo := by simp only [Parts.low, lower_lower]; exact h.mo
  y := by
    have : ∀ c ∈ p.y, isDigit c = true := by rcases h.y with h | h <;> exact h.2
    simp only [Parts.low, lower_digits this]; exact h.y
  h := by simp only [Parts.low, lower_digits (digits12_digit h.h)]; exact h.h
  mi := by simp only [Parts.low, lower_digits h.mi.2]; exact h.mi
  s := by
    rcases h.s with e | ⟨x, hx, e⟩
    · left; simp [Parts.low, e, lower]
    · right; exact ⟨x, hx, by simp only [Parts.low, e, lower_cons, lower_digits hx.2]; rfl⟩
  z := by
    intro r he
    simp only [Parts.low] at he
    cases hz : p.z with
    | nil => rw [hz] at he; cases he
    | cons c t =>
      rw [hz, lower_cons] at he
      injection he with h1 h2
      have : c = ':' := toLower_eq_of (by decide +kernel) (by decide) h1
      exact h.z t (by rw [hz, this])

theorem zoneNames_fun {n : List Char} {h h' : Int} (hz : (n, h) ∈ zoneNames) (hz' : (n, h') ∈ zoneNames) : h = h' := by
  have key : ∀ x ∈ zoneNames, ∀ y ∈ zoneNames, x.1 = y.1 → x.2 = y.2 := by decide +kernel
  exact key _ hz _ hz' rfl

theorem zoneNames_letters : ∀ n ∈ zoneNames.map Prod.fst, ∃ c r, n = c :: r ∧ isDigit c = false ∧ c ≠ '+' ∧ c ≠ '-' := by
  intro n hn
  rw [zoneNames_map] at hn
  simp only [List.mem_cons, List.not_mem_nil, or_false] at hn
  rcases hn with rfl | rfl | rfl | rfl | rfl | rfl | rfl | rfl | rfl | rfl | rfl <;>
    exact ⟨_, _, rfl, by decide, by decide, by decide⟩

theorem named_not_numeric {t h l} (hz : (lower t, h) ∈ zoneNames) (hn : NumericZone t l) : False := by
  obtain ⟨c, r, e, h1, h2, h3⟩ := zoneNames_letters _ (zoneNames_mem hz)
  cases t with
  | nil => cases e
  | cons a t =>
    rw [lower_cons] at e
    injection e with e1 e2
    generalize ht : a :: t = u at hn
    cases hn with
    | plus => injection ht with ht1; subst ht1; exact h2 (by rw [← e1]; rfl)
    | minus => injection ht with ht1; subst ht1; exact h3 (by rw [← e1]; rfl)
    | unsigned hh hm =>
      have := digits_head (n := 1) hh ht.symm
      rw [← isDigit_toLower, e1, h1] at this
      cases this

theorem numericZone_ne_nil {l} (h : NumericZone [] l) : False := by
  generalize ht : ([] : List Char) = u at h
  cases h with
  | plus => cases ht
  | minus => cases ht
  | unsigned hh hm => have := congrArg List.length ht; simp [hh.1, hm.1] at this

theorem named_ne_nil {h : Int} (hz : (lower [], h) ∈ zoneNames) : False := by
  obtain ⟨c, r, e, _⟩ := zoneNames_letters _ (zoneNames_mem hz); cases e

theorem bareZone_unique {z l l'} (h : BareZone z l) (h' : BareZone z l') : l = l' := by
  cases h with
  | none =>
    cases h' with
    | none => rfl
    | numeric h => exact (numericZone_ne_nil h).elim
    | named h => exact (named_ne_nil h).elim
  | numeric h =>
    cases h' with
    | none => exact (numericZone_ne_nil h).elim
    | numeric h' => exact numericZone_unique h h'
    | named h' => exact (named_not_numeric h' h).elim
  | named h =>
    cases h' with
    | none => exact (named_ne_nil h).elim
    | numeric h' => exact (named_not_numeric h h').elim
    | named h' => rw [zoneNames_fun h h']

theorem Parts.Means.unique {p : Parts} {now f f'} (h : p.Means now f) (h' : p.Means now f') : f = f' := by
  obtain ⟨h1, h2, h3, h4, h5, h6, h7⟩ := h
  obtain ⟨g1, g2, g3, g4, g5, g6, g7⟩ := h'
  cases f; cases f'
  simp only at *
  have := (month_iff.mp h2).2
  have := (month_iff.mp g2).2
  have := bareZone_unique h7 g7
  simp_all

/-- Two date-times with the same text up to comments and white space have the same fields. -/
theorem dateTime_strip_unique {now t t' f f'} (h : DateTime now t f) (h' : DateTime now t' f') (e : strip t = strip t') :
    f = f' := by
  obtain ⟨p, hp, hm, ht⟩ := reading_parts h
  obtain ⟨q, hq, hm', ht'⟩ := reading_parts h'
  have := Parts.unique hp hq (by rw [← ht, ← ht', e])
  subst this
  exact hm.unique hm'

theorem dateTime_unique {now t f f'} (h : DateTime now t f) (h' : DateTime now t f') : f = f' :=
  dateTime_strip_unique h h' rfl

theorem dateTime_ne_nil {now f} (h : DateTime now [] f) : False := by
  obtain ⟨p, hp, _, e⟩ := reading_parts h
  have := congrArg List.length e
  simp [strip, stripFrom, Parts.text] at this

end Rfc5322
