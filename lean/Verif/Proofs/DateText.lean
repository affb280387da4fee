import Verif.Proofs.Bmp

/-!
# Canonical date-time texts are date-times
-/

namespace Rfc5322

open Spec

theorem isDigit_digit (n : Nat) : isDigit (digit n) = true := by
  have key : ∀ k < 10, isDigit (Char.ofNat (48 + k)) = true := by decide
  exact key _ (Nat.mod_lt _ (by decide))

theorem digit_val (n : Nat) : (digit n).toNat - 48 = n % 10 := by
  have key : ∀ k < 10, (Char.ofNat (48 + k)).toNat - 48 = k := by decide
  exact key _ (Nat.mod_lt _ (by decide))

theorem digits_two (n : Nat) : Digits 2 (two n) := ⟨rfl, by simp [two, isDigit_digit]⟩

theorem digits_four (n : Nat) : Digits 4 (four n) := ⟨rfl, by simp [four, two, isDigit_digit]⟩

theorem num_two {n : Nat} (h : n < 100) : num (two n) = n := by
  simp only [num, two, List.foldl, digit_val]; omega

theorem num_four {n : Nat} (h : n < 10000) : num (four n) = n := by
  simp only [num, four, two, List.cons_append, List.nil_append, List.foldl, digit_val]; omega

theorem optCfws_nil : OptCfws [] := ⟨[], [], .nil, .inl rfl, rfl⟩
theorem optCfws_sp : OptCfws c!" " := ⟨[], _, .nil, .inr (.plain (by simp) (by decide)), rfl⟩

theorem padded_two {n : Nat} {a b : List Char} (ha : OptCfws a) (hb : OptCfws b) (h : n < 100) :
    Padded Digits12 (a ++ (two n ++ b)) n := ⟨a, two n, b, ha, .inr (digits_two n), hb, rfl, (num_two h).symm⟩

theorem padded_two' {n : Nat} {a b : List Char} (ha : OptCfws a) (hb : OptCfws b) (h : n < 100) :
    Padded (Digits 2) (a ++ (two n ++ b)) n := ⟨a, two n, b, ha, digits_two n, hb, rfl, (num_two h).symm⟩

theorem month_text {m : Nat} (h1 : 1 ≤ m) (h2 : m ≤ 12) : Month (monthText.getD (m - 1) []) m := by
  have key : ∀ k < 12, monthNames[k]? = some (lower (monthText.getD k [])) := by decide +kernel
  exact ⟨h1, key _ (by omega)⟩

theorem day_text {k : Nat} (h : k < 7) : lower (dayText.getD k []) ∈ dayNames := by
  have key : ∀ k < 7, lower (dayText.getD k []) ∈ dayNames := by decide +kernel
  exact key k h

theorem canonical_dateTime {now : Int} {dow : Option Nat} {d m y h mi : Nat} {s : Option Nat} {z : Option Offset}
    (hdow : ∀ k ∈ dow, k < 7) (hd : d < 100) (h1 : 1 ≤ m) (h2 : m ≤ 12) (hy : y < 10000) (hh : h < 100) (hi : mi < 100)
    (hs : ∀ k ∈ s, k < 100) (hz : ∀ o ∈ z, o.hh < 100 ∧ o.mm < 100) :
    DateTime now (canonical dow d m y h mi s z)
      ⟨d, m, y, h, mi, s.getD 0, (z.map Offset.location).getD ⟨b!"UTC", 0⟩⟩ := by
  have fsp : Fws c!" " := .plain (by simp) (by decide)
  have hdow' : ∃ dw a, DayOfWeek dw ∧ OptCfws a ∧
      dowText dow = dw ++ a := by
    cases dow with
    | none => exact ⟨[], [], .inl rfl, optCfws_nil, rfl⟩
    | some k =>
      refine ⟨dayText.getD k [] ++ [','], c!" ", .inr ⟨[], dayText.getD k [], [], optCfws_nil, day_text (hdow k rfl), optCfws_nil, by simp⟩,
        optCfws_sp, by simp [dowText]⟩
  obtain ⟨dw, a, hdw, ha, edw⟩ := hdow'
  have hs' : ∃ st, Seconds st (s.getD 0) ∧ secText s = st := by
    cases s with
    | none => exact ⟨[], .none, rfl⟩
    | some k =>
      have := padded_two' optCfws_nil optCfws_nil (hs k rfl)
      exact ⟨_, .some this, by simp [secText]⟩
  obtain ⟨st, hst, est⟩ := hs'
  have hz' : ∃ zt, Zone zt ((z.map Offset.location).getD ⟨b!"UTC", 0⟩) ∧ zoneText z = zt := by
    cases z with
    | none => exact ⟨[], .none, rfl⟩
    | some o =>
      obtain ⟨west, hh, mm⟩ := o
      obtain ⟨g1, g2⟩ := hz _ rfl
      refine ⟨' ' :: Offset.text ⟨west, hh, mm⟩, ?_, rfl⟩
      refine Zone.numeric (f := c!" ") fsp ?_
      have e1 : (hh : Int) = num (two hh) := by rw [num_two g1]
      have e2 : (mm : Int) = num (two mm) := by rw [num_two g2]
      cases west with
      | true =>
        simp only [Option.map_some, Option.getD_some, Offset.location, Offset.text, if_true]
        rw [e1, e2]
        exact .minus (digits_two hh) (digits_two mm)
      | false =>
        simp only [Option.map_some, Option.getD_some, Offset.location, Offset.text]
        rw [e1, e2]
        exact .plus (digits_two hh) (digits_two mm)
  obtain ⟨zt, hzt, ezt⟩ := hz'
  have hyear : Year now (c!" " ++ (four y ++ c!" ")) y := by
    have := Year.four (now := now) fsp (digits_four y) fsp
    rwa [num_four hy] at this
  refine ⟨dw, _, _, _, _, _, st, zt, [], hdw, padded_two ha optCfws_sp hd, month_text h1 h2, hyear,
    padded_two optCfws_nil optCfws_nil hh, padded_two' optCfws_nil optCfws_nil hi, hst, hzt, optCfws_nil, ?_⟩
  unfold canonical
  rw [edw, est, ezt]
  simp

theorem dateTime_iff_parts {now t f} : DateTime now t f ↔
    ∃ p z c, UpToSeconds now p f ∧ Zone z f.zone ∧ OptCfws c ∧ t = p ++ (z ++ c) := by
  constructor
  · rintro ⟨dw, d, mo, y, hr, mi, s, z, c, hdw, hd, hm, hy, hh, hi, hs, hz, hc, rfl⟩
    exact ⟨_, z, c, ⟨_, s, ⟨dw, d, mo, y, hr, mi, hdw, hd, hm, hy, hh, hi, rfl⟩, hs, rfl⟩, hz, hc, by simp⟩
  · rintro ⟨p, z, c, ⟨p', s, ⟨dw, d, mo, y, hr, mi, hdw, hd, hm, hy, hh, hi, rfl⟩, hs, rfl⟩, hz, hc, rfl⟩
    exact ⟨dw, d, mo, y, hr, mi, s, z, c, hdw, hd, hm, hy, hh, hi, hs, hz, hc, by simp⟩

theorem dateTime_upTo {now p z c f l} (h : UpToSeconds now p f) (hz : Zone z l) (hc : OptCfws c) :
    DateTime now (p ++ (z ++ c)) { f with zone := l } := dateTime_iff_parts.mpr ⟨p, z, c, h, hz, hc, rfl⟩

/-- The parts of a date-time with anything that does not begin with a colon instead of the zone. -/
theorem upTo_parts {now p f} (h : UpToSeconds now p f) : ∃ q : Parts, q.z = [] ∧
    ∀ z, (∀ r, z ≠ ':' :: r) → Parts.Ok { q with z := z } ∧ ∀ r, strip (p ++ r) = q.text ++ strip r := by
  obtain ⟨_, s, ⟨dw, d, mo, y, hr, mi, hdw, hd, hm, hy, hh, hi, rfl⟩, hs, rfl⟩ := h
  obtain ⟨xdw, odw, _, edw⟩ := strip_dow hdw
  obtain ⟨xd, od, vd, ed⟩ := strip_padded (fun x => digits12_digit) hd
  obtain ⟨xy, oy, vy, ey⟩ := strip_year hy
  obtain ⟨xh, oh, vh, eh⟩ := strip_padded (fun x => digits12_digit) hh
  obtain ⟨xm, om, vm, em⟩ := strip_padded (fun x (h : Digits 2 x) => h.2) hi
  obtain ⟨xs, os, vs, es⟩ := strip_seconds hs
  refine ⟨⟨xdw, xd, mo, xy, xh, xm, xs, []⟩, rfl, fun z hz => ⟨⟨odw, od, (month_iff.mp hm).1, oy, oh, om, os, hz⟩, fun r => ?_⟩⟩
  have ec : ∀ r, strip (':' :: r) = ':' :: strip r := fun r => strip_solid (by decide) r
  simp only [List.append_assoc, List.cons_append, Parts.text, edw, ed, strip_month hm, ey, eh, ec, em, es, List.append_nil]

/-- A zone is needed after the seconds if anything is written there. -/
theorem zone_needed {now p f z c g} (h : UpToSeconds now p f) (hsol : ∀ c ∈ z, solid c = true) (hcol : ∀ r, z ≠ ':' :: r)
    (hc : OptCfws c) (hd : DateTime now (p ++ (z ++ c)) g) : BareZone z g.zone := by
  obtain ⟨q, hq, hq'⟩ := upTo_parts h
  obtain ⟨ok, hs⟩ := hq' z hcol
  obtain ⟨q', ok', hm, e⟩ := reading_parts hd
  have : strip c = [] := by have := strip_cfws hc []; simpa [strip, stripFrom] using this
  rw [hs, strip_solids hsol, this] at e
  have := Parts.unique ok ok' (by
    rw [← e]; obtain ⟨a1, a2, a3, a4, a5, a6, a7, a8⟩ := q; simp only at hq; subst hq; simp [Parts.text])
  rw [← this] at hm
  exact hm.z

theorem digits_two_of {t : List Char} (h : Digits 2 t) : ∃ n < 100, t = two n ∧ num t = n := by
  obtain ⟨a, b, rfl⟩ : ∃ a b, t = [a, b] := by
    match t, h.1 with
    | [a, b], _ => exact ⟨a, b, rfl⟩
  have ha := isDigit_iff.mp (h.2 a (by simp))
  have hb := isDigit_iff.mp (h.2 b (by simp))
  have ea : Char.ofNat (a.toNat) = a := Char.ofNat_toNat a
  have eb : Char.ofNat (b.toNat) = b := Char.ofNat_toNat b
  refine ⟨10 * (a.toNat - 48) + (b.toNat - 48), by omega, ?_, by simp [num]⟩
  simp only [two, digit, List.cons.injEq, and_true]
  constructor
  · rw [← ea]; congr 1; simp only [Char.ofNat_toNat]; omega
  · rw [← eb]; congr 1; simp only [Char.ofNat_toNat]; omega

theorem dow_bmp (env : Env) (rest : List Char) {dw : List Char} (h : DayOfWeek dw) :
    dropAstral (dw ++ rest) = dw ++ dropAstral rest := by
  rw [dropAstral_append]
  congr 1
  have x : DateTime env.nowYear _ _ := canonical_dateTime (dow := none) (d := 1) (m := 1) (y := 1) (h := 1) (mi := 1)
    (s := none) (z := none) (by simp) (by decide) (by decide) (by decide) (by decide) (by decide) (by decide) (by simp) (by simp)
  obtain ⟨dw0, d, mo, y, hr, mi, s, z, c, hdw, hd, hm, hy, hh, hi, hs, hz, hc, e⟩ := x
  have this := dateTime_bmp (⟨dw, d, mo, y, hr, mi, s, z, c, h, hd, hm, hy, hh, hi, hs, hz, hc, rfl⟩ : DateTime env.nowYear _ _)
  exact dropAstral_of fun c hc => this c (List.mem_append_left _ hc)

/-- What follows the day of the week is a date-time that begins with a digit. -/
theorem dow_iff {now : Int} {dw r : List Char} {f : Fields} (h : DayOfWeek dw) (hne : dw ≠ []) :
    DateTime now (dw ++ r) f ↔ DateTime now r f ∧ ∃ c s, skip r = c :: s ∧ isDigit c = true := by
  constructor
  · rintro ⟨dw0, d, mo, y, hr, mi, s, z, c, hdw, hd, hm, hy, hh, hi, hs, hz, hc, e⟩
    have hne0 : dw0 ≠ [] := by
      rintro rfl
      obtain ⟨a, n, b, ha, hn, hb, rfl⟩ := dow_ne_nil h hne
      obtain ⟨a', x, b', ha', hx, hb', rfl, _⟩ := hd
      have t1 : ∀ c ∈ n, solid c = true := solid_of_lower fun c hc => by
        have key : ∀ n ∈ dayNames, ∀ c ∈ n, solid c = true := by decide
        exact key _ hn c hc
      obtain ⟨p, q, w, rfl, hp, _⟩ := name3 (by decide) hn
      obtain ⟨c0, r0, rfl, hc0⟩ := digits12_head hx
      simp only [List.append_assoc, List.cons_append, List.nil_append] at e
      obtain ⟨_, e1, _⟩ := cfws_split ha ha' (t1 p (by simp)) (digit_solid hc0) e
      rw [e1, hc0] at hp; cases hp
    obtain ⟨_, rfl⟩ := dow_split h hdw hne hne0 e
    refine ⟨⟨[], d, mo, y, hr, mi, s, z, c, .inl rfl, hd, hm, hy, hh, hi, hs, hz, hc, rfl⟩, ?_⟩
    obtain ⟨a', x, b', ha', hx, hb', rfl, _⟩ := hd
    obtain ⟨c0, r0, rfl, hc0⟩ := digits12_head hx
    simp only [List.append_assoc, List.cons_append]
    rw [skip_cfws ha', skip_solid (digit_solid hc0)]
    exact ⟨c0, _, rfl, hc0⟩
  · rintro ⟨⟨dw0, d, mo, y, hr, mi, s, z, c, hdw, hd, hm, hy, hh, hi, hs, hz, hc, rfl⟩, c0, s0, hs0, hc0⟩
    have hnil : dw0 = [] := by
      apply Classical.byContradiction
      intro hne0
      obtain ⟨a, n, b, ha, hn, hb, rfl⟩ := dow_ne_nil hdw hne0
      have t1 : ∀ c ∈ n, solid c = true := solid_of_lower fun c hc => by
        have key : ∀ n ∈ dayNames, ∀ c ∈ n, solid c = true := by decide
        exact key _ hn c hc
      obtain ⟨p, q, w, rfl, hp, _⟩ := name3 (by decide) hn
      simp only [List.append_assoc, List.cons_append, List.nil_append] at hs0
      rw [skip_cfws ha, skip_solid (t1 p (by simp))] at hs0
      injection hs0 with e1 _
      rw [e1, hc0] at hp; cases hp
    subst hnil
    exact ⟨dw, d, mo, y, hr, mi, s, z, c, h, hd, hm, hy, hh, hi, hs, hz, hc, rfl⟩

theorem alpha_solid {c : Char} (h : c.isAlpha = true) : solid c = true ∧ c ≠ ':' ∧ isDigit c = false ∧ c ≠ '+' ∧ c ≠ '-' := by
  have hlt : c.toNat < 128 := by
    simp only [Char.isAlpha, Char.isUpper, Char.isLower, Bool.or_eq_true, Bool.and_eq_true, decide_eq_true_eq] at h
    rcases h with h | h
    · have := h.2; simp only [GE.ge, UInt32.le_iff_toNat_le] at this; exact Nat.lt_of_le_of_lt this (by decide)
    · have := h.2; simp only [GE.ge, UInt32.le_iff_toNat_le] at this; exact Nat.lt_of_le_of_lt this (by decide)
  have key : ∀ n < 128, (Char.ofNat n).isAlpha = true → solid (Char.ofNat n) = true ∧ Char.ofNat n ≠ ':' ∧
      isDigit (Char.ofNat n) = false ∧ Char.ofNat n ≠ '+' ∧ Char.ofNat n ≠ '-' := by decide +kernel
  have := key c.toNat hlt
  rw [Char.ofNat_toNat] at this
  exact this h

theorem bmp_toLower (c : Char) : bmp c.toLower = bmp c := by
  by_cases h : c.toNat < 128
  · have key : ∀ n < 128, bmp (Char.ofNat n).toLower = bmp (Char.ofNat n) := by decide +kernel
    have := key c.toNat h
    rwa [Char.ofNat_toNat] at this
  · rw [toLower_ge (by omega)]

theorem lower_dropAstral (t : List Char) : lower (dropAstral t) = dropAstral (lower t) := by
  induction t with
  | nil => rfl
  | cons c t ih =>
    rw [lower_cons]
    simp only [dropAstral, List.filter_cons, bmp_toLower] at ih ⊢
    split
    · rw [lower_cons, ih]
    · exact ih

theorem dropAstral_lower {t u : List Char} (h : lower u = lower t) : lower (dropAstral u) = lower (dropAstral t) := by
  rw [lower_dropAstral, h, lower_dropAstral]

end Rfc5322
