import Verif.Proofs.DateText

/-!
# C29–C39: `ParseDateTime`

`Spec.DateTime now t f` says that the text `t` is a date-time in which the fields `f` are written (`now` is the current
year, needed for two-digit years); `Fields.time` is the instant and zone they denote, by naive counting of days.
-/

namespace Rfc5322.Props

open Spec

/-! ## C29: the result is a function of the fields written, and there is only one reading -/

theorem C29_one_reading {now : Int} {t : List Char} {f f' : Fields} (h : DateTime now t f) (h' : DateTime now t f') :
    f = f' := dateTime_unique h h'

theorem C29_result_is_the_reading {P : Predictor} {env : Env} {input : Bytes} {text : List Char} {f : Fields}
    (hr : ReadsAs input text) (h : DateTime env.nowYear (dropAstral text) f) :
    parseDateTime P env input = .ok (f.time, none) :=
  parseDateTime_reading (by rw [tokens_reads hr]; exact h)

theorem C29_success_has_a_reading {P : Predictor} {env : Env} {input : Bytes} {text : List Char} {time : GoTime}
    (hne : input ≠ []) (hr : ReadsAs input text) (h : parseDateTime P env input = .ok (time, none)) :
    ∃ f, DateTime env.nowYear (dropAstral text) f ∧ time = f.time := by
  obtain ⟨f, hf, e⟩ := parseDateTime_ok hne h
  exact ⟨f, by rwa [← tokens_reads hr], e⟩

example (P : Predictor) : parseDateTime P env0 (encode c!"Mon,(c) 2\t(a(b))Jan 06 5:04 :07 EST") =
    .ok (⟨1136196247, ⟨b!"EST", -18000⟩⟩, none) := by eval_date

/-! ## C30, C37, C39: canonical texts, out-of-range fields, calendar arithmetic -/

theorem C30_canonical_dates_round_trip (P : Predictor) (env : Env) {dow : Option Nat} {d m y h mi : Nat} {s : Option Nat}
    {z : Option Offset} (hdow : ∀ k ∈ dow, k < 7) (hd : d < 100) (hm : 1 ≤ m ∧ m ≤ 12) (hy : y < 10000) (hh : h < 100)
    (hi : mi < 100) (hs : ∀ k ∈ s, k < 100) (hz : ∀ o ∈ z, o.hh < 100 ∧ o.mm < 100) :
    parseDateTime P env (encode (canonical dow d m y h mi s z)) =
      .ok (Fields.time ⟨d, m, y, h, mi, s.getD 0, (z.map Offset.location).getD ⟨b!"UTC", 0⟩⟩, none) :=
  parseDateTime_encode (canonical_dateTime hdow hd hm.1 hm.2 hy hh hi hs hz)

example : canonical (some 0) 2 1 2006 15 4 (some 5) (some ⟨true, 7, 0⟩) = c!"Mon, 02 Jan 2006 15:04:05 -0700" := by decide
example : canonical none 2 1 2006 15 4 none none = c!"02 Jan 2006 15:04" := by decide
example (P : Predictor) : parseDateTime P env0 (encode c!"Mon, 02 Jan 2006 15:04:05 -0700") =
    .ok (⟨1136239445, ⟨b!"-0700", -25200⟩⟩, none) := by eval_date

/-- Day, hour, minute and second are never checked: a day beyond the end of the month, an hour beyond 23, a minute or
second beyond 59 count on into the next unit, and a day or the like of 0 counts back. -/
theorem C37_out_of_range_fields_count_on (P : Predictor) (env : Env) {d m y h mi s : Nat} (hd : d < 100)
    (hm : 1 ≤ m ∧ m ≤ 12) (hy : y < 10000) (hh : h < 100) (hi : mi < 100) (hs : s < 100) :
    ∃ midnight : Int,
      parseDateTime P env (encode (canonical none 1 m y 0 0 (some 0) none)) = .ok (⟨midnight, ⟨b!"UTC", 0⟩⟩, none) ∧
      parseDateTime P env (encode (canonical none d m y h mi (some s) none)) =
        .ok (⟨midnight + 86400 * ((d : Int) - 1) + 3600 * h + 60 * mi + s, ⟨b!"UTC", 0⟩⟩, none) := by
  refine ⟨86400 * monthStart y m, ?_, ?_⟩
  · rw [C30_canonical_dates_round_trip P env (by simp) (by decide) hm hy (by decide) (by decide) (by simp) (by simp)]
    simp [Fields.time]
  · rw [C30_canonical_dates_round_trip P env (by simp) hd hm hy hh hi (by simpa using hs) (by simp)]
    simp only [Fields.time, Option.getD_some, Option.map_none, Option.getD_none, Except.ok.injEq, Prod.mk.injEq, and_true,
      GoTime.mk.injEq]
    omega

/-- 31 February 2021 25:61:61 is 4 March 2021 02:02:01. -/
example (P : Predictor) : parseDateTime P env0 (encode c!"31 Feb 2021 25:61:61") =
    parseDateTime P env0 (encode c!"04 Mar 2021 02:02:01") := by
  rw [evalDate_eq, evalDate_eq]; decide +kernel

/-- The instant of a canonical date, from the Gregorian rules: days since 1970-01-01 counted year by year and month by
month, plus the time of day, minus the offset of the zone. -/
theorem C39_calendar_arithmetic (P : Predictor) (env : Env) {d m y h mi s : Nat} {o : Offset} (hd : d < 100)
    (hm : 1 ≤ m ∧ m ≤ 12) (hy : y < 10000) (hh : h < 100) (hi : mi < 100) (hs : s < 100) (ho : o.hh < 100 ∧ o.mm < 100) :
    parseDateTime P env (encode (canonical none d m y h mi (some s) (some o))) =
      .ok (⟨86400 * ((daysToYear y : Int) - daysToYear 1970 + daysToMonthEnd y (m - 1) + d - 1) + 3600 * h + 60 * mi + s -
        (if o.west then -1 else 1) * (3600 * o.hh + 60 * o.mm), ⟨utf8 o.text,
        (if o.west then -1 else 1) * (3600 * o.hh + 60 * o.mm)⟩⟩, none) := by
  rw [C30_canonical_dates_round_trip P env (by simp) hd hm hy hh hi (by simpa using hs) (by simpa using ho)]
  simp only [Fields.time, monthStart, Option.getD_some, Option.map_some, Offset.location]
  cases o.west <;> simp only [if_true, Bool.false_eq_true, if_false, Except.ok.injEq, Prod.mk.injEq, and_true, GoTime.mk.injEq,
    Location.mk.injEq, true_and] <;> omega

/-- Months follow each other, and January follows December: the counting used above. -/
theorem C39_counting (y m : Nat) (hm : 1 ≤ m) :
    monthStart y (m + 1) = monthStart y m + monthLength y m ∧ monthStart (y + 1) 1 = monthStart y 12 + 31 ∧
    monthStart 1970 1 = 0 := by
  refine ⟨?_, ?_, by simp [monthStart, daysToMonthEnd]⟩
  · obtain ⟨k, rfl⟩ : ∃ k, m = k + 1 := ⟨m - 1, by omega⟩
    simp only [monthStart, Nat.add_sub_cancel, daysToMonthEnd]
    omega
  · have e : daysToYear (y + 1) = daysToYear y + yearLength y := rfl
    simp only [monthStart, e, Nat.sub_self, daysToMonthEnd, yearLength, monthLength]
    generalize daysToYear y = a
    generalize daysToYear 1970 = b
    cases leap y <;> simp <;> omega

/-- The instant of any accepted text, in whatever of the accepted forms it is written. -/
theorem C39_any_date {P : Predictor} {env : Env} {input : Bytes} {text : List Char} {time : GoTime} (hne : input ≠ [])
    (hr : ReadsAs input text) (h : parseDateTime P env input = .ok (time, none)) :
    ∃ f : Fields, DateTime env.nowYear (dropAstral text) f ∧ time.loc = f.zone ∧
      time.unix = 86400 * ((daysToYear f.year : Int) - daysToYear 1970 + daysToMonthEnd f.year (f.month - 1) + f.day - 1) +
        3600 * f.hour + 60 * f.min + f.sec - f.zone.offset := by
  obtain ⟨f, hf, rfl⟩ := C29_success_has_a_reading hne hr h
  refine ⟨f, hf, rfl, ?_⟩
  simp only [Fields.time, monthStart]
  omega

example (P : Predictor) : parseDateTime P env0 (encode c!"29 Feb 2000 00:00:00 +0000") =
    .ok (⟨951782400, ⟨b!"+0000", 0⟩⟩, none) := by eval_date

/-! ## C31: the day of the week is ignored -/

/-- Replacing the day of the week by any other one, right or wrong, changes nothing, not even an error. -/
theorem C31_any_day_name (P : Predictor) (env : Env) {dw dw' rest : List Char} (h : DayOfWeek dw) (h' : DayOfWeek dw')
    (hne : dw ≠ []) (hne' : dw' ≠ []) :
    parseDateTime P env (encode (dw ++ rest)) = parseDateTime P env (encode (dw' ++ rest)) := by
  have n1 : encode (dw ++ rest) ≠ [] := encode_ne_nil (by simp [hne])
  have n2 : encode (dw' ++ rest) ≠ [] := encode_ne_nil (by simp [hne'])
  rcases parseDateTime_spec P env n1 with ⟨f, hf, e⟩ | ⟨hn, e⟩
  · rw [e]
    rw [tokens_encode, dow_bmp env _ h] at hf
    symm
    refine parseDateTime_reading ?_
    rw [tokens_encode, dow_bmp env _ h']
    exact (dow_iff h' hne').mpr ((dow_iff h hne).mp hf)
  · rw [e]
    symm
    refine parseDateTime_reject n2 fun f hf => hn f ?_
    rw [tokens_encode, dow_bmp env _ h'] at hf
    rw [tokens_encode, dow_bmp env _ h]
    exact (dow_iff h hne).mpr ((dow_iff h' hne').mp hf)

/-- Removing the day of the week from an accepted date-time changes nothing. -/
theorem C31_day_name_removed (P : Predictor) (env : Env) {dw rest : List Char} {time : GoTime} (h : DayOfWeek dw)
    (hne : dw ≠ []) (hok : parseDateTime P env (encode (dw ++ rest)) = .ok (time, none)) :
    parseDateTime P env (encode rest) = .ok (time, none) := by
  obtain ⟨f, hf, rfl⟩ := parseDateTime_ok (encode_ne_nil (by simp [hne])) hok
  rw [tokens_encode, dow_bmp env _ h] at hf
  refine parseDateTime_reading ?_
  rw [tokens_encode]
  exact ((dow_iff h hne).mp hf).1

/-- Writing a day of the week in front of a text that begins with a digit changes nothing, not even an error. -/
theorem C31_day_name_added (P : Predictor) (env : Env) {dw rest : List Char} {c : Char} (h : DayOfWeek dw)
    (hd : (skip (dropAstral rest)).head? = some c) (hc : isDigit c = true) :
    parseDateTime P env (encode (dw ++ rest)) = parseDateTime P env (encode rest) := by
  by_cases hne : dw = []
  · rw [hne]; rfl
  have hr : rest ≠ [] := by rintro rfl; cases hd
  have hd' : ∃ c s, skip (dropAstral rest) = c :: s ∧ isDigit c = true := by
    cases hs : skip (dropAstral rest) with
    | nil => rw [hs] at hd; cases hd
    | cons a s => rw [hs] at hd; cases hd; exact ⟨_, _, rfl, hc⟩
  rcases parseDateTime_spec P env (encode_ne_nil hr) with ⟨f, hf, e⟩ | ⟨hn, e⟩
  · rw [e]
    rw [tokens_encode] at hf
    refine parseDateTime_reading ?_
    rw [tokens_encode, dow_bmp env _ h]
    exact (dow_iff h hne).mpr ⟨hf, hd'⟩
  · rw [e]
    refine parseDateTime_reject (encode_ne_nil (by simp [hr])) fun f hf => hn f ?_
    rw [tokens_encode, dow_bmp env _ h] at hf
    rw [tokens_encode]
    exact ((dow_iff h hne).mp hf).1

example : DayOfWeek c!" (first) mON ," ∧ DayOfWeek c!"Tue," := by
  refine ⟨.inr ⟨c!" (first) ", c!"mON", c!" ", ?_, by decide, optCfws_sp, rfl⟩, .inr ⟨[], c!"Tue", [], optCfws_nil, by decide, optCfws_nil, rfl⟩⟩
  refine ⟨c!" (first)", c!" ", ?_, .inr (.plain (by simp) (by decide)), rfl⟩
  refine .cons (f := c!" ") (t := c!"(first)") (r := []) (.inr (.plain (by simp) (by decide))) ⟨c!"first", [], ?_, .inl rfl, rfl⟩ .nil
  exact .char (f := []) (.inl rfl) (by decide) (.char (f := []) (.inl rfl) (by decide) (.char (f := []) (.inl rfl) (by decide)
    (.char (f := []) (.inl rfl) (by decide) (.char (f := []) (.inl rfl) (by decide) .nil))))

example (P : Predictor) : parseDateTime P env0 (encode c!" (first) mON ,2 Jan 2006 15:04") =
    .ok (⟨1136214240, ⟨b!"UTC", 0⟩⟩, none) := by eval_date

example (P : Predictor) : parseDateTime P env0 (encode c!"2 Jan 2006 15:04") =
    .ok (⟨1136214240, ⟨b!"UTC", 0⟩⟩, none) := by eval_date

/-! ## C32–C36: seconds, zones, years, names

`UpToMinutes now t f` says that `t` is the beginning of a date-time up to and including the minutes, `UpToSeconds now t f`
up to and including the seconds if there are any. -/

/-- Missing seconds are 0: writing `:00` there changes nothing. -/
theorem C32_seconds_default (P : Predictor) (env : Env) {p z c : List Char} {f : Fields}
    (hp : UpToMinutes env.nowYear p f) (hz : Zone z f.zone) (hc : OptCfws c) :
    parseDateTime P env (encode (p ++ (z ++ c))) = .ok (Fields.time { f with sec := 0 }, none) ∧
    parseDateTime P env (encode (p ++ (c!":00" ++ (z ++ c)))) = .ok (Fields.time { f with sec := 0 }, none) := by
  refine ⟨parseDateTime_encode (dateTime_iff_parts.mpr ⟨p, z, c, ⟨p, [], hp, .none, by simp⟩, hz, hc, rfl⟩), ?_⟩
  have : Seconds c!":00" 0 := .some (padded_two' optCfws_nil optCfws_nil (n := 0) (by decide))
  exact parseDateTime_encode (dateTime_iff_parts.mpr ⟨p ++ c!":00", z, c, ⟨p, _, hp, this, rfl⟩, hz, hc, by simp⟩)

/-- A missing zone is UTC: writing `UTC` there changes nothing. -/
theorem C32_zone_default (P : Predictor) (env : Env) {p c : List Char} {f : Fields}
    (hp : UpToSeconds env.nowYear p f) (hc : OptCfws c) :
    parseDateTime P env (encode (p ++ c)) = .ok (Fields.time { f with zone := ⟨b!"UTC", 0⟩ }, none) ∧
    parseDateTime P env (encode (p ++ (c!"UTC" ++ c))) = .ok (Fields.time { f with zone := ⟨b!"UTC", 0⟩ }, none) := by
  refine ⟨parseDateTime_encode (dateTime_upTo hp (z := []) .none hc), ?_⟩
  have : Zone c!"UTC" ⟨b!"UTC", 0⟩ := .named (h := 0) (by decide)
  exact parseDateTime_encode (dateTime_upTo hp this hc)

/-- `2 Jan 2006 15:04` meets the hypotheses. -/
theorem upTo_witness (now : Int) : UpToMinutes now c!"2 Jan 2006 15:04" ⟨2, 1, 2006, 15, 4, 9, ⟨b!"EST", -18000⟩⟩ := by
  have d1 : Padded Digits12 c!"2 " 2 := ⟨[], c!"2", c!" ", optCfws_nil, .inl ⟨rfl, by decide⟩, optCfws_sp, rfl, rfl⟩
  have d2 : Padded Digits12 c!"15" 15 := padded_two (n := 15) optCfws_nil optCfws_nil (by decide)
  have d3 : Padded (Digits 2) c!"04" 4 := padded_two' (n := 4) optCfws_nil optCfws_nil (by decide)
  have d4 : Year now c!" 2006 " 2006 := .four (a := c!" ") (x := c!"2006") (b := c!" ") (.plain (by simp) (by decide))
    ⟨rfl, by decide⟩ (.plain (by simp) (by decide))
  exact ⟨[], _, c!"Jan", _, _, _, .inl rfl, d1, ⟨by decide, by decide⟩, d4, d2, d3, rfl⟩

theorem upTo_witness' (now : Int) : UpToSeconds now c!"2 Jan 2006 15:04" ⟨2, 1, 2006, 15, 4, 0, ⟨b!"EST", -18000⟩⟩ :=
  ⟨_, [], upTo_witness now, .none, rfl⟩

example (P : Predictor) : parseDateTime P env0 (encode c!"2 Jan 2006 15:04(c)") =
    .ok (⟨1136214240, ⟨b!"UTC", 0⟩⟩, none) := by eval_date
example (P : Predictor) : parseDateTime P env0 (encode c!"2 Jan 2006 15:04:00UTC(c)") =
    .ok (⟨1136214240, ⟨b!"UTC", 0⟩⟩, none) := by eval_date

/-- A two-digit year `x` after the current year modulo 100 is in the 1900s, any other in the 2000s. -/
theorem C33_two_digit_years (P : Predictor) (env : Env) {dw d mo a x b h mi s z c : List Char} {f : Fields}
    (hdw : DayOfWeek dw) (hd : Padded Digits12 d f.day) (hm : Month mo f.month) (ha : OptCfws a) (hx : Digits 2 x)
    (hb : OptCfws b) (hh : Padded Digits12 h f.hour) (hi : Padded (Digits 2) mi f.min) (hs : Seconds s f.sec)
    (hz : Zone z f.zone) (hc : OptCfws c) :
    parseDateTime P env (encode (dw ++ (d ++ (mo ++ ((a ++ (x ++ b)) ++ (h ++ ':' :: (mi ++ (s ++ (z ++ c))))))))) =
      .ok (Fields.time { f with year := if (num x : Int) > env.nowYear.tmod 100 then 1900 + num x else 2000 + num x }, none) :=
  parseDateTime_encode ⟨dw, d, mo, _, h, mi, s, z, c, hdw, hd, hm, .two ha hx hb, hh, hi, hs, hz, hc, rfl⟩

/-- A four-digit year is taken as it is, whatever the clock says. -/
theorem C33_four_digit_years (P : Predictor) (env : Env) {dw d mo a x b h mi s z c : List Char} {f : Fields}
    (hdw : DayOfWeek dw) (hd : Padded Digits12 d f.day) (hm : Month mo f.month) (ha : Fws a) (hx : Digits 4 x)
    (hb : Fws b) (hh : Padded Digits12 h f.hour) (hi : Padded (Digits 2) mi f.min) (hs : Seconds s f.sec)
    (hz : Zone z f.zone) (hc : OptCfws c) :
    parseDateTime P env (encode (dw ++ (d ++ (mo ++ ((a ++ (x ++ b)) ++ (h ++ ':' :: (mi ++ (s ++ (z ++ c))))))))) =
      .ok (Fields.time { f with year := num x }, none) :=
  parseDateTime_encode ⟨dw, d, mo, _, h, mi, s, z, c, hdw, hd, hm, .four ha hx hb, hh, hi, hs, hz, hc, rfl⟩

/-- Whether a text is accepted never depends on the clock, and the instants for two clocks with the same year modulo 100
are the same. -/
theorem C33_only_the_year_modulo_100 (P : Predictor) (env env' : Env) (input : Bytes)
    (h : env.nowYear.tmod 100 = env'.nowYear.tmod 100) : parseDateTime P env input = parseDateTime P env' input := by
  by_cases hne : input = []
  · subst hne; rfl
  have key : ∀ {now now' : Int} {t f}, now.tmod 100 = now'.tmod 100 → DateTime now t f → DateTime now' t f := by
    rintro now now' t f hn ⟨dw, d, mo, y, hr, mi, s, z, c, hdw, hd, hm, hy, hh, hi, hs, hz, hc, rfl⟩
    refine ⟨dw, d, mo, y, hr, mi, s, z, c, hdw, hd, hm, ?_, hh, hi, hs, hz, hc, rfl⟩
    generalize f.year = v at hy
    cases hy with
    | four a b c => exact .four a b c
    | two a b c => rw [hn]; exact .two a b c
  rcases parseDateTime_spec P env hne with ⟨f, hf, e⟩ | ⟨hn, e⟩
  · rw [e, parseDateTime_reading (key h hf)]
  · rw [e, parseDateTime_reject hne fun f hf => hn f (key h.symm hf)]

example (P : Predictor) : parseDateTime P env0 (encode c!"2 Jan 24 00:00") = .ok (⟨1704153600, ⟨b!"UTC", 0⟩⟩, none) := by eval_date
example (P : Predictor) : parseDateTime P env0 (encode c!"2 Jan 25 00:00") =
    .ok (⟨-1419984000, ⟨b!"UTC", 0⟩⟩, none) := by eval_date

/-- Every offset of four digits is accepted; the name of the zone is the text, with `+` if there is no sign. -/
theorem C34_numeric_zones (P : Predictor) (env : Env) {p w c : List Char} {f : Fields} {hh mm : Nat}
    (hp : UpToSeconds env.nowYear p f) (hw : Fws w) (h1 : hh < 100) (h2 : mm < 100) (hc : OptCfws c) :
    parseDateTime P env (encode (p ++ (w ++ '+' :: (two hh ++ two mm) ++ c))) =
      .ok (Fields.time { f with zone := ⟨encode ('+' :: (two hh ++ two mm)), 3600 * hh + 60 * mm⟩ }, none) ∧
    parseDateTime P env (encode (p ++ (w ++ '-' :: (two hh ++ two mm) ++ c))) =
      .ok (Fields.time { f with zone := ⟨encode ('-' :: (two hh ++ two mm)), -(3600 * hh + 60 * mm)⟩ }, none) ∧
    parseDateTime P env (encode (p ++ (w ++ (two hh ++ two mm) ++ c))) =
      .ok (Fields.time { f with zone := ⟨encode ('+' :: (two hh ++ two mm)), 3600 * hh + 60 * mm⟩ }, none) := by
  have e1 : (hh : Int) = num (two hh) := by rw [num_two h1]
  have e2 : (mm : Int) = num (two mm) := by rw [num_two h2]
  rw [e1, e2, encode_eq ('+' :: _), encode_eq ('-' :: _)]
  exact ⟨parseDateTime_encode (dateTime_upTo hp (.numeric hw (.plus (digits_two hh) (digits_two mm))) hc),
    parseDateTime_encode (dateTime_upTo hp (.numeric hw (.minus (digits_two hh) (digits_two mm))) hc),
    parseDateTime_encode (dateTime_upTo hp (.numeric hw (.unsigned (digits_two hh) (digits_two mm))) hc)⟩

example (P : Predictor) : parseDateTime P env0 (encode c!"2 Jan 2006 15:04 9999") =
    .ok (⟨1135851900, ⟨b!"+9999", 362340⟩⟩, none) := by eval_date

/-- The named zones. -/
theorem C35_named_zones (P : Predictor) (env : Env) {p t c : List Char} {f : Fields} {hours : Int}
    (hp : UpToSeconds env.nowYear p f) (ht : (lower t, hours) ∈ zoneNames) (hc : OptCfws c) :
    parseDateTime P env (encode (p ++ (t ++ c))) =
      .ok (Fields.time { f with zone := ⟨encode t, 3600 * hours⟩ }, none) := by
  rw [encode_eq t]
  exact parseDateTime_encode (dateTime_upTo hp (.named ht) hc)

/-- The table meant above. -/
example : zoneNames = [(c!"ut", 0), (c!"utc", 0), (c!"gmt", 0), (c!"est", -5), (c!"edt", -4), (c!"cst", -6), (c!"cdt", -5),
   (c!"mst", -7), (c!"mdt", -6), (c!"pst", -8), (c!"pdt", -7)] := rfl

/-- Every other alphabetic zone is an error. -/
theorem C35_other_zones_are_errors (P : Predictor) (env : Env) {p t c : List Char} {f : Fields}
    (hp : UpToSeconds env.nowYear p f) (hne : t ≠ []) (ht : ∀ c ∈ t, c.isAlpha) (hn : lower t ∉ zoneNames.map Prod.fst)
    (hc : OptCfws c) : parseDateTime P env (encode (p ++ (t ++ c))) = .ok (zeroTime, some .syntaxError) := by
  refine parseDateTime_reject (encode_ne_nil (by simp [hne])) fun g hg => ?_
  have hb : dropAstral (p ++ (t ++ c)) = p ++ (t ++ c) := by
    have b1 : dropAstral (p ++ ([] ++ c)) = p ++ ([] ++ c) :=
      dropAstral_of (dateTime_bmp (dateTime_upTo hp (z := []) .none hc))
    refine dropAstral_of fun x hx => ?_
    have b2 := List.filter_eq_self.mp b1
    rcases List.mem_append.mp hx with hx | hx
    · exact b2 x (List.mem_append_left _ hx)
    rcases List.mem_append.mp hx with hx | hx
    · have ha := ht x hx
      have : x.toNat < 128 := by
        simp only [Char.isAlpha, Char.isUpper, Char.isLower, Bool.or_eq_true, Bool.and_eq_true, decide_eq_true_eq] at ha
        rcases ha with h | h
        · have := h.2; simp only [GE.ge, UInt32.le_iff_toNat_le] at this; exact Nat.lt_of_le_of_lt this (by decide)
        · have := h.2; simp only [GE.ge, UInt32.le_iff_toNat_le] at this; exact Nat.lt_of_le_of_lt this (by decide)
      simp only [bmp, decide_eq_true_eq]; omega
    · exact b2 x (by simp [hx])
  rw [tokens_encode, hb] at hg
  have hz := zone_needed hp (fun c hc => (alpha_solid (ht c hc)).1) (by
    rintro r rfl; exact (alpha_solid (ht ':' (by simp))).2.1 rfl) hc hg
  cases t with
  | nil => exact hne rfl
  | cons a t =>
    obtain ⟨_, _, g3, g4, g5⟩ := alpha_solid (ht a (by simp))
    generalize g.zone = l at hz
    cases hz with
    | numeric h =>
      generalize hu : a :: t = u at h
      cases h with
      | plus _ _ => injection hu with hu _; exact g4 hu
      | minus _ _ => injection hu with hu _; exact g5 hu
      | @unsigned hh mm h _ =>
        cases hh with
        | nil => cases h.1
        | cons b hh =>
          injection hu with hu _
          have := h.2 b (by simp)
          rw [← hu, g3] at this; cases this
    | named h => exact hn (zoneNames_mem h)

example : lower c!"CeT" ∉ zoneNames.map Prod.fst := by decide
example (P : Predictor) : parseDateTime P env0 (encode c!"2 Jan 2006 15:04 CET") = .ok (zeroTime, some .syntaxError) := by eval_date
example (P : Predictor) : parseDateTime P env0 (encode c!"2 Jan 2006 15:04 eSt") =
    .ok (⟨1136232240, ⟨b!"eSt", -18000⟩⟩, none) := by eval_date

/-- Changing the letter case anywhere in a date-time changes neither acceptance nor the instant nor the offset: only the
zone name, which is kept as written, can differ. -/
theorem C36_letter_case (P : Predictor) (env : Env) {t u : List Char} (h : lower u = lower t) {time : GoTime}
    (hne : t ≠ []) (hok : parseDateTime P env (encode t) = .ok (time, none)) :
    ∃ time', parseDateTime P env (encode u) = .ok (time', none) ∧ time'.unix = time.unix ∧ time'.loc.offset = time.loc.offset := by
  obtain ⟨f, hf, rfl⟩ := parseDateTime_ok (encode_ne_nil hne) hok
  rw [tokens_encode] at hf
  have hd := dropAstral_lower h
  obtain ⟨g, hg⟩ := dateTime_case_accept hf hd
  obtain ⟨h1, h2, h3, h4, h5, h6, h7⟩ := dateTime_case hf hg hd
  refine ⟨g.time, parseDateTime_reading (by rw [tokens_encode]; exact hg), ?_, h7⟩
  simp only [Fields.time, h1, h2, h3, h4, h5, h6, h7]

/-- Months and days in any letter case: the result is exactly the same. -/
theorem C36_names_in_any_case (P : Predictor) (env : Env) {dw dw' d mo mo' y h mi s z c : List Char} {f : Fields}
    (hdw : DayOfWeek dw) (hdw' : DayOfWeek dw') (hd : Padded Digits12 d f.day) (hm : Month mo f.month)
    (hmo : lower mo' = lower mo) (hy : Year env.nowYear y f.year) (hh : Padded Digits12 h f.hour)
    (hi : Padded (Digits 2) mi f.min) (hs : Seconds s f.sec) (hz : Zone z f.zone) (hc : OptCfws c) :
    parseDateTime P env (encode (dw ++ (d ++ (mo ++ (y ++ (h ++ ':' :: (mi ++ (s ++ (z ++ c))))))))) = .ok (f.time, none) ∧
    parseDateTime P env (encode (dw' ++ (d ++ (mo' ++ (y ++ (h ++ ':' :: (mi ++ (s ++ (z ++ c))))))))) = .ok (f.time, none) :=
  ⟨parseDateTime_encode ⟨dw, d, mo, y, h, mi, s, z, c, hdw, hd, hm, hy, hh, hi, hs, hz, hc, rfl⟩,
   parseDateTime_encode ⟨dw', d, mo', y, h, mi, s, z, c, hdw', hd, ⟨hm.1, by rw [hmo]; exact hm.2⟩, hy, hh, hi, hs, hz, hc, rfl⟩⟩

example : lower c!"jAN" = lower c!"Jan" := by decide
example (P : Predictor) : parseDateTime P env0 (encode c!"mON, 2 jAN 2006 15:04 Est") =
    .ok (⟨1136232240, ⟨b!"Est", -18000⟩⟩, none) := by eval_date

/-! ## C38: comments and white space are invisible -/

/-- `strip` removes comments and white space. -/
theorem C38_comments_are_invisible (P : Predictor) (env : Env) {input input' : Bytes} {text text' : List Char} {time time' : GoTime}
    (hne : input ≠ []) (hne' : input' ≠ []) (hr : ReadsAs input text) (hr' : ReadsAs input' text')
    (hs : strip (dropAstral text) = strip (dropAstral text'))
    (h : parseDateTime P env input = .ok (time, none)) (h' : parseDateTime P env input' = .ok (time', none)) : time = time' := by
  obtain ⟨f, hf, rfl⟩ := parseDateTime_ok hne h
  obtain ⟨f', hf', rfl⟩ := parseDateTime_ok hne' h'
  rw [tokens_reads hr] at hf
  rw [tokens_reads hr'] at hf'
  rw [dateTime_strip_unique hf hf' hs]

example : strip c!"(a\\)(b)) Mon ,2(c)\tJan 2006 15 :(x) 04 " = strip c!"Mon,2 Jan 2006 15:04" := by decide
example (P : Predictor) : parseDateTime P env0 (encode c!"(a\\)(b)) Mon ,2(c)\tJan 2006 15 :(x) 04 ") =
    parseDateTime P env0 (encode c!"Mon,2 Jan 2006 15:04") := by
  rw [evalDate_eq, evalDate_eq]; decide +kernel

end Rfc5322.Props
