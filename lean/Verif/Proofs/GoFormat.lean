import Verif.Model.GoFormat
import Verif.Spec.Civil
import Verif.Proofs.Calendar
import Verif.Proofs.DateText

/-!
# `time.Time.Format` shows the date
-/

namespace Rfc5322.GoFormat

open Spec

/-- The part of `absDate` for the year: year and day of the year. -/
def yearDay (D : Int) : Int × Int :=
  let n := D / 146097
  let y := 400 * n
  let d := D - 146097 * n
  let n := d / 36524
  let n := n - n / 4
  let y := y + 100 * n
  let d := d - 36524 * n
  let n := d / 1461
  let y := y + 4 * n
  let d := d - 1461 * n
  let n := d / 365
  let n := n - n / 4
  let y := y + n
  let d := d - 365 * n
  (y + absoluteZeroYear, d)

/-- The part for month and day. -/
def dateIn (leap : Bool) (day : Int) : Int × Int :=
  if leap then
    if day > 31 + 29 - 1 then ((monthDay (day - 1)).1 + 1, (monthDay (day - 1)).2)
    else if day = 31 + 29 - 1 then (2, 29)
    else ((monthDay day).1 + 1, (monthDay day).2)
  else ((monthDay day).1 + 1, (monthDay day).2)

theorem absDate_eq (abs : Int) : absDate abs =
    ((yearDay (abs / 86400)).1, dateIn (isLeap (yearDay (abs / 86400)).1) (yearDay (abs / 86400)).2) := by
  unfold absDate dateIn yearDay
  dsimp only
  split
  · split
    · rfl
    · split <;> rfl
  · rfl

theorem year_core {D n d1 a0 a d2 b d3 c0 c : Int} (h1 : n = D / 146097) (h2 : d1 = D - 146097 * n) (h3 : a0 = d1 / 36524) (h4 : a = a0 - a0 / 4)
    (h5 : d2 = d1 - 36524 * a) (h6 : b = d2 / 1461) (h7 : d3 = d2 - 1461 * b) (h8 : c0 = d3 / 365) (h9 : c = c0 - c0 / 4) :
    D = daysSinceEpoch (400 * n + 100 * a + 4 * b + c + absoluteZeroYear) + (d3 - 365 * c) ∧ 0 ≤ d3 - 365 * c ∧
    d3 - 365 * c < 365 + (if isLeap (400 * n + 100 * a + 4 * b + c + absoluteZeroYear) then 1 else 0) := by
  have r1 : 0 ≤ d1 ∧ d1 < 146097 := by omega
  have r2 : 0 ≤ a ∧ a ≤ 3 := by omega
  have r3 : 0 ≤ d2 ∧ d2 ≤ 36524 ∧ (d2 = 36524 → a = 3) := by omega
  have r4 : 0 ≤ b ∧ b ≤ 24 := by omega
  have r5 : 0 ≤ d3 ∧ d3 ≤ 1460 := by omega
  have r6 : 0 ≤ c ∧ c ≤ 3 := by omega
  have r7 : 0 ≤ d3 - 365 * c ∧ d3 - 365 * c ≤ 365 ∧ (d3 - 365 * c = 365 → c = 3 ∧ d3 = 1460) := by omega
  have hD : D = 146097 * n + 36524 * a + 1461 * b + d3 := by omega
  have r8 : d3 = 1460 → b = 24 → a = 3 := by omega
  clear h1 h2 h3 h4 h5 h6 h7 h8 h9
  unfold daysSinceEpoch isLeap absoluteZeroYear
  dsimp only
  have e0 : 400 * n + 100 * a + 4 * b + c + -292277022399 - -292277022399 = 400 * n + 100 * a + 4 * b + c := by omega
  rw [e0]
  have e1 : (400 * n + 100 * a + 4 * b + c) / 400 = n := by omega
  rw [e1]
  have e2 : (400 * n + 100 * a + 4 * b + c - 400 * n) / 100 = a := by omega
  rw [e2]
  have e3 : (400 * n + 100 * a + 4 * b + c - 400 * n - 100 * a) / 4 = b := by omega
  rw [e3]
  refine ⟨by omega, r7.1, ?_⟩
  by_cases h : d3 - 365 * c = 365
  · obtain ⟨hc, hd⟩ := r7.2.2 h
    have l1 : (400 * n + 100 * a + 4 * b + c + -292277022399) % 4 = 0 := by omega
    have l2 : (400 * n + 100 * a + 4 * b + c + -292277022399) % 100 ≠ 0 ∨ (400 * n + 100 * a + 4 * b + c + -292277022399) % 400 = 0 := by omega
    rw [if_pos, h]
    · omega
    · rcases l2 with l2 | l2 <;> simp [l1, l2]
  · split <;> omega

theorem yearDay_spec (D : Int) : D = daysSinceEpoch (yearDay D).1 + (yearDay D).2 ∧ 0 ≤ (yearDay D).2 ∧
    (yearDay D).2 < 365 + (if isLeap (yearDay D).1 then 1 else 0) := year_core rfl rfl rfl rfl rfl rfl rfl rfl rfl

theorem year_nonneg {Y K : Int} (h : 106751990353566 ≤ daysSinceEpoch Y + K) (hK : K < 365 + (if isLeap Y then 1 else 0)) : 0 ≤ Y := by
  apply Classical.byContradiction
  intro hn
  by_cases e : Y = -1
  · subst e
    rw [show daysSinceEpoch (-1) = 106751990353201 by decide, show isLeap (-1) = false by decide] at *
    simp at hK
    omega
  · have hK' : K ≤ 365 := by split at hK <;> omega
    unfold daysSinceEpoch absoluteZeroYear at h
    dsimp only at h
    obtain ⟨z, hz⟩ : ∃ z, z = Y - -292277022399 := ⟨_, rfl⟩
    rw [← hz] at h
    obtain ⟨n, hn⟩ : ∃ n, n = z / 400 := ⟨_, rfl⟩
    rw [← hn] at h
    obtain ⟨a, ha⟩ : ∃ a, a = (z - 400 * n) / 100 := ⟨_, rfl⟩
    rw [← ha] at h
    obtain ⟨b, hb⟩ : ∃ b, b = (z - 400 * n - 100 * a) / 4 := ⟨_, rfl⟩
    rw [← hb] at h
    obtain ⟨c, hc⟩ : ∃ c, c = z - 400 * n - 100 * a - 4 * b := ⟨_, rfl⟩
    have r1 : 0 ≤ a ∧ a ≤ 3 := by omega
    have r2 : 0 ≤ b ∧ b ≤ 24 := by omega
    have r3 : 0 ≤ c ∧ c ≤ 3 := by omega
    have hz' : 400 * n + 100 * a + 4 * b + c ≤ 292277022397 := by omega
    have h' : 106751990353566 ≤ 146097 * n + 36524 * a + 1461 * b + 365 * c + 365 := by omega
    clear h hn ha hb hK hK' hz
    have r4 : n ≤ 730692555 := by omega
    rcases Int.lt_or_eq_of_le r4 with r | r
    · omega
    · subst r
      rcases Int.lt_or_eq_of_le r1.2 with r | r
      · omega
      · subst r
        rcases Int.lt_or_eq_of_le r2.2 with r | r <;> omega

/-- All days of a year, leap or not. -/
def dateInOk (l : Bool) (k : Nat) : Bool :=
  let m := (dateIn l k).1
  let d := (dateIn l k).2
  decide (1 ≤ m) && decide (m ≤ 12) && decide (1 ≤ d) && decide (d ≤ if m = 2 then (if l then 29 else 28) else if m = 4 ∨ m = 6 ∨ m = 9 ∨ m = 11 then 30 else 31) &&
    decide (daysBefore m + (if (l && decide (m ≥ 3)) = true then 1 else 0) + d - 1 = k)

theorem dateIn_ok : ∀ k < 366, dateInOk true k = true ∧ (k < 365 → dateInOk false k = true) := by decide +kernel

/-- The fields shown. -/
def fields (t : GoTime) : Fields where
  day := (absDate (absolute t)).2.2.toNat
  month := (absDate (absolute t)).2.1.toNat
  year := (absDate (absolute t)).1.toNat
  hour := (absClock (absolute t)).1.toNat
  min := (absClock (absolute t)).2.1.toNat
  sec := (absClock (absolute t)).2.2.toNat
  zone := t.loc

theorem fields_spec {t : GoTime} (h : InRange t) : Proper (fields t) ∧ (fields t).time = t ∧
    absDate (absolute t) = (((fields t).year : Int), ((fields t).month : Int), ((fields t).day : Int)) ∧
    absClock (absolute t) = (((fields t).hour : Int), ((fields t).min : Int), ((fields t).sec : Int)) ∧
    absWeekday (absolute t) = ((weekday (fields t) : Int) + 1) % 7 := by
  obtain ⟨h0, h1⟩ := h
  obtain ⟨A, hA⟩ : ∃ A, A = absolute t := ⟨_, rfl⟩
  have hA' : A = t.unix + t.loc.offset - absoluteToUnix := hA
  have au : absoluteToUnix = -9223372028715321600 := by decide
  rw [au] at hA'
  obtain ⟨g1, g2, g3⟩ := yearDay_spec (A / 86400)
  have g4 := absDate_eq A
  obtain ⟨Y, hY⟩ : ∃ Y, Y = (yearDay (A / 86400)).1 := ⟨_, rfl⟩
  obtain ⟨K, hK⟩ : ∃ K, K = (yearDay (A / 86400)).2 := ⟨_, rfl⟩
  rw [← hY, ← hK] at g1 g3 g4
  rw [← hK] at g2
  obtain ⟨k, rfl⟩ : ∃ k : Nat, K = k := ⟨K.toNat, by omega⟩
  have hY0 : 0 ≤ Y := year_nonneg (K := k) (by omega) g3
  obtain ⟨y, rfl⟩ : ∃ y : Nat, Y = y := ⟨Y.toNat, by omega⟩
  rw [daysSinceEpoch_eq] at g1
  rw [isLeap_eq] at g3 g4
  have hy : y < 10000 := by
    rw [daysToYear_closed] at g1
    split at g3 <;> omega
  have hd : dateInOk (leap y) k = true := by
    cases hl : leap y with
    | true => rw [hl] at g3; exact (dateIn_ok k (by simp at g3; omega)).1
    | false => rw [hl] at g3; exact (dateIn_ok k (by simp at g3; omega)).2 (by simp at g3; omega)
  unfold dateInOk at hd
  obtain ⟨M, hM⟩ : ∃ M, M = (dateIn (leap y) k).1 := ⟨_, rfl⟩
  obtain ⟨D, hD⟩ : ∃ D, D = (dateIn (leap y) k).2 := ⟨_, rfl⟩
  have g5 : dateIn (leap y) k = (M, D) := by rw [hM, hD]
  rw [g5] at hd g4
  simp only [Bool.and_eq_true, decide_eq_true_eq] at hd
  obtain ⟨⟨⟨⟨m1, m2⟩, d1⟩, d2⟩, d3⟩ := hd
  have d4 : daysBefore M + (if (leap y && decide (M ≥ 3)) = true then 1 else 0) + D - 1 = k := by
    simpa only [Bool.and_eq_true, decide_eq_true_eq] using d3
  obtain ⟨m, rfl⟩ : ∃ m : Nat, M = m := ⟨M.toNat, by omega⟩
  obtain ⟨d, rfl⟩ : ∃ d : Nat, D = d := ⟨D.toNat, by omega⟩
  have mm : 1 ≤ m ∧ m ≤ 12 := by omega
  have e1 := monthDays y m mm.1 mm.2
  have e2 : (daysToMonthEnd y (m - 1) : Int) + d - 1 = k := by
    rw [e1, ← d4]
  have e3 : d ≤ monthLength y m := by
    unfold monthLength
    have i1 : ((m : Int) = 2) = (m = 2) := by rw [eq_iff_iff]; omega
    have i2 : ((m : Int) = 4 ∨ (m : Int) = 6 ∨ (m : Int) = 9 ∨ (m : Int) = 11) = (m = 4 ∨ m = 6 ∨ m = 9 ∨ m = 11) := by rw [eq_iff_iff]; omega
    simp only [i1, i2] at d2
    split
    · rename_i q
      rw [if_pos q] at d2
      split <;> rename_i q' <;> simp only [q', if_true, Bool.false_eq_true, if_false] at d2 <;> omega
    · rename_i q
      rw [if_neg q] at d2
      split <;> rename_i q'
      · rw [if_pos q'] at d2; omega
      · rw [if_neg q'] at d2; omega
  have hc : absClock A = ((((A % 86400 / 3600).toNat : Nat) : Int), (((A % 3600 / 60).toNat : Nat) : Int), (((A % 60).toNat : Nat) : Int)) := by
    unfold absClock
    dsimp only
    refine Prod.ext ?_ (Prod.ext ?_ ?_) <;> dsimp only <;> omega
  have ef : fields t = ⟨d, m, y, (A % 86400 / 3600).toNat, (A % 3600 / 60).toNat, (A % 60).toNat, t.loc⟩ := by
    unfold fields
    rw [← hA, g4, hc]
    simp only [Int.toNat_natCast]
  rw [ef]
  have e5 : (daysToYear 1970 : Int) = 719528 := by rw [daysToYear_closed]; decide
  refine ⟨⟨hy, mm, ⟨by dsimp only; omega, e3⟩, ?_, ?_, ?_⟩, ?_, ?_, ?_, ?_⟩
  · dsimp only; omega
  · dsimp only; omega
  · dsimp only; omega
  · unfold Fields.time monthStart
    cases t
    dsimp only at *
    rw [GoTime.mk.injEq]
    refine ⟨?_, rfl⟩
    omega
  · rw [← hA, g4]
  · rw [← hA, hc]
  · rw [← hA]
    unfold absWeekday weekday monthStart
    dsimp only
    omega

/-! ## Order -/

theorem daysToYear_le {y z : Nat} (h : y ≤ z) : daysToYear y ≤ daysToYear z := by
  induction h with
  | refl => exact Nat.le_refl _
  | step _ ih => simp only [daysToYear]; omega

theorem daysToYear_lt {y z : Nat} (h : y < z) : daysToYear y + yearLength y ≤ daysToYear z := daysToYear_le (y := y + 1) h

theorem daysToMonthEnd_le (y : Nat) {m n : Nat} (h : m ≤ n) : daysToMonthEnd y m ≤ daysToMonthEnd y n := by
  induction h with
  | refl => exact Nat.le_refl _
  | step _ ih => simp only [daysToMonthEnd]; omega

theorem daysToMonthEnd_12 (y : Nat) : daysToMonthEnd y 12 = yearLength y := by
  simp only [daysToMonthEnd, monthLength, yearLength]
  cases leap y <;> simp

/-- Days before the day of a date, counted from January 1 of the year 0. -/
def dayNumber (f : Fields) : Nat := daysToYear f.year + daysToMonthEnd f.year (f.month - 1) + (f.day - 1)

theorem monthEnd_lt {f : Fields} (hf : Proper f) : daysToMonthEnd f.year (f.month - 1) + (f.day - 1) < daysToMonthEnd f.year f.month := by
  obtain ⟨k, hk⟩ : ∃ k, f.month = k + 1 := ⟨f.month - 1, by have := hf.month.1; omega⟩
  have := hf.day
  rw [hk] at this ⊢
  simp only [daysToMonthEnd, Nat.add_sub_cancel]
  omega

theorem dayNumber_lt {f : Fields} (hf : Proper f) : dayNumber f < daysToYear f.year + yearLength f.year := by
  have h1 := monthEnd_lt hf
  have h2 := daysToMonthEnd_le f.year hf.month.2
  rw [daysToMonthEnd_12] at h2
  unfold dayNumber
  omega

theorem time_eq {f : Fields} (hf : Proper f) :
    f.time.unix = 86400 * ((dayNumber f : Int) - 719528) + 3600 * f.hour + 60 * f.min + f.sec - f.zone.offset := by
  have e : (daysToYear 1970 : Int) = 719528 := by rw [daysToYear_closed]; decide
  have := hf.day.1
  unfold Fields.time monthStart dayNumber
  dsimp only
  omega

theorem dayNumber_mono {f g : Fields} (hf : Proper f) (_hg : Proper g)
    (h : f.year < g.year ∨ f.year = g.year ∧ (f.month < g.month ∨ f.month = g.month ∧ f.day < g.day)) : dayNumber f < dayNumber g := by
  rcases h with h | ⟨h, h' | ⟨h', h''⟩⟩
  · have h1 := dayNumber_lt hf
    have h2 := daysToYear_lt h
    unfold dayNumber at h1 ⊢
    omega
  · have h1 := monthEnd_lt hf
    have h2 := daysToMonthEnd_le f.year (show f.month ≤ g.month - 1 by omega)
    unfold dayNumber
    rw [← h]
    omega
  · have := hf.day.1
    unfold dayNumber
    rw [← h, ← h']
    omega

theorem earlier_time {f g : Fields} (hf : Proper f) (hg : Proper g) (hz : f.zone = g.zone) (h : Earlier f g) : f.time.unix < g.time.unix := by
  rw [time_eq hf, time_eq hg, hz]
  have a1 := hf.hour; have a2 := hf.min; have a3 := hf.sec
  have b1 := hg.hour; have b2 := hg.min; have b3 := hg.sec
  by_cases c : f.year < g.year ∨ f.year = g.year ∧ (f.month < g.month ∨ f.month = g.month ∧ f.day < g.day)
  · have := dayNumber_mono hf hg c
    omega
  · unfold Earlier at h
    have e : f.year = g.year ∧ f.month = g.month ∧ f.day = g.day := by omega
    have : dayNumber f = dayNumber g := by unfold dayNumber; rw [e.1, e.2.1, e.2.2]
    omega

theorem earlier_or {f g : Fields} (hz : f.zone = g.zone) : Earlier f g ∨ f = g ∨ Earlier g f := by
  obtain ⟨d, m, y, h, mi, s, z⟩ := f
  obtain ⟨d', m', y', h', mi', s', z'⟩ := g
  dsimp only at hz
  subst hz
  unfold Earlier
  simp only [Fields.mk.injEq, and_true]
  omega

theorem one_date {f g : Fields} (hf : Proper f) (hg : Proper g) (h : f.time = g.time) : f = g := by
  have hz : f.zone = g.zone := congrArg GoTime.loc h
  rcases earlier_or hz with c | c | c
  · have := earlier_time hf hg hz c; rw [h] at this; omega
  · exact c
  · have := earlier_time hg hf hz.symm c; rw [h] at this; omega

theorem inRange_of {f : Fields} (hf : Proper f) : InRange f.time := by
  have h1 := time_eq hf
  have h2 := dayNumber_lt hf
  have h3 := daysToYear_lt hf.year
  have e : (daysToYear 10000 : Int) = 3652425 := by rw [daysToYear_closed]; decide
  have a1 := hf.hour; have a2 := hf.min; have a3 := hf.sec
  have e2 : f.time.loc = f.zone := rfl
  unfold InRange
  rw [e2]
  omega

theorem fields_time {f : Fields} (hf : Proper f) : fields f.time = f :=
  one_date (fields_spec (inRange_of hf)).1 hf (fields_spec (inRange_of hf)).2.1

/-! ## The texts -/

theorem digit_lt {n : Nat} (h : n < 10) : Char.ofNat (48 + n) = digit n := by unfold digit; rw [Nat.mod_eq_of_lt h]

theorem digit_mod (n : Nat) : Char.ofNat (48 + (n - n / 10 * 10)) = digit n := by
  unfold digit
  rw [show n - n / 10 * 10 = n % 10 by omega]

theorem digits_1 {n k : Nat} {acc} (h : n < 10) : digits (k + 1) n acc = digit n :: acc := by
  unfold digits
  rw [if_neg (by omega), digit_lt h]

theorem digits_2 {n k : Nat} {acc} (h : 10 ≤ n) : digits (k + 1) n acc = digits k (n / 10) (digit n :: acc) := by
  rw [digits, if_pos h, digit_mod]

theorem digit_zero : digit 0 = '0' := by decide

theorem appendInt_two {n : Nat} (h : n < 100) : appendInt n 2 = two n := by
  unfold appendInt two
  dsimp only
  rw [if_neg (by omega), Int.natAbs_natCast]
  by_cases h1 : n < 10
  · rw [digits_1 h1, show n / 10 = 0 by omega, digit_zero]
    rfl
  · rw [digits_2 (by omega), digits_1 (by omega)]
    rfl

theorem digit_add (n : Nat) : digit (n / 100 * 10) = '0' := by
  unfold digit
  rw [show n / 100 * 10 % 10 = 0 by omega]

theorem appendInt_four {n : Nat} (h : n < 10000) : appendInt n 4 = four n := by
  unfold appendInt four two
  dsimp only
  rw [if_neg (by omega), Int.natAbs_natCast]
  have q1 : n / 100 / 10 = n / 1000 := by omega
  have q2 : n / 10 / 10 = n / 100 := by omega
  rw [q1]
  by_cases h1 : n < 10
  · rw [digits_1 h1, show n / 10 = 0 by omega, show n / 100 = 0 by omega, show n / 1000 = 0 by omega, digit_zero]
    rfl
  · by_cases h2 : n < 100
    · rw [digits_2 (by omega), digits_1 (by omega), show n / 100 = 0 by omega, show n / 1000 = 0 by omega, digit_zero]
      rfl
    · by_cases h3 : n < 1000
      · rw [digits_2 (by omega), digits_2 (by omega), digits_1 (by omega), q2, show n / 1000 = 0 by omega, digit_zero]
        rfl
      · rw [digits_2 (by omega), digits_2 (by omega), digits_2 (by omega), digits_1 (by omega), q2, q1]
        rfl

theorem appendInt_zero {n : Nat} (h : n < 100) : Digits12 (appendInt n 0) ∧ num (appendInt n 0) = n := by
  unfold appendInt
  dsimp only
  rw [if_neg (by omega), Int.natAbs_natCast]
  by_cases h1 : n < 10
  · rw [digits_1 h1]
    refine ⟨.inl ⟨rfl, by simp [isDigit_digit]⟩, ?_⟩
    simp [num, digit_val]; omega
  · rw [digits_2 (by omega), digits_1 (by omega)]
    refine ⟨.inr (digits_two n), num_two h⟩

theorem month_name {n : Nat} : shortMonthNames.getD n [] = monthText.getD n [] := rfl

theorem day_name : ∀ n < 7, shortDayNames.getD ((n + 1) % 7) [] = dayText.getD n [] := by decide

theorem numericZone_text {o : Int} (h : o.natAbs < 360000) : numericZone o = (shownOffset o).text := by
  have hq : o.tdiv 60 = if o ≤ -60 then -((o.natAbs / 60 : Nat) : Int) else ((o.natAbs / 60 : Nat) : Int) := by
    rcases Int.lt_or_le o 0 with c | c
    · rw [show o = -(o.natAbs : Int) by omega, Int.neg_tdiv, Int.natAbs_neg, Int.natAbs_natCast]
      rw [show ((o.natAbs : Int)).tdiv 60 = ((o.natAbs / 60 : Nat) : Int) from rfl]
      split <;> omega
    · rw [if_neg (by omega)]
      rw [show o = (o.natAbs : Int) by omega, Int.natAbs_natCast]
      rfl
  obtain ⟨z, hz⟩ : ∃ z, z = o.natAbs / 60 := ⟨_, rfl⟩
  rw [← hz] at hq
  have key : ∀ k : Nat, k < 6000 → appendInt ((k : Int).tdiv 60) 2 ++ appendInt ((k : Int).tmod 60) 2 = two (k / 60) ++ two (k % 60) := by
    intro k hk
    rw [show (k : Int).tdiv 60 = ((k / 60 : Nat) : Int) from rfl, show (k : Int).tmod 60 = ((k % 60 : Nat) : Int) from rfl,
      appendInt_two (by omega), appendInt_two (by omega)]
  have e1 : o.natAbs / 3600 = z / 60 := by omega
  unfold numericZone shownOffset Offset.text
  dsimp only
  rw [e1, ← hz, hq]
  by_cases c : o ≤ -60
  · rw [if_pos c, if_pos (by omega), if_pos (by simpa using c), Int.neg_neg, key z (by omega)]
  · rw [if_neg c, if_neg (by omega), if_neg (by simpa using c), key z (by omega)]

/-- The texts shown by the layouts are date-times, up to the zone. -/
theorem shown_upTo {now : Int} {dow : Option Nat} {dt yt c : List Char} {m y h mi : Nat} {s : Option Nat} {l : Location}
    (hdow : ∀ k ∈ dow, k < 7) (hd : Digits12 dt) (hm : 1 ≤ m ∧ m ≤ 12) (hy : Year now (c!" " ++ (yt ++ c!" ")) y) (hh : h < 100) (hi : mi < 100)
    (hs : ∀ k ∈ s, k < 100) (hc : OptCfws c) :
    UpToSeconds now (dowText dow ++ dt ++ c!" " ++ monthText.getD (m - 1) [] ++ c!" " ++ yt ++ c!" " ++ two h ++ c!":" ++ two mi ++ secText s ++ c)
      ⟨num dt, m, y, h, mi, s.getD 0, l⟩ := by
  have hdow' : ∃ dw a, DayOfWeek dw ∧ OptCfws a ∧ dowText dow = dw ++ a := by
    cases dow with
    | none => exact ⟨[], [], .inl rfl, optCfws_nil, rfl⟩
    | some k =>
      refine ⟨dayText.getD k [] ++ [','], c!" ", .inr ⟨[], dayText.getD k [], [], optCfws_nil, day_text (hdow k rfl), optCfws_nil, by simp⟩,
        optCfws_sp, by simp [dowText]⟩
  obtain ⟨dw, a, hdw, ha, edw⟩ := hdow'
  have hday : Padded Digits12 (a ++ (dt ++ c!" ")) (num dt) := ⟨a, dt, _, ha, hd, optCfws_sp, rfl, rfl⟩
  cases s with
  | none =>
    refine ⟨_, [], ⟨dw, _, _, _, _, _, hdw, hday, month_text hm.1 hm.2, hy, padded_two optCfws_nil optCfws_nil hh,
      padded_two' optCfws_nil hc hi, rfl⟩, .none, ?_⟩
    rw [edw]
    simp [secText]
  | some k =>
    refine ⟨_, _, ⟨dw, _, _, _, _, _, hdw, hday, month_text hm.1 hm.2, hy, padded_two optCfws_nil optCfws_nil hh,
      padded_two' optCfws_nil optCfws_nil hi, rfl⟩, .some (padded_two' optCfws_nil hc (hs k rfl)), ?_⟩
    rw [edw]
    simp [secText]

theorem year_four {now : Int} {y : Nat} (hy : y < 10000) : Year now (c!" " ++ (four y ++ c!" ")) y := by
  have fsp : Fws c!" " := .plain (by simp) (by decide)
  have := Year.four (now := now) fsp (digits_four y) fsp
  rwa [num_four hy] at this

/-- The year that two digits are read as. -/
theorem year_two {now : Int} {y : Nat} (hy : y < 100) :
    Year now (c!" " ++ (two y ++ c!" ")) (if (y : Int) > now.tmod 100 then 1900 + y else 2000 + y) := by
  have := Year.two (now := now) optCfws_sp (digits_two y) optCfws_sp
  rwa [num_two hy] at this

/-- Everything but the zone. -/
def front (dow : Option Nat) (dt yt : List Char) (m h mi : Nat) (s : Option Nat) : List Char :=
  dowText dow ++ dt ++ c!" " ++ monthText.getD (m - 1) [] ++ c!" " ++ yt ++ c!" " ++ two h ++ c!":" ++ two mi ++ secText s

theorem weekday_lt (f : Fields) : weekday f < 7 := by unfold weekday; omega

theorem format_texts {t : GoTime} (h : InRange t) (z : List Char) :
    format RFC1123Z t z = front (some (weekday (fields t))) (two (fields t).day) (four (fields t).year) (fields t).month (fields t).hour (fields t).min (some (fields t).sec) ++ (c!" " ++ numericZone t.loc.offset) ∧
    format RFC1123 t z = front (some (weekday (fields t))) (two (fields t).day) (four (fields t).year) (fields t).month (fields t).hour (fields t).min (some (fields t).sec) ++ (c!" " ++ z) ∧
    format RFC822Z t z = front none (two (fields t).day) (two ((fields t).year % 100)) (fields t).month (fields t).hour (fields t).min none ++ (c!" " ++ numericZone t.loc.offset) ∧
    format RFC822 t z = front none (two (fields t).day) (two ((fields t).year % 100)) (fields t).month (fields t).hour (fields t).min none ++ (c!" " ++ z) ∧
    format mailDate t z = front (some (weekday (fields t))) (appendInt (fields t).day 0) (four (fields t).year) (fields t).month (fields t).hour (fields t).min (some (fields t).sec) ++ (c!" " ++ numericZone t.loc.offset) := by
  obtain ⟨hp, -, hd, hc, hw⟩ := fields_spec h
  obtain ⟨f, hf⟩ : ∃ f, f = fields t := ⟨_, rfl⟩
  rw [← hf] at hp hd hc hw ⊢
  have d3 : f.day < 100 := by
    have h1 := hp.day.2
    unfold monthLength at h1
    split at h1 <;> split at h1 <;> omega
  have k1 : shortDayNames.getD (absWeekday (absolute t)).toNat [] = dayText.getD (weekday f) [] := by
    rw [hw, ← day_name _ (weekday_lt f)]
    rfl
  have k2 : shortMonthNames.getD ((f.month : Int) - 1).toNat [] = monthText.getD (f.month - 1) [] := by
    rw [show ((f.month : Int) - 1).toNat = f.month - 1 by omega]
    rfl
  have k3 : (if (f.year : Int) < 0 then 0 else (f.year : Int)).tmod 100 = ((f.year % 100 : Nat) : Int) := by
    rw [if_neg (by omega)]; rfl
  have b1 := hp.hour; have b2 := hp.min; have b3 := hp.sec
  have k4 : appendInt ((f.year % 100 : Nat) : Int) 2 = two (f.year % 100) := appendInt_two (by omega)
  refine ⟨?_, ?_, ?_, ?_, ?_⟩
  · simp only [format, RFC1123Z, List.flatMap_cons, List.flatMap_nil, chunk, hd, hc, k1, k2, appendInt_two d3, appendInt_four hp.year,
      appendInt_two (show f.hour < 100 by omega), appendInt_two (show f.min < 100 by omega), appendInt_two (show f.sec < 100 by omega), front, dowText, secText]
    simp
  · simp only [format, RFC1123, List.flatMap_cons, List.flatMap_nil, chunk, hd, hc, k1, k2, appendInt_two d3, appendInt_four hp.year,
      appendInt_two (show f.hour < 100 by omega), appendInt_two (show f.min < 100 by omega), appendInt_two (show f.sec < 100 by omega), front, dowText, secText]
    simp
  · simp only [format, RFC822Z, List.flatMap_cons, List.flatMap_nil, chunk, hd, hc, k2, k3, k4, appendInt_two d3,
      appendInt_two (show f.hour < 100 by omega), appendInt_two (show f.min < 100 by omega), front, dowText, secText]
    simp
  · simp only [format, RFC822, List.flatMap_cons, List.flatMap_nil, chunk, hd, hc, k2, k3, k4, appendInt_two d3,
      appendInt_two (show f.hour < 100 by omega), appendInt_two (show f.min < 100 by omega), front, dowText, secText]
    simp
  · simp only [format, mailDate, List.flatMap_cons, List.flatMap_nil, chunk, hd, hc, k1, k2, appendInt_four hp.year,
      appendInt_two (show f.hour < 100 by omega), appendInt_two (show f.min < 100 by omega), appendInt_two (show f.sec < 100 by omega), front, dowText, secText]
    simp

theorem day_lt {f : Fields} (hf : Proper f) : f.day < 100 := by
  have h1 := hf.day.2
  unfold monthLength at h1
  split at h1 <;> split at h1 <;> omega

/-- Long layouts. -/
theorem long_upTo {now : Int} {f : Fields} (hf : Proper f) {dt : List Char} (hd : Digits12 dt) (hn : num dt = f.day) {c : List Char} (hc : OptCfws c) (l : Location) :
    UpToSeconds now (front (some (weekday f)) dt (four f.year) f.month f.hour f.min (some f.sec) ++ c) { f with zone := l } := by
  have b1 := hf.hour; have b2 := hf.min; have b3 := hf.sec
  have := shown_upTo (now := now) (dow := some (weekday f)) (s := some f.sec) (l := l) (by simpa using weekday_lt f) hd hf.month (year_four hf.year)
    (show f.hour < 100 by omega) (show f.min < 100 by omega) (by simp; omega) hc
  rw [hn] at this
  exact this

/-- Short layouts. -/
theorem short_upTo {now : Int} {f : Fields} (hf : Proper f) {c : List Char} (hc : OptCfws c) (l : Location) :
    UpToSeconds now (front none (two f.day) (two (f.year % 100)) f.month f.hour f.min none ++ c)
      { f with zone := l, sec := 0, year := if ((f.year % 100 : Nat) : Int) > now.tmod 100 then 1900 + f.year % 100 else 2000 + f.year % 100 } := by
  have b1 := hf.hour; have b2 := hf.min
  have := shown_upTo (now := now) (dow := none) (s := none) (l := l) (by simp) (.inr (digits_two f.day)) hf.month (year_two (y := f.year % 100) (by omega))
    (show f.hour < 100 by omega) (show f.min < 100 by omega) (by simp) hc
  rw [num_two (day_lt hf)] at this
  exact this

theorem zone_shown {o : Int} (h : o.natAbs < 360000) : Zone (c!" " ++ numericZone o) (shownOffset o).location := by
  rw [numericZone_text h]
  obtain ⟨west, hh, mm, e, g1, g2⟩ : ∃ west hh mm, shownOffset o = ⟨west, hh, mm⟩ ∧ hh < 100 ∧ mm < 100 := ⟨_, _, _, rfl, by omega, by omega⟩
  rw [e]
  refine Zone.numeric (f := c!" ") (.plain (by simp) (by decide)) ?_
  have e1 : (hh : Int) = num (two hh) := by rw [num_two g1]
  have e2 : (mm : Int) = num (two mm) := by rw [num_two g2]
  cases west with
  | true =>
    simp only [Offset.location, Offset.text, if_true]
    rw [e1, e2]
    exact .minus (digits_two hh) (digits_two mm)
  | false =>
    simp only [Offset.location, Offset.text]
    rw [e1, e2]
    exact .plus (digits_two hh) (digits_two mm)

end Rfc5322.GoFormat
