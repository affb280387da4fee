import Verif.Proofs.GoFormat
import Verif.Props.Dates

/-!
# C75: the dates that `time.Time.Format` writes

`format layout t zone` is what Go's package time writes for the time `t` (whose zone is called `zone`); `Proper` dates are those of the calendar, in the years 0 to 9999.
-/

namespace Rfc5322.Props

open Spec GoFormat

/-- Two proper dates of one zone are the same date if they are the same instant. -/
theorem C75_one_date_per_instant {f g : Fields} (hf : Proper f) (hg : Proper g) (h : f.time = g.time) : f = g := one_date hf hg h

/-- The earlier date is the earlier instant. -/
theorem C75_earlier_is_earlier {f g : Fields} (hf : Proper f) (hg : Proper g) (hz : f.zone = g.zone) : Earlier f g ↔ f.time.unix < g.time.unix := by
  constructor
  · exact earlier_time hf hg hz
  · intro h
    rcases earlier_or hz with c | c | c
    · exact c
    · rw [c] at h; omega
    · have := earlier_time hg hf hz.symm c; omega

/-- Every instant of these years is a proper date, in every zone. -/
theorem C75_every_instant_is_a_date (t : GoTime) : InRange t ↔ ∃ f, Proper f ∧ f.time = t := by
  constructor
  · intro h
    exact ⟨fields t, (fields_spec h).1, (fields_spec h).2.1⟩
  · rintro ⟨f, hf, rfl⟩
    exact inRange_of hf

/-- The text written for a date is the canonical one, with its day of the week. -/
theorem C75_text_is_the_date {f : Fields} (hf : Proper f) (ho : f.zone.offset.natAbs < 360000) (zone : List Char) :
    format RFC1123Z f.time zone = canonical (some (weekday f)) f.day f.month f.year f.hour f.min (some f.sec) (some (shownOffset f.zone.offset)) := by
  rw [(format_texts (inRange_of hf) zone).1, fields_time hf]
  have e : f.time.loc = f.zone := rfl
  rw [e, numericZone_text ho]
  unfold front canonical zoneText
  simp

/-- Offsets of whole minutes are shown as they are. -/
theorem shownOffset_whole {o : Int} (h : o % 60 = 0) : (shownOffset o).location = ⟨encode (shownOffset o).text, o⟩ := by
  rw [encode_eq]
  unfold shownOffset Offset.location
  rw [Location.mk.injEq]
  refine ⟨rfl, ?_⟩
  dsimp only
  split <;> rename_i c
  · have c' : o ≤ -60 := by simpa using c
    omega
  · have c' : ¬ o ≤ -60 := by simpa using c
    omega

/-- Other offsets are cut off towards zero. -/
theorem shownOffset_cut (o : Int) : (shownOffset o).location.offset = o - o.tmod 60 := by
  have hq : o.tmod 60 = if o < 0 then -((o.natAbs % 60 : Nat) : Int) else ((o.natAbs % 60 : Nat) : Int) := by
    rcases Int.lt_or_le o 0 with c | c
    · rw [if_pos c]
      have : o.tmod 60 = (-(o.natAbs : Int)).tmod 60 := by rw [show -(o.natAbs : Int) = o by omega]
      rw [this, Int.neg_tmod]
      rfl
    · rw [if_neg (by omega)]
      have : o.tmod 60 = ((o.natAbs : Int)).tmod 60 := by rw [show (o.natAbs : Int) = o by omega]
      rw [this]
      rfl
  rw [hq]
  unfold shownOffset Offset.location
  dsimp only
  split <;> rename_i c
  · have c' : o ≤ -60 := by simpa using c
    split <;> omega
  · have c' : ¬ o ≤ -60 := by simpa using c
    split <;> omega

/-- The time with its offset cut to whole minutes, as `-0700` shows it, on the same clock. -/
def onShownClock (t : GoTime) : GoTime := ⟨t.unix + t.loc.offset.tmod 60, (shownOffset t.loc.offset).location⟩

theorem time_zone (f : Fields) : ({ f with zone := (shownOffset f.zone.offset).location } : Fields).time = onShownClock f.time := by
  have := shownOffset_cut f.zone.offset
  unfold onShownClock Fields.time
  dsimp only
  rw [GoTime.mk.injEq]
  exact ⟨by omega, rfl⟩

theorem read_long {P : Predictor} {env : Env} {f : Fields} (hf : Proper f) (ho : f.zone.offset.natAbs < 360000) {dt : List Char} (hd : Digits12 dt) (hn : num dt = f.day) :
    parseDateTime P env (encode (front (some (weekday f)) dt (four f.year) f.month f.hour f.min (some f.sec) ++ (c!" " ++ numericZone f.zone.offset))) =
      .ok (onShownClock f.time, none) := by
  have h1 := long_upTo (now := env.nowYear) hf hd hn optCfws_nil f.zone
  rw [List.append_nil] at h1
  have h2 := dateTime_upTo h1 (zone_shown ho) optCfws_nil
  rw [List.append_nil] at h2
  rw [parseDateTime_encode h2, ← time_zone]

/-- What `Format` writes with `time.RFC1123Z`, or with one-digit days, is read back: the same instant, in the zone named by its offset. -/
theorem C75_format_is_read_back (P : Predictor) (env : Env) {t : GoTime} (ht : InRange t) (ho : t.loc.offset.natAbs < 360000) (h60 : t.loc.offset % 60 = 0) (zone : List Char) :
    ∀ layout ∈ [RFC1123Z, mailDate], parseDateTime P env (encode (format layout t zone)) = .ok (⟨t.unix, ⟨encode (shownOffset t.loc.offset).text, t.loc.offset⟩⟩, none) := by
  obtain ⟨f, hf, rfl⟩ := (C75_every_instant_is_a_date t).mp ht
  obtain ⟨e1, -, -, -, e5⟩ := format_texts ht zone
  rw [fields_time hf] at e1 e5
  have key : onShownClock f.time = ⟨f.time.unix, ⟨encode (shownOffset f.time.loc.offset).text, f.time.loc.offset⟩⟩ := by
    unfold onShownClock
    rw [shownOffset_whole h60, GoTime.mk.injEq]
    refine ⟨?_, rfl⟩
    have := shownOffset_cut f.time.loc.offset
    rw [shownOffset_whole h60] at this
    dsimp only at this
    omega
  rw [← key]
  intro layout hl
  rcases List.mem_cons.mp hl with rfl | hl
  · rw [e1]
    exact read_long hf ho (.inr (digits_two _)) (num_two (day_lt hf))
  · rw [List.mem_singleton.mp hl, e5]
    exact read_long hf ho (appendInt_zero (day_lt hf)).1 (appendInt_zero (day_lt hf)).2

/-- Offsets with seconds are cut: the clock read is the clock written, and the instant differs by the seconds left out. -/
theorem C75_offsets_with_seconds (P : Predictor) (env : Env) {t : GoTime} (ht : InRange t) (ho : t.loc.offset.natAbs < 360000) (zone : List Char) :
    ∀ layout ∈ [RFC1123Z, mailDate], ∃ u, parseDateTime P env (encode (format layout t zone)) = .ok (u, none) ∧
      u.loc.offset = t.loc.offset - t.loc.offset.tmod 60 ∧ u.unix = t.unix + t.loc.offset.tmod 60 ∧ u.unix + u.loc.offset = t.unix + t.loc.offset := by
  obtain ⟨f, hf, rfl⟩ := (C75_every_instant_is_a_date t).mp ht
  obtain ⟨e1, -, -, -, e5⟩ := format_texts ht zone
  rw [fields_time hf] at e1 e5
  have c := shownOffset_cut f.time.loc.offset
  intro layout hl
  refine ⟨onShownClock f.time, ?_, c, rfl, ?_⟩
  · rcases List.mem_cons.mp hl with rfl | hl
    · rw [e1]
      exact read_long hf ho (.inr (digits_two _)) (num_two (day_lt hf))
    · rw [List.mem_singleton.mp hl, e5]
      exact read_long hf ho (appendInt_zero (day_lt hf)).1 (appendInt_zero (day_lt hf)).2
  · unfold onShownClock
    dsimp only
    omega

/-- With `time.RFC1123` the zone is written by name: for the names that the package knows, with their offsets, the very time comes back. -/
theorem C75_zone_names (P : Predictor) (env : Env) {t : GoTime} (ht : InRange t) {zone : List Char} {hours : Int} (hn : t.loc.name = encode zone)
    (hz : (lower zone, hours) ∈ zoneNames) (ho : t.loc.offset = 3600 * hours) : parseDateTime P env (encode (format RFC1123 t zone)) = .ok (t, none) := by
  obtain ⟨f, hf, rfl⟩ := (C75_every_instant_is_a_date t).mp ht
  obtain ⟨-, e2, -, -, -⟩ := format_texts ht zone
  rw [fields_time hf] at e2
  rw [e2]
  have h1 := long_upTo (now := env.nowYear) hf (.inr (digits_two _)) (num_two (day_lt hf)) optCfws_sp f.zone
  have h2 := dateTime_upTo h1 (.named hz) optCfws_nil
  rw [List.append_nil, List.append_assoc] at h2
  rw [parseDateTime_encode h2]
  have e : f.zone = ⟨utf8 zone, 3600 * hours⟩ := by
    have a1 : f.zone.name = encode zone := hn
    have a2 : f.zone.offset = 3600 * hours := ho
    rw [encode_eq] at a1
    rw [← a1, ← a2]
  rw [← e]

/-- All other names of letters are rejected, as `CET`. -/
theorem C75_other_zone_names (P : Predictor) (env : Env) {t : GoTime} (ht : InRange t) {zone : List Char} (hne : zone ≠ []) (ha : ∀ c ∈ zone, c.isAlpha)
    (hn : lower zone ∉ zoneNames.map Prod.fst) : ∀ layout ∈ [RFC1123, RFC822], parseDateTime P env (encode (format layout t zone)) = .ok (zeroTime, some .syntaxError) := by
  obtain ⟨f, hf, rfl⟩ := (C75_every_instant_is_a_date t).mp ht
  obtain ⟨-, e2, -, e4, -⟩ := format_texts ht zone
  rw [fields_time hf] at e2 e4
  intro layout hl
  rcases List.mem_cons.mp hl with rfl | hl
  · rw [e2]
    have h1 := long_upTo (now := env.nowYear) hf (.inr (digits_two _)) (num_two (day_lt hf)) optCfws_sp f.zone
    have h2 := C35_other_zones_are_errors P env h1 hne ha hn optCfws_nil
    rwa [List.append_nil, List.append_assoc] at h2
  · rw [List.mem_singleton.mp hl, e4]
    have h1 := short_upTo (now := env.nowYear) hf optCfws_sp f.zone
    have h2 := C35_other_zones_are_errors P env h1 hne ha hn optCfws_nil
    rwa [List.append_nil, List.append_assoc] at h2

/-- With `time.RFC822Z` the year has two digits and there are no seconds.  Dates of the last hundred years come back, to the minute; later ones a hundred years too early. -/
theorem C75_two_digit_years (P : Predictor) (env : Env) (hnow : 2000 ≤ env.nowYear ∧ env.nowYear < 2100) {f : Fields} (hf : Proper f) (ho : f.zone.offset.natAbs < 360000)
    (hy : env.nowYear - 100 < f.year ∧ f.year < env.nowYear + 100 ∧ f.year < 2100) (zone : List Char) :
    parseDateTime P env (encode (format RFC822Z f.time zone)) =
      .ok (Fields.time { f with sec := 0, year := if (f.year : Int) ≤ env.nowYear then f.year else f.year - 100, zone := (shownOffset f.zone.offset).location }, none) := by
  obtain ⟨-, -, e3, -, -⟩ := format_texts (inRange_of hf) zone
  rw [fields_time hf] at e3
  rw [e3]
  have h1 := short_upTo (now := env.nowYear) hf optCfws_nil f.zone
  rw [List.append_nil] at h1
  have h2 := dateTime_upTo h1 (zone_shown ho) optCfws_nil
  rw [List.append_nil] at h2
  rw [show f.time.loc = f.zone from rfl, parseDateTime_encode h2]
  have hm : env.nowYear.tmod 100 = env.nowYear - 2000 := by
    obtain ⟨n, hn⟩ : ∃ n : Nat, env.nowYear = n := ⟨env.nowYear.toNat, by omega⟩
    rw [hn] at hnow ⊢
    rw [show (n : Int).tmod 100 = ((n % 100 : Nat) : Int) from rfl]
    omega
  have e : (if ((f.year % 100 : Nat) : Int) > env.nowYear.tmod 100 then 1900 + f.year % 100 else 2000 + f.year % 100) =
      if (f.year : Int) ≤ env.nowYear then f.year else f.year - 100 := by
    rw [hm]
    split <;> split <;> omega
  rw [e]

/-- Zones are whole minutes away. -/
theorem zone_minutes {z : List Char} {l : Location} (h : Zone z l) : l.offset % 60 = 0 := by
  have key : ∀ a b : Nat, ((3600 * a + 60 * b : Int)) % 60 = 0 := fun a b => by omega
  cases h with
  | none => rfl
  | numeric _ h =>
    cases h with
    | plus => exact key _ _
    | minus => dsimp only; omega
    | unsigned => exact key _ _
  | named => dsimp only; omega

/-- What has been read, in whatever form, and is then written by `Format` with RFC1123Z, is read back as the same instant and offset, and written in the same way again. -/
theorem C75_read_and_written (P : Predictor) (env : Env) {input : Bytes} {u : GoTime} (h : parseDateTime P env input = .ok (u, none)) (hu : InRange u)
    (ho : u.loc.offset.natAbs < 360000) (zone : List Char) :
    ∃ v, parseDateTime P env (encode (format RFC1123Z u zone)) = .ok (v, none) ∧ v.unix = u.unix ∧ v.loc.offset = u.loc.offset ∧
      ∀ zone', format RFC1123Z v zone' = format RFC1123Z u zone := by
  have h60 : u.loc.offset % 60 = 0 := by
    by_cases hne : input = []
    · subst hne
      cases (show Except.ok (zeroTime, none) = Except.ok (u, none) from h)
      rfl
    · rcases parseDateTime_spec P env hne with ⟨f, hf, h1⟩ | ⟨-, h1⟩
      · have e : u = f.time := by
          rw [h] at h1
          injection h1 with h1
          injection h1
        rw [e]
        change f.zone.offset % 60 = 0
        obtain ⟨_, _, _, _, _, _, _, _, _, -, -, -, -, -, -, -, hz, -⟩ := hf
        exact zone_minutes hz
      · rw [h] at h1
        cases h1
  exact ⟨_, C75_format_is_read_back P env hu ho h60 zone _ (List.mem_cons_self ..), rfl, rfl, fun _ => rfl⟩

/-! Offsets of a hundred hours or more have three or more digits for the hours, and are not read back. -/

theorem digits_all : ∀ (n u : Nat) (acc : List Char), (∀ c ∈ acc, isDigit c = true) → (∀ c ∈ digits n u acc, isDigit c = true) ∧ acc.length ≤ (digits n u acc).length
  | 0, _, _, h => ⟨h, Nat.le_refl _⟩
  | n + 1, u, acc, h => by
    by_cases hu : u < 10
    · rw [digits_1 hu]
      refine ⟨fun c hc => ?_, by simp⟩
      rcases List.mem_cons.mp hc with rfl | hc
      · exact isDigit_digit u
      · exact h c hc
    · rw [digits_2 (by omega)]
      have := digits_all n (u / 10) (digit u :: acc) (fun c hc => by
        rcases List.mem_cons.mp hc with rfl | hc
        · exact isDigit_digit u
        · exact h c hc)
      refine ⟨this.1, ?_⟩
      have h2 := this.2
      rw [List.length_cons] at h2
      omega

theorem appendInt_digits (n w : Nat) : (∀ c ∈ appendInt n w, isDigit c = true) ∧ w ≤ (appendInt n w).length ∧ (100 ≤ n → 3 ≤ (appendInt n w).length) := by
  unfold appendInt
  dsimp only
  rw [if_neg (by omega), Int.natAbs_natCast]
  have h := digits_all 20 n [] (by simp)
  refine ⟨fun c hc => ?_, by rw [List.length_append, List.length_replicate]; omega, fun hn => ?_⟩
  · rcases List.mem_append.mp hc with hc | hc
    · rw [(List.mem_replicate.mp hc).2]; decide
    · exact h.1 c hc
  · rw [digits_2 (by omega), digits_2 (by omega), List.length_append]
    have h1 : 1 ≤ n / 10 / 10 := by omega
    have : 3 ≤ (digits 18 (n / 10 / 10) [digit (n / 10), digit n]).length := by
      by_cases hu : n / 10 / 10 < 10
      · rw [digits_1 hu]; simp
      · rw [digits_2 (by omega)]
        have := (digits_all 17 (n / 10 / 10 / 10) [digit (n / 10 / 10), digit (n / 10), digit n] (by
          intro c hc
          simp only [List.mem_cons, List.not_mem_nil, or_false] at hc
          rcases hc with rfl | rfl | rfl <;> exact isDigit_digit _)).2
        simpa using this
    omega

theorem numericZone_long {o : Int} (h : 360000 ≤ o.natAbs) : ∃ s ds, numericZone o = s :: ds ∧ (s = '+' ∨ s = '-') ∧ (∀ c ∈ ds, isDigit c = true) ∧ 5 ≤ ds.length := by
  have key : ∀ z : Nat, 6000 ≤ z → ∃ ds, appendInt ((z : Int).tdiv 60) 2 ++ appendInt ((z : Int).tmod 60) 2 = ds ∧ (∀ c ∈ ds, isDigit c = true) ∧ 5 ≤ ds.length := by
    intro z hz
    refine ⟨_, rfl, ?_⟩
    rw [show (z : Int).tdiv 60 = ((z / 60 : Nat) : Int) from rfl, show (z : Int).tmod 60 = ((z % 60 : Nat) : Int) from rfl]
    have h1 := appendInt_digits (z / 60) 2
    have h2 := appendInt_digits (z % 60) 2
    refine ⟨fun c hc => (List.mem_append.mp hc).elim (h1.1 c) (h2.1 c), ?_⟩
    rw [List.length_append]
    have := h1.2.2 (by omega)
    omega
  unfold numericZone
  dsimp only
  rcases Int.lt_or_le o 0 with c | c
  · have e : o.tdiv 60 = -((o.natAbs / 60 : Nat) : Int) := by
      rw [show o = -(o.natAbs : Int) by omega, Int.neg_tdiv, Int.natAbs_neg, Int.natAbs_natCast]
      rfl
    rw [e, if_pos (by omega), Int.neg_neg]
    obtain ⟨ds, h1, h2⟩ := key (o.natAbs / 60) (by omega)
    exact ⟨'-', ds, by rw [h1], .inr rfl, h2⟩
  · have e : o.tdiv 60 = ((o.natAbs / 60 : Nat) : Int) := by
      rw [show o = (o.natAbs : Int) by omega, Int.natAbs_natCast]
      rfl
    rw [e, if_neg (by omega)]
    obtain ⟨ds, h1, h2⟩ := key (o.natAbs / 60) (by omega)
    exact ⟨'+', ds, by rw [h1], .inl rfl, h2⟩

/-- No reading of a text whose zone has a sign and five digits or more. -/
theorem long_zone_rejected (P : Predictor) (env : Env) {p z : List Char} {f : Fields} (hp : UpToSeconds env.nowYear p f)
    (hz : ∃ s ds, z = s :: ds ∧ (s = '+' ∨ s = '-') ∧ (∀ c ∈ ds, isDigit c = true) ∧ 5 ≤ ds.length) :
    parseDateTime P env (encode (p ++ z)) = .ok (zeroTime, some .syntaxError) := by
  obtain ⟨s, ds, rfl, hs, hd, hl⟩ := hz
  have hsol : ∀ c ∈ s :: ds, solid c = true := fun c hc => by
    rcases List.mem_cons.mp hc with rfl | hc
    · rcases hs with rfl | rfl <;> decide
    · exact digit_solid (hd c hc)
  refine parseDateTime_reject (encode_ne_nil (by simp)) fun g hg => ?_
  have hb : dropAstral (p ++ (s :: ds)) = p ++ (s :: ds) := by
    have b1 : dropAstral (p ++ ([] ++ [])) = p ++ ([] ++ []) := dropAstral_of (dateTime_bmp (dateTime_upTo hp (z := []) .none optCfws_nil))
    refine dropAstral_of fun x hx => ?_
    have b2 := List.filter_eq_self.mp b1
    rcases List.mem_append.mp hx with hx | hx
    · exact b2 x (List.mem_append_left _ hx)
    · simp only [bmp, decide_eq_true_eq]
      rcases List.mem_cons.mp hx with rfl | hx
      · rcases hs with rfl | rfl <;> decide
      · have := isDigit_iff.mp (hd x hx)
        omega
  rw [tokens_encode, hb] at hg
  have hz := zone_needed hp hsol (by rintro r h; injection h with h _; rcases hs with rfl | rfl <;> exact absurd h (by decide)) optCfws_nil (by rw [List.append_nil]; exact hg)
  have hlen : 6 ≤ (s :: ds).length := by rw [List.length_cons]; omega
  generalize g.zone = l at hz
  generalize hu : s :: ds = u at hz hlen
  cases hz with
  | none => simp at hlen
  | numeric h =>
    cases h with
    | plus a b => rw [List.length_cons, List.length_append, a.1, b.1] at hlen; omega
    | minus a b => rw [List.length_cons, List.length_append, a.1, b.1] at hlen; omega
    | unsigned a b => rw [List.length_append, a.1, b.1] at hlen; omega
  | named h =>
    have h1 := zoneNames_mem h
    have h2 : ∀ n ∈ zoneNames.map Prod.fst, n.length < 6 := by decide
    have h3 := h2 _ h1
    unfold lower at h3
    rw [List.length_map] at h3
    omega

/-- Offsets of a hundred hours or more cannot be read back: `Format` writes more than two digits for the hours, and the text is rejected. -/
theorem C75_hundred_hours (P : Predictor) (env : Env) {t : GoTime} (ht : InRange t) (ho : 360000 ≤ t.loc.offset.natAbs) (zone : List Char) :
    ∀ layout ∈ [RFC1123Z, mailDate, RFC822Z], parseDateTime P env (encode (format layout t zone)) = .ok (zeroTime, some .syntaxError) := by
  obtain ⟨f, hf, rfl⟩ := (C75_every_instant_is_a_date t).mp ht
  obtain ⟨e1, -, e3, -, e5⟩ := format_texts ht zone
  rw [fields_time hf] at e1 e3 e5
  have hz := numericZone_long ho
  intro layout hl
  simp only [List.mem_cons, List.not_mem_nil, or_false] at hl
  rcases hl with rfl | rfl | rfl
  · rw [e1, ← List.append_assoc]
    exact long_zone_rejected P env (long_upTo hf (.inr (digits_two _)) (num_two (day_lt hf)) optCfws_sp f.zone) hz
  · rw [e5, ← List.append_assoc]
    exact long_zone_rejected P env (long_upTo hf (appendInt_zero (day_lt hf)).1 (appendInt_zero (day_lt hf)).2 optCfws_sp f.zone) hz
  · rw [e3, ← List.append_assoc]
    exact long_zone_rejected P env (short_upTo hf optCfws_sp f.zone) hz

/-! ## Examples -/

/-- `2006-01-02 15:04:05` in the zone `MST`. -/
def mst : GoTime := ⟨1136239445, ⟨b!"MST", -25200⟩⟩

example : InRange mst ∧ mst.loc.offset.natAbs < 360000 ∧ mst.loc.offset % 60 = 0 := by unfold InRange; decide
example : format RFC1123Z mst c!"MST" = c!"Mon, 02 Jan 2006 15:04:05 -0700" := by decide +kernel
example : format RFC1123 mst c!"MST" = c!"Mon, 02 Jan 2006 15:04:05 MST" := by decide +kernel
example : format RFC822Z mst c!"MST" = c!"02 Jan 06 15:04 -0700" := by decide +kernel
example : format RFC822 mst c!"MST" = c!"02 Jan 06 15:04 MST" := by decide +kernel
example : format mailDate mst c!"MST" = c!"Mon, 2 Jan 2006 15:04:05 -0700" := by decide +kernel
example : mst.loc.name = encode c!"MST" ∧ (lower c!"MST", -7) ∈ zoneNames ∧ mst.loc.offset = 3600 * -7 := by decide +kernel
example : format RFC1123Z ⟨951782400, ⟨b!"", -45⟩⟩ [] = c!"Mon, 28 Feb 2000 23:59:15 +0000" := by decide +kernel
example : format RFC1123Z ⟨951782400, ⟨b!"", 19800⟩⟩ [] = c!"Tue, 29 Feb 2000 05:30:00 +0530" := by decide +kernel
example : Proper ⟨29, 2, 2000, 5, 30, 0, ⟨b!"", 19800⟩⟩ := ⟨by decide, by decide, by decide, by decide, by decide, by decide⟩
example : ¬ Proper ⟨29, 2, 1900, 5, 30, 0, ⟨b!"", 19800⟩⟩ := fun h => absurd h.day (by decide)

/-- An obsolete form, read, written and read again. -/
example (P : Predictor) : ∃ u v, parseDateTime P env0 (encode c!"1 jAn 2000 (x) 12:00 eSt") = .ok (u, none) ∧ format RFC1123Z u [] = c!"Sat, 01 Jan 2000 12:00:00 -0500" ∧
    parseDateTime P env0 (encode c!"Sat, 01 Jan 2000 12:00:00 -0500") = .ok (v, none) ∧ v.unix = u.unix ∧ format RFC1123Z v [] = format RFC1123Z u [] := by
  have h : parseDateTime P env0 (encode c!"1 jAn 2000 (x) 12:00 eSt") = .ok (⟨946746000, ⟨b!"eSt", -18000⟩⟩, none) := by eval_date
  obtain ⟨v, h1, h2, -, h3⟩ := C75_read_and_written P env0 h (by unfold InRange; decide) (by decide) []
  have e : format RFC1123Z ⟨946746000, ⟨b!"eSt", -18000⟩⟩ [] = c!"Sat, 01 Jan 2000 12:00:00 -0500" := by decide +kernel
  rw [e] at h1
  exact ⟨_, v, h, e, h1, h2, h3 []⟩

/-- Such a date can be read in the first place, but not read, written and read again. -/
example (P : Predictor) : ∃ u, parseDateTime P env0 (encode c!"2 Jan 2006 15:04 +9999") = .ok (u, none) ∧ format RFC1123Z u [] = c!"Mon, 02 Jan 2006 15:04:00 +10039" ∧
    parseDateTime P env0 (encode c!"Mon, 02 Jan 2006 15:04:00 +10039") = .ok (zeroTime, some .syntaxError) := by
  have h : parseDateTime P env0 (encode c!"2 Jan 2006 15:04 +9999") = .ok (⟨1135851900, ⟨b!"+9999", 362340⟩⟩, none) := by eval_date
  have e : format RFC1123Z ⟨1135851900, ⟨b!"+9999", 362340⟩⟩ [] = c!"Mon, 02 Jan 2006 15:04:00 +10039" := by decide +kernel
  have h2 := C75_hundred_hours P env0 (t := ⟨1135851900, ⟨b!"+9999", 362340⟩⟩) (by unfold InRange; decide) (by decide) [] RFC1123Z (by simp)
  rw [e] at h2
  exact ⟨_, h, e, h2⟩

end Rfc5322.Props
