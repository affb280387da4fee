import Verif.Proofs.Zones
import Verif.Proofs.Lists

/-!
# `ParseDateTime` against the specification
-/

namespace Rfc5322

open Spec

variable {env : Env} {Q : Rule → Prop}

theorem means_dayOfweek : Means plainK env Gr.dayOfweek
    (.quiet fun t => ∃ a n b, OptCfws a ∧ lower n ∈ dayNames ∧ OptCfws b ∧ t = a ++ (n ++ b)) := by
  have body := (means_fws_plain.opt.seq (means_dayName (env := env))).alt
    (means_optCfws.seq ((means_dayName (env := env)).seq means_optCfws))
  refine (body.silent (r := .dayOfweek) rfl).congr fun t f => ?_
  constructor
  · rintro (⟨a, _, n, _, ha, ⟨hn, rfl⟩, rfl, rfl⟩ | ⟨a, _, _, _, ⟨ha, rfl⟩, ⟨n, _, b, _, ⟨hn, rfl⟩, ⟨hb, rfl⟩, rfl, rfl⟩, rfl, rfl⟩)
    · rcases ha with ⟨ha, rfl⟩ | ⟨rfl, rfl⟩
      · exact ⟨⟨a, n, [], fws_cfws ha, hn, OptCfws.nil, by simp⟩, rfl⟩
      · exact ⟨⟨[], n, [], OptCfws.nil, hn, OptCfws.nil, by simp⟩, rfl⟩
    · exact ⟨⟨a, n, b, ha, hn, hb, rfl⟩, rfl⟩
  · rintro ⟨⟨a, n, b, ha, hn, hb, rfl⟩, rfl⟩
    exact .inr ⟨a, _, _, _, ⟨ha, rfl⟩, ⟨n, _, b, _, ⟨hn, rfl⟩, ⟨hb, rfl⟩, rfl, rfl⟩, rfl, rfl⟩

/-- Denotation of an expression that ends at the end of the input. -/
structure EndMeans (env : Env) (g : G) (L : Lang) : Prop where
  sound : ∀ {s ts s'}, Derives g s ts s' → s' = [] ∧ ∃ f, L s f ∧ Eff plainK env ts f
  complete : ∀ {t f}, L t f → ∃ ts, Derives g t ts [] ∧ Eff plainK env ts f

theorem EndMeans.eof : EndMeans env .eof .eps where
  sound hd := by cases hd; exact ⟨rfl, id, ⟨rfl, rfl⟩, .eof⟩
  complete := by rintro t f ⟨rfl, rfl⟩; exact ⟨_, .eof, .eof⟩

theorem EndMeans.seq {a b A B} (ha : Means plainK env a A) (hb : EndMeans env b B) : EndMeans env (a ⬝ b) (.seq A B) where
  sound hd := by
    cases hd with
    | seq h1 h2 =>
      obtain ⟨t, f, rfl, h3, _, h5⟩ := ha.sound h1
      obtain ⟨rfl, g, h6, h7⟩ := hb.sound h2
      exact ⟨rfl, _, ⟨t, f, _, g, h3, h6, rfl, rfl⟩, h5.append h7⟩
  complete := by
    rintro t f ⟨t, f, u, g, h3, h6, rfl, rfl⟩
    obtain ⟨us, d2, e2⟩ := hb.complete h6
    obtain ⟨ts, d1, _, e1⟩ := ha.complete h3 u
    exact ⟨ts ++ us, .seq d1 d2, e1.append e2⟩

/-- The date-time struct holding the fields. -/
def dateNode (f : Fields) : Node := .dateTime f.day f.month f.year f.hour f.min f.sec f.zone

theorem walk_date {ts f} {g : Node → Node} (h : Eff plainK env ts g)
    (hg : g (.dateTime 0 0 0 0 0 0 utcLoc) = dateNode f) :
    walkList env [.node .dateTime ts] Walker.init =
      .ok ⟨[], some (.time (goDate f.year f.month f.day f.hour f.min f.sec f.zone)), none⟩ := by
  have h2 := h.run (.dateTime 0 0 0 0 0 0 utcLoc) [] none none (plainK_of rfl)
  rw [walkList_single]
  simp only [walk, enterRule, Walker.init, Walker.enter, h2, hg]
  simp [exitRule, exitDateTime, dateNode]

theorem month_bounds {t m} (h : Month t m) : 1 ≤ m ∧ m ≤ 12 := by
  obtain ⟨h1, h2⟩ := h
  obtain ⟨hl, _⟩ := List.getElem?_eq_some_iff.mp h2
  have : m - 1 < 12 := hl
  omega

/-- The parts of a date-time. -/
def dateLang (env : Env) : Lang :=
  .seq (.alt (.seq (.quiet fun t => ∃ a n b, OptCfws a ∧ lower n ∈ dayNames ∧ OptCfws b ∧ t = a ++ (n ++ b)) (.lit ',')) .eps) <|
  .seq (.value (Padded Digits12) fun v => deliver (.day v)) <|
  .seq (.value Month fun m : Nat => deliver (.month m)) <|
  .seq (.value (Year env.nowYear) fun v => deliver (.year v)) <|
  .seq (.value (Padded Digits12) fun v => deliver (.hour v)) <|
  .seq (.lit ':') <|
  .seq (.value (Padded (Digits 2)) fun v => deliver (.minute v)) <|
  .seq (.alt (.seq (.lit ':') (.value (Padded (Digits 2)) fun v => deliver (.second v))) .eps) <|
  .seq (.alt (.value (fun t l => (∃ f z, Fws f ∧ NumericZone z l ∧ t = f ++ z) ∨
      ∃ h, (lower t, h) ∈ zoneNames ∧ l = ⟨utf8 t, 3600 * h⟩) fun l => deliver (.zone l)) .eps) <|
  .seq (.quiet OptCfws) .eps

theorem endMeans_date : EndMeans env
    (.opt (Gr.dayOfweek ⬝ .t .Comma) ⬝ Gr.day ⬝ Gr.month ⬝ Gr.year ⬝ Gr.hour ⬝ .t .Colon ⬝ Gr.minute ⬝ .opt (.t .Colon ⬝
      Gr.second) ⬝ .opt Gr.zone ⬝ .opt Gr.cfws ⬝ .eof) (dateLang env) :=
  .seq (means_dayOfweek.seq (Means.lit (by decide) (by decide +kernel) (by decide))).opt <|
  .seq means_day <| .seq means_month <| .seq means_year <| .seq means_hour <|
  .seq (Means.lit (by decide) (by decide +kernel) (by decide)) <| .seq means_minute <|
  .seq ((Means.lit (by decide) (by decide +kernel) (by decide)).seq means_second).opt <|
  .seq means_zone.opt <| .seq means_optCfws .eof

theorem dateLang_iff {t g} (h : dateLang env t g) :
    ∃ f, DateTime env.nowYear t f ∧ g (.dateTime 0 0 0 0 0 0 utcLoc) = dateNode f := by
  obtain ⟨dw, gdw, _, _, hdw, ⟨d, _, _, _, ⟨vd, hd, rfl⟩, ⟨mo, _, _, _, ⟨vm, hm, rfl⟩, ⟨y, _, _, _, ⟨vy, hy, rfl⟩, ⟨hr, _, _, _, ⟨vh, hh, rfl⟩,
    ⟨_, _, _, _, ⟨rfl, rfl⟩, ⟨mi, _, _, _, ⟨vi, hi, rfl⟩, ⟨s, _, _, _, hs, ⟨z, _, _, _, hz, ⟨c, _, _, _, ⟨hc, rfl⟩, ⟨rfl, rfl⟩,
    rfl, rfl⟩, rfl, rfl⟩, rfl, rfl⟩, rfl, rfl⟩, rfl, rfl⟩, rfl, rfl⟩, rfl, rfl⟩, rfl, rfl⟩, rfl, rfl⟩, rfl, rfl⟩ := h
  have hdw' : DayOfWeek dw ∧ gdw = id := by
    rcases hdw with ⟨_, _, _, _, ⟨⟨a, n, b, ha, hn, hb, rfl⟩, rfl⟩, ⟨rfl, rfl⟩, rfl, rfl⟩ | ⟨rfl, rfl⟩
    · exact ⟨.inr ⟨a, n, b, ha, hn, hb, by simp⟩, rfl⟩
    · exact ⟨.inl rfl, rfl⟩
  obtain ⟨hdw', rfl⟩ := hdw'
  rcases hs with ⟨_, _, u, _, ⟨rfl, rfl⟩, ⟨vs, hs, rfl⟩, rfl, rfl⟩ | ⟨rfl, rfl⟩ <;>
  rcases hz with ⟨l, ⟨f, z, hf, hz, rfl⟩ | ⟨o, hz, rfl⟩, rfl⟩ | ⟨rfl, rfl⟩
  · exact ⟨⟨vd, vm, vy, vh, vi, vs, l⟩, ⟨dw, d, mo, y, hr, mi, _, _, c, hdw', hd, hm, hy, hh, hi, .some hs, .numeric hf hz, hc, by simp⟩, rfl⟩
  · exact ⟨⟨vd, vm, vy, vh, vi, vs, _⟩, ⟨dw, d, mo, y, hr, mi, _, _, c, hdw', hd, hm, hy, hh, hi, .some hs, .named hz, hc, by simp⟩, rfl⟩
  · exact ⟨⟨vd, vm, vy, vh, vi, vs, _⟩, ⟨dw, d, mo, y, hr, mi, _, _, c, hdw', hd, hm, hy, hh, hi, .some hs, .none, hc, by simp⟩, rfl⟩
  · exact ⟨⟨vd, vm, vy, vh, vi, 0, l⟩, ⟨dw, d, mo, y, hr, mi, _, _, c, hdw', hd, hm, hy, hh, hi, .none, .numeric hf hz, hc, by simp⟩, rfl⟩
  · exact ⟨⟨vd, vm, vy, vh, vi, 0, _⟩, ⟨dw, d, mo, y, hr, mi, _, _, c, hdw', hd, hm, hy, hh, hi, .none, .named hz, hc, by simp⟩, rfl⟩
  · exact ⟨⟨vd, vm, vy, vh, vi, 0, _⟩, ⟨dw, d, mo, y, hr, mi, _, _, c, hdw', hd, hm, hy, hh, hi, .none, .none, hc, by simp⟩, rfl⟩

theorem dateLang_of {t f} (h : DateTime env.nowYear t f) : ∃ g, dateLang env t g := by
  obtain ⟨dw, d, mo, y, hr, mi, s, z, c, hdw, hd, hm, hy, hh, hi, hs, hz, hc, rfl⟩ := h
  have hs' : ∃ g, Lang.alt (.seq (.lit ':') (.value (Padded (Digits 2)) fun v : Nat => deliver (.second v))) .eps s g := by
    generalize f.sec = sv at hs
    cases hs with
    | none => exact ⟨id, .inr ⟨rfl, rfl⟩⟩
    | some h => exact ⟨_, .inl ⟨_, _, _, _, ⟨rfl, rfl⟩, ⟨_, h, rfl⟩, rfl, rfl⟩⟩
  obtain ⟨gs, hs'⟩ := hs'
  have hz' : ∃ g, Lang.alt (.value (fun t l => (∃ f z, Fws f ∧ NumericZone z l ∧ t = f ++ z) ∨
      ∃ h, (lower t, h) ∈ zoneNames ∧ l = ⟨utf8 t, 3600 * h⟩) fun l => deliver (.zone l)) .eps z g := by
    generalize f.zone = l at hz
    cases hz with
    | none => exact ⟨id, .inr ⟨rfl, rfl⟩⟩
    | numeric h1 h2 => exact ⟨_, .inl ⟨_, .inl ⟨_, _, h1, h2, rfl⟩, rfl⟩⟩
    | named h => exact ⟨_, .inl ⟨_, .inr ⟨_, h, rfl⟩, rfl⟩⟩
  obtain ⟨gz, hz'⟩ := hz'
  have hd' : ∃ g, Lang.alt (.seq (.quiet fun t => ∃ a n b, OptCfws a ∧ lower n ∈ dayNames ∧ OptCfws b ∧ t = a ++ (n ++ b))
      (.lit ',')) .eps dw g := by
    rcases hdw with rfl | ⟨a, n, b, ha, hn, hb, rfl⟩
    · exact ⟨id, .inr ⟨rfl, rfl⟩⟩
    · exact ⟨_, .inl ⟨a ++ (n ++ b), _, _, _, ⟨⟨a, n, b, ha, hn, hb, rfl⟩, rfl⟩, ⟨rfl, rfl⟩, by simp, rfl⟩⟩
  obtain ⟨gd, hd'⟩ := hd'
  exact ⟨_, dw, _, _, _, hd', ⟨d, _, _, _, ⟨_, hd, rfl⟩, ⟨mo, _, _, _, ⟨_, hm, rfl⟩, ⟨y, _, _, _, ⟨_, hy, rfl⟩, ⟨hr, _, _, _, ⟨_, hh, rfl⟩,
    ⟨[':'], _, _, _, ⟨rfl, rfl⟩, ⟨mi, _, _, _, ⟨_, hi, rfl⟩, ⟨s, _, _, _, hs', ⟨z, _, _, _, hz', ⟨c, _, [], _, ⟨hc, rfl⟩, ⟨rfl, rfl⟩,
    by simp, rfl⟩, rfl, rfl⟩, rfl, rfl⟩, rfl, rfl⟩, rfl, rfl⟩, rfl, rfl⟩, rfl, rfl⟩, rfl, rfl⟩, rfl, rfl⟩, rfl, rfl⟩

/-- `ParseDateTime` on a non-empty input: a reading of the text, or a syntax error when there is none. -/
theorem parseDateTime_spec (P : Predictor) (env : Env) {input : Bytes} (hne : input ≠ []) :
    (∃ f, DateTime env.nowYear (tokens input) f ∧ parseDateTime P env input = .ok (f.time, none)) ∨
    ((∀ f, ¬ DateTime env.nowYear (tokens input) f) ∧
      parseDateTime P env input = .ok (zeroTime, some .syntaxError)) := by
  have h0 : input.length ≠ 0 := by simpa using hne
  have hw : Gr.dateTime.wf = true := by decide
  unfold parseDateTime
  rw [if_neg h0, descend_eq_search P Gr.dateTime hw]
  cases hs : search Gr.dateTime (tokens input) with
  | none =>
    refine .inr ⟨fun f hf => ?_, rfl⟩
    obtain ⟨g, hg⟩ := dateLang_of hf
    obtain ⟨ts, hd, _⟩ := endMeans_date.complete hg
    have := (search_isSome_iff (s := tokens input) hw).mpr ⟨_, .rule hd⟩
    rw [hs] at this; exact absurd this (by simp)
  | some ts =>
    have hd := search_sound hs
    unfold Gr.dateTime at hd
    cases hd with
    | rule hd =>
      obtain ⟨_, g, hg, he⟩ := (endMeans_date (env := env)).sound hd
      obtain ⟨f, hf, hn⟩ := dateLang_iff hg
      refine .inl ⟨f, hf, ?_⟩
      dsimp only
      rw [walk_date he hn]
      obtain ⟨_, _, _, _, _, _, _, _, _, _, _, hm, _⟩ := hf
      obtain ⟨h1, h2⟩ := month_bounds hm
      simp only [goDate_eq f h1 h2]

end Rfc5322
