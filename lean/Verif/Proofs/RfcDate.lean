import Verif.Spec.RfcDate
import Verif.Proofs.RfcDerive

/-!
# Dates of RFC 5322 and their meaning
-/

namespace Rfc5322.Rfc

open Name Abnf

theorem dec_eq (x : List Char) : decimal x = Spec.num x := rfl

theorem dateTime_spec {now : Int} {t m} (h : DateTime t m) : ∃ f, Spec.DateTime now t f ∧ f.time.unix = m.instant ∧ f.time.loc.offset = 60 * m.zone := by
  cases h with
  | @mk w f₁ d f₂ name mo k f₃ y f₄ h mi s sec f₅ z zone c hw hf1 hd hf2 hk hmo hf3 hy hf4 hh hmi hs hf5 hz hc =>
    have nil : Spec.OptCfws [] := OptCfws.nil
    have fws : ∀ {f}, Derivable current FWS f → Spec.Fws f := fun h => d_FWS.mp (cur_acc h)
    have dig : ∀ {n x}, Derivable current (times n DIGIT) x → Spec.Digits n x := fun h => d_digits.mp (cur_acc h)
    have hday : Spec.Padded Spec.Digits12 (f₁ ++ (d ++ f₂)) (decimal d) :=
      ⟨f₁, d, f₂, optFws_optCfws (cur_fws hf1), d_digits12.mp (cur_acc hd), fws_optCfws (fws hf2), rfl, rfl⟩
    have hmonth : Spec.Month mo (k + 1) := by
      refine ⟨by omega, ?_⟩
      have e : Spec.lower mo = Spec.lower name := d_name.mp (cur_acc hmo)
      rw [e, Nat.add_sub_cancel, show Spec.monthNames = months.map Spec.lower by decide, List.getElem?_map, hk]
      rfl
    have hyear : Spec.Year now (f₃ ++ (y ++ f₄)) (decimal y) := .four (fws hf3) (dig hy) (fws hf4)
    have pad : ∀ {x}, Derivable current (times 2 DIGIT) x → Spec.Padded (Spec.Digits 2) x (decimal x) :=
      fun {x} hx => ⟨[], x, [], nil, dig hx, nil, by simp, rfl⟩
    have hhour : Spec.Padded Spec.Digits12 h (decimal h) := ⟨[], h, [], nil, .inr (dig hh), nil, by simp, rfl⟩
    have hsec : Spec.Seconds s sec := by
      cases hs with
      | none => exact .none
      | some hx => exact .some (pad hx)
    obtain ⟨loc, hz1, hz2⟩ : ∃ loc, Spec.Zone (f₅ ++ z) loc ∧ loc.offset = 60 * zone := by
      cases hz with
      | east h1 h2 => exact ⟨_, .numeric (fws hf5) (.plus (dig h1) (dig h2)), by simp only [dec_eq]; omega⟩
      | west h1 h2 => exact ⟨_, .numeric (fws hf5) (.minus (dig h1) (dig h2)), by simp only [dec_eq]; omega⟩
    refine ⟨⟨decimal d, k + 1, decimal y, decimal h, decimal mi, sec, loc⟩, ⟨w, _, mo, _, h, mi, s, _, c, d_dayOfWeek.mp (cur_acc hw), hday, hmonth, hyear, hhour, pad hmi, hsec,
      hz1, cur_cfws hc, by simp⟩, ?_, hz2⟩
    simp only [Spec.Fields.time, Moment.instant, hz2]

/-! ## The meaning covers the grammar -/

theorem times_split {x} (h : Derivable current (times 4 DIGIT) x) :
    ∃ u v, Derivable current (times 2 DIGIT) u ∧ Derivable current (times 2 DIGIT) v ∧ x = u ++ v := by
  obtain ⟨xs, rfl, h1, h2, h3⟩ := d_rep.mp h
  have hl : xs.length = 4 := by have := h2 4 (by simp); omega
  refine ⟨(xs.take 2).flatten, (xs.drop 2).flatten, .rep (by simp [hl]) (by simp [hl]) fun x hx => h3 x (List.mem_of_mem_take hx),
    .rep (by simp [hl]) (by simp [hl]) fun x hx => h3 x (List.mem_of_mem_drop hx), ?_⟩
  rw [← List.flatten_append, List.take_append_drop]

theorem times_join {u v} (h : Derivable current (times 2 DIGIT) u) (h' : Derivable current (times 2 DIGIT) v) : Derivable current (times 4 DIGIT) (u ++ v) := by
  obtain ⟨xs, rfl, h1, h2, h3⟩ := d_rep.mp h
  obtain ⟨ys, rfl, h4, h5, h6⟩ := d_rep.mp h'
  have hl : xs.length = 2 := by have := h2 2 (by simp); omega
  have hl' : ys.length = 2 := by have := h5 2 (by simp); omega
  rw [← List.flatten_append]
  refine .rep (by simp [hl, hl']) (by simp [hl, hl']) fun x hx => ?_
  rcases List.mem_append.mp hx with hx | hx
  · exact h3 x hx
  · exact h6 x hx

theorem month_exists {x} (h : Derivable current Name.month x) : ∃ (k : Nat) (name : List Char), months[k]? = some name ∧ Derivable current (text name) x := by
  have h := d_rule.mp h
  rcases d_alt.mp h with h | h
  · exact ⟨0, _, rfl, h⟩
  rcases d_alt.mp h with h | h
  · exact ⟨1, _, rfl, h⟩
  rcases d_alt.mp h with h | h
  · exact ⟨2, _, rfl, h⟩
  rcases d_alt.mp h with h | h
  · exact ⟨3, _, rfl, h⟩
  rcases d_alt.mp h with h | h
  · exact ⟨4, _, rfl, h⟩
  rcases d_alt.mp h with h | h
  · exact ⟨5, _, rfl, h⟩
  rcases d_alt.mp h with h | h
  · exact ⟨6, _, rfl, h⟩
  rcases d_alt.mp h with h | h
  · exact ⟨7, _, rfl, h⟩
  rcases d_alt.mp h with h | h
  · exact ⟨8, _, rfl, h⟩
  rcases d_alt.mp h with h | h
  · exact ⟨9, _, rfl, h⟩
  rcases d_alt.mp h with h | h
  · exact ⟨10, _, rfl, h⟩
  · exact ⟨11, _, rfl, h⟩

theorem month_derives {k : Nat} {name x} (hk : months[k]? = some name) (h : Derivable current (text name) x) : Derivable current Name.month x := by
  refine .rule ?_
  have hm := List.mem_of_getElem? hk
  simp only [months, List.mem_cons, List.not_mem_nil, or_false] at hm
  show Derivable current (text c!"Jan" / text c!"Feb" / text c!"Mar" / text c!"Apr" / text c!"May" / text c!"Jun" / text c!"Jul" / text c!"Aug" / text c!"Sep" /
    text c!"Oct" / text c!"Nov" / text c!"Dec") x
  simp only [d_alt]
  rcases hm with rfl | rfl | rfl | rfl | rfl | rfl | rfl | rfl | rfl | rfl | rfl | rfl <;> simp [h]

theorem plain {n o x} {e : Abnf} (hn : current n = Abnf.alt e (Abnf.rule o)) (ho : current o = nothing) : Derivable current (.rule n) x ↔ Derivable current e x := by
  rw [d_rule, hn, d_alt]
  exact ⟨fun h => h.resolve_right (no_obs ho), .inl⟩

theorem zone_iff {x} : Derivable current Name.zone x ↔ ∃ f z v, Derivable current FWS f ∧ Zone z v ∧ x = f ++ z := by
  rw [plain (o := «obs-zone») (e := FWS ⬝ (text c!"+" / text c!"-") ⬝ times 4 DIGIT) rfl rfl]
  constructor
  · intro h
    obtain ⟨f, y, rfl, hf, h⟩ := d_seq.mp h
    obtain ⟨s, t, rfl, hs, ht⟩ := d_seq.mp h
    obtain ⟨u, v, hu, hv, rfl⟩ := times_split ht
    rcases d_alt.mp hs with hs | hs
    · rw [d_punct '+' (by decide)] at hs; subst hs; exact ⟨f, _, _, hf, .east hu hv, rfl⟩
    · rw [d_punct '-' (by decide)] at hs; subst hs; exact ⟨f, _, _, hf, .west hu hv, rfl⟩
  · rintro ⟨f, z, v, hf, hz, rfl⟩
    cases hz with
    | east hu hv => exact .seq hf (.seq (.left (p_ (d := '+'))) (times_join hu hv))
    | west hu hv => exact .seq hf (.seq (.right (p_ (d := '-'))) (times_join hu hv))

theorem seconds_iff {x} : Derivable current (opt (text c!":" ⬝ Name.second)) x ↔ ∃ v, Seconds x v := by
  rw [d_opt]
  constructor
  · rintro (rfl | h)
    · exact ⟨0, .none⟩
    · obtain ⟨q, t, rfl, hq, ht⟩ := d_seq.mp h
      rw [d_punct ':' (by decide)] at hq
      subst hq
      exact ⟨_, .some ((plain (o := «obs-second») rfl rfl).mp ht)⟩
  · rintro ⟨v, h⟩
    cases h with
    | none => exact .inl rfl
    | some h => exact .inr (.seq (p_ (d := ':')) ((plain (o := «obs-second») rfl rfl).mpr h))

theorem dateTime_iff {x} : Derivable current «date-time» x ↔ ∃ m, DateTime x m := by
  rw [d_rule]
  constructor
  · intro h
    obtain ⟨w, y, rfl, hw, h⟩ := d_seq.mp h
    obtain ⟨da, y, rfl, hda, h⟩ := d_seq.mp h
    obtain ⟨ti, c, rfl, hti, hc⟩ := d_seq.mp h
    obtain ⟨d, y, rfl, hd, h⟩ := d_seq.mp (d_rule.mp hda)
    obtain ⟨mo, y, rfl, hmo, hy⟩ := d_seq.mp h
    obtain ⟨td, z, rfl, htd, hz⟩ := d_seq.mp (d_rule.mp hti)
    obtain ⟨ho, u, rfl, hh, hr⟩ := d_seq.mp (d_rule.mp htd)
    obtain ⟨k, u, rfl, hk, hr⟩ := d_seq.mp hr
    obtain ⟨mi, s, rfl, hmi, hs⟩ := d_seq.mp hr
    rw [d_punct ':' (by decide)] at hk
    subst hk
    have hd := (plain (o := «obs-day») rfl rfl).mp hd
    obtain ⟨f1, y1, rfl, hf1, hd⟩ := d_seq.mp hd
    obtain ⟨d, f2, rfl, hd, hf2⟩ := d_seq.mp hd
    have hy := (plain (o := «obs-year») rfl rfl).mp hy
    obtain ⟨f3, y1, rfl, hf3, hy⟩ := d_seq.mp hy
    obtain ⟨y, f4, rfl, hy, hf4⟩ := d_seq.mp hy
    obtain ⟨j, name, hj, hmo⟩ := month_exists hmo
    obtain ⟨f5, z, v, hf5, hz', rfl⟩ := zone_iff.mp hz
    obtain ⟨sec, hs⟩ := seconds_iff.mp hs
    have := DateTime.mk hw hf1 hd hf2 hj hmo hf3 hy hf4 ((plain (o := «obs-hour») rfl rfl).mp hh) ((plain (o := «obs-minute») rfl rfl).mp hmi) hs hf5 hz' hc
    exact ⟨_, by simpa using this⟩
  · rintro ⟨m, h⟩
    cases h with
    | @mk w f₁ d f₂ name mo k f₃ y f₄ h mi s sec f₅ z zone c hw hf1 hd hf2 hk hmo hf3 hy hf4 hh hmi hs hf5 hz hc =>
      rw [show w ++ (f₁ ++ (d ++ (f₂ ++ (mo ++ (f₃ ++ (y ++ (f₄ ++ (h ++ ':' :: (mi ++ (s ++ (f₅ ++ (z ++ c)))))))))))) =
        w ++ (((f₁ ++ (d ++ f₂)) ++ (mo ++ (f₃ ++ (y ++ f₄)))) ++ (((h ++ ([':'] ++ (mi ++ s))) ++ (f₅ ++ z)) ++ c)) by simp]
      exact .seq hw (.seq (.rule (.seq (.rule (.left (.seq hf1 (.seq hd hf2)))) (.seq (month_derives hk hmo) (.rule (.left (.seq hf3 (.seq hy hf4)))))))
        (.seq (.rule (.seq (.rule (.seq (.rule (.left hh)) (.seq (p_ (d := ':')) (.seq (.rule (.left hmi)) (seconds_iff.mpr ⟨_, hs⟩))))) (zone_iff.mpr ⟨_, _, _, hf5, hz, rfl⟩))) hc))

end Rfc5322.Rfc
