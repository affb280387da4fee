import Verif.Proofs.DateUnique
import Verif.Proofs.Utf8
import Verif.Proofs.Eval
import Verif.Spec.DateText

/-!
# Readings consist of lexable characters; readings of encoded texts
-/

namespace Rfc5322

open Spec

theorem matches_bmp {k : Tok} {c : Char} (h : k.matches c = true) : bmp c = true := by
  have : (lexRune c).isSome = true := by
    unfold lexRune
    rw [List.find?_isSome]
    exact ⟨k, by cases k <;> decide, h⟩
  rw [lexRune_isSome] at this
  exact this

theorem derives_bmp {g s ts s'} (h : Derives g s ts s') : ∃ t, s = t ++ s' ∧ ∀ c ∈ t, bmp c = true := by
  induction h with
  | eps | starNil => exact ⟨[], rfl, by simp⟩
  | eof => exact ⟨[], rfl, by simp⟩
  | t h => exact ⟨[_], rfl, by simpa using matches_bmp h⟩
  | seq _ _ ih1 ih2 =>
    obtain ⟨t, rfl, h1⟩ := ih1
    obtain ⟨u, rfl, h2⟩ := ih2
    refine ⟨t ++ u, by simp, fun c hc => (List.mem_append.mp hc).elim (h1 c) (h2 c)⟩
  | starCons _ _ ih1 ih2 =>
    obtain ⟨t, rfl, h1⟩ := ih1
    obtain ⟨u, rfl, h2⟩ := ih2
    refine ⟨t ++ u, by simp, fun c hc => (List.mem_append.mp hc).elim (h1 c) (h2 c)⟩
  | altL _ ih => exact ih
  | altR _ ih => exact ih
  | rule _ ih => exact ih
  | comment _ ih => exact ih

theorem dropAstral_of {t : List Char} (h : ∀ c ∈ t, bmp c = true) : dropAstral t = t := List.filter_eq_self.mpr h

theorem dropAstral_append (t u : List Char) : dropAstral (t ++ u) = dropAstral t ++ dropAstral u := List.filter_append ..

theorem addressList_bmp {env t l} (h : AddressList env t l) : ∀ c ∈ t, bmp c = true := by
  obtain ⟨ts, hd, _⟩ := addressList_complete h
  obtain ⟨t', rfl, ht⟩ := derives_bmp hd
  simpa using ht

/-- The language of date-times is that of the grammar. -/
theorem dateTime_iff_derives {now t} : (∃ f, DateTime now t f) ↔ ∃ ts, Derives Gr.dateTime t ts [] := by
  constructor
  · rintro ⟨f, hf⟩
    obtain ⟨g, hg⟩ := dateLang_of (env := ⟨fun _ => none, now⟩) hf
    obtain ⟨ts, hd, _⟩ := endMeans_date.complete hg
    exact ⟨_, .rule hd⟩
  · rintro ⟨ts, hd⟩
    unfold Gr.dateTime at hd
    cases hd with
    | rule hd =>
      obtain ⟨_, g, hg, he⟩ := (endMeans_date (env := ⟨fun _ => none, now⟩)).sound hd
      obtain ⟨f, hf, hn⟩ := dateLang_iff hg
      exact ⟨f, hf⟩

theorem dateTime_bmp {now t f} (h : DateTime now t f) : ∀ c ∈ t, bmp c = true := by
  obtain ⟨ts, hd⟩ := dateTime_iff_derives.mp ⟨f, h⟩
  obtain ⟨t', rfl, ht⟩ := derives_bmp hd
  simpa using ht

/-- Every reading of the text gives the result. -/
theorem parseDateTime_reading {P : Predictor} {env : Env} {input : Bytes} {f}
    (h : DateTime env.nowYear (tokens input) f) : parseDateTime P env input = .ok (f.time, none) := by
  have hne : input ≠ [] := by
    rintro rfl
    exact dateTime_ne_nil (show DateTime env.nowYear [] f from h)
  rcases parseDateTime_spec P env hne with ⟨f', hf', h'⟩ | ⟨hn, _⟩
  · rw [h', dateTime_unique h hf']
  · exact absurd h (hn f)

theorem parseDateTime_encode {P : Predictor} {env : Env} {t : List Char} {f}
    (h : DateTime env.nowYear t f) : parseDateTime P env (encode t) = .ok (f.time, none) := by
  refine parseDateTime_reading ?_
  rw [tokens_encode, dropAstral_of (dateTime_bmp h)]
  exact h

theorem parseDateTime_ok {P : Predictor} {env : Env} {input : Bytes} {time} (hne : input ≠ [])
    (h : parseDateTime P env input = .ok (time, none)) :
    ∃ f, DateTime env.nowYear (tokens input) f ∧ time = f.time := by
  rcases parseDateTime_spec P env hne with ⟨f, hf, h'⟩ | ⟨_, h'⟩
  · rw [h] at h'; simp only [Except.ok.injEq, Prod.mk.injEq, and_true] at h'; exact ⟨f, hf, h'⟩
  · rw [h] at h'; simp at h'

theorem parseDateTime_reject {P : Predictor} {env : Env} {input : Bytes} (hne : input ≠ [])
    (h : ∀ f, ¬ DateTime env.nowYear (tokens input) f) : parseDateTime P env input = .ok (zeroTime, some .syntaxError) := by
  rcases parseDateTime_spec P env hne with ⟨f, hf, h'⟩ | ⟨_, h'⟩
  · exact absurd hf (h f)
  · exact h'

theorem encode_ne_nil {t : List Char} (h : t ≠ []) : encode t ≠ [] := by rw [encode_eq, Ne, utf8_eq_nil]; exact h

/-! ## Letter case -/

theorem matches_toLower (k : Tok) (c : Char) : k.matches c.toLower = k.matches c := by
  by_cases h : c.toNat < 128
  · have key : ∀ k ∈ Tok.all, ∀ n < 128, k.matches (Char.ofNat n).toLower = k.matches (Char.ofNat n) := by decide +kernel
    have := key k (by cases k <;> decide) c.toNat h
    rwa [Char.ofNat_toNat] at this
  · rw [toLower_ge (by omega)]

/-- The grammar does not distinguish upper and lower case. -/
theorem derives_case {g s ts s'} (h : Derives g s ts s') : ∀ {u}, lower u = lower s →
    ∃ us u', Derives g u us u' ∧ lower u' = lower s' := by
  induction h with
  | eps => intro u hu; exact ⟨_, _, .eps, hu⟩
  | eof => intro u hu; cases u with | nil => exact ⟨_, _, .eof, rfl⟩ | cons => cases hu
  | @t k c s h =>
    intro u hu
    cases u with
    | nil => cases hu
    | cons d u =>
      rw [lower_cons, lower_cons] at hu
      injection hu with h1 h2
      exact ⟨_, _, .t (by rw [← matches_toLower, h1, matches_toLower]; exact h), h2⟩
  | seq _ _ ih1 ih2 =>
    intro u hu
    obtain ⟨_, _, d1, e1⟩ := ih1 hu
    obtain ⟨_, _, d2, e2⟩ := ih2 e1
    exact ⟨_, _, .seq d1 d2, e2⟩
  | altL _ ih => intro u hu; obtain ⟨_, _, d1, e1⟩ := ih hu; exact ⟨_, _, .altL d1, e1⟩
  | altR _ ih => intro u hu; obtain ⟨_, _, d1, e1⟩ := ih hu; exact ⟨_, _, .altR d1, e1⟩
  | starNil => intro u hu; exact ⟨_, _, .starNil, hu⟩
  | starCons _ _ ih1 ih2 =>
    intro u hu
    obtain ⟨_, _, d1, e1⟩ := ih1 hu
    obtain ⟨_, _, d2, e2⟩ := ih2 e1
    exact ⟨_, _, .starCons d1 d2, e2⟩
  | rule _ ih => intro u hu; obtain ⟨_, _, d1, e1⟩ := ih hu; exact ⟨_, _, .rule d1, e1⟩
  | comment _ ih => intro u hu; obtain ⟨_, _, d1, e1⟩ := ih hu; exact ⟨_, _, .comment d1, e1⟩

theorem lower_eq_nil {t : List Char} (h : lower t = lower []) : t = [] := by
  cases t with | nil => rfl | cons => cases h

theorem dateTime_case_accept {now t u f} (h : DateTime now t f) (hu : lower u = lower t) : ∃ f', DateTime now u f' := by
  obtain ⟨ts, hd⟩ := dateTime_iff_derives.mp ⟨f, h⟩
  obtain ⟨us, u', hd', he⟩ := derives_case hd hu
  rw [lower_eq_nil he] at hd'
  exact dateTime_iff_derives.mpr ⟨us, hd'⟩

theorem special_toLower (c : Char) : isBlank c.toLower = isBlank c ∧ (c.toLower = '\\' ↔ c = '\\') ∧ (c.toLower = '(' ↔ c = '(') ∧
    (c.toLower = ')' ↔ c = ')') := by
  by_cases h : c.toNat < 128
  · have key : ∀ n < 128, isBlank (Char.ofNat n).toLower = isBlank (Char.ofNat n) ∧
        ((Char.ofNat n).toLower = '\\' ↔ (Char.ofNat n) = '\\') ∧ ((Char.ofNat n).toLower = '(' ↔ (Char.ofNat n) = '(') ∧
        ((Char.ofNat n).toLower = ')' ↔ (Char.ofNat n) = ')') := by decide +kernel
    have := key c.toNat h
    rwa [Char.ofNat_toNat] at this
  · rw [toLower_ge (by omega)]; simp

theorem stripFrom_lower : ∀ (t : List Char) d e, stripFrom d e (lower t) = lower (stripFrom d e t) := by
  intro t
  induction t with
  | nil => intro d e; cases d <;> cases e <;> rfl
  | cons c t ih =>
    intro d e
    obtain ⟨h1, h2, h3, h4⟩ := special_toLower c
    rw [lower_cons]
    cases e with
    | true => cases d <;> exact ih _ _
    | false =>
      cases d with
      | zero =>
        simp only [stripFrom, h1, h3]
        by_cases ha : isBlank c = true
        · rw [if_pos ha, if_pos ha]; exact ih _ _
        · rw [if_neg ha, if_neg ha]
          by_cases hb : c = '('
          · rw [if_pos hb, if_pos hb]; exact ih _ _
          · rw [if_neg hb, if_neg hb, lower_cons, ih]
      | succ d =>
        simp only [stripFrom, h2, h3, h4]
        by_cases ha : c = '\\'
        · rw [if_pos ha, if_pos ha]; exact ih _ _
        · rw [if_neg ha, if_neg ha]
          by_cases hb : c = '('
          · rw [if_pos hb, if_pos hb]; exact ih _ _
          · rw [if_neg hb, if_neg hb]
            by_cases hc : c = ')'
            · rw [if_pos hc, if_pos hc]; exact ih _ _
            · rw [if_neg hc, if_neg hc]; exact ih _ _

theorem numericZone_low {z l} (h : NumericZone z l) : lower z = z := by
  cases h with
  | plus h1 h2 => rw [lower_cons, lower_append, lower_digits h1.2, lower_digits h2.2]; rfl
  | minus h1 h2 => rw [lower_cons, lower_append, lower_digits h1.2, lower_digits h2.2]; rfl
  | unsigned h1 h2 => rw [lower_append, lower_digits h1.2, lower_digits h2.2]

theorem named_low_not_numeric {t u h l} (hz : (lower t, h) ∈ zoneNames) (hu : lower u = lower t) (hn : NumericZone u l) : False :=
  named_not_numeric (t := u) (by rw [hu]; exact hz) hn

theorem bareZone_case {z z' l l'} (h : BareZone z l) (h' : BareZone z' l') (e : lower z = lower z') :
    l.offset = l'.offset ∧ (l = l' ∨ l.name = utf8 z ∧ l'.name = utf8 z') := by
  cases h with
  | none =>
    have : z' = [] := lower_eq_nil e.symm
    subst this
    rw [bareZone_unique h' .none]; exact ⟨rfl, .inl rfl⟩
  | numeric h =>
    cases h' with
    | none => have : z = [] := lower_eq_nil e; subst this; exact (numericZone_ne_nil h).elim
    | numeric h' =>
      rw [numericZone_low h, numericZone_low h'] at e
      subst e
      rw [numericZone_unique h h']; exact ⟨rfl, .inl rfl⟩
    | named h' => exact (named_low_not_numeric h' e h).elim
  | named h =>
    cases h' with
    | none => have : z = [] := lower_eq_nil e; subst this; exact (named_ne_nil h).elim
    | numeric h' => exact (named_low_not_numeric h e.symm h').elim
    | named h' =>
      rw [← e] at h'
      rw [zoneNames_fun h h']
      exact ⟨rfl, .inr ⟨rfl, rfl⟩⟩

/-- Readings of texts that differ only in letter case. -/
theorem dateTime_case {now t u f g} (h : DateTime now t f) (h' : DateTime now u g) (e : lower u = lower t) :
    g.day = f.day ∧ g.month = f.month ∧ g.year = f.year ∧ g.hour = f.hour ∧ g.min = f.min ∧ g.sec = f.sec ∧
      g.zone.offset = f.zone.offset := by
  obtain ⟨p, hp, hm, ht⟩ := reading_parts h
  obtain ⟨q, hq, hm', ht'⟩ := reading_parts h'
  have hl : q.low = p.low := by
    refine Parts.unique hq.low hp.low ?_
    rw [Parts.low_text, Parts.low_text, ← ht, ← ht']
    have := stripFrom_lower t 0 false
    have h2 := stripFrom_lower u 0 false
    rw [e] at h2
    rw [h2] at this
    exact this
  simp only [Parts.low, Parts.mk.injEq] at hl
  obtain ⟨_, e1, e2, e3, e4, e5, e6, e7⟩ := hl
  have dy : ∀ c ∈ p.y, isDigit c = true := by rcases hp.y with h | h <;> exact h.2
  have dy' : ∀ c ∈ q.y, isDigit c = true := by rcases hq.y with h | h <;> exact h.2
  have ds : ∀ {r : Parts}, r.Ok → lower r.s = r.s := by
    intro r hr
    rcases hr.s with e | ⟨x, hx, e⟩
    · rw [e]; rfl
    · rw [e, lower_cons, lower_digits hx.2]; rfl
  rw [lower_digits (digits12_digit hq.d), lower_digits (digits12_digit hp.d)] at e1
  rw [lower_digits dy', lower_digits dy] at e3
  rw [lower_digits (digits12_digit hq.h), lower_digits (digits12_digit hp.h)] at e4
  rw [lower_digits hq.mi.2, lower_digits hp.mi.2] at e5
  rw [ds hq, ds hp] at e6
  refine ⟨by rw [hm.d, hm'.d, e1], ?_, by rw [hm.y, hm'.y, e3], by rw [hm.h, hm'.h, e4], by rw [hm.mi, hm'.mi, e5],
    by rw [hm.s, hm'.s, e6], (bareZone_case hm'.z hm.z e7).1⟩
  rw [(month_iff.mp hm.mo).2, (month_iff.mp hm'.mo).2, e2]

/-! ## Splitting off the day of the week -/

theorem dow_ne_nil {dw} (h : DayOfWeek dw) (hne : dw ≠ []) : ∃ a n b, OptCfws a ∧ lower n ∈ dayNames ∧ OptCfws b ∧
    dw = a ++ (n ++ (b ++ [','])) := by
  rcases h with h | h
  · exact absurd h hne
  · exact h

theorem dow_split {dw dw' r r' : List Char} (h : DayOfWeek dw) (h' : DayOfWeek dw') (hne : dw ≠ []) (hne' : dw' ≠ [])
    (e : dw ++ r = dw' ++ r') : dw = dw' ∧ r = r' := by
  obtain ⟨a, n, b, ha, hn, hb, rfl⟩ := dow_ne_nil h hne
  obtain ⟨a', n', b', ha', hn', hb', rfl⟩ := dow_ne_nil h' hne'
  have s1 : ∀ {n : List Char}, lower n ∈ dayNames → ∀ c ∈ n, solid c = true := fun hn => solid_of_lower fun c hc => by
    have key : ∀ n ∈ dayNames, ∀ c ∈ n, solid c = true := by decide
    exact key _ hn c hc
  have t1 := s1 hn
  have t1' := s1 hn'
  obtain ⟨x, y, z, rfl, _⟩ := name3 (by decide) hn
  obtain ⟨x', y', z', rfl, _⟩ := name3 (by decide) hn'
  simp only [List.append_assoc, List.cons_append, List.nil_append] at e
  obtain ⟨rfl, rfl, e2⟩ := cfws_split ha ha' (t1 x (by simp)) (t1' x' (by simp)) e
  injection e2 with e3 e4
  injection e4 with e5 e6
  obtain ⟨rfl, _, rfl⟩ := cfws_split hb hb' (by decide) (by decide) e6
  subst e3 e5
  exact ⟨rfl, rfl⟩

end Rfc5322
