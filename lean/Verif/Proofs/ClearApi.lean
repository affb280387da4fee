import Verif.Proofs.ClearList
import Verif.Proofs.Bmp
import Verif.Spec.Escape

/-!
# Clear-cut texts and the call
-/

namespace Rfc5322

open Spec

variable {env : Env} {Q : Rule → Prop}

theorem takes_bmp {g : G} {t r : List Char} {f} (h : Takes Q env g t r f) : ∀ c ∈ t, bmp c = true := by
  obtain ⟨ts, hp, _⟩ := h (fun s => s = r) rfl
  obtain ⟨u, hu, hb⟩ := derives_bmp (Preferred.derives hp).1
  rw [List.append_cancel_right hu]
  exact hb

theorem takes_ne_nil {g : G} {t r : List Char} {f} (h : Takes Q env g t r f) (hn : g.nullable = false) : t ≠ [] := by
  obtain ⟨ts, hp, _⟩ := h (fun s => s = r) rfl
  have := (Preferred.derives hp).1.length_lt hn
  rintro rfl
  simp at this

theorem parse_strict (P : Predictor) {t : List Char} {as : List Addr}
    (h : Takes plainK env (Gr.address ⬝ .star ((.t .Comma ‖ .t .Semicolon) ⬝ Gr.address)) t [] (addList as)) :
    parseAddressList P env (encode t) = .ok (goSlice as, none) := by
  have e : tokens (encode t) = t := by rw [tokens_encode, dropAstral_of (takes_bmp h)]
  exact result_of_strict P (encode_ne_nil (takes_ne_nil h (by decide))) (e.symm ▸ h)

theorem parse_clear (P : Predictor) {t : List Char} {as : List Addr} (h : ClearList env t as) :
    parseAddressList P env (encode t) = .ok (goSlice as, none) := parse_strict P (takes_list h)

theorem parse_box (P : Predictor) {t : List Char} {a : Addr} (h : ClearBox env t a) :
    parseAddressList P env (encode t) = .ok (some [a], none) := parse_clear P (.one (.box h))

/-! ## Bare addresses that may contain `=?` -/

theorem noDer_nameAddr_noLess {s : List Char} (h : '<' ∉ s) : NoDer Gr.nameAddr s := by
  refine .rule ?_
  intro ts s' hd
  cases hd with
  | @seq _ _ _ _ u _ _ h1 h2 =>
    obtain ⟨t, _, e, ⟨v, hv, _⟩, _⟩ := (means_angleAddr (Q := anyK) (env := nenv)).sound h2
    obtain ⟨p, hp⟩ := h1.suffix
    have : '<' ∈ t := by cases hv <;> simp
    exact h (by rw [hp, e]; simp [this])

theorem takes_one {t : List Char} {a : Addr} (h : Takes anyK env Gr.mailbox t [] (addBoxes [a])) :
    Takes plainK env (Gr.address ⬝ .star ((.t .Comma ‖ .t .Semicolon) ⬝ Gr.address)) t [] (addList [a]) := by
  have eff : ∀ as, deliver (.address as) = addList as := by intro v; funext p; cases p <;> rfl
  have h1 : Takes plainK env Gr.address t [] (addList [a]) :=
    (Takes.push (q := .address) (mk := .address []) (Q' := anyK) rfl rfl trivial (h.altL (b := Gr.group))
      (fun _ _ _ => rfl)).cast fun p => by simp [addBoxes, eff]
  have h2 : Takes plainK env (.star ((.t .Comma ‖ .t .Semicolon) ⬝ Gr.address)) [] [] id :=
    .stop (NoDer.seq_left (.alt (noDer_tok' means_comma .nil) (noDer_tok' means_semicolon .nil)))
  exact h1.seqNil h2

theorem parse_bare (P : Predictor) {t : List Char} {v : Bytes} (h : ClearAddr env t v) (hn : NoDer Gr.nameAddr t) :
    parseAddressList P env (encode t) = .ok (some [⟨[], v⟩], none) :=
  parse_strict P (takes_one (takes_mailbox_addrSpec (by simpa using hn) (takes_addrSpec h .nil)))

/-- After a leading quoted string, `<` is needed for a name. -/
theorem noDer_nameAddr_quoted {q x : List Char} {v} (hq : QuotedString q v) (hx : '<' ∉ x) : NoDer Gr.nameAddr (q ++ x) := by
  obtain ⟨y, hy⟩ := quotedString_head hq
  have hskip : skip (q ++ x) = q ++ x := by rw [hy]; exact skip_solid rfl _
  refine .rule ?_
  intro ts s' hd
  cases hd with
  | @seq _ _ _ _ u _ _ h1 h2 =>
    obtain ⟨t, _, e, ⟨v', hv, _⟩, _⟩ := (means_angleAddr (Q := anyK) (env := nenv)).sound h2
    have hm : '<' ∈ t := by cases hv <;> simp
    have hsk : ∃ z, skip u = '<' :: z := by
      have : ∀ {a z : List Char}, OptCfws a → skip (a ++ '<' :: z ++ s') = '<' :: (z ++ s') := fun ha => by
        rw [List.append_assoc, skip_cfws ha]; exact skip_solid rfl _
      rw [e]
      cases hv with
      | null ha _ => exact ⟨_, this ha⟩
      | addr ha _ _ => exact ⟨_, this ha⟩
      | routed ha _ _ _ => exact ⟨_, this ha⟩
    cases h1 with
    | altR h1 =>
      cases h1
      obtain ⟨z, hz⟩ := hsk
      rw [hskip, hy] at hz
      cases hz
    | altL h1 =>
      obtain ⟨n, _, en, ⟨nv, hn, _⟩, _⟩ := (means_displayName (Q := anyK) (env := nenv)).sound h1
      obtain ⟨w, wv, r, ps, hw, _, rfl, _⟩ := hn
      have fin : ∀ {z : List Char}, x = z ++ (r ++ u) → False := fun hz => hx (by rw [hz, e]; simp [hm])
      have start : ∀ {a : List Char} {c : Char} {z : List Char}, OptCfws a → solid c = true → q ++ x = a ++ c :: z → c = '"' ∧ a = [] := by
        intro a c z ha hc h
        have h1 := hskip
        rw [h, skip_cfws ha, skip_solid hc] at h1
        have ha' : a = [] := by
          have := congrArg List.length h1
          simp at this
          exact this
        subst ha'
        rw [hy] at h
        injection h with h _
        exact ⟨h.symm, rfl⟩
      rw [List.append_assoc] at en
      cases hw with
      | encoded hw =>
        obtain ⟨a, w, z, ha, hw', rfl⟩ := encodedWords_head hw
        obtain ⟨z', rfl⟩ := encodedWord_head hw'
        rw [List.append_assoc] at en
        exact absurd (start ha rfl en).1 (by decide)
      | @atom a t' b ha ht hb =>
        obtain ⟨c, t'', rfl⟩ := List.exists_cons_of_ne_nil ht.1
        rw [List.append_assoc] at en
        have hc := ht.2 c (by simp)
        have := (start ha (atext_solid hc) en).1
        subst this
        exact absurd hc (by decide)
      | @quoted a t' b v' ha ht hb =>
        obtain ⟨z, hz⟩ := quotedString_head ht
        have ha' : a = [] := by
          rw [hz, List.append_assoc] at en
          exact (start ha rfl en).2
        subst ha'
        rw [List.nil_append, List.append_assoc] at en
        exact fin (z := b) (quotedString_unique hq ht en).2.1.symm

/-! ## Names -/

theorem foldl_words : ∀ (vs : List Bytes) (name : Bytes), name ≠ [] →
    ((vs.map Piece.word).foldl addPiece (name, false)) = (name ++ vs.flatMap (b!" " ++ ·), false)
  | [], name, _ => by simp
  | v :: vs, name, h => by
    have hn : name.isEmpty = false := by cases name <;> simp_all
    rw [List.map_cons, List.foldl_cons, addPiece, hn, Bool.false_or, if_neg (by simp), foldl_words vs _ (by simp)]
    simp

/-- Non-empty words are separated by single spaces. -/
theorem wordsName_eq {vs : List Bytes} (h : ∀ v ∈ vs, v ≠ []) : wordsName vs = List.intercalate b!" " vs := by
  have key : ∀ (vs : List Bytes) (v : Bytes), List.intercalate b!" " (v :: vs) = v ++ vs.flatMap (b!" " ++ ·) := by
    intro vs
    induction vs with
    | nil => intro v; simp [List.intercalate]
    | cons u vs ih =>
      intro v
      have : List.intercalate b!" " (v :: u :: vs) = v ++ (b!" " ++ List.intercalate b!" " (u :: vs)) := by
        simp [List.intercalate]
      rw [this, ih]
      simp
  cases vs with
  | nil => rfl
  | cons v vs =>
    have hv : v ≠ [] := h v (by simp)
    rw [key, wordsName, renderName, List.map_cons, List.foldl_cons]
    have : addPiece ([], false) (.word v) = (v, false) := rfl
    rw [this, foldl_words vs v hv]

theorem wordsName_one (v : Bytes) : wordsName [v] = v := rfl

theorem utf8_flatMap (ws : List (List Char)) : utf8 ws.flatten = (ws.map utf8).flatten := by
  induction ws with
  | nil => rfl
  | cons w ws ih => simp [utf8_append, ih]

theorem utf8_intercalate (ws : List (List Char)) : utf8 (List.intercalate [' '] ws) = List.intercalate b!" " (ws.map utf8) := by
  rw [List.intercalate, utf8_flatMap, List.intercalate]
  congr 1
  induction ws with
  | nil => rfl
  | cons w ws ih =>
    cases ws with
    | nil => rfl
    | cons u ws =>
      simp only [List.intersperse, List.map_cons] at ih ⊢
      rw [ih]
      rfl

/-! ## Escaped texts -/

theorem trimRight_wsp {w : List Char} (h : ∀ c ∈ w, isWsp c = true) : trimRight w = [] := by
  unfold trimRight
  rw [List.reverse_eq_nil_iff]
  have : ∀ l : List Char, (∀ c ∈ l, isWsp c = true) → l.dropWhile isWsp = [] := by
    intro l
    induction l with
    | nil => exact fun _ => rfl
    | cons c l ih => intro h; rw [List.dropWhile_cons, if_pos (h c (by simp))]; exact ih fun c hc => h c (by simp [hc])
  exact this _ fun c hc => h c (List.mem_reverse.mp hc)

theorem dropWhile_append_stop {p : Char → Bool} {c : Char} (hc : p c = false) : ∀ (l r : List Char),
    (l ++ c :: r).dropWhile p = l.dropWhile p ++ c :: r
  | [], r => by simp [List.dropWhile, hc]
  | d :: l, r => by
    rw [List.cons_append, List.dropWhile_cons, List.dropWhile_cons]
    split
    · exact dropWhile_append_stop hc l r
    · rfl

theorem trimRight_stop {w t : List Char} {c : Char} (hc : isWsp c = false) : trimRight (w ++ c :: t) = w ++ [c] ++ trimRight t := by
  unfold trimRight
  rw [List.reverse_append, List.reverse_cons, List.append_assoc, List.singleton_append, dropWhile_append_stop hc]
  simp

theorem escape_text : ∀ (t : List Char), (∀ c ∈ t, quoteOk c = true) → ∀ (w : List Char), (∀ c ∈ w, isWsp c = true) →
    ∃ x f, QuotedText x (utf8 (trimRight (w ++ t))) ∧ OptFws f ∧ w ++ escape t = x ++ f
  | [], _, w, hw => ⟨[], w, by rw [List.append_nil, trimRight_wsp hw]; exact .nil, by
      cases w with
      | nil => exact .inl rfl
      | cons c w => exact .inr (.plain (by simp) hw), by simp [escape]⟩
  | c :: t, ht, w, hw => by
    have ht' : ∀ c ∈ t, quoteOk c = true := fun c hc => ht c (by simp [hc])
    have hof : OptFws w := by
      cases w with
      | nil => exact .inl rfl
      | cons c w => exact .inr (.plain (by simp) hw)
    have hc := ht c (by simp)
    by_cases hs : c = '"' ∨ c = '\\'
    · obtain ⟨x, f, h1, h2, h3⟩ := escape_text t ht' [] (by simp)
      have hcw : isWsp c = false := by rcases hs with rfl | rfl <;> rfl
      have hcq : isQuotable c = true := by rcases hs with rfl | rfl <;> rfl
      refine ⟨w ++ '\\' :: c :: x, f, ?_, h2, ?_⟩
      · rw [trimRight_stop hcw, utf8_append]
        exact .pair hof hcq h1
      · have : escape (c :: t) = '\\' :: c :: escape t := by simp [escape, hs]
        rw [this]
        simp only [List.nil_append] at h3
        simp [h3]
    · have he : escape (c :: t) = c :: escape t := by simp [escape, hs]
      by_cases hcw : isWsp c = true
      · obtain ⟨x, f, h1, h2, h3⟩ := escape_text t ht' (w ++ [c]) (by
          intro d hd
          simp only [List.mem_append, List.mem_singleton] at hd
          rcases hd with hd | rfl
          · exact hw d hd
          · exact hcw)
        exact ⟨x, f, by simpa using h1, h2, by rw [he, ← h3]; simp⟩
      · have hcw' : isWsp c = false := by simpa using hcw
        obtain ⟨x, f, h1, h2, h3⟩ := escape_text t ht' [] (by simp)
        refine ⟨w ++ c :: x, f, ?_, h2, ?_⟩
        · rw [trimRight_stop hcw', utf8_append]
          refine .char hof ?_ h1
          simp only [quoteOk, hcw', Bool.or_false, Bool.or_eq_true] at hc
          simp only [not_or] at hs
          rcases hc with hc | hc
          · simp [isQtext, hc, hs]
          · simp [isQtext, hc]
        · rw [he]
          simp only [List.nil_append] at h3
          simp [h3]

/-- A quoted text is a quoted string denoting that text, without the white space at its end. -/
theorem quote_string {t : List Char} (h : ∀ c ∈ t, quoteOk c = true) : QuotedString (quote t) (utf8 (trimRight t)) := by
  obtain ⟨x, f, h1, h2, h3⟩ := escape_text t h [] (by simp)
  refine ⟨x, f, by simpa using h1, h2, ?_⟩
  simp only [List.nil_append] at h3
  rw [quote, h3, List.append_assoc]

end Rfc5322
