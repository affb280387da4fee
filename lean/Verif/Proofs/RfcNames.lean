import Verif.Spec.RfcNames
import Verif.Proofs.RfcObsDerive
import Verif.Proofs.RfcObsMeaning
import Verif.Proofs.Mime

/-!
# The value of names with encoded words
-/

namespace Rfc5322.Rfc.Mime

open Name Abnf
open Old (Is Style goStyle is_atext is_ascii)
open Spec (NoMark NoBlankLines encode Spells Carries KnownCharset)

variable {cr : CharsetReader} {year : Int}

/-! ## Encoded words -/

theorem token_chars {t : List Char} (h : Token t) : ∀ c ∈ t, Spec.isTokenChar c = true := by
  intro c hc
  obtain ⟨h1, h2, h3⟩ := h.2 c hc
  have h1 : 33 ≤ c.toNat := h1
  have h2 : c.toNat ≤ 126 := h2
  have key : ∀ n : Fin 127, 33 ≤ n.val → Char.ofNat n.val ∉ c!"()<>@,;:\"/[]?.=" → Spec.isTokenChar (Char.ofNat n.val) = true := by decide +kernel
  have := key ⟨c.toNat, by omega⟩ h1
  rw [Char.ofNat_toNat] at this
  exact this h3

theorem convert_value {cs bs v} (ht : Token cs) (h : Known cr cs bs v) : convert cr (utf8 cs) bs = some (utf8 v) := by
  cases h with
  | utf8 h => rw [convert.eq_def, spells_lower h (by decide), if_pos (by decide), encode_eq]
  | latin1 h =>
    rw [convert.eq_def, spells_lower h (by decide), if_neg (by decide), if_pos (by decide), utf8, List.flatMap_map]
  | ascii h hb =>
    rw [convert.eq_def, spells_lower h (by decide), if_neg (by decide), if_neg (by decide), if_pos (by decide), utf8, List.flatMap_map]
    congr 1
    induction bs with
    | nil => rfl
    | cons b bs ih =>
      have hb' : b.toNat < 128 := hb b (by simp)
      rw [List.flatMap_cons, List.flatMap_cons, ih fun b h => hb b (by simp [h]), if_neg (by omega)]
      have : (Char.ofNat b.toNat).toNat = b.toNat := by
        have key : ∀ n < 128, (Char.ofNat n).toNat = n := by decide
        exact key _ hb'
      rw [encodeRune_byteOf (by omega), byteOf, this]
      simp
  | other hn hf hv =>
    have ha := token_ascii (token_chars ht)
    have n1 : toLower (utf8 cs) ≠ b!"utf-8" := fun h => hn (.inl (lower_spells ha (by unfold Ascii; decide) h))
    have n2 : toLower (utf8 cs) ≠ b!"iso-8859-1" := fun h => hn (.inr (.inl (lower_spells ha (by unfold Ascii; decide) h)))
    have n3 : toLower (utf8 cs) ≠ b!"us-ascii" := fun h => hn (.inr (.inr (lower_spells ha (by unfold Ascii; decide) h)))
    subst hf
    rw [convert.eq_def, if_neg n1, if_neg n2, if_neg n3, toLower_ascii_utf8 ha, ← encode_eq, ← encode_eq]
    exact hv

theorem encoded_word {t v} (h : Encoded (Known cr) t v) :
    Spec.EncodedWord t ∧ (∀ c ∈ t, Spec.isAtext c = true) ∧ Spec.decoded (goEnv cr year) t = utf8 v := by
  cases h with
  | @mk cs en tx bs v hcs hc ht ha hv =>
    have hk := token_chars hcs
    refine ⟨carries_encodedWord hcs.1 hk ht hc, ?_, ?_⟩
    · have hen : ∀ c ∈ en, Spec.isAtext c = true := by
        have key : ∀ c : Char, c.toLower = 'q' ∨ c.toLower = 'b' → Spec.isAtext c = true := by
          intro c hc
          have hk := toLower_token (c := c) (by rcases hc with h | h <;> rw [h] <;> decide)
          have hlt := (ascii_of_token hk).1
          have key : ∀ n : Fin 128, (Char.ofNat n.val).toLower = 'q' ∨ (Char.ofNat n.val).toLower = 'b' → Spec.isAtext (Char.ofNat n.val) = true := by decide +kernel
          have := key ⟨c.toNat, hlt⟩
          rw [Char.ofNat_toNat] at this
          exact this hc
        intro c hm
        refine key c ?_
        cases hc with
        | q hs _ =>
          have : c.toLower ∈ en.map Char.toLower := List.mem_map_of_mem hm
          rw [hs] at this
          exact .inl (by simpa using this)
        | b hs =>
          have : c.toLower ∈ en.map Char.toLower := List.mem_map_of_mem hm
          rw [hs] at this
          exact .inr (by simpa using this)
      have hcs' : ∀ c ∈ cs, Spec.isAtext c = true := fun c h => is_atext (ha c (by simp [h]))
      have htx : ∀ c ∈ tx, Spec.isAtext c = true := fun c h => is_atext (ha c (by simp [h]))
      intro c h
      simp only [Spec.encodedWord, List.mem_append, List.mem_cons, List.not_mem_nil, or_false] at h
      rcases h with (rfl | rfl) | (h | rfl) | (h | rfl) | h | rfl | rfl
      · decide
      · decide
      · exact hcs' c h
      · decide
      · exact hen c h
      · decide
      · exact htx c h
      · decide
      · decide
    · show (wordDecode cr (utf8 (Spec.encodedWord cs en tx))).getD (utf8 (Spec.encodedWord cs en tx)) = utf8 v
      rw [wordDecode_carries cr hcs.1 hk ht hc, convert_value hcs hv]; rfl

/-! ## Phrases -/

theorem head_words {v qs} (h : ∀ u rs, qs ≠ .encoded u :: rs) : words (.encoded v :: qs) = .word v :: words qs := by
  cases qs with
  | nil => rfl
  | cons p qs => cases p with
    | encoded u => exact absurd rfl (h u qs)
    | word => rfl
    | period => rfl

theorem join_words {v v' qs u rest} (h : words (.encoded v' :: qs) = .word u :: rest) : words (.encoded v :: .encoded v' :: qs) = .word (v ++ u) :: rest := by
  conv => lhs; unfold words
  simp only [h]

theorem last_append {l l' : List Char} (h : l' ≠ []) : (l ++ l').getLast? = l'.getLast? := by
  rw [List.getLast?_append, List.getLast?_eq_some_getLast h]; rfl

/-- A name, or the rest of one, that does not begin with CFWS. -/
inductive Runs (env : Env) : List Char → List Part → Prop where
  | plain {m ps} : (∀ v qs, ps ≠ .encoded v :: qs) → Spec.NamePieces env m ((words ps).map Old.Part.piece) → ¬ c!"=?" <+: m → Runs env m ps
  | encoded {t x u v qs rest} : Spec.AtomRun env t (utf8 u) → ¬ c!"=?" <+: x → (t.getLast? = some '=' → x.head? ≠ some '?') →
      Spec.NamePieces env x (rest.map Old.Part.piece) → words (.encoded v :: qs) = .word u :: rest → Runs env (t ++ x) (.encoded v :: qs)

theorem Runs.pieces {env m ps} (h : Runs env m ps) : Spec.NamePieces env m ((words ps).map Old.Part.piece) := by
  cases h with
  | plain _ h _ => exact h
  | encoded h1 h2 h3 h4 h5 => rw [h5]; exact .encoded h1 h2 h3 h4

theorem encoded_last {C t v} (h : Encoded C t v) : t.getLast? = some '=' := by
  cases h with
  | @mk cs en tx =>
    rw [show Spec.encodedWord cs en tx = (c!"=?" ++ (cs ++ c!"?" ++ (en ++ c!"?" ++ (tx ++ ['?'])))) ++ ['='] by simp [Spec.encodedWord]]
    exact List.getLast?_concat

theorem run_ne {env t v} (h : Spec.AtomRun env t v) : t ≠ [] := by
  cases h with
  | one h => obtain ⟨y, rfl⟩ := encodedWord_head h; simp
  | cons h => obtain ⟨y, rfl⟩ := encodedWord_head h; simp

theorem parts_head {S C t ps} (h : Parts S C t ps) : ∀ c ∈ t.head?, c.toNat < 128 := by
  induction h with
  | nil => simp
  | word h _ _ _ ih =>
    intro c hc
    rcases head_append hc with hc | ⟨_, hc⟩
    · exact is_ascii (Old.word_derives h) rfl c (List.mem_of_mem_head? hc)
    · exact ih c hc
  | encoded h _ _ ih => cases h; intro c hc; cases hc; decide
  | period => intro c hc; cases hc; decide
  | cfws h _ ih =>
    intro c hc
    rcases head_append hc with hc | ⟨_, hc⟩
    · exact is_ascii h rfl c (List.mem_of_mem_head? hc)
    · exact ih c hc

theorem parts_runs {n ps} (h : Parts goStyle (Known cr) n ps) {w} (hw : Spec.OptCfws w) (hb : NoBlankLines (n ++ w)) :
    ∃ a m, n ++ w = a ++ m ∧ Spec.OptCfws a ∧ Runs (goEnv cr year) m ps := by
  induction h with
  | nil => exact ⟨w, [], by simp, hw, .plain (by simp) .nil (by rintro ⟨_, h⟩; cases h)⟩
  | @word t v r ps h hn hs hr ih =>
    rw [List.append_assoc] at hb
    obtain ⟨a, m, h1, h2, h3⟩ := ih (hb.mono ⟨t, [], by simp⟩)
    rw [h1] at hb
    obtain ⟨a', m', h4, h5, h6, h7⟩ := Old.word_step _ h hn hb h2 h3.pieces (Old.apart (Old.word_ascii h) (parts_head hr) hs hw h1)
    exact ⟨a', m', by rw [List.append_assoc, h1, h4], h5, .plain (by simp) h6 h7⟩
  | @encoded t v r ps h hs hr ih =>
    rw [List.append_assoc] at hb
    obtain ⟨a, m, h1, h2, h3⟩ := ih (hb.mono ⟨t, [], by simp⟩)
    obtain ⟨k1, k2, k3⟩ := encoded_word (year := year) h
    have hl := encoded_last h
    have sep := Old.apart (t := t) (m := r ++ w) (fun c hc => by rw [hl] at hc; cases hc; decide) (parts_head hr) hs hw rfl '=' hl (by decide)
    refine ⟨[], t ++ (a ++ m), by rw [List.append_assoc, h1]; rfl, OptCfws.nil, ?_⟩
    cases h3 with
    | plain g1 g2 g3 =>
      rw [← List.append_assoc]
      refine .encoded (u := v) (rest := words ps) ?_ g3 ?_ g2 (head_words g1)
      · rw [← k3]; exact .one k1 k2 h2
      · intro hl' hq
        by_cases ha : a = []
        · subst ha
          rw [h1] at sep
          exact absurd (sep '?' hq) (by decide)
        · rw [last_append ha] at hl'
          exact absurd (Old.cfws_last h2 hl') (by decide)
    | @encoded t' x u v' qs rest g1 g2 g3 g4 g5 =>
      have run : Spec.AtomRun (goEnv cr year) (t ++ (a ++ t')) (utf8 (v ++ u)) := by
        rw [utf8_append, ← k3]
        exact .cons k1 k2 h2 g1
      have := Runs.encoded (env := goEnv cr year) (v := v) (qs := .encoded v' :: qs) run g2 ?_ g4 (join_words g5)
      · simpa using this
      · intro hl'
        refine g3 ?_
        have hne : t' ≠ [] := run_ne g1
        rwa [last_append (by simp [hne]), last_append hne] at hl'
  | @period r ps _ ih =>
    obtain ⟨a, m, h1, h2, h3⟩ := ih (hb.mono ⟨['.'], [], by simp⟩)
    exact ⟨[], '.' :: (a ++ m), by simp [h1], OptCfws.nil, .plain (by simp) (.dot h2 h3.pieces) (by rintro ⟨_, h⟩; cases h)⟩
  | @cfws t r ps h _ ih =>
    rw [List.append_assoc] at hb ⊢
    obtain ⟨a, m, h1, h2, h3⟩ := ih (hb.mono ⟨t, [], by simp⟩)
    rw [h1] at hb ⊢
    exact ⟨t ++ a, m, by simp, optCfws_append (r_cfws (d_opt.mpr (.inr h))) h2 (hb.mono ⟨[], m, by simp⟩), h3⟩

theorem words_head {p : Part} (hp : p ≠ .period) (qs) : ∃ v rest, words (p :: qs) = .word v :: rest := by
  cases p with
  | word v => exact ⟨_, _, rfl⟩
  | period => exact absurd rfl hp
  | encoded v => unfold words; split <;> exact ⟨_, _, rfl⟩

theorem Phrase.parts {S C n ps} (h : Phrase S C n ps) : Parts S C n ps := by
  cases h with
  | word h1 h2 h3 h4 => exact .word h1 h2 h3 h4
  | encoded h1 h2 h3 h4 =>
    have h := Parts.encoded h2 h3 h4
    rcases d_opt.mp h1 with rfl | h1
    · exact h
    · exact .cfws h1 h

theorem phrase_pieces {n ps} (h : Phrase goStyle (Known cr) n ps) (hb : NoBlankLines n) :
    ∃ a m v rest, n = a ++ m ∧ Spec.OptCfws a ∧ words ps = .word v :: rest ∧ Spec.NamePieces (goEnv cr year) m (.word (utf8 v) :: rest.map Old.Part.piece) := by
  obtain ⟨p, qs, rfl, hp⟩ : ∃ p qs, ps = p :: qs ∧ p ≠ .period := by cases h <;> exact ⟨_, _, rfl, by simp⟩
  obtain ⟨a, m, h1, h2, h3⟩ := parts_runs (year := year) h.parts OptCfws.nil (by simpa using hb)
  obtain ⟨v, rest, e⟩ := words_head hp qs
  have := h3.pieces
  rw [e] at this
  exact ⟨a, m, v, rest, by simpa using h1, h2, e, this⟩

/-! ## Addresses -/

theorem clear_box {t v} (h : Mailbox goStyle (Known cr) t v) (hb : NoBlankLines t) : Spec.ClearBox (goEnv cr year) t v.out := by
  cases h with
  | @named n ps r t v b hn hr ht hm hb' =>
    obtain ⟨a, m, u, rest, rfl, h2, h3, h4⟩ := phrase_pieces (year := year) hn (hb.mono ⟨[], '<' :: (r ++ (t ++ '>' :: b)), by simp⟩)
    have := Spec.ClearBox.pieces h2 h4 (Old.clear_angle _ hr ht hm hb')
    have e := Old.render_parts (words ps)
    rw [h3, List.map_cons] at e
    rw [Box.out, h3, ← e, List.append_assoc]
    exact this
  | angle ha hr ht hm hb' => exact .angle (r_cfws ha) (Old.clear_angle _ hr ht hm hb')
  | bare h hm => exact .bare (Old.bare_addr h hm)

theorem clear_boxes {t vs} (h : Mailboxes goStyle (Known cr) t vs) : NoBlankLines t → Spec.ClearBoxes (goEnv cr year) t (vs.map Box.out) := by
  induction h with
  | one h => exact fun hc => .one (clear_box h hc)
  | @cons t v r vs h _ ih =>
    exact fun hc => .cons (clear_box h (hc.mono ⟨[], ',' :: r, by simp⟩)) (ih (hc.mono ⟨t ++ [','], [], by simp⟩))

theorem clear_members {t vs} (h : Members goStyle (Known cr) t vs) (hc : NoBlankLines t) : Spec.Members (goEnv cr year) t (vs.map Box.out) := by
  cases h with
  | boxes h => exact .boxes (clear_boxes h hc)
  | none h => exact .none (r_cfws h)

theorem group_name {n ws} (hn : Phrase goStyle (Known cr) n ws) (hc : NoBlankLines n) : ∃ a n', n = a ++ n' ∧ Spec.OptCfws a ∧ Spec.GroupName (goEnv cr year) n' := by
  obtain ⟨a, n', v, rest, rfl, h2, _, h3⟩ := phrase_pieces (year := year) hn hc
  refine ⟨a, n', rfl, h2, _, _, h3, ?_⟩
  intro h
  obtain ⟨p, _, e⟩ := List.mem_map.mp h
  cases p <;> simp [Old.Part.piece] at e

theorem group_text {n ws m vs} (hn : Phrase goStyle (Known cr) n ws) (hm : Members goStyle (Known cr) m vs) (hc : NoBlankLines (n ++ ':' :: m)) :
    Spec.GroupText (goEnv cr year) (n ++ ':' :: m) (vs.map Box.out) := by
  obtain ⟨a, n', rfl, h2, h3⟩ := group_name (year := year) hn (hc.mono ⟨[], ':' :: m, by simp⟩)
  rw [List.append_assoc]
  exact .mk h2 h3 (.plain (clear_members hm (hc.mono ⟨(a ++ n') ++ [':'], [], by simp⟩)))

theorem groups_list {l : List (List Char × List Box)} (hl : l ≠ []) (h : ∀ i ∈ l, Address goStyle (Known cr) i.1 i.2)
    (hc : NoBlankLines ([','].intercalate (l.map (·.1)))) (hf : FirmGroups goStyle (Known cr) l) :
    Spec.GroupsList (goEnv cr year) ([','].intercalate (l.map (·.1))) ((l.flatMap (·.2)).map Box.out) := by
  induction l with
  | nil => exact absurd rfl hl
  | cons i l ih =>
    have hf0 := hf [] i l rfl
    have hi := h i (by simp)
    obtain ⟨t, vs⟩ := i
    have hi' : (∃ v, Mailbox goStyle (Known cr) t v ∧ vs = [v]) ∨ Spec.FirmQuote ([','].intercalate (((t, vs) :: l).map (·.1))) ∧
        ∃ n ws m b, Phrase goStyle (Known cr) n ws ∧ Members goStyle (Known cr) m vs ∧ Is (opt CFWS) b ∧ t = n ++ ':' :: (m ++ ';' :: b) := by
      have hf1 : (∃ v, Mailbox goStyle (Known cr) t v ∧ vs = [v]) ∨ Spec.FirmQuote ([','].intercalate (((t, vs) :: l).map (·.1))) :=
        hf0.imp_right fun hf0 x hx => ⟨(hf0 x hx).1, tameWords_of_noMark (hf0 x hx).2⟩
      rcases hf1 with h | h
      · exact .inl h
      · cases hi with
        | box h => exact .inl ⟨_, h, rfl⟩
        | group h1 h2 h3 => exact .inr ⟨h, _, _, _, _, h1, h2, h3, rfl⟩
    cases l with
    | nil =>
      rw [show [','].intercalate ([(t, vs)].map (·.1)) = t by simp [List.intercalate]] at hc hi' ⊢
      rw [show [(t, vs)].flatMap (·.2) = vs by simp]
      rcases hi' with ⟨v, hb, rfl⟩ | ⟨hq, n, ws, m, b, h1, h2, h3, rfl⟩
      · exact .one (.box (clear_box hb hc))
      · have := group_text (year := year) h1 h2 (hc.mono ⟨[], ';' :: b, by simp⟩)
        have := Spec.GroupsList.group this (r_cfws h3) (by simpa using hq)
        simpa using this
    | cons j l =>
      have ih := ih (by simp) (fun i hi => h i (by simp [hi]))
      rw [List.map_cons, List.map_cons, intercalate_cons, ← List.map_cons] at hc ⊢
      rw [List.flatMap_cons, List.map_append]
      replace ih := ih (hc.mono ⟨t ++ [','], [], by simp⟩) (fun l₁ i l₂ e => hf ((t, vs) :: l₁) i l₂ (by rw [e]; rfl))
      rcases hi' with ⟨v, hb, rfl⟩ | ⟨hq, n, ws, m, b, h1, h2, h3, rfl⟩
      · exact .cons (.box (clear_box hb (hc.mono ⟨[], _, by simp; rfl⟩))) (.inl rfl) ih
      · have := group_text (year := year) h1 h2 (hc.mono ⟨[], ';' :: (b ++ ',' :: [','].intercalate ((j :: l).map (·.1))), by simp⟩)
        rw [List.map_cons, List.map_cons, intercalate_cons, ← List.map_cons] at hq
        have := Spec.GroupsList.groupCons this (r_cfws h3) (.inl rfl) ih (by simpa using hq)
        simpa using this

/-! ## Lists with missing items -/

section
open Scan
open Old (given)

theorem parts_hushed {t ps} (h : Parts goStyle (Known cr) t ps) : ∃ s, Hush t s := by
  induction h with
  | nil => exact ⟨_, .nil⟩
  | word h _ _ _ ih =>
    obtain ⟨s, hs⟩ := Old.word_hushed h
    obtain ⟨s', hs'⟩ := ih
    exact ⟨_, hs.append hs'⟩
  | encoded h _ _ ih =>
    obtain ⟨s', hs'⟩ := ih
    exact ⟨_, (Hush.wordChars fun c hc => by simp [wordChar, (encoded_word (year := 0) h).2.1 c hc]).append hs'⟩
  | period _ ih => obtain ⟨s', hs'⟩ := ih; exact ⟨_, .cons rfl rfl hs'⟩
  | cfws h _ ih => obtain ⟨s', hs'⟩ := ih; exact ⟨_, (Hush.cfws (r_cfws (d_opt.mpr (.inr h)))).append hs'⟩

theorem mailbox_firm {t v} (h : Mailbox goStyle (Known cr) t v) : ∃ s, Aligned t s ∧ Firm s := by
  cases h with
  | named hn hr ht _ hb =>
    obtain ⟨s, hs⟩ := parts_hushed hn.parts
    obtain ⟨q, hq, h'⟩ := Old.angle_firm (a := []) (d_opt.mpr (.inl rfl)) hr ht hb
    exact ⟨_, hs.1.append hq, .angle hs.2 h'⟩
  | angle ha hr ht _ hb =>
    obtain ⟨q, hq, h'⟩ := Old.angle_firm ha hr ht hb
    exact ⟨_, hq, .angle (p := []) (by simp) h'⟩
  | bare h =>
    obtain ⟨s, hs, h'⟩ := Old.addrSpec_hushed h
    exact ⟨_, hs.1, .bare hs.2 h'⟩

theorem box_item {t v} (h : Mailbox goStyle (Known cr) t v) (hc : NoBlankLines t) : Scan.Box (goEnv cr year) (given (t, [v])) :=
  ⟨_, clear_box h hc, rfl, mailbox_firm h⟩

theorem entry_item {t vs} (h : OldAddress goStyle (Known cr) t vs) (hc : NoBlankLines t) : Entry (goEnv cr year) (given (t, vs)) := by
  cases h with
  | box h => exact .inl (box_item h hc)
  | @group n ps m l b hn hm hb =>
    obtain ⟨hne, hl, rfl⟩ := hm
    obtain ⟨a, n', rfl, ha, hg⟩ := group_name (year := year) hn (hc.mono ⟨[], _, rfl⟩)
    refine .inr ⟨a, n', l.map given, b, ha, hg, parts_hushed hn.parts, by simpa using hne, ?_, r_cfws hb, ?_, ?_⟩
    · intro j hj
      obtain ⟨i, hi, rfl⟩ := List.mem_map.mp hj
      rcases hl i hi with ⟨v, h, hv⟩ | h
      · obtain ⟨x, y, e⟩ := Old.item_in hi
        obtain ⟨t, vs⟩ := i
        obtain rfl : vs = [v] := hv
        exact .inl (box_item h (hc.mono ⟨a ++ (n' ++ ':' :: x), y ++ ';' :: b, by rw [← e]; simp⟩))
      · exact .inr (Old.gap_item h)
    · simp only [given, join, Old.given_text]; simp
    · rw [Old.given_values]; rfl

theorem parse_names (P : Predictor) {text l} (h : OldAddressList goStyle (Known cr) text l) (hw : Spec.AtomWords text) (hc : NoBlankLines text) (hs : Old.SureQuotes text) :
    parseAddressList P (goEnv cr year) (Spec.encode text) = .ok (goSlice ((l.flatMap (·.2)).map Box.out), none) := by
  obtain ⟨⟨hne, hl, e⟩, i, hi, ha⟩ := h
  have e' : text = join (l.map given) := by rw [join, Old.given_text, e]
  have calm : ∀ i ∈ l, NoBlankLines i.1 := fun i hi => hc.mono (e ▸ Old.item_in hi)
  rw [e'] at hs hw ⊢
  rw [parse_items P hs hw ?_ ⟨given i, List.mem_map.mpr ⟨i, hi, rfl⟩, entry_item ha (calm i hi)⟩, Old.given_values]
  intro j hj
  obtain ⟨i, hi, rfl⟩ := List.mem_map.mp hj
  exact (hl i hi).imp (fun h => entry_item h (calm i hi)) Old.gap_item

end

/-! ## Quoted strings that are read in the same way -/

section
variable {A B : Style} {C : Charsets} (le : A.Le B)
include le

theorem Parts.mono {t v} (h : Parts A C t v) : Parts B C t v := by
  induction h with
  | nil => exact .nil
  | word h hn hs _ ih => exact .word (h.mono le) hn hs ih
  | encoded h hs _ ih => exact .encoded h hs ih
  | period _ ih => exact .period ih
  | cfws h _ ih => exact .cfws h ih

theorem Phrase.mono {t v} (h : Phrase A C t v) : Phrase B C t v := by
  cases h with
  | word h1 h2 h3 h4 => exact .word (h1.mono le) h2 h3 (h4.mono le)
  | encoded h1 h2 h3 h4 => exact .encoded h1 h2 h3 (h4.mono le)

theorem Mailbox.mono {t v} (h : Mailbox A C t v) : Mailbox B C t v := by
  cases h with
  | named hn hr ht hm hb => exact .named (hn.mono le) hr (ht.mono le) hm hb
  | angle ha hr ht hm hb => exact .angle ha hr (ht.mono le) hm hb
  | bare h hm => exact .bare (h.mono le) hm

theorem Mailboxes.mono {t v} (h : Mailboxes A C t v) : Mailboxes B C t v := by
  induction h with
  | one h => exact .one (h.mono le)
  | cons h _ ih => exact .cons (h.mono le) ih

theorem Members.mono {t v} (h : Members A C t v) : Members B C t v := by
  cases h with
  | boxes h => exact .boxes (h.mono le)
  | none h => exact .none h

theorem Address.mono {t v} (h : Address A C t v) : Address B C t v := by
  cases h with
  | box h => exact .box (h.mono le)
  | group hn hm hb => exact .group (hn.mono le) (hm.mono le) hb

theorem AddressList.mono {t l} (h : AddressList A C t l) : AddressList B C t l := ⟨h.1, fun i hi => (h.2.1 i hi).mono le, h.2.2⟩

theorem OldAddress.mono {t v} (h : OldAddress A C t v) : OldAddress B C t v := by
  cases h with
  | box h => exact .box (h.mono le)
  | group hn hm hb => exact .group (hn.mono le) ⟨hm.1, fun i hi => (hm.2.1 i hi).imp_left fun ⟨v, hv, e⟩ => ⟨v, hv.mono le, e⟩, hm.2.2⟩ hb

theorem OldAddressList.mono {t l} (h : OldAddressList A C t l) : OldAddressList B C t l := by
  obtain ⟨⟨h1, h2, h3⟩, i, hi, h4⟩ := h
  exact ⟨⟨h1, fun i hi => (h2 i hi).imp_left (·.mono le), h3⟩, i, hi, h4.mono le⟩

theorem FirmGroups.mono {l} (h : FirmGroups A C l) : FirmGroups B C l :=
  fun l₁ i l₂ e => (h l₁ i l₂ e).imp_left fun ⟨v, hv, e⟩ => ⟨v, hv.mono le, e⟩

end

/-! ## Without encoded words -/

section
variable {S : Style} {C : Charsets}

/-- The same part. -/
def Part.ofOld : Old.Part → Part
  | .word v => .word v
  | .period => .period

theorem words_ofOld (ps : List Old.Part) : words (ps.map Part.ofOld) = ps := by
  induction ps with
  | nil => rfl
  | cons p ps ih => cases p <;> simp [Part.ofOld, words, ih]

theorem encoded_mark {t v} (h : Encoded C t v) : ¬ NoMark t := by
  cases h with
  | @mk cs en tx => exact fun h => h ⟨[], cs ++ c!"?" ++ (en ++ c!"?" ++ (tx ++ c!"?=")), by simp [Spec.encodedWord]⟩

theorem touch_cfws {t r a : List Char} (ha : Is (opt CFWS) a) (h : ¬ Old.Touch t r) : ¬ Old.Touch t (r ++ a) := by
  rintro ⟨c, hc, d, hd, h1, h2⟩
  rcases head_append hd with hd | ⟨_, hd⟩
  · exact h ⟨c, hc, d, hd, h1, h2⟩
  · have := Old.cfws_head (r_cfws ha) hd
    rw [is_atext h2] at this
    cases this

theorem parts_of {t ps} (h : Old.Parts S t ps) (hn : NoMark t) {a} (ha : Is (opt CFWS) a) : Parts S C (t ++ a) (ps.map Part.ofOld) := by
  induction h with
  | nil =>
    rcases d_opt.mp ha with rfl | ha
    · exact .nil
    · simpa using Parts.cfws (r := []) ha .nil
  | word h hs _ ih => rw [List.append_assoc]; exact .word h hn.left (touch_cfws ha hs) (ih hn.right)
  | period _ ih => exact .period (ih hn.tail)
  | cfws h _ ih => rw [List.append_assoc]; exact .cfws h (ih hn.right)

theorem parts_to {t ps} (h : Parts S C t ps) (hn : NoMark t) : Old.Parts S t (words ps) := by
  induction h with
  | nil => exact .nil
  | word h _ hs _ ih => exact .word h hs (ih hn.right)
  | encoded h => exact absurd hn.left (encoded_mark h)
  | period _ ih => exact .period (ih hn.tail)
  | cfws h _ ih => exact .cfws h (ih hn.right)

theorem phrase_of {t ps} (h : Old.Phrase S t ps) (hn : NoMark t) {a} (ha : Is (opt CFWS) a) : Phrase S C (t ++ a) (ps.map Part.ofOld) := by
  cases h with
  | mk h hs hr => rw [List.append_assoc]; exact .word h hn.left (touch_cfws ha hs) (parts_of hr hn.right ha)

theorem phrase_to {t ps} (h : Phrase S C t ps) (hn : NoMark t) : Old.Phrase S t (words ps) := by
  cases h with
  | word h _ hs hr => exact .mk h hs (parts_to hr hn.right)
  | encoded _ h => exact absurd hn.right.left (encoded_mark h)

theorem mailbox_iff {t v} (hn : NoMark t) : Mailbox S C t v ↔ Old.Mailbox S t v := by
  constructor
  · intro h
    cases h with
    | named hp hr ht _ hb => exact .named (a := []) (phrase_to hp hn.left) (d_opt.mpr (.inl rfl)) hr ht hb
    | angle ha hr ht _ hb => exact .angle ha hr ht hb
    | bare h => exact .bare h
  · intro h
    cases h with
    | @named n ps a r t v b hp ha hr ht hb =>
      have := Mailbox.named (C := C) (phrase_of hp hn.left ha) hr ht hn.right.right.tail.right.left hb
      rw [words_ofOld] at this
      simpa using this
    | angle ha hr ht hb => exact .angle ha hr ht hn.right.tail.right.left hb
    | bare h => exact .bare h hn

theorem slots_congr {I J : List Char → List Box → Prop} {x l} (hn : NoMark x) (h : Old.Slots I x l) (hij : ∀ t vs, NoMark t → I t vs → J t vs) : Old.Slots J x l :=
  ⟨h.1, fun i hi => (h.2.1 i hi).imp_left (hij _ _ (hn.mono (h.2.2 ▸ Old.item_in hi))), h.2.2⟩

theorem address_iff {t vs} (hn : NoMark t) : OldAddress S C t vs ↔ Old.Address S t vs := by
  constructor
  · intro h
    cases h with
    | box h => exact .box ((mailbox_iff hn).mp h)
    | group hp hm hb =>
      exact .group (phrase_to hp hn.left) (slots_congr hn.right.tail.left hm fun t vs ht ⟨v, hv, e⟩ => ⟨v, (mailbox_iff ht).mp hv, e⟩) hb
  · intro h
    cases h with
    | box h => exact .box ((mailbox_iff hn).mpr h)
    | @group n ps m l b hp hm hb =>
      have := phrase_of (C := C) hp hn.left (a := []) (d_opt.mpr (.inl rfl))
      rw [List.append_nil] at this
      exact .group this (slots_congr hn.right.tail.left hm fun t vs ht ⟨v, hv, e⟩ => ⟨v, (mailbox_iff ht).mpr hv, e⟩) hb

theorem to_rfc5322 {x l} (hn : NoMark x) (h : OldAddressList S C x l) : Old.AddressList S x l := by
  obtain ⟨h1, i, hi, h2⟩ := h
  exact ⟨slots_congr hn h1 fun _ _ ht => (address_iff ht).mp, i, hi, (address_iff (hn.mono (h1.2.2 ▸ Old.item_in hi))).mp h2⟩

theorem of_rfc5322 {x l} (hn : NoMark x) (h : Old.AddressList S x l) : OldAddressList S C x l := by
  obtain ⟨h1, i, hi, h2⟩ := h
  exact ⟨slots_congr hn h1 fun _ _ ht => (address_iff ht).mpr, i, hi, (address_iff (hn.mono (h1.2.2 ▸ Old.item_in hi))).mpr h2⟩

end

end Rfc5322.Rfc.Mime
