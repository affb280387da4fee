import Verif.Spec.Reader
import Verif.Proofs.Mixture
import Verif.Proofs.DecodeLocal

/-!
# Calls of the `CharsetReader`
-/

namespace Rfc5322

open Spec

variable {σ : Type}

/-! ## One word -/

/-- The character set and the bytes of a word. -/
def wordContent (word : Bytes) : Option (Bytes × Bytes) :=
  if word.length < 8 ∨ word.count 0x3F ≠ 4 then none
  else match word with
    | 0x3D :: 0x3F :: r => match cutEnd r with
      | none => none
      | some r =>
        match r.dropWhile (· != 0x3F) with
        | _ :: encoding :: 0x3F :: text =>
          if (r.takeWhile (· != 0x3F)).isEmpty then none
          else (decodeText encoding text).map fun content => (r.takeWhile (· != 0x3F), content)
        | _ => none
    | _ => none

theorem wordDecode_content (cr : CharsetReader) (w : Bytes) :
    wordDecode cr w = match wordContent w with | none => none | some (c, b) => convert cr c b := by
  unfold wordDecode wordContent
  by_cases h : w.length < 8 ∨ w.count 0x3F ≠ 4
  · rw [if_pos h, if_pos h]
  rw [if_neg h, if_neg h]
  split
  · dsimp only
    split
    · simp_all
    · simp_all
      split
      · simp_all
        split
        · rfl
        · split <;> simp_all
      · simp_all
  · simp_all

theorem wordDecodeWith_content (R : Option (Reader σ)) (w : Bytes) (s : σ) :
    wordDecodeWith R w s = match wordContent w with | none => (some none, s) | some (c, b) => convertWith R c b s := by
  unfold wordDecodeWith wordContent
  by_cases h : w.length < 8 ∨ w.count 0x3F ≠ 4
  · rw [if_pos h, if_pos h]
  rw [if_neg h, if_neg h]
  split
  · dsimp only
    split
    · simp_all
    · simp_all
      split
      · simp_all
        split
        · rfl
        · split <;> simp_all
      · simp_all
  · simp_all

/-- The `CharsetReader` is called at most once, and if it is, it decides. -/
theorem word_cases (w : Bytes) :
    (∃ d, (∀ cr, wordDecode cr w = d) ∧ ∀ (R : Option (Reader σ)) s, wordDecodeWith R w s = (some d, s)) ∨
    (∃ c b, (∀ f, wordDecode (some f) w = f c b) ∧ wordDecode none w = none ∧ (∀ (f : Reader σ) s, wordDecodeWith (some f) w s = f c b s) ∧
      ∀ s : σ, wordDecodeWith none w s = (some none, s)) := by
  cases h : wordContent w with
  | none => exact .inl ⟨none, fun cr => by rw [wordDecode_content, h], fun R s => by rw [wordDecodeWith_content, h]⟩
  | some p =>
    obtain ⟨c, b⟩ := p
    by_cases h1 : toLower c = b!"utf-8"
    · exact .inl ⟨some b, fun cr => by simp only [wordDecode_content, h, convert.eq_def, if_pos h1], fun R s => by simp only [wordDecodeWith_content, h, convertWith.eq_def, if_pos h1]⟩
    by_cases h2 : toLower c = b!"iso-8859-1"
    · exact .inl ⟨some (b.flatMap fun b => encodeRune (Char.ofNat b.toNat)), fun cr => by simp only [wordDecode_content, h, convert.eq_def, if_neg h1, if_pos h2],
        fun R s => by simp only [wordDecodeWith_content, h, convertWith.eq_def, if_neg h1, if_pos h2]⟩
    by_cases h3 : toLower c = b!"us-ascii"
    · exact .inl ⟨some (b.flatMap fun b => if b.toNat ≥ 0x80 then encodeRune runeError else [b]), fun cr => by simp only [wordDecode_content, h, convert.eq_def, if_neg h1, if_neg h2, if_pos h3],
        fun R s => by simp only [wordDecodeWith_content, h, convertWith.eq_def, if_neg h1, if_neg h2, if_pos h3]⟩
    exact .inr ⟨toLower c, b, fun f => by simp only [wordDecode_content, h, convert.eq_def, if_neg h1, if_neg h2, if_neg h3],
      by simp only [wordDecode_content, h, convert.eq_def, if_neg h1, if_neg h2, if_neg h3],
      fun f s => by simp only [wordDecodeWith_content, h, convertWith.eq_def, if_neg h1, if_neg h2, if_neg h3],
      fun s => by simp only [wordDecodeWith_content, h, convertWith.eq_def, if_neg h1, if_neg h2, if_neg h3]⟩

/-! ## The walk -/

theorem applyWith_other {R : ReaderVar σ} {year w s} {e : Ev} (h : e.word = none) : e.applyWith R year w s = (some (e.apply ⟨fun _ => none, year⟩ w), s) := by
  cases e with
  | exit => rfl
  | enter r ts => cases r <;> first | rfl | cases h

theorem applyWith_word {R : ReaderVar σ} {year w s} {e : Ev} {v} (h : e.word = some v) :
    e.applyWith R year w s = match wordDecodeWith (R s) v s with
      | (none, s') => (none, s')
      | (some d, s') => (some (.ok (w.enter (.encodedWord (d.getD v)))), s') := by
  cases e with
  | exit => cases h
  | enter r ts =>
    cases r <;> first | cases h | skip
    rw [Ev.applyWith]
    rcases wordDecodeWith (R s) (textList ts) s with ⟨_ | d, s'⟩
    · rfl
    · show (some ((Ev.enter .encodedWord ts).apply ⟨fun _ => d, year⟩ w), s') = _
      rw [Ev.apply_word (v := textList ts) rfl]

/-- With the values that the words have, the walk is the same as in C51. -/
theorem walkWith_answers (R : ReaderVar σ) (year : Int) : ∀ (es : List Ev) (w : Walker) (s : σ), (∀ e ∈ es, e.isYear = false) →
    (∀ us, us.length = (wordsOf es).length → ∃ w', runVals es us w = .ok w') →
    ∃ vs s', Answers R (wordsOf es) s vs s' ∧ walkWith R year es w s = (vs.map fun us => runVals es us w, s')
  | [], w, s, _, _ => ⟨some [], s, .nil, rfl⟩
  | e :: es, w, s, hy, hok => by
    have hy' : ∀ e ∈ es, e.isYear = false := fun e he => hy e (by simp [he])
    cases he : e.word with
    | none =>
      have hw : wordsOf (e :: es) = wordsOf es := by simp [wordsOf, he]
      rw [hw] at hok ⊢
      simp only [runVals, he] at hok ⊢
      rw [walkWith, applyWith_other he, Ev.apply_indep he (hy e (by simp)) (env' := env0)]
      cases ha : e.apply env0 w with
      | error p => rw [ha] at hok; obtain ⟨_, h⟩ := hok _ rfl; cases h
      | ok w' =>
        rw [ha] at hok
        exact walkWith_answers R year es w' s hy' hok
    | some v =>
      have hw : wordsOf (e :: es) = v :: wordsOf es := by simp [wordsOf, he]
      rw [hw] at hok ⊢
      have hok' : ∀ a us, us.length = (wordsOf es).length → ∃ w', runVals es us (w.enter (.encodedWord a)) = .ok w' := by
        intro a us hu
        obtain ⟨w', h⟩ := hok (a :: us) (by simp [hu])
        simp only [runVals, he] at h
        exact ⟨w', h⟩
      have step : ∀ (a : Bytes) (vs : Option (List Bytes)),
          (vs.map (a :: ·)).map (fun us => runVals (e :: es) us w) = vs.map fun us => runVals es us (w.enter (.encodedWord a)) := by
        rintro a (_ | us)
        · rfl
        · simp only [Option.map_some, runVals, he]
      rw [walkWith, applyWith_word he]
      rcases word_cases (σ := σ) v with ⟨d, h1, h2⟩ | ⟨c, b, h1, _, h3, h4⟩
      · rw [h2]
        obtain ⟨vs, s', k1, k2⟩ := walkWith_answers R year es _ s hy' (hok' (d.getD v))
        exact ⟨_, s', .settled (fun cr => by rw [value, h1]) k1, by rw [step]; exact k2⟩
      · cases hf : R s with
        | none =>
          rw [h4]
          obtain ⟨vs, s', k1, k2⟩ := walkWith_answers R year es _ s hy' (hok' v)
          exact ⟨_, s', .nobody h1 hf k1, by rw [step]; exact k2⟩
        | some f =>
          rw [h3]
          cases hr : f c b s with
          | mk a s₁ =>
            cases a with
            | none => exact ⟨none, s₁, .panics h1 hf hr, rfl⟩
            | some a =>
              obtain ⟨vs, s', k1, k2⟩ := walkWith_answers R year es _ s₁ hy' (hok' (a.getD v))
              exact ⟨_, s', .asks h1 hf hr k1, by rw [step]; exact k2⟩

theorem apply_other {e : Ev} (h : e.word = none) (d d' : Bytes → Option Bytes) (year : Int) (w : Walker) : e.apply ⟨d, year⟩ w = e.apply ⟨d', year⟩ w := by
  cases e with
  | exit => rfl
  | enter r ts => cases r <;> first | rfl | cases h

/-- Without words, nothing happens. -/
theorem walkWith_none (R : ReaderVar σ) (d : Bytes → Option Bytes) (year : Int) : ∀ (es : List Ev) (w : Walker) (s : σ), (∀ e ∈ es, e.word = none) →
    walkWith R year es w s = (some (runEvents (withEnv ⟨d, year⟩ es) w), s)
  | [], w, s, _ => rfl
  | e :: es, w, s, h => by
    rw [walkWith, applyWith_other (h e (by simp)), apply_other (h e (by simp)) _ d]
    simp only [withEnv, List.map_cons, runEvents]
    cases e.apply ⟨d, year⟩ w with
    | error p => rfl
    | ok w' => exact walkWith_none R d year es w' s fun e he => h e (by simp [he])

/-- A reader without side effects. -/
theorem walkWith_pure (R : ReaderVar σ) (cr : CharsetReader) (hR : ∀ v s, wordDecodeWith (R s) v s = (some (wordDecode cr v), s)) (year : Int) :
    ∀ (es : List Ev) (w : Walker) (s : σ), walkWith R year es w s = (some (runEvents (withEnv (goEnv cr year) es) w), s)
  | [], w, s => rfl
  | e :: es, w, s => by
    rw [walkWith]
    simp only [withEnv, List.map_cons, runEvents]
    cases he : e.word with
    | none =>
      rw [applyWith_other he]
      have : e.apply ⟨fun _ => none, year⟩ w = e.apply (goEnv cr year) w := apply_other he _ _ year w
      rw [this]
      cases e.apply (goEnv cr year) w with
      | error p => rfl
      | ok w' => exact walkWith_pure R cr hR year es w' s
    | some v =>
      rw [applyWith_word he, hR, Ev.apply_word he]
      exact walkWith_pure R cr hR year es _ s

/-! ## The words of a text -/

theorem _root_.Rfc5322.Spec.Found.trans {ws us : List (List Char)} {s s' s'' : List Char} (h : Found ws s s') (h' : Found us s' s'') : Found (ws ++ us) s s'' := by
  induction h with
  | done => exact h'
  | word hw _ ih => exact .word hw (ih h')
  | char hc _ ih => exact .char hc (ih h')
  | comment hc _ ih => exact .comment hc (ih h')
  | quoted hc _ ih => exact .quoted hc (ih h')
  | literal hc _ ih => exact .literal hc (ih h')
  | opening hn hs _ ih => exact .opening hn hs (ih h')
  | closing hc _ ih => exact .closing hc (ih h')

/-- Where brackets and quotation marks occur only in comments, domain literals and quoted strings. -/
def G.plainOk : G → Bool
  | .eps | .eof | .comment => true
  | .t k => decide (k ≠ .LParens ∧ k ≠ .DQuote ∧ k ≠ .LBracket)
  | .seq a b | .alt a b => a.plainOk && b.plainOk
  | .star a => a.plainOk
  | .rule .encodedWord a => decide (G.rule .encodedWord a = Gr.encodedWord)
  | .rule .quotedString a => decide (G.rule .quotedString a = Gr.quotedString)
  | .rule .domainLiteral a => decide (G.rule .domainLiteral a = Gr.domainLiteral)
  | .rule _ a => a.plainOk

/-- The words of these trees are found in the text. -/
def FoundIn (s : List Char) (ts : List Tree) (s' : List Char) : Prop := ∃ ws, Found ws s s' ∧ wordsOf (eventsList ts) = ws.map utf8

theorem FoundIn.trans {s s' s'' ts us} (h : FoundIn s ts s') (h' : FoundIn s' us s'') : FoundIn s (ts ++ us) s'' := by
  obtain ⟨ws, h1, h2⟩ := h
  obtain ⟨ws', h3, h4⟩ := h'
  exact ⟨ws ++ ws', h1.trans h3, by rw [eventsList_append, wordsOf, List.filterMap_append, ← wordsOf, ← wordsOf, h2, h4, List.map_append]⟩

theorem wordsOf_node {r ts} (hr : r ≠ .encodedWord) : wordsOf (eventsList [.node r ts]) = wordsOf (eventsList ts) := by
  have h1 : Ev.word (.enter r ts) = none := by cases r <;> first | rfl | exact absurd rfl hr
  have h2 : Ev.word (.exit r) = none := rfl
  simp only [eventsList, events, List.append_nil, wordsOf, List.filterMap_cons, h1, List.filterMap_append, h2, List.filterMap_nil]

theorem FoundIn.node {r ts s s'} (hr : r ≠ .encodedWord) (h : FoundIn s ts s') : FoundIn s [.node r ts] s' := by
  obtain ⟨ws, h1, h2⟩ := h
  exact ⟨ws, h1, by rw [wordsOf_node hr, h2]⟩

theorem no_words {g s ts s'} (h : Derives g s ts s') (hg : g.allRules (fun r => r != .encodedWord) = true) : wordsOf (eventsList ts) = [] := by
  have inner := derives_allRules (p := fun r => r != .encodedWord) (by decide) h hg
  rw [wordsOf, List.filterMap_eq_nil_iff]
  intro e he
  have := List.all_eq_true.mp (eventsList_ok _ inner) e he
  cases e with
  | exit => rfl
  | enter r ts => cases r <;> first | rfl | simp [Ev.okFor] at this

private abbrev anyEnv : Env := ⟨fun _ => none, 0⟩

theorem found_word {a s ts s'} (hd : Derives a s ts s') (e : G.rule .encodedWord a = Gr.encodedWord) : FoundIn s [.node .encodedWord ts] s' := by
  have hd' : Derives Gr.encodedWord s [.node .encodedWord ts] s' := e ▸ .rule hd
  obtain ⟨w, _, rfl, ⟨hw, _⟩, ht, _⟩ := (means_encodedWord (Q := anyK) (env := anyEnv)).sound hd'
  rw [textList_node] at ht
  refine ⟨[w], .word hw .done, ?_⟩
  injection e with _ ea
  have none : wordsOf (eventsList ts) = [] := no_words hd (by rw [ea]; decide)
  simp only [eventsList, events, List.append_nil, wordsOf, List.filterMap_cons, Ev.word, List.filterMap_append, List.filterMap_nil]
  rw [← wordsOf, none, ht]
  rfl

theorem plain_char {k : Tok} {c : Char} (h : k.matches c = true) (hk : k ≠ .LParens ∧ k ≠ .DQuote ∧ k ≠ .LBracket) : c ∉ c!"(\"[" := by
  intro hm
  have key : ∀ k : Tok, (k.matches '(' = true → k = .LParens) ∧ (k.matches '"' = true → k = .DQuote) ∧ (k.matches '[' = true → k = .LBracket) := by
    intro k; cases k <;> decide
  simp only [List.mem_cons, List.not_mem_nil, or_false] at hm
  rcases hm with rfl | rfl | rfl
  · exact hk.1 ((key k).1 h)
  · exact hk.2.1 ((key k).2.1 h)
  · exact hk.2.2 ((key k).2.2 h)

theorem derives_plain {g s ts s'} (h : Derives g s ts s') (hg : g.plainOk = true) : FoundIn s ts s' := by
  induction h with
  | eps | starNil | eof => exact ⟨[], .done, rfl⟩
  | @t k c s hk =>
    refine ⟨[], .char (plain_char hk (by simpa [G.plainOk] using hg)) .done, rfl⟩
  | seq _ _ ih1 ih2 =>
    simp only [G.plainOk, Bool.and_eq_true] at hg
    exact (ih1 hg.1).trans (ih2 hg.2)
  | starCons _ _ ih1 ih2 => exact (ih1 hg).trans (ih2 hg)
  | altL _ ih => simp only [G.plainOk, Bool.and_eq_true] at hg; exact ih hg.1
  | altR _ ih => simp only [G.plainOk, Bool.and_eq_true] at hg; exact ih hg.2
  | comment hd _ =>
    have hd' := Derives.comment hd
    obtain ⟨t, _, h1, ⟨h2, _⟩, _, _⟩ := (means_comment (env := anyEnv)).sound hd'
    exact ⟨[], h1 ▸ .comment h2 .done, no_words hd' (by decide)⟩
  | @rule r a s ts s' hd ih =>
    cases r
    case encodedWord => exact found_word hd (by simpa [G.plainOk] using hg)
    case quotedString =>
      have e : G.rule .quotedString a = Gr.quotedString := by simpa [G.plainOk] using hg
      have hd' : Derives Gr.quotedString s [.node .quotedString ts] s' := e ▸ .rule hd
      obtain ⟨t, _, h1, ⟨v, h2, _⟩, _, _⟩ := (means_quotedString (Q := anyK) (env := anyEnv)).sound hd'
      exact ⟨[], h1 ▸ .quoted h2 .done, no_words hd' (by decide)⟩
    case domainLiteral =>
      have e : G.rule .domainLiteral a = Gr.domainLiteral := by simpa [G.plainOk] using hg
      have hd' : Derives Gr.domainLiteral s [.node .domainLiteral ts] s' := e ▸ .rule hd
      obtain ⟨t, _, h1, ⟨v, h2, _⟩, _, _⟩ := (means_domainLiteral (Q := anyK) (env := anyEnv)).sound hd'
      exact ⟨[], h1 ▸ .literal h2.1 .done, no_words hd' (by decide)⟩
    all_goals exact .node (by decide) (ih hg)

/-- What comes next is a separator, or nothing. -/
def Sep (s : List Char) : Prop := s = [] ∨ ∃ r', s = ',' :: r' ∨ s = ';' :: r'

def G.isSep : G → Bool
  | .t k => decide (k = .Comma ∨ k = .Semicolon)
  | .seq a _ => a.isSep
  | .alt a b => a.isSep && b.isSep
  | .rule _ a => a.isSep
  | _ => false

def G.sepOk : G → Bool
  | .eps | .eof => true
  | .t k => decide (k = .Comma ∨ k = .Semicolon)
  | .seq a b => a.isSep || a.sepOk && b.sepOk
  | .alt a b => a.sepOk && b.sepOk
  | .star a => a.sepOk
  | .rule _ a => a.sepOk
  | .comment => false

theorem char_comma {c : Char} (h : Tok.Comma.matches c = true) : c = ',' := by
  have : c.toNat = ','.toNat := by
    simp [Tok.matches, Tok.ranges] at h
    have : ','.toNat = 44 := rfl
    omega
  exact Char.toNat_inj.mp this

theorem char_semicolon {c : Char} (h : Tok.Semicolon.matches c = true) : c = ';' := by
  have : c.toNat = ';'.toNat := by
    simp [Tok.matches, Tok.ranges] at h
    have : ';'.toNat = 59 := rfl
    omega
  exact Char.toNat_inj.mp this

theorem derives_isSep {g s ts s'} (h : Derives g s ts s') (hg : g.isSep = true) : Sep s := by
  induction h with
  | @t k c s hk =>
    simp only [G.isSep, decide_eq_true_eq] at hg
    rcases hg with rfl | rfl
    · exact .inr ⟨s, .inl (by rw [char_comma hk])⟩
    · exact .inr ⟨s, .inr (by rw [char_semicolon hk])⟩
  | seq _ _ ih1 _ => exact ih1 hg
  | altL _ ih => simp only [G.isSep, Bool.and_eq_true] at hg; exact ih hg.1
  | altR _ ih => simp only [G.isSep, Bool.and_eq_true] at hg; exact ih hg.2
  | rule _ ih => exact ih hg
  | eps | eof | starNil | starCons | comment => cases hg

theorem derives_sep {g s ts s'} (h : Derives g s ts s') (hg : g.sepOk = true) (hs : Sep s') : Sep s := by
  induction h with
  | eps | starNil => exact hs
  | eof => exact .inl rfl
  | t hk => exact derives_isSep (.t hk) hg
  | seq h1 _ ih1 ih2 =>
    simp only [G.sepOk, Bool.or_eq_true, Bool.and_eq_true] at hg
    rcases hg with hg | hg
    · exact derives_isSep h1 hg
    · exact ih1 hg.1 (ih2 hg.2 hs)
  | altL _ ih => simp only [G.sepOk, Bool.and_eq_true] at hg; exact ih hg.1 hs
  | altR _ ih => simp only [G.sepOk, Bool.and_eq_true] at hg; exact ih hg.2 hs
  | starCons _ _ ih1 ih2 => exact ih1 hg (ih2 hg hs)
  | rule _ ih => exact ih hg hs
  | comment => cases hg

/-- Groups are followed by separators, or nothing. -/
def G.groupsOk : G → Bool
  | .seq a b => (a.plainOk || a.groupsOk && b.sepOk) && b.groupsOk
  | .alt a b => a.groupsOk && b.groupsOk
  | .star a => a.plainOk || a.groupsOk && a.sepOk
  | .rule .group a => decide (G.rule .group a = Gr.group)
  | .rule .encodedWord a => (G.rule .encodedWord a).plainOk
  | .rule .quotedString a => (G.rule .quotedString a).plainOk
  | .rule .domainLiteral a => (G.rule .domainLiteral a).plainOk
  | .rule _ a => a.groupsOk
  | g => g.plainOk

theorem opt_cases {g s ts s'} (h : Derives (.opt g) s ts s') : Derives g s ts s' ∨ ts = [] ∧ s = s' := by
  cases h with
  | altL h => exact .inl h
  | altR h => cases h; exact .inr ⟨rfl, rfl⟩

theorem char_colon {c : Char} (h : Tok.Colon.matches c = true) : c = ':' := by
  have : c.toNat = ':'.toNat := by
    simp [Tok.matches, Tok.ranges] at h
    have : ':'.toNat = 58 := rfl
    omega
  exact Char.toNat_inj.mp this

theorem char_dquote {c : Char} (h : Tok.DQuote.matches c = true) : c = '"' := by
  have : c.toNat = '"'.toNat := by
    simp [Tok.matches, Tok.ranges] at h
    have : '"'.toNat = 34 := rfl
    omega
  exact Char.toNat_inj.mp this

theorem found_quote {s ts s' us s''} (h : Derives (.opt (.t .DQuote)) s ts s') (hq : ∀ {ws}, Found ws s' s'' → Found ws ('"' :: s') s'') (h' : FoundIn s' us s'') :
    FoundIn s (ts ++ us) s'' := by
  rcases opt_cases h with h | ⟨rfl, rfl⟩
  · obtain ⟨ws, h1, h2⟩ := h'
    cases h with
    | t hk => exact ⟨ws, by rw [char_dquote hk]; exact hq h1, h2⟩
  · exact h'

theorem found_group {s ts s'} (h : Derives Gr.group s ts s') (hs : Sep s') : FoundIn s ts s' := by
  unfold Gr.group at h
  cases h with
  | rule h =>
    refine .node (by decide) ?_
    cases h with | seq h1 h => cases h with | seq h2 h => cases h with | seq h3 h => cases h with | seq h4 h => cases h with | seq h5 h => cases h with | seq h6 h7 =>
    have p2 := derives_plain h2 (by decide +kernel)
    have p3 := derives_plain h3 (by decide +kernel)
    have p4 := derives_plain h4 (by decide +kernel)
    have p6 := derives_plain h6 (by decide +kernel)
    have p7 := derives_plain h7 (by decide +kernel)
    obtain ⟨c, _, rfl, ⟨hc, _⟩, _⟩ := (means_optCfws (env := anyEnv)).sound h7
    have p5 := found_quote h5 (fun hf => by
      refine .closing ?_ hf
      rcases opt_cases h6 with h6 | ⟨_, rfl⟩
      · cases h6 with | t hk => exact ⟨[';'], c, s', .inr rfl, hc, hs, by rw [char_semicolon hk]; rfl⟩
      · exact ⟨[], c, s', .inl rfl, hc, hs, rfl⟩) (p6.trans p7)
    exact found_quote h1 (fun hf => by
      obtain ⟨n, _, e, ⟨v, hn, _⟩, _⟩ := (means_displayName (Q := anyK) (env := anyEnv)).sound h2
      cases h3 with | t hk => exact .opening hn (by rw [e, char_colon hk]) hf) (p2.trans (p3.trans (p4.trans p5)))

theorem derives_groups {g s ts s'} (h : Derives g s ts s') (hg : g.groupsOk = true) (hs : Sep s') : FoundIn s ts s' := by
  induction h with
  | eps => exact derives_plain .eps hg
  | eof => exact derives_plain .eof hg
  | t hk => exact derives_plain (.t hk) hg
  | comment hd => exact derives_plain (.comment hd) hg
  | starNil => exact ⟨[], .done, rfl⟩
  | seq h1 h2 ih1 ih2 =>
    simp only [G.groupsOk, Bool.or_eq_true, Bool.and_eq_true] at hg
    refine FoundIn.trans ?_ (ih2 hg.2 hs)
    rcases hg.1 with hg | hg
    · exact derives_plain h1 hg
    · exact ih1 hg.1 (derives_sep h2 hg.2 hs)
  | altL _ ih => simp only [G.groupsOk, Bool.and_eq_true] at hg; exact ih hg.1 hs
  | altR _ ih => simp only [G.groupsOk, Bool.and_eq_true] at hg; exact ih hg.2 hs
  | starCons h1 h2 ih1 ih2 =>
    refine FoundIn.trans ?_ (ih2 hg hs)
    simp only [G.groupsOk, Bool.or_eq_true, Bool.and_eq_true] at hg
    rcases hg with hg | hg
    · exact derives_plain h1 hg
    · exact ih1 hg.1 (derives_sep h2 hg.2 hs)
  | @rule r a s ts s' hd ih =>
    cases r
    case group =>
      have e : G.rule .group a = Gr.group := by simpa [G.groupsOk] using hg
      exact found_group (e ▸ .rule hd) hs
    case encodedWord | quotedString | domainLiteral => exact derives_plain (.rule hd) hg
    all_goals exact .node (by decide) (ih hg hs)

end Rfc5322
