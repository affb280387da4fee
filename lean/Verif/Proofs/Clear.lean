import Verif.Proofs.Takes

/-!
# Clear-cut texts are taken as intended
-/

namespace Rfc5322

open Spec

variable {env : Env} {Q : Rule → Prop}

/-! ## Display names -/

theorem word_piece {t r : List Char} {v} (h : Takes anyK env Gr.word t r (deliver (.word v))) :
    Takes (· = .displayName) env Gr.word t r (addPieces [.word v]) := by
  refine h.weaken (fun p => by cases p <;> rfl) fun p hp => ⟨trivial, ?_⟩
  cases p with
  | displayName x u =>
    simp only [deliver, displayWithWord, addPieces, List.foldl, addPiece]
    cases u <;> cases x <;> simp
  | _ => simp [Node.kind] at hp

theorem noEncHere_noWord {r : List Char} (h : Heads noWord r) : NoEncHere r := by
  intro e x he eq
  obtain ⟨y, rfl⟩ := encodedWord_head he
  exact absurd (h _ _ eq) (by decide)

theorem noEncHere_prefix {t r : List Char} (ht : ¬ c!"=?" <+: t) (hr : Heads noWord r) : NoEncHere (t ++ r) := by
  cases t with
  | nil => exact noEncHere_noWord hr
  | cons c t => exact noEncHere_atom (by simp) ht (hr.mono fun c h => by simp [(noWord_iff.mp h).2.1])

theorem phrase_heads {t r : List Char} {vs} (h : Phrase env t vs) (hr : Heads noWord r) : Heads solid (t ++ r) := by
  cases h with
  | nil => exact hr.mono fun c h => (noWord_iff.mp h).1
  | atom ht _ _ _ _ => rw [List.append_assoc]; exact atom_heads ht
  | quoted ht _ _ => rw [List.append_assoc]; exact quoted_heads ht
  | encoded ht _ _ => obtain ⟨y, rfl⟩ := encRun_head ht; exact .cons rfl

theorem cfws_heads {b : List Char} (hb : OptCfws b) (hne : b ≠ []) (r) : Heads (fun c => !isAtext c) (b ++ r) := by
  obtain ⟨c, x, rfl⟩ := List.exists_cons_of_ne_nil hne
  refine .cons ?_
  cases hc : isAtext c with
  | false => rfl
  | true => exact (cfws_ne (a := []) OptCfws.nil hb (atext_solid hc) rfl).elim

/-- The first word of a phrase, after CFWS, and the rest. -/
theorem takes_phrase_word {a t r : List Char} {v vs} (ha : OptCfws a) (h : Phrase env t (v :: vs)) (hr : Heads noWord r) :
    ∃ u x, t = u ++ x ∧ Phrase env x vs ∧ Takes Q env Gr.word (a ++ u) (x ++ r) (deliver (.word v)) := by
  cases h with
  | @atom t b x _ ht hn hb hx h =>
    refine ⟨t ++ b, x, by simp, h, ?_⟩
    have hbr : Heads (fun c => !isAtext c) (b ++ (x ++ r)) := by
      by_cases hne : b = []
      · subst hne
        cases x with
        | nil => exact hr.mono fun c h => by simp [(noWord_iff.mp h).2.1]
        | cons c x => exact .cons (by simp [hx rfl c (by simp)])
      · exact cfws_heads hb hne _
    exact takes_word_atom ha ht hb (phrase_heads h hr) hbr (noEncHere_atom ht.1 hn hbr)
  | @quoted t b x _ _ ht hb h =>
    exact ⟨t ++ b, x, by simp, h, takes_word_quoted ha ht hb (phrase_heads h hr)⟩
  | @encoded t x _ _ ht hn h =>
    exact ⟨t, x, rfl, h, takes_word_encoded ha ht (phrase_heads h hr) (noEncHere_prefix hn hr)⟩

theorem takes_words {t r : List Char} {vs} (h : Phrase env t vs) (hr : Heads noWord r) :
    Takes (· = .displayName) env (.star Gr.word) t r (addPieces (vs.map .word)) := by
  induction vs generalizing t with
  | nil =>
    cases h
    exact (Takes.stop (noDer_word (a := []) OptCfws.nil hr)).cast fun p => by rw [List.map_nil, addPieces_nil]
  | cons v vs ih =>
    obtain ⟨u, x, rfl, hx, hw⟩ := takes_phrase_word (Q := anyK) OptCfws.nil h hr
    exact ((word_piece hw).again (ih hx)).cast fun p => by simp [addPieces_add]

theorem takes_displayName {a t r : List Char} {vs} (ha : OptCfws a) (h : Phrase env t vs) (hne : vs ≠ []) (hr : Heads noWord r) :
    Takes Q env Gr.displayName (a ++ t) r (setName (wordsName vs)) := by
  have eff : ∀ v u, deliver (.displayName v u) = setName v := by intro v u; funext p; cases p <;> rfl
  obtain ⟨v, vs, rfl⟩ := List.exists_cons_of_ne_nil hne
  obtain ⟨u, x, rfl, hx, hw⟩ := takes_phrase_word (Q := anyK) ha h hr
  have h1 := (word_piece hw).seq (takes_words hx hr)
  have h2 : Takes Q env Gr.displayName _ _ _ := .push (Q' := (· = .displayName)) (mk := .displayName [] false) rfl rfl rfl
    (Takes.altL (b := Gr.word ⬝ .star (Gr.word ‖ Gr.unspaced ‖ Gr.cfws)) h1) (fun _ _ _ => rfl)
  exact (h2.text (by simp)).cast fun p => by rw [addPieces_add, addPieces, eff]; rfl

/-! ## addr-spec -/

theorem takes_lit {k : Tok} {c : Char} {r} (h : k.matches c = true) : Takes Q env (.t k) [c] r id := .tok h

theorem cfws_afterDot {b r : List Char} (hb : OptCfws b) (hr : Heads afterDot r) : Heads afterDot (b ++ r) := by
  cases b with
  | nil => exact hr
  | cons c b =>
    refine .cons (afterDot_iff.mpr ⟨?_, ?_⟩)
    · have := (cfws_heads hb (by simp) r).head; simpa using this
    · rintro rfl; exact cfws_ne (a := []) OptCfws.nil hb (by decide) rfl

theorem noDer_dotAtom_around {a r : List Char} (ha : OptCfws a) (hs : Heads solid r) (hr : Heads (fun c => !isAtext c) r) :
    NoDer (.opt Gr.cfws ⬝ Gr.dotAtom ⬝ .opt Gr.cfws) (a ++ r) := by
  refine noDer_means (means_dotAtom' (Q := plainK) (env := nenv)).around ?_
  rintro _ _ r' ⟨_, ⟨a', u, b', ha', ⟨hu, _⟩, hb', rfl⟩, _⟩ eq
  obtain ⟨c, x, rfl, hc⟩ := dotAtom_cons hu
  obtain ⟨_, h⟩ := around_split ha ha' hs ⟨_, _, rfl, atext_solid hc⟩ eq
  have := hr _ _ h
  simp [hc] at this

/-! ### Obsolete local parts -/

/-- Characters of dot-atoms. -/
def dotChar (c : Char) : Bool := isAtext c || c == '.'

theorem dotChar_solid {c : Char} (h : dotChar c = true) : solid c = true ∧ c ≠ '@' ∧ c ≠ '"' := by
  simp only [dotChar, Bool.or_eq_true, beq_iff_eq] at h
  rcases h with h | rfl
  · exact ⟨atext_solid h, by rintro rfl; exact absurd h (by decide), by rintro rfl; exact absurd h (by decide)⟩
  · decide

theorem dotAtom_chars {t : List Char} (h : DotAtom t) : ∀ c ∈ t, dotChar c = true := by
  have hd : ∀ {t : List Char}, Dotted t → ∀ c ∈ t, dotChar c = true := by
    intro t h
    induction h with
    | one h => exact fun c hc => by simp [dotChar, h.2 c hc]
    | cons h _ ih =>
      intro c hc
      simp only [List.mem_append, List.mem_cons] at hc
      rcases hc with hc | rfl | hc
      · simp [dotChar, h.2 c hc]
      · rfl
      · exact ih c hc
  rcases h with h | ⟨r, h, rfl⟩
  · exact hd h
  · intro c hc
    simp only [List.mem_append, List.mem_singleton] at hc
    rcases hc with hc | rfl
    · exact hd h c hc
    · rfl

/-- What follows the characters of a dot-atom and CFWS. -/
def afterDots (s : List Char) : List Char := skip (s.dropWhile dotChar)

theorem dropWhile_all {p : Char → Bool} {x s : List Char} (h : ∀ c ∈ x, p c = true) : (x ++ s).dropWhile p = s.dropWhile p := by
  induction x with
  | nil => rfl
  | cons c x ih =>
    rw [List.cons_append, List.dropWhile_cons_of_pos (h c (by simp))]
    exact ih fun c hc => h c (by simp [hc])

theorem afterDots_chars {x s : List Char} (h : ∀ c ∈ x, dotChar c = true) : afterDots (x ++ s) = afterDots s := by
  rw [afterDots, dropWhile_all h]; rfl

/-- CFWS stops it. -/
theorem afterDots_cfws {b s : List Char} {c : Char} (hb : OptCfws b) (hc : solid c = true) (hn : b ≠ [] ∨ dotChar c = false) :
    afterDots (b ++ c :: s) = c :: s := by
  have : (b ++ c :: s).dropWhile dotChar = b ++ c :: s := by
    cases b with
    | nil =>
      rcases hn with h | h
      · exact absurd rfl h
      · rw [List.nil_append, List.dropWhile_cons_of_neg (by simp [h])]
    | cons d b =>
      rw [List.cons_append, List.dropWhile_cons_of_neg]
      intro hd
      exact cfws_ne (a := []) OptCfws.nil hb (dotChar_solid hd).1 rfl
  rw [afterDots, this, skip_cfws hb, skip_solid hc]

/-- `@` is next, after the end of the text, or something else. -/
def Ends (r s : List Char) : Prop := ∀ x, afterDots s = '@' :: x → x = r

theorem ends_cons {r s : List Char} {c : Char} (h : afterDots s = c :: r) (hc : c ≠ '@') {x} : Ends x s := by
  intro y e
  rw [h] at e
  injection e with e _
  exact absurd e hc

theorem ends_at {r b : List Char} (hb : OptCfws b) : Ends r (b ++ '@' :: r) := by
  intro x e
  rw [afterDots_cfws hb (by decide) (.inr (by decide))] at e
  injection e with _ e
  exact e.symm

theorem ends_cfws {b s : List Char} {c : Char} {r} (hb : OptCfws b) (hc : solid c = true) (ha : c ≠ '@') (h : Ends r (c :: s)) :
    Ends r (b ++ c :: s) := by
  cases b with
  | nil => exact h
  | cons d b => exact ends_cons (afterDots_cfws hb hc (.inl (by simp))) ha

/-- Solid characters other than `@`. -/
theorem ends_chars {t s r : List Char} (ht : ∀ c ∈ t, solid c = true ∧ c ≠ '@') (h : Ends r s) : Ends r (t ++ s) := by
  induction t with
  | nil => exact h
  | cons c t ih =>
    have ih := ih fun c hc => ht c (by simp [hc])
    cases hc : dotChar c with
    | true => intro x e; exact ih x (by rwa [List.cons_append, ← List.singleton_append, afterDots_chars (by simpa using hc)] at e)
    | false => exact ends_cons (afterDots_cfws (b := []) OptCfws.nil (ht c (by simp)).1 (.inr hc)) (ht c (by simp)).2

theorem encodedWord_visible {t : List Char} (h : EncodedWord t) : ∀ c ∈ t, isVchar c = true := by
  obtain ⟨cs, en, tx, _, _, _, h1, h2, h3, rfl⟩ := h
  have tok : ∀ {c}, isTokenChar c = true → isVchar c = true := fun h => by simp only [isTokenChar, Bool.and_eq_true] at h; exact h.1.1
  have enc : ∀ {c}, isEncodedChar c = true → isVchar c = true := fun h => by simp only [isEncodedChar, Bool.and_eq_true] at h; exact h.1.1
  intro c hc
  simp only [List.mem_cons, List.mem_append, List.not_mem_nil, or_false] at hc
  rcases hc with rfl | rfl | hc | rfl | hc | rfl | hc | rfl | rfl
  · decide
  · decide
  · exact tok (h1 c hc)
  · decide
  · exact tok (h2 c hc)
  · decide
  · exact enc (h3 c hc)
  · decide
  · decide

theorem vchar_not_blank {c : Char} (h : isVchar c = true) : isBlank c = false := by
  cases hb : isBlank c with
  | false => rfl
  | true => rcases blank_iff.mp hb with rfl | rfl | rfl | rfl <;> exact absurd h (by decide)

theorem localRun_run {t v} (h : LocalRun env t v) : EncodedRun env t v := by
  induction h with
  | one h _ hb => exact .one h hb
  | cons h _ hb _ ih => exact .cons h hb ih

theorem localRun_ends {t v s r} (h : LocalRun env t v) {c : Char} (hc : solid c = true) (hs : ∀ b, OptCfws b → Ends r (b ++ c :: s)) :
    Ends r (t ++ c :: s) := by
  induction h with
  | one h hn hb =>
    rw [List.append_assoc]
    exact ends_chars (fun d hd => ⟨solid_iff.mpr ⟨vchar_not_blank (encodedWord_visible h d hd), (hn d hd).2⟩, (hn d hd).1⟩) (hs _ hb)
  | @cons t b u v h hn hb hu ih =>
    rw [List.append_assoc, List.append_assoc]
    refine ends_chars (fun d hd => ⟨solid_iff.mpr ⟨vchar_not_blank (encodedWord_visible h d hd), (hn d hd).2⟩, (hn d hd).1⟩) ?_
    obtain ⟨y, rfl⟩ := encRun_head (localRun_run hu)
    exact ends_cfws hb (by decide) (by decide) ih

/-- The first solid character of a word. -/
theorem localWord_head {t v} (h : LocalWord env t v) : ∃ a c x, OptCfws a ∧ (isAtext c = true ∨ c = '"') ∧ t = a ++ c :: x := by
  cases h with
  | @atom a u b ha hu _ hb =>
    obtain ⟨hne, h⟩ := hu
    obtain ⟨c, t, rfl⟩ := List.exists_cons_of_ne_nil hne
    exact ⟨a, c, _, ha, .inl (h c (by simp)), rfl⟩
  | @quoted a u b v ha hu hb =>
    obtain ⟨y, rfl⟩ := quotedString_head hu
    exact ⟨a, '"', _, ha, .inr rfl, rfl⟩
  | @encoded a t _ ha h =>
    obtain ⟨y, rfl⟩ := encRun_head (localRun_run h)
    exact ⟨a, '=', _, ha, .inl (by decide), rfl⟩

/-- A word without its leading CFWS. -/
theorem localWord_ends {t v s r} (h : LocalWord env t v) {c : Char} (hc : solid c = true) (hs : ∀ b, OptCfws b → Ends r (b ++ c :: s)) :
    ∃ a d u, OptCfws a ∧ (isAtext d = true ∨ d = '"') ∧ t = a ++ d :: u ∧ Ends r (d :: u ++ c :: s) := by
  cases h with
  | @atom a u b ha hu _ hb =>
    have := ends_chars (fun d hd => ⟨atext_solid (hu.2 d hd), by rintro rfl; exact absurd (hu.2 _ hd) (by decide)⟩) (hs _ hb)
    obtain ⟨hne, h⟩ := hu
    obtain ⟨d, u, rfl⟩ := List.exists_cons_of_ne_nil hne
    exact ⟨a, d, u ++ b, ha, .inl (h d (by simp)), rfl, by simpa using this⟩
  | @quoted a u b v ha hu hb =>
    obtain ⟨y, rfl⟩ := quotedString_head hu
    exact ⟨a, '"', _, ha, .inr rfl, rfl, ends_cons (afterDots_cfws (b := []) OptCfws.nil (by decide) (.inr (by decide))) (by decide)⟩
  | @encoded a t _ ha h =>
    have := localRun_ends h hc hs
    obtain ⟨y, rfl⟩ := encRun_head (localRun_run h)
    exact ⟨a, '=', _, ha, .inl (by decide), rfl, this⟩

theorem wordHead_solid {c : Char} (hc : isAtext c = true ∨ c = '"') : solid c = true ∧ c ≠ '@' := by
  rcases hc with h | rfl
  · exact ⟨atext_solid h, by rintro rfl; exact absurd h (by decide)⟩
  · decide

theorem localWords_ends {t v r} (h : LocalWords env t v) :
    ∃ a d u, OptCfws a ∧ (isAtext d = true ∨ d = '"') ∧ t = a ++ d :: u ∧ Ends r (d :: u ++ '@' :: r) := by
  induction h with
  | one h => exact localWord_ends h (by decide) fun b hb => ends_at hb
  | @cons t v x u h hx ih =>
    obtain ⟨a, d, u, ha, hd, rfl, hu⟩ := ih
    obtain ⟨hd1, hd2⟩ := wordHead_solid hd
    have key : Ends r ('.' :: (a ++ d :: u ++ '@' :: r)) := by
      intro z ez
      rw [← List.singleton_append, afterDots_chars (by simp [dotChar])] at ez
      rw [List.append_assoc] at ez
      exact ends_cfws ha hd1 hd2 hu z ez
    obtain ⟨a₁, d₁, u₁, h1, hd₁, rfl, h3⟩ := localWord_ends (s := a ++ d :: u ++ '@' :: r) (r := r) h (c := '.') (by decide)
      (fun b hb => ends_cfws hb (by decide) (by decide) key)
    exact ⟨a₁, d₁, u₁ ++ '.' :: (a ++ d :: u), h1, hd₁, by simp, by simpa using h3⟩

theorem noDer_tok {k : Tok} {c : Char} {b : G} {r : List Char} (hm : Means plainK nenv (.t k) (.quiet fun t => t = [c]))
    (hr : Heads (fun d => d != c) r) : NoDer (.t k ⬝ b) r := by
  refine (noDer_means hm ?_).seq_left
  rintro _ _ r' ⟨rfl, _⟩ e
  have := hr _ _ e
  simp at this

theorem noDer_tok' {k : Tok} {c : Char} {r : List Char} (hm : Means plainK nenv (.t k) (.quiet fun t => t = [c]))
    (hr : Heads (fun d => d != c) r) : NoDer (.t k) r := by
  refine (noDer_means hm ?_)
  rintro _ _ r' ⟨rfl, _⟩ e
  have := hr _ _ e
  simp at this

theorem takes_localWord {t r : List Char} {v} (h : LocalWord env t v) (hr : Heads noWord r) :
    Takes Q env Gr.word t r (deliver (.word v)) := by
  have hs : Heads solid r := hr.mono fun c h => (noWord_iff.mp h).1
  have hat : Heads (fun c => !isAtext c) r := hr.mono fun c h => by simp [(noWord_iff.mp h).2.1]
  cases h with
  | @atom a u b ha hu hn hb =>
    have hbr : Heads (fun c => !isAtext c) (b ++ r) := by
      by_cases hne : b = []
      · subst hne; exact hat
      · exact cfws_heads hb hne _
    exact takes_word_atom ha hu hb hs hbr (noEncHere_atom hu.1 hn hbr)
  | quoted ha hu hb => exact takes_word_quoted ha hu hb hs
  | encoded ha h => exact takes_word_encoded ha (localRun_run h) hs (noEncHere_noWord hr)

theorem word_added {t r : List Char} {v} (h : Takes anyK env Gr.word t r (deliver (.word v))) :
    Takes (· = .obsLocalPart) env Gr.word t r (addWords [v]) := by
  refine h.weaken (fun p => by cases p <;> rfl) fun p hp => ⟨trivial, ?_⟩
  cases p with
  | obsLocalPart xs => rfl
  | _ => simp [Node.kind] at hp

theorem takes_obsLocalPart {t r : List Char} {v} (h : LocalWords env t v) :
    Takes Q env Gr.obsLocalPart t ('@' :: r) (setLocal v) := by
  have eff : ∀ vs, deliver (.obsLocalPart vs) = setLocal (joinBytes b!"." vs) := by intro v; funext p; cases p <;> rfl
  have key : ∃ w ws u x, v = joinBytes b!"." (w :: ws) ∧ t = u ++ x ∧ Heads noWord (x ++ '@' :: r) ∧ LocalWord env u w ∧
      Takes (· = .obsLocalPart) env (.star (.t .Period ⬝ Gr.word)) x ('@' :: r) (addWords ws) := by
    induction h with
    | @one t v h =>
      refine ⟨v, [], t, [], by simp [joinBytes], by simp, .cons (by decide), h, ?_⟩
      exact (Takes.stop (noDer_tok means_period (.cons rfl))).cast fun p => by rw [addWords_nil]
    | @cons t v x u h hx ih =>
      obtain ⟨w, ws, u, y, rfl, rfl, hy, hw, ht⟩ := ih
      refine ⟨v, w :: ws, t, '.' :: (u ++ y), by rw [joinBytes_cons], rfl, .cons (by decide), h, ?_⟩
      have h1 : Takes (· = .obsLocalPart) env _ _ _ _ := (Takes.tok period_matches).seq (word_added (takes_localWord hw hy))
      exact ((h1.again ht).text (by simp)).cast fun p => by simp [addWords_add]
  obtain ⟨w, ws, u, x, rfl, rfl, hx, hw, ht⟩ := key
  have h1 := (word_added (takes_localWord hw hx)).seq ht
  exact (Takes.push (q := .obsLocalPart) (mk := .obsLocalPart []) (Q' := (· = .obsLocalPart)) rfl rfl rfl h1 (fun _ _ _ => rfl)).cast
    fun p => by rw [addWords_add]; exact congrFun (eff (w :: ws)) p

/-- Before an at sign. -/
theorem picks_localPart {t r : List Char} {v} {K : List Char → Prop} (h : ClearLocal env t v) (hK : K ('@' :: r))
    (hat : ∀ s, K s → ∃ x, s = '@' :: x) : Picks K Q env Gr.localPart t ('@' :: r) (deliver (.localPart v)) := by
  have hs : Heads solid ('@' :: r) := .cons rfl
  have quoted : ∀ {a u b v}, OptCfws a → QuotedString u v → OptCfws b →
      Takes Q env Gr.localPart (a ++ (u ++ b)) ('@' :: r) (deliver (.localPart v)) := by
    intro a u b v ha ht hb
    refine .push (Q' := plainK) (mk := .localPart []) rfl rfl (plainK_of rfl)
      (.altR ?_ (.altL (takes_around ha hb (takes_quotedString ht) (quoted_heads ht) hs))) (fun _ _ _ => rfl)
    rw [List.append_assoc, List.append_assoc]
    refine noDer_dotAtom_around ha (quoted_heads ht) ?_
    obtain ⟨y, rfl⟩ := quotedString_head ht
    exact .cons rfl
  cases h with
  | dotAtom ha ht hb =>
    exact (Takes.push (Q' := plainK) (mk := .localPart []) rfl rfl (plainK_of rfl)
      (.altL (takes_around ha hb (takes_dotAtom ht (cfws_afterDot hb (.cons rfl))) (dotAtom_heads ht) hs)) (fun _ _ _ => rfl)) _ hK
  | @quoted a t b _ ha ht hb => exact quoted ha ht hb _ hK
  | words h hn =>
    by_cases hq : ∃ a u b, OptCfws a ∧ QuotedString u v ∧ OptCfws b ∧ t = a ++ (u ++ b)
    · obtain ⟨a, u, b, ha, hu, hb, rfl⟩ := hq
      exact quoted ha hu hb _ hK
    · refine .push (Q' := plainK) (f := setLocal v) (mk := .localPart []) rfl rfl (plainK_of rfl) (.altR ?_ (.altR ?_ (takes_obsLocalPart h _ hK)))
        (fun _ _ _ => rfl)
      · intro hc
        obtain ⟨_, _, r', e, ⟨_, ⟨a', u, b', ha', ⟨hu, _⟩, hb', rfl⟩, _⟩, hK'⟩ := completes_means (means_dotAtom' (Q := plainK) (env := nenv)).around hc
        obtain ⟨x, rfl⟩ := hat _ hK'
        obtain ⟨a, d, w, ha, hd, rfl, hw⟩ := localWords_ends (r := r) h
        obtain ⟨c, y, e1, hc1⟩ := dotAtom_cons hu
        have : a = a' ∧ d :: w ++ '@' :: r = u ++ (b' ++ '@' :: x) :=
          around_split ha ha' (.cons (wordHead_solid hd).1) ⟨c, y, e1, atext_solid hc1⟩ (by simpa using e)
        have h2 := hw x (by
          rw [this.2, afterDots_chars (dotAtom_chars hu)]
          exact afterDots_cfws hb' (by decide) (.inr (by decide)))
        subst h2
        apply hn
        refine ⟨a', u, b', ha', hu, hb', ?_⟩
        exact List.append_cancel_right e
      · intro hc
        obtain ⟨_, _, r', e, ⟨_, ⟨a', u, b', ha', hu, hb', rfl⟩, _⟩, hK'⟩ := completes_means (means_quotedString (Q := plainK) (env := nenv)).around hc
        obtain ⟨x, rfl⟩ := hat _ hK'
        have first : ∀ {t v s}, LocalWord env t v → t ++ s = (a' ++ (u ++ b')) ++ '@' :: x →
            ∃ a b, OptCfws a ∧ QuotedString u v ∧ OptCfws b ∧ t = a ++ (u ++ b) ∧ b ++ s = b' ++ '@' :: x := by
          intro t v s hw e
          obtain ⟨y, hy⟩ := quotedString_head hu
          have hu' : ∃ c x, u = c :: x ∧ solid c = true := ⟨_, _, hy, rfl⟩
          cases hw with
          | @atom a₁ t₁ b₁ ha₁ ht₁ _ hb₁ =>
            obtain ⟨_, e⟩ := around_split ha₁ ha' (atom_heads (r := b₁ ++ s) ht₁) hu' (by simpa using e)
            obtain ⟨c, z, rfl⟩ := List.exists_cons_of_ne_nil ht₁.1
            rw [hy] at e
            injection e with e _
            exact absurd (ht₁.2 c (by simp)) (by rw [e]; decide)
          | @quoted a₁ t₁ b₁ _ ha₁ ht₁ hb₁ =>
            obtain ⟨_, e⟩ := around_split ha₁ ha' (quoted_heads (r := b₁ ++ s) ht₁) hu' (by simpa using e)
            obtain ⟨rfl, e, rfl⟩ := quotedString_unique ht₁ hu e
            exact ⟨a₁, b₁, ha₁, ht₁, hb₁, rfl, e.symm⟩
          | @encoded a₁ t₁ _ ha₁ ht₁ =>
            obtain ⟨z, rfl⟩ := encRun_head (localRun_run ht₁)
            obtain ⟨_, e⟩ := around_split (r := '=' :: '?' :: z ++ s) ha₁ ha' (.cons rfl) hu' (by simpa using e)
            rw [hy] at e
            injection e with e _
            exact absurd e (by decide)
        cases h with
        | one h =>
          obtain ⟨a, b, ha, hu, hb, e1, e2⟩ := first h e
          exact hq ⟨a, u, b, ha, hu, hb, e1⟩
        | cons h _ =>
          obtain ⟨a, b, ha, hu, hb, e1, e2⟩ := first h (by simpa using e)
          obtain ⟨_, h, _⟩ := cfws_split hb hb' (by decide) (by decide) e2
          exact absurd h (by decide)

theorem takes_domain {t r : List Char} {v} (h : Domain t v) (hs : Heads solid r) (hr : Heads afterDot r) :
    Takes Q env Gr.domain t r (deliver (.domain v)) := by
  cases h with
  | dotAtom ha ht hb =>
    exact .push (Q' := plainK) (mk := .domain []) rfl rfl (plainK_of rfl)
      (.altL (takes_around ha hb (takes_dotAtom ht (cfws_afterDot hb hr)) (dotAtom_heads ht) hs)) (fun _ _ _ => rfl)
  | @literal a t b ha ht hb =>
    refine .push (Q' := plainK) (mk := .domain []) rfl rfl (plainK_of rfl)
      (.altR ?_ (.altL (takes_around ha hb (takes_domainLiteral ht) (literal_heads ht) hs))) (fun _ _ _ => rfl)
    rw [List.append_assoc, List.append_assoc]
    refine noDer_dotAtom_around ha (literal_heads ht) ?_
    obtain ⟨y, rfl⟩ := domainLiteral_head ht
    exact .cons rfl

/-- May follow an addr-spec. -/
def closer (c : Char) : Bool := c == ',' || c == ';' || c == '>'

theorem closer_iff {c : Char} : closer c = true ↔ c = ',' ∨ c = ';' ∨ c = '>' := by simp [closer, or_assoc]

theorem Heads.closer {p : Char → Bool} {r} (h : Heads closer r) (h1 : p ',' = true) (h2 : p ';' = true) (h3 : p '>' = true) : Heads p r :=
  h.mono fun c hc => by rcases closer_iff.mp hc with rfl | rfl | rfl <;> assumption

theorem takes_port {t r : List Char} (hne : t ≠ []) (ht : ∀ c ∈ t, isDigit c = true) (hr : Heads (fun c => !isDigit c) r) :
    Takes Q env Gr.port t r (deliver (.port (utf8 t))) :=
  Greedy.value (h := fun v => deliver (.port v)) (.rule (greedy_plus_char (Q := plainK) (env := nenv) (by decide) means_digit hne ht hr.not))
    means_port fun _ h => h.2

theorem noDer_colon {r : List Char} {b} (hr : Heads (fun c => c != ':') r) : NoDer (.t .Colon ⬝ b) r := by
  refine (noDer_means (means_colon (Q := plainK) (env := nenv)) ?_).seq_left
  rintro _ _ r' ⟨rfl, _⟩ e
  exact absurd (hr _ _ e) (by decide)

theorem at_matches : Tok.matches .At '@' = true := by decide +kernel
theorem colon_matches : Tok.matches .Colon ':' = true := by decide +kernel
theorem less_matches : Tok.matches .Less '<' = true := by decide +kernel
theorem greater_matches : Tok.matches .Greater '>' = true := by decide +kernel
theorem comma_matches : Tok.matches .Comma ',' = true := by decide +kernel
theorem semicolon_matches : Tok.matches .Semicolon ';' = true := by decide +kernel

theorem takes_addrSpec {t r : List Char} {v} (h : ClearAddr env t v) (hr : Heads closer r) : Takes Q env Gr.addrSpec t r (setAddr v) := by
  have eff : ∀ l d, deliver (.addrSpec l d) = setAddr (l ++ (b!"@" ++ d)) := by
    intro l d; funext p; cases p <;> simp [deliver, setAddr, atSign]
  have atK : ∀ {K : List Char → Prop} {b : G} s, Completes (.t .At ⬝ b) K s → ∃ x, s = '@' :: x := by
    rintro K b s ⟨ts, s', hd, _⟩
    cases hd with
    | seq h1 _ =>
      obtain ⟨t, _, e, ⟨rfl, _⟩, _⟩ := (means_at (Q := plainK) (env := nenv)).sound h1
      exact ⟨_, e⟩
  intro K hK
  cases h with
  | @plain l lv d dv hl hd =>
    have h2 : Takes anyK env _ _ _ _ := takes_domain (r := r) hd (hr.closer rfl rfl rfl) (hr.closer rfl rfl rfl)
    have h3 : Takes anyK env (.opt (.t .Colon ⬝ Gr.port)) [] r id := .optNil (noDer_colon (hr.closer rfl rfl rfl))
    have h4 := ((Takes.tok at_matches).seq (h2.seq h3)) K hK
    have h5 := Picks.seq (picks_localPart hl h4.completes atK) h4
    exact (((Picks.push (q := .addrSpec) (mk := .addrSpec [] []) rfl rfl trivial h5 (fun _ _ _ => rfl))).text (by simp)).cast
      (funext fun p => congrFun (eff lv dv) p)
  | @port l lv d dv p hl hd hne hp =>
    have h2 : Takes anyK env _ _ _ _ := takes_domain (r := ':' :: p ++ r) hd (.cons rfl) (.cons rfl)
    have h3 : Takes anyK env _ _ _ _ := takes_port (r := r) hne hp (hr.closer rfl rfl rfl)
    have h4 := ((Takes.tok at_matches).seq (h2.seq (((Takes.tok colon_matches).seq h3).altL (b := .eps)))) K hK
    have h5 := Picks.seq (picks_localPart hl h4.completes atK) h4
    exact (((Picks.push (q := .addrSpec) (mk := .addrSpec [] []) rfl rfl trivial h5 (fun _ _ _ => rfl))).text (by simp)).cast
      (funext fun p => congrFun (eff lv (dv ++ (b!":" ++ _))) p)

/-! ## Angle brackets -/

/-- What follows CFWS and commas. -/
def skipRouteFrom : Nat → Bool → List Char → List Char
  | _, _, [] => []
  | d, true, _ :: r => skipRouteFrom d false r
  | 0, false, c :: r =>
    if isBlank c || c == ',' then skipRouteFrom 0 false r else if c = '(' then skipRouteFrom 1 false r else c :: r
  | d + 1, false, c :: r =>
    if c = '\\' then skipRouteFrom (d + 1) true r
    else if c = '(' then skipRouteFrom (d + 2) false r
    else if c = ')' then skipRouteFrom d false r
    else skipRouteFrom (d + 1) false r

theorem remover_skipRoute : Remover (fun d => skipRouteFrom d false) where
  blank {c} r h d := by
    have := blank_in h
    cases d with
    | zero => simp [skipRouteFrom, h]
    | succ d => simp only [skipRouteFrom, if_neg this.1, if_neg this.2.1, if_neg this.2.2]
  open' d r := by cases d <;> simp [skipRouteFrom, isBlank]
  close d r := by simp [skipRouteFrom]
  pair d c r := by simp [skipRouteFrom]
  char d r h1 h2 h3 := by simp only [skipRouteFrom, if_neg h1, if_neg h2, if_neg h3]

theorem routeHead_skip {h : List Char} (hh : RouteHead h) (r) : skipRouteFrom 0 false (h ++ r) = skipRouteFrom 0 false r := by
  induction hh with
  | nil => rfl
  | comma _ ih => rw [List.cons_append, skipRouteFrom]; simpa using ih
  | cfws ht _ ih => rw [List.append_assoc]; exact (remover_skipRoute.cfws ht.1 0 _).trans ih

theorem picks_routeHead {h r : List Char} {K : List Char → Prop} (hh : RouteHead h) (hK : K ('@' :: r))
    (hat : ∀ s, K s → ∃ x, s = '@' :: x) :
    Picks K (· = .obsAngleAddr) env (.star (Gr.cfws ‖ .t .Comma)) h ('@' :: r) id := by
  have cf : Means (· = .obsAngleAddr) env Gr.cfws (.quiet Cfws) := means_cfws.mono plain_obsAngle
  have head := (cf.qalt means_comma).qstar.quiet_congr fun t => routeHead_iff
  refine (splits_forced (by decide) head ⟨hh, rfl⟩ hK ?_).quiet head
  rintro t' _ r' ⟨h', _⟩ e hK'
  obtain ⟨x, rfl⟩ := hat _ hK'
  have := congrArg (skipRouteFrom 0 false) e
  rw [routeHead_skip hh, routeHead_skip h'] at this
  simpa [skipRouteFrom, isBlank] using this.symm

theorem domain_ignored {t r : List Char} {v} (h : Takes anyK env Gr.domain t r (deliver (.domain v))) :
    Takes (· = .obsAngleAddr) env Gr.domain t r id := by
  refine h.weaken (fun _ => rfl) fun p hp => ⟨trivial, ?_⟩
  cases p with
  | obsAngleAddr v => rfl
  | _ => simp [Node.kind] at hp

theorem routeTail_heads {t : List Char} (h : RouteTail t) (r) : Heads (fun c => c == ',' || c == ':') (t ++ ':' :: r) := by
  cases h <;> exact .cons rfl

theorem takes_routeTail {t r : List Char} (h : RouteTail t) :
    Takes (· = .obsAngleAddr) env (.star (.t .Comma ⬝ .opt Gr.cfws ⬝ .opt (.t .At ⬝ Gr.domain))) t (':' :: r) id := by
  have ocf : ∀ {w s : List Char}, OptCfws w → Heads solid s → Takes (· = .obsAngleAddr) env (.opt Gr.cfws) w s id :=
    fun hw hs => (takes_optCfws hw hs).mono plain_obsAngle
  have sol : ∀ {s : List Char}, Heads (fun c => c == ',' || c == ':') s → Heads solid s := fun hs => hs.mono fun c hc => by
    simp only [Bool.or_eq_true, beq_iff_eq] at hc; rcases hc with rfl | rfl <;> rfl
  have aft : ∀ {s : List Char}, Heads (fun c => c == ',' || c == ':') s → Heads afterDot s := fun hs => hs.mono fun c hc => by
    simp only [Bool.or_eq_true, beq_iff_eq] at hc; rcases hc with rfl | rfl <;> rfl
  have nat : ∀ {s : List Char}, Heads (fun c => c == ',' || c == ':') s → Heads (fun c => c != '@') s := fun hs => hs.mono fun c hc => by
    simp only [Bool.or_eq_true, beq_iff_eq] at hc; rcases hc with rfl | rfl <;> rfl
  induction h with
  | nil => exact .stop (noDer_tok means_comma (.cons rfl))
  | @empty t x ht hx ih =>
    have hh := routeTail_heads hx r
    have h1 : Takes (· = .obsAngleAddr) env _ _ _ _ := (Takes.tok comma_matches).seq ((ocf ht (sol hh)).seqNil
      (Takes.optNil (a := .t .At ⬝ Gr.domain) (r := x ++ ':' :: r) (noDer_tok means_at (nat hh))))
    exact (h1.again ih).text (by simp)
  | @hop t d v x ht hd hx ih =>
    have hh := routeTail_heads hx r
    have h0 : Takes (· = .obsAngleAddr) env _ _ _ _ := (Takes.tok at_matches).seq
      (domain_ignored (takes_domain (r := x ++ ':' :: r) hd (sol hh) (aft hh)))
    have h1 : Takes (· = .obsAngleAddr) env _ _ _ _ := (Takes.tok comma_matches).seq ((ocf ht (.cons rfl)).seq (h0.altL (b := .eps)))
    exact (h1.again ih).text (by simp)

theorem takes_route {t r : List Char} (h : Route t) : Takes (· = .obsAngleAddr) env Gr.obsRoute t r id := by
  obtain ⟨h, d, v, x, hh, hd, hx, rfl⟩ := h
  have hs := routeTail_heads hx r
  have h1 : Takes (· = .obsAngleAddr) env _ _ _ _ := domain_ignored (takes_domain (r := x ++ ':' :: r) hd
    (hs.mono fun c hc => by simp only [Bool.or_eq_true, beq_iff_eq] at hc; rcases hc with rfl | rfl <;> rfl)
    (hs.mono fun c hc => by simp only [Bool.or_eq_true, beq_iff_eq] at hc; rcases hc with rfl | rfl <;> rfl))
  have h2 := (Takes.tok (Q := (· = .obsAngleAddr)) (env := env) (r := (d ++ x) ++ ':' :: r) at_matches).seq (h1.seq (takes_routeTail (r := r) hx))
  intro K hK
  have h3 : Takes (· = .obsAngleAddr) env (.t .Colon) [':'] r id := .tok colon_matches
  have h4 := h2 _ (h3 K hK).completes
  have h5 : Picks _ (· = .obsAngleAddr) env _ h ('@' :: ((d ++ x) ++ ':' :: r)) id := picks_routeHead hh h4.completes (by
    rintro s ⟨ts, s', hd', _⟩
    cases hd' with
    | seq h1 _ =>
      obtain ⟨t, _, e, ⟨rfl, _⟩, _⟩ := (means_at (Q := plainK) (env := nenv)).sound h1
      exact ⟨_, e⟩)
  have h6 := Picks.seq (t := h) (u := ['@'] ++ (d ++ x)) h5 h4
  have h7 := Picks.seq (u := [':']) ((h6.silent (q := .obsDomainList) rfl)) (h3 K hK)
  have := h7.silent (q := .obsRoute) rfl
  exact this.text (by simp)

theorem clearAngle_head {t v} (h : ClearAngle env t v) : ∃ y, t = '<' :: y := by
  cases h <;> exact ⟨_, rfl⟩

theorem route_skip {q} (h : Route q) (r : List Char) : ∃ c x, skip (q ++ r) = c :: x ∧ (c = ',' ∨ c = '@') := by
  obtain ⟨h, d, v, x, hh, hd, hx, rfl⟩ := h
  have : ∀ {h : List Char}, RouteHead h → ∀ s, ∃ c x, skip (h ++ '@' :: s) = c :: x ∧ (c = ',' ∨ c = '@') := by
    intro h hh s
    induction hh with
    | nil => exact ⟨'@', s, rfl, .inr rfl⟩
    | comma _ _ => exact ⟨',', _, skip_solid (by decide) _, .inl rfl⟩
    | cfws ht _ ih => rw [List.append_assoc, skip_cfws ht.1]; exact ih
  have := this hh (d ++ (x ++ [':']) ++ r)
  simpa using this

theorem noDer_addrSpec_skip {s : List Char} (h : ∃ c x, skip s = c :: x ∧ (c = ',' ∨ c = '@')) : NoDer Gr.addrSpec s := by
  refine .rule (NoDer.seq_left ?_)
  refine noDer_means (means_localPart (Q := anyK) (env := nenv)) ?_
  rintro t _ r' ⟨v, hv, _⟩ e
  obtain ⟨a', c', x', ha', hc', rfl⟩ := localPart_head hv
  obtain ⟨c, x, hs, hc⟩ := h
  have hsol : solid c' = true := by
    rcases hc' with h | rfl
    · exact atext_solid h
    · rfl
  rw [e, List.append_assoc, skip_cfws ha', List.cons_append, skip_solid hsol] at hs
  injection hs with hs _
  subst hs
  rcases hc with rfl | rfl <;> exact absurd hc' (by decide)

theorem takes_angleAddr {a t r : List Char} {v} (ha : OptCfws a) (h : ClearAngle env t v) (hr : Heads solid r) :
    Takes Q env Gr.angleAddr (a ++ t) r (setNA v) := by
  have eff : ∀ v, deliver (.angleAddr v) = setNA v := by intro v; funext p; cases p <;> rfl
  have effObs : ∀ v, deliver (.obsAngleAddr v) = setAngle v := by intro v; funext p; cases p <;> rfl
  have pl : ∀ r, r = Rule.angleAddr → plainK r := by rintro _ rfl; exact plainK_of rfl
  have ocf : ∀ {w s : List Char}, OptCfws w → Heads solid s → Takes (· = .angleAddr) env (.opt Gr.cfws) w s id :=
    fun hw hs => (takes_optCfws hw hs).mono pl
  have ocf2 : ∀ {w s : List Char}, OptCfws w → Heads solid s → Takes (· = .obsAngleAddr) env (.opt Gr.cfws) w s id :=
    fun hw hs => (takes_optCfws hw hs).mono plain_obsAngle
  have step : ∀ {f : Node → Node} {v t}, Takes (· = .angleAddr) env (.opt Gr.cfws ⬝ .t .Less ⬝ .opt Gr.addrSpec ⬝ .t .Greater ⬝ .opt Gr.cfws ‖
      Gr.obsAngleAddr) t r f → f (.angleAddr []) = .angleAddr v → Takes Q env Gr.angleAddr t r (setNA v) := fun {f v t} h e =>
    (Takes.push (q := .angleAddr) (mk := .angleAddr []) (Q' := (· = .angleAddr)) rfl rfl rfl h (fun _ _ _ => rfl)).cast fun p => by rw [e, eff v]
  have less : ∀ {Q r}, Takes Q env (.t .Less) ['<'] r id := .tok less_matches
  have greater : ∀ {Q r}, Takes Q env (.t .Greater) ['>'] r id := .tok greater_matches
  cases h with
  | @null b hb =>
    have h1 : Takes (· = .angleAddr) env (.opt Gr.addrSpec) [] (['>'] ++ b ++ r) id :=
      .optNil (noDer_addrSpec (a := []) OptCfws.nil (.cons (by decide)))
    have h2 := greater.seq (ocf hb hr)
    have h3 := (ocf ha (.cons rfl)).seq (less.seq (h1.seq h2))
    exact (step h3.altL rfl).text (by simp)
  | @addr t v b ht hb =>
    have h1 : Takes (· = .angleAddr) env _ _ _ _ := (takes_addrSpec (r := ['>'] ++ b ++ r) ht (.cons rfl)).altL (b := .eps)
    have h3 := (ocf ha (.cons rfl)).seq (less.seq (h1.seq (greater.seq (ocf hb hr))))
    exact (step h3.altL rfl).text (by simp)
  | @routed q t v b hq ht hb =>
    have h1 : Takes (· = .obsAngleAddr) env _ _ _ _ := takes_addrSpec (r := ['>'] ++ b ++ r) ht (.cons rfl)
    have h3 := (ocf2 ha (.cons rfl)).seq (less.seq ((takes_route hq).seq (h1.seq (greater.seq (ocf2 hb hr)))))
    have h4 : Takes (· = .angleAddr) env Gr.obsAngleAddr _ _ _ := .push (mk := .obsAngleAddr []) (Q' := (· = .obsAngleAddr)) rfl rfl rfl h3 (fun _ _ _ => rfl)
    refine (step (h4.altR ?_) rfl).text (by simp)
    -- the ordinary form is not possible
    have hsk := route_skip hq ((t ++ ('>' :: b)) ++ r)
    have hno : NoDer (.opt Gr.addrSpec ⬝ .t .Greater ⬝ .opt Gr.cfws) (q ++ ((t ++ ('>' :: b)) ++ r)) := by
      intro ts s' hd
      cases hd with
      | seq h1 h2 =>
        cases h1 with
        | altL h1 => exact noDer_addrSpec_skip hsk _ _ h1
        | altR h1 =>
          cases h1
          cases h2 with
          | seq h2 _ =>
            obtain ⟨_, _, e, ⟨rfl, _⟩, _⟩ := (means_greater (Q := plainK) (env := nenv)).sound h2
            obtain ⟨c, x, hs, hc⟩ := hsk
            rw [e] at hs
            rw [List.cons_append, skip_solid (by decide)] at hs
            injection hs with hs _
            subst hs
            exact absurd hc (by decide)
    intro ts s' hd
    cases hd with
    | seq h1 h2 =>
      obtain ⟨a', _, e, ⟨ha', _⟩, _⟩ := (means_optCfws (env := nenv)).sound h1
      cases h2 with
      | @seq _ _ _ _ s₁ _ _ h2 h5 =>
        obtain ⟨_, _, e2, ⟨rfl, _⟩, _⟩ := (means_less (Q := plainK) (env := nenv)).sound h2
        subst e2
        have e' : a ++ '<' :: (q ++ ((t ++ ('>' :: b)) ++ r)) = a' ++ '<' :: s₁ := by simpa using e
        obtain ⟨_, _, e3⟩ := cfws_split ha ha' (by decide) (by decide) e'
        subst e3
        exact hno _ _ h5

/-! ## Mailboxes -/

theorem clearAngle_noWord {t v} (h : ClearAngle env t v) (r) : Heads noWord (t ++ r) := by
  obtain ⟨y, rfl⟩ := clearAngle_head h; exact .cons (by decide)

theorem takes_nameAddr_angle {a t r : List Char} {v} (ha : OptCfws a) (h : ClearAngle env t v) (hr : Heads solid r) :
    Takes Q env Gr.nameAddr (a ++ t) r (setBox ⟨[], v⟩) := by
  have eff : ∀ n a, deliver (.nameAddr n a) = setBox ⟨n, a⟩ := by intro v a; funext p; cases p <;> rfl
  have h1 : Takes anyK env (.opt Gr.displayName) [] ((a ++ t) ++ r) id :=
    .optNil (by rw [List.append_assoc]; exact noDer_displayName ha (clearAngle_noWord h r))
  exact (Takes.push (q := .nameAddr) (mk := .nameAddr [] []) (Q' := anyK) rfl rfl trivial (h1.seq (takes_angleAddr ha h hr))
    (fun _ _ _ => rfl)).cast fun p => congrFun (eff _ _) p

theorem takes_nameAddr_named {a n t r : List Char} {vs v} (ha : OptCfws a) (hn : Phrase env n vs) (hne : vs ≠ []) (h : ClearAngle env t v)
    (hr : Heads solid r) : Takes Q env Gr.nameAddr (a ++ (n ++ t)) r (setBox ⟨wordsName vs, v⟩) := by
  have eff : ∀ n a, deliver (.nameAddr n a) = setBox ⟨n, a⟩ := by intro v a; funext p; cases p <;> rfl
  have h1 : Takes anyK env _ _ _ _ := (takes_displayName ha hn hne (clearAngle_noWord h r)).altL (b := .eps)
  exact ((Takes.push (q := .nameAddr) (mk := .nameAddr [] []) (Q' := anyK) rfl rfl trivial
    (h1.seq (takes_angleAddr (a := []) OptCfws.nil h hr)) (fun _ _ _ => rfl)).text (by simp)).cast fun p => congrFun (eff _ _) p

theorem takes_mailbox_nameAddr {t r : List Char} {a : Addr} (h : Takes anyK env Gr.nameAddr t r (setBox a)) :
    Takes Q env Gr.mailbox t r (addBoxes [a]) := by
  have eff : ∀ n a, deliver (.mailbox n a) = addBoxes [⟨n, a⟩] := by intro v a; funext p; cases p <;> rfl
  exact (Takes.push (q := .mailbox) (mk := .mailbox [] []) (Q' := anyK) rfl rfl trivial (h.altL (b := Gr.addrSpec))
    (fun _ _ _ => rfl)).cast fun p => congrFun (eff _ _) p

theorem takes_mailbox_addrSpec {t r : List Char} {v} (hn : NoDer Gr.nameAddr (t ++ r)) (h : Takes anyK env Gr.addrSpec t r (setAddr v)) :
    Takes Q env Gr.mailbox t r (addBoxes [⟨[], v⟩]) := by
  have eff : ∀ n a, deliver (.mailbox n a) = addBoxes [⟨n, a⟩] := by intro v a; funext p; cases p <;> rfl
  exact (Takes.push (q := .mailbox) (mk := .mailbox [] []) (Q' := anyK) rfl rfl trivial (Takes.altR hn h)
    (fun _ _ _ => rfl)).cast fun p => congrFun (eff _ _) p

end Rfc5322
