import Verif.Proofs.Dotted

/-!
# Clear-cut lists are read as intended
-/

namespace Rfc5322

open Spec

variable {env : Env} {Q : Rule → Prop}

/-! ## Bare addr-specs -/

theorem noMark_prefix {t : List Char} (h : NoMark t) : ¬ c!"=?" <+: t := fun hp => h hp.isInfix

theorem bareWord_local {t v} (h : BareWord t v) : LocalWord env t v := by
  cases h with
  | atom ha ht hn hb => exact .atom ha ht (noMark_prefix hn) hb
  | quoted ha ht hb => exact .quoted ha ht hb

theorem bareWords_local {t v} (h : BareWords t v) : LocalWords env t v := by
  induction h with
  | one h => exact .one (bareWord_local h)
  | cons h _ ih => exact .cons (bareWord_local h) ih

/-- Unless there is a quoted string, the value is the text without CFWS. -/
theorem bareWord_strip {t v} (h : BareWord t v) : (∀ s, '"' ∈ strip (t ++ s)) ∨ ∃ x, v = utf8 x ∧ ∀ s, strip (t ++ s) = x ++ strip s := by
  cases h with
  | @atom a t b ha ht hn hb =>
    refine .inr ⟨t, rfl, fun s => ?_⟩
    rw [List.append_assoc, List.append_assoc, strip_cfws ha, strip_solids (fun c hc => atext_solid (ht.2 c hc)), strip_cfws hb]
  | @quoted a t b v ha ht hb =>
    refine .inl fun s => ?_
    obtain ⟨y, rfl⟩ := quotedString_head ht
    rw [List.append_assoc, List.append_assoc, strip_cfws ha, List.cons_append, strip_solid (by decide)]
    simp

theorem bareWords_strip {t v} (h : BareWords t v) : '"' ∈ strip t ∨ v = utf8 (strip t) := by
  induction h with
  | one h =>
    rcases bareWord_strip h with h | ⟨x, rfl, hx⟩
    · left; simpa using h []
    · right; have := hx []; rw [List.append_nil] at this; rw [this]; simp [strip, stripFrom]
  | cons h _ ih =>
    rcases bareWord_strip h with h | ⟨x, rfl, hx⟩
    · exact .inl (h _)
    · rw [hx, strip_solid (by decide)]
      rcases ih with ih | rfl
      · left; simp [ih]
      · right; rw [utf8_append, show '.' :: strip _ = ['.'] ++ strip _ from rfl, utf8_append]; rfl

theorem plainDotAtom_strip {a d b : List Char} (ha : OptCfws a) (hd : DotAtom d) (hb : OptCfws b) : strip (a ++ (d ++ b)) = d := by
  have := strip_cfws hb []
  rw [List.append_nil] at this
  rw [strip_cfws ha, strip_solids (fun c hc => (dotChar_solid (dotAtom_chars hd c hc)).1), this]
  simp [strip, stripFrom]

theorem bareLocal_clear {t v} (h : BareLocal t v) : ClearLocal env t v := by
  cases h with
  | dotAtom ha ht _ hb => exact .dotAtom ha ht hb
  | quoted ha ht hb => exact .quoted ha ht hb
  | words h =>
    by_cases hp : PlainDotAtom t
    · obtain ⟨a, d, b, ha, hd, hb, rfl⟩ := hp
      have hs := plainDotAtom_strip ha hd hb
      rcases bareWords_strip h with h | h
      · rw [hs] at h
        exact absurd rfl (dotChar_solid (dotAtom_chars hd _ h)).2.2
      · rw [hs] at h; subst h; exact .dotAtom ha hd hb
    · exact .words (bareWords_local h) hp

theorem bareDomain_domain {t v} (h : BareDomain t v) : Domain t v := by
  cases h with
  | dotAtom ha ht _ hb => exact .dotAtom ha ht hb
  | literal ha ht hb => exact .literal ha ht hb

theorem bareAddr_clear {t v} (h : BareAddr t v) : ClearAddr env t v := by
  cases h with
  | plain hl hd => exact .plain (bareLocal_clear hl) (bareDomain_domain hd)
  | port hl hd h1 h2 => exact .port (bareLocal_clear hl) (bareDomain_domain hd) h1 h2

theorem dotAtom_wordChars {t : List Char} (h : DotAtom t) : ∀ c ∈ t, wordChar c = true := by
  have hd : ∀ {t : List Char}, Dotted t → ∀ c ∈ t, wordChar c = true := by
    intro t h
    induction h with
    | one h => exact fun c hc => by simp [wordChar, h.2 c hc]
    | cons h _ ih =>
      intro c hc
      simp only [List.mem_append, List.mem_cons] at hc
      rcases hc with hc | rfl | hc
      · simp [wordChar, h.2 c hc]
      · rfl
      · exact ih c hc
  rcases h with h | ⟨r, h, rfl⟩
  · exact hd h
  · intro c hc
    simp only [List.mem_append, List.mem_singleton] at hc
    rcases hc with hc | rfl
    · exact hd h c hc
    · rfl

theorem atom_wordChars {t : List Char} (h : Atom t) : ∀ c ∈ t, wordChar c = true := fun c hc => by simp [wordChar, h.2 c hc]

theorem bareWord_stuff {t v e s} (h : BareWord t v) (hs : Stuff wordChar e s) (hq : s.head? ≠ some '?') : Stuff wordChar e (t ++ s) := by
  cases h with
  | atom ha ht hn hb =>
    rw [List.append_assoc, List.append_assoc]
    exact .addCfws ha (.addChars (atom_wordChars ht) hn (cfws_head_ne hb hq) (.addCfws hb hs))
  | quoted ha ht hb =>
    rw [List.append_assoc, List.append_assoc]
    exact .addCfws ha (.quoted ht (.addCfws hb hs))

theorem bareWords_stuff {t v e s} (h : BareWords t v) (hs : Stuff wordChar e s) (hq : s.head? ≠ some '?') : Stuff wordChar e (t ++ s) := by
  induction h with
  | one h => exact bareWord_stuff h hs hq
  | cons h _ ih =>
    rw [List.append_assoc]
    exact bareWord_stuff h (.plain (by decide) (by rintro ⟨⟩) ih) (by simp)

theorem bareLocal_stuff {t v e s} (h : BareLocal t v) (hs : Stuff wordChar e s) (hq : s.head? ≠ some '?') : Stuff wordChar e (t ++ s) := by
  cases h with
  | dotAtom ha ht hn hb =>
    rw [List.append_assoc, List.append_assoc]
    exact .addCfws ha (.addChars (dotAtom_wordChars ht) hn (cfws_head_ne hb hq) (.addCfws hb hs))
  | quoted ha ht hb =>
    rw [List.append_assoc, List.append_assoc]
    exact .addCfws ha (.quoted ht (.addCfws hb hs))
  | words h => exact bareWords_stuff h hs hq

theorem bareDomain_stuff {t v r} (h : BareDomain t v) (hr : Heads barrier r) (hl : Heads (fun c => c != '<') r) :
    ∃ e, Heads barrier e ∧ Heads (fun c => c != '<') e ∧ Stuff wordChar e (t ++ r) := by
  cases h with
  | dotAtom ha ht hn hb =>
    refine ⟨r, hr, hl, ?_⟩
    rw [List.append_assoc, List.append_assoc]
    exact .addCfws ha (.addChars (dotAtom_wordChars ht) hn (cfws_head_ne hb (heads_head hr (by decide))) (.addCfws hb .done))
  | @literal a t b ha ht hb =>
    refine ⟨t ++ (b ++ r), ?_, ?_, ?_⟩
    · obtain ⟨y, rfl⟩ := domainLiteral_head ht; exact .cons rfl
    · obtain ⟨y, rfl⟩ := domainLiteral_head ht; exact .cons rfl
    · rw [List.append_assoc, List.append_assoc]; exact .addCfws ha .done

/-- May follow a list item. -/
def follow (c : Char) : Bool := c == ',' || c == ';'

theorem follow_iff {c : Char} : follow c = true ↔ c = ',' ∨ c = ';' := by simp [follow]

theorem Heads.follow {p : Char → Bool} {r} (h : Heads follow r) (h1 : p ',' = true) (h2 : p ';' = true) : Heads p r :=
  h.mono fun c hc => by rcases follow_iff.mp hc with rfl | rfl <;> assumption

theorem bareAddr_stuff {t v r} (h : BareAddr t v) (hr : Heads follow r) :
    ∃ e, Heads barrier e ∧ Heads (fun c => c != '<') e ∧ Stuff wordChar e (t ++ r) := by
  have fin : ∀ {l lv e s}, BareLocal l lv → Stuff wordChar e s → Stuff wordChar e (l ++ '@' :: s) := fun hl hs =>
    bareLocal_stuff hl (.plain (by decide) (by rintro ⟨⟩) hs) (by simp)
  cases h with
  | @plain l lv d dv hl hd =>
    obtain ⟨e, h1, h2, h3⟩ := bareDomain_stuff hd (r := r) (hr.follow (by decide) (by decide)) (hr.follow rfl rfl)
    exact ⟨e, h1, h2, by simpa using fin hl h3⟩
  | @port l lv d dv q hl hd _ _ =>
    obtain ⟨e, h1, h2, h3⟩ := bareDomain_stuff hd (r := ':' :: q ++ r) (.cons (by decide)) (.cons rfl)
    exact ⟨e, h1, h2, by simpa using fin hl h3⟩

theorem noDer_nameAddr_bare {t v r} (h : BareAddr t v) (hr : Heads follow r) : NoDer Gr.nameAddr (t ++ r) := by
  obtain ⟨e, h1, h2, h3⟩ := bareAddr_stuff h hr
  exact noDer_nameAddr_stuff (walls_word (fun _ h => h) h1) h3 h2

/-! ## Mailboxes -/

theorem takes_mailbox {t r : List Char} {a} (h : ClearBox env t a) (hr : Heads follow r) : Takes Q env Gr.mailbox t r (addBoxes [a]) := by
  cases h with
  | named ha hn hne ht => exact takes_mailbox_nameAddr (takes_nameAddr_named ha hn hne ht (hr.follow rfl rfl))
  | pieces ha hn ht => exact takes_mailbox_nameAddr (takes_nameAddr_pieces ha hn ht (hr.follow rfl rfl))
  | angle ha ht => exact takes_mailbox_nameAddr (takes_nameAddr_angle ha ht (hr.follow rfl rfl))
  | bare ht => exact takes_mailbox_addrSpec (noDer_nameAddr_bare ht hr) (takes_addrSpec (bareAddr_clear ht) (hr.follow rfl rfl))

theorem noDer_follow {k : Tok} {c : Char} {b : G} {r : List Char} (hm : Means plainK nenv (.t k) (.quiet fun t => t = [c]))
    (hr : Heads (fun d => d == ';') r) (hc : c ≠ ';') : NoDer (.t k ⬝ b) r :=
  noDer_tok hm (hr.mono fun d hd => by simp at hd; subst hd; simp [Ne.symm hc])

theorem takes_boxes {t r : List Char} {as} (h : ClearBoxes env t as) (hr : Heads (fun d => d == ';') r) :
    Takes plainK env (Gr.mailbox ⬝ .star (.t .Comma ⬝ Gr.mailbox)) t r (addBoxes as) := by
  have key : ∀ {t as}, ClearBoxes env t as → ∃ u x b bs, t = u ++ x ∧ as = b :: bs ∧ ClearBox env u b ∧ Heads follow (x ++ r) ∧
      Takes plainK env (.star (.t .Comma ⬝ Gr.mailbox)) x r (addBoxes bs) := by
    intro t as h
    have hf : Heads follow r := hr.mono fun d hd => by simp at hd; subst hd; rfl
    induction h with
    | @one t a h =>
      refine ⟨t, [], a, [], by simp, rfl, h, hf, ?_⟩
      exact (Takes.stop (noDer_follow means_comma hr (by decide))).cast fun p => by rw [acts_addBoxes.nil]
    | @cons t a y bs h _ ih =>
      obtain ⟨u, x, b, bs, rfl, rfl, hb, hx, ht⟩ := ih
      refine ⟨t, ',' :: (u ++ x), a, _, by simp, rfl, h, .cons rfl, ?_⟩
      have h1 : Takes plainK env _ _ _ _ := (Takes.tok comma_matches).seq (takes_mailbox hb hx)
      exact ((h1.again ht).text (by simp)).cast fun p => by simp [acts_addBoxes.add]
  obtain ⟨u, x, b, bs, rfl, rfl, hb, hx, ht⟩ := key h
  exact ((takes_mailbox hb hx).seq ht).cast fun p => by simp [acts_addBoxes.add]

/-! ## What a mailbox or list can start with -/

theorem displayName_head {t v} (h : DisplayName env t v) : ∃ a c x, OptCfws a ∧ (isAtext c = true ∨ c = '"') ∧ t = a ++ c :: x := by
  obtain ⟨w, u, r, ps, hw, hr, rfl, _⟩ := h
  obtain ⟨a, c, x, ha, hc, rfl⟩ := word_head hw
  exact ⟨a, c, x ++ r, ha, hc, by simp⟩

theorem addrSpec_head {t v} (h : AddrSpec env t v) : ∃ a c x, OptCfws a ∧ (isAtext c = true ∨ c = '"') ∧ t = a ++ c :: x := by
  cases h with
  | plain hl _ => obtain ⟨a, c, x, ha, hc, rfl⟩ := localPart_head hl; exact ⟨a, c, _, ha, hc, by simp; rfl⟩
  | port hl _ _ _ => obtain ⟨a, c, x, ha, hc, rfl⟩ := localPart_head hl; exact ⟨a, c, _, ha, hc, by simp; rfl⟩

/-- Characters a mailbox can start with, after CFWS. -/
def boxStart (c : Char) : Bool := isAtext c || c == '"' || c == '<'

theorem boxStart_solid {c : Char} (h : boxStart c = true) : solid c = true := by
  simp only [boxStart, Bool.or_eq_true, beq_iff_eq] at h
  rcases h with (h | rfl) | rfl
  · exact atext_solid h
  · rfl
  · rfl

theorem mailbox_head {t v} (h : Mailbox env t v) : ∃ a c x, OptCfws a ∧ boxStart c = true ∧ t = a ++ c :: x := by
  have up : ∀ {t : List Char}, (∃ a c x, OptCfws a ∧ (isAtext c = true ∨ c = '"') ∧ t = a ++ c :: x) → ∀ y,
      ∃ a c x, OptCfws a ∧ boxStart c = true ∧ t ++ y = a ++ c :: x := by
    rintro t ⟨a, c, x, ha, hc, rfl⟩ y
    exact ⟨a, c, x ++ y, ha, by rcases hc with h | rfl <;> simp [boxStart, *], by simp⟩
  cases h with
  | named hn _ => exact up (displayName_head hn) _
  | angle h =>
    cases h with
    | null ha _ => exact ⟨_, '<', _, ha, rfl, rfl⟩
    | addr ha _ _ => exact ⟨_, '<', _, ha, rfl, rfl⟩
    | routed ha _ _ _ => exact ⟨_, '<', _, ha, rfl, rfl⟩
  | bare h => simpa using up (addrSpec_head h) []

/-- The first solid character of a text starting with a mailbox. -/
theorem mailbox_skip {t v} (h : Mailbox env t v) (r) : ∃ c x, skip (t ++ r) = c :: x ∧ boxStart c = true := by
  obtain ⟨a, c, x, ha, hc, rfl⟩ := mailbox_head h
  exact ⟨c, x ++ r, by rw [List.append_assoc, skip_cfws ha, List.cons_append, skip_solid (boxStart_solid hc)], hc⟩

theorem commas_skip {h : List Char} (hh : Commas h) (r) : h = [] ∨ ∃ x, skip (h ++ r) = ',' :: x := by
  cases hh with
  | nil => exact .inl rfl
  | @cons t x ht _ => exact .inr ⟨x ++ r, by rw [List.append_assoc, skip_cfws ht, List.cons_append, skip_solid (by decide)]⟩

theorem mailboxList_skip {t v} (h : MailboxList env t v) (r) : ∃ c x, skip (t ++ r) = c :: x ∧ (boxStart c = true ∨ c = ',') := by
  obtain ⟨h, m, a, x, bs, hh, hm, hx, rfl, rfl⟩ := h
  rcases commas_skip hh ((m ++ x) ++ r) with rfl | ⟨y, hy⟩
  · obtain ⟨c, y, h1, h2⟩ := mailbox_skip hm (x ++ r)
    exact ⟨c, y, by simpa using h1, .inl h2⟩
  · exact ⟨',', y, by simpa using hy, .inr rfl⟩

theorem skip_end {a r : List Char} (ha : OptCfws a) (hr : Heads solid r) : skip (a ++ r) = r := by
  rw [skip_cfws ha]
  cases r with
  | nil => rfl
  | cons c r => exact skip_solid hr.head r

/-- Nothing but the end or a semicolon, after CFWS. -/
theorem noDer_mailboxList {w r : List Char} (hw : OptCfws w) (hr : Heads (fun d => d == ';') r) : NoDer Gr.mailboxList (w ++ r) := by
  refine noDer_means (means_mailboxList (Q := anyK) (env := nenv)) ?_
  rintro t _ r' ⟨v, hv, _⟩ e
  obtain ⟨c, x, h1, h2⟩ := mailboxList_skip hv r'
  rw [← e, skip_end hw (hr.mono fun d hd => by simp at hd; subst hd; rfl)] at h1
  have := hr _ _ h1
  simp at this
  subst this
  exact absurd h2 (by decide)

theorem noDer_obsGroupList {w r : List Char} (hw : OptCfws w) (hr : Heads (fun d => d == ';') r) : NoDer Gr.obsGroupList (w ++ r) := by
  refine .rule ?_
  refine NoDer.seq_left (NoDer.seq_left ?_)
  refine noDer_means (((means_optCfws (env := nenv)).qseq means_comma)) ?_
  rintro _ _ r' ⟨⟨a, _, ha, rfl, rfl⟩, _⟩ e
  have h1 := congrArg skip e
  rw [skip_end hw (hr.mono fun d hd => by simp at hd; subst hd; rfl), List.append_assoc, skip_cfws ha] at h1
  have := hr _ _ (h1.trans (skip_solid (c := ',') (by decide) r'))
  simp at this

theorem takes_members {t r : List Char} {as} (h : Members env t as) (hr : Heads (fun d => d == ';') r) :
    Takes (· = .group) env (.opt Gr.groupList) t r (addGroup as) := by
  have effM : ∀ as, deliver (.mailboxList as) = addGl as := by intro v; funext p; cases p <;> rfl
  have eff : ∀ as, deliver (.groupList as) = addGroup as := by intro v; funext p; cases p <;> rfl
  have hs : Heads solid r := hr.mono fun d hd => by simp at hd; subst hd; rfl
  have up : ∀ {f : Node → Node} {t : List Char} {as : List Addr}, f (.groupList []) = .groupList as → Takes plainK env (Gr.mailboxList ‖ Gr.cfws ‖ Gr.obsGroupList) t r f →
      Takes (· = .group) env (.opt Gr.groupList) t r (addGroup as) := fun e h =>
    ((Takes.push (q := .groupList) (mk := .groupList []) rfl rfl (plainK_of rfl) h (fun _ _ _ => rfl)).altL (b := .eps)).cast
      fun p => by rw [e, eff]
  cases h with
  | boxes h =>
    have h1 : Takes plainK env Gr.mailboxList _ _ _ := .push (mk := .mailboxList []) rfl rfl (plainK_of rfl)
      ((takes_boxes h hr).altL (b := Gr.obsMboxList)) (fun _ _ _ => rfl)
    exact up (by simp [addBoxes, effM, addGl]) (h1.altL (b := Gr.cfws ‖ Gr.obsGroupList))
  | none hw =>
    by_cases hne : t = []
    · subst hne
      have h1 := noDer_mailboxList OptCfws.nil hr
      have h2 := noDer_obsGroupList OptCfws.nil hr
      exact (Takes.optNil (.rule (.alt h1 (.alt (noDer_cfws hs) h2)))).cast fun p => by rw [addGroup_nil]
    · exact up rfl (.altR (noDer_mailboxList hw hr) ((takes_cfws ⟨hw, hne⟩ hs).altL (b := Gr.obsGroupList)))

/-! ## Groups -/

theorem groupName_ne {t} (h : GroupName env t) : t ≠ [] := by
  obtain ⟨w, ps, h, _⟩ := h
  intro e
  cases pieces_nil h e

theorem groupName_stuff {t e : List Char} {ps} (h : NamePieces env t ps) (hp : Piece.punct b!"@" ∉ ps) (he : Heads barrier e) : Stuff dotChar e (t ++ e) := by
  have hq : e.head? ≠ some '?' := heads_head he (by decide)
  have at_dot : ∀ c, isAtext c = true → dotChar c = true := fun c h => by simp [dotChar, h]
  induction h with
  | nil => exact .done
  | @atom t b x ps ht hn hb hx h ih =>
    rw [List.append_assoc, List.append_assoc]
    refine .addChars (fun c hc => at_dot c (ht.2 c hc)) hn ?_ (.addCfws hb (ih fun h => hp (by simp [h])))
    cases b with
    | nil =>
      cases x with
      | nil => exact hq
      | cons d x => intro e; simp at e; subst e; exact absurd (hx rfl '?' (by simp)) (by decide)
    | cons c b =>
      intro hh
      simp at hh
      subst hh
      exact cfws_ne (a := []) OptCfws.nil hb (by decide) rfl
  | quoted ht hb _ ih =>
    rw [List.append_assoc, List.append_assoc]
    exact .quoted ht (.addCfws hb (ih fun h => hp (by simp [h])))
  | @encoded t x v ps ht _ hx _ ih =>
    rw [List.append_assoc]
    refine atomRun_stuff' at_dot ht (ih fun h => hp (by simp [h])) ?_
    cases x with
    | nil => exact fun _ => hq
    | cons d x => exact hx
  | @dot b x ps hb _ ih =>
    rw [List.cons_append, List.append_assoc]
    exact .plain (by decide) (by rintro ⟨⟩) (.addCfws hb (ih fun h => hp (by simp [h])))
  | «at» _ _ _ => exact absurd (by simp) hp

theorem dquote_matches : Tok.matches .DQuote '"' = true := by decide +kernel

/-- A group followed by an optional semicolon and CFWS. -/
theorem takes_group {t s w r : List Char} {as} (h : ClearGroup env t as) (hs : s = [';'] ∧ OptCfws w ∧ Heads follow r ∨ s = [] ∧ w = [] ∧ r = []) :
    Takes Q env Gr.group (t ++ (s ++ w)) r (addAddress as) := by
  have eff : ∀ as, deliver (.group as) = addAddress as := by intro v; funext p; cases p <;> rfl
  have pl : ∀ r, r = Rule.group → plainK r := by rintro _ rfl; exact plainK_of rfl
  obtain @⟨a, n, m, _, ha, hn, hq, hm⟩ := h
  have hne := groupName_ne hn
  obtain ⟨nw, ps, hn, hat⟩ := hn
  -- the end
  have hend : Heads (fun d => d == ';') ((s ++ w) ++ r) := by
    rcases hs with ⟨rfl, _⟩ | ⟨rfl, rfl, rfl⟩
    · exact .cons rfl
    · exact .nil
  have h5 : Takes (· = .group) env (.opt (.t .DQuote)) [] ((s ++ w) ++ r) id :=
    .optNil (noDer_tok' means_dquote (hend.mono fun d hd => by simp at hd; subst hd; rfl))
  have h6 : Takes (· = .group) env (.opt (.t .Semicolon) ⬝ .opt Gr.cfws) (s ++ w) r id := by
    rcases hs with ⟨rfl, hw, hr⟩ | ⟨rfl, rfl, rfl⟩
    · exact ((Takes.tok semicolon_matches).altL (b := .eps)).seq ((takes_optCfws hw (hr.follow rfl rfl)).mono pl)
    · exact Takes.seq (t := []) (.optNil (noDer_tok' means_semicolon .nil)) ((takes_optCfws (r := []) OptCfws.nil .nil).mono pl)
  have h4 := takes_members hm hend
  have h3 : Takes (· = .group) env (.t .Colon) [':'] (m ++ ([] ++ (s ++ w)) ++ r) id := .tok colon_matches
  have h1 : Takes (· = .group) env (.opt (.t .DQuote)) [] ((a ++ n ++ ([':'] ++ (m ++ ([] ++ (s ++ w))))) ++ r) id := by
    refine .optNil (noDer_tok' means_dquote ?_)
    intro c x e
    have : (a ++ n).head? = some c := by
      have hne' : a ++ n ≠ [] := by simp [hne]
      obtain ⟨d, y, hd⟩ := List.exists_cons_of_ne_nil hne'
      rw [hd] at e
      injection e with e _
      rw [hd, ← e]; rfl
    rw [this] at hq
    simpa using hq
  intro K hK
  have h7 := (h3.seq ((h4.text rfl).seq (h5.seq h6))) K hK
  have h2 := (picks_displayName (Q := anyK) ha hn (r := ([':'] ++ (m ++ ([] ++ (s ++ w)))) ++ r) (.cons (by decide)) h7.completes (by
    rintro s ⟨ts, s', hd, _⟩
    cases hd with
    | seq h1 _ =>
      obtain ⟨t, _, e, ⟨rfl, _⟩, _⟩ := (means_colon (Q := plainK) (env := nenv)).sound h1
      exact ⟨[], ':', _, OptCfws.nil, by decide, e⟩)).weaken (Q' := (· = .group)) (f' := id) (fun _ => rfl) (fun p hp => ⟨trivial, by
    cases p with
    | group xs => rfl
    | _ => simp [Node.kind] at hp⟩)
  have h8 := Picks.seq h2 h7
  have h := Picks.seq (h1 _ h8.completes) h8
  exact ((Picks.push (q := .group) (mk := .group []) (Q' := (· = .group)) rfl rfl rfl h (fun _ _ _ => rfl)).text (by simp)).cast
    (funext fun p => congrFun (eff _) p)

theorem noDer_mailbox_group {t r : List Char} {as} (h : ClearGroup env t as) : NoDer Gr.mailbox (t ++ r) := by
  obtain @⟨a, n, m, _, ha, hn, hq, hm⟩ := h
  have hne := groupName_ne hn
  obtain ⟨nw, ps, hn, hat⟩ := hn
  have hb : Heads barrier (':' :: (m ++ r)) := .cons (by decide)
  have := Stuff.addCfws ha (groupName_stuff hn (by simpa using hat) hb)
  have := noDer_mailbox_stuff (walls_word (fun c hc => by simp only [dotChar, Bool.or_eq_true] at hc; rcases hc with h | h <;> simp [wordChar, h]) hb) this (.cons rfl) (by decide)
  simpa using this

/-! ## Lists -/

theorem takes_item {t r : List Char} {as} (h : ClearItem env t as) (hr : Heads follow r) : Takes Q env Gr.address t r (addList as) := by
  have eff : ∀ as, deliver (.address as) = addList as := by intro v; funext p; cases p <;> rfl
  cases h with
  | box h =>
    exact (Takes.push (q := .address) (mk := .address []) (Q' := anyK) rfl rfl trivial ((takes_mailbox h hr).altL (b := Gr.group))
      (fun _ _ _ => rfl)).cast fun p => by simp [addBoxes, eff]
  | @group g as w h hw =>
    have h1 : Takes anyK env _ _ _ _ := takes_group (s := [';']) (w := w) (r := r) h (.inl ⟨rfl, hw, hr⟩)
    have h2 : Takes anyK env (Gr.mailbox ‖ Gr.group) _ _ _ := .altR (by rw [List.append_assoc]; exact noDer_mailbox_group h) h1
    exact (Takes.push (q := .address) (mk := .address []) (Q' := anyK) rfl rfl trivial h2
      (fun _ _ _ => rfl)).cast fun p => by simp [addAddress, eff]

theorem takes_last {t : List Char} {as} (h : ClearGroup env t as) : Takes Q env Gr.address t [] (addList as) := by
  have eff : ∀ as, deliver (.address as) = addList as := by intro v; funext p; cases p <;> rfl
  have h1 : Takes anyK env _ _ _ _ := takes_group (s := []) (w := []) (r := []) h (.inr ⟨rfl, rfl, rfl⟩)
  have h2 : Takes anyK env (Gr.mailbox ‖ Gr.group) _ _ _ := .altR (by rw [List.append_assoc]; exact noDer_mailbox_group h) h1
  exact ((Takes.push (q := .address) (mk := .address []) (Q' := anyK) rfl rfl trivial h2
    (fun _ _ _ => rfl)).text (by simp)).cast fun p => by simp [addAddress, eff]

theorem takes_list {t : List Char} {as} (h : ClearList env t as) :
    Takes plainK env (Gr.address ⬝ .star ((.t .Comma ‖ .t .Semicolon) ⬝ Gr.address)) t [] (addList as) := by
  have stop : Takes plainK env (.star ((.t .Comma ‖ .t .Semicolon) ⬝ Gr.address)) [] [] id :=
    .stop (NoDer.seq_left (.alt (noDer_tok' means_comma .nil) (noDer_tok' means_semicolon .nil)))
  have key : ∀ {t as}, ClearList env t as → ∃ u x bs cs, t = u ++ x ∧ as = bs ++ cs ∧ Takes plainK env Gr.address u x (addList bs) ∧
      Takes plainK env (.star ((.t .Comma ‖ .t .Semicolon) ⬝ Gr.address)) x [] (addList cs) := by
    intro t as h
    induction h with
    | @one t as h =>
      exact ⟨t, [], as, [], by simp, by simp, takes_item h .nil, stop.cast fun p => by rw [acts_addList.nil]⟩
    | @last t as h =>
      exact ⟨t, [], as, [], by simp, by simp, takes_last h, stop.cast fun p => by rw [acts_addList.nil]⟩
    | @cons t as sep r bs h hsep _ ih =>
      obtain ⟨u, x, bs, cs, rfl, rfl, hb, hx⟩ := ih
      refine ⟨t, sep :: (u ++ x), as, bs ++ cs, rfl, rfl, takes_item h (.cons (by rcases hsep with rfl | rfl <;> rfl)), ?_⟩
      have hs : Takes plainK env (.t .Comma ‖ .t .Semicolon) [sep] ((u ++ x)) id := by
        rcases hsep with rfl | rfl
        · exact (Takes.tok comma_matches).altL
        · exact (Takes.tok semicolon_matches).altR (noDer_tok' means_comma (.cons rfl))
      have h1 : Takes plainK env _ _ _ _ := hs.seq hb
      have h2 := Takes.again (r := []) (u := x) (by simpa using h1) hx
      exact (h2.text (by simp)).cast fun p => by simp [acts_addList.add]
  obtain ⟨u, x, bs, cs, rfl, rfl, hb, hx⟩ := key h
  exact (Takes.seq (r := []) (by simpa using hb) hx).cast fun p => by simp [acts_addList.add]

/-! ## The result of the call -/

theorem preferred_assoc {K : List Char → Prop} {a b c : G} {s ts s'} (h1 : Preferred K ((a ⬝ b) ⬝ c) s ts s') : Preferred K (a ⬝ (b ⬝ c)) s ts s' := by
  cases h1 with
  | seq h1 h4 =>
    cases h1 with
    | seq h1 h5 =>
      rw [List.append_assoc]
      refine .seq (Preferred.congr h1 fun s => ?_) (.seq h5 h4)
      constructor
      · rintro ⟨ts, s', hd, us, s'', hd', hK⟩; exact ⟨_, _, .seq hd hd', hK⟩
      · rintro ⟨ts, s', hd, hK⟩
        cases hd with
        | seq hd hd' => exact ⟨_, _, hd, _, _, hd', hK⟩

/-- What the grammar prefers is what the call returns. -/
theorem result_of_preferred (P : Predictor) {input : Bytes} {as : List Addr} (hne : input ≠ []) {g : G} {ts}
    (hg : Gr.addressList = .rule .addressList g) (hp : Preferred (· = []) g (tokens input) (ts ++ [.eof]) [])
    (hf : Eff plainK env ts (addList as)) :
    parseAddressList P env input = .ok (goSlice as, none) := by
  have h0 : input.length ≠ 0 := by simpa using hne
  have hw : Gr.addressList.wf = true := by decide
  have hp' : Preferred (· = []) Gr.addressList (tokens input) [.node .addressList (ts ++ [.eof])] [] := hg ▸ .rule hp
  have hs : search Gr.addressList (tokens input) = some [.node .addressList (ts ++ [.eof])] := by
    have := (search_isSome_iff (s := tokens input) hw).mpr ⟨_, (Preferred.derives hp').1⟩
    obtain ⟨us, hu⟩ := Option.isSome_iff_exists.mp this
    rw [hu, (Preferred.unique hp' (search_preferred hw hu)).1]
  unfold parseAddressList
  rw [if_neg h0, descend_eq_search P Gr.addressList hw, hs]
  dsimp only
  rw [walk_root hf]

/-- Followed by the end of the input. -/
theorem Takes.withEof {g : G} {t f} (h : Takes Q env g t [] f) : ∃ ts, Preferred (· = []) (g ⬝ .eof) t (ts ++ [.eof]) [] ∧ Eff Q env ts f := by
  obtain ⟨ts, hp, _, hf⟩ := h (Completes .eof (· = [])) ⟨_, _, .eof, rfl⟩
  rw [List.append_nil] at hp
  exact ⟨ts, .seq hp (.eof rfl), hf⟩

/-- What is taken by the list grammar is what the call returns. -/
theorem result_of_strict (P : Predictor) {input : Bytes} {as : List Addr} (hne : input ≠ [])
    (h : Takes plainK env (Gr.address ⬝ .star ((.t .Comma ‖ .t .Semicolon) ⬝ Gr.address)) (tokens input) [] (addList as)) :
    parseAddressList P env input = .ok (goSlice as, none) := by
  obtain ⟨ts, hp, hf⟩ := h.withEof
  exact result_of_preferred P hne rfl (.first (preferred_assoc hp)) hf

/-- What is taken by the obsolete list grammar, if there is no other way, is what the call returns. -/
theorem result_of_obs (P : Predictor) {input : Bytes} {as : List Addr} (hne : input ≠ [])
    (hn : ¬ Completes (Gr.address ⬝ .star ((.t .Comma ‖ .t .Semicolon) ⬝ Gr.address) ⬝ .eof) (· = []) (tokens input))
    (h : Takes plainK env Gr.obsAddrList (tokens input) [] (addList as)) :
    parseAddressList P env input = .ok (goSlice as, none) := by
  obtain ⟨ts, hp, hf⟩ := h.withEof
  exact result_of_preferred P hne rfl (.second hn hp) hf

/-- A clear-cut list has the value it is meant to have. -/
theorem parse_clearList (P : Predictor) {input : Bytes} {as : List Addr} (hne : input ≠ []) (h : ClearList env (tokens input) as) :
    parseAddressList P env input = .ok (goSlice as, none) := result_of_strict P hne (takes_list h)

end Rfc5322
