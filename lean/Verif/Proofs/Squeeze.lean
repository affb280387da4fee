import Verif.Proofs.Exact

/-!
# One space instead of comments and white space
-/

namespace Rfc5322

open Spec

/-! ## What `oneSpace` does -/

theorem remover_squeeze : Remover (fun d => oneSpaceFrom (match d with | 0 => .top | d + 1 => .comment d false) true) where
  blank {c} r h d := by
    have := blank_in h
    cases d with
    | zero => simp [oneSpaceFrom, h]
    | succ d => simp only [oneSpaceFrom, if_neg this.1, if_neg this.2.1, if_neg this.2.2]
  open' d r := by cases d <;> simp [oneSpaceFrom, isBlank]
  close d r := by cases d <;> simp [oneSpaceFrom]
  pair d c r := by simp [oneSpaceFrom]
  char d r h1 h2 h3 := by simp only [oneSpaceFrom, if_neg h1, if_neg h2, if_neg h3]

theorem squeeze_gap {x : List Char} (h : OptCfws x) (r) : oneSpaceFrom .top true (x ++ r) = oneSpaceFrom .top true r := remover_squeeze.cfws h 0 r

/-- Before anything else the flag does not matter. -/
theorem squeeze_flag {r : List Char} (h : Heads solid r) : oneSpaceFrom .top true r = oneSpace r := by
  cases r with
  | nil => rfl
  | cons c r =>
    have := solid_iff.mp h.head
    simp [oneSpace, oneSpaceFrom, this.1, this.2]

/-- What becomes of CFWS. -/
def gap (w : List Char) : List Char := if w = [] then [] else [' ']

theorem gap_cfws (w : List Char) : OptCfws (gap w) := by
  unfold gap
  split
  · exact OptCfws.nil
  · exact ⟨[], [' '], .nil, .inr (.plain (by simp) (by decide)), rfl⟩

theorem gap_eq_nil {w : List Char} : gap w = [] ↔ w = [] := by
  unfold gap
  split <;> simp [*]

theorem squeeze_start {w r : List Char} (hw : OptCfws w) (hne : w ≠ []) : oneSpace (w ++ r) = ' ' :: oneSpaceFrom .top true r := by
  rw [← squeeze_gap hw]
  obtain ⟨c, x, rfl⟩ := List.exists_cons_of_ne_nil hne
  have hc : ¬ solid c = true := fun hc => cfws_ne (a := []) OptCfws.nil hw hc rfl
  rw [solid_iff] at hc
  by_cases hb : isBlank c = true
  · simp [oneSpace, oneSpaceFrom, hb]
  · have : c = '(' := Classical.byContradiction fun h => hc ⟨by simpa using hb, h⟩
    subst this
    simp [oneSpace, oneSpaceFrom, isBlank]

/-- `t` becomes `t'`, provided that no CFWS follows. -/
def Sq (t t' : List Char) : Prop := ∀ r, Heads solid r → oneSpace (t ++ r) = t' ++ oneSpace r

theorem Sq.append {t u t' u' : List Char} (h1 : Sq t t') (h2 : Sq u u') (hu : Heads solid u) : Sq (t ++ u) (t' ++ u') := fun r hr => by
  rw [List.append_assoc, h1 _ (hu.append fun _ => hr), h2 _ hr, List.append_assoc]

theorem Sq.nil : Sq [] [] := fun _ _ => rfl

theorem Sq.cfws {w : List Char} (hw : OptCfws w) : Sq w (gap w) := fun r hr => by
  unfold gap
  split
  · next h => subst h; rfl
  · next h => rw [squeeze_start hw h, squeeze_flag hr]; rfl

/-- `t` is kept, whatever follows. -/
def Kept (t : List Char) : Prop := ∀ r, oneSpace (t ++ r) = t ++ oneSpace r

theorem Kept.nil : Kept [] := fun _ => rfl

theorem Kept.append {t u : List Char} (ht : Kept t) (hu : Kept u) : Kept (t ++ u) := fun r => by
  rw [List.append_assoc, ht, hu, List.append_assoc]

theorem Kept.char {c : Char} (hc : stays c = true) : Kept [c] := fun r => by
  simp only [stays, Bool.and_eq_true, Bool.not_eq_true', bne_iff_ne, ne_eq] at hc
  obtain ⟨⟨⟨h1, h2⟩, h3⟩, h4⟩ := hc
  simp [oneSpace, oneSpaceFrom, h1, h2, h3, h4]

/-- A text that is kept in front of CFWS. -/
theorem Kept.sq {t u u' : List Char} (ht : Kept t) (hu : Sq u u') : Sq (t ++ u) (t ++ u') := fun r hr => by
  rw [List.append_assoc, ht, hu r hr, List.append_assoc]

theorem Sq.cons {c : Char} {t t' : List Char} (hc : stays c = true) (ht : Sq t t') : Sq (c :: t) (c :: t') := (Kept.char hc).sq ht

theorem wordChar_stays {c : Char} (h : wordChar c = true) : stays c = true := by
  have h1 := wordChar_solid h
  have h2 : c ≠ '[' := by rintro rfl; exact absurd h (by decide)
  simp [stays, h1.1, h1.2.1, h1.2.2, h2]

theorem Kept.chars {x : List Char} (h : ∀ c ∈ x, wordChar c = true) : Kept x := by
  induction x with
  | nil => exact .nil
  | cons c x ih => exact (Kept.char (wordChar_stays (h c (by simp)))).append (ih fun c hc => h c (by simp [hc]))

theorem oneSpaceFrom_quoted {x : List Char} {v} (h : QuotedText x v) : ∀ r, oneSpaceFrom (.quoted false) false (x ++ r) = x ++ oneSpaceFrom (.quoted false) false r := by
  have fws : ∀ {w : List Char}, OptFws w → ∀ r, oneSpaceFrom (.quoted false) false (w ++ r) = w ++ oneSpaceFrom (.quoted false) false r := by
    intro w hw r
    have := optFws_blank hw
    clear hw
    induction w with
    | nil => rfl
    | cons c w ih =>
      have hc := this c (by simp)
      have h1 : c ≠ '\\' := by rintro rfl; cases hc
      have h2 : c ≠ '"' := by rintro rfl; cases hc
      rw [List.cons_append, oneSpaceFrom, if_neg h1, if_neg h2, ih fun c hc => this c (by simp [hc])]
      rfl
  induction h with
  | nil => exact fun _ => rfl
  | @char f c x v hf hc _ ih =>
    intro r
    have h1 : c ≠ '\\' := by rintro rfl; exact absurd hc (by decide)
    have h2 : c ≠ '"' := by rintro rfl; exact absurd hc (by decide)
    rw [List.append_assoc, fws hf, List.cons_append, oneSpaceFrom, if_neg h1, if_neg h2, ih]
    simp
  | pair hf hc _ ih =>
    intro r
    rw [List.append_assoc, fws hf, List.cons_append, oneSpaceFrom, if_pos rfl, List.cons_append, oneSpaceFrom, ih]
    simp
  | obsPair hf hc _ ih =>
    intro r
    rw [List.append_assoc, fws hf, List.cons_append, oneSpaceFrom, if_pos rfl, List.cons_append, oneSpaceFrom, ih]
    simp

theorem Kept.quoted {t v} (h : QuotedString t v) : Kept t := fun r => by
  obtain ⟨x, f, hx, hf, rfl⟩ := h
  have e : '"' :: (x ++ (f ++ ['"'])) ++ r = '"' :: (x ++ (f ++ ('"' :: r))) := by simp
  rw [e, oneSpace, oneSpaceFrom, if_neg (by decide), if_neg (by decide), if_pos rfl, oneSpaceFrom_quoted hx]
  have := optFws_blank hf
  rw [show oneSpaceFrom (.quoted false) false (f ++ '"' :: r) = f ++ '"' :: oneSpace r by
    clear hf e
    induction f with
    | nil => rw [List.nil_append, oneSpaceFrom, if_neg (by decide), if_pos rfl]; rfl
    | cons c w ih =>
      have hc := this c (by simp)
      have h1 : c ≠ '\\' := by rintro rfl; cases hc
      have h2 : c ≠ '"' := by rintro rfl; cases hc
      rw [List.cons_append, oneSpaceFrom, if_neg h1, if_neg h2, ih fun c hc => this c (by simp [hc])]
      rfl]
  simp

theorem oneSpaceFrom_literal : ∀ {x : List Char}, ']' ∉ x → ∀ r, oneSpaceFrom .literal false (x ++ r) = x ++ oneSpaceFrom .literal false r
  | [], _, _ => rfl
  | c :: x, h, r => by
    simp only [List.mem_cons, not_or] at h
    rw [List.cons_append, oneSpaceFrom, if_neg (Ne.symm h.1), oneSpaceFrom_literal h.2 r]
    rfl

theorem Kept.literal {t} (h : DomainLiteral t) : Kept t := fun r => by
  obtain ⟨x, f, hx, hf, rfl⟩ := h
  have hf' : ']' ∉ f := fun hm => absurd (optFws_blank hf _ hm) (by decide)
  have e : '[' :: (x ++ (f ++ [']'])) ++ r = '[' :: (x ++ (f ++ (']' :: r))) := by simp
  rw [e, oneSpace, oneSpaceFrom, if_neg (by decide), if_neg (by decide), if_neg (by decide), if_pos rfl,
    oneSpaceFrom_literal (literalItems_no hx), oneSpaceFrom_literal hf', oneSpaceFrom, if_pos rfl]
  simp [oneSpace]

theorem heads_solid_chars {x : List Char} (h : ∀ c ∈ x, wordChar c = true) : Heads solid x := by
  cases x with
  | nil => exact .nil
  | cons c x => exact .cons (solid_iff.mpr ⟨(wordChar_solid (h c (by simp))).1, (wordChar_solid (h c (by simp))).2.1⟩)

/-! ## The parts of a mailbox -/

/-- It is kept, and does not begin with CFWS. -/
def Firm (u : List Char) : Prop := Kept u ∧ u ≠ [] ∧ Heads solid u

theorem Firm.append {u r : List Char} (h : Firm u) : Heads solid (u ++ r) := h.2.2.append fun e => absurd e h.2.1

theorem firm_atom {t : List Char} (h : Atom t) : Firm t :=
  ⟨.chars (atom_wordChars h), h.1, heads_solid_chars (atom_wordChars h)⟩

theorem firm_dotAtom {t : List Char} (h : DotAtom t) : Firm t := by
  have h1 := dotAtom_wordChars h
  refine ⟨.chars h1, ?_, heads_solid_chars h1⟩
  rintro rfl
  rcases h with h | ⟨r, _, e⟩
  · generalize e : ([] : List Char) = t at h
    cases h with
    | one h => exact h.1 e.symm
    | cons _ _ => simp at e
  · simp at e

theorem firm_quoted {t v} (h : QuotedString t v) : Firm t := by
  obtain ⟨y, rfl⟩ := quotedString_head h
  exact ⟨.quoted h, by simp, .cons rfl⟩

theorem firm_literal {t} (h : DomainLiteral t) : Firm t := by
  have hk := Kept.literal h
  obtain ⟨x, f, _, _, rfl⟩ := h
  exact ⟨hk, by simp, .cons rfl⟩

/-- CFWS around a part. -/
theorem Firm.around {a u b : List Char} (ha : OptCfws a) (hu : Firm u) (hb : OptCfws b) : Sq (a ++ (u ++ b)) (gap a ++ (u ++ gap b)) :=
  (Sq.cfws ha).append (hu.1.sq (.cfws hb)) hu.append

theorem sq_bareWord {t v} (h : BareWord t v) : ∃ t', BareWord t' v ∧ Sq t t' := by
  cases h with
  | atom ha ht hm hb => exact ⟨_, .atom (gap_cfws _) ht hm (gap_cfws _), (firm_atom ht).around ha hb⟩
  | quoted ha ht hb => exact ⟨_, .quoted (gap_cfws _) ht (gap_cfws _), (firm_quoted ht).around ha hb⟩

theorem sq_bareWords {t v} (h : BareWords t v) : ∃ t', BareWords t' v ∧ Sq t t' := by
  induction h with
  | one h =>
    obtain ⟨t', h1, h2⟩ := sq_bareWord h
    exact ⟨t', .one h1, h2⟩
  | cons h _ ih =>
    obtain ⟨t', h1, h2⟩ := sq_bareWord h
    obtain ⟨r', h3, h4⟩ := ih
    exact ⟨_, .cons h1 h3, h2.append (h4.cons rfl) (.cons rfl)⟩

theorem sq_bareLocal {t v} (h : BareLocal t v) : ∃ t', BareLocal t' v ∧ Sq t t' := by
  cases h with
  | dotAtom ha ht hm hb => exact ⟨_, .dotAtom (gap_cfws _) ht hm (gap_cfws _), (firm_dotAtom ht).around ha hb⟩
  | quoted ha ht hb => exact ⟨_, .quoted (gap_cfws _) ht (gap_cfws _), (firm_quoted ht).around ha hb⟩
  | words h =>
    obtain ⟨t', h1, h2⟩ := sq_bareWords h
    exact ⟨t', .words h1, h2⟩

theorem sq_bareDomain {t v} (h : BareDomain t v) : ∃ t', BareDomain t' v ∧ Sq t t' := by
  cases h with
  | dotAtom ha ht hm hb => exact ⟨_, .dotAtom (gap_cfws _) ht hm (gap_cfws _), (firm_dotAtom ht).around ha hb⟩
  | literal ha ht hb => exact ⟨_, .literal (gap_cfws _) ht (gap_cfws _), (firm_literal ht).around ha hb⟩

theorem sq_domain {t v} (h : Domain t v) : ∃ t', Domain t' v ∧ Sq t t' := by
  cases h with
  | dotAtom ha ht hb => exact ⟨_, .dotAtom (gap_cfws _) ht (gap_cfws _), (firm_dotAtom ht).around ha hb⟩
  | literal ha ht hb => exact ⟨_, .literal (gap_cfws _) ht (gap_cfws _), (firm_literal ht).around ha hb⟩

theorem digit_word {c : Char} (h : isDigit c = true) : wordChar c = true := by
  simp only [isDigit, Bool.and_eq_true, decide_eq_true_eq] at h
  have h1 : 48 ≤ c.toNat := h.1
  have h2 : c.toNat ≤ 57 := h.2
  have hne : ∀ d : Char, (d.toNat < 48 ∨ 57 < d.toNat) → c ≠ d := by rintro d hd rfl; omega
  have : isAtext c = true := by
    have hv : isVchar c = true := by simp [isVchar]; omega
    rw [isAtext, hv]
    simp only [List.contains_cons, List.contains_nil, Bool.or_false, Bool.true_and, Bool.not_eq_true', Bool.or_eq_false_iff, beq_eq_false_iff_ne]
    repeat' refine And.intro (hne _ (by decide)) ?_
    exact hne _ (by decide)
  simp [wordChar, this]

theorem sq_digits {p : List Char} (h : ∀ c ∈ p, isDigit c = true) : Sq p p := by
  intro r _
  exact Kept.chars (fun c hc => digit_word (h c hc)) r

theorem sq_bareAddr {t v} (h : BareAddr t v) : ∃ t', BareAddr t' v ∧ Sq t t' := by
  cases h with
  | plain hl hd =>
    obtain ⟨l', h1, h2⟩ := sq_bareLocal hl
    obtain ⟨d', h3, h4⟩ := sq_bareDomain hd
    exact ⟨_, .plain h1 h3, h2.append (h4.cons rfl) (.cons rfl)⟩
  | port hl hd hp hpd =>
    obtain ⟨l', h1, h2⟩ := sq_bareLocal hl
    obtain ⟨d', h3, h4⟩ := sq_bareDomain hd
    exact ⟨_, .port h1 h3 hp hpd, h2.append ((h4.append ((sq_digits hpd).cons rfl) (.cons rfl)).cons rfl) (.cons rfl)⟩

theorem sq_routeHead {t} (h : RouteHead t) : ∀ g, ∃ t', RouteHead t' ∧ ∀ r, Heads solid r → oneSpaceFrom .top g (t ++ r) = t' ++ oneSpace r := by
  induction h with
  | nil =>
    intro g
    refine ⟨[], .nil, fun r hr => ?_⟩
    cases g
    · rfl
    · exact squeeze_flag hr
  | comma _ ih =>
    intro g
    obtain ⟨t', h1, h2⟩ := ih false
    refine ⟨_, .comma h1, fun r hr => ?_⟩
    rw [List.cons_append, List.cons_append, ← h2 r hr]
    simp [oneSpaceFrom, isBlank]
  | @cfws w x hw _ ih =>
    intro g
    obtain ⟨t', h1, h2⟩ := ih true
    cases g
    · refine ⟨_, .cfws (t := gap w) ⟨gap_cfws w, fun e => hw.2 (gap_eq_nil.mp e)⟩ h1, fun r hr => ?_⟩
      rw [List.append_assoc, List.append_assoc, ← h2 r hr]
      show oneSpace _ = _
      rw [squeeze_start hw.1 hw.2, gap, if_neg hw.2]
      rfl
    · refine ⟨_, h1, fun r hr => ?_⟩
      rw [List.append_assoc, squeeze_gap hw.1, h2 r hr]

theorem sq_routeTail {t} (h : RouteTail t) : ∃ t', RouteTail t' ∧ Sq t t' ∧ Heads solid t := by
  induction h with
  | nil => exact ⟨[], .nil, .nil, .nil⟩
  | empty hw _ ih =>
    obtain ⟨t', h1, h2, h3⟩ := ih
    exact ⟨_, .empty (gap_cfws _) h1, ((Sq.cfws hw).append h2 h3).cons rfl, .cons rfl⟩
  | hop hw hd _ ih =>
    obtain ⟨t', h1, h2, h3⟩ := ih
    obtain ⟨d', h4, h5⟩ := sq_domain hd
    exact ⟨_, .hop (gap_cfws _) h4 h1, ((Sq.cfws hw).append ((h5.append h2 h3).cons rfl) (.cons rfl)).cons rfl, .cons rfl⟩

theorem sq_plainAngle {t v} (h : PlainAngle t v) : ∃ t', PlainAngle t' v ∧ Sq t t' ∧ Heads solid t := by
  cases h with
  | null hb => exact ⟨_, .null (gap_cfws _), ((Sq.cfws hb).cons rfl).cons rfl, .cons rfl⟩
  | addr h hb =>
    obtain ⟨t', h1, h2⟩ := sq_bareAddr h
    exact ⟨_, .addr h1 (gap_cfws _), (h2.append ((Sq.cfws hb).cons rfl) (.cons rfl)).cons rfl, .cons rfl⟩
  | @routed q t v b hq h hb =>
    obtain ⟨t', h1, h2⟩ := sq_bareAddr h
    obtain ⟨hd, d, dv, tl, hh, hdom, htl, rfl⟩ := hq
    obtain ⟨hd', h3, h4⟩ := sq_routeHead hh false
    obtain ⟨d', h5, h6⟩ := sq_domain hdom
    obtain ⟨tl', h7, h8, h9⟩ := sq_routeTail htl
    have key : Sq (hd ++ ('@' :: (d ++ (tl ++ ':' :: (t ++ '>' :: b))))) (hd' ++ ('@' :: (d' ++ (tl' ++ ':' :: (t' ++ '>' :: gap b))))) := by
      refine Sq.append (t := hd) h4 (Sq.cons rfl (h6.append (h8.append (Sq.cons rfl (h2.append (.cons rfl (.cfws hb)) (.cons rfl))) (.cons rfl)) ?_)) (.cons rfl)
      exact h9.append fun _ => .cons rfl
    refine ⟨'<' :: ((hd' ++ '@' :: (d' ++ (tl' ++ [':']))) ++ (t' ++ '>' :: gap b)), .routed ⟨hd', d', dv, tl', h3, h5, h7, rfl⟩ h1 (gap_cfws _), ?_, .cons rfl⟩
    have := key.cons (c := '<') rfl
    simpa using this

theorem gap_ne {b : List Char} (h : b ≠ []) : gap b ≠ [] := fun e => h (gap_eq_nil.mp e)

theorem sq_plainName {t ps} (h : PlainName t ps) : ∃ t', PlainName t' ps ∧ Sq t t' ∧ Heads solid t ∧ t'.head? = t.head? := by
  induction h with
  | nil => exact ⟨[], .nil, .nil, .nil, rfl⟩
  | @atom t b x ps ht hm hb hx _ ih =>
    obtain ⟨x', h1, h2, h3, h4⟩ := ih
    have hf := firm_atom ht
    refine ⟨t ++ (gap b ++ x'), .atom ht hm (gap_cfws _) ?_ h1, hf.1.sq ((Sq.cfws hb).append h2 h3), hf.append, ?_⟩
    · intro e
      rw [h4]
      exact hx (gap_eq_nil.mp e)
    · obtain ⟨c, t, rfl⟩ := List.exists_cons_of_ne_nil ht.1
      rfl
  | @quoted t b x v ps ht hb _ ih =>
    obtain ⟨x', h1, h2, h3, h4⟩ := ih
    have hf := firm_quoted ht
    refine ⟨t ++ (gap b ++ x'), .quoted ht (gap_cfws _) h1, hf.1.sq ((Sq.cfws hb).append h2 h3), hf.append, ?_⟩
    obtain ⟨c, t, rfl⟩ := List.exists_cons_of_ne_nil hf.2.1
    rfl
  | dot hb _ ih =>
    obtain ⟨x', h1, h2, h3, h4⟩ := ih
    exact ⟨_, .dot (gap_cfws _) h1, ((Sq.cfws hb).append h2 h3).cons rfl, .cons rfl, rfl⟩
  | «at» hb _ ih =>
    obtain ⟨x', h1, h2, h3, h4⟩ := ih
    exact ⟨_, .at (gap_cfws _) h1, ((Sq.cfws hb).append h2 h3).cons rfl, .cons rfl, rfl⟩

theorem sq_plainBox {t a} (h : PlainBox t a) : ∃ t', PlainBox t' a ∧ Sq t t' := by
  cases h with
  | named ha hn ht =>
    obtain ⟨n', h1, h2, h3, _⟩ := sq_plainName hn
    obtain ⟨t', h4, h5, h6⟩ := sq_plainAngle ht
    exact ⟨_, .named (gap_cfws _) h1 h4, (Sq.cfws ha).append (h2.append h5 h6) (h3.append fun _ => h6)⟩
  | angle ha ht =>
    obtain ⟨t', h4, h5, h6⟩ := sq_plainAngle ht
    exact ⟨_, .angle (gap_cfws _) h4, (Sq.cfws ha).append h5 h6⟩
  | bare h =>
    obtain ⟨t', h1, h2⟩ := sq_bareAddr h
    exact ⟨t', .bare h1, h2⟩

theorem sq_sepBoxes {t as} (h : SepBoxes t as) : ∃ t', SepBoxes t' as ∧ Sq t t' ∧ Heads solid t := by
  induction h with
  | nil => exact ⟨[], .nil, .nil, .nil⟩
  | @cons sep t a r as hsep hb _ ih =>
    obtain ⟨r', h1, h2, h3⟩ := ih
    obtain ⟨t', h4, h5⟩ := sq_plainBox hb
    refine ⟨_, .cons hsep h4 h1, (h5.append h2 h3).cons ?_, .cons ?_⟩ <;> rcases hsep with rfl | rfl <;> rfl

theorem sq_commaBoxes {t as} (h : CommaBoxes t as) : ∃ t', CommaBoxes t' as ∧ Sq t t' ∧ Heads solid t := by
  induction h with
  | nil => exact ⟨[], .nil, .nil, .nil⟩
  | cons hb _ ih =>
    obtain ⟨r', h1, h2, h3⟩ := ih
    obtain ⟨t', h4, h5⟩ := sq_plainBox hb
    exact ⟨_, .cons h4 h1, (h5.append h2 h3).cons rfl, .cons rfl⟩
  | empty hw _ ih =>
    obtain ⟨r', h1, h2, h3⟩ := ih
    exact ⟨_, .empty (gap_cfws _) h1, ((Sq.cfws hw).append h2 h3).cons rfl, .cons rfl⟩

/-- Behind it anything may follow. -/
def Kept' (t t' : List Char) : Prop := ∀ {u u' : List Char}, Sq u u' → Sq (t ++ u) (t' ++ u')

theorem sq_commas {t} (h : Commas t) : ∃ t', Commas t' ∧ Kept' t t' := by
  induction h with
  | nil => exact ⟨[], .nil, fun h => h⟩
  | @cons w r hw _ ih =>
    obtain ⟨r', h1, h2⟩ := ih
    refine ⟨_, .cons (gap_cfws w) h1, fun {u u'} hu => ?_⟩
    rw [List.append_assoc, List.append_assoc, List.cons_append, List.cons_append]
    exact (Sq.cfws hw).append ((h2 hu).cons rfl) (.cons rfl)

/-- One space instead of each run of comments and white space: the same list. -/
theorem boxList_oneSpace {t as} (h : BoxList t as) : BoxList (oneSpace t) as := by
  have key : ∀ {t t' : List Char}, Sq t t' → BoxList t' as → BoxList (oneSpace t) as := by
    intro t t' h1 h2
    have := h1 [] .nil
    rw [List.append_nil] at this
    rw [this, show oneSpace [] = [] from rfl, List.append_nil]
    exact h2
  cases h with
  | strict hb hr =>
    obtain ⟨t', h1, h2⟩ := sq_plainBox hb
    obtain ⟨r', h3, h4, h5⟩ := sq_sepBoxes hr
    exact key (h2.append h4 h5) (.strict h1 h3)
  | padded hh hb hr =>
    obtain ⟨h', h6, h7⟩ := sq_commas hh
    obtain ⟨t', h1, h2⟩ := sq_plainBox hb
    obtain ⟨r', h3, h4, h5⟩ := sq_commaBoxes hr
    exact key (h7 (h2.append h4 h5)) (.padded h6 h1 h3)

/-! ## Encoded words -/

theorem noMark_cons {c : Char} {x : List Char} : NoMark (c :: x) ↔ NoMark x ∧ ¬ (c = '=' ∧ x.head? = some '?') := by
  constructor
  · refine fun h => ⟨h.mono (infix_tail _ _), ?_⟩
    rintro ⟨rfl, hx⟩
    cases x with
    | nil => cases hx
    | cons d x =>
      injection hx with hx
      subst hx
      exact h ⟨[], x, rfl⟩
  · rintro ⟨h1, h2⟩ ⟨a, b, e⟩
    cases a with
    | nil =>
      injection e with e1 e2
      exact h2 ⟨e1.symm, by rw [← e2]; rfl⟩
    | cons d a =>
      injection e with e1 e2
      exact h1 ⟨a, b, e2⟩

/-- The flag that belongs to a mode. -/
def Mode.fits : Mode → Bool → Prop
  | .top, _ => True
  | .comment _ _, g => g = true
  | _, g => g = false

theorem noMark_oneSpaceFrom : ∀ (r : List Char) (m : Mode) (g : Bool), Mode.fits m g → NoMark r →
    NoMark (oneSpaceFrom m g r) ∧ (g = false → (oneSpaceFrom m g r).head? = some '?' → r.head? = some '?')
  | [], m, g, _, h => by
    have : oneSpaceFrom m g [] = [] := by cases m <;> simp [oneSpaceFrom]
    rw [this]
    exact ⟨h, fun _ h => h⟩
  | c :: r, m, g, hg, h => by
    obtain ⟨h1, h2⟩ := noMark_cons.mp h
    have ih := fun m g hg => noMark_oneSpaceFrom r m g hg h1
    have keep : ∀ m', Mode.fits m' false → NoMark (c :: oneSpaceFrom m' false r) := by
      intro m' hm
      have := ih m' false hm
      exact noMark_cons.mpr ⟨this.1, fun hc => h2 ⟨hc.1, this.2 rfl hc.2⟩⟩
    have space : ∀ {x : List Char}, NoMark x → NoMark (' ' :: x) := fun h => noMark_cons.mpr ⟨h, fun hc => absurd hc.1 (by decide)⟩
    cases m with
    | top =>
      rw [oneSpaceFrom]
      split
      · have := (ih .top true trivial).1
        cases g
        · exact ⟨space this, fun _ h => by cases h⟩
        · exact ⟨this, fun h => by cases h⟩
      · split
        · have := (ih (.comment 0 false) true rfl).1
          cases g
          · exact ⟨space this, fun _ h => by cases h⟩
          · exact ⟨this, fun h => by cases h⟩
        · split
          · next hq => subst hq; exact ⟨keep (.quoted false) rfl, fun _ h => h⟩
          · split
            · next hq => subst hq; exact ⟨keep .literal rfl, fun _ h => h⟩
            · exact ⟨keep .top trivial, fun _ h => h⟩
    | comment d e =>
      have hg : g = true := hg
      subst hg
      refine ⟨?_, fun h => by cases h⟩
      cases e with
      | true => simp only [oneSpaceFrom]; exact (ih (.comment _ _) true rfl).1
      | false =>
        simp only [oneSpaceFrom]
        split
        · exact (ih (.comment _ _) true rfl).1
        · split
          · exact (ih (.comment _ _) true rfl).1
          · split
            · cases d
              · exact (ih .top true trivial).1
              · exact (ih (.comment _ _) true rfl).1
            · exact (ih (.comment _ _) true rfl).1
    | quoted e =>
      have hg : g = false := hg
      subst hg
      cases e with
      | true => simp only [oneSpaceFrom]; exact ⟨keep _ rfl, fun _ h => h⟩
      | false =>
        simp only [oneSpaceFrom]
        refine ⟨?_, fun _ h => h⟩
        split
        · exact keep _ rfl
        · split
          · exact keep _ trivial
          · exact keep _ rfl
    | literal =>
      have hg : g = false := hg
      subst hg
      simp only [oneSpaceFrom]
      refine ⟨?_, fun _ h => h⟩
      split
      · exact keep _ trivial
      · exact keep _ rfl

theorem noMark_oneSpace {t : List Char} (h : NoMark t) : NoMark (oneSpace t) := (noMark_oneSpaceFrom t .top false trivial h).1

/-! ## CFWS at the ends -/

variable {env : Env}

theorem bareWord_pre {w t v} (hw : OptCfws w) (h : BareWord t v) (hn : NoBlankLines (w ++ t)) : BareWord (w ++ t) v := by
  cases h with
  | @atom a t b ha ht hm hb =>
    have := optCfws_append hw ha (hn.mono ⟨[], t ++ b, by simp⟩)
    rw [← List.append_assoc]
    exact .atom this ht hm hb
  | @quoted a t b v ha ht hb =>
    have := optCfws_append hw ha (hn.mono ⟨[], t ++ b, by simp⟩)
    rw [← List.append_assoc]
    exact .quoted this ht hb

theorem bareLocal_pre {w t v} (hw : OptCfws w) (h : BareLocal t v) (hn : NoBlankLines (w ++ t)) : BareLocal (w ++ t) v := by
  cases h with
  | @dotAtom a t b ha ht hm hb =>
    have := optCfws_append hw ha (hn.mono ⟨[], t ++ b, by simp⟩)
    rw [← List.append_assoc]
    exact .dotAtom this ht hm hb
  | @quoted a t b v ha ht hb =>
    have := optCfws_append hw ha (hn.mono ⟨[], t ++ b, by simp⟩)
    rw [← List.append_assoc]
    exact .quoted this ht hb
  | words h =>
    cases h with
    | one h => exact .words (.one (bareWord_pre hw h hn))
    | @cons t v r u h hr =>
      have := bareWord_pre hw h (hn.mono ⟨[], '.' :: r, by simp⟩)
      rw [← List.append_assoc]
      exact .words (.cons this hr)

theorem plainBox_pre {w t a} (hw : OptCfws w) (h : PlainBox t a) (hn : NoBlankLines (w ++ t)) : PlainBox (w ++ t) a := by
  cases h with
  | @named a n _ _ t _ ha h1 h2 =>
    have := optCfws_append hw ha (hn.mono ⟨[], n ++ t, by simp⟩)
    rw [← List.append_assoc]
    exact .named this h1 h2
  | @angle a t _ ha h =>
    have := optCfws_append hw ha (hn.mono ⟨[], t, by simp⟩)
    rw [← List.append_assoc]
    exact .angle this h
  | bare h =>
    cases h with
    | @plain l lv d dv hl hd =>
      have := bareLocal_pre hw hl (hn.mono ⟨[], '@' :: d, by simp⟩)
      rw [← List.append_assoc]
      exact .bare (.plain this hd)
    | @port l lv d dv p hl hd h1 h2 =>
      have := bareLocal_pre hw hl (hn.mono ⟨[], '@' :: (d ++ ':' :: p), by simp⟩)
      rw [← List.append_assoc]
      exact .bare (.port this hd h1 h2)

theorem bareDomain_post {w t v} (hw : OptCfws w) (h : BareDomain t v) (hn : NoBlankLines (t ++ w)) : BareDomain (t ++ w) v := by
  cases h with
  | @dotAtom a t b ha ht hm hb =>
    have := optCfws_append hb hw (hn.mono ⟨a ++ t, [], by simp⟩)
    rw [List.append_assoc, List.append_assoc]
    exact .dotAtom ha ht hm this
  | @literal a t b ha ht hb =>
    have := optCfws_append hb hw (hn.mono ⟨a ++ t, [], by simp⟩)
    rw [List.append_assoc, List.append_assoc]
    exact .literal ha ht this

theorem plainAngle_post {w t v} (hw : OptCfws w) (h : PlainAngle t v) (hn : NoBlankLines (t ++ w)) : PlainAngle (t ++ w) v := by
  cases h with
  | @null b hb => exact .null (optCfws_append hb hw (hn.mono ⟨c!"<>", [], by simp⟩))
  | @addr t v b h hb =>
    have := optCfws_append hb hw (hn.mono ⟨'<' :: (t ++ ['>']), [], by simp⟩)
    have h2 := PlainAngle.addr h this
    simpa using h2
  | @routed q t v b hq h hb =>
    have := optCfws_append hb hw (hn.mono ⟨'<' :: (q ++ (t ++ ['>'])), [], by simp⟩)
    have h2 := PlainAngle.routed hq h this
    simpa using h2

theorem bareLocal_spec {t v} (h : BareLocal t v) : LocalPart env t v := by
  have word : ∀ {t v}, BareWord t v → Word env t v := by
    intro t v h
    cases h with
    | atom ha ht _ hb => exact .atom ha ht hb
    | quoted ha ht hb => exact .quoted ha ht hb
  cases h with
  | dotAtom ha ht _ hb => exact .dotAtom ha ht hb
  | quoted ha ht hb => exact .quoted ha ht hb
  | words h =>
    refine .obs ?_
    induction h with
    | one h => exact .one (word h)
    | cons h _ ih => exact .cons (word h) ih

theorem bareDomain_spec {t v} (h : BareDomain t v) : Domain t v := by
  cases h with
  | dotAtom ha ht _ hb => exact .dotAtom ha ht hb
  | literal ha ht hb => exact .literal ha ht hb

theorem plainBox_post {w t a} (hw : OptCfws w) (h : PlainBox t a) (ht : Tame t) (hn : NoBlankLines (t ++ w)) : PlainBox (t ++ w) a := by
  cases h with
  | @named a n _ _ t _ ha h1 h2 =>
    have := plainAngle_post hw h2 (hn.mono ⟨a ++ n, [], by simp⟩)
    rw [List.append_assoc, List.append_assoc]
    exact .named ha h1 this
  | @angle a t _ ha h =>
    have := plainAngle_post hw h (hn.mono ⟨a, [], by simp⟩)
    rw [List.append_assoc]
    exact .angle ha this
  | bare h =>
    cases h with
    | @plain l lv d dv hl hd =>
      have := bareDomain_post hw hd (hn.mono ⟨l ++ ['@'], [], by simp⟩)
      rw [List.append_assoc, List.cons_append]
      exact .bare (.plain hl this)
    | @port l lv d dv p hl hd h1 h2 =>
      exfalso
      obtain ⟨hn, hc, _⟩ := ht
      obtain ⟨s, hs⟩ := localPart_part (env := nenv) (bareLocal_spec hl) hn.left
      obtain ⟨s', hs'⟩ := domain_part (bareDomain_spec hd)
      refine absurd ?_ hc
      rw [hs.1, skeleton_stays rfl, hs'.1, skeleton_stays rfl]
      simp

theorem plainBox_part {t a} (h : PlainBox t a) (hn : Tame t) : ∃ s, Part t s ∧ s ≠ [] :=
  (boxItem_part (env := nenv) ⟨a, plainBox_clear h, rfl⟩ hn).1

theorem SepBoxes.rest {r as} (h : SepBoxes r as) : Rest r := by
  cases h with
  | nil => exact .nil
  | cons hs => exact .cons (by rcases hs with rfl | rfl <;> rfl)

theorem CommaBoxes.rest {r as} (h : CommaBoxes r as) : Rest r := by
  cases h with
  | nil => exact .nil
  | cons => exact .cons rfl
  | empty => exact .cons rfl

theorem sepBoxes_post {w r as} (hw : OptCfws w) (h : SepBoxes r as) (hne : r ≠ []) (ht : Tame r) (hn : NoBlankLines (r ++ w)) : SepBoxes (r ++ w) as := by
  induction h with
  | nil => exact absurd rfl hne
  | @cons sep t a r as hsep hb hr ih =>
    have ht := ht.tail (by rcases hsep with rfl | rfl <;> rfl)
    rw [List.cons_append, List.append_assoc]
    by_cases hr0 : r = []
    · subst hr0
      cases hr with
      | nil =>
        have := plainBox_post hw hb ht.left (hn.mono ⟨[sep], [], by simp⟩)
        have h2 := SepBoxes.cons hsep this .nil
        simpa using h2
    · obtain ⟨s, hs, _⟩ := plainBox_part hb ht.left
      exact .cons hsep hb (ih hr0 (ht.right hs.1 (SepBoxes.rest hr)) (hn.mono ⟨sep :: t, [], by simp⟩))

theorem commaBoxes_post {w r as} (hw : OptCfws w) (h : CommaBoxes r as) (hne : r ≠ []) (ht : Tame r) (hn : NoBlankLines (r ++ w)) : CommaBoxes (r ++ w) as := by
  induction h with
  | nil => exact absurd rfl hne
  | @cons t a r as hb hr ih =>
    have ht := ht.tail rfl
    rw [List.cons_append, List.append_assoc]
    by_cases hr0 : r = []
    · subst hr0
      generalize e : ([] : List Char) = r at hr
      cases hr with
      | nil =>
        have := plainBox_post hw hb ht.left (hn.mono ⟨[','], [], by simp⟩)
        have h2 := CommaBoxes.cons this .nil
        simpa using h2
      | cons => cases e
      | empty => cases e
    · obtain ⟨s, hs, _⟩ := plainBox_part hb ht.left
      exact .cons hb (ih hr0 (ht.right hs.1 (CommaBoxes.rest hr)) (hn.mono ⟨',' :: t, [], by simp⟩))
  | @empty t r as hb hr ih =>
    have ht := ht.tail rfl
    rw [List.cons_append, List.append_assoc]
    by_cases hr0 : r = []
    · subst hr0
      generalize e : ([] : List Char) = r at hr
      cases hr with
      | nil =>
        have := optCfws_append hb hw (hn.mono ⟨[','], [], by simp⟩)
        have h2 := CommaBoxes.empty this .nil
        simpa using h2
      | cons => cases e
      | empty => cases e
    · exact .empty hb (ih hr0 (ht.right (s := []) (skeleton_cfws hb) (CommaBoxes.rest hr)) (hn.mono ⟨',' :: t, [], by simp⟩))

theorem boxList_post {w t as} (hw : OptCfws w) (h : BoxList t as) (ht : Tame t) (hn : NoBlankLines (t ++ w)) : BoxList (t ++ w) as := by
  cases h with
  | @strict t a r as hb hr =>
    rw [List.append_assoc]
    by_cases hr0 : r = []
    · subst hr0
      have hx := SepBoxes.nil
      have h2 := plainBox_post hw hb ht.left (hn.mono ⟨[], [], by simp⟩)
      have h3 : as = [] := by cases hr; rfl
      subst h3
      have h4 := BoxList.strict h2 .nil
      simpa using h4
    · obtain ⟨s, hs, _⟩ := plainBox_part hb ht.left
      exact .strict hb (sepBoxes_post hw hr hr0 (ht.right hs.1 (SepBoxes.rest hr)) (hn.mono ⟨t, [], by simp⟩))
  | @padded h t a r as hh hb hr =>
    have ht := ht.commas hh
    rw [List.append_assoc, List.append_assoc]
    by_cases hr0 : r = []
    · subst hr0
      have h2 := plainBox_post hw hb ht.left (hn.mono ⟨h, [], by simp⟩)
      have h3 : as = [] := by
        generalize e : ([] : List Char) = r at hr
        cases hr with
        | nil => rfl
        | cons => cases e
        | empty => cases e
      subst h3
      have h4 := BoxList.padded hh h2 .nil
      simpa using h4
    · obtain ⟨s, hs, _⟩ := plainBox_part hb ht.left
      exact .padded hh hb (commaBoxes_post hw hr hr0 (ht.right hs.1 (CommaBoxes.rest hr)) (hn.mono ⟨h ++ t, [], by simp⟩))

theorem boxList_pre {w t as} (hw : OptCfws w) (h : BoxList t as) (hn : NoBlankLines (w ++ t)) : BoxList (w ++ t) as := by
  cases h with
  | @strict t a r as hb hr =>
    rw [← List.append_assoc]
    exact .strict (plainBox_pre hw hb (hn.mono ⟨[], r, by simp⟩)) hr
  | @padded h t a r as hh hb hr =>
    cases hh with
    | nil =>
      have := plainBox_pre hw hb (hn.mono ⟨[], r, by simp⟩)
      have h2 := BoxList.padded .nil this hr
      simpa using h2
    | @cons w' h hw' hh =>
      have := optCfws_append hw hw' (hn.mono ⟨[], ',' :: (h ++ (t ++ r)), by simp⟩)
      have h2 := BoxList.padded (.cons this hh) hb hr
      simpa using h2

end Rfc5322
