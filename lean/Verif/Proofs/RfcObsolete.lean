import Verif.Spec.RfcObsolete
import Verif.Proofs.RfcDerive
import Verif.Proofs.RfcObsDate

/-!
# The obsolete syntax of RFC 5322 and the clear-cut texts
-/

namespace Rfc5322.Rfc.Old

open Name Abnf

/-! ## Pieces -/

theorem acc {e x} (h : Is e x) : Derivable accepted e x := restricted_accepted h

theorem is_fws {x} (h : Is (opt FWS) x) : Spec.OptFws x := d_optFWS.mp (acc h)

theorem is_atom {x} (h : Is (some1 atext) x) : Spec.Atom x := d_atexts.mp (acc h)

theorem is_dotAtom {x} (h : Is «dot-atom-text» x) : Spec.DotAtom x := d_dotAtomText.mp (acc h)

theorem is_qtext {c} (h : Is qtext [c]) : Spec.isQtext c = true := by
  obtain ⟨d, e, h⟩ := (cls_qtext _).mp (acc h)
  injection e with e; subst e; exact h

theorem is_quotable {c} (h : Is (VCHAR / WSP) [c]) : Spec.isQuotable c = true := by
  obtain ⟨d, e, h⟩ := (cls_quotable _).mp (acc h)
  injection e with e; subst e; exact h

theorem is_control {c} (h : Is «obs-qp» ['\\', c]) : Spec.isObsQuoted c = true := by
  rw [Is, d_rule] at h
  obtain ⟨y, z, e, h1, h2⟩ := d_seq.mp h
  rw [d_punct '\\' (by decide)] at h1
  subst h1
  injection e with _ e
  obtain ⟨d, e', h⟩ := (cls_obsqp _).mp (acc h2)
  rw [e'] at e
  injection e with e
  subst e
  exact h

theorem is_literal {x} (h : Is (many (opt FWS ⬝ dtext) ⬝ opt FWS) x) : ∃ t f, Spec.LiteralItems t ∧ Spec.OptFws f ∧ x = t ++ f := by
  obtain ⟨t, f, rfl, h1, h2⟩ := d_seq.mp h
  exact ⟨t, f, literal_iff.mp (d_many.mp (acc h1)), is_fws h2, rfl⟩

theorem is_route {x} (h : Is «obs-route» x) : Spec.Route x := d_route.mp (acc h)

theorem is_atext {c} (h : Is atext [c]) : Spec.isAtext c = true := by
  obtain ⟨d, e, h⟩ := (cls_atext _).mp (acc h)
  injection e with e; subst e; exact h

/-! ## Quoted strings -/

theorem quoted_text {q v} (h : Quoted goStyle q v) : ∃ x f, Spec.QuotedText x (utf8 v) ∧ Spec.OptFws f ∧ q = x ++ f := by
  induction h with
  | @char f u c x v hf hu hc _ ih =>
    obtain ⟨x, g, h1, h2, rfl⟩ := ih
    cases hu
    have := Spec.QuotedText.char (is_fws hf) (is_qtext hc) h1
    rw [← utf8_append, List.append_assoc] at this
    exact ⟨_, g, this, h2, by rw [List.append_assoc]; rfl⟩
  | @pair f u c x v hf hu hc _ ih =>
    obtain ⟨x, g, h1, h2, rfl⟩ := ih
    cases hu
    have := Spec.QuotedText.pair (is_fws hf) (is_quotable hc) h1
    rw [← utf8_append, List.append_assoc] at this
    exact ⟨_, g, this, h2, by rw [List.append_assoc]; rfl⟩
  | @control f u c w x v hf hu hc hw _ ih =>
    obtain ⟨x, g, h1, h2, rfl⟩ := ih
    cases hu
    cases hw
    have := Spec.QuotedText.obsPair (is_fws hf) (is_control hc) h1
    rw [← utf8_append] at this
    exact ⟨_, g, this, h2, by rw [List.append_assoc]; rfl⟩
  | done hf hu => cases hu; exact ⟨[], _, .nil, is_fws hf, rfl⟩

theorem quoted_string {q v} (h : Quoted goStyle q v) : Spec.QuotedString ('"' :: (q ++ ['"'])) (utf8 v) := by
  obtain ⟨x, f, h1, h2, rfl⟩ := quoted_text h
  exact ⟨x, f, h1, h2, by simp⟩

/-! ## Characters -/

theorem restricted_ascii (n : Name) : ascii (restricted n) = true := by cases n <;> decide +kernel

theorem is_ascii {e x} (h : Is e x) : ascii e = true → ∀ c ∈ x, c.toNat < 128 := by
  induction h with
  | range h1 h2 => intro he c hc; simp only [ascii, decide_eq_true_eq] at he; rw [List.mem_singleton] at hc; subst hc; omega
  | @text s x h =>
    intro he c hc
    have : c.toLower ∈ s.map Char.toLower := h ▸ List.mem_map.mpr ⟨c, hc, rfl⟩
    obtain ⟨d, hd, e⟩ := List.mem_map.mp this
    simp only [ascii, List.all_eq_true, decide_eq_true_eq] at he
    exact lower_ascii e.symm (he d hd)
  | rule _ ih => intro _; exact ih (restricted_ascii _)
  | seq _ _ ih1 ih2 =>
    intro he c hc
    simp only [ascii, Bool.and_eq_true] at he
    rcases List.mem_append.mp hc with hc | hc
    · exact ih1 he.1 c hc
    · exact ih2 he.2 c hc
  | left _ ih => intro he; simp only [ascii, Bool.and_eq_true] at he; exact ih he.1
  | right _ ih => intro he; simp only [ascii, Bool.and_eq_true] at he; exact ih he.2
  | rep _ _ _ ih =>
    intro he c hc
    obtain ⟨x, hx, hc⟩ := List.mem_flatten.mp hc
    exact ih x hx he c hc

theorem atext_is {c : Char} (h : Spec.isAtext c = true) (hc : c.toNat < 128) : Is atext [c] := current_restricted (cur_atext h hc)

/-! ## Names -/

/-- A part of a phrase for the package. -/
def Part.piece : Part → Spec.Piece
  | .word v => .word (utf8 v)
  | .period => .punct b!"."

theorem utf8_dot (x : List Char) : utf8 ('.' :: x) = b!"." ++ utf8 x := by rw [utf8_cons]; rfl

/-- What is added to a name that is not empty. -/
def more : Bool → List Part → List Char
  | _, [] => []
  | false, .word v :: r => ' ' :: (v ++ more false r)
  | true, .word v :: r => v ++ more false r
  | _, .period :: r => '.' :: more true r

theorem spell_more (ps : List Part) : spell ps = more true ps ∧ ∀ v, spell (.word v :: ps) = v ++ more false ps := by
  induction ps with
  | nil => simp [spell, more]
  | cons p ps ih =>
    cases p with
    | word w =>
      have h1 : spell (.word w :: ps) = w ++ more false ps := ih.2 w
      refine ⟨by rw [h1]; rfl, fun v => ?_⟩
      rw [spell, h1]; rfl
    | period =>
      have h1 : spell (.period :: ps) = '.' :: more true ps := by rw [spell, ih.1]
      refine ⟨by rw [h1]; rfl, fun v => ?_⟩
      rw [spell]
      · rw [h1]; rfl
      · simp
      · simp

theorem fold_more (ps : List Part) : ∀ (n : Bytes) (b : Bool), n ≠ [] →
    ((ps.map Part.piece).foldl Spec.addPiece (n, b)).1 = n ++ utf8 (more b ps) := by
  induction ps with
  | nil => intro n b _; cases b <;> simp [more, show utf8 [] = [] from rfl]
  | cons p ps ih =>
    intro n b hn
    rw [List.map_cons, List.foldl_cons]
    cases p with
    | word v =>
      cases b with
      | false =>
        have e : Spec.addPiece (n, false) (Part.piece (.word v)) = (n ++ utf8 (' ' :: v), false) := by
          simp [Part.piece, Spec.addPiece, hn, utf8_cons, show encodeRune ' ' = b!" " from rfl]
        rw [e, ih _ _ (by simp [hn]), more, List.append_assoc, ← utf8_append]; rfl
      | true =>
        have e : Spec.addPiece (n, true) (Part.piece (.word v)) = (n ++ utf8 v, false) := by simp [Part.piece, Spec.addPiece]
        rw [e, ih _ _ (by simp [hn]), more, List.append_assoc, ← utf8_append]
    | period =>
      have e : ∀ b, Spec.addPiece (n, b) (Part.piece .period) = (n ++ b!".", true) := by
        intro b; simp [Part.piece, Spec.addPiece]
      rw [e, ih _ _ (by simp [hn]), List.append_assoc, ← utf8_dot]
      cases b <;> rfl

theorem render_parts (ps : List Part) : Spec.renderName (ps.map Part.piece) = utf8 (phraseName ps) := by
  induction ps with
  | nil => rfl
  | cons p ps ih =>
    cases p with
    | word v =>
      by_cases hv : v = []
      · subst hv
        rw [phraseName, List.dropWhile_cons_of_pos (by rfl), ← phraseName, ← ih]
        rfl
      · rw [phraseName, List.dropWhile_cons_of_neg (by simpa using hv), (spell_more ps).2 v]
        rw [Spec.renderName, List.map_cons, List.foldl_cons, show Spec.addPiece ([], false) (Part.piece (.word v)) = (utf8 v, false) from rfl,
          fold_more ps (utf8 v) false (fun h => hv (utf8_eq_nil.mp h)), utf8_append]
    | period =>
      rw [phraseName, List.dropWhile_cons_of_neg (by simp), spell, (spell_more ps).1]
      rw [Spec.renderName, List.map_cons, List.foldl_cons, show Spec.addPiece ([], false) (Part.piece .period) = (b!".", true) from rfl,
        fold_more ps b!"." true (by decide), utf8_dot]

/-! ## Meaning implies derivation -/

section
variable {S : Style}

theorem dq {x} : Is DQUOTE x ↔ x = ['"'] := by
  constructor
  · intro h
    obtain ⟨c, rfl, rfl⟩ := (cls_DQUOTE _).mp (acc h)
    rfl
  · rintro rfl; exact current_restricted (d_dq.mpr rfl)

theorem quoted_derives {q v} (h : Quoted S q v) : Is (many (opt FWS ⬝ qcontent) ⬝ opt FWS) q := by
  have step : ∀ {f c x}, Is (opt FWS) f → Is qcontent c → Is (many (opt FWS ⬝ qcontent) ⬝ opt FWS) x → Is (many (opt FWS ⬝ qcontent) ⬝ opt FWS) (f ++ (c ++ x)) := by
    intro f c x hf hc ih
    obtain ⟨y, z, rfl, h1, h2⟩ := d_seq.mp ih
    have : Is (opt FWS ⬝ qcontent) (f ++ c) := .seq hf hc
    have := Derivable.seq (d_many.mpr (.cons this (d_many.mp h1))) h2
    simpa using this
  induction h with
  | char hf _ hc _ ih => exact step hf (.rule (.left hc)) ih
  | @pair f u c x v hf _ hc _ ih => exact step (c := ['\\', c]) hf (.rule (.right (.rule (.left (.seq (x := ['\\']) pr_ hc))))) ih
  | control hf _ hc _ _ ih => exact step hf (.rule (.right (.rule (.right hc)))) ih
  | done hf _ => exact .seq (x := []) (d_many.mpr .nil) hf

theorem quotedString_derives {a q v b} (ha : Is (opt CFWS) a) (hq : Quoted S q v) (hb : Is (opt CFWS) b) : Is «quoted-string» (a ++ ('"' :: (q ++ '"' :: b))) := by
  obtain ⟨y, z, rfl, h1, h2⟩ := d_seq.mp (quoted_derives hq)
  have hd := dq.mpr rfl
  have := Derivable.seq ha (.seq hd (.seq h1 (.seq h2 (.seq hd hb))))
  have : Is «quoted-string» _ := .rule this
  simpa only [List.append_assoc, List.cons_append, List.nil_append] using this

theorem word_derives {t v} (h : Word S t v) : Is word t := by
  cases h with
  | atom ha ht hb => exact .rule (.left (.rule (.seq ha (.seq ht hb))))
  | quoted ha hq hb => exact .rule (.right (quotedString_derives ha hq hb))

theorem parts_derive {t ps} (h : Parts S t ps) : Many (Derivable restricted (word / text c!"." / CFWS)) t := by
  induction h with
  | nil => exact .nil
  | word h _ _ ih => exact .cons (.left (word_derives h)) ih
  | period _ ih => exact .cons (x := ['.']) (.right (.left pr_)) ih
  | cfws h _ ih => exact .cons (.right (.right h)) ih

theorem phrase_derives {t ps} (h : Phrase S t ps) : Is phrase t := by
  cases h with
  | mk h _ hr => exact .rule (.right (.rule (.seq (word_derives h) (d_many.mpr (parts_derive hr)))))

theorem localPart_derives {t v} (h : LocalPart S t v) : Is «local-part» t := by
  refine .rule (.right (.right (.rule ?_)))
  induction h with
  | @one t v h =>
    have := Derivable.seq (word_derives h) (d_many (g := restricted) (a := text c!"." ⬝ word).mpr .nil)
    rw [List.append_nil] at this
    exact this
  | @more t v r u h _ ih =>
    obtain ⟨y, z, rfl, h1, h2⟩ := d_seq.mp ih
    exact .seq (word_derives h) (d_many.mpr (.cons (x := '.' :: y) (.seq (x := ['.']) pr_ h1) (d_many.mp h2)))

theorem domain_derives {t v} (h : Domain t v) : Is domain t := by
  cases h with
  | dotAtom ha ht hb => exact .rule (.left (.rule (.seq ha (.seq ht hb))))
  | literal ha ht hb =>
    obtain ⟨y, z, rfl, h1, h2⟩ := d_seq.mp ht
    have := Derivable.seq ha (.seq (pr_ (d := '[')) (.seq h1 (.seq h2 (.seq (pr_ (d := ']')) hb))))
    have : Is domain _ := .rule (.right (.left (.rule this)))
    simpa only [List.append_assoc, List.cons_append, List.nil_append] using this

theorem addrSpec_derives {t v} (h : AddrSpec S t v) : Is «addr-spec» t := by
  cases h with
  | mk h1 h2 => exact .rule (.seq (localPart_derives h1) (.seq (pr_ (d := '@')) (domain_derives h2)))

theorem angle_derives {a r t v b} (ha : Is (opt CFWS) a) (hr : Is (opt «obs-route») r) (ht : AddrSpec S t v) (hb : Is (opt CFWS) b) :
    Is «angle-addr» (a ++ '<' :: (r ++ (t ++ '>' :: b))) := by
  rcases d_opt.mp hr with rfl | hr
  · exact .rule (.left (.seq ha (.seq (pr_ (d := '<')) (.seq (addrSpec_derives ht) (.seq (pr_ (d := '>')) hb)))))
  · exact .rule (.right (.rule (.seq ha (.seq (pr_ (d := '<')) (.seq hr (.seq (addrSpec_derives ht) (.seq (pr_ (d := '>')) hb)))))))

theorem mailbox_derives {t v} (h : Mailbox S t v) : Is mailbox t := by
  cases h with
  | named hn ha hr ht hb => exact .rule (.left (.rule (.seq (d_opt.mpr (.inr (.rule (phrase_derives hn)))) (angle_derives ha hr ht hb))))
  | angle ha hr ht hb => exact .rule (.left (.rule (.seq (x := []) (d_opt.mpr (.inl rfl)) (angle_derives ha hr ht hb))))
  | bare h => exact .rule (.right (addrSpec_derives h))

end

/-! ## Phrases for the package -/

theorem word_ne_nil {S t v} (h : Word S t v) : t ≠ [] := by
  cases h with
  | atom _ ht _ => have := (is_atom ht).1; simp [this]
  | quoted => simp

theorem cfws_head {b : List Char} (hb : Spec.OptCfws b) {c} (hc : c ∈ b.head?) : Spec.isAtext c = false := by
  cases b with
  | nil => simp at hc
  | cons d b =>
    have := cfws_heads hb (by simp) []
    cases hc
    simpa [Heads] using this

theorem apart {t r w m : List Char} (h1 : ∀ c ∈ t.getLast?, c.toNat < 128) (h2 : ∀ c ∈ r.head?, c.toNat < 128) (hs : ¬ Touch t r) (hw : Spec.OptCfws w) (e : r ++ w = m) :
    ∀ c ∈ t.getLast?, Spec.isAtext c = true → ∀ d ∈ m.head?, Spec.isAtext d = false := by
  intro c hc hat d hd
  subst e
  rcases head_append hd with hd | ⟨_, hd⟩
  · cases hd' : Spec.isAtext d with
    | false => rfl
    | true => exact absurd ⟨c, hc, d, hd, atext_is hat (h1 c hc), atext_is hd' (h2 d hd)⟩ hs
  · exact cfws_head hw hd

theorem word_ascii {S : Style} {t v} (h : Word S t v) : ∀ c ∈ t.getLast?, c.toNat < 128 := fun c hc => is_ascii (word_derives h) rfl c (List.mem_of_getLast? hc)

theorem not_touch {S : Style} {t v r w m : List Char} {ps} (h : Word S t v) (hs : ¬ Touch t r) (hr : Parts S r ps) (hw : Spec.OptCfws w) (e : r ++ w = m) :
    ∀ c ∈ t.getLast?, Spec.isAtext c = true → ∀ d ∈ m.head?, Spec.isAtext d = false :=
  apart (word_ascii h) (fun c hc => is_ascii (d_many.mpr (parts_derive hr)) rfl c (List.mem_of_mem_head? hc)) hs hw e

theorem noMark_head {v x : List Char} (hv : Spec.NoMark v) (hne : v ≠ []) (h : ∀ c ∈ v.getLast?, c = '=' → x.head? ≠ some '?') : ¬ c!"=?" <+: v ++ x := by
  rintro ⟨y, e⟩
  match v, hne with
  | [c], _ =>
    have e' : '=' :: '?' :: y = c :: x := e
    injection e' with e1 e2
    exact h c (by simp) e1.symm (by rw [← e2]; rfl)
  | c :: d :: v, _ =>
    have e' : '=' :: '?' :: y = c :: d :: (v ++ x) := e
    injection e' with e1 e2
    injection e2 with e2 _
    exact hv ⟨[], v, by rw [← e1, ← e2]; rfl⟩

/-- One word, followed by what is already known. -/
theorem word_step (env : Env) {t v r m ps} (h : Word goStyle t v) (hn : Spec.NoMark t) (hb : Spec.NoBlankLines (t ++ (r ++ m))) (hr : Spec.OptCfws r) (hm : Spec.NamePieces env m ps)
    (hs : ∀ c ∈ t.getLast?, Spec.isAtext c = true → ∀ d ∈ (r ++ m).head?, Spec.isAtext d = false) :
    ∃ a m', t ++ (r ++ m) = a ++ m' ∧ Spec.OptCfws a ∧ Spec.NamePieces env m' (.word (utf8 v) :: ps) ∧ ¬ c!"=?" <+: m' := by
  cases h with
  | @atom a _ b ha ht hb' =>
    have hv : Spec.NoMark v := hn.mono ⟨a, b, by simp⟩
    have sep : ∀ c ∈ v.getLast?, ∀ d ∈ ((b ++ r) ++ m).head?, Spec.isAtext d = false := by
      intro c hc d hd
      by_cases he : b = []
      · subst he
        have hv' : v ≠ [] := (is_atom ht).1
        refine hs c ?_ ((is_atom ht).2 c (List.mem_of_getLast? hc)) d (by simpa using hd)
        rw [List.append_nil, List.getLast?_append, Option.mem_def.mp hc]; rfl
      · obtain ⟨e, b, rfl⟩ := List.exists_cons_of_ne_nil he
        cases hd
        exact cfws_head (r_cfws hb') (by simp)
    refine ⟨a, v ++ ((b ++ r) ++ m), by simp, r_cfws ha, .atom (is_atom ht) hv
      (optCfws_append (r_cfws hb') hr (hb.mono ⟨a ++ v, m, by simp⟩)) ?_ hm, noMark_head hv (is_atom ht).1 ?_⟩
    · intro he d hd
      obtain ⟨x, c, hx⟩ := List.eq_nil_or_concat v |>.resolve_left (is_atom ht).1
      exact sep c (by simp [hx]) d (by simpa [he] using hd)
    · intro c hc _ h
      exact absurd (sep c hc '?' h) (by decide)
  | @quoted a q v b ha hq hb' =>
    exact ⟨a, ('"' :: (q ++ ['"'])) ++ ((b ++ r) ++ m), by simp, r_cfws ha, .quoted (quoted_string hq)
      (optCfws_append (r_cfws hb') hr (hb.mono ⟨a ++ '"' :: (q ++ ['"']), m, by simp⟩)) hm, by rintro ⟨y, e⟩; cases e⟩

theorem parts_pieces (env : Env) {n ps} (h : Parts goStyle n ps) {w} (hw : Spec.OptCfws w) (hc : Calm (n ++ w)) :
    ∃ a m, n ++ w = a ++ m ∧ Spec.OptCfws a ∧ Spec.NamePieces env m (ps.map Part.piece) := by
  induction h with
  | nil => exact ⟨w, [], by simp, hw, .nil⟩
  | @word t v r ps h hs hr ih =>
    rw [List.append_assoc] at hc
    obtain ⟨a, m, h1, h2, h3⟩ := ih (hc.mono ⟨t, [], by simp⟩)
    rw [h1] at hc
    obtain ⟨a', m', h4, h5, h6, _⟩ := word_step env h (hc.1.mono ⟨[], a ++ m, by simp⟩) hc.2 h2 h3 (not_touch h hs hr hw h1)
    exact ⟨a', m', by rw [List.append_assoc, h1, h4], h5, h6⟩
  | @period r ps _ ih =>
    obtain ⟨a, m, h1, h2, h3⟩ := ih (hc.mono ⟨['.'], [], by simp⟩)
    exact ⟨[], '.' :: (a ++ m), by simp [h1], OptCfws.nil, .dot h2 h3⟩
  | @cfws t r ps h _ ih =>
    rw [List.append_assoc] at hc ⊢
    obtain ⟨a, m, h1, h2, h3⟩ := ih (hc.mono ⟨t, [], by simp⟩)
    rw [h1] at hc ⊢
    exact ⟨t ++ a, m, by simp, optCfws_append (r_cfws (d_opt.mpr (.inr h))) h2 (hc.2.mono ⟨[], m, by simp⟩), h3⟩

/-- A phrase with white space behind it. -/
theorem phrase_pieces (env : Env) {n ps} (h : Phrase goStyle n ps) {w} (hw : Spec.OptCfws w) (hc : Calm (n ++ w)) :
    ∃ a m, n ++ w = a ++ m ∧ Spec.OptCfws a ∧ Spec.NamePieces env m (ps.map Part.piece) := by
  cases h with
  | mk h hs hr => exact parts_pieces env (.word h hs hr) hw hc

theorem phrase_values {n ps} (h : Phrase goStyle n ps) : ∃ v qs, ps = .word v :: qs := by cases h; exact ⟨_, _, rfl⟩

/-! ## Addresses -/

theorem bare_word {t v} (h : Word goStyle t v) (hm : Spec.NoMark t) : Spec.BareWord t (utf8 v) := by
  cases h with
  | @atom a _ b ha ht hb => exact .atom (r_cfws ha) (is_atom ht) (hm.mono ⟨a, b, by simp⟩) (r_cfws hb)
  | @quoted a q v b ha hq hb =>
    have := Spec.BareWord.quoted (r_cfws ha) (quoted_string hq) (r_cfws hb)
    simpa using this

theorem bare_words {t v} (h : LocalPart goStyle t v) (hm : Spec.NoMark t) : Spec.BareWords t (utf8 v) := by
  induction h with
  | one h => exact .one (bare_word h hm)
  | @more t v r u h _ ih =>
    rw [utf8_append, utf8_dot]
    exact .cons (bare_word h (hm.mono ⟨[], _, by simp; rfl⟩)) (ih (hm.mono ⟨t ++ ['.'], [], by simp⟩))

theorem clear_domain {t v} (h : Domain t v) : Spec.Domain t (utf8 v) := by
  cases h with
  | dotAtom ha ht hb => exact .dotAtom (r_cfws ha) (is_dotAtom ht) (r_cfws hb)
  | @literal a t b ha ht hb =>
    obtain ⟨x, f, h1, h2, rfl⟩ := is_literal ht
    have := Spec.Domain.literal (r_cfws ha) ⟨x, f, h1, h2, rfl⟩ (r_cfws hb)
    simpa using this

theorem bare_domain {t v} (h : Domain t v) (hm : Spec.NoMark t) : Spec.BareDomain t (utf8 v) := by
  cases h with
  | @dotAtom a _ b ha ht hb => exact .dotAtom (r_cfws ha) (is_dotAtom ht) (hm.mono ⟨a, b, by simp⟩) (r_cfws hb)
  | @literal a t b ha ht hb =>
    obtain ⟨x, f, h1, h2, rfl⟩ := is_literal ht
    have := Spec.BareDomain.literal (r_cfws ha) ⟨x, f, h1, h2, rfl⟩ (r_cfws hb)
    simpa using this

theorem bare_addr {t v} (h : AddrSpec goStyle t v) (hm : Spec.NoMark t) : Spec.BareAddr t (utf8 v) := by
  cases h with
  | mk h1 h2 =>
    rw [at_utf8]
    exact .plain (.words (bare_words h1 (hm.mono ⟨[], _, by simp; rfl⟩))) (bare_domain h2 (hm.mono ⟨_ ++ ['@'], [], by simp; rfl⟩))

theorem clear_addr (env : Env) {t v} (h : AddrSpec goStyle t v) (hm : Spec.NoMark t) : Spec.ClearAddr env t (utf8 v) := bareAddr_clear (bare_addr h hm)

theorem clear_angle (env : Env) {r t v b} (hr : Is (opt «obs-route») r) (ht : AddrSpec goStyle t v) (hm : Spec.NoMark t) (hb : Is (opt CFWS) b) :
    Spec.ClearAngle env ('<' :: (r ++ (t ++ '>' :: b))) (utf8 v) := by
  rcases d_opt.mp hr with rfl | hr
  · exact .addr (clear_addr env ht hm) (r_cfws hb)
  · exact .routed (is_route hr) (clear_addr env ht hm) (r_cfws hb)

theorem clear_box (env : Env) {t v} (h : Mailbox goStyle t v) (hc : Calm t) : Spec.ClearBox env t v.out := by
  cases h with
  | @named n ps a r t v b hn ha hr ht hb =>
    obtain ⟨a', m, h1, h2, h3⟩ := phrase_pieces env hn (r_cfws ha) (hc.mono ⟨[], '<' :: (r ++ (t ++ '>' :: b)), by simp⟩)
    have e := render_parts ps
    obtain ⟨w, qs, rfl⟩ := phrase_values hn
    have := Spec.ClearBox.pieces h2 h3 (clear_angle env hr ht (hc.1.mono ⟨n ++ (a ++ '<' :: r), '>' :: b, by simp⟩) hb)
    rw [← List.append_assoc, ← h1, List.append_assoc] at this
    rw [Box.out, ← e]
    exact this
  | @angle a r t v b ha hr ht hb => exact .angle (r_cfws ha) (clear_angle env hr ht (hc.1.mono ⟨a ++ '<' :: r, '>' :: b, by simp⟩) hb)
  | bare h => exact .bare (bare_addr h hc.1)

theorem group_name (env : Env) {n ps} (h : Phrase goStyle n ps) (hc : Calm n) : ∃ a n', n = a ++ n' ∧ Spec.OptCfws a ∧ Spec.GroupName env n' := by
  obtain ⟨a, n', h1, h2, h3⟩ := phrase_pieces env h OptCfws.nil (by simpa using hc)
  rw [List.append_nil] at h1
  obtain ⟨w, qs, rfl⟩ := phrase_values h
  refine ⟨a, n', h1, h2, _, _, h3, ?_⟩
  intro h
  obtain ⟨p, _, e⟩ := List.mem_map.mp h
  cases p <;> simp [Part.piece] at e

end Rfc5322.Rfc.Old
