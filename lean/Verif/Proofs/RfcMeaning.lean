import Verif.Spec.RfcMeaning
import Verif.Proofs.Rfc5322
import Verif.Proofs.Exact
import Verif.Proofs.ClearApi
import Verif.Proofs.Groups

/-!
# The meaning of RFC 5322 and the clear-cut texts
-/

namespace Rfc5322.Rfc

open Name Abnf

/-! ## Pieces -/

theorem cur_acc {e x} (h : Derivable current e x) : Derivable accepted e x := restricted_accepted (current_restricted h)

theorem cur_cfws {x} (h : Derivable current (opt CFWS) x) : Spec.OptCfws x := d_optCFWS.mp (cur_acc h)

theorem cur_fws {x} (h : Derivable current (opt FWS) x) : Spec.OptFws x := d_optFWS.mp (cur_acc h)

theorem cur_atom {x} (h : Derivable current (some1 atext) x) : Spec.Atom x := d_atexts.mp (cur_acc h)

theorem cur_dotAtom {x} (h : Derivable current «dot-atom-text» x) : Spec.DotAtom x := d_dotAtomText.mp (cur_acc h)

theorem cur_qtext {c} (h : Derivable current qtext [c]) : Spec.isQtext c = true := by
  obtain ⟨d, e, h⟩ := (cls_qtext _).mp (cur_acc h)
  injection e with e; subst e; exact h

theorem cur_pair {c} (h : Derivable current «quoted-pair» ['\\', c]) : Spec.isQuotable c = true := by
  rw [d_rule] at h
  rcases d_alt.mp h with h | h
  · obtain ⟨y, z, e, h1, h2⟩ := d_seq.mp h
    rw [d_punct '\\' (by decide)] at h1
    subst h1
    injection e with _ e
    obtain ⟨d, e', h⟩ := (cls_quotable _).mp (cur_acc h2)
    rw [e'] at e
    injection e with e
    subst e
    exact h
  · rw [d_rule] at h
    exact absurd h d_nothing

theorem cur_literal {x} (h : Derivable current (many (opt FWS ⬝ dtext) ⬝ opt FWS) x) : ∃ t f, Spec.LiteralItems t ∧ Spec.OptFws f ∧ x = t ++ f := by
  obtain ⟨t, f, rfl, h1, h2⟩ := d_seq.mp h
  refine ⟨t, f, ?_, cur_fws h2, rfl⟩
  exact literal_iff.mp (d_many.mp (cur_acc h1))

/-! ## Quoted strings -/

theorem quoted_text {q v} (h : Quoted goBlanks q v) : ∃ x f, Spec.QuotedText x (utf8 v) ∧ Spec.OptFws f ∧ q = x ++ f := by
  induction h with
  | @char f u c x v hf hu hc _ ih =>
    obtain ⟨x, g, h1, h2, rfl⟩ := ih
    cases hu
    have := Spec.QuotedText.char (cur_fws hf) (cur_qtext hc) h1
    rw [← utf8_append, List.append_assoc] at this
    exact ⟨_, g, this, h2, by rw [List.append_assoc]; rfl⟩
  | @pair f u c x v hf hu hc _ ih =>
    obtain ⟨x, g, h1, h2, rfl⟩ := ih
    cases hu
    have := Spec.QuotedText.pair (cur_fws hf) (cur_pair hc) h1
    rw [← utf8_append, List.append_assoc] at this
    exact ⟨_, g, this, h2, by rw [List.append_assoc]; rfl⟩
  | done hf hu => cases hu; exact ⟨[], _, .nil, cur_fws hf, rfl⟩

theorem quoted_string {q v} (h : Quoted goBlanks q v) : Spec.QuotedString ('"' :: (q ++ ['"'])) (utf8 v) := by
  obtain ⟨x, f, h1, h2, rfl⟩ := quoted_text h
  exact ⟨x, f, h1, h2, by simp⟩

/-! ## Characters -/

/-- Only ASCII. -/
def ascii : Abnf → Bool
  | .range _ hi => decide (hi < 128)
  | .text s => s.all fun c => decide (c.toNat < 128)
  | .rule _ => true
  | .seq a b | .alt a b => ascii a && ascii b
  | .rep _ _ a => ascii a

theorem current_ascii (n : Name) : ascii (current n) = true := by cases n <;> decide +kernel

theorem lower_ascii {c d : Char} (h : c.toLower = d.toLower) (hd : d.toNat < 128) : c.toNat < 128 := by
  have h1 : ∀ n < 128, (Char.ofNat n).toLower.toNat < 128 := by decide
  have h2 : d.toLower.toNat < 128 := by have := h1 d.toNat hd; rwa [Char.ofNat_toNat] at this
  rw [← h] at h2
  simp only [Char.toLower] at h2
  split at h2
  · rename_i hc
    have := hc.2
    simp only [UInt32.le_iff_toNat_le] at this
    exact Nat.lt_of_le_of_lt this (by decide)
  · exact h2

theorem cur_ascii {e x} (h : Derivable current e x) : ascii e = true → ∀ c ∈ x, c.toNat < 128 := by
  induction h with
  | range h1 h2 => intro he c hc; simp only [ascii, decide_eq_true_eq] at he; rw [List.mem_singleton] at hc; subst hc; omega
  | @text s x h =>
    intro he c hc
    have : c.toLower ∈ s.map Char.toLower := h ▸ List.mem_map.mpr ⟨c, hc, rfl⟩
    obtain ⟨d, hd, e⟩ := List.mem_map.mp this
    simp only [ascii, List.all_eq_true, decide_eq_true_eq] at he
    exact lower_ascii e.symm (he d hd)
  | rule _ ih => intro _; exact ih (current_ascii _)
  | seq _ _ ih1 ih2 =>
    intro he c hc
    simp only [ascii, Bool.and_eq_true] at he
    rcases List.mem_append.mp hc with hc | hc
    · exact ih1 he.1 c hc
    · exact ih2 he.2 c hc
  | left _ ih => intro he; simp only [ascii, Bool.and_eq_true] at he; exact ih he.1
  | right _ ih => intro he; simp only [ascii, Bool.and_eq_true] at he; exact ih he.2
  | rep _ _ _ ih =>
    intro he c hc
    obtain ⟨x, hx, hc⟩ := List.mem_flatten.mp hc
    exact ih x hx he c hc

theorem cur_atext {c : Char} (h : Spec.isAtext c = true) (hc : c.toNat < 128) : Derivable current atext [c] := by
  have : ∀ n < 128, Spec.isAtext (Char.ofNat n) = true → check current atext [Char.ofNat n] = true := by decide +kernel
  have := this c.toNat hc
  rw [Char.ofNat_toNat] at this
  exact derivable_of_check (this h)

/-! ## Names -/

theorem render_words (vs : List (List Char)) : Spec.renderName (vs.map fun v => .word (utf8 v)) = utf8 (phraseName vs) := by
  have key : ∀ (vs : List (List Char)) (n : Bytes), n ≠ [] →
      ((vs.map fun v => Spec.Piece.word (utf8 v)).foldl Spec.addPiece (n, false)).1 = n ++ vs.flatMap fun v => utf8 (' ' :: v) := by
    intro vs
    induction vs with
    | nil => intro n _; simp
    | cons v vs ih =>
      intro n hn
      rw [List.map_cons, List.foldl_cons]
      have e : Spec.addPiece (n, false) (.word (utf8 v)) = (n ++ utf8 (' ' :: v), false) := by
        simp [Spec.addPiece, hn, utf8_cons, show encodeRune ' ' = b!" " from rfl]
      rw [e, ih _ (by simp [hn]), List.flatMap_cons, List.append_assoc]
  induction vs with
  | nil => rfl
  | cons v vs ih =>
    by_cases hv : v = []
    · subst hv
      rw [phraseName, List.dropWhile_cons_of_pos (by rfl), ← phraseName, ← ih]
      rfl
    · rw [phraseName, List.dropWhile_cons_of_neg (by simpa using hv)]
      rw [Spec.renderName, List.map_cons, List.foldl_cons, show Spec.addPiece ([], false) (.word (utf8 v)) = (utf8 v, false) from rfl,
        key vs (utf8 v) (fun h => hv (utf8_eq_nil.mp h))]
      clear ih hv
      induction vs generalizing v with
      | nil => simp [List.intercalate]
      | cons w vs ih =>
        rw [List.flatMap_cons]
        have e : [' '].intercalate (v :: w :: vs) = v ++ (' ' :: [' '].intercalate (w :: vs)) := by
          simp [List.intercalate, List.intersperse]
        rw [e, utf8_append, utf8_cons, utf8_cons, ← ih w]
        simp

/-- What the lemmas below need of the whole text. -/
def Calm (x : List Char) : Prop := Spec.NoMark x ∧ Spec.NoBlankLines x

theorem Calm.mono {x y} (h : Calm x) (hy : y <:+: x) : Calm y := ⟨h.1.mono hy, h.2.mono hy⟩

theorem head_append {a b : List Char} {c} (h : c ∈ (a ++ b).head?) : c ∈ a.head? ∨ a = [] ∧ c ∈ b.head? := by
  cases a with
  | nil => exact .inr ⟨rfl, h⟩
  | cons d a => exact .inl h

theorem last_append {a b : List Char} {c} (h : c ∈ (a ++ b).getLast?) : c ∈ b.getLast? ∨ b = [] ∧ c ∈ a.getLast? := by
  rcases List.eq_nil_or_concat b with rfl | ⟨b, d, rfl⟩
  · exact .inr ⟨rfl, by simpa using h⟩
  · left; simpa using h

theorem word_ne_nil {B t v} (h : Word B t v) : t ≠ [] := by
  cases h with
  | atom _ ht _ => have := (cur_atom ht).1; simp [this]
  | quoted => simp

theorem word_head {B t v} (h : Word B t v) : ∀ c ∈ t.head?, c.toNat < 128 := by
  intro c hc
  cases h with
  | atom ha ht hb =>
    rcases head_append hc with h | ⟨_, h⟩
    · exact cur_ascii ha rfl c (List.mem_of_mem_head? h)
    · rcases head_append h with h | ⟨_, h⟩
      · exact cur_ascii ht rfl c (List.mem_of_mem_head? h)
      · exact cur_ascii hb rfl c (List.mem_of_mem_head? h)
  | quoted ha hq hb =>
    rcases head_append hc with h | ⟨_, h⟩
    · exact cur_ascii ha rfl c (List.mem_of_mem_head? h)
    · cases h; decide

theorem word_last {B t v} (h : Word B t v) : ∀ c ∈ t.getLast?, c.toNat < 128 := by
  intro c hc
  cases h with
  | atom ha ht hb =>
    rcases last_append hc with h | ⟨_, h⟩
    · rcases last_append h with h | ⟨_, h⟩
      · exact cur_ascii hb rfl c (List.mem_of_getLast? h)
      · exact cur_ascii ht rfl c (List.mem_of_getLast? h)
    · exact cur_ascii ha rfl c (List.mem_of_getLast? h)
  | @quoted a q v b ha hq hb =>
    rw [show a ++ '"' :: (q ++ '"' :: b) = (a ++ '"' :: (q ++ ['"'])) ++ b by simp] at hc
    rcases last_append hc with h | ⟨_, h⟩
    · exact cur_ascii hb rfl c (List.mem_of_getLast? h)
    · rw [show a ++ '"' :: (q ++ ['"']) = (a ++ '"' :: q) ++ ['"'] by simp, List.getLast?_append] at h
      cases h; decide

theorem phrase_head {B t vs} (h : Phrase B t vs) : ∀ c ∈ t.head?, c.toNat < 128 := by
  cases h with
  | one h => exact word_head h
  | cons h =>
    intro c hc
    rcases head_append hc with hc | ⟨e, _⟩
    · exact word_head h c hc
    · exact absurd e (word_ne_nil h)

theorem phrase_ne_nil {B t vs} (h : Phrase B t vs) : t ≠ [] := by
  cases h with
  | one h => exact word_ne_nil h
  | cons h => have := word_ne_nil h; simp [this]

/-- A phrase with white space behind it. -/
theorem phrase_pieces (env : Env) {n vs} (h : Phrase goBlanks n vs) {w} (hw : Spec.OptCfws w) (hc : Calm (n ++ w)) :
    ∃ a m, n ++ w = a ++ m ∧ Spec.OptCfws a ∧ Spec.NamePieces env m (vs.map fun v => .word (utf8 v)) := by
  -- one word, followed by what is already known
  have step : ∀ {t v r m vs}, Word goBlanks t v → Calm (t ++ (r ++ m)) → Spec.OptCfws r → Spec.NamePieces env m (vs.map fun v => .word (utf8 v)) →
      (∀ c ∈ t.getLast?, Spec.isAtext c = true → r = [] → ∀ d ∈ m.head?, Spec.isAtext d = false) →
      ∃ a m', t ++ (r ++ m) = a ++ m' ∧ Spec.OptCfws a ∧ Spec.NamePieces env m' ((v :: vs).map fun v => .word (utf8 v)) := by
    intro t v r m vs h hc hr hm hs
    cases h with
    | @atom a _ b ha ht hb =>
      refine ⟨a, v ++ ((b ++ r) ++ m), by simp, cur_cfws ha, .atom (cur_atom ht) (hc.1.mono ⟨a, b ++ (r ++ m), by simp⟩)
        (optCfws_append (cur_cfws hb) hr (hc.2.mono ⟨a ++ v, m, by simp⟩)) ?_ hm⟩
      intro he
      obtain ⟨rfl, rfl⟩ := List.append_eq_nil_iff.mp he
      have hne := (cur_atom ht).1
      obtain ⟨x, c, rfl⟩ := List.eq_nil_or_concat v |>.resolve_left hne
      exact hs c (by simp) ((cur_atom ht).2 c (by simp)) rfl
    | @quoted a q v b ha hq hb =>
      refine ⟨a, ('"' :: (q ++ ['"'])) ++ ((b ++ r) ++ m), by simp, cur_cfws ha, .quoted (quoted_string hq)
        (optCfws_append (cur_cfws hb) hr (hc.2.mono ⟨a ++ '"' :: (q ++ ['"']), m, by simp⟩)) hm⟩
  induction h with
  | @one t v h =>
    obtain ⟨a, m, h1, h2, h3⟩ := step (r := w) (m := []) (vs := []) h (by simpa using hc) hw .nil (by simp)
    exact ⟨a, m, by simpa using h1, h2, h3⟩
  | @cons t v r vs h hs hr ih =>
    rw [List.append_assoc] at hc
    obtain ⟨a, m, h1, h2, h3⟩ := ih (hc.mono ⟨t, [], by simp⟩)
    rw [h1] at hc
    obtain ⟨a', m', h4, h5, h6⟩ := step h hc h2 h3 (by
      intro c hc' hat he d hd
      subst he
      cases hd' : Spec.isAtext d with
      | false => rfl
      | true =>
        rw [List.nil_append] at h1
        have hd2 : d ∈ r.head? := by
          rw [← h1] at hd
          rcases head_append hd with h | ⟨e, _⟩
          · exact h
          · exact absurd e (phrase_ne_nil hr)
        exact absurd ⟨c, hc', d, hd2, cur_atext hat (word_last h c hc'), cur_atext hd' (phrase_head hr d hd2)⟩ hs)
    exact ⟨a', m', by rw [List.append_assoc, h1, h4], h5, h6⟩

/-! ## Addresses -/

theorem clear_local (env : Env) {t v} (h : LocalPart goBlanks t v) : Spec.ClearLocal env t (utf8 v) := by
  cases h with
  | dotAtom ha ht hb => exact .dotAtom (cur_cfws ha) (cur_dotAtom ht) (cur_cfws hb)
  | @quoted a q v b ha hq hb =>
    have := Spec.ClearLocal.quoted (env := env) (cur_cfws ha) (quoted_string hq) (cur_cfws hb)
    simpa using this

theorem bare_local {t v} (h : LocalPart goBlanks t v) (hm : Spec.NoMark t) : Spec.BareLocal t (utf8 v) := by
  cases h with
  | @dotAtom a _ b ha ht hb => exact .dotAtom (cur_cfws ha) (cur_dotAtom ht) (hm.mono ⟨a, b, by simp⟩) (cur_cfws hb)
  | @quoted a q v b ha hq hb =>
    have := Spec.BareLocal.quoted (cur_cfws ha) (quoted_string hq) (cur_cfws hb)
    simpa using this

theorem clear_domain {t v} (h : Domain t v) : Spec.Domain t (utf8 v) := by
  cases h with
  | dotAtom ha ht hb => exact .dotAtom (cur_cfws ha) (cur_dotAtom ht) (cur_cfws hb)
  | @literal a t b ha ht hb =>
    obtain ⟨x, f, h1, h2, rfl⟩ := cur_literal ht
    have := Spec.Domain.literal (cur_cfws ha) ⟨x, f, h1, h2, rfl⟩ (cur_cfws hb)
    simpa using this

theorem bare_domain {t v} (h : Domain t v) (hm : Spec.NoMark t) : Spec.BareDomain t (utf8 v) := by
  cases h with
  | @dotAtom a _ b ha ht hb => exact .dotAtom (cur_cfws ha) (cur_dotAtom ht) (hm.mono ⟨a, b, by simp⟩) (cur_cfws hb)
  | @literal a t b ha ht hb =>
    obtain ⟨x, f, h1, h2, rfl⟩ := cur_literal ht
    have := Spec.BareDomain.literal (cur_cfws ha) ⟨x, f, h1, h2, rfl⟩ (cur_cfws hb)
    simpa using this

theorem at_utf8 (u v : List Char) : utf8 (u ++ '@' :: v) = utf8 u ++ (b!"@" ++ utf8 v) := by
  rw [utf8_append, utf8_cons]; rfl

theorem clear_addr (env : Env) {t v} (h : AddrSpec goBlanks t v) : Spec.ClearAddr env t (utf8 v) := by
  cases h with
  | mk h1 h2 => rw [at_utf8]; exact .plain (clear_local env h1) (clear_domain h2)

theorem bare_addr {t v} (h : AddrSpec goBlanks t v) (hm : Spec.NoMark t) : Spec.BareAddr t (utf8 v) := by
  cases h with
  | mk h1 h2 =>
    rw [at_utf8]
    exact .plain (bare_local h1 (hm.mono ⟨[], _, by simp; rfl⟩)) (bare_domain h2 (hm.mono ⟨_ ++ ['@'], [], by simp; rfl⟩))

/-- A mailbox as the package returns it: bytes. -/
def Box.out (b : Box) : Addr := ⟨utf8 b.name, utf8 b.addr⟩

theorem phrase_values {B n vs} (h : Phrase B n vs) : vs ≠ [] := by cases h <;> simp

theorem clear_box (env : Env) {t v} (h : Mailbox goBlanks t v) (hc : Calm t) : Spec.ClearBox env t v.out := by
  cases h with
  | @named n vs a t v b hn ha ht hb =>
    obtain ⟨a', m, h1, h2, h3⟩ := phrase_pieces env hn (cur_cfws ha) (hc.mono ⟨[], '<' :: (t ++ '>' :: b), by simp⟩)
    obtain ⟨w, ws, rfl⟩ := List.exists_cons_of_ne_nil (phrase_values hn)
    have := Spec.ClearBox.pieces h2 h3 (.addr (clear_addr env ht) (cur_cfws hb))
    rw [← List.append_assoc, ← h1, List.append_assoc] at this
    rw [Box.out, ← render_words]
    exact this
  | angle ha ht hb => exact .angle (cur_cfws ha) (.addr (clear_addr env ht) (cur_cfws hb))
  | bare h => exact .bare (bare_addr h hc.1)

theorem clear_boxes (env : Env) {t vs} (h : Mailboxes goBlanks t vs) : Calm t → Spec.ClearBoxes env t (vs.map Box.out) := by
  induction h with
  | one h => exact fun hc => .one (clear_box env h hc)
  | @cons t v r vs h _ ih =>
    exact fun hc => .cons (clear_box env h (hc.mono ⟨[], ',' :: r, by simp⟩)) (ih (hc.mono ⟨t ++ [','], [], by simp⟩))

theorem clear_members (env : Env) {t vs} (h : Members goBlanks t vs) (hc : Calm t) : Spec.Members env t (vs.map Box.out) := by
  cases h with
  | boxes h => exact .boxes (clear_boxes env h hc)
  | none h => exact .none (cur_cfws h)

theorem group_text (env : Env) {n ws m vs} (hn : Phrase goBlanks n ws) (hm : Members goBlanks m vs) (hc : Calm (n ++ ':' :: m)) :
    Spec.GroupText env (n ++ ':' :: m) (vs.map Box.out) := by
  obtain ⟨a, n', h1, h2, h3⟩ := phrase_pieces env hn OptCfws.nil (by simpa using hc.mono ⟨[], ':' :: m, by simp⟩)
  obtain ⟨w, ws, rfl⟩ := List.exists_cons_of_ne_nil (phrase_values hn)
  rw [List.append_nil] at h1
  rw [h1, List.append_assoc]
  refine .mk h2 ⟨_, _, h3, ?_⟩ (.plain (clear_members env hm (hc.mono ⟨n ++ [':'], [], by simp⟩)))
  intro h
  obtain ⟨_, _, e⟩ := List.mem_map.mp h
  cases e

theorem intercalate_cons {a b : List Char} {l : List (List Char)} : [','].intercalate (a :: b :: l) = a ++ ',' :: [','].intercalate (b :: l) := by
  simp [List.intercalate, List.intersperse]

theorem groups_list (env : Env) {l : List (List Char × List Box)} (hl : l ≠ []) (h : ∀ i ∈ l, Address goBlanks i.1 i.2)
    (hc : Calm ([','].intercalate (l.map (·.1)))) (hf : FirmGroups goBlanks l) :
    Spec.GroupsList env ([','].intercalate (l.map (·.1))) ((l.flatMap (·.2)).map Box.out) := by
  induction l with
  | nil => exact absurd rfl hl
  | cons i l ih =>
    have hf0 := hf [] i l rfl
    have hi := h i (by simp)
    obtain ⟨t, vs⟩ := i
    have hi' : (∃ v, Mailbox goBlanks t v ∧ vs = [v]) ∨ Spec.FirmQuote ([','].intercalate (((t, vs) :: l).map (·.1))) ∧
        ∃ n ws m b, Phrase goBlanks n ws ∧ Members goBlanks m vs ∧ Derivable current (opt CFWS) b ∧ t = n ++ ':' :: (m ++ ';' :: b) := by
      have hf1 : (∃ v, Mailbox goBlanks t v ∧ vs = [v]) ∨ Spec.FirmQuote ([','].intercalate (((t, vs) :: l).map (·.1))) := by
        refine hf0.imp_right fun hf0 x hx => ⟨hf0 x hx, tameWords_of_noMark (hc.1.mono ?_)⟩
        rw [hx]
        exact ⟨['"'], [], by simp⟩
      rcases hf1 with h | h
      · exact .inl h
      · cases hi with
        | box h => exact .inl ⟨_, h, rfl⟩
        | group h1 h2 h3 => exact .inr ⟨h, _, _, _, _, h1, h2, h3, rfl⟩
    cases l with
    | nil =>
      rw [show [','].intercalate ([(t, vs)].map (·.1)) = t by simp [List.intercalate]] at hc hi' ⊢
      rw [show [(t, vs)].flatMap (·.2) = vs by simp]
      rcases hi' with ⟨v, hb, rfl⟩ | ⟨hq, n, ws, m, b, h1, h2, h3, rfl⟩
      · exact .one (.box (clear_box env hb hc))
      · have := group_text env h1 h2 (hc.mono ⟨[], ';' :: b, by simp⟩)
        have := Spec.GroupsList.group this (cur_cfws h3) (by simpa using hq)
        simpa using this
    | cons j l =>
      have ih := ih (by simp) (fun i hi => h i (by simp [hi]))
      rw [List.map_cons, List.map_cons, intercalate_cons, ← List.map_cons] at hc ⊢
      rw [List.flatMap_cons, List.map_append]
      replace ih := ih (hc.mono ⟨t ++ [','], [], by simp⟩) (fun l₁ i l₂ e => hf ((t, vs) :: l₁) i l₂ (by rw [e]; rfl))
      rcases hi' with ⟨v, hb, rfl⟩ | ⟨hq, n, ws, m, b, h1, h2, h3, rfl⟩
      · exact .cons (.box (clear_box env hb (hc.mono ⟨[], _, by simp; rfl⟩))) (.inl rfl) ih
      · have := group_text env h1 h2 (hc.mono ⟨[], ';' :: (b ++ ',' :: [','].intercalate ((j :: l).map (·.1))), by simp⟩)
        rw [List.map_cons, List.map_cons, intercalate_cons, ← List.map_cons] at hq
        have := Spec.GroupsList.groupCons this (cur_cfws h3) (.inl rfl) ih (by simpa using hq)
        simpa using this

end Rfc5322.Rfc
