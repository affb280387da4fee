import Verif.Spec.Exact
import Verif.Proofs.ObsList

/-!
# Lists of mailboxes without encoded words are clear-cut
-/

namespace Rfc5322

open Spec

variable {env : Env}

/-! ## Adjacent CFWS -/

theorem _root_.Rfc5322.Spec.NoBlankLines.mono {t u : List Char} (h : NoBlankLines t) (hu : u <:+: t) : NoBlankLines u :=
  fun w hw hi => h w hw (hi.trans hu)

theorem _root_.Rfc5322.Spec.NoMark.mono {t u : List Char} (h : NoMark t) (hu : u <:+: t) : NoMark u := fun hi => h (hi.trans hu)

theorem infix_left (a b : List Char) : a <:+: a ++ b := ⟨[], b, rfl⟩
theorem infix_right (a b : List Char) : b <:+: a ++ b := ⟨a, [], by simp⟩
theorem infix_tail (c : Char) (b : List Char) : b <:+: c :: b := ⟨[c], [], by simp⟩

/-- Both conditions. -/
def Calm (t : List Char) : Prop := NoMark t ∧ NoBlankLines t

theorem Calm.mono {t u : List Char} (h : Calm t) (hu : u <:+: t) : Calm u := ⟨h.1.mono hu, h.2.mono hu⟩
theorem Calm.left {t u : List Char} (h : Calm (t ++ u)) : Calm t := h.mono (infix_left _ _)
theorem Calm.right {t u : List Char} (h : Calm (t ++ u)) : Calm u := h.mono (infix_right _ _)
theorem Calm.tail {c : Char} {u : List Char} (h : Calm (c :: u)) : Calm u := h.mono (infix_tail _ _)

theorem optFws_append {f g : List Char} (hf : OptFws f) (hg : OptFws g) (hn : NoBlankLines (f ++ g)) : OptFws (f ++ g) := by
  rcases hf with rfl | hf
  · exact hg
  rcases hg with rfl | hg
  · rw [List.append_nil]; exact .inr hf
  refine .inr ?_
  have all : ∀ {x y : List Char}, (∀ c ∈ x, isWsp c = true) → (∀ c ∈ y, isWsp c = true) → ∀ c ∈ x ++ y, isWsp c = true := by
    intro x y h1 h2 c hc
    rcases List.mem_append.mp hc with h | h
    · exact h1 c h
    · exact h2 c h
  cases hf with
  | plain h1 h2 =>
    cases hg with
    | plain h3 h4 => exact .plain (by simp [h1]) (all h2 h4)
    | folded h3 h4 h5 => rw [← List.append_assoc]; exact .folded (all h2 h3) h4 h5
  | @folded v w h1 h2 h3 =>
    cases hg with
    | plain h4 h5 =>
      rw [List.append_assoc, List.cons_append, List.cons_append]
      exact .folded h1 (by simp [h2]) (all h3 h5)
    | @folded v' w' h4 h5 h6 =>
      refine absurd ?_ (hn (w ++ v') (all h3 h4))
      exact ⟨v, w', by simp⟩

theorem comments_append {r s : List Char} (hr : Comments r) (hs : Comments s) : Comments (r ++ s) := by
  induction hr with
  | nil => exact hs
  | cons hf hc _ ih => rw [List.append_assoc, List.append_assoc]; exact .cons hf hc ih

theorem optCfws_append {a b : List Char} (ha : OptCfws a) (hb : OptCfws b) (hn : NoBlankLines (a ++ b)) : OptCfws (a ++ b) := by
  obtain ⟨r, f, hr, hf, rfl⟩ := ha
  obtain ⟨s, g, hs, hg, rfl⟩ := hb
  cases hs with
  | nil => exact ⟨r, f ++ g, hr, optFws_append hf hg (hn.mono ⟨r, [], by simp⟩), by simp⟩
  | @cons f' t s hf' ht hs =>
    have := optFws_append hf hf' (hn.mono ⟨r, t ++ (s ++ g), by simp⟩)
    exact ⟨r ++ ((f ++ f') ++ (t ++ s)), g, comments_append hr (.cons this ht hs), hg, by simp⟩

/-! ## Words and names -/

/-- An atom or a quoted string. -/
def Solid (u : List Char) : Prop := Atom u ∨ ∃ v, QuotedString u v

theorem plainName_pieces {t ps} (h : PlainName t ps) : NamePieces env t ps := by
  induction h with
  | nil => exact .nil
  | atom ht hm hb hx _ ih => exact .atom ht hm hb hx ih
  | quoted ht hb _ ih => exact .quoted ht hb ih
  | dot hb _ ih => exact .dot hb ih
  | «at» hb _ ih => exact .at hb ih

theorem plainName_nil {t ps} (h : PlainName t ps) (e : t = []) : ps = [] := pieces_nil (env := nenv) (plainName_pieces h) e

theorem mark_of {t : List Char} {v} (h : EncodedWords env t v) : ¬ NoMark t := by
  have key : ∀ {a t b : List Char}, EncodedWord t → ¬ NoMark (a ++ (t ++ b)) := by
    intro a t b ht hn
    obtain ⟨y, rfl⟩ := encodedWord_head ht
    exact hn ⟨a, y ++ b, by simp⟩
  cases h with
  | one _ ht _ => exact key ht
  | cons _ ht _ _ => exact key ht

theorem word_solid {t v} (h : Word env t v) (hn : NoMark t) : ∃ a u b, OptCfws a ∧ Solid u ∧ OptCfws b ∧ t = a ++ (u ++ b) := by
  cases h with
  | encoded h => exact absurd hn (mark_of h)
  | atom ha ht hb => exact ⟨_, _, _, ha, .inl ht, hb, rfl⟩
  | quoted ha ht hb => exact ⟨_, _, _, ha, .inr ⟨_, ht⟩, hb, rfl⟩

/-- A word in front of a name. -/
theorem pieces_word {u b n : List Char} {ps} (hu : Solid u) (hb : OptCfws b) (hn : PlainName n ps) (hc : Calm (u ++ (b ++ n))) :
    ∃ w qs, PlainName (u ++ (b ++ n)) (.word w :: qs) := by
  rcases hu with hu | ⟨v, hu⟩
  · by_cases hx : b = [] → ∀ c ∈ n.head?, isAtext c = false
    · exact ⟨_, _, .atom hu hc.left.1 hb hx hn⟩
    · have hb' : b = [] := Classical.byContradiction fun h => hx fun h' => absurd h' h
      subst hb'
      have hx : ¬ ∀ c ∈ n.head?, isAtext c = false := fun h => hx fun _ => h
      cases hn with
      | nil => simp at hx
      | @atom t b x ps ht _ hb hx' h =>
        have h1 : Atom (u ++ t) := ⟨by simp [hu.1], fun c hc => by
          rcases List.mem_append.mp hc with h | h
          · exact hu.2 c h
          · exact ht.2 c h⟩
        have h2 := PlainName.atom h1 (hc.1.mono ⟨[], b ++ x, by simp⟩) hb hx' h
        rw [List.append_assoc] at h2
        exact ⟨_, _, h2⟩
      | quoted ht _ _ => obtain ⟨y, rfl⟩ := quotedString_head ht; exact absurd (by simp; decide) hx
      | dot _ _ => exact absurd (by simp; decide) hx
      | «at» _ _ => exact absurd (by simp; decide) hx
  · exact ⟨_, _, .quoted hu hb hn⟩

theorem tail_pieces {t ps} (h : NameTail env t ps) (hc : Calm t) : ∃ a n qs, OptCfws a ∧ PlainName n qs ∧ t = a ++ n := by
  induction h with
  | nil => exact ⟨[], [], [], OptCfws.nil, .nil, rfl⟩
  | @word t v r ps hw _ ih =>
    obtain ⟨a', n, qs, ha', hn, rfl⟩ := ih hc.right
    obtain ⟨a, u, b, ha, hu, hb, rfl⟩ := word_solid hw hc.left.1
    have hb' := optCfws_append hb ha' (hc.2.mono ⟨a ++ u, n, by simp⟩)
    obtain ⟨w, qs', h⟩ := pieces_word hu hb' hn (hc.mono ⟨a, [], by simp⟩)
    exact ⟨a, _, _, ha, h, by simp⟩
  | dot _ ih =>
    obtain ⟨a, n, qs, ha, hn, rfl⟩ := ih hc.tail
    exact ⟨[], _, _, OptCfws.nil, .dot ha hn, rfl⟩
  | «at» _ ih =>
    obtain ⟨a, n, qs, ha, hn, rfl⟩ := ih hc.tail
    exact ⟨[], _, _, OptCfws.nil, .at ha hn, rfl⟩
  | cfws hw _ ih =>
    obtain ⟨a, n, qs, ha, hn, rfl⟩ := ih hc.right
    exact ⟨_, n, qs, optCfws_append hw.1 ha (hc.2.mono ⟨[], n, by simp⟩), hn, by simp⟩

theorem name_pieces {t v} (h : DisplayName env t v) (hc : Calm t) :
    ∃ a n w qs, OptCfws a ∧ PlainName n (.word w :: qs) ∧ t = a ++ n := by
  obtain ⟨w, _, r, ps, hw, hr, rfl, _⟩ := h
  obtain ⟨a', n, qs, ha', hn, rfl⟩ := tail_pieces hr hc.right
  obtain ⟨a, u, b, ha, hu, hb, rfl⟩ := word_solid hw hc.left.1
  have hb' := optCfws_append hb ha' (hc.2.mono ⟨a ++ u, n, by simp⟩)
  obtain ⟨w, qs', h⟩ := pieces_word hu hb' hn (hc.mono ⟨a, [], by simp⟩)
  exact ⟨a, _, _, _, ha, h, by simp⟩

/-- CFWS behind a name. -/
theorem pieces_end {n a : List Char} {ps} (h : PlainName n ps) (hne : n ≠ []) (ha : OptCfws a) (hc : Calm (n ++ a)) :
    PlainName (n ++ a) ps := by
  induction h with
  | nil => exact absurd rfl hne
  | @atom t b x ps ht hm hb hx h ih =>
    by_cases hxn : x = []
    · subst hxn
      have := optCfws_append hb ha (hc.2.mono ⟨t, [], by simp⟩)
      have h2 := PlainName.atom ht hm this (x := []) (by simp) h
      simpa using h2
    · have h2 := ih hxn (hc.mono ⟨t ++ b, [], by simp⟩)
      have h3 := PlainName.atom ht hm hb (x := x ++ a) (by
        intro hb'
        obtain ⟨d, x, rfl⟩ := List.exists_cons_of_ne_nil hxn
        exact hx hb') h2
      simpa using h3
  | @quoted t b x v ps ht hb h ih =>
    by_cases hxn : x = []
    · subst hxn
      have := optCfws_append hb ha (hc.2.mono ⟨t, [], by simp⟩)
      have h2 := PlainName.quoted ht this (x := []) h
      simpa using h2
    · have h2 := ih hxn (hc.mono ⟨t ++ b, [], by simp⟩)
      have h3 := PlainName.quoted ht hb h2
      simpa using h3
  | @dot b x ps hb h ih =>
    by_cases hxn : x = []
    · subst hxn
      have := optCfws_append hb ha (hc.2.mono ⟨['.'], [], by simp⟩)
      have h2 := PlainName.dot this (x := []) h
      simpa using h2
    · have h2 := ih hxn (hc.mono ⟨'.' :: b, [], by simp⟩)
      have h3 := PlainName.dot hb h2
      simpa using h3
  | @«at» b x ps hb h ih =>
    by_cases hxn : x = []
    · subst hxn
      have := optCfws_append hb ha (hc.2.mono ⟨['@'], [], by simp⟩)
      have h2 := PlainName.at this (x := []) h
      simpa using h2
    · have h2 := ih hxn (hc.mono ⟨'@' :: b, [], by simp⟩)
      have h3 := PlainName.at hb h2
      simpa using h3

/-! ## Addresses -/

theorem bareWord_of {t v} (h : Word env t v) (hn : NoMark t) : BareWord t v := by
  cases h with
  | encoded h => exact absurd hn (mark_of h)
  | atom ha ht hb => exact .atom ha ht (hn.mono ⟨_, _, by simp; rfl⟩) hb
  | quoted ha ht hb => exact .quoted ha ht hb

theorem bareWords_of {t v} (h : DottedWords env t v) (hn : NoMark t) : BareWords t v := by
  induction h with
  | one h => exact .one (bareWord_of h hn)
  | cons h _ ih => exact .cons (bareWord_of h (hn.mono (infix_left _ _))) (ih (hn.mono ((infix_tail _ _).trans (infix_right _ _))))

theorem bareLocal_of {t v} (h : LocalPart env t v) (hn : NoMark t) : BareLocal t v := by
  cases h with
  | dotAtom ha ht hb => exact .dotAtom ha ht (hn.mono ⟨_, _, by simp; rfl⟩) hb
  | quoted ha ht hb => exact .quoted ha ht hb
  | obs h => exact .words (bareWords_of h hn)

theorem bareDomain_of {t v} (h : Domain t v) (hn : NoMark t) : BareDomain t v := by
  cases h with
  | dotAtom ha ht hb => exact .dotAtom ha ht (hn.mono ⟨_, _, by simp; rfl⟩) hb
  | literal ha ht hb => exact .literal ha ht hb

theorem bareAddr_of {t v} (h : AddrSpec env t v) (hn : NoMark t) : BareAddr t v := by
  cases h with
  | @plain l lv d dv hl hd => exact .plain (bareLocal_of hl (hn.mono (infix_left _ _))) (bareDomain_of hd (hn.mono ⟨l ++ ['@'], [], by simp⟩))
  | @port l lv d dv p hl hd h1 h2 =>
    exact .port (bareLocal_of hl (hn.mono (infix_left _ _))) (bareDomain_of hd (hn.mono ⟨l ++ ['@'], ':' :: p, by simp⟩)) h1 h2

theorem plainAngle_of {t v} (h : AngleAddr env t v) (hn : NoMark t) : ∃ a u, OptCfws a ∧ PlainAngle u v ∧ t = a ++ u := by
  cases h with
  | null ha hb => exact ⟨_, _, ha, .null hb, rfl⟩
  | @addr a t v b ha ht hb =>
    exact ⟨_, _, ha, .addr ((bareAddr_of ht (hn.mono ⟨a ++ ['<'], '>' :: b, by simp⟩))) hb, rfl⟩
  | @routed a q t v b ha hq ht hb =>
    exact ⟨_, _, ha, .routed hq ((bareAddr_of ht (hn.mono ⟨a ++ '<' :: q, '>' :: b, by simp⟩))) hb, rfl⟩

/-- Every mailbox without encoded words is clear-cut; its value may be another. -/
theorem plainBox_of {t v} (h : Mailbox env t v) (hc : Calm t) : ∃ v', PlainBox t v' := by
  cases h with
  | @named n nv a av hn ha =>
    obtain ⟨a', u, ha', hu, rfl⟩ := plainAngle_of ha hc.right.1
    obtain ⟨b, m, w, qs, hb, hm, rfl⟩ := name_pieces hn hc.left
    have hne : m ≠ [] := by rintro rfl; cases plainName_nil hm rfl
    have := pieces_end hm hne ha' (hc.mono ⟨b, u, by simp⟩)
    have h2 := PlainBox.named hb this hu
    rw [List.append_assoc, ← List.append_assoc] at h2
    exact ⟨_, h2⟩
  | angle h =>
    obtain ⟨a', u, ha', hu, rfl⟩ := plainAngle_of h hc.1
    exact ⟨_, .angle ha' hu⟩
  | bare h => exact ⟨_, .bare (bareAddr_of h hc.1)⟩

/-! ## Lists -/

theorem address_mailbox {t as r} (h : Address env t as) (hn : Tame (t ++ r)) : ∃ a, Mailbox env t a ∧ as = [a] := by
  obtain ⟨h1, h2, h3⟩ := hn
  cases h with
  | mailbox h => exact ⟨_, h, rfl⟩
  | group h =>
    exfalso
    obtain ⟨q, n, nv, b, q', e, c, hq, hn, _, _, _, _, rfl⟩ := h
    rcases hq with rfl | rfl
    · obtain ⟨s, hs⟩ := displayName_part hn h1.left.right.left
      refine h2 ?_
      rw [List.nil_append, List.append_assoc, hs.1, List.cons_append, skeleton_stays rfl]
      simp
    · obtain ⟨s, hs⟩ := displayName_part hn h1.left.right.left
      have e : ['"'] ++ (n ++ ':' :: (b ++ (q' ++ (e ++ c)))) ++ r = '"' :: (n ++ ':' :: (b ++ (q' ++ (e ++ c)) ++ r)) := by simp
      rw [e, hiddenAfterQuotes, Bool.and_eq_true, hs.1, skeleton_stays rfl] at h3
      simp at h3

theorem sepBoxes_of {r as} (h : SepTail env r as) (hn : Tame r) (hc : Calm r) : ∃ bs, SepBoxes r bs := by
  induction h with
  | nil => exact ⟨[], .nil⟩
  | @item sep t as r bs hsep ht hr ih =>
    have hn' := hn.tail (by rcases hsep with rfl | rfl <;> rfl)
    obtain ⟨a, ha, rfl⟩ := address_mailbox ht hn'
    obtain ⟨v, hv⟩ := plainBox_of ha hc.tail.left
    obtain ⟨bs, hbs⟩ := ih (Tame.split ht (SepTail.rest hr) hn').2 hc.tail.right
    exact ⟨_, .cons hsep hv hbs⟩

theorem commaBoxes_of {r as} (h : CommaTail (Address env) r as) (hn : Tame r) (hc : Calm r) : ∃ bs, CommaBoxes r bs := by
  induction h with
  | nil => exact ⟨[], .nil⟩
  | @item t as r bs ht hr ih =>
    have hn' := hn.tail rfl
    obtain ⟨a, ha, rfl⟩ := address_mailbox ht hn'
    obtain ⟨v, hv⟩ := plainBox_of ha hc.tail.left
    obtain ⟨bs, hbs⟩ := ih (Tame.split ht (CommaTail.rest hr) hn').2 hc.tail.right
    exact ⟨_, .cons hv hbs⟩
  | @empty t r bs ht hr ih =>
    obtain ⟨bs, hbs⟩ := ih ((hn.tail rfl).right (s := []) (skeleton_cfws ht) (CommaTail.rest hr)) hc.tail.right
    exact ⟨_, .empty ht hbs⟩

/-- Every list without groups and encoded words is a list of clear-cut mailboxes. -/
theorem boxList_of {t as} (h : AddressList env t as) (hn : Tame t) (hc : Calm t) : ∃ bs, BoxList t bs := by
  cases h with
  | strict ht hr =>
    obtain ⟨a, ha, rfl⟩ := address_mailbox ht hn
    obtain ⟨v, hv⟩ := plainBox_of ha hc.left
    obtain ⟨bs, hbs⟩ := sepBoxes_of hr (Tame.split ht (SepTail.rest hr) hn).2 hc.right
    exact ⟨_, .strict hv hbs⟩
  | obs hh ht hr =>
    have hn' := hn.commas hh
    obtain ⟨a, ha, rfl⟩ := address_mailbox ht hn'
    obtain ⟨v, hv⟩ := plainBox_of ha hc.right.left
    obtain ⟨bs, hbs⟩ := commaBoxes_of hr (Tame.split ht (CommaTail.rest hr) hn').2 hc.right.right
    exact ⟨_, .padded hh hv hbs⟩

theorem plainAngle_clear {t v} (h : PlainAngle t v) : ClearAngle env t v := by
  cases h with
  | null hb => exact .null hb
  | addr h hb => exact .addr (bareAddr_clear h) hb
  | routed hq h hb => exact .routed hq (bareAddr_clear h) hb

theorem plainBox_clear {t a} (h : PlainBox t a) : ClearBox env t a := by
  cases h with
  | named ha hn ht => exact .pieces ha (plainName_pieces hn) (plainAngle_clear ht)
  | angle ha ht => exact .angle ha (plainAngle_clear ht)
  | bare h => exact .bare h

theorem sepBoxes_clear {r as} (h : SepBoxes r as) : ∀ {t a}, PlainBox t a → ClearList env (t ++ r) (a :: as) := by
  induction h with
  | nil => intro t a ht; rw [List.append_nil]; exact .one (.box (plainBox_clear ht))
  | cons hsep hb _ ih => intro t a ht; exact .cons (.box (plainBox_clear ht)) hsep (ih hb)

theorem commaBoxes_clear {r as} (h : CommaBoxes r as) : CommaTail (BoxItem env) r as := by
  induction h with
  | nil => exact .nil
  | cons h _ ih => exact .item (as := [_]) ⟨_, plainBox_clear h, rfl⟩ ih
  | empty h _ ih => exact .empty h ih

theorem parse_boxList (P : Predictor) {t as} (h : BoxList t as) (hn : Tame t) :
    parseAddressList P env (encode t) = .ok (some as, none) := by
  cases h with
  | strict ht hr => exact parse_clear P (sepBoxes_clear hr ht)
  | padded hh ht hr => exact parse_padded P hh (plainBox_clear ht) (commaBoxes_clear hr) hn

/-! ## A check -/

/-- A test for blank lines. -/
def blankFree : List Char → Bool
  | '\r' :: '\n' :: r => !(c!"\r\n").isPrefixOf (r.dropWhile isWsp) && blankFree r
  | _ :: r => blankFree r
  | [] => true

theorem blankFree_mem {w y : List Char} (hw : ∀ c ∈ w, isWsp c = true) : ∀ x : List Char, blankFree (x ++ ('\r' :: '\n' :: (w ++ '\r' :: '\n' :: y))) = false
  | [] => by
    have : (w ++ '\r' :: '\n' :: y).dropWhile isWsp = '\r' :: '\n' :: y := by
      induction w with
      | nil => rfl
      | cons c w ih =>
        rw [List.cons_append, List.dropWhile_cons_of_pos (hw c (by simp))]
        exact ih fun c hc => hw c (by simp [hc])
    rw [List.nil_append, blankFree, this]
    rfl
  | c :: x => by
    have ih := blankFree_mem (y := y) hw x
    rw [List.cons_append, blankFree.eq_def]
    split
    · next r h =>
      injection h with _ h
      have : blankFree (x ++ ('\r' :: '\n' :: (w ++ '\r' :: '\n' :: y))) = blankFree r := by
        rw [h, blankFree]
        intro r' hr'
        injection hr' with hr'
        exact absurd hr' (by decide)
      rw [← this, ih, Bool.and_false]
    · next h =>
      injection h with _ h
      rw [← h, ih]
    · next h => cases h

theorem noBlankLines_of_check {t : List Char} (h : blankFree t = true) : NoBlankLines t := by
  rintro w hw ⟨x, y, rfl⟩
  have := blankFree_mem (y := y) hw x
  simp only [List.cons_append, List.append_assoc, List.nil_append] at h
  rw [this] at h
  cases h

end Rfc5322
