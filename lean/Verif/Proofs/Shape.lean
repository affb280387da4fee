import Verif.Proofs.Utf8
import Verif.Proofs.Eff
import Verif.Spec.Date

/-!
# Consequences of the address-list specification

Inductions over the specification: counting `@` and `<`, line ends, where the bytes of the results come from.
-/

namespace Rfc5322

open Spec

variable {env : Env}

/-! ## Counting -/

/-- Number of `@` and `<`. -/
def marks (t : List Char) : Nat := t.count '@' + t.count '<'

theorem marks_append (t u : List Char) : marks (t ++ u) = marks t + marks u := by
  simp only [marks, List.count_append]; omega

theorem marks_cons (c : Char) (u : List Char) : marks (c :: u) = marks [c] + marks u := by
  rw [← List.singleton_append, marks_append]

theorem marks_at : marks ['@'] = 1 := by decide
theorem marks_less : marks ['<'] = 1 := by decide

theorem addrSpec_marks {t v} (h : AddrSpec env t v) : 1 ≤ marks t := by
  cases h <;> rw [marks_append, marks_cons, marks_at] <;> omega

theorem angleAddr_marks {t v} (h : AngleAddr env t v) : 1 ≤ marks t := by
  cases h <;> rw [marks_append, marks_cons, marks_less] <;> omega

theorem mailbox_marks {t a} (h : Mailbox env t a) : 1 ≤ marks t := by
  cases h with
  | named _ h => rw [marks_append]; have := angleAddr_marks h; omega
  | angle h => exact angleAddr_marks h
  | bare h => exact addrSpec_marks h

theorem commaTail_marks {Item : List Char → List Addr → Prop} (hI : ∀ t as, Item t as → as.length ≤ marks t) {t as}
    (h : CommaTail Item t as) : as.length ≤ marks t := by
  induction h with
  | nil => simp
  | item h _ ih => rw [marks_cons, marks_append, List.length_append]; have := hI _ _ h; omega
  | empty _ _ ih => rw [marks_cons, marks_append]; omega

theorem mailboxItem_marks (t as) (h : MailboxItem env t as) : as.length ≤ marks t := by
  obtain ⟨a, h, rfl⟩ := h
  exact mailbox_marks h

theorem group_marks {t as} (h : Group env t as) : as.length ≤ marks t := by
  obtain ⟨q, n, nv, b, q', e, c, _, _, hb, _, _, _, rfl⟩ := h
  have : as.length ≤ marks b := by
    cases hb with
    | list h =>
      obtain ⟨h, m, a, r, bs, _, hm, hr, rfl, rfl⟩ := h
      have h1 := mailbox_marks hm
      have h2 := commaTail_marks (mailboxItem_marks (env := env)) hr
      simp only [marks_append, List.length_cons]; omega
    | empty => simp
  rw [marks_append, marks_append, marks_cons, marks_append]; omega

theorem address_marks (t as) (h : Address env t as) : as.length ≤ marks t := by
  cases h with
  | mailbox h => exact mailbox_marks h
  | group h => exact group_marks h

theorem sepTail_marks {t as} (h : SepTail env t as) : as.length ≤ marks t := by
  induction h with
  | nil => simp
  | item _ h _ ih => rw [marks_cons, marks_append, List.length_append]; have := address_marks _ _ h; omega

theorem addressList_marks {t as} (h : AddressList env t as) : as.length ≤ marks t := by
  cases h with
  | strict h1 h2 =>
    rw [marks_append, List.length_append]
    have := address_marks _ _ h1; have := sepTail_marks h2; omega
  | obs _ h1 h2 =>
    rw [marks_append, marks_append, List.length_append]
    have := address_marks _ _ h1; have := commaTail_marks (address_marks (env := env)) h2; omega

theorem address_colon {t as} (h : Address env t as) : 1 ≤ as.length ∨ ':' ∈ t := by
  cases h with
  | mailbox h => exact .inl (by simp)
  | group h =>
    obtain ⟨q, n, nv, b, q', e, c, _, _, hb, _, _, _, rfl⟩ := h
    exact .inr (by simp)

/-- A list without results contains a colon. -/
theorem addressList_colon {t as} (h : AddressList env t as) : 1 ≤ as.length ∨ ':' ∈ t := by
  cases h with
  | strict h1 h2 =>
    rcases address_colon h1 with h | h
    · left; rw [List.length_append]; omega
    · right; simp [h]
  | obs _ h1 h2 =>
    rcases address_colon h1 with h | h
    · left; rw [List.length_append]; omega
    · right; simp [h]

/-! ## Names -/

theorem angle_less {t v} (h : AngleAddr env t v) : '<' ∈ t := by cases h <;> simp

theorem mailbox_noLess {t a} (h : Mailbox env t a) (hn : '<' ∉ t) : a.name = [] := by
  cases h with
  | named _ h => exact absurd (List.mem_append_right _ (angle_less h)) hn
  | angle h => rfl
  | bare h => rfl

theorem commaTail_all {Item : List Char → List Addr → Prop} {p : Addr → Prop} {q : List Char → Prop}
    (hq : ∀ c t u, q (c :: (t ++ u)) → q t ∧ q u)
    (hI : ∀ t as, Item t as → q t → ∀ a ∈ as, p a) {t as}
    (h : CommaTail Item t as) (ht : q t) : ∀ a ∈ as, p a := by
  induction h with
  | nil => simp
  | item h _ ih =>
    intro a ha
    rw [List.mem_append] at ha
    exact ha.elim (hI _ _ h (hq _ _ _ ht).1 a) (ih (hq _ _ _ ht).2 a)
  | empty _ _ ih => exact ih (hq _ _ _ ht).2

/-- A property of addresses implied by a hereditary property of the text of the mailboxes they come from. -/
theorem addressList_all {p : Addr → Prop} {q : List Char → Prop}
    (hq : ∀ t u, q (t ++ u) → q t ∧ q u) (hm : ∀ t a, Mailbox env t a → q t → p a) {t as}
    (h : AddressList env t as) (ht : q t) : ∀ a ∈ as, p a := by
  have hc : ∀ c t u, q (c :: (t ++ u)) → q t ∧ q u := fun c t u h => hq _ _ (hq [c] (t ++ u) h).2
  have hA : ∀ t as, Address env t as → q t → ∀ a ∈ as, p a := by
    intro t as h ht
    cases h with
    | mailbox h => simpa using hm _ _ h ht
    | group h =>
      obtain ⟨qq, n, nv, b, q', e, c, _, _, hb, _, _, _, rfl⟩ := h
      have hqb : q b := (hc ':' b _ (hq _ _ (hq _ _ ht).2).2).1
      cases hb with
      | list h =>
        obtain ⟨h, m, a, r, bs, _, hm', hr, rfl, rfl⟩ := h
        have h2 := (hq _ _ hqb).2
        intro a' ha'
        rw [List.mem_cons] at ha'
        rcases ha' with rfl | ha'
        · exact hm _ _ hm' (hq _ _ h2).1
        · refine commaTail_all hc ?_ hr (hq _ _ h2).2 a' ha'
          rintro t as ⟨a, h, rfl⟩ ht
          simpa using hm _ _ h ht
      | empty => simp
  cases h with
  | strict h1 h2 =>
    intro a ha
    rw [List.mem_append] at ha
    refine ha.elim (hA _ _ h1 (hq _ _ ht).1 a) ?_
    replace ht := (hq _ _ ht).2
    clear h1 ha
    induction h2 with
    | nil => simp
    | item _ h _ ih =>
      intro ha
      rw [List.mem_append] at ha
      exact ha.elim (hA _ _ h (hc _ _ _ ht).1 a) (ih (hc _ _ _ ht).2)
  | obs _ h1 h2 =>
    intro a ha
    rw [List.mem_append] at ha
    have ht' := (hq _ _ ht).2
    exact ha.elim (hA _ _ h1 (hq _ _ ht').1 a) (commaTail_all hc hA h2 (hq _ _ ht').2 a)

/-! ## Shape of addresses -/

theorem domain_shape {t v} (h : Domain t v) : ∃ d, (DotAtom d ∨ DomainLiteral d) ∧ v = utf8 d := by
  cases h with
  | dotAtom _ h _ => exact ⟨_, .inl h, rfl⟩
  | literal _ h _ => exact ⟨_, .inr h, rfl⟩

theorem addrSpec_shape {t v} (h : AddrSpec env t v) : ∃ l d p, v = l ++ (b!"@" ++ (utf8 d ++ utf8 p)) ∧
    (DotAtom d ∨ DomainLiteral d) ∧ (p = [] ∨ ∃ n, p = ':' :: n ∧ n ≠ [] ∧ ∀ c ∈ n, isDigit c) := by
  cases h with
  | @plain l lv dt dv _ h =>
    obtain ⟨d, hd, rfl⟩ := domain_shape h
    exact ⟨lv, d, [], by rw [utf8_nil, List.append_nil], hd, .inl rfl⟩
  | @port l lv dt dv n _ h h1 h2 =>
    obtain ⟨d, hd, rfl⟩ := domain_shape h
    exact ⟨lv, d, ':' :: n, by rw [utf8_cons]; rfl, hd, .inr ⟨_, rfl, h1, h2⟩⟩

theorem mailbox_shape {t a} (h : Mailbox env t a) : (a.address = [] ∧ ∃ x y, t = x ++ '<' :: '>' :: y) ∨
    ∃ l d p, a.address = l ++ (b!"@" ++ (utf8 d ++ utf8 p)) ∧
    (DotAtom d ∨ DomainLiteral d) ∧ (p = [] ∨ ∃ n, p = ':' :: n ∧ n ≠ [] ∧ ∀ c ∈ n, isDigit c) := by
  have hA : ∀ {t v}, AngleAddr env t v → (v = [] ∧ ∃ x y, t = x ++ '<' :: '>' :: y) ∨ ∃ l d p, v = l ++ (b!"@" ++ (utf8 d ++ utf8 p)) ∧
    (DotAtom d ∨ DomainLiteral d) ∧ (p = [] ∨ ∃ n, p = ':' :: n ∧ n ≠ [] ∧ ∀ c ∈ n, isDigit c) := by
    intro t v h
    cases h with
    | null => exact .inl ⟨rfl, _, _, rfl⟩
    | addr _ h _ => exact .inr (addrSpec_shape h)
    | routed _ _ h _ => exact .inr (addrSpec_shape h)
  cases h with
  | named _ h =>
    rcases hA h with ⟨h1, x, y, rfl⟩ | h
    · exact .inl ⟨h1, _, _, (List.append_assoc _ _ _).symm⟩
    · exact .inr h
  | angle h => exact hA h
  | bare h => exact .inr (addrSpec_shape h)

/-! ## Where the bytes of results come from -/

section bytes
variable {p : UInt8 → Prop}

/-- All bytes of the text satisfy `p`. -/
def TextOk (p : UInt8 → Prop) (t : List Char) : Prop := ∀ b ∈ utf8 t, p b

theorem textOk_append {t u : List Char} : TextOk p (t ++ u) ↔ TextOk p t ∧ TextOk p u := by
  simp only [TextOk, utf8_append, List.mem_append]
  exact ⟨fun h => ⟨fun b hb => h b (.inl hb), fun b hb => h b (.inr hb)⟩, fun h b hb => hb.elim (h.1 b) (h.2 b)⟩

/-- All bytes of the character satisfy `p`. -/
def CharOk (p : UInt8 → Prop) (c : Char) : Prop := ∀ b ∈ utf8 [c], p b

theorem textOk_cons {c : Char} {u : List Char} : TextOk p (c :: u) ↔ CharOk p c ∧ TextOk p u := by
  rw [← List.singleton_append, textOk_append]; rfl

variable (hsp : p 32) (hd : ∀ w b, env.decode w = some b → ∀ x ∈ b, p x)

theorem quotedText_bytes {t v} (h : QuotedText t v) (ht : TextOk p t) : ∀ b ∈ v, p b := by
  induction h with
  | nil => simp
  | char _ _ _ ih =>
    rw [textOk_append, textOk_cons] at ht
    intro b hb
    rw [List.mem_append] at hb
    rcases hb with hb | hb
    · exact textOk_append.mpr ⟨ht.1, ht.2.1⟩ b hb
    · exact ih ht.2.2 b hb
  | pair _ _ _ ih =>
    rw [textOk_append, textOk_cons, textOk_cons] at ht
    intro b hb
    rw [List.mem_append] at hb
    rcases hb with hb | hb
    · exact textOk_append.mpr ⟨ht.1, ht.2.2.1⟩ b hb
    · exact ih ht.2.2.2 b hb
  | obsPair _ _ _ ih =>
    rw [textOk_append, textOk_cons, textOk_cons] at ht
    intro b hb
    rw [List.mem_append] at hb
    rcases hb with hb | hb
    · exact ht.1 b hb
    · exact ih ht.2.2.2 b hb

theorem quotedString_bytes {t v} (h : QuotedString t v) (ht : TextOk p t) : ∀ b ∈ v, p b := by
  obtain ⟨x, f, hx, _, rfl⟩ := h
  rw [textOk_cons, textOk_append] at ht
  exact quotedText_bytes hx ht.2.1

include hd in
theorem decoded_bytes {t} (ht : TextOk p t) : ∀ b ∈ decoded env t, p b := by
  unfold decoded
  cases h : env.decode (utf8 t) with
  | none => exact ht
  | some v => exact hd _ _ h

include hd in
theorem word_bytes {t v} (h : Word env t v) (ht : TextOk p t) : ∀ b ∈ v, p b := by
  cases h with
  | encoded h =>
    induction h with
    | one _ _ _ =>
      rw [textOk_append, textOk_append] at ht
      exact decoded_bytes hd ht.2.1
    | cons _ _ _ _ ih =>
      rw [textOk_append, textOk_append, textOk_append] at ht
      intro b hb
      rw [List.mem_append] at hb
      exact hb.elim (decoded_bytes hd ht.2.1 b) (ih ht.2.2.2 b)
  | atom _ _ _ =>
    rw [textOk_append, textOk_append] at ht
    exact ht.2.1
  | quoted _ h _ =>
    rw [textOk_append, textOk_append] at ht
    exact quotedString_bytes h ht.2.1

/-- The bytes of a piece. -/
def Piece.bytes : Piece → Bytes
  | .word v => v
  | .punct v => v

include hsp in
theorem renderName_bytes (ps : List Piece) (h : ∀ q ∈ ps, ∀ b ∈ Piece.bytes q, p b) : ∀ b ∈ renderName ps, p b := by
  have key : ∀ (ps : List Piece) (st : Bytes × Bool), (∀ b ∈ st.1, p b) → (∀ q ∈ ps, ∀ b ∈ Piece.bytes q, p b) →
      ∀ b ∈ (ps.foldl addPiece st).1, p b := by
    intro ps
    induction ps with
    | nil => intro st hs _; exact hs
    | cons q ps ih =>
      intro st hs hp
      refine ih (addPiece st q) ?_ fun q hq => hp q (by simp [hq])
      obtain ⟨n, g⟩ := st
      have hq := hp q (by simp)
      cases q with
      | punct v =>
        intro b hb
        simp only [addPiece, List.mem_append] at hb
        exact hb.elim (hs b) (hq b)
      | word v =>
        intro b hb
        simp only [addPiece] at hb
        split at hb
        · rw [List.mem_append] at hb; exact hb.elim (hs b) (hq b)
        · rw [List.mem_append, List.mem_append] at hb
          rcases hb with (hb | hb) | hb
          · exact hs b hb
          · have : b = 32 := by simpa using hb
            exact this ▸ hsp
          · exact hq b hb
  exact key ps _ (by simp) h

include hd in
theorem nameTail_bytes {t ps} (h : NameTail env t ps) (ht : TextOk p t) : ∀ q ∈ ps, ∀ b ∈ Piece.bytes q, p b := by
  induction h with
  | nil => simp
  | word h _ ih =>
    rw [textOk_append] at ht
    intro q hq
    rw [List.mem_cons] at hq
    rcases hq with rfl | hq
    · exact word_bytes hd h ht.1
    · exact ih ht.2 q hq
  | dot _ ih =>
    rw [textOk_cons] at ht
    intro q hq
    rw [List.mem_cons] at hq
    rcases hq with rfl | hq
    · exact ht.1
    · exact ih ht.2 q hq
  | «at» _ ih =>
    rw [textOk_cons] at ht
    intro q hq
    rw [List.mem_cons] at hq
    rcases hq with rfl | hq
    · exact ht.1
    · exact ih ht.2 q hq
  | cfws _ _ ih => rw [textOk_append] at ht; exact ih ht.2

include hsp hd in
theorem displayName_bytes {t v} (h : DisplayName env t v) (ht : TextOk p t) : ∀ b ∈ v, p b := by
  obtain ⟨w, u, r, ps, hw, hr, rfl, rfl⟩ := h
  rw [textOk_append] at ht
  refine renderName_bytes hsp _ fun q hq => ?_
  rw [List.mem_cons] at hq
  rcases hq with rfl | hq
  · exact word_bytes hd hw ht.1
  · exact nameTail_bytes hd hr ht.2 q hq

include hd in
theorem localPart_bytes {t v} (h : LocalPart env t v) (ht : TextOk p t) : ∀ b ∈ v, p b := by
  cases h with
  | dotAtom _ _ _ => rw [textOk_append, textOk_append] at ht; exact ht.2.1
  | quoted _ h _ => rw [textOk_append, textOk_append] at ht; exact quotedString_bytes h ht.2.1
  | obs h =>
    induction h with
    | one h => exact word_bytes hd h ht
    | cons h _ ih =>
      rw [textOk_append, textOk_cons] at ht
      intro b hb
      rw [List.mem_append, List.mem_append] at hb
      rcases hb with hb | hb | hb
      · exact word_bytes hd h ht.1 b hb
      · exact ht.2.1 b hb
      · exact ih ht.2.2 b hb

theorem domain_bytes {t v} (h : Domain t v) (ht : TextOk p t) : ∀ b ∈ v, p b := by
  cases h <;> (rw [textOk_append, textOk_append] at ht; exact ht.2.1)

include hd in
theorem addrSpec_bytes {t v} (h : AddrSpec env t v) (ht : TextOk p t) : ∀ b ∈ v, p b := by
  cases h with
  | plain hl hdm =>
    rw [textOk_append, textOk_cons] at ht
    intro b hb
    rw [List.mem_append, List.mem_append] at hb
    rcases hb with hb | hb | hb
    · exact localPart_bytes hd hl ht.1 b hb
    · exact ht.2.1 b hb
    · exact domain_bytes hdm ht.2.2 b hb
  | port hl hdm _ _ =>
    rw [textOk_append, textOk_cons, textOk_append, textOk_cons] at ht
    intro b hb
    rw [List.mem_append, List.mem_append, List.mem_append, List.mem_append] at hb
    rcases hb with hb | hb | hb | hb | hb
    · exact localPart_bytes hd hl ht.1 b hb
    · exact ht.2.1 b hb
    · exact domain_bytes hdm ht.2.2.1 b hb
    · exact ht.2.2.2.1 b hb
    · exact ht.2.2.2.2 b hb

include hd in
theorem angleAddr_bytes {t v} (h : AngleAddr env t v) (ht : TextOk p t) : ∀ b ∈ v, p b := by
  cases h with
  | null => simp
  | addr _ h _ => rw [textOk_append, textOk_cons, textOk_append] at ht; exact addrSpec_bytes hd h ht.2.2.1
  | routed _ _ h _ =>
    rw [textOk_append, textOk_cons, textOk_append, textOk_append] at ht; exact addrSpec_bytes hd h ht.2.2.2.1

include hsp hd in
theorem mailbox_bytes (t a) (h : Mailbox env t a) (ht : TextOk p t) : (∀ b ∈ a.name, p b) ∧ ∀ b ∈ a.address, p b := by
  cases h with
  | named hn h =>
    rw [textOk_append] at ht
    exact ⟨displayName_bytes hsp hd hn ht.1, angleAddr_bytes hd h ht.2⟩
  | angle h => exact ⟨by simp, angleAddr_bytes hd h ht⟩
  | bare h => exact ⟨by simp, addrSpec_bytes hd h ht⟩

end bytes

end Rfc5322
