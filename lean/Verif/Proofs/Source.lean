import Verif.Proofs.Shape

/-!
# Names and addresses are subsequences of the input
-/

namespace Rfc5322

open Spec

variable {env : Env}

/-- The bytes are those of a subsequence of the text. -/
def From (t : List Char) (b : Bytes) : Prop := ∃ c : List Char, c.Sublist t ∧ b = utf8 c

theorem From.append {t u b c} (h1 : From t b) (h2 : From u c) : From (t ++ u) (b ++ c) := by
  obtain ⟨x, hx, rfl⟩ := h1
  obtain ⟨y, hy, rfl⟩ := h2
  exact ⟨x ++ y, hx.append hy, utf8_append.symm⟩

theorem From.self (t) : From t (utf8 t) := ⟨t, List.Sublist.refl _, rfl⟩
theorem From.none (t) : From t [] := ⟨[], List.nil_sublist _, rfl⟩
theorem From.left {t b} (h : From t b) (u) : From (t ++ u) b := by simpa using h.append (From.none u)
theorem From.right {u b} (h : From u b) (t) : From (t ++ u) b := by simpa using (From.none t).append h
theorem From.cons {c t b} (h : From t b) : From (c :: t) b := From.right h [c]
theorem From.around {a t b v} (h : From t v) : From (a ++ (t ++ b)) v := (h.left b).right a

/-- No `=?`. -/
def NoEnc (t : List Char) : Prop := ¬ ['=', '?'] <:+: t

theorem NoEnc.mono {t u : List Char} (h : NoEnc t) (hu : u <:+: t) : NoEnc u := fun hi => h (hi.trans hu)
theorem NoEnc.left {t u : List Char} (h : NoEnc (t ++ u)) : NoEnc t := h.mono ⟨[], u, rfl⟩
theorem NoEnc.right {t u : List Char} (h : NoEnc (t ++ u)) : NoEnc u := h.mono ⟨t, [], by simp⟩
theorem NoEnc.tail {c : Char} {u : List Char} (h : NoEnc (c :: u)) : NoEnc u := NoEnc.right (t := [c]) h

theorem encodedWord_enc {t} (h : EncodedWord t) : ¬ NoEnc t := by
  obtain ⟨cs, en, tx, _, _, _, _, _, _, rfl⟩ := h
  exact fun h => h ⟨[], _, rfl⟩

theorem quotedText_from {t v} (h : QuotedText t v) : From t v := by
  induction h with
  | nil => exact .self []
  | @char f c r v _ _ _ ih => 
    have := (From.self (f ++ [c])).append ih
    simpa using this
  | @pair f c r v _ _ _ ih =>
    rw [utf8_append, List.append_assoc]
    exact (From.self f).append (From.cons ((From.self [c]).append ih))
  | @obsPair f c r v _ _ _ ih => exact (From.self f).append ih.cons.cons

theorem quotedString_from {t v} (h : QuotedString t v) : From t v := by
  obtain ⟨x, f, hx, _, rfl⟩ := h
  exact ((quotedText_from hx).left _).cons

theorem word_from {t v} (h : Word env t v) (hn : NoEnc t) : From t v := by
  cases h with
  | encoded h =>
    cases h with
    | one _ h _ => exact absurd hn.right.left (encodedWord_enc h)
    | cons _ h _ _ => exact absurd hn.right.left (encodedWord_enc h)
  | atom _ _ _ => exact (From.self _).around
  | quoted _ h _ => exact (quotedString_from h).around

/-- Without spaces. -/
def squeeze (b : Bytes) : Bytes := b.filter (· != 32)

theorem squeeze_append (a b : Bytes) : squeeze (a ++ b) = squeeze a ++ squeeze b := List.filter_append ..

theorem squeeze_rune (c : Char) : squeeze (encodeRune c) = if c = ' ' then [] else encodeRune c := by
  have h1 : ∀ n : Nat, 32 < n → n < 256 → (UInt8.ofNat n != 32) = true := by
    intro n h h'
    rw [bne_iff_ne]
    intro e
    have := congrArg UInt8.toNat e
    rw [byteVal h'] at this
    simp at this; omega
  have hv := c.valid
  by_cases h : c = ' '
  · subst h; decide
  · rw [if_neg h]
    refine List.filter_eq_self.mpr fun b hb => ?_
    have hc : c.toNat ≠ 32 := fun e => h (by rw [← Char.ofNat_toNat c, e])
    have hc2 : c.toNat < 1114112 := by have := char_valid c; omega
    unfold encodeRune at hb
    dsimp only at hb
    split at hb
    · simp only [List.mem_singleton] at hb
      subst hb
      rw [bne_iff_ne]
      intro e
      have := congrArg UInt8.toNat e
      rw [byteVal (by omega)] at this
      exact hc this
    · split at hb
      · simp only [List.mem_cons, List.not_mem_nil, or_false] at hb
        rcases hb with rfl | rfl <;> exact h1 _ (by omega) (by omega)
      · split at hb
        · simp only [List.mem_cons, List.not_mem_nil, or_false] at hb
          rcases hb with rfl | rfl | rfl <;> exact h1 _ (by omega) (by omega)
        · simp only [List.mem_cons, List.not_mem_nil, or_false] at hb
          rcases hb with rfl | rfl | rfl | rfl <;> exact h1 _ (by omega) (by omega)

theorem squeeze_utf8 (t : List Char) : squeeze (utf8 t) = utf8 (t.filter (· != ' ')) := by
  induction t with
  | nil => rfl
  | cons c t ih =>
    rw [utf8_cons, squeeze_append, ih, squeeze_rune, List.filter_cons]
    by_cases h : c = ' '
    · subst h; simp
    · simp [h, utf8_cons]

theorem From.squeeze {t b} (h : From t b) : From t (squeeze b) := by
  obtain ⟨c, hc, rfl⟩ := h
  exact ⟨_, List.filter_sublist.trans hc, squeeze_utf8 c⟩

theorem squeeze_render (ps : List Piece) : squeeze (renderName ps) = ps.flatMap fun q => squeeze (Piece.bytes q) := by
  have key : ∀ (ps : List Piece) (st : Bytes × Bool),
      Rfc5322.squeeze (ps.foldl addPiece st).1 = Rfc5322.squeeze st.1 ++ ps.flatMap fun q => Rfc5322.squeeze (Piece.bytes q) := by
    intro ps
    induction ps with
    | nil => intro st; simp
    | cons q ps ih =>
      intro st
      rw [List.foldl_cons, ih, List.flatMap_cons, ← List.append_assoc]
      congr 1
      obtain ⟨n, g⟩ := st
      cases q with
      | punct v => exact squeeze_append _ _
      | word v =>
        simp only [addPiece]
        split
        · exact squeeze_append _ _
        · show Rfc5322.squeeze (n ++ b!" " ++ v) = _
          rw [squeeze_append, squeeze_append]
          simp [Rfc5322.squeeze, Piece.bytes]
  exact (key ps ([], false)).trans (List.nil_append _)

theorem nameTail_from {t ps} (h : NameTail env t ps) (hn : NoEnc t) :
    From t (ps.flatMap fun q => squeeze (Piece.bytes q)) := by
  induction h with
  | nil => exact .none _
  | word h _ ih => exact (word_from h hn.left).squeeze.append (ih hn.right)
  | @dot r ps _ ih => exact (From.self ['.']).squeeze.append (ih hn.tail)
  | @«at» r ps _ ih => exact (From.self ['@']).squeeze.append (ih hn.tail)
  | cfws _ _ ih => exact (ih hn.right).right _

theorem displayName_from {t v} (h : DisplayName env t v) (hn : NoEnc t) : From t (squeeze v) := by
  obtain ⟨w, u, r, ps, hw, hr, rfl, rfl⟩ := h
  rw [squeeze_render, List.flatMap_cons]
  exact (word_from hw hn.left).squeeze.append (nameTail_from hr hn.right)

theorem localPart_from {t v} (h : LocalPart env t v) (hn : NoEnc t) : From t v := by
  cases h with
  | dotAtom _ _ _ => exact (From.self _).around
  | quoted _ h _ => exact (quotedString_from h).around
  | obs h =>
    induction h with
    | one h => exact word_from h hn
    | cons h _ ih => exact (word_from h hn.left).append ((From.self ['.']).append (ih hn.right.tail))

theorem domain_from {t v} (h : Domain t v) : From t v := by cases h <;> exact (From.self _).around

theorem addrSpec_from {t v} (h : AddrSpec env t v) (hn : NoEnc t) : From t v := by
  cases h with
  | plain hl hd => exact (localPart_from hl hn.left).append ((From.self ['@']).append (domain_from hd))
  | port hl hd _ _ => exact (localPart_from hl hn.left).append ((From.self ['@']).append ((domain_from hd).append
      ((From.self [':']).append (From.self _))))

theorem angleAddr_from {t v} (h : AngleAddr env t v) (hn : NoEnc t) : From t v := by
  cases h with
  | null => exact .none _
  | addr _ h _ => exact (((addrSpec_from h hn.right.tail.left).left _).cons).right _
  | routed _ _ h _ => exact ((((addrSpec_from h hn.right.tail.right.left).left _).right _).cons).right _

/-- What a result says: its name without spaces, then its address. -/
def said (a : Addr) : Bytes := squeeze a.name ++ a.address

theorem mailbox_from {t a} (h : Mailbox env t a) (hn : NoEnc t) : From t (said a) := by
  cases h with
  | named h1 h2 => exact (displayName_from h1 hn.left).append (angleAddr_from h2 hn.right)
  | angle h => exact (angleAddr_from h hn)
  | bare h => exact (addrSpec_from h hn)

theorem commaTail_from {Item : List Char → List Addr → Prop} (hI : ∀ t as, Item t as → NoEnc t → From t (as.flatMap said))
    {t as} (h : CommaTail Item t as) (hn : NoEnc t) : From t (as.flatMap said) := by
  induction h with
  | nil => exact .none _
  | item h _ ih =>
    rw [List.flatMap_append]
    exact ((hI _ _ h hn.tail.left).append (ih hn.tail.right)).cons
  | empty _ _ ih => exact ((ih hn.tail.right).right _).cons

theorem address_from (t as) (h : Address env t as) (hn : NoEnc t) : From t (as.flatMap said) := by
  cases h with
  | mailbox h => simpa using mailbox_from h hn
  | group h =>
    obtain ⟨q, n, nv, b, q', e, c, _, _, hb, _, _, _, rfl⟩ := h
    have hnb := hn.right.right.tail.left
    refine (((From.left ?_ _).cons).right _).right _
    cases hb with
    | list h =>
      obtain ⟨h, m, a, r, bs, _, hm, hr, rfl, rfl⟩ := h
      rw [List.flatMap_cons]
      refine ((mailbox_from hm hnb.right.left).append (commaTail_from ?_ hr hnb.right.right)).right _
      rintro t as ⟨a, h, rfl⟩ hn
      simpa using mailbox_from h hn
    | empty => exact .none _

theorem addressList_from {t as} (h : AddressList env t as) (hn : NoEnc t) : From t (as.flatMap said) := by
  cases h with
  | strict h1 h2 =>
    rw [List.flatMap_append]
    refine (address_from _ _ h1 hn.left).append ?_
    replace hn := hn.right
    clear h1
    induction h2 with
    | nil => exact .none _
    | item _ h _ ih =>
      rw [List.flatMap_append]
      exact ((address_from _ _ h hn.tail.left).append (ih hn.tail.right)).cons
  | obs _ h1 h2 =>
    rw [List.flatMap_append]
    exact ((address_from _ _ h1 hn.right.left).append (commaTail_from address_from h2 hn.right.right)).right _

end Rfc5322
