import Verif.Proofs.ApiAddr
import Verif.Proofs.Mime
import Verif.Proofs.Work

/-!
# The size of a result
-/

namespace Rfc5322

open Spec

/-- Bytes that a text occupies. -/
def size (t : List Char) : Nat := (utf8 t).length

theorem size_nil : size [] = 0 := rfl

theorem size_append (t u : List Char) : size (t ++ u) = size t + size u := by simp [size, utf8_append]

theorem size_one (c : Char) : 1 ≤ size [c] := by
  simp only [size, utf8, List.flatMap_cons, List.flatMap_nil, List.append_nil, encodeRune]
  repeat' split
  all_goals simp

theorem size_cons (c : Char) (t : List Char) : 1 + size t ≤ size (c :: t) := by
  have := size_append [c] t
  have h := size_one c
  simp only [List.cons_append, List.nil_append] at this
  omega

theorem size_ascii {c : Char} (h : c.toNat < 0x80) (t : List Char) : size (c :: t) = 1 + size t := by
  have := size_append [c] t
  simp only [List.cons_append, List.nil_append] at this
  rw [this]
  congr 1
  simp [size, utf8, encodeRune_byteOf h]

theorem length_le_size (t : List Char) : t.length ≤ size t := by
  induction t with
  | nil => simp
  | cons c t ih => have := size_cons c t; simp; omega

theorem size_pos {t : List Char} (h : t ≠ []) : 1 ≤ size t := by
  cases t with
  | nil => exact absurd rfl h
  | cons c t => have := size_cons c t; omega

theorem size_encode (c : Char) : size [c] ≤ 4 := by
  simp only [size, utf8, List.flatMap_cons, List.flatMap_nil, List.append_nil, encodeRune]
  repeat' split
  all_goals simp

theorem quotedText_size {x v} (h : QuotedText x v) : v.length ≤ size x := by
  induction h with
  | nil => simp [size]
  | @char f c r v _ _ _ ih =>
    have h1 := size_append f (c :: r)
    have h2 := size_append [c] r
    have h3 := size_append f [c]
    simp only [size, List.cons_append, List.nil_append, List.length_append] at *
    omega
  | @pair f c r v _ _ _ ih =>
    have h1 := size_append f ('\\' :: c :: r)
    have h2 := size_append [c] r
    have h3 := size_append f [c]
    have h4 := size_cons '\\' (c :: r)
    simp only [size, List.cons_append, List.nil_append, List.length_append] at *
    omega
  | @obsPair f c r v _ _ _ ih =>
    have h1 := size_append f ('\\' :: c :: r)
    have h2 := size_cons c r
    have h4 := size_cons '\\' (c :: r)
    simp only [size, List.length_append] at *
    omega

theorem quotedString_size {t v} (h : QuotedString t v) : v.length + 2 ≤ size t := by
  obtain ⟨x, f, h, _, rfl⟩ := h
  have h1 := quotedText_size h
  have h2 := size_cons '"' (x ++ (f ++ ['"']))
  have h3 := size_one '"'
  simp only [size_append] at h2
  omega

/-- The decoder makes nothing more than `k` times as long. -/
def Expands (k : Nat) (env : Env) : Prop := 1 ≤ k ∧ ∀ w v, env.decode w = some v → v.length ≤ k * w.length

variable {k : Nat} {env : Env}

theorem Expands.le (h : Expands k env) (n : Nat) : n ≤ k * n := Nat.le_mul_of_pos_left n h.1

theorem decoded_size (h : Expands k env) (t : List Char) : (decoded env t).length ≤ k * size t := by
  unfold decoded
  cases hd : env.decode (utf8 t) with
  | none => exact h.le _
  | some v => exact h.2 _ _ hd

theorem encodedWord_pos {t} (h : EncodedWord t) : 1 ≤ size t := by
  obtain ⟨_, _, _, _, _, _, _, _, _, rfl⟩ := h
  exact size_pos (by simp)

theorem encodedWords_size (h : Expands k env) {t v} (ht : EncodedWords env t v) : v.length ≤ k * size t ∧ 1 ≤ size t := by
  induction ht with
  | @one a t b _ hw _ =>
    have := decoded_size h t
    have := encodedWord_pos hw
    simp only [size_append, Nat.mul_add]; omega
  | @cons a t b r v _ hw _ _ ih =>
    have := decoded_size h t
    have := encodedWord_pos hw
    simp only [size_append, Nat.mul_add, List.length_append] at *; omega

theorem word_size (h : Expands k env) {t v} (ht : Word env t v) : v.length ≤ k * size t ∧ 1 ≤ size t := by
  cases ht with
  | encoded ht => exact encodedWords_size h ht
  | @atom a t b _ ha _ =>
    have := h.le (size t)
    have := size_pos ha.1
    have : (utf8 t).length = size t := rfl
    simp only [size_append, Nat.mul_add] at *; omega
  | @quoted a t b _ _ hq _ =>
    have := h.le (size t)
    have := quotedString_size hq
    simp only [size_append, Nat.mul_add] at *; omega

theorem dottedWords_size (h : Expands k env) {t v} (ht : DottedWords env t v) : v.length ≤ k * size t ∧ 1 ≤ size t := by
  induction ht with
  | one ht => exact word_size h ht
  | @cons t v r u ht _ ih =>
    have := word_size h ht
    have := size_cons '.' r
    have := Nat.mul_le_mul_left k this
    have := h.le 1
    simp only [size_append, Nat.mul_add, List.length_append, List.length_cons, List.length_nil] at *; omega

theorem localPart_size (h : Expands k env) {t v} (ht : LocalPart env t v) : v.length ≤ k * size t := by
  cases ht with
  | @dotAtom a t b _ _ _ =>
    have := h.le (size t)
    have : (utf8 t).length = size t := rfl
    simp only [size_append, Nat.mul_add] at *; omega
  | @quoted a t b _ _ hq _ =>
    have := h.le (size t)
    have := quotedString_size hq
    simp only [size_append, Nat.mul_add] at *; omega
  | obs ht => exact (dottedWords_size h ht).1

theorem domain_size {t v} (ht : Domain t v) : v.length ≤ size t := by
  cases ht with
  | dotAtom => simp only [size_append]; simp only [size]; omega
  | literal => simp only [size_append]; simp only [size]; omega

theorem addrSpec_size (h : Expands k env) {t v} (ht : AddrSpec env t v) : v.length ≤ k * size t := by
  cases ht with
  | @plain l lv d dv hl hd =>
    have := localPart_size h hl
    have := domain_size hd
    have := size_cons '@' d
    have := h.le (size ('@' :: d))
    simp only [size_append, Nat.mul_add, List.length_append, List.length_cons, List.length_nil] at *; omega
  | @port l lv d dv p hl hd =>
    have := localPart_size h hl
    have := domain_size hd
    have h1 := size_cons '@' (d ++ ':' :: p)
    have h2 := size_cons ':' p
    have h3 := h.le (size ('@' :: (d ++ ':' :: p)))
    have e := size_append d (':' :: p)
    rw [e] at h1
    simp only [size_append, Nat.mul_add, List.length_append, List.length_cons, List.length_nil] at *
    have : (utf8 p).length = size p := rfl
    omega

theorem angleAddr_size (h : Expands k env) {t v} (ht : AngleAddr env t v) : v.length ≤ k * size t ∧ 2 ≤ t.length := by
  cases ht with
  | null => constructor <;> simp; omega
  | @addr a t v b _ ht _ =>
    have h1 := addrSpec_size h ht
    have h2 := size_cons '<' (t ++ '>' :: b)
    rw [size_append] at h2
    have h3 : size t ≤ size (a ++ '<' :: (t ++ '>' :: b)) := by rw [size_append]; omega
    have := Nat.mul_le_mul_left k h3
    exact ⟨by omega, by simp; omega⟩
  | @routed a q t v b _ _ ht _ =>
    have h1 := addrSpec_size h ht
    have h2 := size_cons '<' (q ++ (t ++ '>' :: b))
    simp only [size_append] at h2
    have h3 : size t ≤ size (a ++ '<' :: (q ++ (t ++ '>' :: b))) := by rw [size_append]; omega
    have := Nat.mul_le_mul_left k h3
    exact ⟨by omega, by simp; omega⟩

/-- Bytes that the pieces of a name contribute at most. -/
def pieceCost : Piece → Nat
  | .word v => v.length + 1
  | .punct v => v.length

theorem foldl_size : ∀ (ps : List Piece) (s : Bytes × Bool), (ps.foldl addPiece s).1.length ≤ s.1.length + (ps.map pieceCost).sum
  | [], s => by simp
  | p :: ps, s => by
    have := foldl_size ps (addPiece s p)
    have h : (addPiece s p).1.length ≤ s.1.length + pieceCost p := by
      obtain ⟨n, g⟩ := s
      cases p with
      | word v => simp only [addPiece, pieceCost]; split <;> simp <;> omega
      | punct v => simp [addPiece, pieceCost]
    simp only [List.foldl_cons, List.map_cons, List.sum_cons]; omega

theorem nameTail_size (h : Expands k env) {t ps} (ht : NameTail env t ps) : (ps.map pieceCost).sum ≤ (k + 1) * size t := by
  induction ht with
  | nil => simp
  | @word t v r ps hw _ ih =>
    have := word_size h hw
    simp only [size_append, Nat.mul_add, Nat.add_mul, Nat.one_mul, List.map_cons, List.sum_cons, pieceCost] at *; omega
  | @dot r ps _ ih =>
    have := size_cons '.' r
    have := h.le (size ('.' :: r))
    have := Nat.mul_le_mul_left k (size_cons '.' r)
    simp only [Nat.mul_add, Nat.add_mul, Nat.one_mul, List.map_cons, List.sum_cons, pieceCost, List.length_cons, List.length_nil] at *; omega
  | @«at» r ps _ ih =>
    have := size_cons '@' r
    have := h.le (size ('@' :: r))
    have := Nat.mul_le_mul_left k (size_cons '@' r)
    simp only [Nat.mul_add, Nat.add_mul, Nat.one_mul, List.map_cons, List.sum_cons, pieceCost, List.length_cons, List.length_nil] at *; omega
  | cfws _ _ ih => simp only [size_append, Nat.mul_add]; omega

theorem displayName_size (h : Expands k env) {t v} (ht : DisplayName env t v) : v.length ≤ (k + 1) * size t := by
  obtain ⟨w, v, r, ps, hw, hr, rfl, rfl⟩ := ht
  have h1 := foldl_size (.word v :: ps) ([], false)
  have h2 := word_size h hw
  have h3 := nameTail_size h hr
  simp only [renderName, size_append, Nat.mul_add, Nat.add_mul, Nat.one_mul, List.map_cons, List.sum_cons, pieceCost, List.length_nil] at *; omega

/-- Bytes in an address. -/
def Addr.bytes (a : Addr) : Nat := a.name.length + a.address.length

theorem mailbox_size (h : Expands k env) {t a} (ht : Mailbox env t a) : a.bytes ≤ (k + 1) * size t ∧ 2 ≤ t.length := by
  cases ht with
  | named hn ha =>
    have := displayName_size h hn
    have := angleAddr_size h ha
    simp only [Addr.bytes, size_append, Nat.mul_add, Nat.add_mul, List.length_append] at *; omega
  | angle ha =>
    have := angleAddr_size h ha
    simp only [Addr.bytes, Nat.add_mul, List.length_nil] at *; omega
  | bare ha =>
    have := addrSpec_size h ha
    refine ⟨by simp only [Addr.bytes, Nat.add_mul, List.length_nil] at *; omega, ?_⟩
    cases ha with
    | @plain l _ d _ _ hd =>
      have : d ≠ [] := by
        cases hd with
        | dotAtom _ h _ =>
          have : ∀ {t}, Dotted t → t ≠ [] := fun h => by
            cases h with
            | one h => exact h.1
            | cons => simp
          rcases h with h | ⟨_, _, rfl⟩
          · have := this h; simp [this]
          · simp
        | literal _ h _ => obtain ⟨_, _, _, _, rfl⟩ := h; simp
      have := List.length_pos_iff.mpr this
      simp; omega
    | port => simp; omega

/-- A text denotes a list that is not too big. -/
def Holds (k : Nat) (t : List Char) (as : List Addr) : Prop := (as.map Addr.bytes).sum ≤ (k + 1) * size t ∧ 3 * as.length ≤ t.length + 1

/-- The same for items after a separator. -/
def TailHolds (k : Nat) (t : List Char) (as : List Addr) : Prop := (as.map Addr.bytes).sum ≤ (k + 1) * size t ∧ 3 * as.length ≤ t.length

theorem TailHolds.nil {k t} : TailHolds k t [] := by simp [TailHolds]

theorem TailHolds.cons {k c t as r bs} (h1 : Holds k t as) (h2 : TailHolds k r bs) : TailHolds k (c :: (t ++ r)) (as ++ bs) := by
  have h3 := Nat.mul_le_mul_left (k + 1) (size_cons c (t ++ r))
  have := h1.1; have := h1.2; have := h2.1; have := h2.2
  simp only [size_append, Nat.mul_add] at h3
  constructor <;> simp <;> omega

theorem TailHolds.more {k c t r bs} (h2 : TailHolds k r bs) : TailHolds k (c :: (t ++ r)) bs := by
  have h3 := Nat.mul_le_mul_left (k + 1) (size_cons c (t ++ r))
  have := h2.1; have := h2.2
  simp only [size_append, Nat.mul_add] at h3
  constructor
  · omega
  · simp; omega

theorem Holds.append {k t as r bs} (h1 : Holds k t as) (h2 : TailHolds k r bs) : Holds k (t ++ r) (as ++ bs) := by
  have := h1.1; have := h1.2; have := h2.1; have := h2.2
  constructor
  · simp only [size_append, Nat.mul_add, List.map_append, List.sum_append]; omega
  · simp; omega

theorem Holds.before {k h t as} (h1 : Holds k t as) : Holds k (h ++ t) as := by
  have := h1.1; have := h1.2
  constructor
  · simp only [size_append, Nat.mul_add]; omega
  · simp; omega

theorem Holds.after {k h t as} (h1 : Holds k t as) : Holds k (t ++ h) as := by
  have := h1.1; have := h1.2
  constructor
  · simp only [size_append, Nat.mul_add]; omega
  · simp; omega

theorem commaTail_size {Item t as} (hi : ∀ {t as}, Item t as → Holds k t as) (h : CommaTail Item t as) : TailHolds k t as := by
  induction h with
  | nil => exact .nil
  | item h _ ih => exact .cons (hi h) ih
  | empty _ _ ih => exact ih.more

theorem mailbox_holds (h : Expands k env) {t a} (ht : Mailbox env t a) : Holds k t [a] := by
  have := mailbox_size h ht
  constructor
  · simpa using this.1
  · simp; omega

theorem mailboxList_size (h : Expands k env) {t as} (ht : MailboxList env t as) : Holds k t as := by
  obtain ⟨c, m, a, r, bs, _, hm, hr, rfl, rfl⟩ := ht
  refine .before ((mailbox_holds h hm).append (commaTail_size ?_ hr))
  rintro t as ⟨a, ha, rfl⟩
  exact mailbox_holds h ha

theorem group_size (h : Expands k env) {t as} (ht : Group env t as) : Holds k t as := by
  obtain ⟨q, n, nv, b, q', e, c, _, _, hb, _, _, _, rfl⟩ := ht
  have : Holds k b as := by
    cases hb with
    | list h' => exact mailboxList_size h h'
    | empty => simp [Holds]
  have e : q ++ (n ++ ':' :: (b ++ (q' ++ (e ++ c)))) = (q ++ n ++ [':']) ++ (b ++ (q' ++ (e ++ c))) := by simp
  rw [e]
  exact this.after.before

theorem address_size (h : Expands k env) {t as} (ht : Address env t as) : Holds k t as := by
  cases ht with
  | mailbox ht => exact mailbox_holds h ht
  | group ht => exact group_size h ht

theorem addressList_size (h : Expands k env) {t as} (ht : AddressList env t as) : Holds k t as := by
  cases ht with
  | strict h1 h2 =>
    refine (address_size h h1).append ?_
    clear h1
    induction h2 with
    | nil => exact .nil
    | item _ h1 _ ih => exact .cons (address_size h h1) ih
  | obs _ h1 h2 => exact .before ((address_size h h1).append (commaTail_size (fun h' => address_size h h') h2))

/-! ## Reading the input -/

theorem runeError_size : size [runeError] = 3 := by decide

theorem runesAux_size : ∀ (n : Nat) (b : Bytes), size (runesAux n b) + 3 * min n b.length ≤ 3 * b.length
  | n, [] => by cases n <;> simp [runesAux, size_nil]
  | n + 1, _ :: rest => by have := runesAux_size n rest; simp [runesAux]; omega
  | 0, b :: rest => by
    have h1 := runesAux_size (decodeRune b rest).2 rest
    have h2 := size_append [(decodeRune b rest).1] (runesAux (decodeRune b rest).2 rest)
    have h3 : size [(decodeRune b rest).1] ≤ 3 + 3 * min (decodeRune b rest).2 rest.length := by
      rcases decodeRune_cases b rest with h | h
      · rw [h]; rw [runeError_size]; omega
      · simp only [size, utf8, List.flatMap_cons, List.flatMap_nil, List.append_nil, h]
        simp; omega
    simp only [List.cons_append, List.nil_append] at h2
    simp only [runesAux, h2, List.length_cons]
    omega

theorem size_filter (p : Char → Bool) (t : List Char) : size (t.filter p) ≤ size t := by
  induction t with
  | nil => simp
  | cons c t ih =>
    have h1 := size_append [c] t
    have h2 := size_append [c] (t.filter p)
    simp only [List.cons_append, List.nil_append] at h1 h2
    rw [List.filter_cons]; split <;> omega

theorem tokens_size (input : Bytes) : size (tokens input) ≤ 3 * input.length := by
  have := runesAux_size 0 input
  have := size_filter (· |> fun c => decide (c.toNat ≤ 0xFFFF)) (runes input)
  have h : size (tokens input) ≤ size (runes input) := size_filter _ _
  unfold runes at h
  omega

/-! ## The decoder of the standard library -/

theorem qDecode_size : ∀ (n : Nat) {t v : Bytes}, t.length ≤ n → qDecode t = some v → v.length ≤ t.length
  | _, [], v, _, h => by simp [qDecode] at h; simp [← h]
  | n + 1, c :: r, v, hn, h => by
    have hn : r.length ≤ n := by simpa using hn
    rw [qDecode.eq_def] at h
    dsimp only at h
    split at h
    · obtain ⟨u, hu, rfl⟩ := Option.map_eq_some_iff.mp h
      have := qDecode_size n hn hu; simp; omega
    · split at h
      · split at h
        · rename_i a b r hn0
          split at h
          · obtain ⟨u, hu, rfl⟩ := Option.map_eq_some_iff.mp h
            have := qDecode_size n (by simp at hn; omega) hu; simp; omega
          · cases h
        · cases h
      · split at h
        · obtain ⟨u, hu, rfl⟩ := Option.map_eq_some_iff.mp h
          have := qDecode_size n hn hu; simp; omega
        · cases h

theorem b64Quanta_size : ∀ (n : Nat) {t v : Bytes}, t.length ≤ n → b64Quanta t = some v → v.length ≤ t.length
  | n, t, v, hn, h => by
    rw [b64Quanta.eq_def] at h
    split at h
    · cases h; simp
    · repeat' (split at h)
      all_goals first | (cases h; done) | (cases h; simp; done) | skip
    · rename_i a b c d r _
      split at h
      · obtain ⟨u, hu, rfl⟩ := Option.map_eq_some_iff.mp h
        cases n with
        | zero => simp at hn
        | succ n => have := b64Quanta_size n (t := r) (by simp at hn; omega) hu; simp; omega
      · cases h
    · cases h

theorem decodeText_size {e : UInt8} {t v : Bytes} (h : decodeText e t = some v) : v.length ≤ t.length := by
  unfold decodeText at h
  split at h
  · have := b64Quanta_size _ (Nat.le_refl _) h
    exact Nat.le_trans this (List.length_filter_le _ _)
  · split at h
    · exact qDecode_size _ (Nat.le_refl _) h
    · cases h

theorem flatMap_size {f : UInt8 → Bytes} (hf : ∀ b, (f b).length ≤ 3) (t : Bytes) : (t.flatMap f).length ≤ 3 * t.length := by
  induction t with
  | nil => simp
  | cons b t ih => have := hf b; simp only [List.flatMap_cons, List.length_append, List.length_cons]; omega

/-- Nothing the reader returns is more than `k` times as long as what it is given. -/
def ReaderExpands (k : Nat) : CharsetReader → Prop
  | none => True
  | some f => ∀ charset content v, f charset content = some v → v.length ≤ k * content.length

theorem encodeRune_byte (b : UInt8) : (encodeRune (Char.ofNat b.toNat)).length ≤ 3 := by
  have hb : b.toNat < 256 := b.toNat_lt
  have : (Char.ofNat b.toNat).toNat = b.toNat := by
    have hv : b.toNat.isValidChar := .inl (by omega)
    simp [Char.ofNat, hv, Char.toNat, Char.ofNatAux]
  unfold encodeRune
  simp only [this]
  repeat' split
  all_goals first | (simp; done) | omega

theorem convert_size {k : Nat} {cr : CharsetReader} (hk : 3 ≤ k) (hc : ReaderExpands k cr) {cs t v : Bytes} (h : convert cr cs t = some v) :
    v.length ≤ k * t.length := by
  have h3 := Nat.mul_le_mul_right t.length hk
  rw [convert.eq_def] at h
  split at h
  · cases h; omega
  · split at h
    · cases h
      have := flatMap_size encodeRune_byte t
      omega
    · split at h
      · cases h
        have := flatMap_size (f := fun b => if b.toNat ≥ 0x80 then encodeRune runeError else [b]) (fun b => by
          split
          · exact Nat.le_of_eq runeError_size
          · simp) t
        omega
      · cases cr with
        | none => cases h
        | some f => exact hc _ _ _ h

theorem takeWhile_dropWhile (p : UInt8 → Bool) (r : Bytes) : (r.dropWhile p).length ≤ r.length := by
  induction r with
  | nil => simp
  | cons c r ih => rw [List.dropWhile_cons]; split <;> simp; omega

theorem wordDecode_size {k : Nat} {cr : CharsetReader} (hk : 3 ≤ k) (hc : ReaderExpands k cr) {t v : Bytes} (h : wordDecode cr t = some v) :
    v.length ≤ k * t.length := by
  unfold wordDecode at h
  split at h
  · cases h
  · split at h
    · rename_i r _
      split at h
      · cases h
      · rename_i r' hr'
        have hl : r'.length ≤ r.length := by
          unfold cutEnd at hr'
          split at hr'
          · cases hr'; simp
          · cases hr'
        dsimp only at h
        split at h
        · rename_i x enc text hd
          have h1 := takeWhile_dropWhile (· != 0x3F) r'
          rw [hd] at h1
          split at h
          · cases h
          · split at h
            · cases h
            · rename_i content hcon
              have h2 := decodeText_size hcon
              have h3 := convert_size hk hc h
              simp at h1
              have : content.length ≤ r.length + 2 := by omega
              have := Nat.mul_le_mul_left k this
              show v.length ≤ k * (r.length + 2)
              omega
        · cases h
    · cases h

theorem goEnv_expands {k : Nat} {cr : CharsetReader} (hk : 3 ≤ k) (hc : ReaderExpands k cr) (year : Int) : Expands k (goEnv cr year) :=
  ⟨by omega, fun _ _ h => wordDecode_size hk hc h⟩

end Rfc5322
