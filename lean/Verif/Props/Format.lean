import Verif.Proofs.MailString
import Verif.Props.Shape
import Verif.Props.Clear

/-!
# C46: what `(*mail.Address).String` writes is read back

`addressString` is the method `String` of the elements of the slice that `ParseAddressList` returns (package net/mail),
`addressesString` joins several of them with `", "`, as in a header field.  The conditions are in `Verif/Spec/Format.lean`.
-/

namespace Rfc5322.Props

open Spec

/-- What becomes of an address on the way: spaces and tabs at the end of a printable ASCII name are lost. -/
def readBack (a : Addr) : Addr := ⟨if printable a.name then trimEnd a.name else a.name, a.address⟩

/-- An address `local@domain` that can be written down. -/
def Writable (a : Addr) : Prop := ∃ l d, LocalText l ∧ HostText d ∧ '@' ∉ d ∧ a.address = encode (l ++ '@' :: d)

theorem writable_box (cr : CharsetReader) (year : Int) {a : Addr} (h : Writable a) {w : List Char}
    (hw : OptCfws w) : ∃ t, addressString a = encode t ∧ ClearBox (goEnv cr year) (w ++ t) (readBack a) := by
  obtain ⟨l, d, hl, hd, hat, e⟩ := h
  obtain ⟨name, address⟩ := a
  simp only at e
  subst e
  obtain ⟨t, h1, h2⟩ := addressString_box cr year (name := name) hl hd hat hw
  exact ⟨t, by rw [encode_eq, encode_eq]; exact h1, by rw [readBack, encode_eq]; exact h2⟩

/-- The text written for an address is read as exactly that address, up to white space at the end of its name.  The name may be
any byte string. -/
theorem C46_string_is_read_back (P : Predictor) (cr : CharsetReader) (year : Int) {a : Addr} (h : Writable a) :
    parseAddressList P (goEnv cr year) (addressString a) = .ok (some [readBack a], none) := by
  obtain ⟨t, h1, h2⟩ := writable_box cr year h (w := []) OptCfws.nil
  rw [h1]; exact parse_box P h2

/-- Nothing is lost if the name does not end in white space, or if it is not printable ASCII. -/
theorem C46_read_back_exact {a : Addr} (h : printable a.name = false ∨ ∀ b ∈ a.name.getLast?, b ≠ 0x20 ∧ b ≠ 0x09) : readBack a = a := by
  obtain ⟨name, address⟩ := a
  simp only [readBack, Addr.mk.injEq, and_true]
  simp only at h
  split
  · rename_i hp
    rcases h with h | h
    · rw [hp] at h; cases h
    · rcases List.eq_nil_or_concat name with rfl | ⟨x, c, rfl⟩
      · rfl
      · rw [List.concat_eq_append] at h ⊢
        have := h c (by simp)
        simp [trimEnd, List.dropWhile_cons, this.1, this.2]
  · rfl

/-- A list of addresses. -/
theorem C46_lists_are_read_back (P : Predictor) (cr : CharsetReader) (year : Int) {as : List Addr} (hne : as ≠ []) (h : ∀ a ∈ as, Writable a) :
    parseAddressList P (goEnv cr year) (addressesString as) = .ok (some (as.map readBack), none) := by
  have key : ∀ as : List Addr, as ≠ [] → (∀ a ∈ as, Writable a) → ∀ w, OptCfws w →
      ∃ t, encode w ++ addressesString as = encode t ∧ ClearList (goEnv cr year) t (as.map readBack) := by
    intro as
    induction as with
    | nil => intro h; exact absurd rfl h
    | cons a as ih =>
      intro _ h w hw
      obtain ⟨t, h1, h2⟩ := writable_box cr year (h a (by simp)) hw
      cases as with
      | nil => exact ⟨w ++ t, by rw [addressesString, h1, encode_eq, encode_eq, encode_eq, utf8_append], .one (.box h2)⟩
      | cons b as =>
        obtain ⟨r, h3, h4⟩ := ih (by simp) (fun a ha => h a (by simp [ha])) [' '] optCfws_space
        refine ⟨(w ++ t) ++ ',' :: r, ?_, ?_⟩
        · rw [addressesString, h1]
          simp only [encode_eq] at h3 ⊢
          rw [utf8_append, utf8_append, utf8_cons, ← h3]
          simp [show encodeRune ',' = [0x2C] from rfl, show utf8 [' '] = [0x20] from rfl]
          simp
        · exact .cons (.box h2) (.inl rfl) h4
  obtain ⟨t, h1, h2⟩ := key as hne h [] OptCfws.nil
  have e : addressesString as = encode t := by rw [← h1]; rfl
  rw [e, parse_clear P h2]
  cases as with
  | nil => exact absurd rfl hne
  | cons a as => rfl

/-- The addresses that `ParseAddressList` returns are writable if what precedes the last `@` is: either the address is empty
(`<>`), or it ends in a domain. -/
theorem C46_results_are_read_back {P : Predictor} {env : Env} {input : Bytes} {text : List Char} {as : List Addr} (hne : input ≠ [])
    (hr : ReadsAs input text) (h : parseAddressList P env input = .ok (some as, none)) (P' : Predictor) (cr : CharsetReader) (year : Int) :
    ∀ a ∈ as, a.address = [] ∨ ∃ loc d, HostText d ∧ a.address = loc ++ (b!"@" ++ encode d) ∧
      ((∃ l, LocalText l ∧ loc = encode l) → '@' ∉ d →
        parseAddressList P' (goEnv cr year) (addressString a) = .ok (some [readBack a], none)) := by
  intro a ha
  rcases C24_shape_of_addresses hne hr h a ha with ⟨h1, _⟩ | ⟨loc, d, p, h1, h2, h3⟩
  · exact .inl h1
  · refine .inr ⟨loc, d ++ p, ?_, ?_, ?_⟩
    · rcases h3 with rfl | ⟨n, rfl, hn, hdig⟩
      · rw [List.append_nil]
        rcases h2 with h2 | h2
        · exact .dotAtom h2
        · exact .literal h2
      · rcases h2 with h2 | h2
        · exact .dotAtomPort h2 hn hdig
        · exact .literalPort h2 hn hdig
    · rw [h1]; simp only [encode_eq, utf8_append]
    · rintro ⟨l, hl, rfl⟩ hat
      refine C46_string_is_read_back P' cr year ⟨l, d ++ p, hl, ?_, hat, ?_⟩
      · rcases h3 with rfl | ⟨n, rfl, hn, hdig⟩
        · rw [List.append_nil]
          rcases h2 with h2 | h2
          · exact .dotAtom h2
          · exact .literal h2
        · rcases h2 with h2 | h2
          · exact .dotAtomPort h2 hn hdig
          · exact .literalPort h2 hn hdig
      · rw [h1]; simp only [encode_eq, utf8_append, utf8_cons]; rfl

/-- A name with a line break, quotation marks and a character above U+FFFF; a local part that needs quotation marks. -/
example : Writable ⟨encode c!"\"x\"\r\n😀", encode c!"a b.@[::1]:25"⟩ := by
  refine ⟨c!"a b.", c!"[::1]:25", ⟨by simp, by decide, by decide⟩, .literalPort (d := c!"[::1]") (p := c!"25") ?_ (by simp) (by decide), by decide, rfl⟩
  exact ⟨c!"::1", [], .char (f := []) (.inl rfl) (by decide) (.char (f := []) (.inl rfl) (by decide) (.char (f := []) (.inl rfl) (by decide) .nil)),
    .inl rfl, rfl⟩

/-- What is not covered: the null address, an empty local part and a local part with a control character are not read back. -/
example (P : Predictor) : parseAddressList P env0 (encode c!"<>") = .ok (some [⟨[], []⟩], none) ∧
    addressString ⟨[], []⟩ = b!"<@>" ∧ parseAddressList P env0 b!"<@>" = .ok (none, some .syntaxError) :=
  ⟨by eval_addr, by decide, by eval_addr⟩
example (P : Predictor) : parseAddressList P env0 (encode c!"\"\"@b") = .ok (some [⟨[], b!"@b"⟩], none) ∧
    addressString ⟨[], b!"@b"⟩ = b!"<@b>" ∧ parseAddressList P env0 b!"<@b>" = .ok (none, some .syntaxError) :=
  ⟨by eval_addr, by decide, by eval_addr⟩
example (P : Predictor) : parseAddressList P env0 (encode c!"\"a\u0001\"@b") = .ok (some [⟨[], b!"a\x01@b"⟩], none) ∧
    addressString ⟨[], b!"a\x01@b"⟩ = b!"<\"a\"@b>" :=
  ⟨by eval_addr, by decide⟩

end Rfc5322.Props
