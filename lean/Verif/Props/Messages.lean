import Verif.Spec.Messages
import Verif.Proofs.RecLog
import Verif.Props.Whole
import Verif.Proofs.Size

/-!
# C76: error messages

The text of the error that `ParseAddressList` and `ParseDateTime` return is one line, about a piece of the input.
-/

namespace Rfc5322.Props

open Spec Atn Gen AllStar Whole Messages
open Recovery (expected Report)

/-- Messages are those of the runtime, if there are such: a set of expected tokens without elements has no text. -/
def _root_.Rfc5322.Whole.Process.Speaks (W : Process) : Prop :=
  ∀ m, (expecting parserNet m).isSome = true → ∃ t, Says parserNet m t ∧ W.text m = utf8 t

/-! ## Names -/

theorem types_names (X : Option Char → Prop) : List.Sublist ((Messages.types X).map elementName) tokenNames := by
  classical
  unfold Messages.types tokenNames
  refine List.Sublist.map _ ?_
  have h : (List.range 71).map some = some 0 :: (List.range' 1 70).map some := by decide
  rw [h, List.filter_cons]
  split
  · refine List.Sublist.cons_cons _ ?_
    rw [List.filter_cons, if_neg]
    · exact List.filter_sublist
    · rw [decide_eq_true_eq]
      rintro ⟨t, -, h1, -⟩
      cases t with
      | none => cases h1
      | some c =>
        obtain ⟨k, -, hk⟩ := Option.map_eq_some_iff.mp h1.symm
        unfold typeOf at hk
        omega
  · refine List.Sublist.cons _ ?_
    rw [List.filter_cons, if_neg]
    · exact List.filter_sublist
    · rw [decide_eq_true_eq]
      rintro ⟨t, -, h1, -⟩
      cases t with
      | none => cases h1
      | some c =>
        obtain ⟨k, -, hk⟩ := Option.map_eq_some_iff.mp h1.symm
        unfold typeOf at hk
        omega

theorem typeOf_lt (k : Tok) : typeOf k < 71 := by cases k <;> decide

/-- Something is expected: there are names. -/
theorem types_ne {X : Option Char → Prop} {t : Option Char} (ht : ∀ c, t = some c → (tokenType c).isSome = true) (h : X t) : Messages.types X ≠ [] := by
  classical
  have hm : t.bind tokenType ∈ Messages.types X := by
    unfold Messages.types
    rw [List.mem_filter, decide_eq_true_eq]
    refine ⟨?_, t, h, rfl, ?_⟩
    · cases t with
      | none => exact List.mem_cons_self ..
      | some c =>
        obtain ⟨k, hk⟩ := Option.isSome_iff_exists.mp (ht c rfl)
        obtain ⟨j, -, hj⟩ := Option.map_eq_some_iff.mp hk
        rw [Option.bind_some, hk]
        refine List.mem_cons_of_mem _ (List.mem_map.mpr ⟨k, List.mem_range.mpr ?_, rfl⟩)
        rw [← hj]; exact typeOf_lt j
    · cases t with
      | none => simp
      | some c =>
        obtain ⟨k, hk⟩ := Option.isSome_iff_exists.mp (ht c rfl)
        simp [hk]
  intro h0
  rw [h0] at hm
  cases hm

theorem join_eq : ∀ ns : List (List Char), join ns = (", ".toList).intercalate ns
  | [] => rfl
  | [n] => by simp [join, List.intercalate]
  | n :: m :: ns => by
    rw [join, join_eq (m :: ns)]
    · simp [List.intercalate]
    · simp

theorem expecting_names {m : Recovery.Report} {e : List Char} (h : expecting parserNet m = some e) : Names e := by
  have hs := types_names (expected parserNet m.callers m.state)
  rw [expecting] at h
  generalize (Messages.types (expected parserNet m.callers m.state)).map elementName = ns at h hs
  match ns, h with
  | [n], h => cases h; exact .one (hs.subset (List.mem_cons_self ..))
  | n :: n' :: ns, h =>
    cases h
    have := Names.several (ns := n :: n' :: ns) (by simp) hs
    rw [← join_eq] at this
    exact this

theorem quote_quoted {text w : List Char} (hne : w ≠ []) (h : w <:+: text) : Quoted text (quote w) := by
  have e : quote w = "'".toList ++ w.flatMap shown ++ "'".toList := rfl
  rw [e]
  exact .piece hne h

theorem display_quoted {text s : List Char} (h : s <:+ text) : Quoted text (display s) := by
  cases s with
  | nil => exact .atEnd
  | cons c s => exact quote_quoted (by simp) (List.IsInfix.trans (List.IsPrefix.isInfix ⟨s, rfl⟩) h.isInfix)

/-- What is said has one of the forms. -/
theorem says_text {toks t : List Char} {m : Recovery.Report} (hm : m.rest <:+ toks) (h : Says parserNet m t) : ErrorText toks t := by
  unfold Says at h
  split at h
  · obtain ⟨e, h1, rfl⟩ := h
    exact .extraneous (display_quoted hm) (expecting_names h1)
  · obtain ⟨e, h1, rfl⟩ := h
    exact .missing (display_quoted hm) (expecting_names h1)
  · obtain ⟨e, h1, rfl⟩ := h
    exact .mismatched (display_quoted hm) (expecting_names h1)
  · obtain ⟨n, hn, rfl⟩ := h
    · generalize m.rest = s at hm
      cases s with
      | nil => exact .noViable .atEnd
      | cons c s =>
        rw [noViable]
        refine .noViable (quote_quoted ?_ (List.IsInfix.trans (List.take_prefix ..).isInfix hm.isInfix))
        cases n with
        | zero => cases hn
        | succ n => simp

/-! ## Bytes -/

theorem utf8_byte {c : Char} {b : UInt8} (h : b ∈ encodeRune c) (hb : b.toNat < 128) : c.toNat = b.toNat := by
  unfold encodeRune at h
  have hc : c.toNat < 0x110000 := by
    have h1 := c.valid
    unfold UInt32.isValidChar Nat.isValidChar at h1
    change c.val.toNat < _
    omega
  dsimp only at h
  split at h
  · simp only [List.mem_singleton] at h
    subst h
    simp; omega
  · exfalso
    split at h
    · simp only [List.mem_cons, List.not_mem_nil, or_false] at h
      rcases h with rfl | rfl <;> (simp at hb; omega)
    · split at h
      · simp only [List.mem_cons, List.not_mem_nil, or_false] at h
        rcases h with rfl | rfl | rfl <;> (simp at hb; omega)
      · simp only [List.mem_cons, List.not_mem_nil, or_false] at h
        rcases h with rfl | rfl | rfl | rfl <;> (simp at hb; omega)

/-- No character of the text is written with bytes below 32, except those that are such bytes. -/
theorem utf8_free {t : List Char} {b : UInt8} (hb : b.toNat < 128) (h : ∀ c ∈ t, c.toNat ≠ b.toNat) : b ∉ utf8 t := by
  intro hm
  obtain ⟨c, hc, hm⟩ := List.mem_flatMap.mp hm
  exact h c hc (utf8_byte hm hb)

/-- No tab, no line break. -/
def Plain (s : List Char) : Prop := ∀ c ∈ s, c.toNat ≠ 9 ∧ c.toNat ≠ 10 ∧ c.toNat ≠ 13

instance (s : List Char) : Decidable (Plain s) := by unfold Plain; infer_instance

theorem Plain.append {s t : List Char} (hs : Plain s) (ht : Plain t) : Plain (s ++ t) := fun c hc => (List.mem_append.mp hc).elim (hs c) (ht c)

theorem shown_plain (c : Char) : Plain (shown c) := by
  unfold shown
  split
  · decide
  · split
    · decide
    · split
      · decide
      · rename_i h1 h2 h3
        intro d hd
        rw [List.mem_singleton] at hd
        subst hd
        refine ⟨fun h => h1 ?_, fun h => h2 ?_, fun h => h3 ?_⟩ <;> exact Char.toNat_inj.mp h

theorem Plain.flatMap (w : List Char) : Plain (w.flatMap shown) := fun c hc => by
  obtain ⟨d, -, h⟩ := List.mem_flatMap.mp hc
  exact shown_plain d c h

theorem quoted_plain {text q : List Char} (h : Quoted text q) : Plain q := by
  cases h with
  | piece => exact ((show Plain _ by decide).append (.flatMap _)).append (by decide)
  | atEnd => decide

theorem tokenNames_plain : ∀ n ∈ tokenNames, Plain n := by decide +kernel

theorem names_plain {e : List Char} (h : Names e) : Plain e := by
  cases h with
  | one h => exact tokenNames_plain _ h
  | several _ hs =>
    refine ((show Plain _ by decide).append ?_).append (by decide)
    rw [← join_eq]
    rename_i ns h2
    clear h2
    induction ns with
    | nil => intro c hc; cases hc
    | cons n ns ih =>
      have hn := tokenNames_plain n (hs.subset (List.mem_cons_self ..))
      cases ns with
      | nil => exact hn
      | cons m ns =>
        rw [join]
        · exact (hn.append (by decide)).append (ih ((List.sublist_cons_self ..).trans hs))
        · simp

/-- Messages have no tabs and line breaks. -/
theorem errorText_plain {text t : List Char} (h : ErrorText text t) : Plain t := by
  cases h with
  | extraneous hq he => exact (((show Plain _ by decide).append (quoted_plain hq)).append (by decide)).append (names_plain he)
  | missing hq he => exact (((show Plain _ by decide).append (names_plain he)).append (by decide)).append (quoted_plain hq)
  | mismatched hq he => exact (((show Plain _ by decide).append (quoted_plain hq)).append (by decide)).append (names_plain he)
  | noViable hq => exact (show Plain _ by decide).append (quoted_plain hq)

theorem plain_bytes {t : List Char} (h : Plain t) : ∀ b ∈ utf8 t, b ≠ 9 ∧ b ≠ 10 ∧ b ≠ 13 := by
  intro b hb
  refine ⟨?_, ?_, ?_⟩ <;> (rintro rfl; refine utf8_free (by decide) (fun c hc => ?_) hb)
  · exact (h c hc).1
  · exact (h c hc).2.1
  · exact (h c hc).2.2

/-! ## Length -/

theorem shown_size {c : Char} (h : c.toNat ≤ 0xFFFF) : size (shown c) ≤ 3 := by
  unfold shown
  split
  · decide
  · split
    · decide
    · split
      · decide
      · simp only [size, utf8, List.flatMap_cons, List.flatMap_nil, List.append_nil]
        unfold encodeRune
        dsimp only
        split
        · simp
        · split
          · simp
          · split
            · simp
            · omega

theorem flatMap_size {w : List Char} (h : ∀ c ∈ w, c.toNat ≤ 0xFFFF) : size (w.flatMap shown) ≤ 3 * w.length := by
  induction w with
  | nil => decide
  | cons c w ih =>
    have h1 := shown_size (h c (List.mem_cons_self ..))
    have h2 := ih fun d hd => h d (List.mem_cons_of_mem _ hd)
    rw [List.flatMap_cons, size_append, List.length_cons]
    omega

theorem quoted_size {text q : List Char} (htext : ∀ c ∈ text, c.toNat ≤ 0xFFFF) (h : Quoted text q) : size q ≤ 3 * text.length + 7 := by
  cases h with
  | piece _ hw =>
    have h1 := flatMap_size (fun c hc => htext c (hw.subset hc))
    have h2 := hw.length_le
    rw [size_append, size_append, show size "'".toList = 1 from by decide]
    omega
  | atEnd => rw [show size "'<EOF>'".toList = 7 from by decide]; omega

/-- The length of names with separators. -/
def namesSize (ns : List (List Char)) : Nat := (ns.map fun n => size n + 2).sum

theorem join_size : ∀ ns : List (List Char), size (join ns) ≤ namesSize ns
  | [] => Nat.le_refl _
  | [n] => by simp [join, namesSize]
  | n :: m :: ns => by
    have := join_size (m :: ns)
    rw [join, size_append, size_append, show size c!", " = 2 from by decide]
    · simp only [namesSize, List.map_cons, List.sum_cons] at this ⊢
      omega
    · simp

theorem namesSize_sublist {as bs : List (List Char)} (h : List.Sublist as bs) : namesSize as ≤ namesSize bs := by
  induction h with
  | slnil => exact Nat.le_refl _
  | cons a _ ih => simp only [namesSize, List.map_cons, List.sum_cons] at ih ⊢; omega
  | cons_cons a _ ih => simp only [namesSize, List.map_cons, List.sum_cons] at ih ⊢; omega

theorem tokenNames_size : namesSize tokenNames = 347 := by decide +kernel

theorem names_size {e : List Char} (h : Names e) : size e ≤ 349 := by
  cases h with
  | one h =>
    have h1 := namesSize_sublist (List.singleton_sublist.mpr h)
    rw [tokenNames_size] at h1
    simp only [namesSize, List.map_cons, List.map_nil, List.sum_cons, List.sum_nil] at h1
    omega
  | several _ hs =>
    have h1 := namesSize_sublist hs
    rw [tokenNames_size] at h1
    rw [size_append, size_append, ← join_eq, show size "{".toList = 1 from by decide, show size "}".toList = 1 from by decide]
    have h2 := join_size
    exact Nat.le_trans (Nat.add_le_add_right (Nat.add_le_add_left (Nat.le_trans (h2 _) h1) 1) 1) (by omega)

/-- Messages are not much longer than the text. -/
theorem errorText_size {text t : List Char} (htext : ∀ c ∈ text, c.toNat ≤ 0xFFFF) (h : ErrorText text t) : size t ≤ 3 * text.length + 384 := by
  cases h with
  | extraneous hq he =>
    have h1 := quoted_size htext hq
    have h2 := names_size he
    rw [size_append, size_append, size_append, show size "extraneous input ".toList = 17 from by decide, show size " expecting ".toList = 11 from by decide]
    omega
  | missing hq he =>
    have h1 := quoted_size htext hq
    have h2 := names_size he
    rw [size_append, size_append, size_append, show size "missing ".toList = 8 from by decide, show size " at ".toList = 4 from by decide]
    omega
  | mismatched hq he =>
    have h1 := quoted_size htext hq
    have h2 := names_size he
    rw [size_append, size_append, size_append, show size "mismatched input ".toList = 17 from by decide, show size " expecting ".toList = 11 from by decide]
    omega
  | noViable hq =>
    have h1 := quoted_size htext hq
    rw [size_append, show size "no viable alternative at input ".toList = 31 from by decide]
    omega

/-! ## The errors that are returned -/

theorem parse_log {W : Process} (hW : W.Occurs) {r : Rule} {input : Bytes} {ts : List Tree} {log : List Report} (h : parse W r input = some (ts, log)) :
    ∀ m ∈ log, m.rest <:+ tokens input ∧ ∃ t, (∀ c, t = some c → (tokenType c).isSome = true) ∧ expected parserNet m.callers m.state t := by
  rw [parse, C70_scan hW, Option.bind_some] at h
  split at h
  · rename_i us S hS
    cases h
    exact Recovery.parser_log hS
  · cases h

/-- Whatever is reported, something is expected there: the runtime finds names for the message, and does not panic. -/
theorem C76_something_is_expected {W : Process} (hW : W.Occurs) (r : Rule) (input : Bytes) {ts : List Tree} {log : List Report} (h : parse W r input = some (ts, log)) :
    ∀ m ∈ log, (expecting parserNet m).isSome = true := by
  intro m hm
  obtain ⟨-, t, h1, h2⟩ := parse_log hW h m hm
  have h3 := types_ne h1 h2
  rw [expecting]
  generalize Messages.types (expected parserNet m.callers m.state) = ks at h3
  match ks, h3 with
  | [_], _ => rfl
  | _ :: _ :: _, _ => rfl

/-- Whatever is reported has one of the forms. -/
theorem C76_reports {W : Process} (hW : W.Occurs) (hS : W.Speaks) (r : Rule) (input : Bytes) {ts : List Tree} {log : List Report} (h : parse W r input = some (ts, log)) :
    ∀ m ∈ log, ∃ t, ErrorText (tokens input) t ∧ W.text m = utf8 t := by
  intro m hm
  obtain ⟨t, h1, h2⟩ := hS m (C76_something_is_expected hW r input h m hm)
  exact ⟨t, says_text (parse_log hW h m hm).1 h1, h2⟩

/-- What `ParseAddressList` returns as an error is a message of one of the forms. -/
theorem C76_addresses {W : Process} (hW : W.Occurs) (hS : W.Speaks) {n : Nat} (hn : 3 ≤ n) {h h' : Go.Heap} {input : Bytes} (hne : input ≠ []) {v e : Go.Val}
    (hr : Whole.parseAddressList W n input h = .ok ([v, e], h')) (he : e ≠ .nil) :
    ∃ t, ErrorText (tokens input) t ∧ e = .err (.new (b!"error parsing rfc5322 input: " ++ utf8 t)) := by
  rcases C70_addresses hW hn h hne with ⟨l, v', h'', -, h1, -⟩ | ⟨-, ts, m, log, v', h'', h1, -, h2, -⟩
  · rw [h1] at hr
    cases hr
    exact absurd rfl he
  · rw [h2] at hr
    cases hr
    obtain ⟨t, h3, h4⟩ := C76_reports hW hS _ input h1 m (List.mem_cons_self ..)
    exact ⟨t, h3, by rw [h4]⟩

/-- The same for `ParseDateTime`. -/
theorem C76_dates {W : Process} (hW : W.Occurs) (hS : W.Speaks) {n : Nat} (hn : 3 ≤ n) {h h' : Go.Heap} {input : Bytes} (hne : input ≠ []) {v e : Go.Val}
    (hr : Whole.parseDateTime W n input h = .ok ([v, e], h')) (he : e ≠ .nil) :
    ∃ t, ErrorText (tokens input) t ∧ e = .err (.new (b!"error parsing rfc5322 input: " ++ utf8 t)) := by
  rcases C70_dates hW hn h hne with ⟨f, h'', -, h1⟩ | ⟨-, ts, m, log, h'', h1, -, h2⟩
  · rw [h1] at hr
    cases hr
    exact absurd rfl he
  · rw [h2] at hr
    cases hr
    obtain ⟨t, h3, h4⟩ := C76_reports hW hS _ input h1 m (List.mem_cons_self ..)
    exact ⟨t, h3, by rw [h4]⟩

theorem tokens_bmp (input : Bytes) : ∀ c ∈ tokens input, c.toNat ≤ 0xFFFF := by
  intro c hc
  rw [tokens_eq] at hc
  exact of_decide_eq_true (List.mem_filter.mp hc).2

/-- The text of an error is one line: no byte is a tab or a line break.  And it is at most three times as long as the input, and 413 bytes. -/
theorem C76_one_line {input : Bytes} {t : List Char} (h : ErrorText (tokens input) t) :
    (∀ b ∈ b!"error parsing rfc5322 input: " ++ utf8 t, b ≠ 9 ∧ b ≠ 10 ∧ b ≠ 13) ∧ (b!"error parsing rfc5322 input: " ++ utf8 t).length ≤ 3 * input.length + 413 := by
  refine ⟨fun b hb => ?_, ?_⟩
  · rcases List.mem_append.mp hb with hb | hb
    · exact (by decide : ∀ b ∈ b!"error parsing rfc5322 input: ", b ≠ 9 ∧ b ≠ 10 ∧ b ≠ 13) b hb
    · exact plain_bytes (errorText_plain h) b hb
  · have h1 := errorText_size (tokens_bmp input) h
    have h2 := tokens_length input
    rw [List.length_append, show (b!"error parsing rfc5322 input: ").length = 29 from by decide]
    unfold size at h1
    omega

/-- For texts in UTF-8 without code points above U+FFFF, what is quoted is a piece of the text itself. -/
theorem C76_quotes_the_text {s t : List Char} (hs : ∀ c ∈ s, c.toNat ≤ 0xFFFF) (h : ErrorText (tokens (utf8 s)) t) : ErrorText s t := by
  rw [tokens_utf8, List.filter_eq_self.mpr fun c hc => decide_eq_true (hs c hc)] at h
  exact h

/-! ## Examples -/

open Classical in
/-- A process that says what the runtime says. -/
noncomputable def talking (env : Env) : Process := { fresh env with text := fun m => if h : ∃ t, Says parserNet m t then utf8 h.choose else [] }

theorem talking_speaks (env : Env) : (talking env).Speaks := by
  intro m h
  obtain ⟨e, he⟩ := Option.isSome_iff_exists.mp h
  have h1 : ∃ t, Says parserNet m t := by
    unfold Says
    split
    · exact ⟨_, e, he, rfl⟩
    · exact ⟨_, e, he, rfl⟩
    · exact ⟨_, e, he, rfl⟩
    · exact ⟨_, 1, Nat.one_pos, rfl⟩
  refine ⟨h1.choose, h1.choose_spec, ?_⟩
  classical
  change (if h : ∃ t, Says parserNet m t then utf8 h.choose else []) = _
  rw [dif_pos h1]

/-- A text that is not an address list. -/
example : ∃ v t h', ErrorText c!"a\t@b\n" t ∧
    Whole.parseAddressList (talking env0) 3 (utf8 c!"a\t@b\n") [] = .ok ([v, .err (.new (b!"error parsing rfc5322 input: " ++ utf8 t))], h') := by
  obtain ⟨P⟩ := Predictor.nonempty
  have hW : (talking env0).Occurs := ⟨fun _ _ => .refl, fun _ _ _ _ => .refl⟩
  have h5 : Rfc5322.parseAddressList P env0 (utf8 c!"a\t@b\n") = .ok (none, some .syntaxError) := by eval_addr
  obtain ⟨slice, err, v, e, h', h1, h2, h3, h4⟩ := C70_same_addresses hW P (Nat.le_refl 3) [] (utf8 c!"a\t@b\n")
  rw [show (talking env0).env = env0 from rfl, h5] at h2
  cases h2
  have he : e ≠ .nil := by
    rintro rfl
    exact absurd h4 (by simp [Go.errorIs])
  obtain ⟨t, h6, rfl⟩ := C76_addresses hW (talking_speaks env0) (Nat.le_refl 3) (by decide) h1 he
  exact ⟨v, t, h', C76_quotes_the_text (by decide) h6, h1⟩

/-- A message with a tab. -/
example : ErrorText c!"a\t@b\n" c!"extraneous input '\\t' expecting {'@', '['}" :=
  .extraneous (q := c!"'\\t'") (e := c!"{'@', '['}") (.piece (w := ['\t']) (by decide) ⟨['a'], c!"@b\n", rfl⟩) (.several (ns := [c!"'@'", c!"'['"]) (by decide) (by decide))

/-- Not a message: what is quoted is not in the text. -/
example : ¬ Quoted c!"ab" c!"'c'" := by
  intro h
  have h1 : ∀ q, Quoted c!"ab" q → q = c!"'c'" → False := by
    intro q hq
    cases hq with
    | piece hne hw =>
      rename_i w
      intro e
      obtain ⟨c, w, rfl⟩ := List.exists_cons_of_ne_nil hne
      have hc : c = 'a' ∨ c = 'b' := by simpa using hw.subset (List.mem_cons_self ..)
      rcases hc with rfl | rfl <;> simp [shown] at e
    | atEnd => decide
  exact h1 _ h rfl

end Rfc5322.Props
