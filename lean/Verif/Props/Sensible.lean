import Verif.Props.FirstError
import Verif.Proofs.RecHonest

/-!
# C78: error messages do not contradict themselves

Where a message says which tokens are expected, the token it complains about is not one of them.
-/

namespace Rfc5322.Props

open Spec Atn Gen AllStar Whole Messages
open Recovery (expected Report)

/-- The numbers of types, and the end of the input. -/
def typeNumbers : List (Option Nat) := none :: (List.range' 1 70).map some

/-- No two types have the same name. -/
theorem C78_names_differ : ∀ a ∈ typeNumbers, ∀ b ∈ typeNumbers, elementName a = elementName b → a = b := by decide +kernel

/-- The names tell which characters are meant. -/
theorem C78_names_show (c : Char) (hc : c.toNat ≤ 0xFFFF) (s : List Char) : nextName (c :: s) = nameOf c := by
  change elementName (tokenType c) = nameOf c
  by_cases h : c.toNat < 128
  · have key : ∀ n < 128, elementName (tokenType (Char.ofNat n)) = nameOf (Char.ofNat n) := by decide +kernel
    have := key c.toNat h
    rwa [Char.ofNat_toNat] at this
  · have h1 : lexRune c = some .UTF8NonAscii := by
      rw [lexRune_eq_some_iff]
      simp only [Tok.matches, Tok.ranges, List.any_cons, List.any_nil, Bool.or_false, Bool.and_eq_true, Nat.ble_eq]
      omega
    have h2 : tokenType c = some 44 := by
      unfold tokenType
      rw [h1]
      rfl
    rw [h2]
    unfold nameOf
    dsimp only
    rw [if_neg (by omega), if_neg (by omega), if_neg (by omega), if_neg (by omega), if_neg (by omega), if_neg (by omega), if_neg (by omega), if_neg (by omega), if_neg (by omega),
      if_pos (by omega)]
    decide

/-- So does the name of the end. -/
theorem C78_name_of_the_end : nextName [] = "<EOF>".toList := by decide

theorem bind_type_number {t : Option Char} (ht : ∀ c, t = some c → (tokenType c).isSome = true) : t.bind tokenType ∈ typeNumbers ∧ (t = none ↔ t.bind tokenType = none) := by
  cases t with
  | none => exact ⟨List.mem_cons_self .., by simp⟩
  | some c =>
    obtain ⟨k, hk⟩ := Option.isSome_iff_exists.mp (ht c rfl)
    have h1 := tokenType_pos hk
    rw [Option.bind_some, hk]
    refine ⟨List.mem_cons_of_mem _ (List.mem_map.mpr ⟨k, ?_, rfl⟩), by simp⟩
    rw [List.mem_range'_1]
    omega

/-- The types of what is expected do not include that of what is not. -/
theorem types_honest {N : Net} {σ : List Nat} {p : Nat} {t : Option Char} (ht : ∀ c, t = some c → (tokenType c).isSome = true) (h : ¬ expected N σ p t) :
    elementName (t.bind tokenType) ∉ (Messages.types (expected N σ p)).map elementName := by
  classical
  intro hm
  obtain ⟨k, h1, h2⟩ := List.mem_map.mp hm
  unfold Messages.types at h1
  rw [List.mem_filter, decide_eq_true_eq] at h1
  obtain ⟨-, t', h3, h4, h5⟩ := h1
  have h6 : ∀ c, t' = some c → (tokenType c).isSome = true := by
    rintro c rfl
    cases hc : tokenType c with
    | some k => rfl
    | none =>
      rw [Option.bind_some, hc] at h4
      exact absurd (h5.mpr h4) (by simp)
  have h7 := bind_type_number h6
  have h8 := bind_type_number ht
  have h9 := C78_names_differ k (h4 ▸ h7.1) _ h8.1 h2
  rw [h4] at h9
  exact h (Recovery.expected_type h9 (by rw [h7.2, h8.2, h9]) h3)

/-- No report about a token that is expected, except where no alternative is viable. -/
theorem C78_reports {W : Process} (hW : W.Occurs) (r : Rule) (input : Bytes) {ts : List Tree} {log : List Report} (h : parse W r input = some (ts, log)) :
    ∀ m ∈ log, m.kind ≠ .noViable → ¬ expected parserNet m.callers m.state m.rest.head? := by
  rw [parse, C70_scan hW, Option.bind_some] at h
  split at h
  · rename_i us S hS
    cases h
    exact Recovery.parser_honest hS
  · cases h

theorem listed_of {ns : List (List Char)} {e : List Char} (h : toTokenString ns = some e) : Listed ns e := by
  match ns, h with
  | [n], h => cases h; exact .one
  | n :: n' :: ns, h =>
    cases h
    have := Listed.several (ns := n :: n' :: ns) (by simp)
    rw [← join_eq] at this
    exact this

theorem display_next (s : List Char) : display s = nextShown s := by
  cases s with
  | nil => rfl
  | cons c s =>
    change '\'' :: ([c].flatMap shown ++ ['\'']) = "'".toList ++ shown c ++ "'".toList
    simp

theorem says_sensible {toks t : List Char} {m : Report} (hm : m.rest <:+ toks) (ht : ∀ c ∈ toks, (tokenType c).isSome = true)
    (hh : m.kind ≠ .noViable → ¬ expected parserNet m.callers m.state m.rest.head?) (h : Says parserNet m t) : Sensible toks t := by
  have key : m.kind ≠ .noViable → ∀ {e}, expecting parserNet m = some e → ∃ ns, List.Sublist ns tokenNames ∧ nextName m.rest ∉ ns ∧ Listed ns e := by
    intro hk e he
    refine ⟨_, types_names _, types_honest (t := m.rest.head?) (fun c hc => ht c (hm.subset (List.mem_of_head? hc))) (hh hk), listed_of he⟩
  unfold Says at h
  split at h
  · rename_i hk
    obtain ⟨e, h1, rfl⟩ := h
    obtain ⟨ns, h2, h3, h4⟩ := key (by rw [hk]; simp) h1
    rw [display_next]
    exact .extraneous hm h2 h3 h4
  · rename_i hk
    obtain ⟨e, h1, rfl⟩ := h
    obtain ⟨ns, h2, h3, h4⟩ := key (by rw [hk]; simp) h1
    rw [display_next]
    exact .missing hm h2 h3 h4
  · rename_i hk
    obtain ⟨e, h1, rfl⟩ := h
    obtain ⟨ns, h2, h3, h4⟩ := key (by rw [hk]; simp) h1
    rw [display_next]
    exact .mismatched hm h2 h3 h4
  · obtain ⟨n, hn, rfl⟩ := h
    generalize m.rest = s at hm
    cases s with
    | nil => exact .noViable .atEnd
    | cons c s =>
      rw [noViable]
      refine .noViable (quote_quoted ?_ (List.IsInfix.trans (List.take_prefix ..).isInfix hm.isInfix))
      cases n with
      | zero => cases hn
      | succ n => simp

/-- Whatever is reported has a message that does not contradict itself. -/
theorem C78_messages {W : Process} (hW : W.Occurs) (hS : W.Speaks) (r : Rule) (input : Bytes) {ts : List Tree} {log : List Report} (h : parse W r input = some (ts, log)) :
    ∀ m ∈ log, ∃ t, Sensible (tokens input) t ∧ W.text m = utf8 t := by
  intro m hm
  obtain ⟨t, h1, h2⟩ := hS m (C76_something_is_expected hW r input h m hm)
  exact ⟨t, says_sensible (parse_log hW h m hm).1 (C59_tokens_have_types input) (C78_reports hW r input h m hm) h1, h2⟩

/-- So has the error that `ParseAddressList` returns. -/
theorem C78_addresses {W : Process} (hW : W.Occurs) (hS : W.Speaks) {n : Nat} (hn : 3 ≤ n) {h h' : Go.Heap} {input : Bytes} (hne : input ≠ []) {v e : Go.Val}
    (hr : Whole.parseAddressList W n input h = .ok ([v, e], h')) (he : e ≠ .nil) :
    ∃ t, Sensible (tokens input) t ∧ e = .err (.new (b!"error parsing rfc5322 input: " ++ utf8 t)) := by
  rcases C70_addresses hW hn h hne with ⟨l, v', h'', -, h1, -⟩ | ⟨-, ts, m, log, v', h'', h1, -, h2, -⟩
  · rw [h1] at hr
    cases hr
    exact absurd rfl he
  · rw [h2] at hr
    cases hr
    obtain ⟨t, h3, h4⟩ := C78_messages hW hS _ input h1 m (List.mem_cons_self ..)
    exact ⟨t, h3, by rw [h4]⟩

/-- And that of `ParseDateTime`. -/
theorem C78_dates {W : Process} (hW : W.Occurs) (hS : W.Speaks) {n : Nat} (hn : 3 ≤ n) {h h' : Go.Heap} {input : Bytes} (hne : input ≠ []) {v e : Go.Val}
    (hr : Whole.parseDateTime W n input h = .ok ([v, e], h')) (he : e ≠ .nil) :
    ∃ t, Sensible (tokens input) t ∧ e = .err (.new (b!"error parsing rfc5322 input: " ++ utf8 t)) := by
  rcases C70_dates hW hn h hne with ⟨f, h'', -, h1⟩ | ⟨-, ts, m, log, h'', h1, -, h2⟩
  · rw [h1] at hr
    cases hr
    exact absurd rfl he
  · rw [h2] at hr
    cases hr
    obtain ⟨t, h3, h4⟩ := C78_messages hW hS _ input h1 m (List.mem_cons_self ..)
    exact ⟨t, h3, by rw [h4]⟩

/-! ## Examples -/

/-- A message: after `a` an `@` is expected, and not the tab. -/
example : Sensible c!"a\tb\n" c!"mismatched input '\\t' expecting '@'" :=
  .mismatched (s := c!"\tb\n") (ns := [c!"'@'"]) ⟨['a'], rfl⟩ (by decide) (by decide) .one

/-- Not a message: it says that `b` is found where `'B'` (either case) is expected. -/
example : ¬ Sensible c!"b" c!"mismatched input 'b' expecting B" := by
  have key : ∀ t, Sensible c!"b" t → t = c!"mismatched input 'b' expecting B" → False := by
    intro t h
    cases h with
    | extraneous => intro h; have := congrArg List.head? h; revert this; simp
    | missing => intro h; have := congrArg (fun l => l[3]?) h; revert this; simp
    | noViable => intro h; have := congrArg List.head? h; revert this; simp
    | mismatched hs hn hne hl =>
      rename_i s ns e
      have h1 : s = c!"b" ∨ s = [] := by
        obtain ⟨u, hu⟩ := hs
        cases u with
        | nil => exact .inl hu
        | cons x u =>
          refine .inr ?_
          have := congrArg List.length hu
          simp only [List.length_append, List.length_cons, List.length_nil] at this
          exact List.eq_nil_of_length_eq_zero (by omega)
      rcases h1 with rfl | rfl
      · intro h
        have h2 : e = c!"B" := by
          have := congrArg (List.drop 31) h
          simpa [nextShown, show shown 'b' = ['b'] from by decide] using this
        have h3 : ∀ ns' e', Listed ns' e' → e' = c!"B" → ns' = [c!"B"] := by
          intro ns' e' hl' he'
          cases hl' with
          | one => rw [he']
          | several h =>
            have := congrArg List.head? he'
            revert this
            simp
        have h4 := h3 _ _ hl h2
        subst h4
        exact hne (by decide)
      · intro h
        have := congrArg (fun l => l[18]?) h
        revert this
        simp [nextShown]
  exact fun h => key _ h rfl

end Rfc5322.Props
