import Verif.Proofs.LexerSim
import Verif.Props.Atn

/-!
# C69: the lexer of the runtime

C59 speaks of the tokens that the network of the lexer allows: the longest match, of the first rule.  Here they are found the way the runtime finds them
(`Verif/Model/LexerSim.lean`): sets of configurations are followed character by character until none is left, then the last set with the end of a rule in it decides; if there has been none, a
character is skipped.
-/

namespace Rfc5322.Props

open Spec Atn LexerSim

/-- The lexer comes to an end, with recursion at most three deep and one round per character (and one more), and yields the tokens of all other theorems, each with its
type and one character.  Whatever is in the tables that all lexers of the process share, after any number of other calls and whenever they add to them, makes no difference. -/
theorem C69_tokens {n : Nat} (hn : 3 ≤ n) {κ : List Char → List Char → LexerSim.Tables} (hκ : ∀ a b, LexerSim.Occurs lexerNet n (κ a b)) (input : Bytes) {m : Nat}
    (hm : (runes input).length < m) : lex lexerNet n κ m (runes input) = some ((tokens input).map fun c => ((tokenType c).getD 0, [c])) := by
  obtain ⟨n, rfl⟩ := Nat.exists_eq_add_of_le' hn
  exact lex_eq lexer_rules hκ m (runes input) hm

/-- It finds the longest matches of the first rules. -/
theorem C69_longest_match_of_the_first_rule {n : Nat} (hn : 3 ≤ n) {κ : List Char → List Char → LexerSim.Tables} (hκ : ∀ a b, LexerSim.Occurs lexerNet n (κ a b))
    (text : List Char) {m : Nat} (hm : text.length < m) (toks : List (Nat × List Char)) : lex lexerNet n κ m text = some toks ↔ Lexes lexerNet text toks := by
  obtain ⟨n, rfl⟩ := Nat.exists_eq_add_of_le' hn
  rw [lex_eq lexer_rules hκ m text hm, lexes_iff, Option.some.injEq]
  exact eq_comm

/-- A character is either a token, or skipped; what comes after it makes no difference. -/
theorem C69_characters_one_by_one {n : Nat} (hn : 3 ≤ n) {κ : List Char → List Char → LexerSim.Tables} (hκ : ∀ a b, LexerSim.Occurs lexerNet n (κ a b)) (c : Char) (text : List Char) :
    (∃ ty, 1 ≤ ty ∧ tokenType c = some ty ∧ matchToken lexerNet n κ (c :: text) = .token ty text) ∨
      tokenType c = none ∧ matchToken lexerNet n κ (c :: text) = .noViable (c :: text) := by
  obtain ⟨n, rfl⟩ := Nat.exists_eq_add_of_le' hn
  rcases match_cons lexer_rules hκ c text with ⟨i, k, hk, hc, h⟩ | ⟨hc, h⟩
  · left
    refine ⟨i + 1, by omega, ?_, h⟩
    rw [tokenType, (lexRune_eq_some_iff c k).mpr hc, Option.map_some, typeOf_index hk]
  · right
    refine ⟨?_, h⟩
    cases h2 : lexRune c with
    | none => rw [tokenType, h2]; rfl
    | some k => have := (lexRune_eq_some_iff c k).mp h2; rw [hc k] at this; cases this

/-! ## Examples -/

/-- The empty tables. -/
theorem empty_tables (n : Nat) : ∀ _ _ : List Char, LexerSim.Occurs lexerNet n fun _ _ => none := fun _ _ => .refl

/-- A character that is no token. -/
example : lex lexerNet 3 (fun _ _ _ _ => none) 4 (runes (utf8 c!"a😀1")) = some [(45, c!"a"), (25, c!"1")] := by
  rw [C69_tokens (Nat.le_refl 3) (empty_tables 3) _ (by decide)]
  decide +kernel

/-- The same, computed by the algorithm. -/
example : lex lexerNet 3 (fun _ _ _ _ => none) 4 c!"a😀1" = some [(45, c!"a"), (25, c!"1")] := by decide +kernel

/-- Tables with an entry. -/
example : ∃ κ, LexerSim.Occurs lexerNet 3 κ ∧ κ ((List.range 70).map leaf) (some 'a') = some [final 44] :=
  ⟨_, .single (.edge (C := (List.range 70).map leaf) (c := 'a') (R := [final 44]) (by decide) (by decide +kernel)), by simp⟩

end Rfc5322.Props
