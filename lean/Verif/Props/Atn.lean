import Verif.Proofs.AtnNets
import Verif.Props.Core

/-!
# C59: the serialized networks of the generated lexer and parser

The grammar used by the other theorems is `Verif/Model/Grammar.lean`.  The program itself contains the grammar as two lists of integers, from which the
ANTLR runtime builds its transition networks, and a syntax error is reported when the input has no path through the network.  These theorems
speak of the paths of those networks (`Verif/Model/Atn.lean`), read from the lists of the program (`Verif/Model/AtnData.lean`).
-/

namespace Rfc5322.Props

open Spec Atn

/-- Both lists are well-formed serialized networks: everything in them is understood, and they are read to their ends. -/
theorem C59_networks_are_read : decode parserData = some parserNet ∧ decode lexerData = some lexerNet := ⟨decode_parser, decode_lexer⟩

/-- Longest-match lexing with the lexer network — the first of the rules wins, one character is skipped where no rule matches — turns the characters of
every input into the tokens of the model, each of one character and with its type, and into nothing else. -/
theorem C59_tokens (input : Bytes) (toks : List (Nat × List Char)) :
    Lexes lexerNet (runes input) toks ↔ toks = (tokens input).map fun c => ((tokenType c).getD 0, [c]) := lexes_iff

/-- Every token has a type. -/
theorem C59_tokens_have_types (input : Bytes) : ∀ c ∈ tokens input, (tokenType c).isSome = true := by
  intro c hc
  have := (List.mem_filter.mp hc).2
  rw [tokenType, Option.isSome_map]
  exact this

/-- `ParseAddressList` rejects a non-empty input exactly if the network has no path through the rule `addressList` (number 34) for its tokens. -/
theorem C59_addresses_rejected (P : Predictor) (env : Env) {input : Bytes} (hne : input ≠ []) :
    parseAddressList P env input = .ok (none, some .syntaxError) ↔
      ∀ ts, ¬ Runs ruleOf tokenType parserNet (parserNet.start 34) 34 (tokens input) ts [] := by
  have h0 : input.length ≠ 0 := by simpa using hne
  have hw : Gr.addressList.wf = true := by decide
  have hi : ruleOf 34 = some .addressList := rfl
  have hr := fun ts => runs_derives parser_good hi (s := tokens input) (ts := ts) (s' := [])
  constructor
  · intro h ts hts
    have hd := (hr ts).mp hts
    rcases parseAddressList_spec P env hne with ⟨l, _, h'⟩ | ⟨h1, _⟩
    · rw [h] at h'; simp at h'
    · obtain ⟨_, l, hl, _⟩ := addressList_sound (env := env) hd
      exact h1 l hl
  · intro h
    unfold parseAddressList
    rw [if_neg h0, descend_eq_search P Gr.addressList hw]
    cases hs : search Gr.addressList (tokens input) with
    | none => rfl
    | some us =>
      obtain ⟨ts, rfl, h1⟩ := (derives_rule (R := .addressList)).mp (search_sound hs)
      exact absurd ((hr ts).mpr (derives_rule.mpr ⟨ts, rfl, h1⟩)) (h ts)

/-- Otherwise there is exactly one path which always takes the first transition that still leads to the end of the rule at the end of the input, and
the result is the outcome of walking the tree of that path. -/
theorem C59_addresses_path (P : Predictor) (env : Env) {input : Bytes} (hne : input ≠ [])
    (hacc : parseAddressList P env input ≠ .ok (none, some .syntaxError)) :
    ∃ ts, (∀ us s', Prefers ruleOf tokenType parserNet (fun s => s = []) (parserNet.start 34) 34 (tokens input) us s' ↔ us = ts ∧ s' = []) ∧
      ∃ l w, walkList env [.node .addressList ts] Walker.init = .ok w ∧ w.res = some (.addrs l) ∧
        parseAddressList P env input = .ok (goSlice l, w.err) := by
  have h0 : input.length ≠ 0 := by simpa using hne
  have hw : Gr.addressList.wf = true := by decide
  have hi : ruleOf 34 = some .addressList := rfl
  unfold parseAddressList at hacc ⊢
  rw [if_neg h0, descend_eq_search P Gr.addressList hw] at hacc ⊢
  cases hs : search Gr.addressList (tokens input) with
  | none => rw [hs] at hacc; exact absurd rfl hacc
  | some us =>
    have hp := search_preferred hw hs
    obtain ⟨ts, rfl, h1⟩ := preferred_rule (R := .addressList).mp hp
    refine ⟨ts, fun vs s' => ?_, ?_⟩
    · rw [prefers_preferred parser_good hi]
      constructor
      · intro h
        obtain ⟨e, e'⟩ := Preferred.unique hp h
        injection e with e _
        injection e with _ e
        exact ⟨e, e'⟩
      · rintro ⟨rfl, rfl⟩
        exact hp
    · obtain ⟨_, l, hl, hwk⟩ := addressList_sound (env := env) (search_sound hs)
      refine ⟨l, _, hwk, rfl, ?_⟩
      dsimp only
      rw [hwk]

/-- The same for `ParseDateTime` and the rule `dateTime` (number 15). -/
theorem C59_dates_rejected (P : Predictor) (env : Env) {input : Bytes} (hne : input ≠ []) :
    parseDateTime P env input = .ok (zeroTime, some .syntaxError) ↔
      ∀ ts, ¬ Runs ruleOf tokenType parserNet (parserNet.start 15) 15 (tokens input) ts [] := by
  have h0 : input.length ≠ 0 := by simpa using hne
  have hw : Gr.dateTime.wf = true := by decide
  have hi : ruleOf 15 = some .dateTime := rfl
  have hr := fun ts => runs_derives parser_good hi (s := tokens input) (ts := ts) (s' := [])
  constructor
  · intro h ts hts
    have hd := (hr ts).mp hts
    have hsome := (search_isSome_iff (s := tokens input) hw).mpr ⟨_, hd⟩
    rcases parseDateTime_spec P env hne with ⟨f, _, h'⟩ | ⟨h1, _⟩
    · rw [h] at h'; simp at h'
    · obtain ⟨us, hs⟩ := Option.isSome_iff_exists.mp hsome
      have hd := search_sound hs
      unfold Gr.dateTime at hd
      cases hd with
      | rule hd =>
        obtain ⟨_, g, hg, he⟩ := (endMeans_date (env := env)).sound hd
        obtain ⟨f, hf, _⟩ := dateLang_iff hg
        exact h1 f hf
  · intro h
    unfold parseDateTime
    rw [if_neg h0, descend_eq_search P Gr.dateTime hw]
    cases hs : search Gr.dateTime (tokens input) with
    | none => rfl
    | some us =>
      obtain ⟨ts, rfl, h1⟩ := (derives_rule (R := .dateTime)).mp (search_sound hs)
      exact absurd ((hr ts).mpr (derives_rule.mpr ⟨ts, rfl, h1⟩)) (h ts)

theorem C59_dates_path (P : Predictor) (env : Env) {input : Bytes} (hne : input ≠ [])
    (hacc : parseDateTime P env input ≠ .ok (zeroTime, some .syntaxError)) :
    ∃ ts, (∀ us s', Prefers ruleOf tokenType parserNet (fun s => s = []) (parserNet.start 15) 15 (tokens input) us s' ↔ us = ts ∧ s' = []) ∧
      ∃ t w, walkList env [.node .dateTime ts] Walker.init = .ok w ∧ w.res = some (.time t) ∧ parseDateTime P env input = .ok (t, w.err) := by
  have h0 : input.length ≠ 0 := by simpa using hne
  have hw : Gr.dateTime.wf = true := by decide
  have hi : ruleOf 15 = some .dateTime := rfl
  obtain ⟨t, err, hres⟩ := C02_dates_never_panic P env input
  unfold parseDateTime at hacc hres ⊢
  rw [if_neg h0, descend_eq_search P Gr.dateTime hw] at hacc hres ⊢
  cases hs : search Gr.dateTime (tokens input) with
  | none => rw [hs] at hacc; exact absurd rfl hacc
  | some us =>
    rw [hs] at hres
    dsimp only at hres ⊢
    have hp := search_preferred hw hs
    obtain ⟨ts, rfl, h1⟩ := preferred_rule (R := .dateTime).mp hp
    refine ⟨ts, fun vs s' => ?_, ?_⟩
    · rw [prefers_preferred parser_good hi]
      constructor
      · intro h
        obtain ⟨e, e'⟩ := Preferred.unique hp h
        injection e with e _
        injection e with _ e
        exact ⟨e, e'⟩
      · rintro ⟨rfl, rfl⟩
        exact hp
    · cases hwk : walkList env [.node .dateTime ts] Walker.init with
      | error p => rw [hwk] at hres; cases hres
      | ok w =>
        rw [hwk] at hres
        dsimp only at hres ⊢
        split at hres
        · rename_i t' hr
          exact ⟨t', w, rfl, hr, rfl⟩
        · cases hres

/-- A text with two paths, of which one is preferred: `a <b@c>`. -/
example (P : Predictor) : parseAddressList P env0 (utf8 c!"a <b@c>") ≠ .ok (none, some .syntaxError) := by
  have h : parseAddressList P env0 (utf8 c!"a <b@c>") = .ok (some [⟨b!"a", b!"b@c"⟩], none) := by eval_addr
  rw [h]; simp

/-- A text without a path. -/
example (P : Predictor) : ∀ ts, ¬ Runs ruleOf tokenType parserNet (parserNet.start 34) 34 (tokens (utf8 c!"joe")) ts [] :=
  (C59_addresses_rejected P env0 (by decide)).mp (by eval_addr)

/-- Characters above U+FFFF have no token. -/
example : Lexes lexerNet (runes (utf8 c!"a😀1")) [(45, c!"a"), (25, c!"1")] := by
  rw [C59_tokens]; decide +kernel

end Rfc5322.Props
