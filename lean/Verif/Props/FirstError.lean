import Verif.Props.Messages
import Verif.Proofs.RecExpect

/-!
# C77: what the first error says

The first report of the parser is about a place of the input up to which everything can still be right: whatever the report says was expected there could have come, and
there is a text after it with which the whole is accepted.
-/

namespace Rfc5322.Props

open Spec Atn Gen AllStar Whole
open Recovery (expected Report)

theorem start_rule_addresses : ruleAt parserNet (parserNet.start 34) = 34 := by decide +kernel

theorem start_rule_dates : ruleAt parserNet (parserNet.start 15) = 15 := by decide +kernel

theorem runs_addresses (env : Env) {s : List Char} {us : List Tree} (h : Runs ruleOf tokenType parserNet (parserNet.start 34) 34 s us []) : ∃ l, AddressList env s l := by
  obtain ⟨-, l, hl, -⟩ := addressList_sound (env := env) ((runs_derives parser_good (i := 34) (R := .addressList) rfl).mp h)
  exact ⟨l, hl⟩

theorem runs_dates (year : Int) {s : List Char} {us : List Tree} (h : Runs ruleOf tokenType parserNet (parserNet.start 15) 15 s us []) : ∃ f, DateTime year s f := by
  have hd := (runs_derives parser_good (i := 15) (R := .dateTime) rfl).mp h
  unfold Gr.dateTime at hd
  cases hd with
  | rule hd =>
    obtain ⟨_, g, hg, -⟩ := (endMeans_date (env := { env0 with nowYear := year })).sound hd
    obtain ⟨f, hf, -⟩ := dateLang_iff hg
    exact ⟨f, hf⟩

theorem parse_first {W : Process} (hW : W.Occurs) {r : Rule} {i : Nat} (hi : ruleOf i = some r) (ha : ruleAt parserNet (parserNet.start i) = i) {input : Bytes} {ts : List Tree}
    {log : List Report} (h : parse W r input = some (ts, log)) {m : Report} (hm : log.getLast? = some m) :
    ∃ u, tokens input = u ++ m.rest ∧ ∀ t, expected parserNet m.callers m.state t →
      ∃ w us, Runs ruleOf tokenType parserNet (parserNet.start i) i (u ++ t.toList ++ w) us [] ∧ (t = none → w = []) ∧ ∀ c ∈ u ++ t.toList ++ w, c.toNat ≤ 0xFFFF := by
  rw [parse, C70_scan hW, Option.bind_some, whole_predict hW] at h
  split at h
  · rename_i us S hS
    cases h
    obtain ⟨u, h1, h2⟩ := Recovery.parser_first hi ha hS hm
    refine ⟨u, h1, fun t ht => ?_⟩
    obtain ⟨w, us, h3, h4, h5⟩ := h2 t ht
    refine ⟨w, us, h3, h4, fun c hc => ?_⟩
    have h6 := h5 c hc
    rw [tokenType, Option.isSome_map, lexRune_isSome] at h6
    exact of_decide_eq_true h6
  · cases h

/-- The first report of the parser of address lists: the text before it is the beginning of address lists, with every character that the report expects (and as an address list
already, if it expects the end). -/
theorem C77_addresses {W : Process} (hW : W.Occurs) {input : Bytes} {ts : List Tree} {log : List Report} (h : parse W .addressList input = some (ts, log)) {m : Report}
    (hm : log.getLast? = some m) :
    ∃ u, tokens input = u ++ m.rest ∧ (∀ c, expected parserNet m.callers m.state (some c) → ∃ w l, AddressList W.env (u ++ c :: w) l) ∧
      (expected parserNet m.callers m.state none → ∃ l, AddressList W.env u l) ∧ (∃ t, expected parserNet m.callers m.state t) := by
  obtain ⟨u, h1, h2⟩ := parse_first hW (i := 34) rfl start_rule_addresses h hm
  refine ⟨u, h1, fun c hc => ?_, fun he => ?_, ?_⟩
  · obtain ⟨w, us, h3, -⟩ := h2 _ hc
    obtain ⟨l, hl⟩ := runs_addresses W.env h3
    exact ⟨w, l, by simpa using hl⟩
  · obtain ⟨w, us, h3, h4⟩ := h2 _ he
    cases h4.1 rfl
    obtain ⟨l, hl⟩ := runs_addresses W.env h3
    exact ⟨l, by simpa using hl⟩
  · obtain ⟨-, t, -, h3⟩ := parse_log hW h m (List.mem_of_getLast? hm)
    exact ⟨t, h3⟩

/-- The same for dates. -/
theorem C77_dates {W : Process} (hW : W.Occurs) {input : Bytes} {ts : List Tree} {log : List Report} (h : parse W .dateTime input = some (ts, log)) {m : Report}
    (hm : log.getLast? = some m) :
    ∃ u, tokens input = u ++ m.rest ∧ (∀ c, expected parserNet m.callers m.state (some c) → ∃ w f, DateTime W.env.nowYear (u ++ c :: w) f) ∧
      (expected parserNet m.callers m.state none → ∃ f, DateTime W.env.nowYear u f) ∧ (∃ t, expected parserNet m.callers m.state t) := by
  obtain ⟨u, h1, h2⟩ := parse_first hW (i := 15) rfl start_rule_dates h hm
  refine ⟨u, h1, fun c hc => ?_, fun he => ?_, ?_⟩
  · obtain ⟨w, us, h3, -⟩ := h2 _ hc
    obtain ⟨f, hf⟩ := runs_dates W.env.nowYear h3
    exact ⟨w, f, by simpa using hf⟩
  · obtain ⟨w, us, h3, h4⟩ := h2 _ he
    cases h4.1 rfl
    obtain ⟨f, hf⟩ := runs_dates W.env.nowYear h3
    exact ⟨f, by simpa using hf⟩
  · obtain ⟨-, t, -, h3⟩ := parse_log hW h m (List.mem_of_getLast? hm)
    exact ⟨t, h3⟩

/-! ## The functions -/

theorem accepted_addresses {W : Process} (hW : W.Occurs) {n : Nat} (hn : 3 ≤ n) (h : Go.Heap) {s : List Char} (hs : ∀ c ∈ s, c.toNat ≤ 0xFFFF) {l : List Addr}
    (hl : AddressList W.env s l) : ∃ v h', Whole.parseAddressList W n (utf8 s) h = .ok ([v, .nil], h') := by
  have e : tokens (utf8 s) = s := by rw [tokens_utf8, List.filter_eq_self.mpr fun c hc => decide_eq_true (hs c hc)]
  by_cases hne : utf8 s = []
  · obtain ⟨P⟩ := Predictor.nonempty
    obtain ⟨slice, err, v, x, h', h1, h2, -, h4⟩ := C70_same_addresses hW P hn h (utf8 s)
    rw [hne, show Rfc5322.parseAddressList P W.env [] = .ok (some [], none) from rfl] at h2
    cases h2
    cases x with
    | nil => exact ⟨v, h', h1⟩
    | _ => exact absurd h4 (by simp [Go.errorIs])
  · rcases C70_addresses hW hn h hne with ⟨l', v, h', -, h1, -⟩ | ⟨h1, -⟩
    · exact ⟨v, h', h1⟩
    · rw [e] at h1
      exact absurd hl (h1 l)

theorem accepted_dates {W : Process} (hW : W.Occurs) {n : Nat} (hn : 3 ≤ n) (h : Go.Heap) {s : List Char} (hs : ∀ c ∈ s, c.toNat ≤ 0xFFFF) {f : Fields}
    (hf : DateTime W.env.nowYear s f) : ∃ v h', Whole.parseDateTime W n (utf8 s) h = .ok ([v, .nil], h') := by
  have e : tokens (utf8 s) = s := by rw [tokens_utf8, List.filter_eq_self.mpr fun c hc => decide_eq_true (hs c hc)]
  by_cases hne : utf8 s = []
  · obtain ⟨P⟩ := Predictor.nonempty
    obtain ⟨t, err, x, h', h1, h2, h4⟩ := C70_same_dates hW P hn h (utf8 s)
    rw [hne, show Rfc5322.parseDateTime P W.env [] = .ok (zeroTime, none) from rfl] at h2
    cases h2
    cases x with
    | nil => exact ⟨_, h', h1⟩
    | _ => exact absurd h4 (by simp [Go.errorIs])
  · rcases C70_dates hW hn h hne with ⟨f', h', -, h1⟩ | ⟨h1, -⟩
    · exact ⟨_, h', h1⟩
    · rw [e] at h1
      exact absurd hf (h1 f)

/-- If `ParseAddressList` returns an error, it has the text of the last report; and of the first report this holds: the input is a text `u` followed by what the report calls the
rest; and whatever the report expects, a character or the end of the input, there is an input that begins with `u` and that, for which `ParseAddressList` returns no error. -/
theorem C77_error_addresses {W : Process} (hW : W.Occurs) {n : Nat} (hn : 3 ≤ n) (h : Go.Heap) {h' : Go.Heap} {input : Bytes} (hne : input ≠ []) {v e : Go.Val}
    (hr : Whole.parseAddressList W n input h = .ok ([v, e], h')) (he : e ≠ .nil) :
    ∃ ts last log first, parse W .addressList input = some (ts, last :: log) ∧ (last :: log).getLast? = some first ∧
      e = .err (.new (b!"error parsing rfc5322 input: " ++ W.text last)) ∧
      ∃ u, tokens input = u ++ first.rest ∧ (∃ t, expected parserNet first.callers first.state t) ∧
        ∀ t, expected parserNet first.callers first.state t → ∃ w v' h'', (t = none → w = []) ∧
          Whole.parseAddressList W n (utf8 (u ++ t.toList ++ w)) h = .ok ([v', .nil], h'') := by
  rcases C70_addresses hW hn h hne with ⟨l, v', h'', -, h1, -⟩ | ⟨-, ts, m, log, v', h'', h1, -, h2, -⟩
  · rw [h1] at hr
    cases hr
    exact absurd rfl he
  · rw [h2] at hr
    cases hr
    obtain ⟨first, hf⟩ : ∃ first, (m :: log).getLast? = some first := ⟨(m :: log).getLast (by simp), List.getLast?_eq_some_getLast _⟩
    obtain ⟨u, h3, h4⟩ := parse_first hW (i := 34) rfl start_rule_addresses h1 hf
    obtain ⟨-, t, -, h5⟩ := parse_log hW h1 first (List.mem_of_getLast? hf)
    refine ⟨ts, m, log, first, h1, hf, rfl, u, h3, ⟨t, h5⟩, fun t ht => ?_⟩
    obtain ⟨w, us, h6, h7, h8⟩ := h4 t ht
    obtain ⟨l, hl⟩ := runs_addresses W.env h6
    obtain ⟨x, y, h9⟩ := accepted_addresses hW hn h h8 hl
    exact ⟨w, x, y, h7, h9⟩

/-- The same for `ParseDateTime`. -/
theorem C77_error_dates {W : Process} (hW : W.Occurs) {n : Nat} (hn : 3 ≤ n) (h : Go.Heap) {h' : Go.Heap} {input : Bytes} (hne : input ≠ []) {v e : Go.Val}
    (hr : Whole.parseDateTime W n input h = .ok ([v, e], h')) (he : e ≠ .nil) :
    ∃ ts last log first, parse W .dateTime input = some (ts, last :: log) ∧ (last :: log).getLast? = some first ∧
      e = .err (.new (b!"error parsing rfc5322 input: " ++ W.text last)) ∧
      ∃ u, tokens input = u ++ first.rest ∧ (∃ t, expected parserNet first.callers first.state t) ∧
        ∀ t, expected parserNet first.callers first.state t → ∃ w v' h'', (t = none → w = []) ∧
          Whole.parseDateTime W n (utf8 (u ++ t.toList ++ w)) h = .ok ([v', .nil], h'') := by
  rcases C70_dates hW hn h hne with ⟨f, h'', -, h1⟩ | ⟨-, ts, m, log, h'', h1, -, h2⟩
  · rw [h1] at hr
    cases hr
    exact absurd rfl he
  · rw [h2] at hr
    cases hr
    obtain ⟨first, hf⟩ : ∃ first, (m :: log).getLast? = some first := ⟨(m :: log).getLast (by simp), List.getLast?_eq_some_getLast _⟩
    obtain ⟨u, h3, h4⟩ := parse_first hW (i := 15) rfl start_rule_dates h1 hf
    obtain ⟨-, t, -, h5⟩ := parse_log hW h1 first (List.mem_of_getLast? hf)
    refine ⟨ts, m, log, first, h1, hf, rfl, u, h3, ⟨t, h5⟩, fun t ht => ?_⟩
    obtain ⟨w, us, h6, h7, h8⟩ := h4 t ht
    obtain ⟨f, hf⟩ := runs_dates W.env.nowYear h6
    obtain ⟨x, y, h9⟩ := accepted_dates hW hn h h8 hf
    exact ⟨w, x, y, h7, h9⟩

/-! ## Examples -/

/-- A text that is not an address list, and what the theorem says of it. -/
example : ∃ u r t w v h', c!"a@b c@d" = u ++ r ∧ Whole.parseAddressList (fresh env0) 3 (utf8 (u ++ Option.toList t ++ w)) [] = .ok ([v, .nil], h') := by
  obtain ⟨P⟩ := Predictor.nonempty
  have hW : (fresh env0).Occurs := ⟨fun _ _ => .refl, fun _ _ _ _ => .refl⟩
  have h5 : Rfc5322.parseAddressList P env0 (utf8 c!"a@b c@d") = .ok (none, some .syntaxError) := by eval_addr
  obtain ⟨slice, err, v, e, h', h1, h2, h3, h4⟩ := C70_same_addresses hW P (Nat.le_refl 3) [] (utf8 c!"a@b c@d")
  rw [show (fresh env0).env = env0 from rfl, h5] at h2
  cases h2
  obtain ⟨-, -, -, first, -, -, -, u, h6, ⟨t, h7⟩, h8⟩ := C77_error_addresses hW (Nat.le_refl 3) [] (by decide) h1 (by rintro rfl; exact absurd h4 (by simp [Go.errorIs]))
  obtain ⟨w, v', h'', -, h9⟩ := h8 t h7
  rw [tokens_utf8, List.filter_eq_self.mpr (by decide)] at h6
  exact ⟨u, first.rest, t, w, v', h'', h6, h9⟩

/-- At the end of an address list (state 629) the end of the input is expected, and no character. -/
example : expected parserNet [] 629 none ∧ ∀ c, ¬ Recovery.tokenNext parserNet 629 (some c) := by
  have ho : parserNet.out 629 = [(.eof, 630)] := by decide +kernel
  refine ⟨.inl ⟨629, [], .eof, 630, .refl, by rw [ho]; simp, trivial⟩, ?_⟩
  rintro c ⟨q, st, l, x, h1, h2, h3⟩
  cases Relation.ReflTransGen.cases_head h1 with
  | inl h =>
    cases h
    rw [ho, List.mem_singleton] at h2
    cases h2
    exact h3
  | inr h =>
    obtain ⟨y, h, -⟩ := h
    cases h with
    | eps h => rw [ho, List.mem_singleton] at h; cases h
    | call h => rw [ho, List.mem_singleton] at h; cases h
    | eof h => cases h
    | out h => cases h

end Rfc5322.Props
