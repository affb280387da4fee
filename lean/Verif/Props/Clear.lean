import Verif.Proofs.ClearApi
import Verif.Props.Core
import Mathlib.Data.List.Forall2

/-!
# C10–C13, C15–C20, C27: what well-written mailboxes, lists and groups give

The texts are encoded in UTF-8 by `encode`; by C08 and C09 every other input is treated like such a text.
The specification of the forms is `Verif/Spec/Clear.lean`, `Verif/Spec/Address.lean` (CFWS, atoms, quoted strings,
domains, routes) and `Verif/Spec/Escape.lean`.
-/

namespace Rfc5322.Props

open Spec

/-! ## C10: a bare addr-spec is returned verbatim -/

theorem atext_ne {c : Char} (h : isAtext c = true) : c ≠ '<' := by rintro rfl; exact absurd h (by decide)

theorem dotAtom_noLess {t : List Char} (h : DotAtom t) : '<' ∉ t := fun hm =>
  absurd (dotAtom_wordChars h _ hm) (by decide)

theorem plainAddr {env : Env} {l d : List Char} (hl : DotAtom l) (hd : DotAtom d) : ClearAddr env (l ++ '@' :: d) (encode (l ++ '@' :: d)) := by
  have := ClearAddr.plain (env := env) (.dotAtom (a := []) (b := []) OptCfws.nil hl OptCfws.nil) (.dotAtom (a := []) (b := []) OptCfws.nil hd OptCfws.nil)
  rw [encode_eq, utf8_append, utf8_cons, show encodeRune '@' = b!"@" from rfl]
  simpa using this

theorem C10_bare_address_verbatim (P : Predictor) (env : Env) {l d : List Char} (hl : DotAtom l) (hd : DotAtom d) :
    parseAddressList P env (encode (l ++ '@' :: d)) = .ok (some [⟨[], encode (l ++ '@' :: d)⟩], none) := by
  exact parse_bare P (plainAddr hl hd) (noDer_nameAddr_noLess (by simp [dotAtom_noLess hl, dotAtom_noLess hd]))

example : DotAtom c!"=?utf-8?q?a?=.b." ∧ DotAtom c!"ドメイン.example" := by
  constructor
  · exact .inr ⟨c!"=?utf-8?q?a?=.b", .cons (a := c!"=?utf-8?q?a?=") ⟨by simp, by decide⟩ (.one ⟨by simp, by decide⟩), rfl⟩
  · exact .inl (.cons (a := c!"ドメイン") ⟨by simp, by decide⟩ (.one ⟨by simp, by decide⟩))

/-! ## C11: atoms are joined by single spaces -/

/-- `w₁ … wₙ w <l@d>`, where each of the atoms is followed by white space or comments (after the last one they may be
missing) and none begins like an encoded word. -/
theorem C11_atoms_joined_by_spaces (P : Predictor) (env : Env) {ws : List (List Char × List Char)} {w b l d : List Char}
    (hws : ∀ p ∈ ws, Atom p.1 ∧ ¬ c!"=?" <+: p.1 ∧ Cfws p.2) (hw : Atom w ∧ ¬ c!"=?" <+: w ∧ OptCfws b)
    (hl : DotAtom l) (hd : DotAtom d) :
    parseAddressList P env (encode (ws.flatMap (fun p => p.1 ++ p.2) ++ (w ++ (b ++ ('<' :: (l ++ '@' :: d) ++ ['>']))))) =
      .ok (some [⟨encode (List.intercalate [' '] (ws.map Prod.fst ++ [w])), encode (l ++ '@' :: d)⟩], none) := by
  have hp : ∀ (ws : List (List Char × List Char)), (∀ p ∈ ws, Atom p.1 ∧ ¬ c!"=?" <+: p.1 ∧ Cfws p.2) →
      Phrase env (ws.flatMap (fun p => p.1 ++ p.2) ++ (w ++ b)) ((ws.map Prod.fst ++ [w]).map utf8) := by
    intro ws hws
    induction ws with
    | nil => simpa using Phrase.atom (env := env) hw.1 hw.2.1 hw.2.2 (by simp) .nil
    | cons p ws ih =>
      obtain ⟨h1, h2, h3⟩ := hws p (by simp)
      have := Phrase.atom h1 h2 h3.1 (fun h => absurd h h3.2) (ih fun p hp => hws p (by simp [hp]))
      simpa using this
  have h := parse_box P (ClearBox.named (a := []) OptCfws.nil (hp ws hws) (by simp) (.addr (plainAddr hl hd) OptCfws.nil))
  have e1 : wordsName ((ws.map Prod.fst ++ [w]).map utf8) = encode (List.intercalate [' '] (ws.map Prod.fst ++ [w])) := by
    rw [encode_eq, utf8_intercalate, wordsName_eq]
    intro v hv
    simp only [List.mem_map, List.mem_append, List.mem_singleton] at hv
    obtain ⟨x, hx, rfl⟩ := hv
    rw [Ne, utf8_eq_nil]
    rcases hx with ⟨p, hp, rfl⟩ | rfl
    · exact (hws p hp).1.1
    · exact hw.1.1
  rw [e1] at h
  simpa using h

theorem atom_of {t : List Char} (h : t ≠ [] ∧ t.all isAtext = true) : Atom t := ⟨h.1, fun c hc => List.all_eq_true.mp h.2 c hc⟩

theorem cfws_space : Cfws c!" " := ⟨⟨[], c!" ", .nil, .inr (.plain (by simp) (by decide)), rfl⟩, by simp⟩

theorem cfws_comment : Cfws c!" (a \\) (b))\t" := by
  refine ⟨⟨c!" (a \\) (b))", c!"\t", ?_, .inr (.plain (by simp) (by decide)), rfl⟩, by simp⟩
  refine .cons (f := c!" ") (t := c!"(a \\) (b))") (r := []) (.inr (.plain (by simp) (by decide))) ?_ .nil
  refine ⟨c!"a \\) (b)", [], ?_, .inl rfl, rfl⟩
  refine .char (f := []) (.inl rfl) (by decide) (.pair (f := c!" ") (.inr (.plain (by simp) (by decide))) (by decide) ?_)
  exact .nested (f := c!" ") (xs := c!"b") (g := []) (.inr (.plain (by simp) (by decide))) (.char (f := []) (.inl rfl) (by decide) .nil) (.inl rfl) .nil

/-- A name of three atoms, with a nested comment in one of the gaps. -/
example : (∀ p ∈ [(c!"John", c!" "), (c!"x=?y", c!" (a \\) (b))\t")], Atom p.1 ∧ ¬ c!"=?" <+: p.1 ∧ Cfws p.2) ∧
    (Atom c!"Doe" ∧ ¬ c!"=?" <+: c!"Doe" ∧ OptCfws []) := by
  refine ⟨?_, atom_of (by decide), by decide, OptCfws.nil⟩
  intro p hp
  simp only [List.mem_cons, List.not_mem_nil, or_false] at hp
  rcases hp with rfl | rfl
  · exact ⟨atom_of (by decide), by decide, cfws_space⟩
  · exact ⟨atom_of (by decide), by decide, cfws_comment⟩

/-- An atom that begins like an encoded word need not be read as written. -/
example (P : Predictor) : parseAddressList P env0 (encode c!"=?a?b?c <>, f?= <>") =
    .ok (some [⟨b!"=?a?b?c", []⟩, ⟨b!"f?=", []⟩], none) := by eval_addr
example (P : Predictor) : parseAddressList P env0 (encode c!"=?a?b?c<>,f?=<>") =
    .ok (some [⟨b!"=?a?b?c<>,f?=", []⟩], none) := by eval_addr

/-- Atoms, quoted strings and encoded words may be mixed: the name consists of the values of the words, separated by
single spaces (if none is empty; see `Spec.wordsName` in general). -/
theorem C11_words_in_general (P : Predictor) (env : Env) {a n t : List Char} {vs : List Bytes} {v : Bytes} (ha : OptCfws a)
    (hn : Phrase env n vs) (hne : vs ≠ []) (ht : ClearAngle env t v) :
    parseAddressList P env (encode (a ++ (n ++ t))) = .ok (some [⟨wordsName vs, v⟩], none) ∧
    ((∀ v ∈ vs, v ≠ []) → wordsName vs = List.intercalate b!" " vs) :=
  ⟨parse_box P (.named ha hn hne ht), wordsName_eq⟩

theorem phrase_witness (env : Env) : Phrase env c!"Dr \"J. \\\"X\\\"\" =?a?b?c?= =?a?b?d?= Doe"
    [b!"Dr", b!"J. \"X\"", decoded env c!"=?a?b?c?=" ++ decoded env c!"=?a?b?d?=", b!"Doe"] := by
  refine .atom (t := c!"Dr") (b := c!" ") (atom_of (by decide)) (by decide) cfws_space.1 (by simp) ?_
  refine .quoted (t := quote c!"J. \"X\"") (b := c!" ") (quote_string (t := c!"J. \"X\"") (by decide)) cfws_space.1 ?_
  refine .encoded (t := c!"=?a?b?c?= =?a?b?d?= ") (.cons (t := c!"=?a?b?c?=") (b := c!" ") ?_ cfws_space.1 (.one (t := c!"=?a?b?d?=") (b := c!" ") ?_ cfws_space.1))
    (by decide) (.atom (t := c!"Doe") (b := []) (atom_of (by decide)) (by decide) OptCfws.nil (by simp) .nil)
  · exact ⟨c!"a", c!"b", c!"c", by decide, by decide, by decide, by decide, by decide, by decide, rfl⟩
  · exact ⟨c!"a", c!"b", c!"d", by decide, by decide, by decide, by decide, by decide, by decide, rfl⟩

/-! ## C12: quoted display names -/

/-- `"…" <l@d>`: the name is the text that was quoted, without the white space at its end. -/
theorem C12_quoted_names (P : Predictor) (env : Env) {t b l d : List Char} (ht : ∀ c ∈ t, quoteOk c = true) (hb : OptCfws b)
    (hl : DotAtom l) (hd : DotAtom d) :
    parseAddressList P env (encode (quote t ++ (b ++ ('<' :: (l ++ '@' :: d) ++ ['>'])))) =
      .ok (some [⟨encode (trimRight t), encode (l ++ '@' :: d)⟩], none) := by
  have hp : Phrase env (quote t ++ b) [utf8 (trimRight t)] := by
    simpa using Phrase.quoted (env := env) (quote_string ht) hb .nil
  have h := parse_box P (ClearBox.named (a := []) OptCfws.nil hp (by simp) (.addr (plainAddr hl hd) OptCfws.nil))
  rw [wordsName_one, ← encode_eq] at h
  simpa using h

example : (∀ c ∈ c!"Doe, \"J\\o\" <x@y> ;:\u0001 é  ", quoteOk c = true) ∧
    quote c!"a\"\\ " = c!"\"a\\\"\\\\ \"" ∧ trimRight c!" a\"\\ " = c!" a\"\\" := by decide

/-- More generally any quoted string, with folds and superfluous or obsolete quoted pairs. -/
theorem C12_any_quoted_string (P : Predictor) (env : Env) {q b l d : List Char} {v : Bytes} (hq : QuotedString q v) (hb : OptCfws b)
    (hl : DotAtom l) (hd : DotAtom d) :
    parseAddressList P env (encode (q ++ (b ++ ('<' :: (l ++ '@' :: d) ++ ['>'])))) =
      .ok (some [⟨v, encode (l ++ '@' :: d)⟩], none) := by
  have hp : Phrase env (q ++ b) [v] := by simpa using Phrase.quoted (env := env) hq hb .nil
  have h := parse_box P (ClearBox.named (a := []) OptCfws.nil hp (by simp) (.addr (plainAddr hl hd) OptCfws.nil))
  rw [wordsName_one] at h
  simpa using h

/-- A fold, a needless quoted pair and an obsolete one. -/
example : QuotedString c!"\"a\r\n \\b\\\u0000\"" b!"a\r\n b" := by
  refine ⟨c!"a\r\n \\b\\\u0000", [], ?_, .inl rfl, rfl⟩
  exact .char (f := []) (.inl rfl) (by decide) (.pair (f := c!"\r\n ") (.inr (.folded (v := []) (by simp) (by simp) (by decide))) (by decide)
    (.obsPair (f := []) (.inl rfl) (by decide) .nil))

/-! ## C13: lists keep every member, in order -/

/-- Mailboxes joined by commas or semicolons: one result per mailbox, in order. -/
theorem C13_lists_in_order (P : Predictor) (env : Env) {t : List Char} {a : Addr} {ms : List (Char × List Char × Addr)}
    (ht : ClearBox env t a) (hms : ∀ m ∈ ms, (m.1 = ',' ∨ m.1 = ';') ∧ ClearBox env m.2.1 m.2.2) :
    parseAddressList P env (encode (t ++ ms.flatMap fun m => m.1 :: m.2.1)) = .ok (some (a :: ms.map (·.2.2)), none) := by
  have key : ∀ (ms : List (Char × List Char × Addr)) t a, ClearBox env t a →
      (∀ m ∈ ms, (m.1 = ',' ∨ m.1 = ';') ∧ ClearBox env m.2.1 m.2.2) →
      ClearList env (t ++ ms.flatMap fun m => m.1 :: m.2.1) (a :: ms.map (·.2.2)) := by
    intro ms
    induction ms with
    | nil => intro t a h _; simpa using ClearList.one (.box h)
    | cons m ms ih =>
      intro t a h hm
      have h1 := hm m (by simp)
      exact .cons (.box h) h1.1 (ih _ _ h1.2 fun m hm' => hm m (by simp [hm']))
  exact parse_clear P (key ms t a ht hms)

/-- On its own, each mailbox gives its member of the list. -/
theorem C13_on_its_own (P : Predictor) (env : Env) {t : List Char} {a : Addr} (ht : ClearBox env t a) :
    parseAddressList P env (encode t) = .ok (some [a], none) := parse_box P ht

/-- Hence the list gives the concatenation of what its members give. -/
theorem C13_concatenation (P : Predictor) (env : Env) {t : List Char} {ms : List (Char × List Char)}
    (ht : ∃ a, ClearBox env t a) (hms : ∀ m ∈ ms, (m.1 = ',' ∨ m.1 = ';') ∧ ∃ a, ClearBox env m.2 a) :
    ∃ l ls, parseAddressList P env (encode t) = .ok (some l, none) ∧
      List.Forall₂ (fun (m : Char × List Char) l => parseAddressList P env (encode m.2) = .ok (some l, none)) ms ls ∧
      parseAddressList P env (encode (t ++ ms.flatMap fun m => m.1 :: m.2)) = .ok (some (l ++ ls.flatten), none) := by
  obtain ⟨a, ha⟩ := ht
  have : ∃ ns : List (Char × List Char × Addr), ms = ns.map (fun m => (m.1, m.2.1)) ∧
      ∀ m ∈ ns, (m.1 = ',' ∨ m.1 = ';') ∧ ClearBox env m.2.1 m.2.2 := by
    clear ha
    induction ms with
    | nil => exact ⟨[], rfl, by simp⟩
    | cons m ms ih =>
      obtain ⟨ns, h1, h2⟩ := ih fun m hm => hms m (by simp [hm])
      obtain ⟨h3, b, h4⟩ := hms m (by simp)
      refine ⟨(m.1, m.2, b) :: ns, by simp [h1], ?_⟩
      intro m' hm'
      rcases List.mem_cons.mp hm' with rfl | hm'
      · exact ⟨h3, h4⟩
      · exact h2 m' hm'
  obtain ⟨ns, rfl, hns⟩ := this
  refine ⟨[a], ns.map fun m => [m.2.2], parse_box P ha, ?_, ?_⟩
  · rw [List.forall₂_map_left_iff, List.forall₂_map_right_iff]
    exact List.forall₂_same.mpr fun m hm => parse_box P (hns m hm).2
  · have := C13_lists_in_order P env ha hns
    have e : (ns.map fun m => [m.2.2]).flatten = ns.map (·.2.2) := by clear this hns hms; induction ns <;> simp_all
    rw [e]
    simpa [List.flatMap_map] using this

/-- Mailboxes of every form. -/
theorem box_bare (env : Env) : ClearBox env c!" joe.x@example. " ⟨[], b!"joe.x@example."⟩ :=
  .bare (.plain (l := c!" joe.x") (d := c!"example. ") (.dotAtom (a := c!" ") (t := c!"joe.x") (b := []) cfws_space.1
      (.inl (.cons (a := c!"joe") (atom_of (by decide)) (.one (atom_of (by decide))))) (by unfold NoMark; decide) OptCfws.nil)
    (.dotAtom (a := []) (t := c!"example.") (b := c!" ") OptCfws.nil (.inr ⟨_, .one (a := c!"example") (atom_of (by decide)), rfl⟩)
      (by unfold NoMark; decide) cfws_space.1))

theorem box_named (env : Env) : ClearBox env c!"Dr \"J. \\\"X\\\"\" =?a?b?c?= =?a?b?d?= Doe<\"a b\"@[::1]:25>"
    ⟨wordsName [b!"Dr", b!"J. \"X\"", decoded env c!"=?a?b?c?=" ++ decoded env c!"=?a?b?d?=", b!"Doe"], b!"a b@[::1]:25"⟩ := by
  refine .named (a := []) (t := c!"<\"a b\"@[::1]:25>") OptCfws.nil (phrase_witness env) (by simp) ?_
  refine .addr (t := c!"\"a b\"@[::1]:25") (b := []) ?_ OptCfws.nil
  refine .port (l := c!"\"a b\"") (d := c!"[::1]") (p := c!"25") (.quoted (a := []) (t := quote c!"a b") (b := []) OptCfws.nil
    (quote_string (t := c!"a b") (by decide)) OptCfws.nil) (.literal (a := []) (t := c!"[::1]") (b := []) OptCfws.nil ?_ OptCfws.nil) (by simp) (by decide)
  exact ⟨c!"::1", [], .char (f := []) (.inl rfl) (by decide) (.char (f := []) (.inl rfl) (by decide) (.char (f := []) (.inl rfl) (by decide) .nil)),
    .inl rfl, rfl⟩

theorem box_null (env : Env) : ClearBox env c!" <>" ⟨[], []⟩ := .angle (a := c!" ") cfws_space.1 (.null (b := []) OptCfws.nil)

example (P : Predictor) (env : Env) : parseAddressList P env (encode c!" joe.x@example. ; <>, joe.x@example. ") =
    .ok (some [⟨[], b!"joe.x@example."⟩, ⟨[], []⟩, ⟨[], b!"joe.x@example."⟩], none) :=
  C13_lists_in_order (ms := [(';', c!" <>", ⟨[], []⟩), (',', c!" joe.x@example. ", ⟨[], b!"joe.x@example."⟩)]) P env (box_bare env) (by
    intro m hm
    simp only [List.mem_cons, List.not_mem_nil, or_false] at hm
    rcases hm with rfl | rfl
    · exact ⟨.inr rfl, box_null env⟩
    · exact ⟨.inl rfl, box_bare env⟩)

/-- Items that are accepted on their own but are not clear-cut need not survive in a list. -/
example (P : Predictor) : parseAddressList P env0 (encode c!"=?a?b?c@d") = .ok (some [⟨[], b!"=?a?b?c@d"⟩], none) ∧
    parseAddressList P env0 (encode c!"x?= <e@f>") = .ok (some [⟨b!"x?=", b!"e@f"⟩], none) ∧
    parseAddressList P env0 (encode c!"=?a?b?c@d,x?= <e@f>") = .ok (some [⟨b!"=?a?b?c@d,x?=", b!"e@f"⟩], none) :=
  ⟨by eval_addr, by eval_addr, by eval_addr⟩

/-! ## C15: groups -/

/-- `name: members;` gives the members, in order; CFWS is allowed around the name and after the semicolon. -/
theorem C15_groups_are_flattened (P : Predictor) (env : Env) {a n m w : List Char} {as : List Addr} (ha : OptCfws a)
    (hn : GroupName env n) (hq : (a ++ n).head? ≠ some '"') (hm : Members env m as) (hw : OptCfws w) :
    parseAddressList P env (encode (a ++ (n ++ ':' :: m) ++ ';' :: w)) = .ok (if as = [] then none else some as, none) := by
  have h := parse_clear P (.one (.group (.mk ha hn hq hm) hw))
  rw [h]; cases as <;> rfl

/-- The semicolon may be left out at the end. -/
theorem C15_semicolon_optional (P : Predictor) (env : Env) {a n m : List Char} {as : List Addr} (ha : OptCfws a)
    (hn : GroupName env n) (hq : (a ++ n).head? ≠ some '"') (hm : Members env m as) :
    parseAddressList P env (encode (a ++ (n ++ ':' :: m))) = .ok (if as = [] then none else some as, none) := by
  have h := parse_clear P (.last (.mk ha hn hq hm))
  rw [h]; cases as <;> rfl

/-- The name of the group does not matter. -/
theorem C15_group_name_is_irrelevant (P : Predictor) (env : Env) {a n a' n' m w : List Char} {as : List Addr} (ha : OptCfws a)
    (hn : GroupName env n) (hq : (a ++ n).head? ≠ some '"') (ha' : OptCfws a') (hn' : GroupName env n')
    (hq' : (a' ++ n').head? ≠ some '"') (hm : Members env m as) (hw : OptCfws w) :
    parseAddressList P env (encode (a ++ (n ++ ':' :: m) ++ ';' :: w)) = parseAddressList P env (encode (a' ++ (n' ++ ':' :: m) ++ ';' :: w)) := by
  rw [C15_groups_are_flattened P env ha hn hq hm hw, C15_groups_are_flattened P env ha' hn' hq' hm hw]

/-- Groups and mailboxes may be mixed in lists: see `Spec.ClearList`. -/
theorem C15_groups_in_lists (P : Predictor) (env : Env) {t : List Char} {as : List Addr} (h : ClearList env t as) :
    parseAddressList P env (encode t) = .ok (if as = [] then none else some as, none) := by
  rw [parse_clear P h]; cases as <;> rfl

theorem group_witness (env : Env) : GroupName env c!"My \"best; friends\" " ∧ (c!"My \"best; friends\" ").head? ≠ some '"' := by
  refine ⟨⟨_, _, .atom (t := c!"My") (b := c!" ") (atom_of (by decide)) (by unfold NoMark; decide) cfws_space.1 (by simp)
    (.quoted (t := quote c!"best; friends") (b := c!" ") (quote_string (t := c!"best; friends") (by decide)) cfws_space.1 .nil), by simp⟩, by decide⟩

theorem members_witness (env : Env) : Members env c!" joe.x@example. , <>" [⟨[], b!"joe.x@example."⟩, ⟨[], []⟩] :=
  .boxes (.cons (t := c!" joe.x@example. ") (r := c!" <>") (box_bare env) (.one (box_null env)))

example (P : Predictor) (env : Env) : parseAddressList P env (encode c!"My \"best; friends\" : joe.x@example. , <>; ") =
    .ok (some [⟨[], b!"joe.x@example."⟩, ⟨[], []⟩], none) := by
  have h := C15_groups_are_flattened (a := []) P env OptCfws.nil (group_witness env).1 (group_witness env).2 (members_witness env) cfws_space.1
  rwa [if_neg (by simp)] at h
/-- An empty group gives the nil slice without an error. -/
example (P : Predictor) (env : Env) : parseAddressList P env (encode c!"My \"best; friends\" : ; ") = .ok (none, none) :=
  C15_groups_are_flattened (a := []) (m := c!" ") (as := []) P env OptCfws.nil (group_witness env).1 (group_witness env).2 (.none cfws_space.1) cfws_space.1
/-- A quotation mark in front of the group is a special case of the grammar: here the second quotation mark belongs to the group
and the name of the member to the name of the group. -/
example (P : Predictor) : parseAddressList P env0 (encode c!"\"a\": \"b:c@d\";") = .ok (some [⟨[], b!"c@d"⟩], none) := by eval_addr

/-! ## C16: comments and folding white space are invisible around the parts of an addr-spec -/

theorem C16_bare (P : Predictor) (env : Env) {c₁ l c₂ c₃ d c₄ : List Char} (h₁ : OptCfws c₁) (hl : DotAtom l) (hml : NoMark l)
    (h₂ : OptCfws c₂) (h₃ : OptCfws c₃) (hd : DotAtom d) (hmd : NoMark d) (h₄ : OptCfws c₄) :
    parseAddressList P env (encode (c₁ ++ (l ++ c₂) ++ '@' :: (c₃ ++ (d ++ c₄)))) = .ok (some [⟨[], encode (l ++ '@' :: d)⟩], none) := by
  have := parse_box (env := env) P (.bare (.plain (.dotAtom h₁ hl hml h₂) (.dotAtom h₃ hd hmd h₄)))
  rw [this, encode_eq, utf8_append, utf8_cons]; rfl

theorem C16_angle (P : Predictor) (env : Env) {c₀ n c₁ l c₂ c₃ d c₄ c₅ : List Char} {vs : List Bytes} (h₀ : OptCfws c₀)
    (hn : Phrase env n vs) (h₁ : OptCfws c₁) (hl : DotAtom l) (h₂ : OptCfws c₂) (h₃ : OptCfws c₃) (hd : DotAtom d) (h₄ : OptCfws c₄)
    (h₅ : OptCfws c₅) :
    parseAddressList P env (encode (c₀ ++ (n ++ '<' :: ((c₁ ++ (l ++ c₂) ++ '@' :: (c₃ ++ (d ++ c₄))) ++ '>' :: c₅)))) =
      .ok (some [⟨wordsName vs, encode (l ++ '@' :: d)⟩], none) := by
  have h : ClearAngle env ('<' :: ((c₁ ++ (l ++ c₂) ++ '@' :: (c₃ ++ (d ++ c₄))) ++ '>' :: c₅)) (encode (l ++ '@' :: d)) := by
    have := ClearAngle.addr (env := env) (.plain (.dotAtom h₁ hl h₂) (.dotAtom h₃ hd h₄)) h₅
    rwa [encode_eq, utf8_append, utf8_cons]
  by_cases hne : vs = []
  · subst hne
    have : n = [] := by
      generalize hv : ([] : List Bytes) = vs at hn
      cases hn <;> first | rfl | cases hv
    subst this
    exact parse_box P (.angle h₀ h)
  · exact parse_box P (.named h₀ hn hne h)

example : OptCfws c!" (a \\) (b))\t" ∧ DotAtom c!"a.b" ∧ NoMark c!"a.b" :=
  ⟨cfws_comment.1, .inl (.cons (a := c!"a") (atom_of (by decide)) (.one (atom_of (by decide)))), by unfold NoMark; decide⟩

/-! ## C17: source routes -/

theorem C17_routes_are_ignored (P : Predictor) (env : Env) {a n q l d b : List Char} {vs : List Bytes} (ha : OptCfws a)
    (hn : Phrase env n vs) (hq : Route q) (hl : DotAtom l) (hd : DotAtom d) (hb : OptCfws b) :
    parseAddressList P env (encode (a ++ (n ++ '<' :: (q ++ ((l ++ '@' :: d) ++ '>' :: b))))) =
      .ok (some [⟨wordsName vs, encode (l ++ '@' :: d)⟩], none) := by
  have h : ClearAngle env _ _ := .routed hq (plainAddr hl hd) hb
  by_cases hne : vs = []
  · subst hne
    have : n = [] := by
      generalize hv : ([] : List Bytes) = vs at hn
      cases hn <;> first | rfl | cases hv
    subst this
    exact parse_box P (.angle ha h)
  · exact parse_box P (.named ha hn hne h)

/-- `@a.b,,@c:` -/
example : Route c!", @a.b,,@c:" := by
  refine ⟨c!", ", c!"a.b", b!"a.b", c!",,@c", .comma (.cfws cfws_space .nil), ?_, ?_, rfl⟩
  · exact .dotAtom (a := []) (t := c!"a.b") (b := []) OptCfws.nil (.inl (.cons (a := c!"a") (atom_of (by decide)) (.one (atom_of (by decide))))) OptCfws.nil
  · exact .empty (t := []) (r := c!",@c") OptCfws.nil (.hop (t := []) (d := c!"c") (v := b!"c") (r := []) OptCfws.nil
      (.dotAtom (a := []) (t := c!"c") (b := []) OptCfws.nil (.inl (.one (atom_of (by decide)))) OptCfws.nil) .nil)

/-! ## C18: ports and domain literals -/

theorem C18_ports (P : Predictor) (env : Env) {l d p : List Char} (hl : DotAtom l) (hd : DotAtom d) (hp : p ≠ [])
    (hdig : ∀ c ∈ p, isDigit c) :
    parseAddressList P env (encode (l ++ '@' :: (d ++ ':' :: p))) = .ok (some [⟨[], encode (l ++ '@' :: (d ++ ':' :: p))⟩], none) ∧
    parseAddressList P env (encode ('<' :: ((l ++ '@' :: (d ++ ':' :: p)) ++ ['>']))) =
      .ok (some [⟨[], encode (l ++ '@' :: (d ++ ':' :: p))⟩], none) := by
  have h : ClearAddr env (l ++ '@' :: (d ++ ':' :: p)) (encode (l ++ '@' :: (d ++ ':' :: p))) := by
    have := ClearAddr.port (env := env) (.dotAtom (a := []) (b := []) OptCfws.nil hl OptCfws.nil) (.dotAtom (a := []) (b := []) OptCfws.nil hd OptCfws.nil) hp hdig
    rw [encode_eq, utf8_append, utf8_cons, utf8_append, utf8_cons, show encodeRune '@' = b!"@" from rfl, show encodeRune ':' = b!":" from rfl]
    simpa using this
  have hd' : '<' ∉ p := fun hm => absurd (hdig _ hm) (by decide)
  exact ⟨parse_bare P h (noDer_nameAddr_noLess (by simp [dotAtom_noLess hl, dotAtom_noLess hd, hd'])),
    parse_box P (.angle (a := []) OptCfws.nil (.addr h OptCfws.nil))⟩

theorem C18_literals (P : Predictor) (env : Env) {l x : List Char} (hl : DotAtom l) (hx : DomainLiteral x) :
    (NoMark l → parseAddressList P env (encode (l ++ '@' :: x)) = .ok (some [⟨[], encode (l ++ '@' :: x)⟩], none)) ∧
    parseAddressList P env (encode ('<' :: ((l ++ '@' :: x) ++ ['>']))) = .ok (some [⟨[], encode (l ++ '@' :: x)⟩], none) := by
  have e : encode (l ++ '@' :: x) = utf8 l ++ (b!"@" ++ utf8 x) := by
    rw [encode_eq, utf8_append, utf8_cons, show encodeRune '@' = b!"@" from rfl]
  constructor
  · intro hm
    have := parse_box (env := env) P (.bare (.plain (.dotAtom (a := []) (b := []) OptCfws.nil hl hm OptCfws.nil) (.literal (a := []) (b := []) OptCfws.nil hx OptCfws.nil)))
    rw [← e] at this
    simpa using this
  · have := parse_box (env := env) P (.angle (a := []) OptCfws.nil (.addr (.plain (.dotAtom (a := []) (b := []) OptCfws.nil hl OptCfws.nil)
      (.literal (a := []) (b := []) OptCfws.nil hx OptCfws.nil)) (OptCfws.nil)))
    rw [← e] at this
    simpa using this

example : DomainLiteral c!"[a ,<(: ]" :=
  ⟨c!"a ,<(:", c!" ", .char (f := []) (.inl rfl) (by decide) (.char (f := c!" ") (.inr (.plain (by simp) (by decide))) (by decide)
    (.char (f := []) (.inl rfl) (by decide) (.char (f := []) (.inl rfl) (by decide) (.char (f := []) (.inl rfl) (by decide) .nil)))),
    .inr (.plain (by simp) (by decide)), rfl⟩

/-! ## C19: the null address -/

theorem C19_null_address (P : Predictor) (env : Env) {a n b : List Char} {vs : List Bytes} (ha : OptCfws a) (hn : Phrase env n vs)
    (hb : OptCfws b) : parseAddressList P env (encode (a ++ (n ++ '<' :: '>' :: b))) = .ok (some [⟨wordsName vs, []⟩], none) := by
  by_cases hne : vs = []
  · subst hne
    have : n = [] := by
      generalize hv : ([] : List Bytes) = vs at hn
      cases hn <;> first | rfl | cases hv
    subst this
    exact parse_box P (.angle ha (.null hb))
  · exact parse_box P (.named ha hn hne (.null hb))

example (P : Predictor) (env : Env) : parseAddressList P env (encode c!"<>") = .ok (some [⟨[], []⟩], none) :=
  C19_null_address (a := []) (n := []) (b := []) P env OptCfws.nil .nil OptCfws.nil

/-! ## C20: encoded words -/

/-- A name made of encoded words: the concatenation of what the decoder makes of them, an undecodable word standing for
itself. -/
theorem C20_encoded_words (P : Predictor) (env : Env) {ws : List (List Char × List Char)} {l d : List Char}
    (hws : ∀ p ∈ ws, EncodedWord p.1 ∧ OptCfws p.2) (hl : DotAtom l) (hd : DotAtom d) :
    parseAddressList P env (encode (ws.flatMap (fun p => p.1 ++ p.2) ++ ('<' :: (l ++ '@' :: d) ++ ['>']))) =
      .ok (some [⟨ws.flatMap fun p => (env.decode (encode p.1)).getD (encode p.1), encode (l ++ '@' :: d)⟩], none) := by
  have ht : ClearAngle env _ _ := .addr (plainAddr hl hd) OptCfws.nil
  have key : ∀ (ws : List (List Char × List Char)), ws ≠ [] → (∀ p ∈ ws, EncodedWord p.1 ∧ OptCfws p.2) →
      EncodedRun env (ws.flatMap fun p => p.1 ++ p.2) (ws.flatMap fun p => decoded env p.1) := by
    intro ws
    induction ws with
    | nil => intro h; exact absurd rfl h
    | cons p ws ih =>
      intro _ h
      obtain ⟨h1, h2⟩ := h p (by simp)
      cases ws with
      | nil => simpa using EncodedRun.one (env := env) h1 h2
      | cons q ws => simpa using EncodedRun.cons h1 h2 (ih (by simp) fun p hp => h p (by simp [hp]))
  have e : (fun p : List Char × List Char => (env.decode (encode p.1)).getD (encode p.1)) = fun p => decoded env p.1 := by
    funext p; rw [encode_eq]; rfl
  rw [e]
  by_cases hne : ws = []
  · subst hne
    exact parse_box P (.angle (a := []) OptCfws.nil ht)
  · have hp : Phrase env (ws.flatMap fun p => p.1 ++ p.2) [ws.flatMap fun p => decoded env p.1] := by
      simpa using Phrase.encoded (key ws hne hws) (by simp) .nil
    have := parse_box P (ClearBox.named (a := []) OptCfws.nil hp (by simp) ht)
    rw [wordsName_one] at this
    simpa using this

example : EncodedWord c!"=?utf-8?q?Caf=C3=A9?=" :=
  ⟨c!"utf-8", c!"q", c!"Caf=C3=A9", by decide, by decide, by decide, by decide, by decide, by decide, rfl⟩
/-- With a decoder that decodes only one of the words. -/
example (P : Predictor) : parseAddressList P ⟨fun w => if w = b!"=?u?q?=C3=A9?=" then some b!"é" else none, 2024⟩
    (encode c!"=?u?q?=C3=A9?= =?u?x?y?= <a@b>") = .ok (some [⟨b!"é=?u?x?y?=", b!"a@b"⟩], none) := by eval_addr

/-! ## C27: quoted local parts lose their quotes -/

theorem C27_quoted_local_parts (P : Predictor) (env : Env) {t d : List Char} (ht : ∀ c ∈ t, quoteOk c = true) (hd : DotAtom d) :
    parseAddressList P env (encode (quote t ++ '@' :: d)) = .ok (some [⟨[], encode (trimRight t ++ '@' :: d)⟩], none) ∧
    parseAddressList P env (encode ('<' :: ((quote t ++ '@' :: d) ++ ['>']))) =
      .ok (some [⟨[], encode (trimRight t ++ '@' :: d)⟩], none) := by
  have h : ClearAddr env (quote t ++ '@' :: d) (encode (trimRight t ++ '@' :: d)) := by
    have := ClearAddr.plain (env := env) (.quoted (a := []) (b := []) OptCfws.nil (quote_string ht) OptCfws.nil) (.dotAtom (a := []) (b := []) OptCfws.nil hd OptCfws.nil)
    rw [encode_eq, utf8_append, utf8_cons, show encodeRune '@' = b!"@" from rfl]
    simpa using this
  exact ⟨parse_bare P h (noDer_nameAddr_quoted (quote_string ht) (by simp [dotAtom_noLess hd])),
    parse_box P (.angle (a := []) OptCfws.nil (.addr h OptCfws.nil))⟩

/-- Without white space at the end, nothing is lost. -/
theorem C27_no_trailing_space (t : List Char) (h : ∀ c ∈ t.getLast?, isWsp c = false) : trimRight t = t := by
  rcases List.eq_nil_or_concat t with rfl | ⟨x, c, rfl⟩
  · rfl
  · rw [List.concat_eq_append] at h ⊢
    have := trimRight_stop (w := x) (t := []) (h c (by simp))
    rw [this]
    simp [trimRight]

/-- Hence the address returned may be unusable: here it is rejected when parsed again, … -/
theorem C27_not_idempotent (P : Predictor) (env : Env) : ∃ address, parseAddressList P env (encode c!"\"a@b\"@c") = .ok (some [⟨[], address⟩], none) ∧
    parseAddressList P env0 address = .ok (none, some .syntaxError) :=
  ⟨encode c!"a@b@c", (C27_quoted_local_parts (t := c!"a@b") (d := c!"c") P env (by decide) (.inl (.one (atom_of (by decide))))).1, by eval_addr⟩

/-- … and here it denotes two other addresses. -/
theorem C27_injection (P : Predictor) (env : Env) : ∃ address, parseAddressList P env (encode c!"\"a@b,c\"@d") = .ok (some [⟨[], address⟩], none) ∧
    parseAddressList P env0 address = .ok (some [⟨[], b!"a@b"⟩, ⟨[], b!"c@d"⟩], none) :=
  ⟨encode c!"a@b,c@d", (C27_quoted_local_parts (t := c!"a@b,c") (d := c!"d") P env (by decide) (.inl (.one (atom_of (by decide))))).1, by eval_addr⟩

end Rfc5322.Props
