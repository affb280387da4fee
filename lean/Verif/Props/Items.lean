import Verif.Proofs.ObsList
import Verif.Props.Shape
import Verif.Props.Clear

/-!
# C14, C41: list items and empty items

Items are found without the grammar, by `Spec.items` (`Verif/Spec/Skeleton.lean`).
-/

namespace Rfc5322.Props

open Spec

/-! ## C41: one result per non-empty item -/

/-- In an accepted text with hidden colons (if any), whose encoded words (if any) contain none of `,`, `;`, `(`, `"`, `[`, the number of results is the number of non-empty items between commas and
semicolons (outside comments, quoted strings and domain literals) … -/
theorem C41_one_result_per_item {P : Predictor} {env : Env} {input : Bytes} {text : List Char} {l : List Addr}
    (hne : input ≠ []) (hr : ReadsAs input text) (hc : HiddenColons (dropAstral text)) (hn : TameWords (dropAstral text))
    (h : parseAddressList P env input = .ok (some l, none)) :
    l.length = ((items (dropAstral text)).filter (· ≠ [])).length := by
  have h1 := (addressList_items (reading_some hne hr h) ⟨hn, hc⟩).1
  rw [← h1, full]
  congr 1
  refine List.filter_congr fun s _ => ?_
  cases s <;> rfl

/-- … and empty items occur only if there is no semicolon among the separators. -/
theorem C41_empty_items_and_semicolons (P : Predictor) (env : Env) {input : Bytes} {text : List Char}
    (hne : input ≠ []) (hr : ReadsAs input text) (hc : HiddenColons (dropAstral text)) (hn : TameWords (dropAstral text))
    (he : [] ∈ items (dropAstral text)) (hs : ';' ∈ skeleton (dropAstral text)) :
    parseAddressList P env input = .ok (none, some .syntaxError) := by
  rcases parseAddressList_spec P env hne with ⟨l, hl, _⟩ | ⟨_, h⟩
  · rw [tokens_reads hr] at hl
    exact absurd hs ((addressList_items hl ⟨hn, hc⟩).2 he)
  · exact h

/-- The condition on encoded words can be checked, and holds if there is no `=?`. -/
example : TameWords c!"=?utf-8?q?=41?= =?utf-8?b?QQ==?= <a@b>, =?u?v?" := tameWords_of_check (by decide)
example {t : List Char} (h : ¬ c!"=?" <:+: t) : TameWords t := tameWords_of_noMark h
example : ¬ TameWords c!"=?a?b?c,d?= <e@f>" := fun h =>
  h c!"=?a?b?c,d?=" ⟨c!"a", c!"b", c!"c,d", by simp, by simp, by simp, by decide, by decide, by decide, rfl⟩ ⟨[], c!" <e@f>", rfl⟩ ',' (by decide) (by decide)

example (P : Predictor) : parseAddressList P env0 (encode c!"J(,)<a@b>,,\";\"<d@[,]>") =
    .ok (some [⟨b!"J", b!"a@b"⟩, ⟨b!";", b!"d@[,]"⟩], none) := by eval_addr
example : items c!"J(,)<a@b>,,\";\"<d@[,]>" = [c!"J<a@b>", [], c!"\"<d@[>"] := by decide
example : [] ∈ items c!"a@b;,c@d" ∧ ';' ∈ skeleton c!"a@b;,c@d" := by decide
/-- Colons in quoted strings, domain literals and comments. -/
example (P : Predictor) : parseAddressList P env0 (encode c!" \":,\"<a@[:,:]>,(:)b@c") =
    .ok (some [⟨b!":,", b!"a@[:,:]"⟩, ⟨[], b!"b@c"⟩], none) := by eval_addr
example : HiddenColons c!" \":,\"<a@[:,:]>,(:)b@c" ∧ items c!" \":,\"<a@[:,:]>,(:)b@c" = [c!"\"<a@[>", c!"b@c"] := by decide
/-- It follows from there being none. -/
example {t : List Char} (h : ':' ∉ t) : HiddenColons t := hiddenColons_of h
/-- A quote in front of the name of a group hides a colon from the skeleton, but not from the parser: here are three items, but one result. -/
example (P : Predictor) : parseAddressList P env0 (encode c!"\"J\",a@b,\"L:c@d\"") = .ok (some [⟨[], b!"c@d"⟩], none) ∧
    items c!"\"J\",a@b,\"L:c@d\"" = [c!"\"", c!"a@b", c!"\""] ∧ ¬ HiddenColons c!"\"J\",a@b,\"L:c@d\"" := ⟨by eval_addr, by decide, by decide⟩
/-- The exclusions are needed. -/
example (P : Predictor) : parseAddressList P env0 (encode c!"g: ;") = .ok (none, none) ∧
    parseAddressList P env0 (encode c!"=?a?b?c,d?= <e@f>") = .ok (some [⟨b!"=?a?b?c,d?=", b!"e@f"⟩], none) :=
  ⟨by eval_addr, by eval_addr⟩

/-! ## C14: empty items -/

/-- Commas in front of a list are ignored, as are empty items in it.  `Commas h`: any number of commas, each with CFWS
before it; `CommaTail`: items and empty items (CFWS or nothing), each after a comma. -/
theorem C14_leading_commas (P : Predictor) (env : Env) {h t r : List Char} {as bs : List Addr} (hh : Commas h) (hne : h ≠ [])
    (ht : ClearItem env t as) (hr : CommaTail (ClearItem env) r bs) :
    parseAddressList P env (encode (h ++ (t ++ r))) = .ok (if as ++ bs = [] then none else some (as ++ bs), none) := by
  rw [parse_leading P hh hne ht hr]
  cases as ++ bs <;> rfl

theorem cfws_tail_witness (env : Env) : CommaTail (fun t as => ∃ b, ClearBox env t b ∧ as = [b]) c!", , joe.x@example. ," [⟨[], b!"joe.x@example."⟩] :=
  .empty (t := c!" ") (r := c!", joe.x@example. ,") cfws_space.1
    (.item (t := c!" joe.x@example. ") (r := c!",") (as := [⟨[], b!"joe.x@example."⟩]) (bs := []) ⟨_, box_bare env, rfl⟩ (.empty (t := []) OptCfws.nil .nil))

theorem commas_witness : Commas c!", (a \\) (b))\t," :=
  .cons (t := []) (r := c!" (a \\) (b))\t,") OptCfws.nil (.cons (t := c!" (a \\) (b))\t") (r := []) cfws_comment.1 .nil)

example (P : Predictor) (env : Env) : parseAddressList P env (encode c!", (a \\) (b))\t,My \"best; friends\" : joe.x@example. , <>; , <>,") =
    .ok (some [⟨[], b!"joe.x@example."⟩, ⟨[], []⟩, ⟨[], []⟩], none) := by
  have h := C14_leading_commas (h := c!", (a \\) (b))\t,") (t := c!"My \"best; friends\" : joe.x@example. , <>; ") (r := c!", <>,")
    (as := [⟨[], b!"joe.x@example."⟩, ⟨[], []⟩]) (bs := [⟨[], []⟩]) P env commas_witness (by decide)
    (.group (g := c!"My \"best; friends\" : joe.x@example. , <>") (w := c!" ") (.mk (a := []) (m := c!" joe.x@example. , <>") OptCfws.nil (group_witness env).1 (group_witness env).2 (members_witness env)) cfws_space.1)
    (.item (t := c!" <>") (r := c!",") (as := [⟨[], []⟩]) (bs := []) (.box (box_null env)) (.empty (t := []) OptCfws.nil .nil))
  rwa [if_neg (by simp)] at h

/-- In texts with hidden colons, and with encoded words as above, empty items are ignored everywhere. -/
theorem C14_empty_items (P : Predictor) (env : Env) {h t r : List Char} {a : Addr} {bs : List Addr} (hh : Commas h)
    (ht : ClearBox env t a) (hr : CommaTail (fun t as => ∃ b, ClearBox env t b ∧ as = [b]) r bs)
    (hc : HiddenColons (h ++ (t ++ r))) (hn : TameWords (h ++ (t ++ r))) :
    parseAddressList P env (encode (h ++ (t ++ r))) = .ok (some (a :: bs), none) := by
  exact parse_padded P hh ht hr ⟨hn, hc⟩

example (P : Predictor) (env : Env) : parseAddressList P env (encode c!" <>, , joe.x@example. ,") =
    .ok (some [⟨[], []⟩, ⟨[], b!"joe.x@example."⟩], none) :=
  C14_empty_items (h := []) (t := c!" <>") P env .nil (box_null env) (cfws_tail_witness env) (by decide) (tameWords_of_check (by decide))

/-- With a colon, and quotes in an encoded word, empty items may change the reading: here is what the mailboxes are on their own, and what becomes of
them when commas are added. -/
example (P : Predictor) :
    parseAddressList P env0 (encode c!"\"a:<=?x?y?\"<z?=@d>") = .ok (some [⟨b!"a:<=?x?y?", b!"z?=@d"⟩], none) ∧
    parseAddressList P env0 (encode c!"\"a:<=?x?y?\"<z?=@d>,") = .ok (some [⟨[], b!"=?x?y?\"<z?=@d"⟩], none) :=
  ⟨by eval_addr, by eval_addr⟩

/-- A semicolon at the end is an error, whatever accepted text it follows (with hidden colons, and encoded words as above); `w` is white space and
comments, or nothing. -/
theorem C14_trailing_semicolon (P : Predictor) (env : Env) {t w : List Char} {slice} (hne : t ≠ []) (hw : OptCfws w)
    (hc : HiddenColons (dropAstral (t ++ ';' :: w))) (hn : TameWords (dropAstral (t ++ ';' :: w)))
    (h : parseAddressList P env (encode t) = .ok (slice, none)) :
    parseAddressList P env (encode (t ++ ';' :: w)) = .ok (none, some .syntaxError) := by
  obtain ⟨l, hl, _⟩ := reading (encode_ne_nil hne) (C09_well_formed t) h
  have hbw : dropAstral w = w :=
    dropAstral_of (takes_bmp (show Takes plainK env _ _ [] _ from takes_optCfws hw .nil))
  have hd : dropAstral (t ++ ';' :: w) = dropAstral t ++ ';' :: w := by
    rw [dropAstral_append, show ';' :: w = [';'] ++ w from rfl, dropAstral_append, hbw]; rfl
  rw [hd] at hc hn
  have htame : Tame (dropAstral t ++ ';' :: w) := ⟨hn, hc⟩
  rcases parseAddressList_spec P env (encode_ne_nil (t := t ++ ';' :: w) (by simp)) with ⟨l', hl', _⟩ | ⟨_, h'⟩
  · exfalso
    rw [tokens_reads (C09_well_formed _), hd] at hl'
    have hs := addressList_app hl htame.left (';' :: w)
    have e : skeleton (';' :: w) = [';'] := by
      rw [skeleton_sep rfl]
      have := skeleton_cfws hw []
      rw [List.append_nil] at this
      rw [this]; rfl
    rw [e] at hs
    have := (addressList_items hl' htame).2
    rw [items, hs, splitSeps_last _ rfl] at this
    exact this (by simp) (by simp)
  · exact h'

example (P : Predictor) (env : Env) : parseAddressList P env (encode c!"joe.x@example. ; ") = .ok (none, some .syntaxError) := by
  refine C14_trailing_semicolon (t := c!"joe.x@example. ") (w := c!" ") (slice := some [⟨[], b!"joe.x@example."⟩]) P env (by decide) cfws_space.1 (by decide) (tameWords_of_check (by decide)) ?_
  exact C16_bare P env (c₁ := []) (l := c!"joe.x") (c₂ := []) (c₃ := []) (d := c!"example.") (c₄ := c!" ") OptCfws.nil
    (.inl (.cons (a := c!"joe") (atom_of (by decide)) (.one (atom_of (by decide))))) (by unfold NoMark; decide) OptCfws.nil OptCfws.nil
    (.inr ⟨_, .one (a := c!"example") (atom_of (by decide)), rfl⟩) (by unfold NoMark; decide) cfws_space.1
/-- After a group it is not. -/
example (P : Predictor) : parseAddressList P env0 (encode c!"g: a@b") = .ok (some [⟨[], b!"a@b"⟩], none) ∧
    parseAddressList P env0 (encode c!"g: a@b;") = .ok (some [⟨[], b!"a@b"⟩], none) := ⟨by eval_addr, by eval_addr⟩

end Rfc5322.Props
