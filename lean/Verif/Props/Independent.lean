import Verif.Proofs.Split
import Verif.Props.Items

/-!
# C47, C48: the items of a list are read independently

The text is cut into pieces without the grammar, by `Spec.pieces` (`Verif/Spec/Pieces.lean`).
-/

namespace Rfc5322.Props

open Spec

/-! ## C47: each item is read as it is read on its own -/

/-- The result for an accepted text whose colons (if any) are hidden (`HiddenColons`) and whose encoded words (if any) are free of `,`, `;`, `(`, `"` and `[`, consists of the results of the calls with its non-empty pieces, in
order. -/
theorem C47_items_are_independent {P : Predictor} {env : Env} {input : Bytes} {text : List Char} {l : List Addr}
    (hne : input ≠ []) (hr : ReadsAs input text) (hc : HiddenColons (dropAstral text)) (hn : TameWords (dropAstral text))
    (h : parseAddressList P env input = .ok (some l, none)) :
    (fullPieces (dropAstral text)).map (fun p => parseAddressList P env (encode p)) = l.map (fun a => .ok (some [a], none)) := by
  have hl := reading_some hne hr h
  obtain ⟨l', h1, h2, _⟩ := call_each P hne (tokens_reads hr) hl ⟨hn, hc⟩
  rw [h] at h1
  injection h1 with h1
  injection h1 with h1 _
  injection h1 with h1
  subst h1
  refine (h2.imp fun p hp a ha => ?_).map
  simp only [fullPieces, List.mem_filter, Bool.not_eq_true'] at hp
  obtain ⟨h3, h4⟩ := pieces_mem hp.1
  exact (alone_iff_call P (Tame.piece ⟨hn, hc⟩ hp.1) h3 hp.2 fun c hc => addressList_bmp hl c (h4.subset hc)).mpr ha

/-- One rejected piece is enough for the whole text to be rejected. -/
theorem C47_one_bad_item {P : Predictor} {env : Env} {input : Bytes} {text p : List Char}
    (hne : input ≠ []) (hr : ReadsAs input text) (hc : HiddenColons (dropAstral text)) (hn : TameWords (dropAstral text))
    (hp : p ∈ fullPieces (dropAstral text)) (h : parseAddressList P env (encode p) = .ok (none, some .syntaxError)) :
    parseAddressList P env input = .ok (none, some .syntaxError) := by
  rcases parseAddressList_spec P env hne with ⟨l, hl, _⟩ | ⟨_, h'⟩
  · rw [tokens_reads hr] at hl
    obtain ⟨l', h1, _, _⟩ := call_each P hne (tokens_reads hr) hl ⟨hn, hc⟩
    have := C47_items_are_independent hne hr hc hn h1
    have hm := List.mem_map_of_mem (f := fun p => parseAddressList P env (encode p)) hp
    rw [this, List.mem_map] at hm
    obtain ⟨a, _, ha⟩ := hm
    rw [h] at ha; cases ha
  · exact h'

/-- Conversely, if the call accepts each non-empty piece and there is one, and empty pieces are white space and comments — and,
if there are any, no separator is a semicolon — then the whole text is accepted, with those results. -/
theorem C47_items_together {P : Predictor} {env : Env} {input : Bytes} {text : List Char} {l : List Addr}
    (hne : input ≠ []) (hr : ReadsAs input text) (hc : HiddenColons (dropAstral text)) (hn : TameWords (dropAstral text))
    (h : (fullPieces (dropAstral text)).map (fun p => parseAddressList P env (encode p)) = l.map (fun a => .ok (some [a], none)))
    (hl : l ≠ []) (he : ∀ p ∈ pieces (dropAstral text), isEmptyPiece p = true → OptCfws p)
    (hs : (∃ p ∈ pieces (dropAstral text), isEmptyPiece p = true) → ';' ∉ skeleton (dropAstral text)) :
    parseAddressList P env input = .ok (some l, none) := by
  refine call_of_each P hne (tokens_reads hr) ⟨hn, hc⟩ ((Each.ofMap h).imp fun p hp a ha => ?_) hl he hs
  simp only [fullPieces, List.mem_filter, Bool.not_eq_true'] at hp
  obtain ⟨h3, h4⟩ := pieces_mem hp.1
  refine (alone_iff_call P (Tame.piece ⟨hn, hc⟩ hp.1) h3 hp.2 fun c hc => ?_).mp ha
  exact (List.mem_filter.mp (h4.subset hc)).2

/-- Accepted lists can be joined by a separator: the result is the concatenation of the results. -/
theorem C47_concatenation {P : Predictor} {env : Env} {t u : List Char} {c : Char} {l m : List Addr} (hsep : isSep c = true)
    (hne : t ≠ []) (hne' : u ≠ []) (hc : HiddenColons (dropAstral (t ++ c :: u))) (hn : TameWords (dropAstral (t ++ c :: u)))
    (hs : (∃ p ∈ pieces (dropAstral (t ++ c :: u)), isEmptyPiece p = true) → ';' ∉ skeleton (dropAstral (t ++ c :: u)))
    (h : parseAddressList P env (encode t) = .ok (some l, none)) (h' : parseAddressList P env (encode u) = .ok (some m, none)) :
    parseAddressList P env (encode (t ++ c :: u)) = .ok (some (l ++ m), none) := by
  have hd : dropAstral (t ++ c :: u) = dropAstral t ++ c :: dropAstral u := by
    rw [dropAstral_append, show c :: u = [c] ++ u from rfl, dropAstral_append]
    simp only [isSep, Bool.or_eq_true, beq_iff_eq] at hsep
    rcases hsep with rfl | rfl <;> rfl
  rw [hd] at hc hn hs
  have htame : Tame (dropAstral t ++ c :: dropAstral u) := ⟨hn, hc⟩
  have h1 := reading_some (encode_ne_nil hne) (C09_well_formed t) h
  have h2 := reading_some (encode_ne_nil hne') (C09_well_formed u) h'
  obtain ⟨l', e1, k1, o1⟩ := call_each P (encode_ne_nil hne) (tokens_reads (C09_well_formed t)) h1 htame.left
  have htame' : Tame (dropAstral u) := (htame.right (addressList_aligned h1 htame.left) (.cons hsep)).tail hsep
  obtain ⟨m', e2, k2, o2⟩ := call_each P (encode_ne_nil hne') (tokens_reads (C09_well_formed u)) h2 htame'
  rw [h] at e1
  rw [h'] at e2
  injection e1 with e1
  injection e1 with e1 _
  injection e1 with e1
  injection e2 with e2
  injection e2 with e2 _
  injection e2 with e2
  subst e1 e2
  have hp : pieces (dropAstral t ++ c :: dropAstral u) = pieces (dropAstral t) ++ pieces (dropAstral u) :=
    piecesFrom_append (addressList_top h1 htame.left) hsep
  refine call_of_each P (encode_ne_nil (by simp)) (tokens_reads (C09_well_formed _)) (hd ▸ htame) ?_ ?_ ?_ ?_
  · rw [hd, fullPieces, hp, List.filter_append]
    exact k1.append k2
  · intro he
    obtain ⟨rfl, _⟩ := List.append_eq_nil_iff.mp he
    obtain ⟨x, _, hx⟩ := reading (encode_ne_nil hne) (C09_well_formed t) h
    split at hx
    · cases hx
    · rename_i h0; injection hx with hx; exact h0 hx.symm
  · rw [hd, hp]
    intro p hp
    rcases List.mem_append.mp hp with hp | hp
    · exact o1 p hp
    · exact o2 p hp
  · rw [hd]; exact hs

section
variable (P : Predictor) (env : Env)

/-- A list with an empty item, a quoted comma and a comment with a semicolon in it. -/
example : pieces c!"(;)a@b, ,\",\"@d" = [c!"(;)a@b", c!" ", c!"\",\"@d"] := by decide
example : fullPieces c!"(;)a@b, ,\",\"@d" = [c!"(;)a@b", c!"\",\"@d"] := by decide

/-- The hypotheses of the first theorem are met … -/
example : parseAddressList P env0 (encode c!"(;)a@b, ,\",\"@d") = .ok (some [⟨[], b!"a@b"⟩, ⟨[], b!",@d"⟩], none) := by eval_addr
/-- … and so are those of the third. -/
example : parseAddressList P env0 (encode c!"(;)a@b, ,\",\"@d") = .ok (some [⟨[], b!"a@b"⟩, ⟨[], b!",@d"⟩], none) := by
  have hr := C09_well_formed c!"(;)a@b, ,\",\"@d"
  have hd : dropAstral c!"(;)a@b, ,\",\"@d" = c!"(;)a@b, ,\",\"@d" := by decide
  refine C47_items_together (encode_ne_nil (by simp)) hr (by rw [hd]; decide) (by rw [hd]; exact tameWords_of_check (by decide)) ?_ (by simp) ?_ (fun _ => by rw [hd]; decide)
  · rw [hd, show fullPieces c!"(;)a@b, ,\",\"@d" = [c!"(;)a@b", c!"\",\"@d"] by decide]
    have h1 : parseAddressList P env0 (encode c!"(;)a@b") = .ok (some [⟨[], b!"a@b"⟩], none) := by eval_addr
    have h2 : parseAddressList P env0 (encode c!"\",\"@d") = .ok (some [⟨[], b!",@d"⟩], none) := by eval_addr
    simp only [List.map_cons, List.map_nil, h1, h2]
  · rw [hd, show pieces c!"(;)a@b, ,\",\"@d" = [c!"(;)a@b", c!" ", c!"\",\"@d"] by decide]
    intro p hp he
    simp only [List.mem_cons, List.not_mem_nil, or_false] at hp
    rcases hp with rfl | rfl | rfl
    · exact absurd he (by decide)
    · exact cfws_space.1
    · exact absurd he (by decide)

/-- Joining two lists. -/
example : parseAddressList P env0 (encode c!",a@b;c@d") = .ok (none, some .syntaxError) := by eval_addr
example : parseAddressList P env0 (encode (c!",a@b" ++ ',' :: c!"c@d,")) = .ok (some ([⟨[], b!"a@b"⟩] ++ [⟨[], b!"c@d"⟩]), none) :=
  C47_concatenation rfl (by simp) (by simp) (by decide) (tameWords_of_check (by decide)) (fun _ => by decide) (by eval_addr) (by eval_addr)
example : parseAddressList P env0 (encode (c!"a@b" ++ ';' :: c!"c@d,e@f")) = .ok (some ([⟨[], b!"a@b"⟩] ++ [⟨[], b!"c@d"⟩, ⟨[], b!"e@f"⟩]), none) :=
  C47_concatenation rfl (by simp) (by simp) (by decide) (tameWords_of_check (by decide)) (fun h => absurd h (by decide)) (by eval_addr) (by eval_addr)

/-- Encoded words. -/
example : parseAddressList P env0 (encode (c!"=?u?q?a?= <b@c>" ++ ',' :: c!"=?u?b?d?= <>")) = .ok (some ([⟨b!"=?u?q?a?=", b!"b@c"⟩] ++ [⟨b!"=?u?b?d?=", []⟩]), none) :=
  C47_concatenation rfl (by simp) (by simp) (by decide) (tameWords_of_check (by decide)) (fun h => absurd h (by decide)) (by eval_addr) (by eval_addr)

/-- Colons in a quoted string and in a domain literal. -/
example : parseAddressList P env0 (encode (c!" \"a: b\" <c@d>" ++ ';' :: c!"e@[::1]")) = .ok (some ([⟨b!"a: b", b!"c@d"⟩] ++ [⟨[], b!"e@[::1]"⟩]), none) :=
  C47_concatenation rfl (by simp) (by simp) (by decide) (tameWords_of_check (by decide)) (fun h => absurd h (by decide)) (by eval_addr) (by eval_addr)

/-- With a comma in an encoded word the pieces are not independent: two rejected pieces make an accepted text. -/
example : parseAddressList P env0 (encode c!"=?a?b?,?=<>") = .ok (some [⟨b!"=?a?b?,?=", []⟩], none) ∧
    parseAddressList P env0 (encode c!"=?a?b?") = .ok (none, some .syntaxError) := ⟨by eval_addr, by eval_addr⟩

end

/-! ## C48: everything opened is closed -/

/-- An accepted text with hidden colons, and encoded words as above, does not end inside a comment, a quoted string or a domain literal. -/
theorem C48_everything_is_closed {P : Predictor} {env : Env} {input : Bytes} {text : List Char} {slice}
    (hne : input ≠ []) (hr : ReadsAs input text) (hc : HiddenColons (dropAstral text)) (hn : TameWords (dropAstral text))
    (h : parseAddressList P env input = .ok (slice, none)) : Mode.after .top (dropAstral text) = .top := by
  obtain ⟨l, hl, _⟩ := reading hne hr h
  exact addressList_top hl ⟨hn, hc⟩

/-- Hence none of its pieces does. -/
theorem C48_pieces_are_closed {P : Predictor} {env : Env} {input : Bytes} {text p : List Char} {slice}
    (hne : input ≠ []) (hr : ReadsAs input text) (hc : HiddenColons (dropAstral text)) (hn : TameWords (dropAstral text))
    (h : parseAddressList P env input = .ok (slice, none)) (hp : p ∈ pieces (dropAstral text)) : Mode.after .top p = .top := by
  obtain ⟨l, hl, _⟩ := reading hne hr h
  exact pieces_top (addressList_top hl ⟨hn, hc⟩) hp

example (P : Predictor) : parseAddressList P env0 (encode c!"(\\))\"\\\"\"<a@[b(]>") = .ok (some [⟨b!"\"", b!"a@[b(]"⟩], none) ∧
    parseAddressList P env0 (encode c!"(\\)a@b") = .ok (none, some .syntaxError) := ⟨by eval_addr, by eval_addr⟩
example : Mode.after .top c!"(\\))\"\\\"\"<a@[b(]>" = .top ∧ Mode.after .top c!"(\\)a@b" = .comment 0 false := by decide
/-- With a colon it may: the rest of the text after `"a` is a group with a quote that is not closed. -/
example (P : Predictor) : parseAddressList P env0 (encode c!"\"a:b@c") = .ok (some [⟨[], b!"b@c"⟩], none) ∧
    Mode.after .top c!"\"a:b@c" = .quoted false := ⟨by eval_addr, by decide⟩

end Rfc5322.Props
