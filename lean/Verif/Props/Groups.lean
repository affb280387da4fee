import Verif.Proofs.Groups
import Verif.Props.Items

/-!
# C58: lists with groups
-/

namespace Rfc5322.Props

open Spec

/-- Lists with groups whose names may begin with a quoted string and whose members may be padded with commas: see `Spec.GroupsList`. -/
theorem C58_groups_in_lists (P : Predictor) (env : Env) {t : List Char} {as : List Addr} (h : GroupsList env t as) :
    parseAddressList P env (encode t) = .ok (if as = [] then none else some as, none) := by
  rw [parse_groups P h]; cases as <;> rfl

/-- A group whose name begins with a quoted string is like any other, as long as no colon is visible if its first quotation mark is ignored. -/
theorem C58_quoted_group_names (P : Predictor) (env : Env) {n m w : List Char} {as : List Addr} (hn : GroupName env n) (hm : GroupMembers env m as)
    (hw : OptCfws w) (hf : FirmQuote (n ++ ':' :: (m ++ ';' :: w))) :
    parseAddressList P env (encode (n ++ ':' :: (m ++ ';' :: w))) = .ok (if as = [] then none else some as, none) := by
  have h := C58_groups_in_lists P env (.group (.mk OptCfws.nil hn hm) hw (by simpa using hf))
  simpa using h

/-- Commas between the colon and the semicolon of a group add nothing. -/
theorem C58_only_commas (P : Predictor) (env : Env) {n h w w' : List Char} (hn : GroupName env n) (hh : Commas h) (hw : OptCfws w) (hw' : OptCfws w')
    (hf : FirmQuote (n ++ ':' :: ((h ++ w) ++ ';' :: w'))) :
    parseAddressList P env (encode (n ++ ':' :: ((h ++ w) ++ ';' :: w'))) = .ok (none, none) := by
  refine C58_quoted_group_names (as := []) P env hn ?_ hw' hf
  by_cases hne : h = []
  · subst hne; exact .plain (.none hw)
  · exact .commas hh hne hw

/-- An empty group inside quotation marks: `"undisclosed recipients:"`, with an optional semicolon after the colon or after the closing
quotation mark. -/
theorem C58_undisclosed_recipients (P : Predictor) (env : Env) {n w e c : List Char} {v : Bytes} (hn : DisplayName env n v) (hm : '@' ∉ n ∧ '<' ∉ n) (hw : OptCfws w)
    (hwm : '@' ∉ w ∧ '<' ∉ w) (he : e = [] ∨ e = [';']) (hc : OptCfws c) (hcm : '@' ∉ c ∧ '<' ∉ c) :
    parseAddressList P env (encode ('"' :: (n ++ ':' :: (w ++ '"' :: (e ++ c))))) = .ok (none, none) := by
  have hl : AddressList env ('"' :: (n ++ ':' :: (w ++ '"' :: (e ++ c)))) [] := by
    have h : Address env _ _ := .group ⟨['"'], n, v, w, ['"'], e, c, .inr rfl, hn, .empty (h := []) .nil hw, .inr rfl, he, hc, rfl⟩
    simpa using AddressList.strict h .nil
  have hb := addressList_bmp hl
  generalize ht : '"' :: (n ++ ':' :: (w ++ '"' :: (e ++ c))) = t at *
  have hcount : t.count '@' = 0 ∧ t.count '<' = 0 := by
    subst ht
    rw [List.count_eq_zero, List.count_eq_zero]
    rcases he with rfl | rfl <;> simp [hm, hwm, hcm]
  have hne : encode t ≠ [] := encode_ne_nil (by rw [← ht]; simp)
  obtain ⟨s, hs⟩ := (C04_accepts_exactly_the_address_lists P env hne (C09_well_formed t)).mpr ⟨[], by rwa [dropAstral_of hb]⟩
  obtain ⟨l, hl', hs'⟩ := C06_addresses_are_a_reading hne (C09_well_formed t) hs
  rw [dropAstral_of hb] at hl'
  have := addressList_marks hl'
  have h0 : l = [] := List.eq_nil_of_length_eq_zero (by unfold marks at this; omega)
  subst h0
  rw [hs, hs', if_pos rfl]

/-! ## Witnesses -/

theorem quotedName_witness (env : Env) : GroupName env c!"\"My; group\" " :=
  ⟨_, _, .quoted (t := quote c!"My; group") (b := c!" ") (quote_string (t := c!"My; group") (by decide)) cfws_space.1 .nil, by simp⟩

theorem padded_witness (env : Env) : GroupMembers env c!", (a \\) (b))\t, joe.x@example. , , <>," [⟨[], b!"joe.x@example."⟩, ⟨[], []⟩] :=
  .padded (h := c!", (a \\) (b))\t,") (t := c!" joe.x@example. ") (r := c!", , <>,") commas_witness (by simp) (box_bare env)
    (.empty (t := c!" ") cfws_space.1 (.item (t := c!" <>") (r := c!",") (as := [⟨[], []⟩]) ⟨_, box_null env, rfl⟩ (.empty (t := []) OptCfws.nil .nil)))

theorem groups_witness (env : Env) : GroupsList env c!"\"My; group\" :, (a \\) (b))\t, joe.x@example. , , <>,; ; <>,\"My; group\" :, (a \\) (b))\t, "
    [⟨[], b!"joe.x@example."⟩, ⟨[], []⟩, ⟨[], []⟩] := by
  have h1 : GroupText env c!"\"My; group\" :, (a \\) (b))\t, joe.x@example. , , <>," _ := .mk (a := []) OptCfws.nil (quotedName_witness env) (padded_witness env)
  have h2 : GroupText env c!"\"My; group\" :, (a \\) (b))\t, " _ := .mk (a := []) OptCfws.nil (quotedName_witness env)
    (.commas (h := c!", (a \\) (b))\t,") (w := c!" ") commas_witness (by simp) cfws_space.1)
  have tame : ∀ t : List Char, NoMark t → TameWords t := fun t h => tameWords_of_noMark h
  refine .groupCons (w := c!" ") (sep := ';') h1 cfws_space.1 (.inr rfl) (.cons (t := c!" <>") (.box (box_null env)) (.inl rfl) (.last h2 ?_)) ?_
  · intro x hx
    injection hx with _ hx
    subst hx
    exact ⟨by decide, tame _ (by unfold NoMark; decide)⟩
  · intro x hx
    injection hx with _ hx
    subst hx
    exact ⟨by decide, tame _ (by unfold NoMark; decide)⟩

example (P : Predictor) (env : Env) :
    parseAddressList P env (encode c!"\"My; group\" :, (a \\) (b))\t, joe.x@example. , , <>,; ; <>,\"My; group\" :, (a \\) (b))\t, ") =
    .ok (some [⟨[], b!"joe.x@example."⟩, ⟨[], []⟩, ⟨[], []⟩], none) := by
  have h := C58_groups_in_lists P env (groups_witness env)
  rwa [if_neg (by simp)] at h

example (P : Predictor) (env : Env) : parseAddressList P env (encode c!"\"undisclosed recipients: \"; ") = .ok (none, none) := by
  have h : DisplayName env (c!"undisclosed " ++ c!"recipients") (renderName [.word b!"undisclosed", .word b!"recipients"]) :=
    ⟨c!"undisclosed ", b!"undisclosed", c!"recipients", [.word b!"recipients"],
      .atom (a := []) (b := c!" ") OptCfws.nil (atom_of (t := c!"undisclosed") (by decide)) cfws_space.1,
      .word (t := c!"recipients") (r := []) (.atom (a := []) (b := []) OptCfws.nil (atom_of (t := c!"recipients") (by decide)) OptCfws.nil) .nil, rfl, rfl⟩
  have h' := C58_undisclosed_recipients (w := c!" ") (e := c!";") (c := c!" ") P env h (by decide) cfws_space.1 (by decide) (.inr rfl) cfws_space.1 (by decide)
  exact h'

end Rfc5322.Props
