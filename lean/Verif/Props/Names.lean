import Verif.Props.Local

/-!
# C50: periods and at signs in display names

`NamePieces` (`Verif/Spec/Clear.lean`): a sequence of words and bare `.` and `@`, with white space and comments anywhere
between, as in `John Q. Public` or `J. R. Smith @ Home`.  `renderName` (`Verif/Spec/Address.lean`) says what such a
sequence denotes.
-/

namespace Rfc5322.Props

open Spec

/-- Any name that begins with a word, in front of any address in angle brackets. -/
theorem C50_punctuated_names (P : Predictor) (env : Env) {a n t : List Char} {w v : Bytes} {ps : List Piece} (ha : OptCfws a)
    (hn : NamePieces env n (.word w :: ps)) (ht : ClearAngle env t v) :
    parseAddressList P env (encode (a ++ (n ++ t))) = .ok (some [⟨renderName (.word w :: ps), v⟩], none) :=
  parse_box P (.pieces ha hn ht)

/-- A name as people write it: words followed by a space, some of them with a period. -/
def abbreviated : List (List Char × Bool) → List Char
  | [] => []
  | (w, dot) :: r => w ++ ((if dot then ['.'] else []) ++ (' ' :: abbreviated r))

/-- What it denotes: a period swallows the space behind it. -/
def abbreviatedName : List (List Char × Bool) → Bytes
  | [] => []
  | [(w, dot)] => encode w ++ (if dot then b!"." else [])
  | (w, dot) :: r => encode w ++ ((if dot then b!"." else b!" ") ++ abbreviatedName r)

def abbreviatedPieces : List (List Char × Bool) → List Piece
  | [] => []
  | (w, dot) :: r => .word (utf8 w) :: ((if dot then [.punct b!"."] else []) ++ abbreviatedPieces r)

theorem abbreviated_pieces (env : Env) : ∀ ws : List (List Char × Bool), (∀ p ∈ ws, Atom p.1 ∧ NoMark p.1) →
    NamePieces env (abbreviated ws) (abbreviatedPieces ws)
  | [], _ => .nil
  | (w, dot) :: r, h => by
    have ih := abbreviated_pieces env r fun p hp => h p (by simp [hp])
    obtain ⟨h1, h2⟩ := h (w, dot) (by simp)
    cases dot with
    | true =>
      have hd : NamePieces env _ _ := .dot (b := [' ']) cfws_space.1 ih
      have := NamePieces.atom (b := []) h1 h2 OptCfws.nil (fun _ c hc => by cases hc; decide) hd
      simpa [abbreviated, abbreviatedPieces] using this
    | false =>
      have := NamePieces.atom (b := [' ']) h1 h2 cfws_space.1 (by simp) ih
      simpa [abbreviated, abbreviatedPieces] using this

theorem utf8_ne_nil {w : List Char} (h : w ≠ []) : utf8 w ≠ [] := by
  rw [← encode_eq]; exact encode_ne_nil h

/-- The value of a name in context: `glue` tells that a period has just been written. -/
theorem abbreviated_fold : ∀ (ws : List (List Char × Bool)) (name : Bytes) (glue : Bool), (∀ p ∈ ws, p.1 ≠ []) → name ≠ [] →
    ((abbreviatedPieces ws).foldl addPiece (name, glue)).1 =
      name ++ (if ws = [] then [] else (if glue then [] else b!" ") ++ abbreviatedName ws)
  | [], name, glue, _, _ => by simp [abbreviatedPieces]
  | (w, dot) :: r, name, glue, h, hne => by
    have hw : utf8 w ≠ [] := utf8_ne_nil (h (w, dot) (by simp))
    have ih := fun name glue => abbreviated_fold r name glue fun p hp => h p (by simp [hp])
    have hv : abbreviatedName ((w, dot) :: r) = utf8 w ++ ((if dot then b!"." else if r = [] then [] else b!" ") ++ abbreviatedName r) := by
      cases r with
      | nil => cases dot <;> simp [abbreviatedName, encode_eq]
      | cons p r => cases dot <;> simp [abbreviatedName, encode_eq]
    rw [if_neg (by simp), hv]
    cases dot with
    | true =>
      simp only [abbreviatedPieces, if_true, List.foldl_cons, List.cons_append, List.nil_append]
      rw [addPiece, addPiece, ih _ _ (by split <;> simp [hne])]
      have : name.isEmpty = false := by cases name with | nil => exact absurd rfl hne | cons => rfl
      cases glue <;> cases r <;> simp [this, abbreviatedName]
    | false =>
      simp only [abbreviatedPieces, List.foldl_cons, List.nil_append, Bool.false_eq_true, if_false]
      rw [addPiece, ih _ _ (by split <;> simp [hne])]
      have : name.isEmpty = false := by cases name with | nil => exact absurd rfl hne | cons => rfl
      cases glue <;> cases r <;> simp [this, abbreviatedName]

theorem abbreviated_render : ∀ ws : List (List Char × Bool), (∀ p ∈ ws, p.1 ≠ []) → renderName (abbreviatedPieces ws) = abbreviatedName ws
  | [], _ => rfl
  | (w, dot) :: r, h => by
    have hw : utf8 w ≠ [] := utf8_ne_nil (h (w, dot) (by simp))
    have ih := fun name glue => abbreviated_fold r name glue fun p hp => h p (by simp [hp])
    cases dot with
    | true =>
      simp only [renderName, abbreviatedPieces, if_true, List.foldl_cons, List.cons_append, List.nil_append, addPiece, List.isEmpty_nil, Bool.or_true]
      rw [ih _ _ (by simp)]
      cases r <;> simp [abbreviatedName, encode_eq]
    | false =>
      simp only [renderName, abbreviatedPieces, List.foldl_cons, List.nil_append, addPiece, List.isEmpty_nil, Bool.or_true, if_true,
        Bool.false_eq_true, if_false]
      rw [ih _ _ hw]
      cases r <;> simp [abbreviatedName, encode_eq]

/-- `J. R. Smith <x@y>`: the spaces behind the periods are lost, the others are kept. -/
theorem C50_abbreviated_names (P : Predictor) (env : Env) {ws : List (List Char × Bool)} (hne : ws ≠ [])
    (hw : ∀ p ∈ ws, Atom p.1 ∧ NoMark p.1) {l d : List Char} (hl : DotAtom l) (hd : DotAtom d) :
    parseAddressList P env (encode (abbreviated ws ++ ('<' :: (l ++ '@' :: d) ++ ['>']))) =
      .ok (some [⟨abbreviatedName ws, encode (l ++ '@' :: d)⟩], none) := by
  have h1 := abbreviated_pieces env ws hw
  have h2 := abbreviated_render ws fun p hp => (hw p hp).1.1
  obtain ⟨p, r, rfl⟩ := List.exists_cons_of_ne_nil hne
  have ht : ClearAngle env _ _ := .addr (plainAddr hl hd) OptCfws.nil
  have := C50_punctuated_names (a := []) P env OptCfws.nil h1 ht
  rw [show Piece.word (utf8 p.1) :: _ = abbreviatedPieces (p :: r) from rfl, h2] at this
  simpa [encode_eq] using this

example (P : Predictor) (env : Env) : parseAddressList P env (encode c!"John Q. Public <x@y>") = .ok (some [⟨b!"John Q.Public", b!"x@y"⟩], none) :=
  C50_abbreviated_names P env (ws := [(c!"John", false), (c!"Q", true), (c!"Public", false)]) (l := c!"x") (d := c!"y") (by simp)
    (by intro p hp; simp only [List.mem_cons, List.not_mem_nil, or_false] at hp; rcases hp with rfl | rfl | rfl <;> exact ⟨atom_of (by decide), by unfold NoMark; decide⟩)
    (.inl (.one (atom_of (by decide)))) (.inl (.one (atom_of (by decide))))

/-- Without angle brackets `@` in a name is not possible; with them it is. -/
example (P : Predictor) (env : Env) : parseAddressList P env (encode c!"me @ home <x@y>") = .ok (some [⟨b!"me@home", b!"x@y"⟩], none) := by
  have h1 : NamePieces env c!"home " _ := .atom (t := c!"home") (b := c!" ") (x := []) (atom_of (by decide)) (by unfold NoMark; decide) cfws_space.1 (by simp) .nil
  have h2 : NamePieces env c!"@ home " _ := .«at» (b := c!" ") cfws_space.1 h1
  have h3 : NamePieces env c!"me @ home " _ := .atom (t := c!"me") (b := c!" ") (atom_of (by decide)) (by unfold NoMark; decide) cfws_space.1 (by simp) h2
  have ht : ClearAngle env c!"<x@y>" _ := .addr (t := c!"x@y") (b := []) (plainAddr (l := c!"x") (d := c!"y") (.inl (.one (atom_of (by decide)))) (.inl (.one (atom_of (by decide))))) OptCfws.nil
  exact C50_punctuated_names (a := []) P env OptCfws.nil h3 ht

/-- The name of a group may be written in the same way; it is not part of the result. -/
theorem C50_abbreviated_group_names (P : Predictor) (env : Env) {ws : List (List Char × Bool)} (hne : ws ≠ [])
    (hw : ∀ p ∈ ws, Atom p.1 ∧ NoMark p.1) {m w : List Char} {as : List Addr} (hm : Members env m as) (hc : OptCfws w) :
    parseAddressList P env (encode (abbreviated ws ++ ':' :: (m ++ ';' :: w))) = .ok (if as = [] then none else some as, none) := by
  have h1 := abbreviated_pieces env ws hw
  obtain ⟨p, r, rfl⟩ := List.exists_cons_of_ne_nil hne
  have hq : (abbreviated (p :: r)).head? ≠ some '"' := by
    obtain ⟨w, dot⟩ := p
    obtain ⟨⟨hw1, hw2⟩, _⟩ := hw (w, dot) (by simp)
    obtain ⟨c, x, rfl⟩ := List.exists_cons_of_ne_nil hw1
    have := hw2 c (by simp)
    intro e
    simp only [abbreviated, List.cons_append, List.head?_cons, Option.some.injEq] at e
    subst e
    exact absurd this (by decide)
  have hp : Piece.punct b!"@" ∉ abbreviatedPieces (p :: r) := by
    generalize p :: r = ws
    induction ws with
    | nil => simp [abbreviatedPieces]
    | cons p r ih =>
      obtain ⟨w, dot⟩ := p
      cases dot <;> simpa [abbreviatedPieces] using ih
  have := C15_groups_are_flattened (a := []) P env OptCfws.nil ⟨_, _, h1, fun h => hp (List.mem_cons_of_mem _ h)⟩ (by simpa using hq) hm hc
  simpa using this

example (P : Predictor) (env : Env) : parseAddressList P env (encode c!"Dr. No : joe.x@example. , <>; ") =
    .ok (some [⟨[], b!"joe.x@example."⟩, ⟨[], []⟩], none) := by
  have h := C50_abbreviated_group_names (ws := [(c!"Dr", true), (c!"No", false)]) P env (by simp)
    (by intro p hp; simp only [List.mem_cons, List.not_mem_nil, or_false] at hp; rcases hp with rfl | rfl <;> exact ⟨atom_of (by decide), by unfold NoMark; decide⟩)
    (members_witness env) cfws_space.1
  rwa [if_neg (by simp)] at h

end Rfc5322.Props
