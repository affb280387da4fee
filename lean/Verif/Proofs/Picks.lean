import Verif.Proofs.Preferred
import Verif.Proofs.Lists
import Verif.Proofs.Strip

/-!
# Building preferred derivations

`Splits K g t r`: from `t ++ r`, the preferred derivation of `g` leaves `r`.
`Picks K Q env g t r f`: moreover walking it has effect `f`.
-/

namespace Rfc5322

open Spec

/-- The preferred derivation exists as soon as one derivation does. -/
theorem exists_preferred {g : G} {K : List Char → Prop} {s : List Char} (hw : g.wf = true) (h : Completes g K s) :
    ∃ ts s', Preferred K g s ts s' := by
  classical
  let k : Cont Unit := fun _ s' => if K s' then some () else none
  have hk : ∀ ts s', s'.length ≤ s.length → ((k ts s').isSome ↔ K s') := by
    intro ts s' _
    by_cases h : K s' <;> simp [k, h]
  have := (run_completes hw (Nat.le_refl _) hk).mpr h
  obtain ⟨r, hr⟩ := Option.isSome_iff_exists.mp this
  obtain ⟨ts, s', hp, _⟩ := searchWith_preferred s.length (searchComment_preferred _) g hw s k K r (Nat.le_refl _) hk hr
  exact ⟨ts, s', hp⟩

def Splits (K : List Char → Prop) (g : G) (t r : List Char) : Prop := ∃ ts, Preferred K g (t ++ r) ts r

def Picks (K : List Char → Prop) (Q : Rule → Prop) (env : Env) (g : G) (t r : List Char) (f : Node → Node) : Prop :=
  ∃ ts, Preferred K g (t ++ r) ts r ∧ textList ts = utf8 t ∧ Eff Q env ts f

variable {K : List Char → Prop} {env : Env} {Q : Rule → Prop}

theorem Splits.holds {g t r} (h : Splits K g t r) : K r := by
  obtain ⟨ts, h⟩ := h; exact (Preferred.derives h).2
theorem Splits.completes {g t r} (h : Splits K g t r) : Completes g K (t ++ r) := by
  obtain ⟨ts, h⟩ := h; exact Preferred.completes h
theorem Picks.splits {g t r f} (h : Picks K Q env g t r f) : Splits K g t r := by
  obtain ⟨ts, h, _⟩ := h; exact ⟨ts, h⟩
theorem Picks.completes {g t r f} (h : Picks K Q env g t r f) : Completes g K (t ++ r) := h.splits.completes
theorem Picks.holds {g t r f} (h : Picks K Q env g t r f) : K r := h.splits.holds

theorem Picks.mono {Q' : Rule → Prop} {g t r f} (h : Picks K Q env g t r f) (hk : ∀ q, Q' q → Q q) : Picks K Q' env g t r f := by
  obtain ⟨ts, h1, h2, h3⟩ := h
  exact ⟨ts, h1, h2, h3.kind, fun p rest res err hp => h3.run p rest res err (hk _ hp)⟩

theorem Picks.cast {g t r f f'} (h : Picks K Q env g t r f) (e : f = f') : Picks K Q env g t r f' := e ▸ h

/-- Only the effect on parents of the kinds considered matters. -/
theorem Picks.weaken {Q' : Rule → Prop} {g t r f f'} (h : Picks K Q env g t r f) (hk : ∀ p, (f' p).kind = p.kind)
    (e : ∀ p, Q' p.kind → Q p.kind ∧ f p = f' p) : Picks K Q' env g t r f' := by
  obtain ⟨ts, h1, h2, h3⟩ := h
  exact ⟨ts, h1, h2, h3.weaken hk e⟩

/-! ## Combinators -/

theorem Splits.seq {a b t u r} (h1 : Splits (Completes b K) a t (u ++ r)) (h2 : Splits K b u r) :
    Splits K (a ⬝ b) (t ++ u) r := by
  obtain ⟨ts, h1⟩ := h1
  obtain ⟨us, h2⟩ := h2
  exact ⟨_, by rw [List.append_assoc]; exact .seq h1 h2⟩

theorem Splits.altL {a b t r} (h : Splits K a t r) : Splits K (a ‖ b) t r := by
  obtain ⟨ts, h⟩ := h; exact ⟨ts, .first h⟩

theorem Splits.altR {a b t r} (hn : ¬ Completes a K (t ++ r)) (h : Splits K b t r) : Splits K (a ‖ b) t r := by
  obtain ⟨ts, h⟩ := h; exact ⟨ts, .second hn h⟩

theorem Splits.eps {r} (h : K r) : Splits K .eps [] r := ⟨[], .eps h⟩

theorem Splits.optNil {a r} (hn : ¬ Completes a K r) (h : K r) : Splits K (.opt a) [] r := .altR hn (.eps h)

theorem Splits.again {a t u r} (h1 : Splits (Completes (.star a) K) a t (u ++ r)) (h2 : Splits K (.star a) u r) :
    Splits K (.star a) (t ++ u) r := by
  obtain ⟨ts, h1⟩ := h1
  obtain ⟨us, h2⟩ := h2
  exact ⟨_, by rw [List.append_assoc]; exact .again h1 h2⟩

theorem Splits.stop {a r} (hn : ¬ Completes a (Completes (.star a) K) r) (h : K r) : Splits K (.star a) [] r := by
  refine ⟨[], .stop ?_ h⟩
  rintro ⟨ts, s', hd, hK⟩
  cases hd with
  | seq h1 h2 => exact hn ⟨_, _, h1, _, _, h2, hK⟩

theorem Splits.rule {q a t r} (h : Splits K a t r) : Splits K (.rule q a) t r := by
  obtain ⟨ts, h⟩ := h; exact ⟨_, .rule h⟩

theorem Picks.eps {r} (h : K r) : Picks K Q env .eps [] r id := ⟨[], .eps h, rfl, .nil⟩

theorem Picks.tok {k : Tok} {c r} (hm : k.matches c = true) (h : K r) : Picks K Q env (.t k) [c] r id :=
  ⟨[.tok c], .t hm h, by rw [textList_tok, utf8_single], .tok⟩

theorem Picks.seq {a b t u r f g} (h1 : Picks (Completes b K) Q env a t (u ++ r) f) (h2 : Picks K Q env b u r g) :
    Picks K Q env (a ⬝ b) (t ++ u) r (fun p => g (f p)) := by
  obtain ⟨ts, h1, e1, f1⟩ := h1
  obtain ⟨us, h2, e2, f2⟩ := h2
  exact ⟨_, by rw [List.append_assoc]; exact .seq h1 h2, by rw [textList_append, e1, e2, utf8_append], f1.append f2⟩

theorem Picks.altL {a b t r f} (h : Picks K Q env a t r f) : Picks K Q env (a ‖ b) t r f := by
  obtain ⟨ts, h, e⟩ := h; exact ⟨ts, .first h, e⟩

theorem Picks.altR {a b t r f} (hn : ¬ Completes a K (t ++ r)) (h : Picks K Q env b t r f) :
    Picks K Q env (a ‖ b) t r f := by
  obtain ⟨ts, h, e⟩ := h; exact ⟨ts, .second hn h, e⟩

theorem Picks.optNil {a r} (hn : ¬ Completes a K r) (h : K r) : Picks K Q env (.opt a) [] r id := .altR hn (.eps h)

theorem Picks.again {a t u r f g} (h1 : Picks (Completes (.star a) K) Q env a t (u ++ r) f)
    (h2 : Picks K Q env (.star a) u r g) : Picks K Q env (.star a) (t ++ u) r (fun p => g (f p)) := by
  obtain ⟨ts, h1, e1, f1⟩ := h1
  obtain ⟨us, h2, e2, f2⟩ := h2
  exact ⟨_, by rw [List.append_assoc]; exact .again h1 h2, by rw [textList_append, e1, e2, utf8_append], f1.append f2⟩

theorem Picks.stop {a r} (hn : ¬ Completes a (Completes (.star a) K) r) (h : K r) : Picks K Q env (.star a) [] r id := by
  refine ⟨[], .stop ?_ h, rfl, .nil⟩
  rintro ⟨ts, s', hd, hK⟩
  cases hd with
  | seq h1 h2 => exact hn ⟨_, _, h1, _, _, h2, hK⟩

theorem Picks.silent {q a t r f} (hq : q.silent = true) (h : Picks K Q env a t r f) : Picks K Q env (.rule q a) t r f := by
  obtain ⟨ts, h, e, f⟩ := h
  exact ⟨_, .rule h, by rw [textList_node, e], f.silent hq⟩

theorem Picks.push {Q' : Rule → Prop} {q a t r f} {mk : Node} (hq : q.delivers = true) (hk : mk.kind = q) (hp : Q' q)
    (h : Picks K Q' env a t r f) (he : ∀ ts w, textList ts = utf8 t → enterRule env q ts w = .ok (w.enter mk)) :
    Picks K Q env (.rule q a) t r (deliver (f mk)) := by
  obtain ⟨ts, h, e, f⟩ := h
  exact ⟨_, .rule h, by rw [textList_node, e], f.push hq hk hp fun w => he ts w e⟩

/-- The effect of a quiet expression is none. -/
theorem Splits.quiet {g t r S} (hm : Means Q env g (.quiet S)) (h : Splits K g t r) : Picks K Q env g t r id := by
  obtain ⟨ts, h⟩ := h
  obtain ⟨t', f, e, ⟨_, rfl⟩, h2, h3⟩ := hm.sound (Preferred.derives h).1
  have : t' = t := (List.append_cancel_right e).symm
  exact ⟨ts, h, this ▸ h2, h3⟩

/-- The effect of an expression whose value is determined by its text. -/
theorem Splits.value {α : Type} {g t r} {S : List Char → α → Prop} {h : α → Node → Node} {v : α}
    (hm : Means Q env g (.value S h)) (hs : Splits K g t r) (hu : ∀ v', S t v' → v' = v) : Picks K Q env g t r (h v) := by
  obtain ⟨ts, hs⟩ := hs
  obtain ⟨t', f, e, ⟨v', hv, rfl⟩, h2, h3⟩ := hm.sound (Preferred.derives hs).1
  have : t' = t := (List.append_cancel_right e).symm
  subst this
  exact ⟨ts, hs, h2, hu v' hv ▸ h3⟩

/-- Completions seen through the denotation. -/
theorem completes_means {g L} {s : List Char} (hm : Means Q env g L) (h : Completes g K s) : ∃ t f r, s = t ++ r ∧ L t f ∧ K r := by
  obtain ⟨ts, s', hd, hK⟩ := h
  obtain ⟨t, f, e, hl, _⟩ := hm.sound hd
  exact ⟨t, f, s', e, hl, hK⟩

theorem completes_of_means {g L t f r} (hm : Means Q env g L) (hl : L t f) (hK : K r) : Completes g K (t ++ r) := by
  obtain ⟨ts, hd, _⟩ := hm.complete hl r
  exact ⟨ts, r, hd, hK⟩

theorem completes_quiet {g S} {s : List Char} (hm : Means Q env g (.quiet S)) (h : Completes g K s) :
    ∃ t r, s = t ++ r ∧ S t ∧ K r := by
  obtain ⟨t, f, r, e, ⟨hs, _⟩, hK⟩ := completes_means hm h
  exact ⟨t, r, e, hs, hK⟩

theorem completes_value {α : Type} {g} {S : List Char → α → Prop} {h : α → Node → Node} {s : List Char}
    (hm : Means Q env g (.value S h)) (hc : Completes g K s) : ∃ t v r, s = t ++ r ∧ S t v ∧ K r := by
  obtain ⟨t, f, r, e, ⟨v, hs, _⟩, hK⟩ := completes_means hm hc
  exact ⟨t, v, r, e, hs, hK⟩

theorem completes_seq {a b : G} {s : List Char} (h : Completes (a ⬝ b) K s) : Completes a (Completes b K) s := by
  obtain ⟨ts, s', hd, hK⟩ := h
  cases hd with
  | seq h1 h2 => exact ⟨_, _, h1, _, _, h2, hK⟩

theorem completes_alt {a b : G} {s : List Char} (h : Completes (a ‖ b) K s) : Completes a K s ∨ Completes b K s := by
  obtain ⟨ts, s', hd, hK⟩ := h
  cases hd with
  | altL h => exact .inl ⟨_, _, h, hK⟩
  | altR h => exact .inr ⟨_, _, h, hK⟩

theorem completes_rule {q : Rule} {a : G} {s : List Char} (h : Completes (.rule q a) K s) : Completes a K s := by
  obtain ⟨ts, s', hd, hK⟩ := h
  cases hd with
  | rule h => exact ⟨_, _, h, hK⟩

theorem not_completes {g : G} {s : List Char} (h : NoDer g s) : ¬ Completes g K s := by
  rintro ⟨ts, s', hd, _⟩; exact h _ _ hd

/-- If only one remainder is possible, it is the one chosen. -/
theorem splits_forced {g : G} {L} {t r : List Char} {f} (hw : g.wf = true) (hm : Means Q env g L) (hl : L t f) (hK : K r)
    (hu : ∀ t' f' r', L t' f' → t ++ r = t' ++ r' → K r' → r' = r) : Splits K g t r := by
  obtain ⟨ts, s', hp⟩ := exists_preferred hw (completes_of_means hm hl hK)
  obtain ⟨hd, hK'⟩ := Preferred.derives hp
  obtain ⟨t', f', e, hl', _⟩ := hm.sound hd
  have := hu t' f' s' hl' e hK'
  subst this
  exact ⟨ts, hp⟩

/-! ## Greedy pieces: chosen whatever must follow -/

/-- Whatever is required of the rest, `g` takes `t` if that can be continued. -/
def Greedy (g : G) (t r : List Char) : Prop := ∀ K : List Char → Prop, K r → Splits K g t r

theorem Greedy.seq {a b t u r} (h1 : Greedy a t (u ++ r)) (h2 : Greedy b u r) : Greedy (a ⬝ b) (t ++ u) r :=
  fun _ hK => .seq (h1 _ (h2 _ hK).completes) (h2 _ hK)

theorem Greedy.altL {a b t r} (h : Greedy a t r) : Greedy (a ‖ b) t r := fun _ hK => (h _ hK).altL

theorem Greedy.altR {a b t r} (hn : NoDer a (t ++ r)) (h : Greedy b t r) : Greedy (a ‖ b) t r :=
  fun _ hK => .altR (not_completes hn) (h _ hK)

theorem Greedy.optNil {a r} (hn : NoDer a r) : Greedy (.opt a) [] r := fun _ hK => .optNil (not_completes hn) hK

theorem Greedy.again {a t u r} (h1 : Greedy a t (u ++ r)) (h2 : Greedy (.star a) u r) : Greedy (.star a) (t ++ u) r :=
  fun _ hK => .again (h1 _ (h2 _ hK).completes) (h2 _ hK)

theorem Greedy.stop {a r} (hn : NoDer a r) : Greedy (.star a) [] r := fun _ hK => .stop (not_completes hn) hK

theorem Greedy.rule {q a t r} (h : Greedy a t r) : Greedy (.rule q a) t r := fun _ hK => (h _ hK).rule

theorem Greedy.tok {k : Tok} {c r} (hm : k.matches c = true) : Greedy (.t k) [c] r := fun _ hK => ⟨_, .t hm hK⟩

theorem noDer_means {g L} {s : List Char} (hm : Means Q env g L) (h : ∀ t f r, L t f → s ≠ t ++ r) : NoDer g s := by
  intro ts s' hd
  obtain ⟨t, f, e, hl, _⟩ := hm.sound hd
  exact h t f s' hl e

theorem greedy_forced {g : G} {L} {t r : List Char} {f} (hw : g.wf = true) (hm : Means Q env g L) (hl : L t f)
    (hu : ∀ t' f' r', L t' f' → t ++ r = t' ++ r' → r' = r) : Greedy g t r :=
  fun _ hK => splits_forced hw hm hl hK fun t' f' r' h e _ => hu t' f' r' h e

/-- One character of a class. -/
theorem greedy_char {g : G} {p c r} (hw : g.wf = true) (hm : Means Q env g (.char p)) (hc : p c = true) : Greedy g [c] r :=
  greedy_forced (t := [c]) hw hm ⟨c, rfl, hc, rfl⟩ (by
    rintro _ _ r' ⟨d, rfl, _, _⟩ e
    simp at e; exact e.2.symm)

theorem noDer_char {g : G} {p r} (hm : Means Q env g (.char p)) (hr : ∀ c x, r = c :: x → p c = false) : NoDer g r :=
  noDer_means hm (by
    rintro _ _ r' ⟨d, rfl, hd, _⟩ e
    rw [hr d r' (by simpa using e)] at hd; cases hd)

/-- A run of characters of a class. -/
theorem greedy_star_char {g : G} {p t r} (hw : g.wf = true) (hm : Means Q env g (.char p)) (ht : ∀ c ∈ t, p c = true)
    (hr : ∀ c x, r = c :: x → p c = false) : Greedy (.star g) t r := by
  induction t with
  | nil => exact .stop (noDer_char hm hr)
  | cons c t ih =>
    exact Greedy.again (t := [c]) (greedy_char hw hm (ht c (by simp))) (ih fun c hc => ht c (by simp [hc]))

theorem greedy_plus_char {g : G} {p t r} (hw : g.wf = true) (hm : Means Q env g (.char p)) (hne : t ≠ [])
    (ht : ∀ c ∈ t, p c = true) (hr : ∀ c x, r = c :: x → p c = false) : Greedy (.plus g) t r := by
  obtain ⟨c, t, rfl⟩ := List.exists_cons_of_ne_nil hne
  exact Greedy.seq (t := [c]) (greedy_char hw hm (ht c (by simp))) (greedy_star_char hw hm (fun c hc => ht c (by simp [hc])) hr)

end Rfc5322
