import Verif.Proofs.Eff
import Verif.Proofs.Search
import Verif.Proofs.Tok

/-!
# Denotations of grammar expressions

`Means Q env g L`: the derivations of `g` are exactly the texts `t` with `L t f`, and walking the trees of such a
derivation has effect `f`.
-/

namespace Rfc5322

/-- A language whose words carry an effect on the struct on top of the walker's stack. -/
abbrev Lang := List Char → (Node → Node) → Prop

structure Means (Q : Rule → Prop) (env : Env) (g : G) (L : Lang) : Prop where
  sound : ∀ {s ts s'}, Derives g s ts s' → ∃ t f, s = t ++ s' ∧ L t f ∧ textList ts = utf8 t ∧ Eff Q env ts f
  complete : ∀ {t f}, L t f → ∀ s', ∃ ts, Derives g (t ++ s') ts s' ∧ textList ts = utf8 t ∧ Eff Q env ts f

namespace Lang
def eps : Lang := fun t f => t = [] ∧ f = id
def char (p : Char → Bool) : Lang := fun t f => ∃ c, t = [c] ∧ p c = true ∧ f = id
def lit (c : Char) : Lang := fun t f => t = [c] ∧ f = id
def seq (A B : Lang) : Lang := fun t f => ∃ t₁ f₁ t₂ f₂, A t₁ f₁ ∧ B t₂ f₂ ∧ t = t₁ ++ t₂ ∧ f = fun p => f₂ (f₁ p)
def alt (A B : Lang) : Lang := fun t f => A t f ∨ B t f
inductive star (A : Lang) : Lang where
  | nil : star A [] id
  | cons {t₁ f₁ t₂ f₂} : A t₁ f₁ → star A t₂ f₂ → star A (t₁ ++ t₂) (fun p => f₂ (f₁ p))
/-- Texts without effect. -/
def quiet (S : List Char → Prop) : Lang := fun t f => S t ∧ f = id
/-- Texts with a value handed to the parent. -/
def value {α : Type} (S : List Char → α → Prop) (h : α → Node → Node) : Lang := fun t f => ∃ v, S t v ∧ f = h v
end Lang

variable {env : Env} {Q : Rule → Prop}

theorem Means.congr {g L M} (h : Means Q env g L) (e : ∀ t f, L t f ↔ M t f) : Means Q env g M where
  sound hd := by
    obtain ⟨t, f, h1, h2, h3, h4⟩ := h.sound hd
    exact ⟨t, f, h1, (e _ _).mp h2, h3, h4⟩
  complete hm := h.complete ((e _ _).mpr hm)

theorem Means.eps : Means Q env .eps .eps where
  sound hd := by cases hd; exact ⟨[], id, rfl, ⟨rfl, rfl⟩, rfl, .nil⟩
  complete := by rintro t f ⟨rfl, rfl⟩ s'; exact ⟨[], .eps, rfl, .nil⟩

theorem Means.t {k} : Means Q env (.t k) (.char k.matches) where
  sound hd := by
    cases hd with
    | t h => exact ⟨[_], id, rfl, ⟨_, rfl, h, rfl⟩, by rw [textList_tok, utf8_single], .tok⟩
  complete := by
    rintro t f ⟨c, rfl, h, rfl⟩ s'
    exact ⟨[.tok c], .t h, by rw [textList_tok, utf8_single], .tok⟩

theorem Means.seq {a b A B} (ha : Means Q env a A) (hb : Means Q env b B) : Means Q env (a ⬝ b) (.seq A B) where
  sound hd := by
    cases hd with
    | seq h1 h2 =>
      obtain ⟨t, f, rfl, h3, h4, h5⟩ := ha.sound h1
      obtain ⟨u, g, rfl, h6, h7, h8⟩ := hb.sound h2
      exact ⟨t ++ u, _, by simp, ⟨t, f, u, g, h3, h6, rfl, rfl⟩, by rw [textList_append, h4, h7, utf8_append],
        h5.append h8⟩
  complete := by
    rintro t f ⟨t, f, u, g, h3, h6, rfl, rfl⟩ s'
    obtain ⟨ts, d1, e1, f1⟩ := ha.complete h3 (u ++ s')
    obtain ⟨us, d2, e2, f2⟩ := hb.complete h6 s'
    exact ⟨ts ++ us, by rw [List.append_assoc]; exact .seq d1 d2, by rw [textList_append, e1, e2, utf8_append],
      f1.append f2⟩

theorem Means.alt {a b A B} (ha : Means Q env a A) (hb : Means Q env b B) : Means Q env (a ‖ b) (.alt A B) where
  sound hd := by
    cases hd with
    | altL h => obtain ⟨t, f, h1, h2, h3⟩ := ha.sound h; exact ⟨t, f, h1, .inl h2, h3⟩
    | altR h => obtain ⟨t, f, h1, h2, h3⟩ := hb.sound h; exact ⟨t, f, h1, .inr h2, h3⟩
  complete := by
    rintro t f (h | h) s'
    · obtain ⟨ts, d, e⟩ := ha.complete h s'; exact ⟨ts, .altL d, e⟩
    · obtain ⟨ts, d, e⟩ := hb.complete h s'; exact ⟨ts, .altR d, e⟩

theorem Means.opt {a A} (ha : Means Q env a A) : Means Q env (.opt a) (.alt A .eps) := ha.alt .eps

theorem Means.star {a A} (ha : Means Q env a A) : Means Q env (.star a) (.star A) where
  sound {s ts s'} hd := by
    generalize hg : G.star a = g at hd
    induction hd with
    | starNil => exact ⟨[], id, rfl, .nil, rfl, .nil⟩
    | starCons h1 _ _ ih =>
      cases hg
      obtain ⟨t, f, rfl, h3, h4, h5⟩ := ha.sound h1
      obtain ⟨u, g, rfl, h6, h7, h8⟩ := ih rfl
      exact ⟨t ++ u, _, by simp, .cons h3 h6, by rw [textList_append, h4, h7, utf8_append], h5.append h8⟩
    | _ => cases hg
  complete hm := by
    induction hm with
    | nil => intro s'; exact ⟨[], .starNil, rfl, .nil⟩
    | cons h1 _ ih =>
      intro s'
      obtain ⟨us, d2, e2, f2⟩ := ih s'
      obtain ⟨ts, d1, e1, f1⟩ := ha.complete h1 (_ ++ s')
      exact ⟨ts ++ us, by rw [List.append_assoc]; exact .starCons d1 d2,
        by rw [textList_append, e1, e2, utf8_append], f1.append f2⟩

theorem Means.plus {a A} (ha : Means Q env a A) : Means Q env (.plus a) (.seq A (.star A)) := ha.seq ha.star

theorem Means.silent {r a A} (hr : r.silent = true) (ha : Means Q env a A) : Means Q env (.rule r a) A where
  sound hd := by
    cases hd with
    | rule h =>
      obtain ⟨t, f, h1, h2, h3, h4⟩ := ha.sound h
      exact ⟨t, f, h1, h2, by rw [textList_node, h3], h4.silent hr⟩
  complete hm s' := by
    obtain ⟨ts, d, e, f⟩ := ha.complete hm s'
    exact ⟨_, .rule d, by rw [textList_node, e], f.silent hr⟩

/-- A rule that pushes a struct determined by its text. -/
theorem Means.push {Q' : Rule → Prop} {r a A} {mk : List Char → Node} (hr : r.delivers = true)
    (hk : ∀ t, (mk t).kind = r) (hp : Q' r) (ha : Means Q' env a A)
    (he : ∀ t f ts w, A t f → textList ts = utf8 t → enterRule env r ts w = .ok (w.enter (mk t))) :
    Means Q env (.rule r a) fun t f => ∃ g, A t g ∧ f = deliver (g (mk t)) where
  sound hd := by
    cases hd with
    | rule h =>
      obtain ⟨t, f, h1, h2, h3, h4⟩ := ha.sound h
      exact ⟨t, _, h1, ⟨f, h2, rfl⟩, by rw [textList_node, h3],
        h4.push hr (hk t) hp fun w => he t f _ w h2 h3⟩
  complete := by
    rintro t f ⟨g, h, rfl⟩ s'
    obtain ⟨ts, d, e, f⟩ := ha.complete h s'
    exact ⟨_, .rule d, by rw [textList_node, e], f.push hr (hk t) hp fun w => he t g _ w h e⟩

/-- A rule that pushes a constant struct. -/
theorem Means.push₀ {Q' : Rule → Prop} {r a A} {mk : Node} (hr : r.delivers = true) (hk : mk.kind = r)
    (hp : Q' r) (ha : Means Q' env a A) (he : ∀ ts w, enterRule env r ts w = .ok (w.enter mk)) :
    Means Q env (.rule r a) fun t f => ∃ g, A t g ∧ f = deliver (g mk) :=
  Means.push hr (fun _ => hk) hp ha fun _ _ _ _ _ _ => he _ _

/-- Changing the effects to others that agree on the parents considered. -/
theorem Means.weaken {Q' : Rule → Prop} {g L M} (h : Means Q env g L)
    (e₁ : ∀ t f, L t f → ∃ f', M t f' ∧ (∀ p, (f' p).kind = p.kind) ∧ ∀ p, Q' p.kind → Q p.kind ∧ f p = f' p)
    (e₂ : ∀ t f', M t f' → ∃ f, L t f ∧ (∀ p, (f' p).kind = p.kind) ∧ ∀ p, Q' p.kind → Q p.kind ∧ f p = f' p) :
    Means Q' env g M where
  sound hd := by
    obtain ⟨t, f, h1, h2, h3, h4⟩ := h.sound hd
    obtain ⟨f', h5, h6, h7⟩ := e₁ _ _ h2
    exact ⟨t, f', h1, h5, h3, h4.weaken h6 h7⟩
  complete hm s' := by
    obtain ⟨f, h5, h6, h7⟩ := e₂ _ _ hm
    obtain ⟨ts, d, e, h4⟩ := h.complete h5 s'
    exact ⟨ts, d, e, h4.weaken h6 h7⟩

/-! ## Classes of single characters -/

/-- The set of tokens of an expression that is a plain choice of single tokens. -/
def G.cls : G → Option (List Tok)
  | .t k => some [k]
  | .alt a b => match a.cls, b.cls with
    | some A, some B => some (A ++ B)
    | _, _ => none
  | .rule r a => if r.silent then a.cls else none
  | _ => none

theorem Means.cls {g ks} (h : g.cls = some ks) : Means Q env g (.char (anyTok ks)) := by
  induction g generalizing ks with
  | eps | eof | seq | star | comment => simp [G.cls] at h
  | t k =>
    simp [G.cls] at h; subst h
    exact Means.t.congr fun t f => by simp [Lang.char, anyTok]
  | alt a b iha ihb =>
    simp only [G.cls] at h
    split at h
    · rename_i A B ha hb
      simp at h; subst h
      refine ((iha ha).alt (ihb hb)).congr fun t f => ?_
      simp only [Lang.alt, Lang.char, anyTok_append, Bool.or_eq_true]
      constructor
      · rintro (⟨c, h1, h2, h3⟩ | ⟨c, h1, h2, h3⟩)
        · exact ⟨c, h1, .inl h2, h3⟩
        · exact ⟨c, h1, .inr h2, h3⟩
      · rintro ⟨c, h1, h2 | h2, h3⟩
        · exact .inl ⟨c, h1, h2, h3⟩
        · exact .inr ⟨c, h1, h2, h3⟩
    · simp at h
  | rule r a ih =>
    simp only [G.cls] at h
    split at h
    · exact (ih h).silent ‹_›
    · simp at h

theorem anyTok_same {A B : List Tok} (h : (A.all B.contains && B.all A.contains) = true) (c : Char) :
    anyTok A c = anyTok B c := by
  simp only [Bool.and_eq_true, List.all_eq_true, List.contains_iff_mem] at h
  rw [Bool.eq_iff_iff, anyTok_iff, anyTok_iff]
  exact ⟨fun ⟨t, ht, hm⟩ => ⟨t, h.1 t ht, hm⟩, fun ⟨t, ht, hm⟩ => ⟨t, h.2 t ht, hm⟩⟩

/-- `cls` against a reference set of tokens and a predicate. -/
theorem Means.class {g ks B} {p : Char → Bool} (h : g.cls = some ks)
    (hs : (ks.all B.contains && B.all ks.contains) = true) (hp : ∀ c, anyTok B c = p c) :
    Means Q env g (.char p) :=
  (Means.cls h).congr fun t f => by simp only [Lang.char, anyTok_same hs, hp]

theorem Means.lit {k : Tok} {d : Char} (hd : d.toNat < 128)
    (h : (List.range 128).all (fun n => k.matchesN n == (n == d.toNat)) = true) (h8 : k ≠ .UTF8NonAscii) :
    Means Q env (.t k) (.lit d) :=
  Means.t.congr fun t f => by
    simp only [Lang.char, Lang.lit]
    constructor
    · rintro ⟨c, rfl, hm, rfl⟩
      rw [(single_matches hd h h8 c).mp hm]; exact ⟨rfl, rfl⟩
    · rintro ⟨rfl, rfl⟩
      exact ⟨d, rfl, (single_matches hd h h8 d).mpr rfl, rfl⟩

end Rfc5322
