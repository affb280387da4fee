import Verif.Proofs.Words

/-!
# Denotations: display names, local parts, domains, addresses
-/

namespace Rfc5322

open Spec

variable {env : Env} {Q : Rule → Prop}

theorem Means.mono {Q' : Rule → Prop} {g L} (h : Means Q env g L) (hk : ∀ r, Q' r → Q r) : Means Q' env g L where
  sound hd := by
    obtain ⟨t, f, h1, h2, h3, h4⟩ := h.sound hd
    exact ⟨t, f, h1, h2, h3, ⟨h4.kind, fun p rest res err hp => h4.run p rest res err (hk _ hp)⟩⟩
  complete hm s' := by
    obtain ⟨ts, d, e, h4⟩ := h.complete hm s'
    exact ⟨ts, d, e, ⟨h4.kind, fun p rest res err hp => h4.run p rest res err (hk _ hp)⟩⟩

/-- A value ignored by the parents considered. -/
theorem Means.ignore {α : Type} {Q' : Rule → Prop} {g} {S : List Char → α → Prop} {h : α → Node → Node}
    (hg : Means Q env g (.value S h)) (hk : ∀ r, Q' r → Q r) (he : ∀ v p, Q' p.kind → h v p = p) :
    Means Q' env g (.quiet fun t => ∃ v, S t v) :=
  hg.weaken
    (fun t f ⟨v, hv, e⟩ => ⟨id, ⟨⟨v, hv⟩, rfl⟩, fun _ => rfl, fun p hp => ⟨hk _ hp, by rw [e, he v p hp]; rfl⟩⟩)
    (fun t f ⟨⟨v, hv⟩, e⟩ => ⟨h v, ⟨v, hv, rfl⟩, by subst e; exact fun _ => rfl,
      fun p hp => ⟨hk _ hp, by rw [e, he v p hp]; rfl⟩⟩)

theorem Means.value_congr {α : Type} {g} {S T : List Char → α → Prop} {h : α → Node → Node}
    (hg : Means Q env g (.value S h)) (e : ∀ t v, S t v ↔ T t v) : Means Q env g (.value T h) :=
  hg.congr fun t f => by simp only [Lang.value, e]

theorem Means.value_fun {α : Type} {g} {S : List Char → α → Prop} {h k : α → Node → Node}
    (hg : Means Q env g (.value S h)) (e : ∀ v, h v = k v) : Means Q env g (.value S k) :=
  hg.congr fun t f => by simp only [Lang.value, e]

/-- Changing the effect to one that agrees on the parents considered. -/
theorem Means.value_on {α : Type} {Q' : Rule → Prop} {g} {S : List Char → α → Prop} {h k : α → Node → Node}
    (hg : Means Q env g (.value S h)) (hk : ∀ v p, (k v p).kind = p.kind)
    (he : ∀ v p, Q' p.kind → Q p.kind ∧ h v p = k v p) : Means Q' env g (.value S k) :=
  hg.weaken
    (fun t f ⟨v, hv, e⟩ => ⟨_, ⟨v, hv, rfl⟩, hk v, fun p hp => by subst e; exact he v p hp⟩)
    (fun t f ⟨v, hv, e⟩ => ⟨_, ⟨v, hv, rfl⟩, by subst e; exact hk v, fun p hp => by subst e; exact he v p hp⟩)

/-! ## Display names -/

/-- Effect of some pieces on a display name. -/
def addPieces (ps : List Piece) : Node → Node
  | .displayName x u => .displayName (ps.foldl addPiece (x, u)).1 (ps.foldl addPiece (x, u)).2
  | p => p

theorem addPieces_nil : addPieces [] = id := by funext p; cases p <;> rfl
theorem addPieces_add {ps qs p} : addPieces qs (addPieces ps p) = addPieces (ps ++ qs) p := by
  cases p <;> simp [addPieces, List.foldl_append]

theorem means_word_piece : Means (· = .displayName) env Gr.word (.value (Word env) fun v => addPieces [.word v]) := by
  refine (means_word (Q := anyK)).value_on (fun v p => by cases p <;> rfl) fun v p hp => ⟨trivial, ?_⟩
  cases p with
  | displayName x u =>
    simp only [deliver, displayWithWord, addPieces, List.foldl, addPiece]
    cases u <;> cases x <;> simp
  | _ => simp [Node.kind] at hp

theorem means_unspaced : Means Q env Gr.unspaced
    (.value (fun t v => t = ['.'] ∧ v = b!"." ∨ t = ['@'] ∧ v = b!"@") fun v => addPieces [.punct v]) := by
  have hat : Means anyK env (.t .At) (.quiet fun t => t = ['@']) := Means.qlit (by decide) (by decide +kernel) (by decide)
  have eff : ∀ v, deliver (.unspaced v) = addPieces [.punct v] := by intro v; funext p; cases p <;> rfl
  refine (Means.push (Q := Q) (r := .unspaced) (mk := fun t => .unspaced (utf8 t)) rfl (fun _ => rfl) trivial
    (means_period.qalt hat) (fun t f ts w _ h => by simp [enterRule, h])).congr fun t f => ?_
  constructor
  · rintro ⟨_, ⟨rfl | rfl, rfl⟩, rfl⟩
    · exact ⟨_, .inl ⟨rfl, rfl⟩, eff _⟩
    · exact ⟨_, .inr ⟨rfl, rfl⟩, eff _⟩
  · rintro ⟨v, ⟨rfl, rfl⟩ | ⟨rfl, rfl⟩, rfl⟩
    · exact ⟨id, ⟨.inl rfl, rfl⟩, (eff _).symm⟩
    · exact ⟨id, ⟨.inr rfl, rfl⟩, (eff _).symm⟩

theorem means_nameTail : Means (· = .displayName) env (.star (Gr.word ‖ Gr.unspaced ‖ Gr.cfws))
    (.value (NameTail env) addPieces) :=
  (means_word_piece.alt (means_unspaced.alt (means_cfws.mono (by rintro _ rfl; exact plainK_of rfl)))).star.congr
    fun t f => by
    constructor
    · intro h
      induction h with
      | nil => exact ⟨[], .nil, addPieces_nil.symm⟩
      | cons h _ ih =>
        obtain ⟨ps, hr, rfl⟩ := ih
        rcases h with ⟨v, hv, rfl⟩ | ⟨v, ⟨rfl, rfl⟩ | ⟨rfl, rfl⟩, rfl⟩ | ⟨hc, rfl⟩
        · exact ⟨_, .word hv hr, by funext p; simp [addPieces_add]⟩
        · exact ⟨_, .dot hr, by funext p; simp [addPieces_add]⟩
        · exact ⟨_, .at hr, by funext p; simp [addPieces_add]⟩
        · exact ⟨_, .cfws hc hr, rfl⟩
    · rintro ⟨ps, h, rfl⟩
      induction h with
      | nil => rw [addPieces_nil]; exact .nil
      | @word t v r ps hw _ ih =>
        have := Lang.star.cons (A := .alt _ _) (.inl ⟨v, hw, rfl⟩) ih
        simpa [addPieces_add] using this
      | @dot r ps _ ih =>
        have := Lang.star.cons (A := .alt _ (.alt _ _)) (.inr (.inl ⟨b!".", .inl ⟨rfl, rfl⟩, rfl⟩)) ih
        simpa [addPieces_add] using this
      | @«at» r ps _ ih =>
        have := Lang.star.cons (A := .alt _ (.alt _ _)) (.inr (.inl ⟨b!"@", .inr ⟨rfl, rfl⟩, rfl⟩)) ih
        simpa [addPieces_add] using this
      | @cfws t r ps hc _ ih =>
        have := Lang.star.cons (A := .alt _ (.alt _ (.quiet Cfws))) (.inr (.inr ⟨hc, rfl⟩)) ih
        simpa [addPieces_add] using this

/-- Setting the name of a mailbox. -/
def setName (v : Bytes) : Node → Node
  | .nameAddr _ a => .nameAddr v a
  | p => p

theorem means_displayName : Means Q env Gr.displayName (.value (DisplayName env) setName) := by
  have eff : ∀ v u, deliver (.displayName v u) = setName v := by intro v u; funext p; cases p <;> rfl
  have body := means_word_piece.plus.alt (means_word_piece.seq (means_nameTail (env := env)))
  have plusTail : ∀ t f, Lang.star (.value (Word env) fun v => addPieces [.word v]) t f →
      ∃ ps, NameTail env t ps ∧ f = addPieces ps := by
    intro t f h
    induction h with
    | nil => exact ⟨[], .nil, addPieces_nil.symm⟩
    | cons h _ ih =>
      obtain ⟨ps, hr, rfl⟩ := ih
      obtain ⟨v, hv, rfl⟩ := h
      exact ⟨_, .word hv hr, by funext p; simp [addPieces_add]⟩
  refine (Means.push₀ (Q := Q) (Q' := (· = .displayName)) (r := .displayName) (mk := .displayName [] false) rfl rfl rfl body
    (fun _ _ => rfl)).congr fun t f => ?_
  constructor
  · rintro ⟨_, ⟨w, _, r, _, ⟨v, hv, rfl⟩, h, rfl, rfl⟩ | ⟨w, _, r, _, ⟨v, hv, rfl⟩, ⟨ps, hp, rfl⟩, rfl, rfl⟩, rfl⟩
    · obtain ⟨ps, hp, rfl⟩ := plusTail _ _ h
      refine ⟨_, ⟨w, v, r, ps, hv, hp, rfl, rfl⟩, ?_⟩
      dsimp only; rw [addPieces_add, addPieces, eff]; rfl
    · refine ⟨_, ⟨w, v, r, ps, hv, hp, rfl, rfl⟩, ?_⟩
      dsimp only; rw [addPieces_add, addPieces, eff]; rfl
  · rintro ⟨_, ⟨w, v, r, ps, hv, hp, rfl, rfl⟩, rfl⟩
    refine ⟨_, .inr ⟨w, _, r, _, ⟨v, hv, rfl⟩, ⟨ps, hp, rfl⟩, rfl, rfl⟩, ?_⟩
    dsimp only; rw [addPieces_add, addPieces, eff]; rfl

/-! ## Local parts -/

theorem joinBytes_cons {sep x y xs} : joinBytes sep (x :: y :: xs) = x ++ (sep ++ joinBytes sep (y :: xs)) := by
  simp [joinBytes]

/-- Appending words to an obs-local-part. -/
def addWords (vs : List Bytes) : Node → Node
  | .obsLocalPart xs => .obsLocalPart (xs ++ vs)
  | p => p

theorem addWords_nil : addWords [] = id := by funext p; cases p <;> simp [addWords]
theorem addWords_add {u v p} : addWords v (addWords u p) = addWords (u ++ v) p := by cases p <;> simp [addWords]

theorem means_word_local : Means (· = .obsLocalPart) env Gr.word (.value (Word env) fun v => addWords [v]) := by
  refine (means_word (Q := anyK)).value_on (fun v p => by cases p <;> rfl) fun v p hp => ⟨trivial, ?_⟩
  cases p with
  | obsLocalPart xs => rfl
  | _ => simp [Node.kind] at hp

theorem dottedWords_iff {t f} :
    Lang.seq (.value (Word env) fun v => addWords [v])
      (.star (.seq (.quiet fun t => t = ['.']) (.value (Word env) fun v => addWords [v]))) t f ↔
    ∃ v vs, DottedWords env t (joinBytes b!"." (v :: vs)) ∧ f = addWords (v :: vs) ∧
      ∃ t₁ t₂, Word env t₁ v ∧ Lang.star (.seq (.quiet fun t => t = ['.'])
        (.value (Word env) fun v => addWords [v])) t₂ (addWords vs) ∧ t = t₁ ++ t₂ := by
  constructor
  · rintro ⟨t₁, f₁, t₂, f₂, h1, h2, rfl, rfl⟩
    induction h2 generalizing t₁ f₁ with
    | nil =>
      obtain ⟨v, hv, rfl⟩ := h1
      exact ⟨v, [], by simpa [joinBytes] using DottedWords.one hv, rfl, t₁, [], hv, by rw [addWords_nil]; exact .nil, rfl⟩
    | cons h hs ih =>
      obtain ⟨_, _, u, _, ⟨rfl, rfl⟩, hu, rfl, rfl⟩ := h
      obtain ⟨w, ws, hd, e, u₁, u₂, k1, k2, k3⟩ := ih _ _ hu
      obtain ⟨v, hv, rfl⟩ := h1
      obtain ⟨u', hu', rfl⟩ := hu
      refine ⟨v, w :: ws, ?_, ?_, t₁, _, hv, ?_, rfl⟩
      · rw [joinBytes_cons]; simpa using DottedWords.cons hv hd
      · funext p
        have := congrFun e (addWords [v] p)
        dsimp only [id] at this ⊢
        rw [this, addWords_add]; rfl
      · rw [← e]
        exact .cons (A := .seq (.quiet fun t => t = ['.']) (.value (Word env) fun v => addWords [v]))
          ⟨['.'], id, u, _, ⟨rfl, rfl⟩, ⟨u', hu', rfl⟩, rfl, rfl⟩ hs
  · rintro ⟨v, vs, _, rfl, t₁, t₂, h1, h2, rfl⟩
    exact ⟨t₁, _, t₂, _, ⟨v, h1, rfl⟩, h2, rfl, by funext p; simp [addWords_add]⟩

theorem dottedWords_complete {t u} (h : DottedWords env t u) :
    ∃ v vs, u = joinBytes b!"." (v :: vs) ∧
      ∃ t₁ t₂, Word env t₁ v ∧ Lang.star (.seq (.quiet fun t => t = ['.'])
        (.value (Word env) fun v => addWords [v])) t₂ (addWords vs) ∧ t = t₁ ++ t₂ := by
  induction h with
  | @one t v h => exact ⟨v, [], by simp [joinBytes], t, [], h, by rw [addWords_nil]; exact .nil, by simp⟩
  | @cons t v r u h _ ih =>
    obtain ⟨w, ws, rfl, t₁, t₂, h1, h2, rfl⟩ := ih
    refine ⟨v, w :: ws, by rw [joinBytes_cons], t, _, h, ?_, rfl⟩
    have := Lang.star.cons (A := .seq (.quiet fun t => t = ['.']) (.value (Word env) fun v => addWords [v]))
          ⟨['.'], id, t₁, _, ⟨rfl, rfl⟩, ⟨w, h1, rfl⟩, rfl, rfl⟩ h2
    simpa [addWords_add] using this

/-- Setting the value of a local part. -/
def setLocal (v : Bytes) : Node → Node
  | .localPart _ => .localPart v
  | p => p

theorem means_obsLocalPart : Means Q env Gr.obsLocalPart (.value (DottedWords env) setLocal) := by
  have eff : ∀ vs, deliver (.obsLocalPart vs) = setLocal (joinBytes b!"." vs) := by intro v; funext p; cases p <;> rfl
  have body := means_word_local.seq (means_period.seq (means_word_local (env := env))).star
  refine (Means.push₀ (Q := Q) (Q' := (· = .obsLocalPart)) (r := .obsLocalPart) (mk := .obsLocalPart []) rfl rfl rfl body
    (fun _ _ => rfl)).congr fun t f => ?_
  simp only [dottedWords_iff]
  constructor
  · rintro ⟨_, ⟨v, vs, h, rfl, _⟩, rfl⟩
    exact ⟨_, h, eff _⟩
  · rintro ⟨_, h, rfl⟩
    obtain ⟨v, vs, rfl, h2⟩ := dottedWords_complete h
    exact ⟨_, ⟨v, vs, h, rfl, h2⟩, (eff _).symm⟩

theorem means_localPart : Means Q env Gr.localPart (.value (LocalPart env) fun v => deliver (.localPart v)) := by
  have body := (means_dotAtom' (Q := plainK) (env := env)).around.alt
    ((means_quotedString (Q := plainK)).around.alt means_obsLocalPart)
  refine (Means.push₀ (Q := Q) (r := .localPart) (mk := .localPart []) rfl rfl (plainK_of rfl) body
    (fun _ _ => rfl)).congr fun t f => ?_
  constructor
  · rintro ⟨_, ⟨_, ⟨a, u, b, ha, ⟨hu, rfl⟩, hb, rfl⟩, rfl⟩ | ⟨v, ⟨a, u, b, ha, hu, hb, rfl⟩, rfl⟩ | ⟨v, h, rfl⟩, rfl⟩
    · exact ⟨_, .dotAtom ha hu hb, rfl⟩
    · exact ⟨_, .quoted ha hu hb, rfl⟩
    · exact ⟨_, .obs h, rfl⟩
  · rintro ⟨_, h, rfl⟩
    cases h with
    | @dotAtom a u b ha hu hb => exact ⟨_, .inl ⟨_, ⟨a, u, b, ha, ⟨hu, rfl⟩, hb, rfl⟩, rfl⟩, rfl⟩
    | @quoted a u b v ha hu hb => exact ⟨_, .inr (.inl ⟨_, ⟨a, u, b, ha, hu, hb, rfl⟩, rfl⟩), rfl⟩
    | obs h => exact ⟨_, .inr (.inr ⟨_, h, rfl⟩), rfl⟩

/-! ## Domains -/

/-- Setting the value of a domain. -/
def setDomain (v : Bytes) : Node → Node
  | .domain _ => .domain v
  | p => p

/-- Appending atoms to an obs-domain. -/
def addAtoms (vs : List Bytes) : Node → Node
  | .obsDomain xs => .obsDomain (xs ++ vs)
  | p => p

theorem addAtoms_nil : addAtoms [] = id := by funext p; cases p <;> simp [addAtoms]
theorem addAtoms_add {u v p} : addAtoms v (addAtoms u p) = addAtoms (u ++ v) p := by cases p <;> simp [addAtoms]

theorem means_atom_domain : Means (· = .obsDomain) env Gr.atom (.value (Itself Atom) fun v => addAtoms [v]) := by
  refine (means_atom' (Q := anyK)).value_on (fun v p => by cases p <;> rfl) fun v p hp => ⟨trivial, ?_⟩
  cases p with
  | obsDomain xs => rfl
  | _ => simp [Node.kind] at hp

theorem atoms_dotted {t₂ f₂} (h : Lang.star (.seq (.quiet fun t => t = ['.'])
      (.value (Itself Atom) fun v => addAtoms [v])) t₂ f₂) : ∀ t₁, Atom t₁ →
    ∃ vs, Dotted (t₁ ++ t₂) ∧ joinBytes b!"." (utf8 t₁ :: vs) = utf8 (t₁ ++ t₂) ∧ f₂ = addAtoms vs := by
  induction h with
  | nil => intro t₁ h1; exact ⟨[], by simpa using Dotted.one h1, by simp [joinBytes], addAtoms_nil.symm⟩
  | cons h _ ih =>
    intro t₁ h1
    obtain ⟨_, _, u, _, ⟨rfl, rfl⟩, ⟨v, ⟨hu, rfl⟩, rfl⟩, rfl, rfl⟩ := h
    obtain ⟨vs, hd, e, rfl⟩ := ih u hu
    refine ⟨utf8 u :: vs, by simpa using Dotted.cons h1 hd, ?_, by funext p; simp [addAtoms_add]⟩
    rw [joinBytes_cons, e]
    simp only [utf8_append, utf8_cons]
    simp [utf8]
    rfl

theorem dotted_atoms {t} (h : Dotted t) : ∃ t₁ t₂ vs, t = t₁ ++ t₂ ∧ Atom t₁ ∧
    Lang.star (.seq (.quiet fun t => t = ['.']) (.value (Itself Atom) fun v => addAtoms [v])) t₂ (addAtoms vs) := by
  induction h with
  | @one a h => exact ⟨a, [], [], by simp, h, by rw [addAtoms_nil]; exact .nil⟩
  | @cons a r h _ ih =>
    obtain ⟨t₁, t₂, vs, rfl, h1, h2⟩ := ih
    refine ⟨a, _, utf8 t₁ :: vs, rfl, h, ?_⟩
    have := Lang.star.cons (A := .seq (.quiet fun t => t = ['.']) (.value (Itself Atom) fun v => addAtoms [v]))
          ⟨['.'], id, t₁, _, ⟨rfl, rfl⟩, ⟨_, ⟨h1, rfl⟩, rfl⟩, rfl, rfl⟩ h2
    simpa [addAtoms_add] using this

theorem means_obsDomain : Means Q env Gr.obsDomain (.value (Itself Dotted) setDomain) := by
  have eff : ∀ vs, deliver (.obsDomain vs) = setDomain (joinBytes b!"." vs) := by intro v; funext p; cases p <;> rfl
  have body := means_atom_domain.seq (means_period.seq (means_atom_domain (env := env))).star
  refine (Means.push₀ (Q := Q) (Q' := (· = .obsDomain)) (r := .obsDomain) (mk := .obsDomain []) rfl rfl rfl body
    (fun _ _ => rfl)).congr fun t f => ?_
  constructor
  · rintro ⟨_, ⟨t₁, _, t₂, _, ⟨_, ⟨h1, rfl⟩, rfl⟩, h2, rfl, rfl⟩, rfl⟩
    obtain ⟨vs, hd, e, rfl⟩ := atoms_dotted h2 t₁ h1
    refine ⟨_, ⟨hd, rfl⟩, ?_⟩
    dsimp only; rw [addAtoms_add, ← e]; exact eff _
  · rintro ⟨_, ⟨h, rfl⟩, rfl⟩
    obtain ⟨t₁, t₂, vs, rfl, h1, h2⟩ := dotted_atoms h
    obtain ⟨vs', hd, e, e2⟩ := atoms_dotted h2 t₁ h1
    refine ⟨_, ⟨t₁, _, t₂, _, ⟨_, ⟨h1, rfl⟩, rfl⟩, h2, rfl, rfl⟩, ?_⟩
    rw [e2, addAtoms_add, ← e]; exact (eff _).symm

theorem literalItems_iff {t} : Rep (fun t => ∃ x y, OptFws x ∧ (∃ c, y = [c] ∧ isDtext c = true) ∧ t = x ++ y) t ↔
    LiteralItems t := by
  constructor
  · intro h
    induction h with
    | nil => exact .nil
    | cons h _ ih =>
      obtain ⟨x, _, hx, ⟨c, rfl, hc⟩, rfl⟩ := h
      simpa using LiteralItems.char hx hc ih
  · intro h
    induction h with
    | nil => exact .nil
    | @char f c r hf hc _ ih =>
      have := Rep.cons (S := fun t => ∃ x y, OptFws x ∧ (∃ c, y = [c] ∧ isDtext c = true) ∧ t = x ++ y)
        ⟨f, [c], hf, ⟨c, rfl, hc⟩, rfl⟩ ih
      simpa using this

theorem means_domainLiteral : Means Q env Gr.domainLiteral (.value (Itself DomainLiteral) setDomain) := by
  have eff : ∀ v, deliver (.domainLiteral v) = setDomain v := by intro v; funext p; cases p <;> rfl
  have dt : Means plainK env Gr.dtext (.quiet fun t => ∃ c, t = [c] ∧ isDtext c = true) :=
    means_dtext.congr fun t f => by
      constructor
      · rintro ⟨c, h1, h2, h3⟩; exact ⟨⟨c, h1, h2⟩, h3⟩
      · rintro ⟨⟨c, h1, h2⟩, h3⟩; exact ⟨c, h1, h2, h3⟩
  have lb : Means plainK env (.t .LBracket) (.quiet fun t => t = ['[']) :=
    Means.qlit (by decide) (by decide +kernel) (by decide)
  have rb : Means plainK env (.t .RBracket) (.quiet fun t => t = [']']) :=
    Means.qlit (by decide) (by decide +kernel) (by decide)
  have items := (means_optFws.qseq dt).qstar.quiet_congr fun t => literalItems_iff
  have body := lb.qseq (items.qseq (means_optFws.qseq rb))
  refine (Means.push (Q := Q) (r := .domainLiteral) (mk := fun t => .domainLiteral (utf8 t)) rfl (fun _ => rfl)
    (plainK_of rfl) body (fun t f ts w _ h => by simp [enterRule, h])).congr fun t f => ?_
  constructor
  · rintro ⟨_, ⟨⟨_, _, rfl, ⟨x, _, hx, ⟨f, _, hf, rfl, rfl⟩, rfl⟩, rfl⟩, rfl⟩, rfl⟩
    exact ⟨_, ⟨⟨x, f, hx, hf, by simp⟩, rfl⟩, eff _⟩
  · rintro ⟨_, ⟨⟨x, f, hx, hf, rfl⟩, rfl⟩, rfl⟩
    exact ⟨id, ⟨⟨_, _, rfl, ⟨x, _, hx, ⟨f, _, hf, rfl, rfl⟩, rfl⟩, by simp⟩, rfl⟩, (eff _).symm⟩

theorem means_domain : Means Q env Gr.domain (.value Domain fun v => deliver (.domain v)) := by
  have body := (means_dotAtom' (Q := plainK) (env := env)).around.alt
    ((means_domainLiteral (Q := plainK)).around.alt (means_obsDomain (Q := plainK)).around)
  refine (Means.push₀ (Q := Q) (r := .domain) (mk := .domain []) rfl rfl (plainK_of rfl) body
    (fun _ _ => rfl)).congr fun t f => ?_
  constructor
  · rintro ⟨_, ⟨_, ⟨a, u, b, ha, ⟨hu, rfl⟩, hb, rfl⟩, rfl⟩ | ⟨v, ⟨a, u, b, ha, ⟨hu, rfl⟩, hb, rfl⟩, rfl⟩ |
      ⟨v, ⟨a, u, b, ha, ⟨hu, rfl⟩, hb, rfl⟩, rfl⟩, rfl⟩
    · exact ⟨_, .dotAtom ha hu hb, rfl⟩
    · exact ⟨_, .literal ha hu hb, rfl⟩
    · exact ⟨_, .dotAtom ha (.inl hu) hb, rfl⟩
  · rintro ⟨_, h, rfl⟩
    cases h with
    | @dotAtom a u b ha hu hb => exact ⟨_, .inl ⟨_, ⟨a, u, b, ha, ⟨hu, rfl⟩, hb, rfl⟩, rfl⟩, rfl⟩
    | @literal a u b ha hu hb => exact ⟨_, .inr (.inl ⟨_, ⟨a, u, b, ha, ⟨hu, rfl⟩, hb, rfl⟩, rfl⟩), rfl⟩

/-! ## addr-spec -/

/-- Setting the address of a mailbox. -/
def setAddr (v : Bytes) : Node → Node
  | .angleAddr _ => .angleAddr v
  | .mailbox n _ => .mailbox n v
  | .obsAngleAddr _ => .obsAngleAddr v
  | p => p

theorem means_at : Means Q env (.t .At) (.quiet fun t => t = ['@']) :=
  Means.qlit (by decide) (by decide +kernel) (by decide)
theorem means_colon : Means Q env (.t .Colon) (.quiet fun t => t = [':']) :=
  Means.qlit (by decide) (by decide +kernel) (by decide)
theorem means_comma : Means Q env (.t .Comma) (.quiet fun t => t = [',']) :=
  Means.qlit (by decide) (by decide +kernel) (by decide)
theorem means_semicolon : Means Q env (.t .Semicolon) (.quiet fun t => t = [';']) :=
  Means.qlit (by decide) (by decide +kernel) (by decide)
theorem means_less : Means Q env (.t .Less) (.quiet fun t => t = ['<']) :=
  Means.qlit (by decide) (by decide +kernel) (by decide)
theorem means_greater : Means Q env (.t .Greater) (.quiet fun t => t = ['>']) :=
  Means.qlit (by decide) (by decide +kernel) (by decide)

theorem means_port : Means Q env Gr.port
    (.value (Itself fun t => t ≠ [] ∧ ∀ c ∈ t, isDigit c = true) fun v => deliver (.port v)) :=
  (Means.push (Q := Q) (Q' := anyK) (r := .port) (mk := fun t => .port (utf8 t)) rfl (fun _ => rfl) trivial
    means_digit.qplus_char (fun t f ts w _ h => by simp [enterRule, h])).congr fun t f => by
    constructor
    · rintro ⟨g, ⟨h, rfl⟩, rfl⟩; exact ⟨_, ⟨h, rfl⟩, rfl⟩
    · rintro ⟨_, ⟨h, rfl⟩, rfl⟩; exact ⟨id, ⟨h, rfl⟩, rfl⟩

theorem means_addrSpec : Means Q env Gr.addrSpec (.value (AddrSpec env) setAddr) := by
  have eff : ∀ l d, deliver (.addrSpec l d) = setAddr (l ++ (b!"@" ++ d)) := by
    intro l d; funext p; cases p <;> simp [deliver, setAddr, atSign]
  have body := (means_localPart (Q := anyK) (env := env)).seq
    (means_at.seq (means_domain.seq (means_colon.seq means_port).opt))
  refine (Means.push₀ (Q := Q) (r := .addrSpec) (mk := .addrSpec [] []) rfl rfl trivial body
    (fun _ _ => rfl)).congr fun t f => ?_
  constructor
  · rintro ⟨_, ⟨l, _, _, _, ⟨lv, hl, rfl⟩, ⟨_, _, _, _, ⟨rfl, rfl⟩, ⟨d, _, _, _, ⟨dv, hd, rfl⟩, hp, rfl, rfl⟩, rfl, rfl⟩,
      rfl, rfl⟩, rfl⟩
    rcases hp with ⟨_, _, p, _, ⟨rfl, rfl⟩, ⟨_, ⟨⟨hp1, hp2⟩, rfl⟩, rfl⟩, rfl, rfl⟩ | ⟨rfl, rfl⟩
    · exact ⟨_, by simpa using AddrSpec.port hl hd hp1 hp2, eff _ _⟩
    · exact ⟨_, by simpa using AddrSpec.plain hl hd, eff _ _⟩
  · rintro ⟨_, h, rfl⟩
    cases h with
    | @plain l lv d dv hl hd =>
      exact ⟨_, ⟨l, _, _, _, ⟨lv, hl, rfl⟩, ⟨_, _, _, _, ⟨rfl, rfl⟩, ⟨d, _, _, _, ⟨dv, hd, rfl⟩, .inr ⟨rfl, rfl⟩, rfl, rfl⟩,
        rfl, rfl⟩, by simp, rfl⟩, (eff _ _).symm⟩
    | @port l lv d dv p hl hd hp1 hp2 =>
      exact ⟨_, ⟨l, _, _, _, ⟨lv, hl, rfl⟩, ⟨_, _, _, _, ⟨rfl, rfl⟩, ⟨d, _, _, _, ⟨dv, hd, rfl⟩,
        .inl ⟨_, _, p, _, ⟨rfl, rfl⟩, ⟨_, ⟨⟨hp1, hp2⟩, rfl⟩, rfl⟩, rfl, rfl⟩, rfl, rfl⟩,
        rfl, rfl⟩, by simp, rfl⟩, (eff _ _).symm⟩

end Rfc5322
