import Verif.Proofs.G4Names
import Verif.Proofs.AtnNets

/-!
# The grammar files and the grammar of the model
-/

namespace Rfc5322.G4

open Atn (Cert oneOf ruleG cert derives_rule derives_oneOf weights weights_append mem_all)

/-! ## Comparing -/

/-- The inside of an option. -/
def unopt : Cert → Option Cert
  | .alt _ c .eps => some c
  | .alt j c d => (unopt d).map (.alt j c)
  | _ => none

/-- Names separated by `|`. -/
def names : Ebnf → Option (List Name)
  | .ref n => some [n]
  | .alt a b => do
    let x ← names a
    let y ← names b
    some (x ++ y)
  | _ => none

/-- The expression of the file has the structure of the rule of the network. -/
def same : Ebnf → Cert → Bool
  | .ref n, .toks [k] => n == tokName k
  | .ref n, .eof => n == EOF.name
  | .ref n, .call R => n == ruleName R
  | .seq a b, .seq c d => same a c && same b d
  | .alt a b, .alt _ c d => same a c && same b d
  | .alt a b, .toks ks =>
    match names (.alt a b) with
    | some ns => ks ≠ [] && ns.all (fun n => ks.any fun k => n == tokName k) && ks.all fun k => ns.contains (tokName k)
    | none => false
  | .opt a, c =>
    match unopt c with
    | some c' => same a c'
    | none => false
  | .star a, .star _ c => same a c
  | .plus a, .seq c (.star _ d) => same a c && same a d
  | _, _ => false

/-- The rules that end with the end of the input. -/
def isStart : Rule → Bool
  | .addressList => true
  | .dateTime => true
  | _ => false

/-- Without the end of the input. -/
def eofFree : Cert → Bool
  | .eps => true
  | .eof => false
  | .toks _ => true
  | .call R => !isStart R
  | .seq a b => eofFree a && eofFree b
  | .alt _ a b => eofFree a && eofFree b
  | .star _ a => eofFree a

/-- With the end of the input at the end only. -/
def eofLast : Cert → Bool
  | .eof => true
  | .seq a b => eofFree a && eofLast b
  | .alt _ a b => eofLast a && eofLast b
  | _ => false

/-- All that has to be checked about the files. -/
structure Good (L P : Grammar) : Prop where
  /-- the names of the rules -/
  rules : ∀ {n e}, (n, e) ∈ P.rules → ∃ R, n = ruleName R ∧ same e (cert R) = true
  complete : ∀ R, ∃ e, (ruleName R, e) ∈ P.rules ∧ same e (cert R) = true
  tokens : ∀ {i : Nat} {r}, L.rules[i]? = some r → ∃ k, Tok.all[i]? = some k ∧ r.1 = tokName k ∧ ∃ a b, (r.2 = .range a b ∧ k.ranges = [(a, b)]) ∨
    ∃ c d, r.2 = .alt (.range a b) (.range c d) ∧ k.ranges = [(a, b), (c, d)]
  count : L.rules.length = 70
  unique : ∀ {n e e'}, (n, e) ∈ P.rules → (n, e') ∈ P.rules → e = e'

/-! ## Names -/

theorem mem_rules (R : Rule) : R ∈ Atn.rules := by cases R <;> decide

theorem eofFree_rule {R : Rule} (h : isStart R = false) : eofFree (cert R) = true := by
  have : ∀ R ∈ Atn.rules, isStart R = false → eofFree (cert R) = true := by decide +kernel
  exact this R (mem_rules R) h

theorem eofLast_rule {R : Rule} (h : isStart R = true) : eofLast (cert R) = true := by
  have : ∀ R ∈ Atn.rules, isStart R = true → eofLast (cert R) = true := by decide +kernel
  exact this R (mem_rules R) h

theorem tokName_inj {k k' : Tok} (h : tokName k = tokName k') : k = k' := by
  have : ∀ k ∈ Tok.all, ∀ k' ∈ Tok.all, tokName k = tokName k' → k = k' := by decide +kernel
  exact this k (mem_all k) k' (mem_all k') h

theorem ruleName_inj {R R' : Rule} (h : ruleName R = ruleName R') : R = R' := by
  have : ∀ k ∈ Atn.rules, ∀ k' ∈ Atn.rules, ruleName k = ruleName k' → k = k' := by decide +kernel
  exact this R (mem_rules R) R' (mem_rules R') h

theorem tokName_ne {k : Tok} {R : Rule} : tokName k ≠ ruleName R := by
  have : ∀ k ∈ Tok.all, ∀ k' ∈ Atn.rules, tokName k ≠ ruleName k' := by decide +kernel
  exact this k (mem_all k) R (mem_rules R)

theorem eof_ne {k : Tok} : EOF.name ≠ tokName k := by
  have : ∀ k ∈ Tok.all, EOF.name ≠ tokName k := by decide +kernel
  exact this k (mem_all k)

theorem eof_ne_rule {R : Rule} : EOF.name ≠ ruleName R := by
  have : ∀ k ∈ Atn.rules, EOF.name ≠ ruleName k := by decide +kernel
  exact this R (mem_rules R)

/-! ## Tokens -/

/-- A token of the model as a token of the files. -/
def tk (c : Char) : Token := ⟨((lexRune c).map tokName).getD [], [c]⟩

theorem tk_name {c : Char} {k : Tok} (h : k.matches c = true) : (tk c).name = tokName k := by
  simp [tk, (lexRune_eq_some_iff c k).mpr h]

/-- Tokens of the model. -/
def Fine (w : List Char) : Prop := ∀ c ∈ w, (lexRune c).isSome = true

theorem fine_tokens (s : List Char) : Fine (tokenize s) := fun _ hc => (List.mem_filter.mp hc).2

theorem matches_of_name {c : Char} {k : Tok} (hc : (lexRune c).isSome = true) (h : (tk c).name = tokName k) : k.matches c = true := by
  obtain ⟨k', hk⟩ := Option.isSome_iff_exists.mp hc
  simp only [tk, hk, Option.map_some, Option.getD_some] at h
  rw [← tokName_inj h]
  exact (lexRune_eq_some_iff c k').mp hk

theorem name_ne_rule {c : Char} {R : Rule} (hc : (lexRune c).isSome = true) : (tk c).name ≠ ruleName R := by
  obtain ⟨k', hk⟩ := Option.isSome_iff_exists.mp hc
  simp only [tk, hk, Option.map_some, Option.getD_some]
  exact tokName_ne

theorem name_ne_eof {c : Char} (hc : (lexRune c).isSome = true) : (tk c).name ≠ EOF.name := by
  obtain ⟨k', hk⟩ := Option.isSome_iff_exists.mp hc
  simp only [tk, hk, Option.map_some, Option.getD_some]
  exact fun h => eof_ne h.symm

variable {L P : Grammar}

theorem derives_ref (hg : Good L P) {n x} (h : Derives P.rules isToken (.ref n) x) : (∃ t, x = [t] ∧ t.name = n) ∨
    ∃ R e, n = ruleName R ∧ same e (cert R) = true ∧ Derives P.rules isToken e x := by
  cases h with
  | symbol h => exact .inl ⟨_, rfl, h⟩
  | rule h1 h2 =>
    obtain ⟨R, e1, e2⟩ := hg.rules h1
    exact .inr ⟨R, _, e1, e2, h2⟩

theorem derives_names (hg : Good L P) : ∀ {e : Ebnf} {ns : List Name}, names e = some ns → (∀ n ∈ ns, ∃ k, n = tokName k) → ∀ {x : List Token},
    (Derives P.rules isToken e x ↔ ∃ t, x = [t] ∧ t.name ∈ ns)
  | .ref n, ns, h, hk, x => by
    simp only [names, Option.some.injEq] at h
    subst h
    constructor
    · intro h
      rcases derives_ref hg h with ⟨t, rfl, h'⟩ | ⟨R, _, e1, _⟩
      · exact ⟨t, rfl, by simp [h']⟩
      · obtain ⟨k, hk⟩ := hk n (by simp)
        exact absurd (hk.symm.trans e1) tokName_ne
    · rintro ⟨t, rfl, h⟩
      exact .symbol (by simpa [isToken] using h)
  | .alt a b, ns, h, hk, x => by
    simp only [names, Option.bind_eq_bind, Option.bind_eq_some_iff, Option.some.injEq] at h
    obtain ⟨u, hu, v, hv, rfl⟩ := h
    have ia := derives_names hg hu (fun n hn => hk n (by simp [hn])) (x := x)
    have ib := derives_names hg hv (fun n hn => hk n (by simp [hn])) (x := x)
    constructor
    · intro h
      cases h with
      | symbol h => exact h.elim
      | left h => obtain ⟨t, h1, h2⟩ := ia.mp h; exact ⟨t, h1, by simp [h2]⟩
      | right h => obtain ⟨t, h1, h2⟩ := ib.mp h; exact ⟨t, h1, by simp [h2]⟩
    · rintro ⟨t, h1, h2⟩
      rcases List.mem_append.mp h2 with h2 | h2
      · exact .left (ia.mpr ⟨t, h1, h2⟩)
      · exact .right (ib.mpr ⟨t, h1, h2⟩)
  | .range .., _, h, _, _ | .seq .., _, h, _, _ | .opt _, _, h, _, _ | .star _, _, h, _, _ | .plus _, _, h, _, _ => by simp [names] at h

theorem unopt_derives : ∀ {c c' : Cert}, unopt c = some c' → ∀ {s ts s'}, (Rfc5322.Derives c.expand s ts s' ↔ (ts = [] ∧ s' = s) ∨ Rfc5322.Derives c'.expand s ts s')
  | .alt j c .eps, c', h, s, ts, s' => by
    simp only [unopt, Option.some.injEq] at h
    subst h
    constructor
    · intro h
      cases h with
      | altL h => exact .inr h
      | altR h => cases h; exact .inl ⟨rfl, rfl⟩
    · rintro (⟨rfl, rfl⟩ | h)
      · exact .altR .eps
      · exact .altL h
  | .alt j c (.alt j' a b), c', h, s, ts, s' => by
    simp only [unopt, Option.map_eq_some_iff] at h
    obtain ⟨d', hd, rfl⟩ := h
    have ih := unopt_derives hd (s := s) (ts := ts) (s' := s')
    constructor
    · intro h
      cases h with
      | altL h => exact .inr (.altL h)
      | altR h =>
        rcases ih.mp h with h | h
        · exact .inl h
        · exact .inr (.altR h)
    · rintro (h | h)
      · exact .altR (ih.mpr (.inl h))
      · cases h with
        | altL h => exact .altL h
        | altR h => exact .altR (ih.mpr (.inr h))
  | .alt _ _ .eof, _, h, _, _, _ | .alt _ _ (.toks _), _, h, _, _, _ | .alt _ _ (.call _), _, h, _, _, _ | .alt _ _ (.seq ..), _, h, _, _, _
  | .alt _ _ (.star ..), _, h, _, _, _ => by simp [unopt] at h
  | .eps, _, h, _, _, _ | .eof, _, h, _, _, _ | .toks _, _, h, _, _, _ | .call _, _, h, _, _, _ | .seq .., _, h, _, _, _ | .star .., _, h, _, _, _ => by simp [unopt] at h

theorem unopt_eofFree : ∀ {c c' : Cert}, unopt c = some c' → eofFree c = true → eofFree c' = true
  | .alt j c .eps, c', h, hf => by
    simp only [unopt, Option.some.injEq] at h
    subst h
    simp only [eofFree, Bool.and_true] at hf
    exact hf
  | .alt j c (.alt j' a b), c', h, hf => by
    simp only [unopt, Option.map_eq_some_iff] at h
    obtain ⟨d', hd, rfl⟩ := h
    rw [eofFree, Bool.and_eq_true] at hf ⊢
    exact ⟨hf.1, unopt_eofFree hd hf.2⟩
  | .alt _ _ .eof, _, h, _ | .alt _ _ (.toks _), _, h, _ | .alt _ _ (.call _), _, h, _ | .alt _ _ (.seq ..), _, h, _
  | .alt _ _ (.star ..), _, h, _ => by simp [unopt] at h
  | .eps, _, h, _ | .eof, _, h, _ | .toks _, _, h, _ | .call _, _, h, _ | .seq .., _, h, _ | .star .., _, h, _ => by simp [unopt] at h

theorem same_names {a b : Ebnf} {ks : List Tok} (h : same (.alt a b) (.toks ks) = true) :
    ∃ ns, names (.alt a b) = some ns ∧ ks ≠ [] ∧ (∀ n ∈ ns, ∃ k ∈ ks, n = tokName k) ∧ ∀ k ∈ ks, tokName k ∈ ns := by
  rw [same] at h
  split at h
  · rename_i ns hn
    refine ⟨ns, hn, ?_⟩
    simpa [and_assoc] using h
  · cases h

/-! ## From the files to the model -/

theorem no_eof (hg : Good L P) {e : Ebnf} {x : List Token} (h : Derives P.rules isToken e x) : ∀ {c : Cert}, same e c = true → eofFree c = true → ∀ t ∈ x, t.name ≠ EOF.name := by
  induction h with
  | @symbol e t h =>
    intro c hs hf t' ht
    rw [List.mem_singleton] at ht
    subst ht
    cases e with
    | ref n =>
      simp only [isToken] at h
      subst h
      cases c with
      | toks ks =>
        match ks, hs with
        | [k], hs => rw [same, beq_iff_eq] at hs; rw [hs]; exact fun e => eof_ne e.symm
      | eof => cases hf
      | call R => rw [same, beq_iff_eq] at hs; rw [hs]; exact fun e => eof_ne_rule e.symm
      | _ => cases hs
    | _ => exact h.elim
  | @rule n e x h1 h2 ih =>
    intro c hs hf
    obtain ⟨R, rfl, hR⟩ := hg.rules h1
    cases c with
    | toks ks =>
      match ks, hs with
      | [k], hs => rw [same, beq_iff_eq] at hs; exact absurd hs.symm tokName_ne
    | eof => cases hf
    | call R' =>
      rw [same, beq_iff_eq] at hs
      obtain rfl := ruleName_inj hs
      exact ih hR (eofFree_rule (by simpa [eofFree] using hf))
    | _ => cases hs
  | @seq a b x y h1 h2 ih1 ih2 =>
    intro c hs hf t ht
    cases c with
    | seq c d =>
      rw [same, Bool.and_eq_true] at hs
      rw [eofFree, Bool.and_eq_true] at hf
      rcases List.mem_append.mp ht with ht | ht
      · exact ih1 hs.1 hf.1 t ht
      · exact ih2 hs.2 hf.2 t ht
    | _ => cases hs
  | @left a b x h1 ih =>
    intro c hs hf
    cases c with
    | alt j c d =>
      rw [same, Bool.and_eq_true] at hs
      rw [eofFree, Bool.and_eq_true] at hf
      exact ih hs.1 hf.1
    | toks ks =>
      obtain ⟨ns, hn, hks, h2, h3⟩ := same_names hs
      obtain ⟨t, rfl, ht⟩ := (derives_names hg hn (fun n hn => (h2 n hn).imp fun _ h => h.2)).mp (.left h1)
      obtain ⟨k, _, hk⟩ := h2 _ ht
      intro t' ht'
      rw [List.mem_singleton] at ht'
      subst ht'
      rw [hk]
      exact fun e => eof_ne e.symm
    | _ => cases hs
  | @right a b x h1 ih =>
    intro c hs hf
    cases c with
    | alt j c d =>
      rw [same, Bool.and_eq_true] at hs
      rw [eofFree, Bool.and_eq_true] at hf
      exact ih hs.2 hf.2
    | toks ks =>
      obtain ⟨ns, hn, hks, h2, h3⟩ := same_names hs
      obtain ⟨t, rfl, ht⟩ := (derives_names hg hn (fun n hn => (h2 n hn).imp fun _ h => h.2)).mp (.right h1)
      obtain ⟨k, _, hk⟩ := h2 _ ht
      intro t' ht'
      rw [List.mem_singleton] at ht'
      subst ht'
      rw [hk]
      exact fun e => eof_ne e.symm
    | _ => cases hs
  | none => intro _ _ _ t ht; cases ht
  | some h ih =>
    intro c hs hf
    rw [same.eq_def] at hs
    dsimp only at hs
    split at hs
    · rename_i c' hc; exact ih hs (unopt_eofFree hc hf)
    · cases hs
  | stop => intro _ _ _ t ht; cases ht
  | again h1 h2 ih1 ih2 =>
    intro c hs hf t ht
    cases c with
    | star p c =>
      rcases List.mem_append.mp ht with ht | ht
      · exact ih1 (by rw [same] at hs; exact hs) (by rw [eofFree] at hf; exact hf) t ht
      · exact ih2 hs hf t ht
    | _ => cases hs
  | plus h1 h2 ih1 ih2 =>
    intro c hs hf t ht
    cases c with
    | seq c d =>
      cases d with
      | star p d =>
        rw [same, Bool.and_eq_true] at hs
        rw [eofFree, Bool.and_eq_true, ] at hf
        rcases List.mem_append.mp ht with ht | ht
        · exact ih1 hs.1 hf.1 t ht
        · exact ih2 (c := .star p d) (by rw [same]; exact hs.2) hf.2 t ht
      | _ => cases hs
    | _ => cases hs

theorem map_singleton {w : List Char} {t : Token} (h : [t] = w.map tk) : ∃ c, w = [c] ∧ t = tk c := by
  match w, h with
  | [c], h => exact ⟨c, rfl, by simpa using h⟩

theorem sound_tok {k : Tok} {w : List Char} {t : Token} (hw : Fine w) (hx : [t] = w.map tk) (ht : t.name = tokName k) : ∃ c, w = [c] ∧ k.matches c = true := by
  obtain ⟨c, rfl, rfl⟩ := map_singleton hx
  exact ⟨c, rfl, matches_of_name (hw c (by simp)) ht⟩

theorem sound (hg : Good L P) {e : Ebnf} {x : List Token} (h : Derives P.rules isToken e x) : ∀ {c : Cert} {w s' : List Char}, same e c = true → eofFree c = true → Fine w →
    x = w.map tk → ∃ ts, Rfc5322.Derives c.expand (w ++ s') ts s' := by
  induction h with
  | @symbol e t h =>
    intro c w s' hs hf hw hx
    cases e with
    | ref n =>
      simp only [isToken] at h
      subst h
      cases c with
      | toks ks =>
        match ks, hs with
        | [k], hs =>
          rw [same, beq_iff_eq] at hs
          obtain ⟨c, rfl, hc⟩ := sound_tok hw hx hs
          exact ⟨_, .t hc⟩
      | eof => cases hf
      | call R =>
        rw [same, beq_iff_eq] at hs
        obtain ⟨c, rfl, rfl⟩ := map_singleton hx
        exact absurd hs (name_ne_rule (hw c (by simp)))
      | _ => cases hs
    | _ => exact h.elim
  | @rule n e x h1 h2 ih =>
    intro c w s' hs hf hw hx
    obtain ⟨R, rfl, hR⟩ := hg.rules h1
    cases c with
    | toks ks =>
      match ks, hs with
      | [k], hs => rw [same, beq_iff_eq] at hs; exact absurd hs.symm tokName_ne
    | eof => cases hf
    | call R' =>
      rw [same, beq_iff_eq] at hs
      obtain rfl := ruleName_inj hs
      obtain ⟨ts, h⟩ := ih hR (eofFree_rule (by simpa [eofFree] using hf)) hw hx
      exact ⟨_, derives_rule.mpr ⟨ts, rfl, h⟩⟩
    | _ => cases hs
  | @seq a b x y h1 h2 ih1 ih2 =>
    intro c w s' hs hf hw hx
    cases c with
    | seq c d =>
      rw [same, Bool.and_eq_true] at hs
      rw [eofFree, Bool.and_eq_true] at hf
      obtain ⟨u, v, rfl, hu, hv⟩ := List.map_eq_append_iff.mp hx.symm
      obtain ⟨ts, h3⟩ := ih1 (s' := v ++ s') hs.1 hf.1 (fun c hc => hw c (by simp [hc])) hu.symm
      obtain ⟨us, h4⟩ := ih2 (s' := s') hs.2 hf.2 (fun c hc => hw c (by simp [hc])) hv.symm
      exact ⟨_, .seq (by simpa using h3) h4⟩
    | _ => cases hs
  | @left a b x h1 ih =>
    intro c w s' hs hf hw hx
    cases c with
    | alt j c d =>
      rw [same, Bool.and_eq_true] at hs
      rw [eofFree, Bool.and_eq_true] at hf
      obtain ⟨ts, h⟩ := ih (s' := s') hs.1 hf.1 hw hx
      exact ⟨ts, .altL h⟩
    | toks ks =>
      obtain ⟨ns, hn, hks, h2, h3⟩ := same_names hs
      obtain ⟨t, rfl, ht⟩ := (derives_names hg hn (fun n hn => (h2 n hn).imp fun _ h => h.2)).mp (.left h1)
      obtain ⟨k, hk', hk⟩ := h2 _ ht
      obtain ⟨c, rfl, hc⟩ := sound_tok hw hx hk
      exact ⟨_, (derives_oneOf hks).mpr ⟨c, rfl, rfl, k, hk', hc⟩⟩
    | _ => cases hs
  | @right a b x h1 ih =>
    intro c w s' hs hf hw hx
    cases c with
    | alt j c d =>
      rw [same, Bool.and_eq_true] at hs
      rw [eofFree, Bool.and_eq_true] at hf
      obtain ⟨ts, h⟩ := ih (s' := s') hs.2 hf.2 hw hx
      exact ⟨ts, .altR h⟩
    | toks ks =>
      obtain ⟨ns, hn, hks, h2, h3⟩ := same_names hs
      obtain ⟨t, rfl, ht⟩ := (derives_names hg hn (fun n hn => (h2 n hn).imp fun _ h => h.2)).mp (.right h1)
      obtain ⟨k, hk', hk⟩ := h2 _ ht
      obtain ⟨c, rfl, hc⟩ := sound_tok hw hx hk
      exact ⟨_, (derives_oneOf hks).mpr ⟨c, rfl, rfl, k, hk', hc⟩⟩
    | _ => cases hs
  | none =>
    intro c w s' hs hf hw hx
    obtain rfl : w = [] := List.map_eq_nil_iff.mp hx.symm
    rw [same.eq_def] at hs
    dsimp only at hs
    split at hs
    · rename_i c' hc; exact ⟨[], (unopt_derives hc).mpr (.inl ⟨rfl, rfl⟩)⟩
    · cases hs
  | some h ih =>
    intro c w s' hs hf hw hx
    rw [same.eq_def] at hs
    dsimp only at hs
    split at hs
    · rename_i c' hc
      obtain ⟨ts, h⟩ := ih (s' := s') hs (unopt_eofFree hc hf) hw hx
      exact ⟨ts, (unopt_derives hc).mpr (.inr h)⟩
    · cases hs
  | stop =>
    intro c w s' hs hf hw hx
    obtain rfl : w = [] := List.map_eq_nil_iff.mp hx.symm
    cases c with
    | star p c => exact ⟨_, .starNil⟩
    | _ => cases hs
  | again h1 h2 ih1 ih2 =>
    intro c w s' hs hf hw hx
    cases c with
    | star p c =>
      obtain ⟨u, v, rfl, hu, hv⟩ := List.map_eq_append_iff.mp hx.symm
      obtain ⟨ts, h3⟩ := ih1 (c := c) (s' := v ++ s') (by rw [same] at hs; exact hs) (by rw [eofFree] at hf; exact hf) (fun c hc => hw c (by simp [hc])) hu.symm
      obtain ⟨us, h4⟩ := ih2 (s' := s') hs hf (fun c hc => hw c (by simp [hc])) hv.symm
      exact ⟨_, .starCons (by simpa using h3) h4⟩
    | _ => cases hs
  | plus h1 h2 ih1 ih2 =>
    intro c w s' hs hf hw hx
    cases c with
    | seq c d =>
      cases d with
      | star p d =>
        rw [same, Bool.and_eq_true] at hs
        rw [eofFree, Bool.and_eq_true, ] at hf
        obtain ⟨u, v, rfl, hu, hv⟩ := List.map_eq_append_iff.mp hx.symm
        obtain ⟨ts, h3⟩ := ih1 (c := c) (s' := v ++ s') hs.1 hf.1 (fun c hc => hw c (by simp [hc])) hu.symm
        obtain ⟨us, h4⟩ := ih2 (c := .star p d) (s' := s') (by rw [same]; exact hs.2) hf.2 (fun c hc => hw c (by simp [hc])) hv.symm
        exact ⟨_, .seq (by simpa using h3) h4⟩
      | _ => cases hs
    | _ => cases hs

/-! ## From the model to the files -/

/-- Derivations of rules that build at most `n` nodes are derivations in the files. -/
def CompleteTo (P : Grammar) (n : Nat) : Prop := ∀ {R s ts s'}, weights ts ≤ n → Rfc5322.Derives (ruleG R) s ts s' → isStart R = false →
  ∃ w, s = w ++ s' ∧ Derives P.rules isToken (.ref (ruleName R)) (w.map tk)

theorem complete_in {n : Nat} (hg : Good L P) (hC : CompleteTo P n) : ∀ {e : Ebnf} {c : Cert} {s ts s'}, same e c = true → eofFree c = true → weights ts ≤ n →
    Rfc5322.Derives c.expand s ts s' → ∃ w, s = w ++ s' ∧ Derives P.rules isToken e (w.map tk) := by
  intro e
  induction e with
  | range => intro c s ts s' hs; cases hs
  | ref m =>
    intro c s ts s' hs hf hw h
    cases c with
    | toks ks =>
      match ks, hs, h with
      | [k], hs, h =>
        rw [same, beq_iff_eq] at hs
        cases h with
        | t h' => exact ⟨[_], rfl, .symbol (by simp only [isToken]; rw [hs]; exact tk_name h')⟩
    | eof => cases hf
    | call R =>
      rw [same, beq_iff_eq] at hs
      rw [hs]
      exact hC hw h (by simpa [eofFree] using hf)
    | _ => cases hs
  | seq a b iha ihb =>
    intro c s ts s' hs hf hw h
    cases c with
    | seq c d =>
      rw [same, Bool.and_eq_true] at hs
      rw [eofFree, Bool.and_eq_true] at hf
      cases h with
      | seq h1 h2 =>
        rw [weights_append] at hw
        obtain ⟨u, rfl, hu⟩ := iha hs.1 hf.1 (by omega) h1
        obtain ⟨v, rfl, hv⟩ := ihb hs.2 hf.2 (by omega) h2
        exact ⟨u ++ v, by simp, by simpa using .seq hu hv⟩
    | _ => cases hs
  | alt a b iha ihb =>
    intro c s ts s' hs hf hw h
    cases c with
    | alt j c d =>
      rw [same, Bool.and_eq_true] at hs
      rw [eofFree, Bool.and_eq_true] at hf
      cases h with
      | altL h => obtain ⟨u, h1, h2⟩ := iha hs.1 hf.1 hw h; exact ⟨u, h1, .left h2⟩
      | altR h => obtain ⟨u, h1, h2⟩ := ihb hs.2 hf.2 hw h; exact ⟨u, h1, .right h2⟩
    | toks ks =>
      obtain ⟨ns, hn, hks, h2, h3⟩ := same_names hs
      obtain ⟨c, rfl, rfl, k, hk, hc⟩ := (derives_oneOf hks).mp h
      refine ⟨[c], rfl, (derives_names hg hn (fun n hn => (h2 n hn).imp fun _ h => h.2)).mpr ⟨tk c, rfl, ?_⟩⟩
      rw [tk_name hc]
      exact h3 k hk
    | _ => cases hs
  | opt a iha =>
    intro c s ts s' hs hf hw h
    rw [same.eq_def] at hs
    dsimp only at hs
    split at hs
    · rename_i c' hc
      rcases (unopt_derives hc).mp h with ⟨rfl, rfl⟩ | h
      · exact ⟨[], rfl, .none⟩
      · obtain ⟨w, h1, h2⟩ := iha hs (unopt_eofFree hc hf) hw h
        exact ⟨w, h1, .some h2⟩
    · cases hs
  | star a iha =>
    intro c s ts s' hs hf hw h
    cases c with
    | star p c =>
      rw [same] at hs
      rw [eofFree] at hf
      have key : ∀ {g}, g = G.star c.expand → ∀ {s ts s'}, weights ts ≤ n → Rfc5322.Derives g s ts s' → ∃ w, s = w ++ s' ∧ Derives P.rules isToken (.star a) (w.map tk) := by
        intro g hg s ts s' hw hd
        induction hd with
        | starNil => exact ⟨[], rfl, .stop⟩
        | starCons hd1 hd2 _ ih =>
          injection hg with hg
          subst hg
          rw [weights_append] at hw
          obtain ⟨u, rfl, hu⟩ := iha hs hf (by omega) hd1
          obtain ⟨v, rfl, hv⟩ := ih rfl (by omega)
          exact ⟨u ++ v, by simp, by simpa using .again hu hv⟩
        | _ => cases hg
      exact key rfl hw h
    | _ => cases hs
  | plus a iha =>
    intro c s ts s' hs hf hw h
    cases c with
    | seq c d =>
      cases d with
      | star p d =>
        rw [same, Bool.and_eq_true] at hs
        rw [eofFree, Bool.and_eq_true] at hf
        have hf2 : eofFree d = true := hf.2
        cases h with
        | seq h1 h2 =>
          rw [weights_append] at hw
          have key : ∀ {g}, g = G.star d.expand → ∀ {s ts s'}, weights ts ≤ n → Rfc5322.Derives g s ts s' → ∃ w, s = w ++ s' ∧ Derives P.rules isToken (.star a) (w.map tk) := by
            intro g hg s ts s' hw hd
            induction hd with
            | starNil => exact ⟨[], rfl, .stop⟩
            | starCons hd1 hd2 _ ih =>
              injection hg with hg
              subst hg
              rw [weights_append] at hw
              obtain ⟨u, rfl, hu⟩ := iha hs.2 hf2 (by omega) hd1
              obtain ⟨v, rfl, hv⟩ := ih rfl (by omega)
              exact ⟨u ++ v, by simp, by simpa using .again hu hv⟩
            | _ => cases hg
          obtain ⟨u, rfl, hu⟩ := iha hs.1 hf.1 (by omega) h1
          obtain ⟨v, rfl, hv⟩ := key rfl (by omega) h2
          exact ⟨u ++ v, by simp, by simpa using .plus hu hv⟩
      | _ => cases hs
    | _ => cases hs

theorem completeTo (hg : Good L P) : ∀ n, CompleteTo P n
  | 0, R, s, ts, s', hw, h, hR => by
    obtain ⟨us, rfl, _⟩ := derives_rule.mp h
    simp [weights, Atn.weight] at hw
  | n + 1, R, s, ts, s', hw, h, hR => by
    obtain ⟨us, rfl, h1⟩ := derives_rule.mp h
    simp only [weights, Atn.weight] at hw
    obtain ⟨e, he, hs⟩ := hg.complete R
    obtain ⟨w, h2, h3⟩ := complete_in hg (completeTo hg n) hs (eofFree_rule hR) (by omega) h1
    exact ⟨w, h2, .rule he h3⟩

/-! ## The end of the input -/

theorem unopt_eofLast : ∀ {c c' : Cert}, unopt c = some c' → eofLast c = false
  | .alt j c .eps, c', h => by simp [eofLast]
  | .alt j c (.alt j' a b), c', h => by
    simp only [unopt, Option.map_eq_some_iff] at h
    obtain ⟨d', hd, rfl⟩ := h
    rw [eofLast, unopt_eofLast hd, Bool.and_false]
  | .alt _ _ .eof, _, h | .alt _ _ (.toks _), _, h | .alt _ _ (.call _), _, h | .alt _ _ (.seq ..), _, h
  | .alt _ _ (.star ..), _, h => by simp [unopt] at h
  | .eps, _, h | .eof, _, h | .toks _, _, h | .call _, _, h | .seq .., _, h | .star .., _, h => by simp [unopt] at h

theorem last_iff (hg : Good L P) : ∀ {e : Ebnf} {c : Cert} {w : List Char}, same e c = true → eofLast c = true → Fine w →
    (Derives P.rules isToken e (w.map tk ++ [EOF]) ↔ ∃ ts, Rfc5322.Derives c.expand w ts []) := by
  intro e
  induction e with
  | range => intro c w hs; cases hs
  | ref m =>
    intro c w hs hf hw
    cases c with
    | eof =>
      rw [same, beq_iff_eq] at hs
      subst hs
      constructor
      · intro h
        rcases derives_ref hg h with ⟨t, h1, _⟩ | ⟨R, _, h1, _⟩
        · have := congrArg List.length h1
          simp at this
          subst this
          exact ⟨_, .eof⟩
        · exact absurd h1 eof_ne_rule
      · rintro ⟨ts, h⟩
        cases h
        exact .symbol (a := EOF) rfl
    | toks ks =>
      cases hf
    | call R => cases hf
    | _ => cases hs
  | seq a b iha ihb =>
    intro c w hs hf hw
    cases c with
    | seq c d =>
      rw [same, Bool.and_eq_true] at hs
      rw [eofLast, Bool.and_eq_true] at hf
      constructor
      · intro h
        generalize hz : w.map tk ++ [EOF] = z at h
        cases h with
        | symbol h => exact h.elim
        | @seq _ _ x y h1 h2 =>
          have hx := no_eof hg h1 hs.1 hf.1
          rcases List.append_eq_append_iff.mp hz with ⟨u, hu, hv⟩ | ⟨u, hu, hv⟩
          · rcases List.append_eq_cons_iff.mp hv.symm with ⟨rfl, hy⟩ | ⟨u', rfl, hy⟩
            · rw [List.append_nil] at hu
              subst hu
              subst hy
              obtain ⟨ts, h3⟩ := sound hg (s' := []) h1 hs.1 hf.1 hw rfl
              obtain ⟨us, h4⟩ := (ihb (w := []) hs.2 hf.2 (by simp [Fine])).mp (by simpa using h2)
              exact ⟨_, .seq (by simpa using h3) h4⟩
            · exact absurd rfl (hx EOF (by rw [hu]; simp))
          · obtain ⟨w1, w2, rfl, hw1, hw2⟩ := List.map_eq_append_iff.mp hu
            subst hv
            subst hw2
            obtain ⟨ts, h3⟩ := sound hg (s' := w2) h1 hs.1 hf.1 (fun c hc => hw c (by simp [hc])) hw1.symm
            obtain ⟨us, h4⟩ := (ihb (w := w2) hs.2 hf.2 (fun c hc => hw c (by simp [hc]))).mp h2
            exact ⟨_, .seq h3 h4⟩
      · rintro ⟨ts, h⟩
        cases h with
        | @seq _ _ _ ts1 s1 ts2 _ h1 h2 =>
          obtain ⟨u, rfl, h3⟩ := complete_in hg (completeTo hg (weights ts1)) hs.1 hf.1 (Nat.le_refl _) h1
          have h4 := (ihb hs.2 hf.2 (fun c hc => hw c (by simp [hc]))).mpr ⟨_, h2⟩
          simpa using .seq h3 h4
    | _ => cases hs
  | alt a b iha ihb =>
    intro c w hs hf hw
    cases c with
    | alt j c d =>
      rw [same, Bool.and_eq_true] at hs
      rw [eofLast, Bool.and_eq_true] at hf
      constructor
      · intro h
        generalize hz : w.map tk ++ [EOF] = z at h
        cases h with
        | symbol h => exact h.elim
        | left h => obtain ⟨ts, h⟩ := (iha hs.1 hf.1 hw).mp (hz ▸ h); exact ⟨ts, .altL h⟩
        | right h => obtain ⟨ts, h⟩ := (ihb hs.2 hf.2 hw).mp (hz ▸ h); exact ⟨ts, .altR h⟩
      · rintro ⟨ts, h⟩
        cases h with
        | altL h => exact .left ((iha hs.1 hf.1 hw).mpr ⟨ts, h⟩)
        | altR h => exact .right ((ihb hs.2 hf.2 hw).mpr ⟨ts, h⟩)
    | toks ks => cases hf
    | _ => cases hs
  | opt a iha =>
    intro c w hs hf hw
    rw [same.eq_def] at hs
    dsimp only at hs
    split at hs
    · rename_i c' hc; rw [unopt_eofLast hc] at hf; cases hf
    · cases hs
  | star a iha =>
    intro c w hs hf hw
    cases c with
    | star p c => cases hf
    | _ => cases hs
  | plus a iha =>
    intro c w hs hf hw
    cases c with
    | seq c d =>
      cases d with
      | star p d => rw [eofLast, Bool.and_eq_true] at hf; cases hf.2
      | _ => cases hs
    | _ => cases hs

/-- The start rules. -/
theorem start_iff (hg : Good L P) {R : Rule} (hR : isStart R = true) {w : List Char} (hw : Fine w) :
    Derives P.rules isToken (.ref (ruleName R)) (w.map tk ++ [EOF]) ↔ ∃ ts, Rfc5322.Derives (ruleG R) w ts [] := by
  have hlast := eofLast_rule hR
  constructor
  · intro h
    rcases derives_ref hg h with ⟨t, h1, h2⟩ | ⟨R', e, h1, h2, h3⟩
    · have := congrArg List.length h1
      simp at this
      subst this
      rw [List.map_nil, List.nil_append, List.cons.injEq] at h1
      rw [← h1.1] at h2
      exact absurd h2 eof_ne_rule
    · obtain rfl := ruleName_inj h1
      obtain ⟨ts, h⟩ := (last_iff hg h2 hlast hw).mp h3
      exact ⟨_, derives_rule.mpr ⟨ts, rfl, h⟩⟩
  · rintro ⟨us, h⟩
    obtain ⟨ts, rfl, h'⟩ := derives_rule.mp h
    obtain ⟨e, he, hs⟩ := hg.complete R
    exact .rule he ((last_iff hg hs hlast hw).mpr ⟨ts, h'⟩)

/-! ## The lexer -/

theorem derives_range {g : List (Name × Ebnf)} {a b : Nat} {x : List Char} : Derives g isChar (.range a b) x ↔ ∃ c : Char, x = [c] ∧ a ≤ c.toNat ∧ c.toNat ≤ b := by
  constructor
  · intro h
    cases h with
    | symbol h => exact ⟨_, rfl, h⟩
  · rintro ⟨c, rfl, h⟩
    exact .symbol h

theorem matches_iff (hg : Good L P) {i : Nat} {x : List Char} : Matches L i x ↔ ∃ k c, Tok.all[i]? = some k ∧ x = [c] ∧ k.matches c = true := by
  have key : ∀ {r} {k : Tok}, (∃ a b, (r = .range a b ∧ k.ranges = [(a, b)]) ∨ ∃ c d, r = .alt (.range a b) (.range c d) ∧ k.ranges = [(a, b), (c, d)]) →
      (Derives L.rules isChar r x ↔ ∃ c, x = [c] ∧ k.matches c = true) := by
    rintro r k ⟨a, b, ⟨rfl, h⟩ | ⟨c, d, rfl, h⟩⟩
    · rw [derives_range]
      simp [Tok.matches, h]
    · constructor
      · intro h'
        cases h' with
        | symbol h' => exact h'.elim
        | left h' => obtain ⟨x, rfl, h1⟩ := derives_range.mp h'; exact ⟨x, rfl, by simp [Tok.matches, h, h1]⟩
        | right h' => obtain ⟨x, rfl, h1⟩ := derives_range.mp h'; exact ⟨x, rfl, by simp [Tok.matches, h, h1]⟩
      · rintro ⟨x, rfl, h1⟩
        simp only [Tok.matches, h, List.any_cons, List.any_nil, Bool.or_false, Bool.or_eq_true, Bool.and_eq_true, Nat.ble_eq] at h1
        rcases h1 with h1 | h1
        · exact .left (derives_range.mpr ⟨x, rfl, h1⟩)
        · exact .right (derives_range.mpr ⟨x, rfl, h1⟩)
  constructor
  · rintro ⟨r, hr, h⟩
    obtain ⟨k, hk, _, he⟩ := hg.tokens hr
    obtain ⟨c, h1, h2⟩ := (key he).mp h
    exact ⟨k, c, hk, h1, h2⟩
  · rintro ⟨k, c, hk, h1, h2⟩
    have hi : i < L.rules.length := by rw [hg.count]; exact (List.getElem?_eq_some_iff.mp hk).1
    obtain ⟨k', hk', _, he⟩ := hg.tokens (List.getElem?_eq_getElem hi)
    rw [hk] at hk'
    injection hk' with e
    subst e
    exact ⟨_, List.getElem?_eq_getElem hi, (key he).mpr ⟨c, h1, h2⟩⟩

theorem index_unique {i j : Nat} {k : Tok} (h1 : Tok.all[i]? = some k) (h2 : Tok.all[j]? = some k) : i = j := by
  have := Atn.typeOf_index h1
  have := Atn.typeOf_index h2
  omega

theorem unique {k k' : Tok} {c : Char} (h : k.matches c = true) (h' : k'.matches c = true) : k = k' := by
  have a := (lexRune_eq_some_iff c k).mpr h
  rw [(lexRune_eq_some_iff c k').mpr h'] at a
  injection a with a
  exact a.symm

theorem lexes_iff (hg : Good L P) {s : List Char} {ts : List Token} : Lexes L s ts ↔ ts = (tokenize s).map tk := by
  constructor
  · intro h
    induction h with
    | nil => rfl
    | @token i r x y ts h1 h2 h3 h4 h5 _ ih =>
      obtain ⟨k, c, hk, rfl, hc⟩ := (matches_iff hg).mp h3
      obtain ⟨k', hk', hn, _⟩ := hg.tokens h1
      rw [hk] at hk'
      injection hk' with e
      subst e
      have hl := (lexRune_eq_some_iff c k).mpr hc
      rw [ih, hn]
      simp [tokenize, hl, tk]
    | @skip c y ts h1 _ ih =>
      have hl : (lexRune c).isSome = false := by
        cases hl : lexRune c with
        | none => rfl
        | some k =>
          have hm := (lexRune_eq_some_iff c k).mp hl
          obtain ⟨i, hi⟩ := List.getElem?_of_mem (mem_all k)
          exact absurd ((matches_iff hg).mpr ⟨k, c, hi, rfl, hm⟩) (h1 i [c] y rfl (by simp))
      rw [ih]
      simp [tokenize, hl]
  · intro h
    subst h
    induction s with
    | nil => exact .nil
    | cons c s ih =>
      cases hl : lexRune c with
      | none =>
        have e : (tokenize (c :: s)).map tk = (tokenize s).map tk := by simp [tokenize, hl]
        rw [e]
        refine .skip (fun j z w hz hne h => ?_) ih
        obtain ⟨k, c', _, rfl, hc⟩ := (matches_iff hg).mp h
        injection hz with hz _
        subst hz
        rw [(lexRune_eq_some_iff c k).mpr hc] at hl
        cases hl
      | some k =>
        have hm := (lexRune_eq_some_iff c k).mp hl
        obtain ⟨i, hi⟩ := List.getElem?_of_mem (mem_all k)
        obtain ⟨r, hr, hd⟩ := (matches_iff hg).mpr ⟨k, c, hi, rfl, hm⟩
        obtain ⟨k', hk', hn, _⟩ := hg.tokens hr
        rw [hi] at hk'
        injection hk' with e
        subst e
        have e : (tokenize (c :: s)).map tk = ⟨r.1, [c]⟩ :: (tokenize s).map tk := by simp [tokenize, hl, tk, hn]
        rw [e]
        refine .token (x := [c]) hr (by simp) ⟨r, hr, hd⟩ (fun j z w _ h => ?_) (fun j hj h => ?_) ih
        · obtain ⟨_, _, _, rfl, _⟩ := (matches_iff hg).mp h
          simp
        · obtain ⟨k', c', hk', e', hc'⟩ := (matches_iff hg).mp h
          injection e' with e' _
          subst e'
          obtain rfl := unique hm hc'
          have := index_unique hi hk'
          omega

/-! ## The files of this package -/

theorem accepted_iff (hg : Good L P) {R : Rule} (hR : isStart R = true) {text : List Char} :
    Accepted L P (ruleName R) text ↔ ∃ ts, Rfc5322.Derives (ruleG R) (tokenize text) ts [] := by
  constructor
  · rintro ⟨ts, h1, h2⟩
    rw [(lexes_iff hg).mp h1] at h2
    exact (start_iff hg hR (fine_tokens text)).mp h2
  · intro h
    exact ⟨_, (lexes_iff hg).mpr rfl, (start_iff hg hR (fine_tokens text)).mpr h⟩

/-- The lexer rule has these characters. -/
def sameToken (k : Tok) (r : Name × Ebnf) : Bool := r.1 == tokName k && match r.2 with
  | .range a b => k.ranges == [(a, b)]
  | .alt (.range a b) (.range c d) => k.ranges == [(a, b), (c, d)]
  | _ => false

/-- All comparisons, by computation. -/
def compare (L P : Grammar) : Bool :=
  L.rules.length == 70 && (List.range 70).all (fun i => match L.rules[i]?, Tok.all[i]? with
    | some r, some k => sameToken k r
    | _, _ => false) &&
  P.rules.length == 67 && (List.range 67).all fun i => match P.rules[i]?, Atn.rules[i]? with
    | some r, some R => r.1 == ruleName R && same r.2 (cert R)
    | _, _ => false

theorem good_of_compare (h : compare L P = true) : Good L P := by
  simp only [compare, Bool.and_eq_true, beq_iff_eq, List.all_eq_true, List.mem_range] at h
  obtain ⟨⟨⟨h1, h2⟩, h3⟩, h4⟩ := h
  refine ⟨fun {n e} hm => ?_, fun R => ?_, fun {i r} hr => ?_, h1, fun {n e e'} hm hm' => ?_⟩
  · obtain ⟨i, hi⟩ := List.getElem?_of_mem hm
    have := h4 i (by rw [← h3]; exact (List.getElem?_eq_some_iff.mp hi).1)
    rw [hi] at this
    split at this
    · rename_i r R e1 e2
      injection e1 with e1
      subst e1
      rw [Bool.and_eq_true, beq_iff_eq] at this
      exact ⟨R, this.1, this.2⟩
    · cases this
  · obtain ⟨i, hi⟩ := List.getElem?_of_mem (mem_rules R)
    have := h4 i (List.getElem?_eq_some_iff.mp hi).1
    rw [hi] at this
    split at this
    · rename_i r R' e1 e2
      injection e2 with e2
      subst e2
      rw [Bool.and_eq_true, beq_iff_eq] at this
      exact ⟨r.2, this.1 ▸ List.mem_of_getElem? e1, this.2⟩
    · cases this
  · have := h2 i (by rw [← h1]; exact (List.getElem?_eq_some_iff.mp hr).1)
    rw [hr] at this
    split at this
    · rename_i r k e1 e2
      injection e1 with e1
      subst e1
      simp only [sameToken, Bool.and_eq_true, beq_iff_eq] at this
      refine ⟨k, e2, this.1, ?_⟩
      have h5 := this.2
      split at h5
      · rename_i a b e; exact ⟨a, b, .inl ⟨e, by simpa using h5⟩⟩
      · rename_i a b c d e; exact ⟨a, b, .inr ⟨c, d, e, by simpa using h5⟩⟩
      · cases h5
    · cases this
  · have key : ∀ {i : Nat} {e : Ebnf}, P.rules[i]? = some (n, e) → ∃ R, Atn.rules[i]? = some R ∧ n = ruleName R := by
      intro i e hi
      have := h4 i (by rw [← h3]; exact (List.getElem?_eq_some_iff.mp hi).1)
      rw [hi] at this
      split at this
      · rename_i r R e1 e2
        injection e1 with e1
        subst e1
        rw [Bool.and_eq_true, beq_iff_eq] at this
        exact ⟨R, e2, this.1⟩
      · cases this
    obtain ⟨i, hi⟩ := List.getElem?_of_mem hm
    obtain ⟨j, hj⟩ := List.getElem?_of_mem hm'
    obtain ⟨R, hR, e1⟩ := key hi
    obtain ⟨R', hR', e2⟩ := key hj
    obtain rfl := ruleName_inj (e1.symm.trans e2)
    have hnd : Atn.rules.Nodup := by decide
    obtain rfl : i = j := (List.getElem?_inj (List.getElem?_eq_some_iff.mp hR).1 hnd).mp (hR.trans hR'.symm)
    rw [hi] at hj
    injection hj with hj
    injection hj

theorem files_compare : ((read lexerFile).bind fun L => (read parserFile).map fun P => compare L P) = some true := by decide +kernel

theorem files_good {L P : Grammar} (hL : read lexerFile = some L) (hP : read parserFile = some P) : Good L P := by
  have := files_compare
  rw [hL, hP] at this
  exact good_of_compare (by simpa using this)

end Rfc5322.G4
