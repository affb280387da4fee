import Verif.Proofs.G4
import Verif.Proofs.AtnPref

/-!
# The preferred derivation in the grammar files
-/

namespace Rfc5322.G4

open Atn (Cert oneOf ruleG cert derives_rule derives_oneOf weights weights_append mem_all preferred_rule)
open Spec (Preferred)

variable {L P : Grammar}

/-! ## There is at most one -/

theorem Prefers.derives {g K e s ts s'} (h : Prefers g K e s ts s') : ∃ x, s = x ++ s' ∧ Derives g isToken e x ∧ K s' := by
  induction h with
  | symbol h k => exact ⟨[_], rfl, .symbol h, k⟩
  | rule h _ ih => obtain ⟨x, h1, h2, h3⟩ := ih; exact ⟨x, h1, .rule h h2, h3⟩
  | seq _ _ ih1 ih2 =>
    obtain ⟨x, rfl, h2, h3⟩ := ih1
    obtain ⟨y, rfl, h5, h6⟩ := ih2
    exact ⟨x ++ y, by simp, .seq h2 h5, h6⟩
  | first _ ih => obtain ⟨x, h1, h2, h3⟩ := ih; exact ⟨x, h1, .left h2, h3⟩
  | second _ _ ih => obtain ⟨x, h1, h2, h3⟩ := ih; exact ⟨x, h1, .right h2, h3⟩
  | some _ ih => obtain ⟨x, h1, h2, h3⟩ := ih; exact ⟨x, h1, .some h2, h3⟩
  | none _ k => exact ⟨[], rfl, .none, k⟩
  | again _ _ ih1 ih2 =>
    obtain ⟨x, rfl, h2, h3⟩ := ih1
    obtain ⟨y, rfl, h5, h6⟩ := ih2
    exact ⟨x ++ y, by simp, .again h2 h5, h6⟩
  | stop _ k => exact ⟨[], rfl, .stop, k⟩
  | plus _ _ ih1 ih2 =>
    obtain ⟨x, rfl, h2, h3⟩ := ih1
    obtain ⟨y, rfl, h5, h6⟩ := ih2
    exact ⟨x ++ y, by simp, .plus h2 h5, h6⟩

theorem Prefers.completes {g K e s ts s'} (h : Prefers g K e s ts s') : Completes g e K s := by
  obtain ⟨x, h1, h2, h3⟩ := Prefers.derives h
  exact ⟨x, s', h1, h2, h3⟩

theorem completes_plus {g K a s ts s' us s''} (h1 : Prefers g (Completes g (.star a) K) a s ts s') (h2 : Prefers g K (.star a) s' us s'') : Completes g (.plus a) K s := by
  obtain ⟨x, rfl, h3, _⟩ := Prefers.derives h1
  obtain ⟨y, rfl, h4, h5⟩ := Prefers.derives h2
  exact ⟨x ++ y, s'', by simp, .plus h3 h4, h5⟩

theorem Prefers.unique {g : List (Name × Ebnf)} (hu : ∀ {n e e'}, (n, e) ∈ g → (n, e') ∈ g → e = e') {K e s ts s'} (h : Prefers g K e s ts s') :
    (∀ t ∈ s, ∀ n e, (n, e) ∈ g → t.name ≠ n) → ∀ {us s''}, Prefers g K e s us s'' → us = ts ∧ s'' = s' := by
  induction h with
  | @symbol K e t s h k =>
    intro hs us s'' h'
    cases h' with
    | symbol => exact ⟨rfl, rfl⟩
    | rule h1 h2 => exact absurd h (hs t (by simp) _ _ h1)
    | _ => exact h.elim
  | @rule K n e s ts s' h1 h2 ih =>
    intro hs us s'' h'
    cases h' with
    | @symbol _ _ t _ h => exact absurd h (hs t (by simp) _ _ h1)
    | rule h3 h4 =>
      obtain rfl := hu h1 h3
      obtain ⟨rfl, rfl⟩ := ih hs h4
      exact ⟨rfl, rfl⟩
  | seq h1 h2 ih1 ih2 =>
    intro hs us s'' h'
    cases h' with
    | symbol h => exact h.elim
    | seq h3 h4 =>
      obtain ⟨rfl, rfl⟩ := ih1 hs h3
      obtain ⟨x, rfl, _⟩ := Prefers.derives h1
      obtain ⟨rfl, rfl⟩ := ih2 (fun t ht => hs t (by simp [ht])) h4
      exact ⟨rfl, rfl⟩
  | first h1 ih =>
    intro hs us s'' h
    cases h with
    | symbol h => exact h.elim
    | first h => exact ih hs h
    | second hn _ => exact absurd (Prefers.completes h1) hn
  | second hn _ ih =>
    intro hs us s'' h
    cases h with
    | symbol h => exact h.elim
    | first h => exact absurd (Prefers.completes h) hn
    | second _ h => exact ih hs h
  | some h1 ih =>
    intro hs us s'' h
    cases h with
    | symbol h => exact h.elim
    | some h => exact ih hs h
    | none hn _ => exact absurd (Prefers.completes h1) hn
  | none hn _ =>
    intro hs us s'' h
    cases h with
    | symbol h => exact h.elim
    | some h => exact absurd (Prefers.completes h) hn
    | none => exact ⟨rfl, rfl⟩
  | again h1 h2 ih1 ih2 =>
    intro hs us s'' h
    cases h with
    | symbol h => exact h.elim
    | again k1 k2 =>
      obtain ⟨rfl, rfl⟩ := ih1 hs k1
      obtain ⟨x, rfl, _⟩ := Prefers.derives h1
      obtain ⟨rfl, rfl⟩ := ih2 (fun t ht => hs t (by simp [ht])) k2
      exact ⟨rfl, rfl⟩
    | stop hn _ => exact absurd (completes_plus h1 h2) hn
  | stop hn _ =>
    intro hs us s'' h
    cases h with
    | symbol h => exact h.elim
    | again h1 h2 => exact absurd (completes_plus h1 h2) hn
    | stop => exact ⟨rfl, rfl⟩
  | plus h1 h2 ih1 ih2 =>
    intro hs us s'' h
    cases h with
    | symbol h => exact h.elim
    | plus k1 k2 =>
      obtain ⟨rfl, rfl⟩ := ih1 hs k1
      obtain ⟨x, rfl, _⟩ := Prefers.derives h1
      obtain ⟨rfl, rfl⟩ := ih2 (fun t ht => hs t (by simp [ht])) k2
      exact ⟨rfl, rfl⟩

/-! ## The one of the model -/

mutual
/-- A tree of the model as a tree of the files. -/
def parse : Tree → Parse
  | .tok c => .token (tk c)
  | .eof => .token EOF
  | .node R ts => .rule (ruleName R) (parses ts)
def parses : List Tree → List Parse
  | [] => []
  | t :: ts => parse t :: parses ts
end

theorem parses_append : ∀ ts us : List Tree, parses (ts ++ us) = parses ts ++ parses us
  | [], us => by simp [parses]
  | t :: ts, us => by simp [parses, parses_append ts us]

/-- What is left of the input. -/
def rest (s : List Char) : List Token := s.map tk ++ [EOF]

theorem Fine.suffix {u v : List Char} (h : Fine (u ++ v)) : Fine v := fun c hc => h c (by simp [hc])

theorem fine_derives {g s ts s'} (hs : Fine s) (h : Rfc5322.Derives g s ts s') : Fine s' := by
  obtain ⟨u, rfl⟩ := h.suffix
  exact hs.suffix

theorem completes_free (hg : Good L P) {e : Ebnf} {c : Cert} (hs : same e c = true) (hf : eofFree c = true) {K : List Token → Prop} {s : List Char} (hw : Fine s) :
    Completes P.rules e K (rest s) ↔ Spec.Completes c.expand (fun s => K (rest s)) s := by
  constructor
  · rintro ⟨x, z, h1, h2, h3⟩
    have hx := no_eof hg h2 hs hf
    rcases List.append_eq_append_iff.mp h1 with ⟨u, hu, hv⟩ | ⟨u, hu, hv⟩
    · rcases List.append_eq_cons_iff.mp hv.symm with ⟨rfl, hy⟩ | ⟨u', rfl, hy⟩
      · rw [List.append_nil] at hu
        subst hu
        subst hy
        obtain ⟨ts, h4⟩ := sound hg (s' := []) h2 hs hf hw rfl
        exact ⟨ts, [], by simpa using h4, h3⟩
      · exact absurd rfl (hx EOF (by rw [hu]; simp))
    · obtain ⟨w1, w2, rfl, hw1, hw2⟩ := List.map_eq_append_iff.mp hu
      subst hv
      subst hw2
      obtain ⟨ts, h4⟩ := sound hg (s' := w2) h2 hs hf (fun c hc => hw c (by simp [hc])) hw1.symm
      exact ⟨ts, w2, h4, h3⟩
  · rintro ⟨ts, s', h1, h2⟩
    obtain ⟨w, rfl, h3⟩ := complete_in hg (completeTo hg (weights ts)) hs hf (Nat.le_refl _) h1
    exact ⟨w.map tk, rest s', by simp [rest], h3, h2⟩

theorem prefers_names (hg : Good L P) {K : List Token → Prop} {t : Token} {s : List Token} (hK : K s) : ∀ {e : Ebnf} {ns : List Name}, names e = some ns →
    (∀ n ∈ ns, ∃ k, n = tokName k) → t.name ∈ ns → Prefers P.rules K e (t :: s) [.token t] s
  | .ref n, ns, h, hk, ht => by
    simp only [names, Option.some.injEq] at h
    subst h
    exact .symbol (by simpa [isToken] using ht) hK
  | .alt a b, ns, h, hk, ht => by
    simp only [names, Option.bind_eq_bind, Option.bind_eq_some_iff, Option.some.injEq] at h
    obtain ⟨u, hu, v, hv, rfl⟩ := h
    by_cases hta : t.name ∈ u
    · exact .first (prefers_names hg hK hu (fun n hn => hk n (by simp [hn])) hta)
    · refine .second ?_ (prefers_names hg hK hv (fun n hn => hk n (by simp [hn])) ((List.mem_append.mp ht).resolve_left hta))
      rintro ⟨x, z, h1, h2, h3⟩
      obtain ⟨t', rfl, h4⟩ := (derives_names hg hu (fun n hn => hk n (by simp [hn]))).mp h2
      injection h1 with h1 _
      subst h1
      exact hta h4
  | .range .., _, h, _, _ | .seq .., _, h, _, _ | .opt _, _, h, _, _ | .star _, _, h, _, _ | .plus _, _, h, _, _ => by simp [names] at h

theorem unopt_preferred : ∀ {c c' : Cert}, unopt c = some c' → ∀ {K s ts s'}, Preferred K c.expand s ts s' → Preferred K c'.expand s ts s' ∨
    (ts = [] ∧ s' = s ∧ K s ∧ ¬ Spec.Completes c'.expand K s)
  | .alt j c .eps, c', h, K, s, ts, s', hp => by
    simp only [unopt, Option.some.injEq] at h
    subst h
    cases hp with
    | first h => exact .inl h
    | second h0 h => cases h with | eps h => exact .inr ⟨rfl, rfl, h, h0⟩
  | .alt j c (.alt j' a b), c', h, K, s, ts, s', hp => by
    simp only [unopt, Option.map_eq_some_iff] at h
    obtain ⟨d', hd, rfl⟩ := h
    cases hp with
    | first h => exact .inl (.first h)
    | second h0 h =>
      rcases unopt_preferred hd h with h | ⟨h1, h2, h3, h4⟩
      · exact .inl (.second h0 h)
      · refine .inr ⟨h1, h2, h3, ?_⟩
        rintro ⟨us, z, h5, h6⟩
        cases h5 with
        | altL h5 => exact h0 ⟨us, z, h5, h6⟩
        | altR h5 => exact h4 ⟨us, z, h5, h6⟩
  | .alt _ _ .eof, _, h, _, _, _, _, _ | .alt _ _ (.toks _), _, h, _, _, _, _, _ | .alt _ _ (.call _), _, h, _, _, _, _, _ | .alt _ _ (.seq ..), _, h, _, _, _, _, _
  | .alt _ _ (.star ..), _, h, _, _, _, _, _ => by simp [unopt] at h
  | .eps, _, h, _, _, _, _, _ | .eof, _, h, _, _, _, _, _ | .toks _, _, h, _, _, _, _, _ | .call _, _, h, _, _, _, _, _ | .seq .., _, h, _, _, _, _, _
  | .star .., _, h, _, _, _, _, _ => by simp [unopt] at h

theorem preferred_fine {K L : List Char → Prop} (e : ∀ s, Fine s → (K s ↔ L s)) {g s ts s'} (hw : Fine s) (h : Preferred K g s ts s') : Preferred L g s ts s' := by
  induction h generalizing L with
  | eps h => exact .eps ((e _ hw).mp h)
  | eof h => exact .eof ((e _ hw).mp h)
  | t h k => exact .t h ((e _ (fun c hc => hw c (by simp [hc]))).mp k)
  | @seq K a b s ts s' us s'' h1 h2 ih1 ih2 =>
    have hw' := fine_derives hw (Preferred.derives h1).1
    refine .seq (ih1 (fun s hs => ?_) hw) (ih2 e hw')
    exact ⟨fun ⟨ts, s', h, k⟩ => ⟨ts, s', h, (e _ (fine_derives hs h)).mp k⟩, fun ⟨ts, s', h, k⟩ => ⟨ts, s', h, (e _ (fine_derives hs h)).mpr k⟩⟩
  | first _ ih => exact .first (ih e hw)
  | second hn _ ih => exact .second (fun ⟨ts, s', h, k⟩ => hn ⟨ts, s', h, (e _ (fine_derives hw h)).mpr k⟩) (ih e hw)
  | @again K a s ts s' us s'' h1 h2 ih1 ih2 =>
    have hw' := fine_derives hw (Preferred.derives h1).1
    refine .again (ih1 (fun s hs => ?_) hw) (ih2 e hw')
    exact ⟨fun ⟨ts, s', h, k⟩ => ⟨ts, s', h, (e _ (fine_derives hs h)).mp k⟩, fun ⟨ts, s', h, k⟩ => ⟨ts, s', h, (e _ (fine_derives hs h)).mpr k⟩⟩
  | stop hn h => exact .stop (fun ⟨ts, s', h, k⟩ => hn ⟨ts, s', h, (e _ (fine_derives hw h)).mpr k⟩) ((e _ hw).mp h)
  | rule _ ih => exact .rule (ih e hw)
  | comment _ ih => exact .comment (ih e hw)

/-- Preferred derivations of rules that build at most `n` nodes are preferred in the files. -/
def PrefersTo (P : Grammar) (n : Nat) : Prop := ∀ {K : List Token → Prop} {R s ts s'}, weights ts ≤ n → Preferred (fun s => K (rest s)) (ruleG R) s ts s' → isStart R = false → Fine s →
  Prefers P.rules K (.ref (ruleName R)) (rest s) (parses ts) (rest s')

theorem prefers_star {n : Nat} {a : Ebnf} {c : Cert} (hg : Good L P) (hs : same a c = true) (hf : eofFree c = true)
    (iha : ∀ {K : List Token → Prop} {s ts s'}, weights ts ≤ n → Preferred (fun s => K (rest s)) c.expand s ts s' → Fine s → Prefers P.rules K a (rest s) (parses ts) (rest s'))
    {K : List Token → Prop} : ∀ {g K'}, g = G.star c.expand → K' = (fun s => K (rest s)) → ∀ {s ts s'}, weights ts ≤ n → Preferred K' g s ts s' → Fine s →
    Prefers P.rules K (.star a) (rest s) (parses ts) (rest s') := by
  have hss : same (.star a) (.star 0 c) = true := by rw [same]; exact hs
  have hcomp : ∀ s, Fine s → (Completes P.rules (.star a) K (rest s) ↔ Spec.Completes (G.star c.expand) (fun s => K (rest s)) s) :=
    fun s h => completes_free hg hss (by rw [eofFree]; exact hf) h
  have hplus : ∀ s, Fine s → (Completes P.rules (.plus a) K (rest s) ↔ Spec.Completes (c.expand ⬝ G.star c.expand) (fun s => K (rest s)) s) :=
    fun s h => completes_free (c := .seq c (.star 0 c)) hg (by rw [same, hs]; rfl) (by rw [eofFree, eofFree, hf]; rfl) h
  intro g K' hg' hK' s ts s' hn h hw
  induction h with
  | @again K1 a1 s1 ts1 s2 us s3 h1 h2 _ ih =>
    injection hg' with hg'
    subst hg' hK'
    rw [weights_append] at hn
    rw [parses_append]
    have hw' := fine_derives hw (Preferred.derives h1).1
    refine .again (iha (by omega) ?_ hw) (ih rfl rfl (by omega) hw')
    exact preferred_fine (fun s hs => (hcomp s hs).symm) hw h1
  | stop h0 h1 =>
    injection hg' with hg'
    subst hg' hK'
    exact .stop (fun hc => h0 ((hplus _ hw).mp hc)) h1
  | _ => cases hg'

theorem prefers_in {n : Nat} (hg : Good L P) (hC : PrefersTo P n) : ∀ {e : Ebnf} {c : Cert} {K : List Token → Prop} {s ts s'}, same e c = true → eofFree c = true → weights ts ≤ n →
    Preferred (fun s => K (rest s)) c.expand s ts s' → Fine s → Prefers P.rules K e (rest s) (parses ts) (rest s') := by
  intro e
  induction e with
  | range => intro c K s ts s' hs; cases hs
  | ref m =>
    intro c K s ts s' hs hf hn h hw
    cases c with
    | toks ks =>
      match ks, hs, h with
      | [k], hs, h =>
        rw [same, beq_iff_eq] at hs
        cases h with
        | t h' hk => exact .symbol (by simp only [isToken]; rw [hs]; exact tk_name h') hk
    | eof => cases hf
    | call R =>
      rw [same, beq_iff_eq] at hs
      rw [hs]
      exact hC hn h (by simpa [eofFree] using hf) hw
    | _ => cases hs
  | seq a b iha ihb =>
    intro c K s ts s' hs hf hn h hw
    cases c with
    | seq c d =>
      rw [same, Bool.and_eq_true] at hs
      rw [eofFree, Bool.and_eq_true] at hf
      cases h with
      | seq h1 h2 =>
        rw [weights_append] at hn
        rw [parses_append]
        have hw' := fine_derives hw (Preferred.derives h1).1
        refine .seq (iha hs.1 hf.1 (by omega) ?_ hw) (ihb hs.2 hf.2 (by omega) h2 hw')
        exact preferred_fine (fun s h => (completes_free hg hs.2 hf.2 h).symm) hw h1
    | _ => cases hs
  | alt a b iha ihb =>
    intro c K s ts s' hs hf hn h hw
    cases c with
    | alt j c d =>
      rw [same, Bool.and_eq_true] at hs
      rw [eofFree, Bool.and_eq_true] at hf
      cases h with
      | first h => exact .first (iha hs.1 hf.1 hn h hw)
      | second h0 h => exact .second (fun hc => h0 ((completes_free hg hs.1 hf.1 hw).mp hc)) (ihb hs.2 hf.2 hn h hw)
    | toks ks =>
      obtain ⟨ns, hn', hks, h2, h3⟩ := same_names hs
      obtain ⟨hd, hk⟩ := Preferred.derives h
      obtain ⟨c, rfl, rfl, k, hk', hc⟩ := (derives_oneOf hks).mp hd
      exact prefers_names hg hk hn' (fun n hn => (h2 n hn).imp fun _ h => h.2) (by rw [tk_name hc]; exact h3 k hk')
    | _ => cases hs
  | opt a iha =>
    intro c K s ts s' hs hf hn h hw
    rw [same.eq_def] at hs
    dsimp only at hs
    split at hs
    · rename_i c' hc
      rcases unopt_preferred hc h with h | ⟨rfl, rfl, h1, h2⟩
      · exact .some (iha hs (unopt_eofFree hc hf) hn h hw)
      · exact .none (fun h => h2 ((completes_free hg hs (unopt_eofFree hc hf) hw).mp h)) h1
    · cases hs
  | star a iha =>
    intro c K s ts s' hs hf hn h hw
    cases c with
    | star p c =>
      rw [same] at hs
      rw [eofFree] at hf
      exact prefers_star hg hs hf (fun h1 h2 h3 => iha hs hf h1 h2 h3) rfl rfl hn h hw
    | _ => cases hs
  | plus a iha =>
    intro c K s ts s' hs hf hn h hw
    cases c with
    | seq c d =>
      cases d with
      | star p d =>
        rw [same, Bool.and_eq_true] at hs
        rw [eofFree, Bool.and_eq_true] at hf
        have hf2 : eofFree d = true := hf.2
        cases h with
        | seq h1 h2 =>
          rw [weights_append] at hn
          rw [parses_append]
          have hw' := fine_derives hw (Preferred.derives h1).1
          refine .plus (iha hs.1 hf.1 (by omega) ?_ hw) (prefers_star hg hs.2 hf2 (fun h1 h2 h3 => iha hs.2 hf2 h1 h2 h3) rfl rfl (by omega) h2 hw')
          refine preferred_fine (fun s h => ?_) hw h1
          exact (completes_free (e := .star a) (c := .star p d) hg (by rw [same]; exact hs.2) hf.2 h).symm
      | _ => cases hs
    | _ => cases hs

theorem prefersTo (hg : Good L P) : ∀ n, PrefersTo P n
  | 0, K, R, s, ts, s', hn, h, hR, hw => by
    obtain ⟨us, rfl, _⟩ := preferred_rule.mp h
    simp [weights, Atn.weight] at hn
  | n + 1, K, R, s, ts, s', hn, h, hR, hw => by
    obtain ⟨us, rfl, h1⟩ := preferred_rule.mp h
    simp only [weights, Atn.weight] at hn
    obtain ⟨e, he, hs⟩ := hg.complete R
    exact .rule he (prefers_in hg (prefersTo hg n) hs (eofFree_rule hR) (by omega) h1 hw)

theorem completes_last (hg : Good L P) {e : Ebnf} {c : Cert} (hs : same e c = true) (hf : eofLast c = true) {s : List Char} (hw : Fine s) :
    Completes P.rules e (· = []) (rest s) ↔ Spec.Completes c.expand (· = []) s := by
  constructor
  · rintro ⟨x, z, h1, h2, rfl⟩
    rw [List.append_nil] at h1
    subst h1
    obtain ⟨ts, h⟩ := (last_iff hg hs hf hw).mp h2
    exact ⟨ts, [], h, rfl⟩
  · rintro ⟨ts, s', h, rfl⟩
    exact ⟨rest s, [], by simp, (last_iff hg hs hf hw).mpr ⟨ts, h⟩, rfl⟩

theorem prefers_last (hg : Good L P) : ∀ {e : Ebnf} {c : Cert} {s ts s'}, same e c = true → eofLast c = true → Preferred (· = []) c.expand s ts s' → Fine s →
    Prefers P.rules (· = []) e (rest s) (parses ts) [] := by
  intro e
  induction e with
  | range => intro c s ts s' hs; cases hs
  | ref m =>
    intro c s ts s' hs hf h hw
    cases c with
    | eof =>
      rw [same, beq_iff_eq] at hs
      subst hs
      cases h
      exact .symbol (t := EOF) rfl rfl
    | toks ks => cases hf
    | call R => cases hf
    | _ => cases hs
  | seq a b iha ihb =>
    intro c s ts s' hs hf h hw
    cases c with
    | seq c d =>
      rw [same, Bool.and_eq_true] at hs
      rw [eofLast, Bool.and_eq_true] at hf
      cases h with
      | seq h1 h2 =>
        rw [parses_append]
        have hw' := fine_derives hw (Preferred.derives h1).1
        refine .seq (prefers_in hg (prefersTo hg _) hs.1 hf.1 (Nat.le_refl _) ?_ hw) (ihb hs.2 hf.2 h2 hw')
        exact preferred_fine (fun s h => (completes_last hg hs.2 hf.2 h).symm) hw h1
    | _ => cases hs
  | alt a b iha ihb =>
    intro c s ts s' hs hf h hw
    cases c with
    | alt j c d =>
      rw [same, Bool.and_eq_true] at hs
      rw [eofLast, Bool.and_eq_true] at hf
      cases h with
      | first h => exact .first (iha hs.1 hf.1 h hw)
      | second h0 h => exact .second (fun hc => h0 ((completes_last hg hs.1 hf.1 hw).mp hc)) (ihb hs.2 hf.2 h hw)
    | toks ks => cases hf
    | _ => cases hs
  | opt a iha =>
    intro c s ts s' hs hf h hw
    rw [same.eq_def] at hs
    dsimp only at hs
    split at hs
    · rename_i c' hc; rw [unopt_eofLast hc] at hf; cases hf
    · cases hs
  | star a iha =>
    intro c s ts s' hs hf h hw
    cases c with
    | star p c => cases hf
    | _ => cases hs
  | plus a iha =>
    intro c s ts s' hs hf h hw
    cases c with
    | seq c d =>
      cases d with
      | star p d => rw [eofLast, Bool.and_eq_true] at hf; cases hf.2
      | _ => cases hs
    | _ => cases hs

/-- The derivation the parser finds is the only one preferred by the files. -/
theorem prefers_iff (hg : Good L P) {R : Rule} (hR : isStart R = true) {s : List Char} {ts : List Tree} (hw : Fine s) (h : Preferred (· = []) (ruleG R) s [.node R ts] [])
    {us : List Parse} {s' : List Token} : Prefers P.rules (· = []) (.ref (ruleName R)) (s.map tk ++ [EOF]) us s' ↔ us = [parse (.node R ts)] ∧ s' = [] := by
  obtain ⟨ts', e, h1⟩ := preferred_rule.mp h
  injection e with e _
  injection e with _ e
  subst e
  obtain ⟨e, he, hs⟩ := hg.complete R
  have hp : Prefers P.rules (· = []) (.ref (ruleName R)) (s.map tk ++ [EOF]) [parse (.node R ts)] [] := by
    rw [parse]
    exact .rule he (prefers_last hg hs (eofLast_rule hR) h1 hw)
  constructor
  · intro h
    refine Prefers.unique hg.unique hp (fun t ht n e hn => ?_) h
    obtain ⟨R', rfl, _⟩ := hg.rules hn
    rcases List.mem_append.mp ht with ht | ht
    · obtain ⟨c, hc, rfl⟩ := List.mem_map.mp ht
      exact name_ne_rule (hw c hc)
    · rw [List.mem_singleton] at ht
      subst ht
      exact eof_ne_rule
  · rintro ⟨rfl, rfl⟩
    exact hp

end Rfc5322.G4
