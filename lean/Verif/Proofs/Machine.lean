import Verif.Model.Concurrent
import Verif.Proofs.Preferred
import Verif.Proofs.EnvIndep

/-!
# The parser and the walker, one step at a time
-/

namespace Rfc5322

open Spec

/-! ## The parser -/

/-- The trees that the ordered choice leads to from a state of the parser. -/
inductive Best : List Item → List Char → List (List Tree) → List Tree → Prop where
  | nil {ts} : Best [] [] [ts] ts
  | sym {g st s us s' o os ts} : Preferred (Viable (pending st)) g s us s' → Best st s' ((o ++ us) :: os) ts →
      Best (.sym g :: st) s (o :: os) ts
  | close {r st s o os ts} : Best st s (addChild (.node r o) os) ts → Best (.close r :: st) s (o :: os) ts

theorem Best.viable {st s out ts} (h : Best st s out ts) : Viable (pending st) s := by
  induction h with
  | nil => exact .nil
  | sym h _ ih => exact .cons (Preferred.derives h).1 ih
  | close _ ih => exact ih

theorem completes_viable {g γ s} : Completes g (Viable γ) s ↔ Viable (g :: γ) s := by
  rw [viable_cons_iff]; rfl

/-- From a state with a future every predictor makes the right step. -/
theorem Best.step {st s out ts} (h : Best st s out ts) (P : Predictor) (hne : st ≠ []) :
    ∃ p, Parse.step P ⟨st, s, out⟩ = some p ∧ Best p.stack p.toks p.out ts := by
  cases h with
  | nil => exact absurd rfl hne
  | close h => exact ⟨_, rfl, h⟩
  | @sym g st _ us s' o os _ hp hb =>
    cases hp with
    | eps _ => exact ⟨_, rfl, by simpa using hb⟩
    | eof _ => exact ⟨_, rfl, hb⟩
    | @t _ k c _ hm _ => exact ⟨⟨st, s', addChild (.tok c) (o :: os)⟩, by simp [Parse.step, hm], hb⟩
    | @seq _ a b _ ts' s'' us' _ h1 h2 =>
      refine ⟨_, rfl, .sym (Preferred.congr h1 fun s => completes_viable) (.sym h2 ?_)⟩
      simpa using hb
    | @first _ a b _ _ _ h1 =>
      have hv := completes_viable.mp (Preferred.completes h1)
      exact ⟨⟨.sym a :: st, s, o :: os⟩, by simp [Parse.step, P.first _ _ _ hv], .sym h1 hb⟩
    | @second _ a b _ _ _ hn h1 =>
      have hv := completes_viable.mp (Preferred.completes h1)
      exact ⟨⟨.sym b :: st, s, o :: os⟩, by simp [Parse.step, P.second _ _ _ (fun h => hn (completes_viable.mpr h)) hv], .sym h1 hb⟩
    | @again _ a _ ts' s'' us' _ h1 h2 =>
      have hv : Viable (a :: .star a :: pending st) s :=
        .cons (Preferred.derives h1).1 (.cons (Preferred.derives h2).1 (Preferred.derives h2).2)
      refine ⟨⟨.sym a :: .sym (.star a) :: st, s, o :: os⟩, by simp [Parse.step, P.first _ _ _ hv],
        .sym (Preferred.congr h1 fun s => completes_viable) (.sym h2 ?_)⟩
      simpa using hb
    | @stop _ a _ hn hK =>
      have : ¬ Viable (a :: .star a :: pending st) s := by
        intro h
        obtain ⟨ts, s', h1, h2⟩ := viable_cons_iff.mp h
        obtain ⟨us, s'', h3, h4⟩ := viable_cons_iff.mp h2
        exact hn ⟨_, _, .seq h1 h3, h4⟩
      exact ⟨⟨st, s, o :: os⟩, by simp [Parse.step, P.second _ _ _ this hK], by simpa using hb⟩
    | rule h1 => exact ⟨_, rfl, .sym (o := []) h1 (.close (by simpa [addChild] using hb))⟩
    | comment h1 => exact ⟨_, rfl, .sym (o := []) h1 (.close (by simpa [addChild] using hb))⟩

/-- A state without a future does not get one. -/
theorem Parse.step_viable {P : Predictor} {p p' : Parse} (h : p.step P = some p') (hv : Viable (pending p'.stack) p'.toks) :
    Viable (pending p.stack) p.toks := by
  obtain ⟨st, s, out⟩ := p
  cases st with
  | nil => simp [Parse.step] at h
  | cons i st =>
    cases i with
    | close r =>
      cases out with
      | nil => simp [Parse.step] at h
      | cons o os => simp [Parse.step] at h; subst h; exact hv
    | sym g =>
      cases g with
      | eps => simp [Parse.step] at h; subst h; exact .cons .eps hv
      | eof => cases s with
        | nil => simp [Parse.step] at h; subst h; exact .cons .eof hv
        | cons => simp [Parse.step] at h
      | t k => cases s with
        | nil => simp [Parse.step] at h
        | cons c s =>
          simp only [Parse.step] at h
          split at h
          · cases h; exact .cons (.t ‹_›) hv
          · cases h
      | seq a b =>
        simp [Parse.step] at h; subst h
        obtain ⟨_, _, h1, h2⟩ := viable_cons_iff.mp hv
        obtain ⟨_, _, h3, h4⟩ := viable_cons_iff.mp h2
        exact .cons (.seq h1 h3) h4
      | alt a b =>
        simp only [Parse.step] at h
        split at h
        · cases h; obtain ⟨_, _, h1, h2⟩ := viable_cons_iff.mp hv; exact .cons (.altL h1) h2
        · cases h; obtain ⟨_, _, h1, h2⟩ := viable_cons_iff.mp hv; exact .cons (.altR h1) h2
      | star a =>
        simp only [Parse.step] at h
        split at h
        · cases h
          obtain ⟨_, _, h1, h2⟩ := viable_cons_iff.mp hv
          obtain ⟨_, _, h3, h4⟩ := viable_cons_iff.mp h2
          exact .cons (.starCons h1 h3) h4
        · cases h; exact .cons .starNil hv
      | rule r a =>
        simp [Parse.step] at h; subst h
        obtain ⟨_, _, h1, h2⟩ := viable_cons_iff.mp hv
        exact .cons (.rule h1) h2
      | comment =>
        simp [Parse.step] at h; subst h
        obtain ⟨_, _, h1, h2⟩ := viable_cons_iff.mp hv
        exact .cons (.comment h1) h2

/-- What a running parser preserves, whatever the predictors it asks: `g` and `s` are the start rule and the input. -/
def Parse.Inv (g : G) (s : List Char) (p : Parse) : Prop :=
  match search g s with
  | some ts => Best p.stack p.toks p.out ts
  | none => ¬ Viable (pending p.stack) p.toks

theorem Parse.inv_start {g s} (hw : g.wf = true) : Parse.Inv g s ⟨[.sym g], s, [[]]⟩ := by
  unfold Parse.Inv
  cases h : search g s with
  | some ts =>
    have := search_preferred hw h
    refine Best.sym (Preferred.congr this fun s => ?_) .nil
    exact ⟨fun h => h ▸ .nil, fun h => by cases h; rfl⟩
  | none =>
    intro hv
    obtain ⟨ts, s', h1, h2⟩ := viable_cons_iff.mp hv
    cases h2
    have := (search_isSome_iff hw).mpr ⟨ts, h1⟩
    rw [h] at this
    cases this

theorem Parse.inv_step {g s p p'} {P : Predictor} (h : Parse.Inv g s p) (hs : p.step P = some p') : Parse.Inv g s p' := by
  unfold Parse.Inv at *
  cases hg : search g s with
  | some ts =>
    rw [hg] at h
    have hne : p.stack ≠ [] := by rintro e; simp [Parse.step, e] at hs
    obtain ⟨q, h1, h2⟩ := Best.step h P hne
    have : some p' = some q := hs.symm.trans h1
    cases this
    exact h2
  | none =>
    rw [hg] at h
    exact fun hv => h (Parse.step_viable hs hv)

theorem Parse.inv_fail {g s p} {P : Predictor} (h : Parse.Inv g s p) (hne : p.stack ≠ []) (hs : p.step P = none) : search g s = none := by
  unfold Parse.Inv at h
  cases hg : search g s with
  | none => rfl
  | some ts =>
    rw [hg] at h
    obtain ⟨q, h1, _⟩ := Best.step h P hne
    have : none = some q := hs.symm.trans h1
    cases this

theorem Parse.inv_end {g s p} (h : Parse.Inv g s p) (he : p.stack = []) :
    search g s = none ∧ p.toks ≠ [] ∨ ∃ ts, search g s = some ts ∧ p.toks = [] ∧ p.out = [ts] := by
  unfold Parse.Inv at h
  obtain ⟨st, t, out⟩ := p
  cases he
  cases hg : search g s with
  | none => rw [hg] at h; exact .inl ⟨rfl, fun e => h (by cases e; exact .nil)⟩
  | some ts => rw [hg] at h; cases h; exact .inr ⟨ts, rfl, rfl, rfl⟩

/-! ## Every run of the parser ends -/

/-- Steps that can be made on an expression before the next token is read, or the expression is finished. -/
def G.cost : G → Nat
  | .eps | .eof | .t _ => 1
  | .seq a b => 1 + a.cost + (if a.nullable then b.cost else 0)
  | .alt a b => 1 + max a.cost b.cost
  | .star a => 1 + a.cost
  | .rule _ a => 1 + a.cost + (if a.nullable then 1 else 0)
  | .comment => 3

/-- … on a stack. -/
def stackCost : List Item → Nat
  | [] => 0
  | .sym g :: st => g.cost + (if g.nullable then stackCost st else 0)
  | .close _ :: st => 1 + stackCost st

theorem Parse.step_wf {P : Predictor} {p p' : Parse} (h : p.step P = some p') (hw : ∀ g ∈ pending p.stack, g.wf = true) :
    ∀ g ∈ pending p'.stack, g.wf = true := by
  obtain ⟨st, s, out⟩ := p
  cases st with
  | nil => simp [Parse.step] at h
  | cons i st =>
    cases i with
    | close r =>
      cases out with
      | nil => simp [Parse.step] at h
      | cons o os => simp [Parse.step] at h; subst h; exact hw
    | sym g =>
      simp only [pending, List.mem_cons, forall_eq_or_imp] at hw
      obtain ⟨hg, hw⟩ := hw
      cases g with
      | eps => simp [Parse.step] at h; subst h; exact hw
      | eof => cases s with
        | nil => simp [Parse.step] at h; subst h; exact hw
        | cons => simp [Parse.step] at h
      | t k => cases s with
        | nil => simp [Parse.step] at h
        | cons c s =>
          simp only [Parse.step] at h
          split at h
          · cases h; exact hw
          · cases h
      | seq a b =>
        simp only [G.wf, Bool.and_eq_true] at hg
        simp [Parse.step] at h; subst h
        simp only [pending, List.mem_cons, forall_eq_or_imp]; exact ⟨hg.1, hg.2, hw⟩
      | alt a b =>
        simp only [G.wf, Bool.and_eq_true] at hg
        simp only [Parse.step] at h
        split at h <;> cases h <;> simp only [pending, List.mem_cons, forall_eq_or_imp]
        · exact ⟨hg.1, hw⟩
        · exact ⟨hg.2, hw⟩
      | star a =>
        simp only [Parse.step] at h
        split at h <;> cases h
        · simp only [pending, List.mem_cons, forall_eq_or_imp]
          have := hg
          simp only [G.wf, Bool.and_eq_true] at this
          exact ⟨this.1, hg, hw⟩
        · exact hw
      | rule r a =>
        simp [Parse.step] at h; subst h
        simp only [pending, List.mem_cons, forall_eq_or_imp]; exact ⟨hg, hw⟩
      | comment =>
        simp [Parse.step] at h; subst h
        simp only [pending, List.mem_cons, forall_eq_or_imp]; exact ⟨by decide, hw⟩

/-- Every step reads a token or comes closer to reading one. -/
theorem Parse.step_cost {P : Predictor} {p p' : Parse} (h : p.step P = some p') (hw : ∀ g ∈ pending p.stack, g.wf = true) :
    p'.toks.length < p.toks.length ∨ p'.toks.length = p.toks.length ∧ stackCost p'.stack < stackCost p.stack := by
  obtain ⟨st, s, out⟩ := p
  cases st with
  | nil => simp [Parse.step] at h
  | cons i st =>
    cases i with
    | close r =>
      cases out with
      | nil => simp [Parse.step] at h
      | cons o os => simp [Parse.step] at h; subst h; right; simp [stackCost]
    | sym g =>
      simp only [pending, List.mem_cons, forall_eq_or_imp] at hw
      obtain ⟨hg, -⟩ := hw
      cases g with
      | eps => simp [Parse.step] at h; subst h; right; simp [stackCost, G.cost, G.nullable]
      | eof => cases s with
        | nil => simp [Parse.step] at h; subst h; right; simp [stackCost, G.cost, G.nullable]
        | cons => simp [Parse.step] at h
      | t k => cases s with
        | nil => simp [Parse.step] at h
        | cons c s =>
          simp only [Parse.step] at h
          split at h
          · cases h; left; simp
          · cases h
      | seq a b =>
        simp [Parse.step] at h; subst h; right
        cases ha : a.nullable <;> cases hb : b.nullable <;> simp [stackCost, G.cost, G.nullable, ha, hb] <;> omega
      | alt a b =>
        simp only [Parse.step] at h
        right
        split at h <;> cases h <;> cases ha : a.nullable <;> cases hb : b.nullable <;>
          simp [stackCost, G.cost, G.nullable, ha, hb] <;> omega
      | star a =>
        simp only [G.wf, Bool.and_eq_true, Bool.not_eq_true'] at hg
        simp only [Parse.step] at h
        right
        split at h <;> cases h <;> simp [stackCost, G.cost, G.nullable, hg.2] <;> omega
      | rule r a =>
        simp [Parse.step] at h; subst h; right
        cases ha : a.nullable <;> simp [stackCost, G.cost, G.nullable, ha] <;> omega
      | comment =>
        simp [Parse.step] at h; subst h; right
        have h1 : Gr.commentBody.nullable = false := by decide
        have h2 : Gr.commentBody.cost = 2 := by decide
        simp [stackCost, G.cost, G.nullable, h1, h2]

/-! ## The walker -/

/-- The callbacks, each with an environment of its own. -/
def runEvents : List (Ev × Env) → Walker → Except Panic Walker
  | [], w => .ok w
  | (e, env) :: es, w => match e.apply env w with
    | .error p => .error p
    | .ok w' => runEvents es w'

theorem runEvents_append {es fs : List (Ev × Env)} {w : Walker} :
    runEvents (es ++ fs) w = (match runEvents es w with
      | .error p => .error p
      | .ok w' => runEvents fs w') := by
  induction es generalizing w with
  | nil => rfl
  | cons x es ih =>
    obtain ⟨e, env⟩ := x
    simp only [List.cons_append, runEvents]
    cases e.apply env w with
    | error => rfl
    | ok w' => exact ih

/-- The callbacks in one environment. -/
def withEnv (env : Env) (es : List Ev) : List (Ev × Env) := es.map fun e => (e, env)

theorem withEnv_append {env es fs} : withEnv env (es ++ fs) = withEnv env es ++ withEnv env fs := by simp [withEnv]

mutual
theorem walk_events (env : Env) : ∀ (t : Tree) (w : Walker), walk env t w = runEvents (withEnv env (events t)) w
  | .tok _, _ => by simp only [walk, events, withEnv, List.map_nil, runEvents]
  | .eof, _ => by simp only [walk, events, withEnv, List.map_nil, runEvents]
  | .node r ts, w => by
    simp only [walk, events, withEnv, List.map_cons, runEvents, Ev.apply]
    cases enterRule env r ts w with
    | error => rfl
    | ok w₁ =>
      dsimp only
      rw [← withEnv, withEnv_append, runEvents_append, walkList_events env ts w₁]
      cases runEvents (withEnv env (eventsList ts)) w₁ with
      | error => rfl
      | ok w₂ =>
        simp only [withEnv, List.map_cons, List.map_nil, runEvents, Ev.apply]
        cases exitRule r w₂ <;> rfl
theorem walkList_events (env : Env) : ∀ (ts : List Tree) (w : Walker), walkList env ts w = runEvents (withEnv env (eventsList ts)) w
  | [], _ => by simp only [walkList, eventsList, withEnv, List.map_nil, runEvents]
  | t :: ts, w => by
    simp only [walkList, eventsList]
    rw [withEnv_append, runEvents_append, walk_events env t w]
    cases runEvents (withEnv env (events t)) w with
    | error => rfl
    | ok w₁ => exact walkList_events env ts w₁
end

/-- The result of a call whose callbacks find the environments given. -/
def Fn.result (fn : Fn) (es : List (Ev × Env)) : Obs :=
  match runEvents es Walker.init with
  | .error p => fn.panic p
  | .ok w => fn.finish w

/-- The result of the function when nothing else happens. -/
def Fn.alone (fn : Fn) (P : Predictor) (env : Env) (input : Bytes) : Obs :=
  match fn with
  | .addresses => .addresses (parseAddressList P env input)
  | .date => .date (parseDateTime P env input)

theorem Fn.alone_eq (fn : Fn) (P : Predictor) (env : Env) (input : Bytes) (hne : input.length ≠ 0) :
    fn.alone P env input = match search fn.rule (tokens input) with
      | none => fn.syntaxError
      | some ts => fn.result (withEnv env (eventsList ts)) := by
  cases fn with
  | addresses =>
    simp only [Fn.alone, evalAddresses_eq, evalAddresses, if_neg hne, Fn.rule]
    cases search Gr.addressList (tokens input) with
    | none => rfl
    | some ts =>
      simp only [Fn.result, ← walkList_events]
      cases walkList env ts Walker.init with
      | error => rfl
      | ok w =>
        simp only [Fn.finish]
        cases w.res with
        | none => rfl
        | some r => cases r <;> rfl
  | date =>
    simp only [Fn.alone, evalDate_eq, evalDate, if_neg hne, Fn.rule]
    cases search Gr.dateTime (tokens input) with
    | none => rfl
    | some ts =>
      simp only [Fn.result, ← walkList_events]
      cases walkList env ts Walker.init with
      | error => rfl
      | ok w =>
        simp only [Fn.finish]
        cases w.res with
        | none => rfl
        | some r => cases r <;> rfl

theorem Fn.alone_empty (fn : Fn) (P : Predictor) (env : Env) : fn.alone P env [] = fn.empty := by cases fn <;> rfl

end Rfc5322
