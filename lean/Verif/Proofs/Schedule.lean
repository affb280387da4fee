import Verif.Proofs.Concurrent

/-!
# What interleaved calls return, and that they return
-/

namespace Rfc5322

open Spec

/-! ## Callbacks that look at the environment -/

/-- The text decoded by a callback. -/
def Ev.word : Ev → Option Bytes
  | .enter .encodedWord ts => some (textList ts)
  | _ => none

def Ev.isYear : Ev → Bool
  | .enter .year _ => true
  | _ => false

def Ev.okFor (p : Rule → Bool) : Ev → Bool
  | .enter r _ => p r
  | .exit r => p r

mutual
theorem events_ok {p : Rule → Bool} : ∀ t : Tree, t.allRules p = true → (events t).all (Ev.okFor p) = true
  | .tok _, _ => by simp only [events, List.all_nil]
  | .eof, _ => by simp only [events, List.all_nil]
  | .node r ts, h => by
    simp only [Tree.allRules, Bool.and_eq_true] at h
    simp only [events, List.all_cons, List.all_append, List.all_nil, Ev.okFor, h.1, eventsList_ok ts h.2, Bool.and_true]
theorem eventsList_ok {p : Rule → Bool} : ∀ ts : List Tree, allRulesList p ts = true → (eventsList ts).all (Ev.okFor p) = true
  | [], _ => by simp only [eventsList, List.all_nil]
  | t :: ts, h => by
    simp only [allRulesList, Bool.and_eq_true] at h
    simp only [eventsList, List.all_append, events_ok t h.1, eventsList_ok ts h.2, Bool.and_true]
end

theorem eventsList_append : ∀ ts us : List Tree, eventsList (ts ++ us) = eventsList ts ++ eventsList us
  | [], us => by simp only [eventsList, List.nil_append]
  | t :: ts, us => by simp only [List.cons_append, eventsList, eventsList_append ts us, List.append_assoc]

theorem Ev.apply_indep {e : Ev} {env env' : Env} {w} (h1 : e.word = none) (h2 : e.isYear = false) : e.apply env w = e.apply env' w := by
  cases e with
  | exit => rfl
  | enter r ts => exact enterRule_congr (by rintro rfl; cases h2) (by rintro rfl; cases h1)

theorem Ev.apply_word {e : Ev} {env : Env} {w v} (h : e.word = some v) :
    e.apply env w = .ok (w.enter (.encodedWord ((env.decode v).getD v))) := by
  cases e with
  | exit => cases h
  | enter r ts =>
    cases r <;> first | cases h | skip
    simp only [Ev.apply, enterRule, enterEncodedWord]
    cases env.decode (textList ts) <;> rfl

/-! ## Address lists -/

/-- The words decoded, in order. -/
def wordsOf (es : List Ev) : List Bytes := es.filterMap Ev.word

/-- The callbacks with the values of the encoded words given. -/
def runVals : List Ev → List Bytes → Walker → Except Panic Walker
  | [], _, w => .ok w
  | e :: es, vs, w => match e.word, vs with
    | some _, v :: vs => runVals es vs (w.enter (.encodedWord v))
    | _, vs => match e.apply env0 w with
      | .error p => .error p
      | .ok w' => runVals es vs w'

/-- The values found by the callbacks. -/
def valsOf : List (Ev × Env) → List Bytes
  | [] => []
  | (e, env) :: es => match e.word with
    | some v => (env.decode v).getD v :: valsOf es
    | none => valsOf es

theorem runEvents_vals {es : List (Ev × Env)} (h : ∀ p ∈ es, p.1.isYear = false) (w : Walker) :
    runEvents es w = runVals (es.map (·.1)) (valsOf es) w := by
  induction es generalizing w with
  | nil => rfl
  | cons x es ih =>
    obtain ⟨e, env⟩ := x
    simp only [List.map_cons, valsOf, runEvents]
    cases he : e.word with
    | some v => simp only [runVals, he, Ev.apply_word he]; exact ih (fun p hp => h p (by simp [hp])) _
    | none =>
      simp only [runVals, he]
      rw [Ev.apply_indep (env' := env0) he (h (e, env) (by simp))]
      cases e.apply env0 w with
      | error => rfl
      | ok w' => exact ih (fun p hp => h p (by simp [hp])) _

theorem valsOf_withEnv (env : Env) (es : List Ev) : valsOf (withEnv env es) = (wordsOf es).map fun v => (env.decode v).getD v := by
  induction es with
  | nil => rfl
  | cons e es ih =>
    simp only [withEnv, List.map_cons, valsOf, wordsOf, List.filterMap_cons] at ih ⊢
    cases e.word with
    | some v => simp [ih]
    | none => exact ih

/-- The times at which words are decoded. -/
def wordTimes : List Ev → List Nat → List Nat
  | e :: es, t :: ts => match e.word with
    | some _ => t :: wordTimes es ts
    | none => wordTimes es ts
  | _, _ => []

theorem wordTimes_sublist : ∀ (es : List Ev) (ts : List Nat), (wordTimes es ts).Sublist ts
  | [], ts => by simp [wordTimes]
  | e :: es, [] => by simp [wordTimes]
  | e :: es, t :: ts => by
    have := wordTimes_sublist es ts
    simp only [wordTimes]
    cases e.word with
    | some v => exact this.cons_cons t
    | none => exact this.cons t

theorem wordTimes_length : ∀ (es : List Ev) (ts : List Nat), ts.length = es.length → (wordTimes es ts).length = (wordsOf es).length
  | [], ts, h => by simp [wordTimes, wordsOf]
  | e :: es, [], h => by simp at h
  | e :: es, t :: ts, h => by
    have := wordTimes_length es ts (by simpa using h)
    simp only [wordTimes, wordsOf, List.filterMap_cons] at this ⊢
    cases e.word with
    | some v => simpa using this
    | none => exact this

theorem valsOf_times (x : Execution) : ∀ (es : List Ev) (ts : List Nat), ts.length = es.length →
    valsOf (es.zip (x.envs ts)) = List.zipWith (fun v t => ((x.state t).env.decode v).getD v) (wordsOf es) (wordTimes es ts)
  | [], ts, h => by simp [valsOf, wordTimes]
  | e :: es, [], h => by simp at h
  | e :: es, t :: ts, h => by
    have := valsOf_times x es ts (by simpa using h)
    simp only [wordTimes, wordsOf, List.filterMap_cons, Execution.envs, List.map_cons, List.zip_cons_cons, valsOf] at this ⊢
    cases e.word with
    | some v => simp [this]
    | none => exact this

theorem zip_fst {es : List Ev} {l : List Env} (h : l.length = es.length) : (es.zip l).map (·.1) = es := by
  rw [List.map_fst_zip (by omega)]

/-! ## Dates -/

/-- At most this many `year` nodes (2 stands for any number). -/
def G.years : G → Nat
  | .eps | .eof | .t _ | .comment => 0
  | .seq a b => a.years + b.years
  | .alt a b => max a.years b.years
  | .star a => if a.years = 0 then 0 else 2
  | .rule r a => (if r = .year then 1 else 0) + a.years

def yearsIn (es : List Ev) : Nat := (es.filter Ev.isYear).length

theorem yearsIn_append (es fs : List Ev) : yearsIn (es ++ fs) = yearsIn es + yearsIn fs := by simp [yearsIn]

theorem yearsIn_zero {es : List Ev} (h : es.all (Ev.okFor fun r => r != .year) = true) : yearsIn es = 0 := by
  rw [yearsIn, List.length_eq_zero_iff, List.filter_eq_nil_iff]
  intro e he hy
  have := List.all_eq_true.mp h e he
  cases e with
  | exit => cases hy
  | enter r ts => cases r <;> first | (cases hy; done) | exact absurd (show (Rule.year != Rule.year) = true from this) (by decide)

theorem derives_years {g s ts s'} (h : Derives g s ts s') (hg : g.years ≤ 1) : yearsIn (eventsList ts) ≤ g.years := by
  induction h with
  | eps | starNil => simp [eventsList, yearsIn]
  | eof | t _ => simp [eventsList, events, yearsIn]
  | seq _ _ ih1 ih2 =>
    simp only [G.years] at hg ⊢
    rw [eventsList_append, yearsIn_append]
    have := ih1 (by omega); have := ih2 (by omega)
    omega
  | altL _ ih => simp only [G.years] at hg ⊢; have := ih (by omega); omega
  | altR _ ih => simp only [G.years] at hg ⊢; have := ih (by omega); omega
  | starCons _ _ ih1 ih2 =>
    simp only [G.years] at hg ih2 ⊢
    split at hg
    · rename_i h0
      rw [if_pos h0] at ih2 ⊢
      rw [eventsList_append, yearsIn_append]
      have := ih1 (by omega); have := ih2 (by omega)
      omega
    · omega
  | @rule r a s ts s' _ ih =>
    simp only [G.years] at hg ⊢
    have := ih (by omega)
    simp only [eventsList, events, List.append_nil]
    rw [show Ev.enter r ts :: (eventsList ts ++ [Ev.exit r]) = [Ev.enter r ts] ++ (eventsList ts ++ [Ev.exit r]) from rfl, yearsIn_append,
      yearsIn_append]
    have h1 : yearsIn [Ev.exit r] = 0 := rfl
    have h2 : yearsIn [Ev.enter r ts] ≤ if r = .year then 1 else 0 := by
      by_cases hr : r = .year
      · subst hr; exact Nat.le_refl 1
      · rw [if_neg hr]
        have : Ev.isYear (.enter r ts) = false := by cases r <;> first | rfl | exact absurd rfl hr
        simp [yearsIn, this]
    omega
  | comment h _ =>
    have := derives_allRules (p := fun r => r != .year) (by decide) (Derives.comment h) (by decide)
    rw [yearsIn_zero (eventsList_ok _ this)]
    exact Nat.zero_le _

theorem runEvents_env {es : List (Ev × Env)} {env : Env} (h : ∀ p ∈ es, p.1.word = none ∧ (p.1.isYear = true → p.2 = env)) (w : Walker) :
    runEvents es w = runEvents (withEnv env (es.map (·.1))) w := by
  induction es generalizing w with
  | nil => rfl
  | cons x es ih =>
    obtain ⟨e, env'⟩ := x
    simp only [withEnv, List.map_cons, runEvents] at ih ⊢
    have : e.apply env' w = e.apply env w := by
      obtain ⟨h1, h2⟩ := h (e, env') (by simp)
      cases hy : e.isYear with
      | true => rw [show env' = env from h2 hy]
      | false => exact Ev.apply_indep h1 hy
    rw [this]
    cases e.apply env w with
    | error => rfl
    | ok w' => exact ih (fun p hp => h p (by simp [hp])) _

/-- With one look at the clock, one moment accounts for the result. -/
theorem one_year (x : Execution) : ∀ (es : List Ev) (ts : List Nat), ts.length = es.length → yearsIn es ≤ 1 → es ≠ [] →
    ∃ t ∈ ts, ∀ p ∈ es.zip (x.envs ts), p.1.isYear = true → p.2 = (x.state t).env
  | [], _, _, _, h => absurd rfl h
  | e :: es, [], h, _, _ => by simp at h
  | e :: es, t :: ts, h, hy, _ => by
    rw [show e :: es = [e] ++ es from rfl, yearsIn_append] at hy
    cases he : e.isYear with
    | true =>
      have : yearsIn [e] = 1 := by simp [yearsIn, he]
      have h0 : es.filter Ev.isYear = [] := List.length_eq_zero_iff.mp (show yearsIn es = 0 by omega)
      rw [List.filter_eq_nil_iff] at h0
      refine ⟨t, by simp, ?_⟩
      intro p hp hpy
      simp only [Execution.envs, List.map_cons, List.zip_cons_cons, List.mem_cons] at hp
      rcases hp with rfl | hp
      · rfl
      · exact absurd hpy (h0 p.1 (List.of_mem_zip hp).1)
    | false =>
      by_cases hne : es = []
      · subst hne
        have : ts = [] := by simpa using h
        subst this
        refine ⟨t, by simp, ?_⟩
        intro p hp hpy
        simp only [Execution.envs, List.map_cons, List.map_nil, List.zip_cons_cons, List.zip_nil_right, List.mem_singleton] at hp
        subst hp
        exact absurd (he.symm.trans hpy) (by decide)
      · obtain ⟨t', ht', hp'⟩ := one_year x es ts (by simpa using h) (by omega) hne
        refine ⟨t', by simp [ht'], ?_⟩
        intro p hp hpy
        simp only [Execution.envs, List.map_cons, List.zip_cons_cons, List.mem_cons] at hp
        rcases hp with rfl | hp
        · exact absurd (he.symm.trans hpy) (by decide)
        · exact hp' p hp hpy

/-! ## Progress -/

/-- What is left to do in a call. -/
def Phase.cost : Phase → Nat × Nat × Nat
  | .parsing p => (2, p.toks.length, stackCost p.stack)
  | .walking es _ => (1, es.length, 0)
  | .done _ => (0, 0, 0)

abbrev costLt : Nat × Nat × Nat → Nat × Nat × Nat → Prop := Prod.Lex (· < ·) (Prod.Lex (· < ·) (· < ·))

theorem costLt_wf : WellFounded costLt :=
  (Prod.lex ⟨_, Nat.lt_wfRel.wf⟩ (Prod.lex ⟨_, Nat.lt_wfRel.wf⟩ ⟨_, Nat.lt_wfRel.wf⟩)).wf

theorem Call.step_cost {P : Predictor} {env : Env} {c : Call} (hd : c.phase.isDone = false)
    (hw : ∀ p, c.phase = .parsing p → ∀ g ∈ pending p.stack, g.wf = true) : costLt (c.step P env).phase.cost c.phase.cost := by
  obtain ⟨fn, input, phase⟩ := c
  cases phase with
  | done => cases hd
  | walking es w =>
    cases es with
    | nil => exact .left _ _ (by decide)
    | cons e es =>
      simp only [Call.step]
      cases e.apply env w with
      | error => exact .left _ _ (by decide)
      | ok w' => exact .right _ (.left _ _ (by simp))
  | parsing p =>
    obtain ⟨st, s, out⟩ := p
    cases st with
    | nil =>
      simp only [Call.step]
      split <;> exact .left _ _ (by decide)
    | cons i st =>
      simp only [Call.step]
      cases hs : Parse.step P ⟨i :: st, s, out⟩ with
      | none => exact .left _ _ (by decide)
      | some p' =>
        refine .right _ ?_
        rcases Parse.step_cost hs (hw _ rfl) with h | ⟨h1, h2⟩
        · exact .left _ _ h
        · dsimp only at h1
          show Prod.Lex _ _ (p'.toks.length, _) (s.length, _)
          rw [h1]; exact .right _ h2

theorem Call.step_same (P : Predictor) (env : Env) (c : Call) : (c.step P env).fn = c.fn ∧ (c.step P env).input = c.input := by
  obtain ⟨fn, input, phase⟩ := c
  cases phase with
  | done => exact ⟨rfl, rfl⟩
  | walking es w =>
    cases es with
    | nil => exact ⟨rfl, rfl⟩
    | cons e es => simp only [Call.step]; cases e.apply env w <;> exact ⟨rfl, rfl⟩
  | parsing p =>
    obtain ⟨st, s, out⟩ := p
    cases st with
    | nil => simp only [Call.step]; split <;> exact ⟨rfl, rfl⟩
    | cons i st => simp only [Call.step]; cases Parse.step P ⟨i :: st, s, out⟩ <;> exact ⟨rfl, rfl⟩

theorem callInv_wf {x k j c} (h : CallInv x k j c) : ∀ p, c.phase = .parsing p → ∀ g ∈ pending p.stack, g.wf = true := by
  intro p hp
  unfold CallInv at h
  split at h
  · rw [hp] at h; cases h
  · rw [hp] at h; exact h.2

/-- From one moment to the next a call takes a step or stays as it is. -/
theorem Execution.next (x : Execution) {k j c} (h : (x.state j).calls[k]? = some c) :
    (x.action j = .step k ∧ c.phase.isDone = false ∧ (x.state (j + 1)).calls[k]? = some (c.step (x.state j).predictor (x.state j).env)) ∨
      x.action j ≠ .step k ∧ (x.state (j + 1)).calls[k]? = some c := by
  have ha := x.acts j
  generalize x.action j = a at ha
  generalize x.state (j + 1) = s' at ha
  have hk : k < (x.state j).calls.length := by
    rcases Nat.lt_or_ge k (x.state j).calls.length with h' | h'
    · exact h'
    · rw [List.getElem?_eq_none h'] at h; cases h
  cases ha with
  | call => exact .inr ⟨by simp, by rw [List.getElem?_append_left hk]; exact h⟩
  | environment => exact .inr ⟨by simp, h⟩
  | @step k' c' P' h1 h2 =>
    by_cases hkk : k' = k
    · subst hkk
      rw [h] at h1
      cases h1
      exact .inl ⟨rfl, h2, by simp [hk]⟩
    · exact .inr ⟨by simpa using hkk, by rw [List.getElem?_set, if_neg hkk]; exact h⟩

/-- A call that is scheduled again and again returns. -/
theorem Execution.returns (x : Execution) {k : Nat} : ∀ (m : Nat × Nat × Nat) (i : Nat) (c : Call), c.phase.cost = m →
    (x.state i).calls[k]? = some c → (∀ j, i ≤ j → x.Running k j → ∃ j', j ≤ j' ∧ x.action j' = .step k) →
    ∃ j o, i ≤ j ∧ x.Returned k j c.fn c.input o := by
  intro m
  induction m using costLt_wf.induction with
  | h m ih =>
    intro i c hm hc hf
    cases hd : c.phase.isDone with
    | true =>
      obtain ⟨fn, input, phase⟩ := c
      cases phase with
      | done o => exact ⟨i, o, Nat.le_refl _, hc⟩
      | _ => cases hd
    | false =>
      obtain ⟨j', hj', ha⟩ := hf i (Nat.le_refl _) ⟨c, hc, hd⟩
      -- the first step of the call from `i` on
      have key : ∀ d i, i + d = j' → (x.state i).calls[k]? = some c →
          ∃ l, i ≤ l ∧ (x.state (l + 1)).calls[k]? = some (c.step (x.state l).predictor (x.state l).env) := by
        intro d
        induction d with
        | zero =>
          intro i hi hc
          have : i = j' := by omega
          subst this
          rcases x.next hc with h | h
          · exact ⟨i, Nat.le_refl _, h.2.2⟩
          · exact absurd ha h.1
        | succ d ihd =>
          intro i hi hc
          rcases x.next hc with h | h
          · exact ⟨i, Nat.le_refl _, h.2.2⟩
          · obtain ⟨l, hl, h⟩ := ihd (i + 1) (by omega) h.2
            exact ⟨l, by omega, h⟩
      obtain ⟨l, hl, h⟩ := key (j' - i) i (by omega) hc
      have hlt := Call.step_cost (P := (x.state l).predictor) (env := (x.state l).env) hd (callInv_wf (callInv x i k c hc))
      obtain ⟨j, o, hj, hr⟩ := ih _ (hm ▸ hlt) (l + 1) _ rfl h (fun j hj => hf j (by omega))
      obtain ⟨e1, e2⟩ := Call.step_same (x.state l).predictor (x.state l).env c
      rw [e1, e2] at hr
      exact ⟨j, o, by omega, hr⟩

end Rfc5322
