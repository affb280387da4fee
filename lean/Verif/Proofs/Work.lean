import Verif.Proofs.Schedule

/-!
# The work done by a call
-/

namespace Rfc5322

/-! ## What is on the stack -/

/-- While the expression is on top of a stack whose rest costs `r`, nothing put on it makes any part of the stack cost more
than `max g.inner (r + g.outer)`. -/
def G.outer : G → Nat
  | .eps | .eof => 1
  | .t _ => 0
  | .seq a b => max (max (if a.nullable && b.nullable then (G.seq a b).cost else 0) (if b.nullable then a.outer + b.cost else 0)) b.outer
  | .alt a b => max (max (if a.nullable || b.nullable then (G.alt a b).cost else 0) a.outer) b.outer
  | .star a => a.outer + (1 + a.cost)
  | .rule r a => max (if a.nullable then (G.rule r a).cost else 0) (a.outer + 1)
  | .comment => 1

/-- See `outer`. -/
def G.inner : G → Nat
  | .eps | .eof => 0
  | .t _ => 1
  | .seq a b => max (max (if a.nullable && b.nullable then 0 else (G.seq a b).cost) (max a.inner (if b.nullable then 0 else a.outer + b.cost))) b.inner
  | .alt a b => max (max (if a.nullable || b.nullable then 0 else (G.alt a b).cost) a.inner) b.inner
  | .star a => a.inner
  | .rule r a => max (if a.nullable then 0 else (G.rule r a).cost) a.inner
  | .comment => 150

/-- No part of the stack costs more than `B`, now or later. -/
inductive Fits (B : Nat) : List Item → Prop where
  | nil : Fits B []
  | close {r st} : Fits B st → 1 + stackCost st ≤ B → Fits B (.close r :: st)
  | sym {g st} : Fits B st → g.inner ≤ B → stackCost st + g.outer ≤ B → Fits B (.sym g :: st)

theorem peak_own (g : G) (r : Nat) : g.cost + (if g.nullable then r else 0) ≤ max g.inner (r + g.outer) := by
  cases g with
  | eps => simp [G.cost, G.nullable, G.inner, G.outer]; omega
  | eof => simp [G.cost, G.nullable, G.inner, G.outer]; omega
  | t => simp [G.cost, G.nullable, G.inner, G.outer]; omega
  | seq a b => simp only [G.nullable, G.inner, G.outer]; by_cases h : (a.nullable && b.nullable) = true <;> simp only [h, if_true, if_false, Bool.false_eq_true] <;> omega
  | alt a b => simp only [G.nullable, G.inner, G.outer]; by_cases h : (a.nullable || b.nullable) = true <;> simp only [h, if_true, if_false, Bool.false_eq_true] <;> omega
  | star a => simp [G.cost, G.nullable, G.inner, G.outer]; omega
  | rule r a => simp only [G.nullable, G.inner, G.outer]; by_cases h : (a.nullable) = true <;> simp only [h, if_true, if_false, Bool.false_eq_true] <;> omega
  | comment => simp [G.cost, G.nullable, G.inner, G.outer]; omega

theorem Fits.le {B st} (h : Fits B st) : stackCost st ≤ B := by
  cases h with
  | nil => simp [stackCost]
  | close _ h => exact h
  | @sym g st _ h1 h2 => have := peak_own g (stackCost st); simp only [stackCost]; omega

theorem commentBody_inner : Gr.commentBody.inner = 150 := by decide +kernel
theorem commentBody_outer : Gr.commentBody.outer = 0 := by decide +kernel

theorem Fits.step {B : Nat} {P : Predictor} {p p' : Parse} (h : Fits B p.stack) (hs : p.step P = some p') (hw : ∀ g ∈ pending p.stack, g.wf = true) :
    Fits B p'.stack := by
  obtain ⟨st, s, out⟩ := p
  cases h with
  | nil => simp [Parse.step] at hs
  | close h _ =>
    cases out with
    | nil => simp [Parse.step] at hs
    | cons o os => simp [Parse.step] at hs; subst hs; exact h
  | @sym g st h h1 h2 =>
    cases g with
    | eps => simp [Parse.step] at hs; subst hs; exact h
    | eof => cases s with
      | nil => simp [Parse.step] at hs; subst hs; exact h
      | cons => simp [Parse.step] at hs
    | t k => cases s with
      | nil => simp [Parse.step] at hs
      | cons c s =>
        simp only [Parse.step] at hs
        split at hs
        · cases hs; exact h
        · cases hs
    | seq a b =>
      simp [Parse.step] at hs; subst hs
      simp only [G.inner, G.outer] at h1 h2
      refine .sym (.sym h (by omega) (by omega)) (by omega) ?_
      simp only [stackCost]
      cases hb : b.nullable <;> simp only [hb, if_true, if_false, Bool.false_eq_true] at h1 h2 ⊢ <;> omega
    | alt a b =>
      simp only [Parse.step] at hs
      simp only [G.inner, G.outer] at h1 h2
      split at hs <;> cases hs
      · exact .sym h (by omega) (by omega)
      · exact .sym h (by omega) (by omega)
    | star a =>
      simp only [Parse.step] at hs
      split at hs <;> cases hs
      · simp only [G.inner, G.outer] at h1 h2
        refine .sym (.sym h h1 h2) h1 ?_
        simp only [stackCost, G.cost, G.nullable, if_true]
        omega
      · exact h
    | rule r a =>
      simp [Parse.step] at hs; subst hs
      simp only [G.inner, G.outer] at h1 h2
      refine .sym (.close h (by omega)) (by omega) ?_
      simp only [stackCost]; omega
    | comment =>
      simp [Parse.step] at hs; subst hs
      simp only [G.inner, G.outer] at h1 h2
      refine .sym (.close h (by omega)) (by rw [commentBody_inner]; omega) ?_
      rw [commentBody_outer]; simp only [stackCost]; omega

/-! ## Counting steps -/

/-- Callbacks for the trees built so far. -/
def callbacks (out : List (List Tree)) : Nat := (out.map fun ts => (eventsList ts).length).sum

theorem callbacks_add (t : Tree) (out) : callbacks (addChild t out) = callbacks out + (events t).length := by
  cases out with
  | nil => simp [addChild, callbacks, eventsList]
  | cons o os => simp [addChild, callbacks, eventsList_append, eventsList]; omega

/-- What is left to do while parsing. -/
def parseWork (p : Parse) : Nat := 3 * (p.toks.length * 182 + stackCost p.stack) + callbacks p.out + 2 * openRules p.stack + 2

/-- What is left to do. -/
def Phase.work : Phase → Nat
  | .parsing p => parseWork p
  | .walking es _ => es.length + 1
  | .done _ => 0

theorem parse_work {P : Predictor} {p p' : Parse} (h : Fits 181 p.stack) (hs : p.step P = some p') (hw : ∀ g ∈ pending p.stack, g.wf = true) :
    parseWork p' < parseWork p := by
  have h1 : p'.toks.length * 182 + stackCost p'.stack < p.toks.length * 182 + stackCost p.stack := by
    have := (h.step hs hw).le
    rcases Parse.step_cost hs hw with h | ⟨h1, h2⟩
    · have : (p'.toks.length + 1) * 182 ≤ p.toks.length * 182 := Nat.mul_le_mul_right _ h
      omega
    · rw [h1]; omega
  have h2 : callbacks p'.out + 2 * openRules p'.stack ≤ callbacks p.out + 2 * openRules p.stack + 2 := by
    clear h1 h hw
    obtain ⟨st, s, out⟩ := p
    cases st with
    | nil => simp [Parse.step] at hs
    | cons i st =>
      cases i with
      | close r =>
        cases out with
        | nil => simp [Parse.step] at hs
        | cons o os =>
          simp [Parse.step] at hs; subst hs
          simp only [callbacks_add, events, openRules]
          simp [callbacks]; omega
      | sym g =>
        cases g with
        | eps => simp [Parse.step] at hs; subst hs; simp [openRules]
        | eof => cases s with
          | nil => simp [Parse.step] at hs; subst hs; simp [openRules, callbacks_add, events]
          | cons => simp [Parse.step] at hs
        | t k => cases s with
          | nil => simp [Parse.step] at hs
          | cons c s =>
            simp only [Parse.step] at hs
            split at hs
            · cases hs; simp [openRules, callbacks_add, events]
            · cases hs
        | seq a b => simp [Parse.step] at hs; subst hs; simp [openRules]
        | alt a b => simp only [Parse.step] at hs; split at hs <;> cases hs <;> simp [openRules]
        | star a => simp only [Parse.step] at hs; split at hs <;> cases hs <;> simp [openRules]
        | rule r a => simp [Parse.step] at hs; subst hs; simp [openRules, callbacks, eventsList]; omega
        | comment => simp [Parse.step] at hs; subst hs; simp [openRules, callbacks, eventsList]; omega
  unfold parseWork
  omega

/-- What holds of the stack of a parser all the time. -/
def Call.Small (c : Call) : Prop := ∀ p, c.phase = .parsing p → Fits 181 p.stack ∧ ∀ g ∈ pending p.stack, g.wf = true

theorem fn_fits (fn : Fn) : Fits 181 [.sym fn.rule] := by
  cases fn
  · exact .sym .nil (by decide +kernel) (by decide +kernel)
  · exact .sym .nil (by decide +kernel) (by decide +kernel)

theorem Call.small_start (fn : Fn) (input : Bytes) : (Call.start fn input).Small := by
  intro p hp
  simp only [Call.start] at hp
  split at hp
  · cases hp
  · cases hp; exact ⟨fn_fits fn, by simpa [pending] using fn_wf fn⟩

theorem Call.Small.step {P env} {c : Call} (h : c.Small) : (c.step P env).Small := by
  obtain ⟨fn, input, phase⟩ := c
  intro p hp
  cases phase with
  | done => cases hp
  | walking es w =>
    cases es with
    | nil => cases hp
    | cons e es => simp only [Call.step] at hp; cases he : e.apply env w <;> rw [he] at hp <;> cases hp
  | parsing q =>
    obtain ⟨st, s, out⟩ := q
    cases st with
    | nil => simp only [Call.step] at hp; split at hp <;> cases hp
    | cons i st =>
      simp only [Call.step] at hp
      obtain ⟨h1, h2⟩ := h _ rfl
      cases hs : Parse.step P ⟨i :: st, s, out⟩ with
      | none => rw [hs] at hp; cases hp
      | some p' => rw [hs] at hp; cases hp; exact ⟨h1.step hs h2, Parse.step_wf hs h2⟩

/-- Every step brings the end of the call nearer. -/
theorem Call.Small.step_work {P env} {c : Call} (h : c.Small) (hd : c.phase.isDone = false) : (c.step P env).phase.work < c.phase.work := by
  obtain ⟨fn, input, phase⟩ := c
  cases phase with
  | done => cases hd
  | walking es w =>
    cases es with
    | nil => simp [Call.step, Phase.work]
    | cons e es => simp only [Call.step]; cases e.apply env w <;> simp [Phase.work]
  | parsing p =>
    obtain ⟨st, s, out⟩ := p
    cases st with
    | nil =>
      cases s with
      | cons => simp [Call.step, Phase.work, parseWork]
      | nil =>
        match out with
        | [] => simp [Call.step, Phase.work, parseWork]
        | [ts] => simp [Call.step, Phase.work, parseWork, callbacks, stackCost, openRules]
        | _ :: _ :: _ => simp [Call.step, Phase.work, parseWork]
    | cons i st =>
      obtain ⟨h1, h2⟩ := h _ rfl
      simp only [Call.step]
      cases hs : Parse.step P ⟨i :: st, s, out⟩ with
      | none => simp [Phase.work, parseWork]
      | some p' => exact parse_work h1 hs h2

theorem runesAux_length : ∀ (n : Nat) (b : Bytes), (runesAux n b).length ≤ b.length
  | n, [] => by cases n <;> simp [runesAux]
  | 0, b :: rest => by have := runesAux_length (decodeRune b rest).2 rest; simp [runesAux]; omega
  | n + 1, _ :: rest => by have := runesAux_length n rest; simp [runesAux]; omega

theorem tokens_length (input : Bytes) : (tokens input).length ≤ input.length :=
  Nat.le_trans (List.length_filter_le _ _) (runesAux_length 0 input)

theorem Call.start_work (fn : Fn) (input : Bytes) : (Call.start fn input).phase.work ≤ 546 * (input.length + 1) := by
  simp only [Call.start]
  split
  · simp [Phase.work]
  · have h1 := tokens_length input
    have h2 := (fn_fits fn).le
    have h3 : stackCost [.sym fn.rule] ≤ 139 := by cases fn <;> decide +kernel
    simp only [Phase.work, parseWork, callbacks, openRules, List.map_cons, List.map_nil, eventsList, List.sum_cons, List.sum_nil, List.length_nil]
    omega

theorem Execution.steps_next (x : Execution) (k j : Nat) : x.steps k (j + 1) = x.steps k j + 1 ∧ x.action j = .step k ∨
    x.steps k (j + 1) = x.steps k j ∧ x.action j ≠ .step k := by
  rw [Execution.steps]
  cases x.action j with
  | step k' =>
    by_cases h : k' = k
    · subst h; left; simp
    · right; simp [h]
  | _ => right; simp

theorem Execution.steps_none (x : Execution) {k : Nat} : ∀ {j}, (x.state j).calls[k]? = none → x.steps k j = 0 := by
  intro j
  induction j with
  | zero => exact fun _ => rfl
  | succ j ih =>
    intro h
    have h0 : (x.state j).calls[k]? = none := by
      cases hc : (x.state j).calls[k]? with
      | none => rfl
      | some c => rcases x.next hc with ⟨_, _, h'⟩ | ⟨_, h'⟩ <;> rw [h] at h' <;> cases h'
    rcases x.steps_next k j with ⟨_, h2⟩ | ⟨h1, _⟩
    · have ha := x.acts j
      rw [h2] at ha
      clear h ih
      generalize x.state (j + 1) = s' at ha
      cases ha with
      | step _ h3 _ => rw [h0] at h3; cases h3
    · rw [h1, ih h0]

/-- A call that is there now was there before or has just been made. -/
theorem Execution.before (x : Execution) {k j c} (h : (x.state (j + 1)).calls[k]? = some c) :
    (∃ c', (x.state j).calls[k]? = some c' ∧ (x.action j = .step k ∧ c'.phase.isDone = false ∧ c = c'.step (x.state j).predictor (x.state j).env ∨
      x.action j ≠ .step k ∧ c = c')) ∨
    (x.state j).calls[k]? = none ∧ x.action j ≠ .step k ∧ ∃ fn input, c = Call.start fn input := by
  cases hc : (x.state j).calls[k]? with
  | some c' =>
    refine .inl ⟨c', rfl, ?_⟩
    rcases x.next hc with ⟨h1, h2, h3⟩ | ⟨h1, h3⟩
    · rw [h] at h3; cases h3; exact .inl ⟨h1, h2, rfl⟩
    · rw [h] at h3; cases h3; exact .inr ⟨h1, rfl⟩
  | none =>
    refine .inr ⟨rfl, ?_⟩
    have ha := x.acts j
    generalize x.action j = a at ha
    generalize x.state (j + 1) = s' at ha h
    cases ha with
    | @call fn input =>
      refine ⟨by simp, fn, input, ?_⟩
      dsimp only at h
      rw [List.getElem?_append_right (by simpa using hc)] at h
      generalize k - (x.state j).calls.length = d at h
      cases d with
      | zero => simpa using h.symm
      | succ d => simp at h
    | environment => rw [hc] at h; cases h
    | @step k' c' _ h1 _ =>
      by_cases hk : k' = k
      · subst hk; rw [hc] at h1; cases h1
      · dsimp only at h
        rw [List.getElem?_set, if_neg hk, hc] at h; cases h

theorem Execution.work (x : Execution) {k : Nat} : ∀ {j c}, (x.state j).calls[k]? = some c →
    c.Small ∧ x.steps k j + c.phase.work ≤ 546 * (c.input.length + 1) := by
  intro j
  induction j with
  | zero => intro c h; rw [x.start] at h; simp at h
  | succ j ih =>
    intro c h
    rcases x.before h with ⟨c', h', ⟨h1, h2, rfl⟩ | ⟨h1, rfl⟩⟩ | ⟨h0, h1, fn, input, rfl⟩
    · obtain ⟨h3, h4⟩ := ih h'
      refine ⟨h3.step, ?_⟩
      rw [(Call.step_same _ _ c').2]
      have := h3.step_work h2 (P := (x.state j).predictor) (env := (x.state j).env)
      rcases x.steps_next k j with ⟨h5, _⟩ | ⟨_, h5⟩
      · omega
      · exact absurd h1 h5
    · rcases x.steps_next k j with ⟨_, h5⟩ | ⟨h5, _⟩
      · exact absurd h5 h1
      · rw [h5]; exact ih h'
    · refine ⟨Call.small_start fn input, ?_⟩
      rcases x.steps_next k j with ⟨_, h5⟩ | ⟨h5, _⟩
      · exact absurd h5 h1
      · rw [h5, x.steps_none h0]
        have := Call.start_work fn input
        have e : (Call.start fn input).input = input := rfl
        rw [e]; omega

end Rfc5322
