import Verif.Proofs.Schedule

/-!
# The values of the encoded words do not influence the course of the walk; constructing executions
-/

namespace Rfc5322

open Spec

/-- Number of addresses collected in a struct. -/
def Node.count : Node → Nat
  | .address l | .addressList l | .group l | .groupList l | .mailboxList l | .obsMboxList l => l.length
  | _ => 0

/-- How many addresses a parent has after a child has been delivered. -/
def deliverCount (child : Rule) (n : Nat) (parent : Rule) (m : Nat) : Nat :=
  match child, parent with
  | .address, .addressList | .group, .address | .groupList, .group | .mailboxList, .groupList | .obsMboxList, .mailboxList => m + n
  | .mailbox, .address | .mailbox, .mailboxList | .mailbox, .obsMboxList => m + 1
  | _, _ => m

theorem displayWithWord_kind (v u w) : (displayWithWord v u w).kind = .displayName ∧ (displayWithWord v u w).count = 0 := by
  unfold displayWithWord
  split
  · exact ⟨rfl, rfl⟩
  · split <;> exact ⟨rfl, rfl⟩

theorem deliver_shape (n p : Node) : (deliver n p).kind = p.kind ∧ (deliver n p).count = deliverCount n.kind n.count p.kind p.count := by
  cases n <;> cases p <;> first
    | exact ⟨rfl, rfl⟩
    | exact displayWithWord_kind _ _ _
    | exact ⟨rfl, by simp [deliver, Node.count, deliverCount, Node.kind]⟩

/-- What the course of the walk depends on. -/
def Node.shape (n : Node) : Rule × Nat := (n.kind, n.count)

def resShape : Option Res → Option (Option Nat)
  | none => none
  | some (.addrs l) => some (some l.length)
  | some (.time _) => some none

structure Walker.Sim (w w' : Walker) : Prop where
  nodes : w.nodes.map Node.shape = w'.nodes.map Node.shape
  res : resShape w.res = resShape w'.res
  err : w.err = w'.err

theorem Walker.Sim.refl (w : Walker) : Walker.Sim w w := ⟨rfl, rfl, rfl⟩

theorem Walker.Sim.enter {w w' : Walker} (h : w.Sim w') {n n' : Node} (hn : n.shape = n'.shape) : (w.enter n).Sim (w'.enter n') :=
  ⟨by simp [Walker.enter, h.1, hn], h.2, h.3⟩

theorem Walker.Sim.setErrIf {w w' : Walker} (h : w.Sim w') (e : Option Err) : (w.setErrIf e).Sim (w'.setErrIf e) := by
  cases e with
  | none => exact h
  | some e => exact ⟨h.1, h.2, rfl⟩

/-- Both fail with the same panic, or both go on. -/
def SimR : Except Panic Walker → Except Panic Walker → Prop
  | .error p, .error p' => p = p'
  | .ok w, .ok w' => w.Sim w'
  | _, _ => False

theorem enterRule_sim (env : Env) (r : Rule) (ts : List Tree) {w w' : Walker} (h : w.Sim w') : SimR (enterRule env r ts w) (enterRule env r ts w') := by
  have hm : SimR (.ok (enterMonth ts w)) (.ok (enterMonth ts w')) := by
    unfold enterMonth
    cases monthOf (textList ts) with
    | some m => exact h.enter rfl
    | none => exact (h.setErrIf (some .noSuchMonth)).enter rfl
  have hz : SimR (.ok (enterObsZone ts w)) (.ok (enterObsZone ts w')) := by
    unfold enterObsZone
    dsimp only
    cases obsZoneOffset (textList ts) with
    | some m => exact h.enter rfl
    | none => exact (h.setErrIf (some .badTimezone)).enter rfl
  have ho : SimR (enterOffset ts w) (enterOffset ts w') := by
    unfold enterOffset
    dsimp only
    split
    · exact (h.setErrIf _).enter rfl
    · rfl
  have he : SimR (.ok (enterEncodedWord env ts w)) (.ok (enterEncodedWord env ts w')) := by
    unfold enterEncodedWord
    cases env.decode (textList ts) <;> exact h.enter rfl
  have hy : SimR (.ok (enterYear env ts w)) (.ok (enterYear env ts w')) := (h.setErrIf _).enter rfl
  have hn : ∀ mk : Int → Node, SimR (.ok (enterNumber mk ts w)) (.ok (enterNumber mk ts w')) := fun mk => (h.setErrIf _).enter rfl
  cases r <;> first | exact hm | exact hz | exact ho | exact he | exact hy | exact hn _ | exact h.enter rfl | exact h

theorem exitNode_sim (r : Rule) {w w' : Walker} (h : w.Sim w') : SimR (exitNode r w) (exitNode r w') := by
  obtain ⟨ns, res, err⟩ := w
  obtain ⟨ns', res', err'⟩ := w'
  obtain ⟨h1, h2, h3⟩ := h
  dsimp only at h1 h2 h3
  unfold exitNode
  dsimp only
  cases ns with
  | nil => cases ns' with
    | nil => rfl
    | cons => simp at h1
  | cons n ns => cases ns' with
    | nil => simp at h1
    | cons n' ns' =>
      simp only [List.map_cons, List.cons.injEq] at h1
      obtain ⟨hn, h1⟩ := h1
      have hk : n.kind = n'.kind := congrArg Prod.fst hn
      have hc : n.count = n'.count := congrArg Prod.snd hn
      dsimp only
      rw [hk]
      split
      · cases ns with
        | nil => cases ns' with
          | nil => rfl
          | cons => simp at h1
        | cons p ns => cases ns' with
          | nil => simp at h1
          | cons p' ns' =>
            simp only [List.map_cons, List.cons.injEq] at h1
            obtain ⟨hp, h1⟩ := h1
            have hpk : p.kind = p'.kind := congrArg Prod.fst hp
            have hpc : p.count = p'.count := congrArg Prod.snd hp
            refine ⟨?_, h2, h3⟩
            simp only [List.map_cons, h1, List.cons.injEq, and_true, Node.shape]
            rw [(deliver_shape n p).1, (deliver_shape n p).2, (deliver_shape n' p').1, (deliver_shape n' p').2, hk, hc, hpk, hpc]
      · rfl

theorem exitRule_sim (r : Rule) {w w' : Walker} (h : w.Sim w') : SimR (exitRule r w) (exitRule r w') := by
  have ha : SimR (exitAddressList w) (exitAddressList w') := by
    obtain ⟨ns, res, err⟩ := w
    obtain ⟨ns', res', err'⟩ := w'
    obtain ⟨h1, h2, h3⟩ := h
    dsimp only at h1 h2 h3
    cases ns with
    | nil => cases ns' with
      | nil => rfl
      | cons => simp at h1
    | cons n ns => cases ns' with
      | nil => simp at h1
      | cons n' ns' =>
        simp only [List.map_cons, List.cons.injEq] at h1
        obtain ⟨hn, h1⟩ := h1
        have hk : n.kind = n'.kind := congrArg Prod.fst hn
        have hc : n.count = n'.count := congrArg Prod.snd hn
        by_cases e : n.kind = .addressList
        · cases n <;> first | cases e; done | skip
          have e' := hk.symm
          cases n' <;> first | cases e'; done | skip
          exact ⟨h1, by simpa [resShape, Node.count] using hc, h3⟩
        · have e' : n'.kind ≠ .addressList := hk ▸ e
          have g : ∀ (n : Node) ns res err, n.kind ≠ .addressList → exitAddressList ⟨n :: ns, res, err⟩ = .error .typeAssertion := by
            intro n ns res err h
            cases n <;> first | rfl | exact absurd rfl h
          rw [g _ _ _ _ e, g _ _ _ _ e']; rfl
  have hd : SimR (exitDateTime w) (exitDateTime w') := by
    obtain ⟨ns, res, err⟩ := w
    obtain ⟨ns', res', err'⟩ := w'
    obtain ⟨h1, h2, h3⟩ := h
    dsimp only at h1 h2 h3
    cases ns with
    | nil => cases ns' with
      | nil => rfl
      | cons => simp at h1
    | cons n ns => cases ns' with
      | nil => simp at h1
      | cons n' ns' =>
        simp only [List.map_cons, List.cons.injEq] at h1
        obtain ⟨hn, h1⟩ := h1
        have hk : n.kind = n'.kind := congrArg Prod.fst hn
        by_cases e : n.kind = .dateTime
        · cases n <;> first | cases e; done | skip
          have e' := hk.symm
          cases n' <;> first | cases e'; done | skip
          exact ⟨h1, rfl, h3⟩
        · have e' : n'.kind ≠ .dateTime := hk ▸ e
          have g : ∀ (n : Node) ns res err, n.kind ≠ .dateTime → exitDateTime ⟨n :: ns, res, err⟩ = .error .typeAssertion := by
            intro n ns res err h
            cases n <;> first | rfl | exact absurd rfl h
          rw [g _ _ _ _ e, g _ _ _ _ e']; rfl
  cases r <;> first | exact ha | exact hd | exact h | exact exitNode_sim _ h

theorem runVals_sim : ∀ (es : List Ev) (vs vs' : List Bytes) {w w' : Walker}, vs.length = vs'.length → w.Sim w' →
    SimR (runVals es vs w) (runVals es vs' w')
  | [], _, _, _, _, _, h => h
  | e :: es, vs, vs', w, w', hl, h => by
    have rest : ∀ vs vs', vs.length = vs'.length → SimR (match e.apply env0 w with
        | .error p => .error p
        | .ok w₁ => runVals es vs w₁) (match e.apply env0 w' with
        | .error p => .error p
        | .ok w₁ => runVals es vs' w₁) := by
      intro vs vs' hl
      have : SimR (e.apply env0 w) (e.apply env0 w') := by
        cases e with
        | enter r ts => exact enterRule_sim _ _ _ h
        | exit r => exact exitRule_sim _ h
      cases h1 : e.apply env0 w with
      | error p => cases h2 : e.apply env0 w' with
        | error p' => rw [h1, h2] at this; exact this
        | ok => rw [h1, h2] at this; cases this
      | ok w₁ => cases h2 : e.apply env0 w' with
        | error p' => rw [h1, h2] at this; cases this
        | ok w₂ => rw [h1, h2] at this; exact runVals_sim es vs vs' hl this
    simp only [runVals]
    cases e.word with
    | none => exact rest vs vs' hl
    | some t =>
      cases vs with
      | nil => cases vs' with
        | nil => exact rest [] [] rfl
        | cons => simp at hl
      | cons v vs => cases vs' with
        | nil => simp at hl
        | cons v' vs' => exact runVals_sim es vs vs' (by simpa using hl) (h.enter rfl)

/-! ## Executions exist -/

/-- A finite sequence of actions, in environments satisfying `E`. -/
inductive Path (E : Env → Prop) : Program → Program → Prop where
  | refl {s} : E s.env → Path E s s
  | step {s a s' s''} : E s.env → s.Acts a s' → Path E s' s'' → Path E s s''

theorem Path.trans {E s s' s''} (h : Path E s s') (h' : Path E s' s'') : Path E s s'' := by
  induction h with
  | refl => exact h'
  | step he ha _ ih => exact .step he ha (ih h')

theorem Path.execution {E s s'} (h : Path E s s') (hs : s.calls = []) :
    ∃ (x : Execution) (n : Nat), x.state n = s' ∧ ∀ t, E (x.state t).env := by
  suffices ∃ (st : Nat → Program) (act : Nat → Action) (n : Nat), st 0 = s ∧ st n = s' ∧ (∀ i, (st i).Acts (act i) (st (i + 1))) ∧
      ∀ t, E (st t).env by
    obtain ⟨st, act, n, h0, hn, ha, hE⟩ := this
    exact ⟨⟨st, act, by rw [h0, hs], ha⟩, n, hn, hE⟩
  clear hs
  induction h with
  | @refl s he => exact ⟨fun _ => s, fun _ => .environment s.env, 0, rfl, rfl, fun _ => .environment, fun _ => he⟩
  | @step s a s₁ s₂ he ha _ ih =>
    obtain ⟨st, act, n, h0, hn, ha', hE⟩ := ih
    refine ⟨fun | 0 => s | i + 1 => st i, fun | 0 => a | i + 1 => act i, n + 1, rfl, hn, ?_, ?_⟩
    · intro i
      cases i with
      | zero => rw [← h0] at ha; exact ha
      | succ i => exact ha' i
    · intro t
      cases t with
      | zero => exact he
      | succ t => exact hE t

theorem path_parse (E : Env → Prop) (env : Env) (P : Predictor) (fn : Fn) (input : Bytes) (he : E env) (ts : List Tree) :
    ∀ (m : Nat × Nat × Nat) (p : Parse), (Phase.parsing p).cost = m → Best p.stack p.toks p.out ts → (∀ g ∈ pending p.stack, g.wf = true) →
      Path E ⟨env, P, [⟨fn, input, .parsing p⟩]⟩ ⟨env, P, [⟨fn, input, .walking (eventsList ts) Walker.init⟩]⟩ := by
  intro m
  induction m using costLt_wf.induction with
  | h m ih =>
    intro p hm hb hw
    have hstep : Program.Acts ⟨env, P, [⟨fn, input, .parsing p⟩]⟩ (.step 0) ⟨env, P, [Call.step P env ⟨fn, input, .parsing p⟩]⟩ :=
      .step (s := ⟨env, P, [⟨fn, input, .parsing p⟩]⟩) (k := 0) P rfl rfl
    obtain ⟨st, s, out⟩ := p
    cases st with
    | nil =>
      cases hb
      exact .step he hstep (.refl he)
    | cons i st =>
      obtain ⟨p', h1, h2⟩ := hb.step P (by simp)
      have e : Call.step P env ⟨fn, input, .parsing ⟨i :: st, s, out⟩⟩ = ⟨fn, input, .parsing p'⟩ := by
        simp only [Call.step]; rw [h1]
      have hlt := Call.step_cost (P := P) (env := env) (c := ⟨fn, input, .parsing ⟨i :: st, s, out⟩⟩) rfl
        (fun p hp => by cases hp; exact hw)
      rw [e] at hstep hlt
      exact .step he hstep (ih _ (hm ▸ hlt) p' rfl h2 (Parse.step_wf h1 hw))

theorem path_walk (E : Env → Prop) (P : Predictor) (fn : Fn) (input : Bytes) : ∀ (es : List Ev) (l : List Env) (env : Env) (w : Walker),
    (∀ e ∈ es, e.isYear = false) → l.length = (wordsOf es).length → E env → (∀ e ∈ l, E e) →
    ∃ env', Path E ⟨env, P, [⟨fn, input, .walking es w⟩]⟩ ⟨env', P, [⟨fn, input, .done
      (match runVals es (List.zipWith (fun v (e : Env) => (e.decode v).getD v) (wordsOf es) l) w with
        | .error p => fn.panic p
        | .ok w' => fn.finish w')⟩]⟩
  | [], l, env, w, _, _, he, _ => by
    have hstep : Program.Acts ⟨env, P, [⟨fn, input, .walking [] w⟩]⟩ (.step 0) ⟨env, P, [⟨fn, input, .done (fn.finish w)⟩]⟩ :=
      .step (s := ⟨env, P, [⟨fn, input, .walking [] w⟩]⟩) (k := 0) P rfl rfl
    exact ⟨env, .step he hstep (.refl he)⟩
  | e :: es, l, env, w, hy, hl, he, hE => by
    have hstep : ∀ env, Program.Acts ⟨env, P, [⟨fn, input, .walking (e :: es) w⟩]⟩ (.step 0)
        ⟨env, P, [Call.step P env ⟨fn, input, .walking (e :: es) w⟩]⟩ := fun env =>
      .step (s := ⟨env, P, [⟨fn, input, .walking (e :: es) w⟩]⟩) (k := 0) P rfl rfl
    cases hw : e.word with
    | none =>
      have hws : wordsOf (e :: es) = wordsOf es := by simp [wordsOf, hw]
      rw [hws] at hl ⊢
      simp only [runVals, hw]
      have hi := Ev.apply_indep (env := env) (env' := env0) (w := w) hw (hy e (by simp))
      have hstep := hstep env
      simp only [Call.step] at hstep
      rw [hi] at hstep
      cases ha : e.apply env0 w with
      | error p =>
        rw [ha] at hstep
        exact ⟨env, .step he hstep (.refl he)⟩
      | ok w' =>
        rw [ha] at hstep
        obtain ⟨env', h⟩ := path_walk E P fn input es l env w' (fun e h => hy e (by simp [h])) hl he hE
        exact ⟨env', .step he hstep h⟩
    | some t =>
      have hws : wordsOf (e :: es) = t :: wordsOf es := by simp [wordsOf, hw]
      rw [hws] at hl ⊢
      cases l with
      | nil => simp at hl
      | cons e1 l =>
        have h1 : E e1 := hE e1 (by simp)
        have hset : Program.Acts ⟨env, P, [⟨fn, input, .walking (e :: es) w⟩]⟩ (.environment e1) ⟨e1, P, [⟨fn, input, .walking (e :: es) w⟩]⟩ :=
          .environment (s := ⟨env, P, [⟨fn, input, .walking (e :: es) w⟩]⟩)
        have hstep := hstep e1
        simp only [Call.step] at hstep
        rw [Ev.apply_word hw] at hstep
        obtain ⟨env', h⟩ := path_walk E P fn input es l e1 _ (fun e h => hy e (by simp [h])) (by simpa using hl) h1 (fun e h => hE e (by simp [h]))
        simp only [List.zipWith_cons_cons, runVals, hw]
        exact ⟨env', .step he hset (.step h1 hstep h)⟩

end Rfc5322
