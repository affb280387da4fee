import Verif.Proofs.Work
import Verif.Proofs.Utf8

/-!
# The depth of the recursion of a call
-/

namespace Rfc5322

/-! ## While parsing -/

/-- How many rules are open inside each other while the expression is matched, comments not counted. -/
def G.height : G → Nat
  | .eps | .eof | .t _ | .comment => 0
  | .seq a b | .alt a b => max a.height b.height
  | .star a => a.height
  | .rule _ a => a.height + 1

/-- Only `.comment` enters the rule `comment`. -/
def G.proper : G → Bool
  | .eps | .eof | .t _ | .comment => true
  | .seq a b | .alt a b => a.proper && b.proper
  | .star a => a.proper
  | .rule r a => r ≠ .comment && a.proper

/-- Comments that are open. -/
def openComments : List Item → Nat
  | [] => 0
  | .sym _ :: st => openComments st
  | .close r :: st => openComments st + (if r = .comment then 1 else 0)

/-- Only comments make the stack deep. -/
inductive Low : List Item → Prop where
  | nil : Low []
  | close {r st} : Low st → openRules (.close r :: st) ≤ 22 + 6 * openComments (.close r :: st) → Low (.close r :: st)
  | sym {g st} : Low st → g.proper = true → openRules st + g.height ≤ 22 + 6 * openComments st → Low (.sym g :: st)

theorem Low.le {st} (h : Low st) : openRules st ≤ 22 + 6 * openComments st := by
  cases h with
  | nil => simp [openRules]
  | close _ h => exact h
  | sym _ _ h => simp only [openRules, openComments]; omega

theorem commentBody_proper : Gr.commentBody.proper = true := by decide +kernel

theorem commentBody_height : Gr.commentBody.height = 5 := by decide +kernel

theorem Low.step {P : Predictor} {p p' : Parse} (h : Low p.stack) (hs : p.step P = some p') : Low p'.stack := by
  obtain ⟨st, s, out⟩ := p
  cases h with
  | nil => simp [Parse.step] at hs
  | close h _ =>
    cases out with
    | nil => simp [Parse.step] at hs
    | cons o os => simp [Parse.step] at hs; subst hs; exact h
  | @sym g st h h0 h1 =>
    cases g with
    | eps => simp [Parse.step] at hs; subst hs; exact h
    | eof => cases s with
      | nil => simp [Parse.step] at hs; subst hs; exact h
      | cons => simp [Parse.step] at hs
    | t k => cases s with
      | nil => simp [Parse.step] at hs
      | cons c s =>
        simp only [Parse.step] at hs
        split at hs
        · cases hs; exact h
        · cases hs
    | seq a b =>
      simp [Parse.step] at hs; subst hs
      simp only [G.height] at h1
      simp only [G.proper, Bool.and_eq_true] at h0
      exact .sym (.sym h h0.2 (by omega)) h0.1 (by simp only [openRules, openComments]; omega)
    | alt a b =>
      simp only [Parse.step] at hs
      simp only [G.height] at h1
      simp only [G.proper, Bool.and_eq_true] at h0
      split at hs <;> cases hs
      · exact .sym h h0.1 (by omega)
      · exact .sym h h0.2 (by omega)
    | star a =>
      simp only [Parse.step] at hs
      split at hs <;> cases hs
      · exact .sym (.sym h h0 h1) h0 h1
      · exact h
    | rule r a =>
      simp [Parse.step] at hs; subst hs
      simp only [G.height] at h1
      simp only [G.proper, Bool.and_eq_true] at h0
      exact .sym (.close h (by simp only [openRules, openComments]; omega)) h0.2 (by simp only [openRules, openComments]; omega)
    | comment =>
      simp [Parse.step] at hs; subst hs
      simp only [G.height] at h1
      exact .sym (.close h (by simp [openRules, openComments]; omega)) commentBody_proper (by rw [commentBody_height]; simp [openRules, openComments]; omega)

/-- The next thing to do is to consume the parenthesis that opens the comment entered last. -/
def opening : List Item → Prop
  | .sym g :: _ => g = Gr.commentBody ∨ g = .t .LParens
  | _ => False

/-- Every open comment has consumed a parenthesis, except perhaps the last one. -/
def Paid (n : Nat) (p : Parse) : Prop :=
  openComments p.stack + p.toks.count '(' ≤ n ∨ openComments p.stack + p.toks.count '(' ≤ n + 1 ∧ opening p.stack

theorem lparens_only {c : Char} (h : Tok.LParens.matches c = true) : c = '(' := by
  simp [Tok.matches, Tok.ranges] at h
  have : c.toNat = 40 := by omega
  have := Char.ofNat_toNat c
  rw [‹c.toNat = 40›] at this
  exact this.symm

theorem Paid.step {n : Nat} {P : Predictor} {p p' : Parse} (h : Paid n p) (hl : Low p.stack) (hs : p.step P = some p') : Paid n p' := by
  obtain ⟨st, s, out⟩ := p
  cases st with
  | nil => simp [Parse.step] at hs
  | cons i st =>
    cases i with
    | close r =>
      cases out with
      | nil => simp [Parse.step] at hs
      | cons o os =>
        simp [Parse.step] at hs; subst hs
        rcases h with h | ⟨_, h⟩
        · left; simp only [openComments] at h ⊢; omega
        · exact h.elim
    | sym g =>
      cases g with
      | eps =>
        simp [Parse.step] at hs; subst hs
        rcases h with h | ⟨_, h⟩
        · left; simpa only [openComments] using h
        · rcases h with h | h <;> cases h
      | eof => cases s with
        | nil =>
          simp [Parse.step] at hs; subst hs
          rcases h with h | ⟨_, h⟩
          · left; simpa only [openComments] using h
          · rcases h with h | h <;> cases h
        | cons => simp [Parse.step] at hs
      | t k => cases s with
        | nil => simp [Parse.step] at hs
        | cons c s =>
          simp only [Parse.step] at hs
          split at hs
          · rename_i hm
            cases hs
            rcases h with h | ⟨h, h'⟩
            · left; simp only [openComments, List.count_cons] at h ⊢; omega
            · rcases h' with h' | h'
              · cases h'
              · cases h'
                rw [lparens_only hm] at h
                left; simp [openComments] at h ⊢; omega
          · cases hs
      | seq a b =>
        simp [Parse.step] at hs; subst hs
        rcases h with h | ⟨h, h'⟩
        · left; simpa only [openComments] using h
        · right
          refine ⟨by simpa only [openComments] using h, ?_⟩
          rcases h' with h' | h'
          · cases h'; exact .inr rfl
          · cases h'
      | alt a b =>
        simp only [Parse.step] at hs
        rcases h with h | ⟨_, h⟩
        · split at hs <;> cases hs <;> (left; simpa only [openComments] using h)
        · rcases h with h | h <;> cases h
      | star a =>
        simp only [Parse.step] at hs
        rcases h with h | ⟨_, h⟩
        · split at hs <;> cases hs <;> (left; simpa only [openComments] using h)
        · rcases h with h | h <;> cases h
      | rule r a =>
        simp [Parse.step] at hs; subst hs
        rcases h with h | ⟨_, h⟩
        · left
          cases hl with
          | sym _ h0 _ =>
            simp only [G.proper, Bool.and_eq_true, decide_eq_true_eq] at h0
            simpa [openComments, h0.1] using h
        · rcases h with h | h <;> cases h
      | comment =>
        simp [Parse.step] at hs; subst hs
        rcases h with h | ⟨_, h⟩
        · right; refine ⟨?_, .inl rfl⟩; simp [openComments] at h ⊢; omega
        · rcases h with h | h <;> cases h

/-! ## The trees -/

theorem openNodes_append (a b : List Ev) : openNodes (a ++ b) = openNodes a + openNodes b := by
  induction a with
  | nil => simp [openNodes]
  | cons e a ih => cases e <;> simp only [List.cons_append, openNodes, ih] <;> omega

mutual
theorem openNodes_events : (t : Tree) → openNodes (events t) = 0
  | .tok _ => by simp [events, openNodes]
  | .eof => by simp [events, openNodes]
  | .node r ts => by
    rw [events, openNodes, openNodes_append, openNodes_list ts]
    simp [openNodes]
theorem openNodes_list : (ts : List Tree) → openNodes (eventsList ts) = 0
  | [] => by simp [eventsList, openNodes]
  | t :: ts => by rw [eventsList, openNodes_append, openNodes_events t, openNodes_list ts]; rfl
end

/-- The greatest depth that is ever reached. -/
def peak : List Ev → Int
  | [] => 0
  | e :: es => max (openNodes (e :: es)) (peak es)

theorem le_peak (es : List Ev) : openNodes es ≤ peak es := by
  cases es with
  | nil => simp [openNodes, peak]
  | cons => simp only [peak]; omega

theorem peak_append (a b : List Ev) : peak (a ++ b) ≤ max (peak a + openNodes b) (peak b) := by
  induction a with
  | nil => simp only [List.nil_append]; omega
  | cons e a ih =>
    have := openNodes_append (e :: a) b
    simp only [List.cons_append] at this
    simp only [List.cons_append, peak, this]; omega

theorem peak_nonneg (es : List Ev) : 0 ≤ peak es := by
  induction es with
  | nil => simp [peak]
  | cons e es ih => simp only [peak]; omega

theorem peak_node (r : Rule) (ts : List Tree) : peak (events (.node r ts)) ≤ peak (eventsList ts) + 1 := by
  have h0 := peak_nonneg (eventsList ts)
  have h1 := openNodes_events (.node r ts)
  have h2 := peak_append (eventsList ts) [.exit r]
  rw [events] at h1 ⊢
  simp only [peak, h1]
  simp [peak, openNodes] at h2
  omega

/-- The trees built so far are not deep. -/
def Shallow (M : Int) : List (List Tree) → Prop
  | [] => True
  | o :: os => peak (eventsList o) + os.length ≤ M ∧ Shallow M os

theorem Shallow.add {M : Int} {t : Tree} {out} (h : Shallow M out) (ho : out ≠ []) (ht : peak (events t) + (out.length - 1 : Int) ≤ M) :
    Shallow M (addChild t out) := by
  cases out with
  | nil => exact absurd rfl ho
  | cons o os =>
    refine ⟨?_, h.2⟩
    have h1 := h.1
    have := peak_append (eventsList o) (eventsList [t])
    rw [openNodes_list] at this
    rw [eventsList_append]
    simp [eventsList] at this ht ⊢
    omega

/-- What holds of a parser all the time. -/
structure Parse.Flat (n : Nat) (p : Parse) : Prop where
  low : Low p.stack
  paid : Paid n p
  out : p.out.length = openRules p.stack + 1
  shallow : Shallow (28 + 6 * n) p.out

theorem Parse.Flat.le {n p} (h : Parse.Flat n p) : openRules p.stack ≤ 28 + 6 * n := by
  have := h.low.le
  rcases h.paid with h | ⟨h, _⟩ <;> omega

theorem addChild_length (t : Tree) {out} (h : out ≠ []) : (addChild t out).length = out.length := by
  cases out <;> simp [addChild] at *

theorem Parse.Flat.step {n : Nat} {P : Predictor} {p p' : Parse} (h : p.Flat n) (hs : p.step P = some p') : p'.Flat n := by
  have hl := h.low.step hs
  have hp := h.paid.step h.low hs
  have hb : openRules p'.stack ≤ 28 + 6 * n := by
    have := hl.le
    rcases hp with h | ⟨h, _⟩ <;> omega
  have hb0 := h.le
  suffices hx : p'.out.length = openRules p'.stack + 1 ∧ Shallow (28 + 6 * n) p'.out from ⟨hl, hp, hx.1, hx.2⟩
  have ho := h.out
  have hsh := h.shallow
  clear h hl hp
  obtain ⟨st, s, out⟩ := p
  have hne : out ≠ [] := by rintro rfl; simp at ho
  cases st with
  | nil => simp [Parse.step] at hs
  | cons i st =>
    cases i with
    | close r =>
      match out, ho with
      | [o], ho => simp [openRules] at ho
      | o :: o' :: os, ho =>
        simp [Parse.step] at hs; subst hs
        have := peak_node r o
        have h1 := hsh.1
        refine ⟨by rw [addChild_length _ (by simp)]; simpa [openRules] using ho, hsh.2.add (by simp) ?_⟩
        simp at h1 ⊢; omega
    | sym g =>
      cases g with
      | eps => simp [Parse.step] at hs; subst hs; exact ⟨ho, hsh⟩
      | eof => cases s with
        | nil =>
          simp [Parse.step] at hs; subst hs
          refine ⟨by rwa [addChild_length _ hne], hsh.add hne ?_⟩
          simp [openRules] at ho hb ⊢
          simp [events, peak]; omega
        | cons => simp [Parse.step] at hs
      | t k => cases s with
        | nil => simp [Parse.step] at hs
        | cons c s =>
          simp only [Parse.step] at hs
          split at hs
          · cases hs
            refine ⟨by rwa [addChild_length _ hne], hsh.add hne ?_⟩
            simp [openRules] at ho hb ⊢
            simp [events, peak]; omega
          · cases hs
      | seq a b => simp [Parse.step] at hs; subst hs; exact ⟨ho, hsh⟩
      | alt a b => simp only [Parse.step] at hs; split at hs <;> cases hs <;> exact ⟨ho, hsh⟩
      | star a => simp only [Parse.step] at hs; split at hs <;> cases hs <;> exact ⟨ho, hsh⟩
      | rule r a =>
        simp [Parse.step] at hs; subst hs
        simp [openRules] at ho hb ⊢
        refine ⟨ho, ?_, hsh⟩
        simp [eventsList, peak]; omega
      | comment =>
        simp [Parse.step] at hs; subst hs
        simp [openRules] at ho hb ⊢
        refine ⟨ho, ?_, hsh⟩
        simp [eventsList, peak]; omega

/-! ## Calls -/

/-- What holds of a call all the time. -/
def Call.Flat (c : Call) : Prop :=
  match c.phase with
  | .parsing p => p.Flat ((tokens c.input).count '(')
  | .walking es _ => peak es ≤ 28 + 6 * (tokens c.input).count '('
  | .done _ => True

theorem Call.flat_start (fn : Fn) (input : Bytes) : (Call.start fn input).Flat := by
  unfold Call.start Call.Flat
  split <;> rename_i h <;> dsimp only at h <;> split at h <;> first | (cases h; done) | trivial | skip
  cases h
  refine ⟨?_, .inl (by simp [openComments]), by simp [openRules], ?_⟩
  · cases fn
    · exact .sym .nil (by decide +kernel) (by decide +kernel)
    · exact .sym .nil (by decide +kernel) (by decide +kernel)
  · simp [Shallow, eventsList, peak]; omega

theorem Call.Flat.step {P env} {c : Call} (h : c.Flat) : (c.step P env).Flat := by
  obtain ⟨fn, input, phase⟩ := c
  cases phase with
  | done => exact h
  | walking es w =>
    cases es with
    | nil => simp [Call.step, Call.Flat]
    | cons e es =>
      simp only [Call.step]
      cases e.apply env w with
      | error => simp [Call.Flat]
      | ok w => simp only [Call.Flat, peak] at h ⊢; omega
  | parsing p =>
    obtain ⟨st, s, out⟩ := p
    cases st with
    | nil =>
      simp only [Call.step]
      split
      · have := h.shallow.1
        simp at this
        simpa [Call.Flat] using this
      · simp [Call.Flat]
    | cons i st =>
      simp only [Call.step]
      cases hs : Parse.step P ⟨i :: st, s, out⟩ with
      | none => simp [Call.Flat]
      | some p' => exact Parse.Flat.step h hs

theorem Call.Flat.depth {c : Call} (h : c.Flat) : c.phase.depth ≤ 28 + 6 * (tokens c.input).count '(' := by
  obtain ⟨fn, input, phase⟩ := c
  cases phase with
  | done => simp only [Phase.depth]; omega
  | walking es w => have := le_peak es; simp only [Call.Flat, Phase.depth] at h ⊢; omega
  | parsing p => have := Parse.Flat.le h; dsimp only [Phase.depth] at this ⊢; omega

theorem Execution.flat (x : Execution) {k : Nat} : ∀ {j c}, (x.state j).calls[k]? = some c → c.Flat := by
  intro j
  induction j with
  | zero => intro c h; rw [x.start] at h; simp at h
  | succ j ih =>
    intro c h
    rcases x.before h with ⟨c', h', ⟨h1, h2, rfl⟩ | ⟨h1, rfl⟩⟩ | ⟨h0, h1, fn, input, rfl⟩
    · exact (ih h').step
    · exact ih h'
    · exact Call.flat_start fn input

/-! ## Parentheses in the input -/

theorem decodeRune_paren {b : UInt8} {rest : Bytes} (h : (decodeRune b rest).1 = '(') : b = 0x28 := by
  rcases decodeRune_cases b rest with hd | hd
  · rw [hd] at h; exact absurd h (by decide)
  · rw [h] at hd
    have e : encodeRune '(' = [0x28] := by decide
    rw [e] at hd
    exact (List.cons.inj hd).1.symm

theorem runesAux_paren : ∀ (n : Nat) (b : Bytes), (runesAux n b).count '(' ≤ b.count 0x28
  | n, [] => by cases n <;> simp [runesAux]
  | 0, b :: rest => by
    have := runesAux_paren (decodeRune b rest).2 rest
    simp only [runesAux, List.count_cons]
    by_cases h : (decodeRune b rest).1 = '('
    · have e := decodeRune_paren h
      simp only [e] at this ⊢; simp; split <;> omega
    · simp [h]; omega
  | n + 1, _ :: rest => by have := runesAux_paren n rest; simp only [runesAux, List.count_cons]; omega

theorem tokens_paren (input : Bytes) : (tokens input).count '(' ≤ input.count 0x28 :=
  Nat.le_trans ((List.filter_sublist).count_le _) (runesAux_paren 0 input)

end Rfc5322
