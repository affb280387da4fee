import Verif.Proofs.RecTerm

/-!
# Functions that recover from errors, and functions that do not
-/

namespace Rfc5322.Recovery

open Atn Gen AllStar

/-! ## Reports are not forgotten -/

/-- Recovery mode is entered with a report. -/
def St.Told (S : St) : Prop := S.mode = true → 0 < S.errors

/-- Nothing is forgotten. -/
structure Keeps (S S' : St) : Prop where
  le : S.errors ≤ S'.errors
  told : S.Told → S'.Told

theorem Keeps.refl (S : St) : Keeps S S := ⟨Nat.le_refl _, id⟩

theorem Keeps.trans {S S' S'' : St} (h : Keeps S S') (h' : Keeps S' S'') : Keeps S S'' := ⟨Nat.le_trans h.le h'.le, fun x => h'.told (h.told x)⟩

theorem report_keeps (S : St) {k : Trouble} {ρ : List Nat} {q : Nat} : Keeps S (S.report k ρ q) := by
  rw [St.report]
  split
  · exact .refl _
  · exact ⟨Nat.le_succ _, fun _ _ => Nat.succ_pos _⟩

theorem report_told {S : St} {k : Trouble} {ρ : List Nat} {q : Nat} (h : S.Told) : 0 < (S.report k ρ q).errors := by
  rw [St.report]
  split
  · rename_i hm; exact h hm
  · exact Nat.succ_pos _

variable {N : Net} {σ : List Nat} {predict : Nat → List Nat → List Char → Option Nat}

theorem recover_errors (st : Nat) (S : St) : (recover N σ st S).errors = S.errors ∧ (recover N σ st S).mode = S.mode := by
  rw [recover]
  split <;> exact ⟨rfl, rfl⟩

theorem recover_keeps (st : Nat) (S : St) : Keeps S (recover N σ st S) := by
  obtain ⟨h1, h2⟩ := recover_errors (N := N) (σ := σ) st S
  exact ⟨by rw [h1]; exact Nat.le_refl _, fun h => by unfold St.Told; rw [h1, h2]; exact h⟩

/-- A deletion is reported. -/
theorem deletion_keeps {st S S'} (h : deletion N σ st S = some S') : Keeps S S' ∧ (S.Told → 0 < S'.errors) := by
  rw [deletion] at h
  split at h
  · cases h
    exact ⟨⟨(report_keeps S).le, fun _ h => by cases h⟩, report_told⟩
  · cases h

/-- Synchronisation either changes nothing, or is reported. -/
theorem sync_keeps {st S S'} (h : sync N σ st S = some S') : Keeps S S' ∧ (S.Told → S' = S ∨ 0 < S'.errors) := by
  rw [sync] at h
  split at h
  · cases h; exact ⟨.refl _, fun _ => .inl rfl⟩
  · split at h
    · obtain ⟨h1, h2⟩ := deletion_keeps h
      exact ⟨h1, fun h => .inr (h2 h)⟩
    · cases h
      exact ⟨⟨(report_keeps S).le, (report_keeps S).told⟩, fun h => .inr (report_told h)⟩
    · cases h; exact ⟨.refl _, fun _ => .inl rfl⟩

/-- The same for results. -/
def KeepsR (S : St) : Result → Prop
  | .timeout => True
  | .panic _ _ S' => Keeps S S'
  | .done _ S' => Keeps S S'

theorem KeepsR.trans {S S1 r} (h : Keeps S S1) (hr : KeepsR S1 r) : KeepsR S r := by
  cases r with
  | timeout => trivial
  | panic k st S' => exact Keeps.trans h hr
  | done ts S' => exact Keeps.trans h hr

theorem KeepsR.andThen {S r} {f : St → Result} (h : KeepsR S r) (hf : ∀ S1, KeepsR S1 (f S1)) : KeepsR S (r.andThen f) := by
  cases r with
  | timeout => trivial
  | panic k st S' => exact h
  | done ts S1 =>
    have h1 := KeepsR.trans h (hf S1)
    rw [Result.andThen]
    cases hr : f S1 with
    | timeout => trivial
    | panic k st S' => rw [hr] at h1; exact h1
    | done us S' => rw [hr] at h1; exact h1

theorem recoverInline_keeps (st : Nat) (S : St) : KeepsR S (recoverInline N σ st S) := by
  rw [recoverInline]
  split
  · rename_i S' h
    obtain ⟨h1, _⟩ := deletion_keeps h
    exact ⟨h1.le, h1.told⟩
  · split
    · exact report_keeps S
    · exact .refl _

theorem matchTok_keeps (st : Nat) (test : Int → Bool) (S : St) : KeepsR S (matchTok N σ st test S) := by
  rw [matchTok]
  split
  · exact recoverInline_keeps _ _
  · split
    · exact ⟨Nat.le_refl _, fun _ h => by cases h⟩
    · exact recoverInline_keeps _ _

theorem matchEof_keeps (st : Nat) (S : St) : KeepsR S (matchEof N σ st S) := by
  rw [matchEof]
  split
  · exact ⟨Nat.le_refl _, fun _ h => by cases h⟩
  · exact recoverInline_keeps _ _

theorem synced_keeps {st S f} (hf : ∀ S1, KeepsR S1 (f S1)) : KeepsR S (synced N σ st S f) := by
  rw [synced]
  split
  · exact Keeps.refl _
  · rename_i S1 h
    exact KeepsR.trans (sync_keeps h).1 (hf S1)

theorem star_keeps {a : Ask} {body : St → Result} (hbody : ∀ S, KeepsR S (body S)) :
    ∀ (n st st' : Nat) (S : St), KeepsR S (star N σ predict st st' a body n S)
  | 0, _, _, _ => by rw [star]; trivial
  | n + 1, st, st', S => by
    rw [star]
    refine synced_keeps fun S1 => ?_
    split
    · exact Keeps.refl _
    · exact Keeps.refl _
    · exact (hbody S1).andThen fun S2 => star_keeps hbody n st' st' S2
    · exact star_keeps hbody n st' st' S1

theorem plus_keeps {a : Ask} {body : St → Result} (hbody : ∀ S, KeepsR S (body S)) : ∀ (n st' : Nat) (S : St), KeepsR S (plus N σ predict st' a body n S)
  | 0, _, _ => by rw [plus]; trivial
  | n + 1, st', S => by
    rw [plus]
    refine (hbody S).andThen fun S1 => synced_keeps fun S2 => ?_
    split
    · exact Keeps.refl _
    · exact Keeps.refl _
    · exact plus_keeps hbody n st' S2
    · exact Keeps.refl _

variable {rec : Rule → List Nat → St → Result} {n : Nat}

mutual
theorem run_keeps (hrec : ∀ R σ S, KeepsR S (rec R σ S)) : ∀ (c : Code) (S : St), KeepsR S (run N σ predict rec n c S)
  | .skip, S => by rw [run]; exact Keeps.refl _
  | .seq a b, S => by rw [run]; exact (run_keeps hrec a S).andThen fun S1 => run_keeps hrec b S1
  | .tok st k, S => by rw [run]; exact matchTok_keeps _ _ _
  | .eof st, S => by rw [run]; exact matchEof_keeps _ _
  | .set st t, S => by rw [run]; exact matchTok_keeps _ _ _
  | .call st r, S => by
    rw [run.eq_def]
    dsimp only
    have h1 := hrec r (st :: σ) S
    cases hr : rec r (st :: σ) S with
    | timeout => trivial
    | panic k st S' => rw [hr] at h1; exact h1
    | done ts S' => rw [hr] at h1; exact h1
  | .switchAlt st d cs, S => by
    rw [run]
    refine synced_keeps fun S1 => ?_
    cases hp : predict d σ S1.rest with
    | none => exact Keeps.refl _
    | some a => exact runAlt_keeps hrec a cs S1
  | .ifLa st t c, S => by
    rw [run]
    refine synced_keeps fun S1 => ?_
    split
    · exact run_keeps hrec c S1
    · exact Keeps.refl _
  | .switchLa st cs, S => by rw [run]; exact synced_keeps fun S1 => runLa_keeps hrec st cs S1
  | .star st st' a c, S => by rw [run]; exact star_keeps (fun S1 => run_keeps hrec c S1) n st st' S
  | .plus st st' a c, S => by rw [run]; exact synced_keeps fun S1 => plus_keeps (fun S2 => run_keeps hrec c S2) n st' S1
theorem runAlt_keeps (hrec : ∀ R σ S, KeepsR S (rec R σ S)) (a : Nat) : ∀ (cs : Cases) (S : St), KeepsR S (runAlt N σ predict rec n a cs S)
  | .nil, S => by rw [runAlt]; exact Keeps.refl _
  | .alt m c cs, S => by
    rw [runAlt]
    split
    · exact run_keeps hrec c S
    · exact runAlt_keeps hrec a cs S
  | .toks _ c cs, S => by rw [runAlt]; exact runAlt_keeps hrec a cs S
theorem runLa_keeps (hrec : ∀ R σ S, KeepsR S (rec R σ S)) (st : Nat) : ∀ (cs : Cases) (S : St), KeepsR S (runLa N σ predict rec n st cs S)
  | .nil, S => by rw [runLa]; exact Keeps.refl _
  | .alt m c cs, S => by rw [runLa]; exact runLa_keeps hrec st cs S
  | .toks ks c cs, S => by
    rw [runLa]
    split
    · exact run_keeps hrec c S
    · exact runLa_keeps hrec st cs S
end

variable {code : Rule → Code}

theorem runRule_keeps : ∀ n R σ S, KeepsR S (runRule N predict code n R σ S)
  | 0, _, _, _ => by rw [runRule]; trivial
  | n + 1, R, σ, S => by
    have h := run_keeps (N := N) (σ := σ) (n := n) (predict := predict) (runRule_keeps n) (code R) S
    rw [runRule]
    split
    · rename_i st S1 h1
      rw [h1] at h
      exact Keeps.trans (Keeps.trans h (report_keeps S1)) (recover_keeps _ _)
    · exact h

/-! ## Up to the first error, both do the same -/

/-- No error so far. -/
structure Clean (S : St) : Prop where
  mode : S.mode = false
  errors : S.errors = 0

theorem Clean.told {S : St} (h : Clean S) : S.Told := fun hm => by rw [h.mode] at hm; cases hm

/-- An error has been reported, or will be. -/
def Failing : Result → Prop
  | .timeout => True
  | .panic _ _ S => S.Told
  | .done _ S => 0 < S.errors ∧ S.Told

/-- The same outcome. -/
def Sim : Outcome → Result → Prop
  | .timeout, _ => True
  | .error, r => Failing r
  | .ok ts s, r => ∃ S, r = .done ts S ∧ S.rest = s ∧ Clean S

theorem failing_of_keeps {S r} (h : KeepsR S r) (h0 : 0 < S.errors) (ht : S.Told) : Failing r := by
  cases r with
  | timeout => trivial
  | panic k st S' => exact h.told ht
  | done ts S' => exact ⟨Nat.lt_of_lt_of_le h0 h.le, h.told ht⟩

theorem Failing.andThen {r} {f : St → Result} (h : Failing r) (hf : ∀ S1, KeepsR S1 (f S1)) : Failing (r.andThen f) := by
  cases r with
  | timeout => trivial
  | panic k st S' => exact h
  | done ts S1 =>
    have h1 := failing_of_keeps (hf S1) h.1 h.2
    rw [Result.andThen]
    cases hr : f S1 with
    | timeout => trivial
    | panic k st S' => rw [hr] at h1; exact h1
    | done us S' => rw [hr] at h1; exact h1

theorem Sim.andThen {o r} {g : List Char → Outcome} {f : St → Result} (h : Sim o r) (hk : ∀ S1, KeepsR S1 (f S1))
    (hf : ∀ S, Clean S → Sim (g S.rest) (f S)) : Sim (o.andThen g) (r.andThen f) := by
  cases o with
  | timeout => trivial
  | error => exact Failing.andThen h hk
  | ok ts s =>
    obtain ⟨S, rfl, rfl, hc⟩ := h
    have h1 := hf S hc
    rw [Outcome.andThen, Result.andThen]
    cases ho : g S.rest with
    | timeout => trivial
    | error =>
      rw [ho] at h1
      cases hr : f S with
      | timeout => trivial
      | panic k st S' => rw [hr] at h1; exact h1
      | done us S' => rw [hr] at h1; exact h1
    | ok us s' =>
      rw [ho] at h1
      obtain ⟨S', h2, h3, h4⟩ := h1
      rw [h2]
      exact ⟨S', rfl, h3, h4⟩

theorem recoverInline_failing {st S} (hc : Clean S) : Failing (recoverInline N σ st S) := by
  rw [recoverInline]
  split
  · rename_i S' h
    obtain ⟨h1, h2⟩ := deletion_keeps h
    exact ⟨h2 hc.told, h1.told hc.told⟩
  · split
    · exact ⟨report_told hc.told, (report_keeps S).told hc.told⟩
    · exact hc.told

theorem matchTok_sim {st test S} (hc : Clean S) : Sim (Gen.consume test S.rest) (matchTok N σ st test S) := by
  rw [matchTok]
  split
  · rename_i h
    rw [h, Gen.consume]
    exact recoverInline_failing hc
  · rename_i c s h
    rw [h, Gen.consume]
    split
    · refine ⟨_, rfl, ?_, rfl, hc.errors⟩
      show S.rest.tail = s
      rw [h]; rfl
    · exact recoverInline_failing hc

theorem kind_watched (N : Net) (st : Nat) : (kind N st = .other ∧ watched N st = false) ∨ (kind N st ≠ .other ∧ watched N st = true) := by
  unfold kind watched
  cases h : N.states[st]? with
  | none => exact .inl ⟨rfl, rfl⟩
  | some o =>
    cases o with
    | none => exact .inl ⟨rfl, rfl⟩
    | some x =>
      obtain ⟨ty, r⟩ := x
      dsimp only
      by_cases h1 : [3, 4, 5, 10].contains ty = true
      · right
        rw [if_pos h1]
        simp at h1
        constructor
        · simp
        · simp
          omega
      · rw [if_neg h1]
        by_cases h2 : [9, 11].contains ty = true
        · right
          rw [if_pos h2]
          simp at h2
          constructor
          · simp
          · simp
            omega
        · left
          rw [if_neg h2]
          simp at h1 h2
          refine ⟨rfl, ?_⟩
          simp
          omega

theorem synced_sim {T : Runtime N} (hT : ∀ st σ s, T.sync st σ s = AllStar.sync N st s) {st S o f} (hc : Clean S) (hk : ∀ S1, KeepsR S1 (f S1))
    (h : Sim o (f S)) : Sim (Gen.synced T σ st S.rest o) (synced N σ st S f) := by
  rw [Gen.synced, hT]
  by_cases hs : AllStar.sync N st S.rest = true
  · rw [if_pos hs]
    have h1 : sync N σ st S = some S := by
      rw [sync]
      split
      · rfl
      · rename_i hn
        rcases kind_watched N st with ⟨h2, h3⟩ | ⟨h2, h3⟩
        · rw [h2]
        · rw [AllStar.sync, h3] at hs
          simp at hs
          exact absurd (.inr hs) hn
    rw [synced, h1]
    exact h
  · rw [if_neg hs]
    show Failing _
    rw [synced]
    cases h1 : sync N σ st S with
    | none => exact hc.told
    | some S' =>
      obtain ⟨h2, h3⟩ := sync_keeps h1
      rcases h3 hc.told with h4 | h4
      · exfalso
        apply hs
        rw [AllStar.sync]
        rcases kind_watched N st with ⟨h5, h6⟩ | ⟨h5, h6⟩
        · rw [h6]; rfl
        · rw [sync] at h1
          split at h1
          · rename_i h7
            rcases h7 with h7 | h7
            · rw [hc.mode] at h7; cases h7
            · simp [h7]
          · split at h1
            · have := (deletion_keeps h1).2 hc.told
              rw [h4, hc.errors] at this
              exact absurd this (Nat.lt_irrefl _)
            · cases h1
              have := report_told (k := .unwanted) (ρ := σ) (q := st) hc.told
              have e : (S.report .unwanted σ st).errors = 0 := by
                have := congrArg St.errors h4
                rw [hc.errors] at this
                exact this
              omega
            · rename_i h8
              exact absurd h8 h5
      · exact failing_of_keeps (hk S') h4 (h2.told hc.told)

section
variable {T : Runtime N}

theorem choose_eq (a : Ask) (s : List Char) : choose σ T.predict a s = a.choose T σ s := by
  cases a <;> rfl

theorem star_sim (hT : ∀ st σ s, T.sync st σ s = AllStar.sync N st s) {a : Ask} {body : St → Result} {body' : List Char → Outcome} (hk : ∀ S, KeepsR S (body S))
    (hb : ∀ S, Clean S → Sim (body' S.rest) (body S)) :
    ∀ (n st st' : Nat) (S : St), Clean S → Sim (Gen.star T σ st st' a body' n S.rest) (star N σ T.predict st st' a body n S)
  | 0, _, _, _, _ => by rw [Gen.star]; trivial
  | n + 1, st, st', S, hc => by
    rw [star, Gen.star]
    have hk' : ∀ S : St, KeepsR S (match choose σ T.predict a S.rest with
        | .panic => Result.panic .noViable st S
        | .leave => .done [] S
        | .enter => (body S).andThen (star N σ T.predict st' st' a body n)
        | .other => star N σ T.predict st' st' a body n S) := by
      intro S1
      split
      · exact Keeps.refl _
      · exact Keeps.refl _
      · exact (hk S1).andThen fun S2 => star_keeps hk n st' st' S2
      · exact star_keeps hk n st' st' S1
    refine synced_sim hT hc hk' ?_
    rw [choose_eq]
    cases a.choose T σ S.rest with
    | panic => exact hc.told
    | leave => exact ⟨S, rfl, rfl, hc⟩
    | enter => exact (hb S hc).andThen (fun S1 => star_keeps hk n st' st' S1) fun S1 h1 => star_sim hT hk hb n st' st' S1 h1
    | other => exact star_sim hT hk hb n st' st' S hc

theorem plus_sim (hT : ∀ st σ s, T.sync st σ s = AllStar.sync N st s) {a : Ask} {body : St → Result} {body' : List Char → Outcome} (hk : ∀ S, KeepsR S (body S))
    (hb : ∀ S, Clean S → Sim (body' S.rest) (body S)) :
    ∀ (n st' : Nat) (S : St), Clean S → Sim (Gen.plus T σ st' a body' n S.rest) (plus N σ T.predict st' a body n S)
  | 0, _, _, _ => by rw [Gen.plus]; trivial
  | n + 1, st', S, hc => by
    rw [plus, Gen.plus]
    have hk' : ∀ S : St, KeepsR S (match choose σ T.predict a S.rest with
        | .panic => Result.panic .noViable st' S
        | .leave => .done [] S
        | .enter => plus N σ T.predict st' a body n S
        | .other => .panic .noViable st' S) := by
      intro S1
      split
      · exact Keeps.refl _
      · exact Keeps.refl _
      · exact plus_keeps hk n st' S1
      · exact Keeps.refl _
    refine (hb S hc).andThen (fun S1 => synced_keeps hk') fun S1 h1 => synced_sim hT h1 hk' ?_
    rw [choose_eq]
    cases a.choose T σ S1.rest with
    | panic => exact h1.told
    | leave => exact ⟨S1, rfl, rfl, h1⟩
    | enter => exact plus_sim hT hk hb n st' S1 h1
    | other => exact h1.told

variable {rec' : Rule → List Nat → List Char → Outcome}

mutual
theorem run_sim (hT : ∀ st σ s, T.sync st σ s = AllStar.sync N st s) (hk : ∀ R σ S, KeepsR S (rec R σ S))
    (hrec : ∀ R σ S, Clean S → Sim (rec' R σ S.rest) (rec R σ S)) :
    ∀ (c : Code) (S : St), Clean S → Sim (Gen.run T σ rec' n c S.rest) (run N σ T.predict rec n c S)
  | .skip, S, hc => by rw [run, Gen.run]; exact ⟨S, rfl, rfl, hc⟩
  | .seq a b, S, hc => by
    rw [run, Gen.run]
    exact (run_sim hT hk hrec a S hc).andThen (fun S1 => run_keeps hk b S1) fun S1 h1 => run_sim hT hk hrec b S1 h1
  | .tok st k, S, hc => by rw [run, Gen.run]; exact matchTok_sim hc
  | .eof st, S, hc => by
    rw [run, Gen.run.eq_def, matchEof]
    dsimp only
    cases h : S.rest with
    | nil => exact ⟨_, rfl, h, rfl, hc.errors⟩
    | cons c s => exact recoverInline_failing hc
  | .set st t, S, hc => by rw [run, Gen.run]; exact matchTok_sim hc
  | .call st r, S, hc => by
    rw [run.eq_def, Gen.run.eq_def]
    dsimp only
    have h1 := hrec r (st :: σ) S hc
    cases ho : rec' r (st :: σ) S.rest with
    | timeout => trivial
    | error =>
      rw [ho] at h1
      cases hr : rec r (st :: σ) S with
      | timeout => trivial
      | panic k st S' => rw [hr] at h1; exact h1
      | done ts S' => rw [hr] at h1; exact h1
    | ok ts s =>
      rw [ho] at h1
      obtain ⟨S', h2, h3, h4⟩ := h1
      rw [h2]
      exact ⟨S', rfl, h3, h4⟩
  | .switchAlt st d cs, S, hc => by
    rw [run, Gen.run]
    refine synced_sim hT hc ?_ ?_
    · intro S1
      split
      · exact Keeps.refl _
      · exact runAlt_keeps hk _ cs S1
    · cases hp : T.predict d σ S.rest with
      | none => exact hc.told
      | some a => exact runAlt_sim hT hk hrec a cs S hc
  | .ifLa st t c, S, hc => by
    rw [run, Gen.run]
    refine synced_sim hT hc ?_ ?_
    · intro S1
      split
      · exact run_keeps hk c S1
      · exact Keeps.refl _
    · by_cases h : t.eval (la1 S.rest) = true
      · rw [if_pos h, if_pos h]
        exact run_sim hT hk hrec c S hc
      · rw [if_neg h, if_neg h]
        exact ⟨S, rfl, rfl, hc⟩
  | .switchLa st cs, S, hc => by
    rw [run, Gen.run]
    exact synced_sim hT hc (fun S1 => runLa_keeps hk st cs S1) (runLa_sim hT hk hrec st cs S hc)
  | .star st st' a c, S, hc => by
    rw [run, Gen.run]
    exact star_sim hT (fun S1 => run_keeps hk c S1) (fun S1 h1 => run_sim hT hk hrec c S1 h1) n st st' S hc
  | .plus st st' a c, S, hc => by
    rw [run, Gen.run]
    exact synced_sim hT hc (fun S1 => plus_keeps (fun S2 => run_keeps hk c S2) n st' S1)
      (plus_sim hT (fun S1 => run_keeps hk c S1) (fun S1 h1 => run_sim hT hk hrec c S1 h1) n st' S hc)
theorem runAlt_sim (hT : ∀ st σ s, T.sync st σ s = AllStar.sync N st s) (hk : ∀ R σ S, KeepsR S (rec R σ S))
    (hrec : ∀ R σ S, Clean S → Sim (rec' R σ S.rest) (rec R σ S)) (a : Nat) :
    ∀ (cs : Cases) (S : St), Clean S → Sim (Gen.runAlt T σ rec' n a cs S.rest) (runAlt N σ T.predict rec n a cs S)
  | .nil, S, hc => by rw [runAlt, Gen.runAlt]; exact ⟨S, rfl, rfl, hc⟩
  | .alt m c cs, S, hc => by
    rw [runAlt, Gen.runAlt]
    split
    · exact run_sim hT hk hrec c S hc
    · exact runAlt_sim hT hk hrec a cs S hc
  | .toks _ c cs, S, hc => by rw [runAlt, Gen.runAlt]; exact runAlt_sim hT hk hrec a cs S hc
theorem runLa_sim (hT : ∀ st σ s, T.sync st σ s = AllStar.sync N st s) (hk : ∀ R σ S, KeepsR S (rec R σ S))
    (hrec : ∀ R σ S, Clean S → Sim (rec' R σ S.rest) (rec R σ S)) (st : Nat) :
    ∀ (cs : Cases) (S : St), Clean S → Sim (Gen.runLa T σ rec' n cs S.rest) (runLa N σ T.predict rec n st cs S)
  | .nil, S, hc => by rw [runLa, Gen.runLa]; exact hc.told
  | .alt m c cs, S, hc => by rw [runLa, Gen.runLa]; exact runLa_sim hT hk hrec st cs S hc
  | .toks ks c cs, S, hc => by
    rw [runLa, Gen.runLa]
    split
    · exact run_sim hT hk hrec c S hc
    · exact runLa_sim hT hk hrec st cs S hc
end

/-- Functions: an error is reported by the time they end. -/
theorem runRule_sim (hT : ∀ st σ s, T.sync st σ s = AllStar.sync N st s) :
    ∀ n R σ S, Clean S → Sim (Gen.runRule code T n R σ S.rest) (runRule N T.predict code n R σ S)
  | 0, _, _, _, _ => by rw [Gen.runRule]; trivial
  | n + 1, R, σ, S, hc => by
    have h := run_sim (σ := σ) (n := n) hT (runRule_keeps (N := N) (predict := T.predict) (code := code) n) (runRule_sim hT n) (code R) S hc
    rw [runRule, Gen.runRule]
    cases ho : Gen.run T σ (Gen.runRule code T n) n (code R) S.rest with
    | timeout => trivial
    | error =>
      rw [ho] at h
      cases hr : run N σ T.predict (runRule N T.predict code n) n (code R) S with
      | timeout => trivial
      | panic k st S1 =>
        rw [hr] at h
        refine ⟨?_, (recover_keeps _ _).told ((report_keeps S1).told h)⟩
        rw [(recover_errors _ _).1]
        exact report_told h
      | done ts S1 => rw [hr] at h; exact h
    | ok ts s =>
      rw [ho] at h
      obtain ⟨S', h2, h3, h4⟩ := h
      rw [h2]
      exact ⟨S', rfl, h3, h4⟩

end

end Rfc5322.Recovery
