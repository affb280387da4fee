import Verif.Proofs.RecTerm

/-!
# How often an error is reported
-/

namespace Rfc5322.Recovery

open Atn Gen AllStar Relation

/-- Reports so far, and those that are still possible. -/
def weight (S : St) : Nat := S.errors + S.rest.length + if S.mode then 0 else 1

theorem errors_le (S : St) : S.errors ≤ weight S := by
  rw [weight]; omega

theorem report_weight (S : St) {k : Trouble} {ρ : List Nat} {q : Nat} : weight (S.report k ρ q) = weight S := by
  rw [St.report]
  split
  · rfl
  · rename_i h
    simp [weight, St.errors, h]
    omega

theorem matched_weight (S : St) : weight S.matched ≤ weight S + 1 := by
  simp only [weight, St.errors, St.matched]
  cases S.mode <;> simp

theorem consume_weight {S : St} (h : S.rest ≠ []) : weight S.consume + 1 = weight S := by
  cases hr : S.rest with
  | nil => exact absurd hr h
  | cons c s =>
    simp only [weight, St.errors, St.consume, hr, List.tail_cons, List.length_cons]
    omega

theorem consume_le (S : St) : weight S.consume ≤ weight S := by
  simp only [weight, St.errors, St.consume, List.length_tail]
  by_cases hm : S.mode = true <;> simp [hm] <;> omega

theorem skipUntil_le (keep : Option Char → Prop) : ∀ s : List Char, (skipUntil keep s).length ≤ s.length
  | [] => Nat.le_refl _
  | c :: s => by
    rw [skipUntil]
    split
    · exact Nat.le_refl _
    · exact Nat.le_succ_of_le (skipUntil_le keep s)

theorem skip_weight (S : St) (keep : Option Char → Prop) : weight (S.skip keep) ≤ weight S := by
  have := skipUntil_le keep S.rest
  simp only [weight, St.errors, St.skip]
  by_cases hm : S.mode = true <;> simp [hm] <;> omega

variable {N : Net} {σ : List Nat} {predict : Nat → List Nat → List Char → Option Nat}

theorem recover_weight (st : Nat) (S : St) : weight (recover N σ st S) ≤ weight S := by
  rw [recover]
  refine Nat.le_trans (skip_weight _ _) ?_
  split
  · exact consume_le S
  · exact Nat.le_refl _

/-- Tokens are deleted only if there is one. -/
theorem deletion_weight {st S S'} (he : S.rest = [] → ¬ expected N σ st none) (h : deletion N σ st S = some S') : weight S' ≤ weight S := by
  rw [deletion] at h
  split at h
  · rename_i hx
    cases h
    have hne : S.rest ≠ [] := by
      intro h0
      rw [h0] at hx
      exact he h0 hx
    have hr : (S.report .unwanted σ st).rest = S.rest := by
      rw [St.report]; split <;> rfl
    have h1 := consume_weight (S := S.report .unwanted σ st) (by rw [hr]; exact hne)
    have h2 := matched_weight (S.report .unwanted σ st).consume
    rw [report_weight] at h1
    omega
  · cases h

theorem not_expected {st : Nat} (h : ¬ nextTokens N st none) : ¬ expected N σ st none := by
  intro he
  cases σ with
  | nil =>
    rcases he with h1 | h1
    · exact h (.inl h1)
    · exact h (.inr h1.1)
  | cons x σ =>
    rcases he with h1 | h1
    · exact h (.inl h1)
    · exact h (.inr h1.1)

theorem sync_weight {st S S'} (h : sync N σ st S = some S') : weight S' ≤ weight S := by
  rw [sync] at h
  split at h
  · cases h; exact Nat.le_refl _
  · rename_i hn
    split at h
    · refine deletion_weight (fun h0 => not_expected fun hx => hn (.inr ?_)) h
      rw [h0]; exact hx
    · cases h
      exact Nat.le_trans (skip_weight _ _) (by rw [report_weight]; exact Nat.le_refl _)
    · cases h; exact Nat.le_refl _

/-- Results do not weigh more. -/
def Light (w : Nat) : Result → Prop
  | .timeout => True
  | .panic _ _ S => weight S ≤ w
  | .done _ S => weight S ≤ w

theorem Light.mono {w w' r} (h : Light w r) (hw : w ≤ w') : Light w' r := by
  cases r with
  | timeout => trivial
  | panic k st S => exact Nat.le_trans h hw
  | done ts S => exact Nat.le_trans h hw

theorem Light.andThen {w r} {f : St → Result} (h : Light w r) (hf : ∀ S, Light (weight S) (f S)) : Light w (r.andThen f) := by
  cases r with
  | timeout => trivial
  | panic k st S => exact h
  | done ts S =>
    have h1 := (hf S).mono h
    rw [Result.andThen]
    cases hr : f S with
    | timeout => trivial
    | panic k st S' => rw [hr] at h1; exact h1
    | done us S' => rw [hr] at h1; exact h1

/-- A token is needed in this state, and nothing else will do. -/
def needs (out : Nat → List (Label × Nat)) (st : Nat) : Bool := (out st).all fun e => match e.1 with
  | .set _ => true
  | _ => false

theorem needs_expected {st : Nat} (h : needs N.out st = true) (hs : isStop N st = false) : ¬ nextTokens N st none := by
  have hl : ∀ {l x}, (l, x) ∈ N.out st → ∃ is, l = .set is := by
    intro l x hm
    have := List.all_eq_true.mp h _ hm
    cases l <;> simp at this
    exact ⟨_, rfl⟩
  have hstay : ∀ {y}, ReflTransGen (Moves N true false) (st, []) y → y = (st, []) := by
    intro y hy
    induction hy with
    | refl => rfl
    | tail _ h1 ih =>
      subst ih
      cases h1 with
      | eps hm => obtain ⟨is, h⟩ := hl hm; cases h
      | eof h => cases h
      | call hm => obtain ⟨is, h⟩ := hl hm; cases h
      | out h => cases h
  rintro (⟨q, st', l, x, h1, h2, h3⟩ | ⟨q, h1, h2⟩)
  · cases hstay h1
    obtain ⟨is, rfl⟩ := hl h2
    exact h3
  · cases hstay h1
    rw [hs] at h2
    cases h2

theorem recoverInline_light {st S} (he : S.rest = [] → ¬ expected N σ st none) : Light (weight S) (recoverInline N σ st S) := by
  rw [recoverInline]
  split
  · rename_i S' h
    exact Nat.le_trans (consume_le S') (deletion_weight he h)
  · split
    · exact Nat.le_of_eq (report_weight S)
    · exact Nat.le_refl _

theorem matchTok_light {st test S} (h : needs N.out st = true) (hs : isStop N st = false) : Light (weight S) (matchTok N σ st test S) := by
  have he : ¬ expected N σ st none := not_expected (needs_expected h hs)
  rw [matchTok]
  split
  · exact recoverInline_light fun _ => he
  · rename_i c s hr
    split
    · have h1 := consume_weight (S := S.matched) (by show S.rest ≠ []; rw [hr]; simp)
      have h2 := matched_weight S
      show weight _ ≤ _
      omega
    · exact recoverInline_light fun _ => he

theorem synced_light {st S f} (hf : ∀ S1, Light (weight S1) (f S1)) : Light (weight S) (synced N σ st S f) := by
  rw [synced]
  split
  · exact Nat.le_refl _
  · rename_i S1 h
    exact (hf S1).mono (sync_weight h)

theorem star_light {a : Ask} {body : St → Result} (hbody : ∀ S, Light (weight S) (body S)) :
    ∀ (n st st' : Nat) (S : St), Light (weight S) (star N σ predict st st' a body n S)
  | 0, _, _, _ => by rw [star]; trivial
  | n + 1, st, st', S => by
    rw [star]
    refine synced_light fun S1 => ?_
    split
    · exact Nat.le_refl _
    · exact Nat.le_refl _
    · exact (hbody S1).andThen fun S2 => star_light hbody n st' st' S2
    · exact star_light hbody n st' st' S1

theorem plus_light {a : Ask} {body : St → Result} (hbody : ∀ S, Light (weight S) (body S)) :
    ∀ (n st' : Nat) (S : St), Light (weight S) (plus N σ predict st' a body n S)
  | 0, _, _ => by rw [plus]; trivial
  | n + 1, st', S => by
    rw [plus]
    refine (hbody S).andThen fun S1 => synced_light fun S2 => ?_
    split
    · exact Nat.le_refl _
    · exact Nat.le_refl _
    · exact plus_light hbody n st' S2
    · exact Nat.le_refl _

variable {rec : Rule → List Nat → St → Result} {n : Nat}

mutual
/-- Tokens are matched in states in which nothing else will do, and functions that match the end of the input are not called. -/
def tidy (out : Nat → List (Label × Nat)) (stop : Nat → Bool) (ends : Rule → Bool) : Code → Bool
  | .skip => true
  | .seq a b => tidy out stop ends a && tidy out stop ends b
  | .tok st _ => needs out st && !stop st
  | .eof _ => true
  | .set st _ => needs out st && !stop st
  | .call _ r => !ends r
  | .switchAlt _ _ cs => tidyCases out stop ends cs
  | .ifLa _ _ c => tidy out stop ends c
  | .switchLa _ cs => tidyCases out stop ends cs
  | .star _ _ _ c => tidy out stop ends c
  | .plus _ _ _ c => tidy out stop ends c
/-- The same for cases. -/
def tidyCases (out : Nat → List (Label × Nat)) (stop : Nat → Bool) (ends : Rule → Bool) : Cases → Bool
  | .nil => true
  | .alt _ c cs => tidy out stop ends c && tidyCases out stop ends cs
  | .toks _ c cs => tidy out stop ends c && tidyCases out stop ends cs
end

variable {ends : Rule → Bool}

mutual
theorem run_light (hrec : ∀ R σ S, ends R = false → Light (weight S) (rec R σ S)) :
    ∀ (c : Code) (S : St), tidy N.out (isStop N) ends c = true → noEof c = true → Light (weight S) (run N σ predict rec n c S)
  | .skip, S, _, _ => by rw [run]; exact Nat.le_refl _
  | .seq a b, S, h, he => by
    rw [tidy, Bool.and_eq_true] at h
    rw [noEof, Bool.and_eq_true] at he
    rw [run]
    exact (run_light hrec a S h.1 he.1).andThen fun S1 => run_light hrec b S1 h.2 he.2
  | .tok st k, S, h, _ => by
    rw [tidy, Bool.and_eq_true] at h
    rw [run]; exact matchTok_light h.1 (by simpa using h.2)
  | .eof st, S, _, he => by rw [noEof] at he; cases he
  | .set st t, S, h, _ => by
    rw [tidy, Bool.and_eq_true] at h
    rw [run]; exact matchTok_light h.1 (by simpa using h.2)
  | .call st r, S, h, _ => by
    rw [run.eq_def]
    dsimp only
    have h1 := hrec r (st :: σ) S (by simpa [tidy] using h)
    cases hr : rec r (st :: σ) S with
    | timeout => trivial
    | panic k st S' => rw [hr] at h1; exact h1
    | done ts S' => rw [hr] at h1; exact h1
  | .switchAlt st d cs, S, h, he => by
    rw [tidy] at h
    rw [noEof] at he
    rw [run]
    refine synced_light fun S1 => ?_
    cases hp : predict d σ S1.rest with
    | none => exact Nat.le_refl _
    | some a => exact runAlt_light hrec a cs S1 h he
  | .ifLa st t c, S, h, he => by
    rw [tidy] at h
    rw [noEof] at he
    rw [run]
    refine synced_light fun S1 => ?_
    split
    · exact run_light hrec c S1 h he
    · exact Nat.le_refl _
  | .switchLa st cs, S, h, he => by
    rw [tidy] at h
    rw [noEof] at he
    rw [run]; exact synced_light fun S1 => runLa_light hrec st cs S1 h he
  | .star st st' a c, S, h, he => by
    rw [tidy] at h
    rw [noEof] at he
    rw [run]; exact star_light (fun S1 => run_light hrec c S1 h he) n st st' S
  | .plus st st' a c, S, h, he => by
    rw [tidy] at h
    rw [noEof] at he
    rw [run]; exact synced_light fun S1 => plus_light (fun S2 => run_light hrec c S2 h he) n st' S1
theorem runAlt_light (hrec : ∀ R σ S, ends R = false → Light (weight S) (rec R σ S)) (a : Nat) :
    ∀ (cs : Cases) (S : St), tidyCases N.out (isStop N) ends cs = true → noEofCases cs = true → Light (weight S) (runAlt N σ predict rec n a cs S)
  | .nil, S, _, _ => by rw [runAlt]; exact Nat.le_refl _
  | .alt m c cs, S, h, he => by
    rw [tidyCases, Bool.and_eq_true] at h
    rw [noEofCases, Bool.and_eq_true] at he
    rw [runAlt]
    split
    · exact run_light hrec c S h.1 he.1
    · exact runAlt_light hrec a cs S h.2 he.2
  | .toks _ c cs, S, h, he => by
    rw [tidyCases, Bool.and_eq_true] at h
    rw [noEofCases, Bool.and_eq_true] at he
    rw [runAlt]; exact runAlt_light hrec a cs S h.2 he.2
theorem runLa_light (hrec : ∀ R σ S, ends R = false → Light (weight S) (rec R σ S)) (st : Nat) :
    ∀ (cs : Cases) (S : St), tidyCases N.out (isStop N) ends cs = true → noEofCases cs = true → Light (weight S) (runLa N σ predict rec n st cs S)
  | .nil, S, _, _ => by rw [runLa]; exact Nat.le_refl _
  | .alt m c cs, S, h, he => by
    rw [tidyCases, Bool.and_eq_true] at h
    rw [noEofCases, Bool.and_eq_true] at he
    rw [runLa]; exact runLa_light hrec st cs S h.2 he.2
  | .toks ks c cs, S, h, he => by
    rw [tidyCases, Bool.and_eq_true] at h
    rw [noEofCases, Bool.and_eq_true] at he
    rw [runLa]
    split
    · exact run_light hrec c S h.1 he.1
    · exact runLa_light hrec st cs S h.2 he.2
end

variable {code : Rule → Code}

/-- Functions that do not match the end of the input. -/
theorem runRule_light (ht : ∀ R, ends R = false → tidy N.out (isStop N) ends (code R) = true ∧ noEof (code R) = true) :
    ∀ n R σ S, ends R = false → Light (weight S) (runRule N predict code n R σ S)
  | 0, _, _, _, _ => by rw [runRule]; trivial
  | n + 1, R, σ, S, hR => by
    have h := run_light (N := N) (σ := σ) (n := n) (predict := predict) (runRule_light ht n) (code R) S (ht R hR).1 (ht R hR).2
    rw [runRule]
    split
    · rename_i st S1 h1
      rw [h1] at h
      refine Nat.le_trans (recover_weight _ _) ?_
      rw [report_weight]
      exact h
    · exact h

/-! ## The end of the input -/

/-- At the end, there are not more reports than possible, and a panic does not weigh more. -/
def Last (w : Nat) : Result → Prop
  | .timeout => True
  | .panic _ _ S => weight S ≤ w
  | .done _ S => S.errors ≤ w

theorem Light.last {w r} (h : Light w r) : Last w r := by
  cases r with
  | timeout => trivial
  | panic k st S => exact h
  | done ts S => exact Nat.le_trans (errors_le S) h

theorem Last.mono {w w' r} (h : Last w r) (hw : w ≤ w') : Last w' r := by
  cases r with
  | timeout => trivial
  | panic k st S => exact Nat.le_trans h hw
  | done ts S => exact Nat.le_trans h hw

theorem Light.andLast {w r} {f : St → Result} (h : Light w r) (hf : ∀ S, Last (weight S) (f S)) : Last w (r.andThen f) := by
  cases r with
  | timeout => trivial
  | panic k st S => exact h
  | done ts S =>
    have h1 := (hf S).mono h
    rw [Result.andThen]
    cases hr : f S with
    | timeout => trivial
    | panic k st S' => rw [hr] at h1; exact h1
    | done us S' => rw [hr] at h1; exact h1

theorem matchEof_last (st : Nat) (S : St) : Last (weight S) (matchEof N σ st S) := by
  rw [matchEof]
  split
  · exact errors_le S
  · rename_i hr
    exact (recoverInline_light fun h0 => by rw [h0] at hr; cases hr).last

theorem synced_last {st S f} (hf : ∀ S1, Last (weight S1) (f S1)) : Last (weight S) (synced N σ st S f) := by
  rw [synced]
  split
  · exact Nat.le_refl _
  · rename_i S1 h
    exact (hf S1).mono (sync_weight h)

mutual
theorem run_last (hrec : ∀ R σ S, ends R = false → Light (weight S) (rec R σ S)) :
    ∀ (c : Code) (S : St), tidy N.out (isStop N) ends c = true → eofLast c = true → Last (weight S) (run N σ predict rec n c S)
  | .skip, S, _, _ => by rw [run]; exact errors_le S
  | .seq a b, S, h, he => by
    rw [tidy, Bool.and_eq_true] at h
    rw [eofLast, Bool.and_eq_true] at he
    rw [run]
    exact (run_light hrec a S h.1 he.1).andLast fun S1 => run_last hrec b S1 h.2 he.2
  | .tok st k, S, h, _ => (run_light hrec (.tok st k) S h rfl).last
  | .eof st, S, _, _ => by rw [run]; exact matchEof_last st S
  | .set st t, S, h, _ => (run_light hrec (.set st t) S h rfl).last
  | .call st r, S, h, _ => (run_light hrec (.call st r) S h rfl).last
  | .switchAlt st d cs, S, h, he => by
    rw [tidy] at h
    rw [eofLast] at he
    rw [run]
    refine synced_last fun S1 => ?_
    cases hp : predict d σ S1.rest with
    | none => exact Nat.le_refl _
    | some a => exact runAlt_last hrec a cs S1 h he
  | .ifLa st t c, S, h, he => by
    rw [tidy] at h
    rw [eofLast] at he
    rw [run]
    refine synced_last fun S1 => ?_
    split
    · exact run_last hrec c S1 h he
    · exact errors_le S1
  | .switchLa st cs, S, h, he => by
    rw [tidy] at h
    rw [eofLast] at he
    rw [run]; exact synced_last fun S1 => runLa_last hrec st cs S1 h he
  | .star st st' a c, S, h, he => (run_light hrec (.star st st' a c) S h (by rw [eofLast] at he; rw [noEof]; exact he)).last
  | .plus st st' a c, S, h, he => (run_light hrec (.plus st st' a c) S h (by rw [eofLast] at he; rw [noEof]; exact he)).last
theorem runAlt_last (hrec : ∀ R σ S, ends R = false → Light (weight S) (rec R σ S)) (a : Nat) :
    ∀ (cs : Cases) (S : St), tidyCases N.out (isStop N) ends cs = true → eofLastCases cs = true → Last (weight S) (runAlt N σ predict rec n a cs S)
  | .nil, S, _, _ => by rw [runAlt]; exact errors_le S
  | .alt m c cs, S, h, he => by
    rw [tidyCases, Bool.and_eq_true] at h
    rw [eofLastCases, Bool.and_eq_true] at he
    rw [runAlt]
    split
    · exact run_last hrec c S h.1 he.1
    · exact runAlt_last hrec a cs S h.2 he.2
  | .toks _ c cs, S, h, he => by
    rw [tidyCases, Bool.and_eq_true] at h
    rw [eofLastCases, Bool.and_eq_true] at he
    rw [runAlt]; exact runAlt_last hrec a cs S h.2 he.2
theorem runLa_last (hrec : ∀ R σ S, ends R = false → Light (weight S) (rec R σ S)) (st : Nat) :
    ∀ (cs : Cases) (S : St), tidyCases N.out (isStop N) ends cs = true → eofLastCases cs = true → Last (weight S) (runLa N σ predict rec n st cs S)
  | .nil, S, _, _ => by rw [runLa]; exact Nat.le_refl _
  | .alt m c cs, S, h, he => by
    rw [tidyCases, Bool.and_eq_true] at h
    rw [eofLastCases, Bool.and_eq_true] at he
    rw [runLa]; exact runLa_last hrec st cs S h.2 he.2
  | .toks ks c cs, S, h, he => by
    rw [tidyCases, Bool.and_eq_true] at h
    rw [eofLastCases, Bool.and_eq_true] at he
    rw [runLa]
    split
    · exact run_last hrec c S h.1 he.1
    · exact runLa_last hrec st cs S h.2 he.2
end

/-- All functions. -/
theorem runRule_last (ht : ∀ R, tidy N.out (isStop N) ends (code R) = true ∧ eofLast (code R) = true) (hn : ∀ R, ends R = false → noEof (code R) = true)
    (n : Nat) (R : Rule) (σ : List Nat) (S : St) : Last (weight S) (runRule N predict code n R σ S) := by
  cases n with
  | zero => rw [runRule]; trivial
  | succ n =>
    have h := run_last (N := N) (σ := σ) (n := n) (predict := predict) (runRule_light (predict := predict) (fun R hR => ⟨(ht R).1, hn R hR⟩) n) (code R) S (ht R).1 (ht R).2
    rw [runRule]
    split
    · rename_i st S1 h1
      rw [h1] at h
      refine Nat.le_trans (errors_le _) (Nat.le_trans (recover_weight _ _) ?_)
      rw [report_weight]
      exact h
    · exact h

end Rfc5322.Recovery
