import Verif.Proofs.RecLog

/-!
# Up to the first report, the network follows

`Verif/Proofs/RecLog.lean` says that reports have states in which something can come next.  Here: whatever can come next in the state of the first report, with its callers, can also come
after what has been read so far.
-/

namespace Rfc5322.Recovery

open Atn Gen AllStar Relation

/-! ## Following the network -/

/-- The test is passed by types in the set only. -/
def setOk (test : Int → Bool) (is : List (Nat × Nat)) : Bool := (List.range 71).all fun k => !test (k : Nat) || (k != 0 && inSet is k)

section
variable (out : Nat → List (Label × Nat)) (start : Nat → Nat) (decisions : List Nat) (stop : Nat → Bool) (ends : Rule → Bool)

/-- The ends of transitions without a case. -/
def gone : List (Label × Nat) → Option (List Nat)
  | [] => some []
  | (.eps, q) :: es => (gone es).map (norm out fuel q :: ·)
  | _ => none

mutual
/-- The state after a statement, without looking at what comes next; `e` if the end of the input may be matched. -/
def trk (e : Bool) : Code → Nat → Option Nat
  | .skip, p => some p
  | .seq a b, p =>
    match trk e a p with
    | some q => trk e b q
    | none => none
  | .tok st k, p =>
    match out p with
    | [(.set is, q)] => if norm out fuel st = p ∧ setOk (fun x => x == (typeOf k : Nat)) is = true then some (norm out fuel q) else none
    | _ => none
  | .eof st, p =>
    match out p with
    | [(.eof, q)] => if norm out fuel st = p ∧ e = true ∧ stop (norm out fuel q) = true then some (norm out fuel q) else none
    | _ => none
  | .set st t, p =>
    match out p with
    | [(.set is, q)] => if norm out fuel st = p ∧ setOk t.eval is = true then some (norm out fuel q) else none
    | _ => none
  | .call st r, p =>
    match out st with
    | [(.call x i, q)] => if p = st ∧ ruleOf i = some r ∧ start i = x ∧ ends r = false then some (norm out fuel q) else none
    | _ => none
  | .switchAlt st d cs, p =>
    if norm out fuel st = p ∧ decisions[d]? = some p ∧ out p ≠ [] then
      match trkAlt e 1 cs (out p) with
      | some l => same l
      | none => none
    else none
  | .ifLa st _ c, p =>
    match out p with
    | [(.eps, b), (.eps, x)] => if norm out fuel st = p ∧ trk e c (norm out fuel b) = some (norm out fuel x) then some (norm out fuel x) else none
    | _ => none
  | .switchLa st cs, p =>
    if norm out fuel st = p ∧ out p ≠ [] then
      match trkLa e cs (out p) with
      | some l => same l
      | none => none
    else none
  | .star st st' _ c, p =>
    match out p with
    | [(.eps, b), (.eps, x)] => if norm out fuel st = p ∧ norm out fuel st' = p ∧ trk e c (norm out fuel b) = some p then some (norm out fuel x) else none
    | _ => none
  | .plus st st' _ c, p =>
    match trk e c p with
    | some y =>
      match out y with
      | [(.eps, b), (.eps, x)] => if norm out fuel st = p ∧ out p ≠ [] ∧ norm out fuel st' = y ∧ norm out fuel b = p then some (norm out fuel x) else none
      | _ => none
    | none => none
/-- The states after the cases, of which the first has number `m`. -/
def trkAlt (e : Bool) (m : Nat) : Cases → List (Label × Nat) → Option (List Nat)
  | .nil, es => gone out es
  | .alt m' c cs, (.eps, q) :: es =>
    if m' = m then
      match trk e c (norm out fuel q), trkAlt e (m + 1) cs es with
      | some x, some l => some (x :: l)
      | _, _ => none
    else none
  | _, _ => none
/-- The states after the cases. -/
def trkLa (e : Bool) : Cases → List (Label × Nat) → Option (List Nat)
  | .nil, _ => some []
  | .toks _ c cs, (.eps, q) :: es =>
    match trk e c (norm out fuel q), trkLa e cs es with
    | some x, some l => some (x :: l)
    | _, _ => none
  | _, _ => none
end

/-- The function of a rule goes from its first state to its last. -/
def trkRule (stopOf : Nat → Nat) (i : Nat) (R : Rule) (c : Code) : Bool := trk out start decisions stop ends (ends R) c (norm out fuel (start i)) == some (stopOf i)

end

/-- The callers are where they can be. -/
def Val (N : Net) (ok : Nat → Bool) : Nat → List Nat → Prop
  | _, [] => True
  | p, x :: st => ¬ Root N (ruleAt N p) ∧ ok x = true ∧ Val N ok x st

variable {N : Net} {late : Nat → Bool} {ok : Nat → Bool} {p0 : Nat} {toks : List Char}

theorem Val.rule {p q : Nat} (h : ruleAt N q = ruleAt N p) : ∀ {st}, Val N ok p st → Val N ok q st
  | [], _ => trivial
  | _ :: _, ⟨h1, h2, h3⟩ => ⟨by rw [h]; exact h1, h2, h3⟩

/-- All of these tokens but the rest have been read, and the network is in this state. -/
def Here (N : Net) (ok : Nat → Bool) (p0 : Nat) (toks : List Char) (p : Nat) (σ : List Nat) (rest : List Char) : Prop :=
  ∃ u, toks = u ++ rest ∧ Val N ok p (σ.map (follow N)) ∧ ∀ s, Done N p (σ.map (follow N)) s → Done N p0 [] (u ++ s)

/-- The same, or the end of the input has been read. -/
def At (N : Net) (ok : Nat → Bool) (p0 : Nat) (toks : List Char) (p : Nat) (σ : List Nat) (rest : List Char) : Prop :=
  Here N ok p0 toks p σ rest ∨ isStop N p = true ∧ σ = []

/-- The report is about the place reached. -/
def Fits (N : Net) (ok : Nat → Bool) (p0 : Nat) (toks : List Char) (m : Report) : Prop := Here N ok p0 toks m.state m.callers m.rest

/-- There have been reports, and the first was right. -/
def Told (N : Net) (ok : Nat → Bool) (p0 : Nat) (toks : List Char) (S : St) : Prop := ∃ m, S.log.getLast? = some m ∧ Fits N ok p0 toks m

/-- Without reports, this holds of the remaining tokens. -/
def Sofar (N : Net) (ok : Nat → Bool) (p0 : Nat) (toks : List Char) (P : List Char → Prop) (S : St) : Prop :=
  S.log = [] ∧ S.mode = false ∧ P S.rest ∨ Told N ok p0 toks S

/-- The same for results of statements. -/
def After (N : Net) (ok : Nat → Bool) (p0 : Nat) (toks : List Char) (σ : List Nat) (q : Nat) : Result → Prop
  | .timeout => True
  | .panic _ st S => Sofar N ok p0 toks (Here N ok p0 toks st σ) S
  | .done _ S => Sofar N ok p0 toks (At N ok p0 toks q σ) S

local notation "here" => Here N ok p0 toks
local notation "at'" => At N ok p0 toks
local notation "told" => Told N ok p0 toks
local notation "sofar" => Sofar N ok p0 toks
local notation "after" => After N ok p0 toks

theorem Sofar.mono {P Q : List Char → Prop} {S : St} (h : sofar P S) (hPQ : ∀ r, P r → Q r) : sofar Q S :=
  h.imp (fun ⟨a, b, c⟩ => ⟨a, b, hPQ _ c⟩) id

theorem report_told' {σ st k S} (h : sofar (here st σ) S) : told (S.report k σ st) := by
  rw [St.report]
  rcases h with ⟨h1, h2, h3⟩ | ⟨m, h1, h2⟩
  · rw [if_neg (by rw [h2]; exact Bool.false_ne_true)]
    exact ⟨⟨k, σ, st, S.rest⟩, by rw [h1]; rfl, h3⟩
  · split
    · exact ⟨m, h1, h2⟩
    · refine ⟨m, ?_, h2⟩
      cases hl : S.log with
      | nil => rw [hl] at h1; cases h1
      | cons x l => rw [hl] at h1; rw [← h1]; exact List.getLast?_cons_cons

theorem Told.same {S S' : St} (h : told S) (he : S'.log = S.log) : told S' := by
  obtain ⟨m, h1, h2⟩ := h
  exact ⟨m, by rw [he]; exact h1, h2⟩

theorem deletion_told {σ st S S'} (h : sofar (here st σ) S) (hd : deletion N σ st S = some S') : told S' := by
  rw [deletion] at hd
  split at hd
  · cases hd; exact (report_told' h).same rfl
  · cases hd

theorem recoverInline_after {σ st q S} (h : sofar (here st σ) S) : after σ q (recoverInline N σ st S) := by
  rw [recoverInline]
  split
  · rename_i S' hd
    exact .inr ((deletion_told h hd).same rfl)
  · split
    · exact .inr (report_told' h)
    · exact h

theorem sync_told {σ st S S'} (h : sofar (here st σ) S) (hs : sync N σ st S = some S') : S' = S ∨ told S' := by
  rw [sync] at hs
  split at hs
  · cases hs; exact .inl rfl
  · split at hs
    · exact .inr (deletion_told h hs)
    · cases hs; exact .inr ((report_told' h).same rfl)
    · cases hs; exact .inl rfl

theorem synced_after {σ st q S P f} (h : sofar (here st σ) S) (hP : sofar P S) (hf : ∀ S1, sofar P S1 → after σ q (f S1)) : after σ q (synced N σ st S f) := by
  rw [synced]
  split
  · exact h
  · rename_i S1 hs
    rcases sync_told h hs with rfl | h1
    · exact hf _ hP
    · exact hf _ (.inr h1)

theorem After.andThen {σ q q' r} {f : St → Result} (h : after σ q r) (hf : ∀ S1, sofar (at' q σ) S1 → after σ q' (f S1)) : after σ q' (r.andThen f) := by
  cases r with
  | timeout => trivial
  | panic k st S' => exact h
  | done ts S1 =>
    have h1 := hf S1 h
    rw [Result.andThen]
    cases hr : f S1 with
    | timeout => trivial
    | panic k st S' => rw [hr] at h1; exact h1
    | done us S' => rw [hr] at h1; exact h1

/-! ## Moving on -/

theorem Here.eps (W : Well N late) {p q σ r} (h : here p σ r) (hm : (.eps, q) ∈ N.out p) : here q σ r := by
  obtain ⟨u, h1, h2, h3⟩ := h
  exact ⟨u, h1, h2.rule (W.rule hm), fun s hs => h3 s (.moves (.eps hm) hs)⟩

theorem Here.norm (W : Well N late) {σ r} : ∀ (n : Nat) {p}, here p σ r → here (Gen.norm N.out n p) σ r
  | 0, _, h => h
  | n + 1, p, h => by
    rw [Gen.norm.eq_def]
    dsimp only
    split
    · rename_i q ho
      exact Here.norm W n (h.eps W (by rw [ho]; exact List.mem_singleton.mpr rfl))
    · exact h

theorem done_eps (W : Well N late) {p q st s} (ho : N.out p = [(.eps, q)]) (h : Done N p st s) : Done N q st s := by
  have hm : (.eps, q) ∈ N.out p := by rw [ho]; exact List.mem_singleton.mpr rfl
  cases h with
  | stop hs => rw [W.notStop hm] at hs; cases hs
  | moves hv hd =>
    cases hv with
    | eps h' => rw [ho, List.mem_singleton] at h'; cases h'; exact hd
    | eof h' => cases h'
    | call h' => rw [ho, List.mem_singleton] at h'; cases h'
    | ret hs => rw [W.notStop hm] at hs; cases hs
    | out h' => cases h'
  | tok h' ht => rw [ho, List.mem_singleton] at h'; cases h'; cases ht
  | eof h' => rw [ho, List.mem_singleton] at h'; cases h'

theorem Here.back (W : Well N late) {σ r} : ∀ (n : Nat) {p}, here (Gen.norm N.out n p) σ r → here p σ r
  | 0, _, h => h
  | n + 1, p, h => by
    rw [Gen.norm.eq_def] at h
    dsimp only at h
    split at h
    · rename_i q ho
      obtain ⟨u, h1, h2, h3⟩ := Here.back W n h
      exact ⟨u, h1, h2.rule (W.rule (by rw [ho]; exact List.mem_singleton.mpr rfl)).symm, fun s hs => h3 s (done_eps W ho hs)⟩
    · exact h

theorem At.here (W : Well N late) {p σ r} (h : at' p σ r) (hp : N.out p ≠ []) : here p σ r := by
  rcases h with h | ⟨h, -⟩
  · exact h
  · obtain ⟨⟨l, q⟩, es, ho⟩ := List.exists_cons_of_ne_nil hp
    rw [W.notStop (l := l) (q := q) (by rw [ho]; exact List.mem_cons_self ..)] at h
    cases h

theorem Here.tok (W : Well N late) {p q σ c r is} (h : here p σ (c :: r)) (hm : (.set is, q) ∈ N.out p) (ht : takes (.set is) (some c)) : here q σ r := by
  obtain ⟨u, h1, h2, h3⟩ := h
  refine ⟨u ++ [c], by rw [h1]; simp, h2.rule (W.rule hm), fun s hs => ?_⟩
  have := h3 _ (.tok hm ht hs)
  simpa using this

theorem setOk_takes {test : Int → Bool} {is} (h : setOk test is = true) {c s} (ht : test (la1 (c :: s)) = true) : takes (.set is) (some c) := by
  have hk : (tokenType c).getD 0 < 71 := by
    cases hc : tokenType c with
    | none => decide
    | some k => exact (tokenType_pos hc).2
  have h1 := List.all_eq_true.mp h _ (List.mem_range.mpr hk)
  rw [show la1 (c :: s) = (((tokenType c).getD 0 : Nat) : Int) from rfl] at ht
  rw [ht] at h1
  simp only [Bool.not_true, Bool.false_or, Bool.and_eq_true, bne_iff_ne, ne_eq] at h1
  cases hc : tokenType c with
  | none => rw [hc] at h1; exact absurd rfl h1.1
  | some k => rw [hc] at h1; exact ⟨k, hc, h1.2⟩

theorem matchTok_after (W : Well N late) {σ st p q is test S} (ho : N.out p = [(.set is, q)]) (hst : Gen.norm N.out fuel st = p) (ht : setOk test is = true)
    (h : sofar (at' p σ) S) : after σ (Gen.norm N.out fuel q) (matchTok N σ st test S) := by
  have hs : sofar (here st σ) S := h.mono fun r hr => Here.back W fuel (by rw [hst]; exact hr.here W (by rw [ho]; simp))
  rw [matchTok]
  split
  · exact recoverInline_after hs
  · rename_i c s hc
    split
    · rename_i h1
      rcases h with ⟨h2, h3, h4⟩ | h2
      · refine .inl ⟨h2, rfl, .inl ?_⟩
        change here _ _ S.rest.tail
        rw [hc] at h4 h1 ⊢
        exact ((h4.here W (by rw [ho]; simp)).tok W (by rw [ho]; exact List.mem_singleton.mpr rfl) (setOk_takes ht h1)).norm W fuel
      · exact .inr (h2.same rfl)
    · exact recoverInline_after hs

theorem matchEof_after (W : Well N late) {σ st p q S} (ho : N.out p = [(.eof, q)]) (hst : Gen.norm N.out fuel st = p) (hq : isStop N (Gen.norm N.out fuel q) = true)
    (hσ : σ = []) (h : sofar (at' p σ) S) : after σ (Gen.norm N.out fuel q) (matchEof N σ st S) := by
  have hs : sofar (here st σ) S := h.mono fun r hr => Here.back W fuel (by rw [hst]; exact hr.here W (by rw [ho]; simp))
  rw [matchEof]
  split
  · rcases h with ⟨h2, h3, h4⟩ | h2
    · exact .inl ⟨h2, rfl, .inr ⟨hq, hσ⟩⟩
    · exact .inr (h2.same rfl)
  · exact recoverInline_after hs

variable {σ : List Nat} {predict : Nat → List Nat → List Char → Option Nat}

theorem star_after (W : Well N late) {p b x st st' : Nat} {a : Ask} {body : St → Result} (ho : N.out p = [(.eps, b), (.eps, x)]) (hst : Gen.norm N.out fuel st = p)
    (hst' : Gen.norm N.out fuel st' = p) (hbody : ∀ S, sofar (at' (Gen.norm N.out fuel b) σ) S → after σ p (body S)) :
    ∀ (n : Nat) {st0 : Nat} (_ : Gen.norm N.out fuel st0 = p) (S : St), sofar (at' p σ) S → after σ (Gen.norm N.out fuel x) (star N σ predict st0 st' a body n S)
  | 0, _, _, _, _ => by rw [star]; trivial
  | n + 1, st0, h0, S, h => by
    have hne : N.out p ≠ [] := by rw [ho]; simp
    have hback : ∀ {S q}, Gen.norm N.out fuel q = p → sofar (at' p σ) S → sofar (here q σ) S := fun hq h => h.mono fun r hr => Here.back W fuel (by rw [hq]; exact hr.here W hne)
    have hgo : ∀ {S q}, (.eps, q) ∈ N.out p → sofar (at' p σ) S → sofar (at' (Gen.norm N.out fuel q) σ) S := fun hq h => h.mono fun r hr => .inl (((hr.here W hne).eps W hq).norm W fuel)
    rw [star]
    refine synced_after (hback h0 h) h fun S1 h1 => ?_
    split
    · exact hback h0 h1
    · exact hgo (by rw [ho]; simp) h1
    · exact (hbody S1 (hgo (by rw [ho]; simp) h1)).andThen fun S2 h2 => star_after W ho hst hst' hbody n hst' S2 h2
    · exact star_after W ho hst hst' hbody n hst' S1 h1

theorem plus_after (W : Well N late) {p y b x st' : Nat} {a : Ask} {body : St → Result} (ho : N.out y = [(.eps, b), (.eps, x)])
    (hst' : Gen.norm N.out fuel st' = y) (hb : Gen.norm N.out fuel b = p) (hbody : ∀ S, sofar (at' p σ) S → after σ y (body S)) :
    ∀ (n : Nat) (S : St), sofar (at' p σ) S → after σ (Gen.norm N.out fuel x) (plus N σ predict st' a body n S)
  | 0, _, _ => by rw [plus]; trivial
  | n + 1, S, h => by
    have hne : N.out y ≠ [] := by rw [ho]; simp
    have hback : ∀ {S}, sofar (at' y σ) S → sofar (here st' σ) S := fun h => h.mono fun r hr => Here.back W fuel (by rw [hst']; exact hr.here W hne)
    have hgo : ∀ {S q}, (.eps, q) ∈ N.out y → sofar (at' y σ) S → sofar (at' (Gen.norm N.out fuel q) σ) S := fun hq h => h.mono fun r hr => .inl (((hr.here W hne).eps W hq).norm W fuel)
    rw [plus]
    refine (hbody S h).andThen fun S1 h1 => synced_after (hback h1) h1 fun S2 h2 => ?_
    split
    · exact hback h2
    · exact hgo (by rw [ho]; simp) h2
    · refine plus_after W ho hst' hb hbody n S2 ?_
      rw [← hb]
      exact hgo (by rw [ho]; simp) h2
    · exact hback h2

/-- The same for results of functions: they do not panic. -/
def AfterRule (N : Net) (ok : Nat → Bool) (p0 : Nat) (toks : List Char) (σ : List Nat) (q : Nat) : Result → Prop
  | .timeout => True
  | .panic _ _ _ => False
  | .done _ S => Sofar N ok p0 toks (At N ok p0 toks q σ) S

theorem call_here (W : Well N late) (hok : ∀ {p l q}, (l, q) ∈ N.out p → ok q = true) {st x i q r} (ho : N.out st = [(.call x i, q)]) (h : here st σ r) : here x (st :: σ) r := by
  have hm : (.call x i, q) ∈ N.out st := by rw [ho]; exact List.mem_singleton.mpr rfl
  have hf : follow N st = q := by rw [follow, ho]
  obtain ⟨u, h1, h2, h3⟩ := h
  refine ⟨u, h1, ?_, fun s hs => h3 s (.moves (.call hm) ?_)⟩
  · rw [List.map_cons, hf]
    refine ⟨?_, hok hm, h2.rule (W.rule hm)⟩
    rw [(W.call hm).2.2.1]
    intro hr
    exact hr _ (mem_out hm) x rfl
  · rw [List.map_cons, hf] at hs
    exact hs

theorem ret_here {st x i q r z} (ho : N.out st = [(.call x i, q)]) (hz : isStop N z = true) (h : here z (st :: σ) r) : here q σ r := by
  have hf : follow N st = q := by rw [follow, ho]
  obtain ⟨u, h1, h2, h3⟩ := h
  rw [List.map_cons, hf] at h2 h3
  exact ⟨u, h1, h2.2.2, fun s hs => h3 s (.moves (.ret hz) hs)⟩

theorem gone_get {out : Nat → List (Label × Nat)} : ∀ {es : List (Label × Nat)} {l : List Nat}, gone out es = some l → ∀ {j : Nat} {e : Label × Nat}, es[j]? = some e →
    ∃ q, e = (.eps, q) ∧ l[j]? = some (Gen.norm out fuel q)
  | [], _, _, j, e, he => by simp at he
  | (.eps, q) :: es, l, h, j, e, he => by
    rw [gone] at h
    obtain ⟨l', h1, rfl⟩ := Option.map_eq_some_iff.mp h
    cases j with
    | zero => cases he; exact ⟨q, rfl, rfl⟩
    | succ j => exact gone_get h1 (j := j) he

variable {ends : Rule → Bool} {rec : Rule → List Nat → St → Result} {n : Nat}

mutual
theorem run_after (W : Well N late) (hok : ∀ {p l q}, (l, q) ∈ N.out p → ok q = true)
    (hP : ∀ {d p σ s a}, N.decisions[d]? = some p → predict d σ s = some a → ∃ i e, a = i + 1 ∧ (N.out p)[i]? = some e)
    (hrec : ∀ R σ S i, ruleOf i = some R → (ends R = true → σ = []) → sofar (at' (Gen.norm N.out fuel (N.start i)) σ) S → AfterRule N ok p0 toks σ (N.stop i) (rec R σ S))
    {e : Bool} (he : e = true → σ = []) : ∀ (c : Code) (p q : Nat) (S : St), trk N.out N.start N.decisions (isStop N) ends e c p = some q →
    sofar (at' p σ) S → after σ q (run N σ predict rec n c S)
  | .skip, p, q, S, ht, h => by rw [trk] at ht; cases ht; rw [run]; exact h
  | .seq a b, p, q, S, ht, h => by
    rw [trk] at ht
    split at ht
    · rename_i q1 h1
      rw [run]
      exact (run_after W hok hP hrec he a p q1 S h1 h).andThen fun S1 h2 => run_after W hok hP hrec he b q1 q S1 ht h2
    · cases ht
  | .tok st k, p, q, S, ht, h => by
    rw [trk] at ht
    split at ht
    · rename_i is q1 ho
      split at ht
      · rename_i h1
        cases ht
        rw [run]
        exact matchTok_after W ho h1.1 h1.2 h
      · cases ht
    · cases ht
  | .eof st, p, q, S, ht, h => by
    rw [trk] at ht
    split at ht
    · rename_i q1 ho
      split at ht
      · rename_i h1
        cases ht
        rw [run]
        exact matchEof_after W ho h1.1 h1.2.2 (he h1.2.1) h
      · cases ht
    · cases ht
  | .set st t, p, q, S, ht, h => by
    rw [trk] at ht
    split at ht
    · rename_i is q1 ho
      split at ht
      · rename_i h1
        cases ht
        rw [run]
        exact matchTok_after W ho h1.1 h1.2 h
      · cases ht
    · cases ht
  | .call st r, p, q, S, ht, h => by
    rw [trk] at ht
    split at ht
    · rename_i x i q1 ho
      split at ht
      · rename_i h1
        cases ht
        obtain ⟨rfl, h2, h3, h4⟩ := h1
        rw [run.eq_def]
        dsimp only
        have h5 := hrec r (p :: σ) S i h2 (by rw [h4]; intro h; cases h) (h.mono fun s hs => .inl (by
          rw [h3]
          exact (call_here W hok ho (hs.here W (by rw [ho]; simp))).norm W fuel))
        cases hr : rec r (p :: σ) S with
        | timeout => trivial
        | panic k st S' => rw [hr] at h5; exact h5.elim
        | done ts S' =>
          rw [hr] at h5
          refine Sofar.mono h5 fun s hs => .inl (((?_ : here q1 σ s)).norm W fuel)
          rcases hs with hs | ⟨-, hs⟩
          · exact ret_here ho (W.atStop h2) hs
          · cases hs
      · cases ht
    · cases ht
  | .switchAlt st d cs, p, q, S, ht, h => by
    rw [trk] at ht
    split at ht
    · rename_i h1
      split at ht
      · rename_i l h2
        have hback : ∀ {S}, sofar (at' p σ) S → sofar (here st σ) S := fun h => h.mono fun r hr => Here.back W fuel (by rw [h1.1]; exact hr.here W h1.2.2)
        rw [run]
        refine synced_after (hback h) h fun S1 h3 => ?_
        cases hp : predict d σ S1.rest with
        | none => exact hback h3
        | some a =>
          obtain ⟨i, x, rfl, h4⟩ := hP h1.2.1 hp
          rw [Nat.add_comm]
          exact runAlt_after W hok hP hrec he cs 1 _ l S1 h2 i h4 (fun y hy => same_all ht y hy) (h3.mono fun r hr => hr.here W h1.2.2)
            (fun j z hj => List.mem_of_getElem? hj)
      · cases ht
    · cases ht
  | .ifLa st t c, p, q, S, ht, h => by
    rw [trk] at ht
    split at ht
    · rename_i b x ho
      split at ht
      · rename_i h1
        cases ht
        have hne : N.out p ≠ [] := by rw [ho]; simp
        have hgo : ∀ {S q}, (.eps, q) ∈ N.out p → sofar (at' p σ) S → sofar (at' (Gen.norm N.out fuel q) σ) S :=
          fun hq h => h.mono fun r hr => .inl (((hr.here W hne).eps W hq).norm W fuel)
        rw [run]
        refine synced_after (h.mono fun r hr => Here.back W fuel (by rw [h1.1]; exact hr.here W hne)) h fun S1 h3 => ?_
        split
        · exact run_after W hok hP hrec he c _ _ S1 h1.2 (hgo (by rw [ho]; simp) h3)
        · exact hgo (by rw [ho]; simp) h3
      · cases ht
    · cases ht
  | .switchLa st cs, p, q, S, ht, h => by
    rw [trk] at ht
    split at ht
    · rename_i h1
      split at ht
      · rename_i l h2
        have hback : ∀ {S}, sofar (at' p σ) S → sofar (here st σ) S := fun h => h.mono fun r hr => Here.back W fuel (by rw [h1.1]; exact hr.here W h1.2)
        rw [run]
        exact synced_after (hback h) h fun S1 h3 => runLa_after W hok hP hrec he h1.1 cs _ l S1 h2 (fun y hy => same_all ht y hy) (h3.mono fun r hr => hr.here W h1.2)
          (fun z hz => hz)
      · cases ht
    · cases ht
  | .star st st' a c, p, q, S, ht, h => by
    rw [trk] at ht
    split at ht
    · rename_i b x ho
      split at ht
      · rename_i h1
        cases ht
        rw [run]
        exact star_after W ho h1.1 h1.2.1 (fun S1 h2 => run_after W hok hP hrec he c _ _ S1 h1.2.2 h2) n h1.1 S h
      · cases ht
    · cases ht
  | .plus st st' a c, p, q, S, ht, h => by
    rw [trk] at ht
    split at ht
    · rename_i y h1
      split at ht
      · rename_i b x ho
        split at ht
        · rename_i h2
          cases ht
          rw [run]
          exact synced_after (h.mono fun r hr => Here.back W fuel (by rw [h2.1]; exact hr.here W h2.2.1)) h fun S1 h3 =>
            plus_after W ho h2.2.2.1 h2.2.2.2 (fun S2 h4 => run_after W hok hP hrec he c p y S2 h1 h4) n S1 h3
        · cases ht
      · cases ht
    · cases ht
theorem runAlt_after (W : Well N late) (hok : ∀ {p l q}, (l, q) ∈ N.out p → ok q = true)
    (hP : ∀ {d p σ s a}, N.decisions[d]? = some p → predict d σ s = some a → ∃ i e, a = i + 1 ∧ (N.out p)[i]? = some e)
    (hrec : ∀ R σ S i, ruleOf i = some R → (ends R = true → σ = []) → sofar (at' (Gen.norm N.out fuel (N.start i)) σ) S → AfterRule N ok p0 toks σ (N.stop i) (rec R σ S))
    {e : Bool} (he : e = true → σ = []) {p q : Nat} : ∀ (cs : Cases) (m : Nat) (es : List (Label × Nat)) (l : List Nat) (S : St),
    trkAlt N.out N.start N.decisions (isStop N) ends e m cs es = some l → ∀ (i : Nat) {x}, es[i]? = some x → (∀ y ∈ l, y = q) → sofar (here p σ) S →
    (∀ (j : Nat) z, es[j]? = some z → z ∈ N.out p) → after σ q (runAlt N σ predict rec n (m + i) cs S)
  | .nil, m, es, l, S, ht, i, x, hx, hl, h, hes => by
    rw [trkAlt] at ht
    obtain ⟨z, rfl, h1⟩ := gone_get ht hx
    rw [runAlt, ← hl _ (List.mem_of_getElem? h1)]
    exact Sofar.mono h fun r hr => .inl ((hr.eps W (hes i _ hx)).norm W fuel)
  | .alt m' c cs, m, (.eps, z) :: es, l, S, ht, i, x, hx, hl, h, hes => by
    rw [trkAlt] at ht
    split at ht
    · rename_i hm
      split at ht
      · rename_i y l' h1 h2
        cases ht
        rw [runAlt]
        cases i with
        | zero =>
          rw [if_pos (by omega), ← hl y (List.mem_cons_self ..)]
          exact run_after W hok hP hrec he c _ y S h1 (h.mono fun r hr => .inl ((hr.eps W (hes 0 _ rfl)).norm W fuel))
        | succ i =>
          rw [if_neg (by omega), show m + (i + 1) = m + 1 + i by omega]
          exact runAlt_after W hok hP hrec he cs (m + 1) es l' S h2 i hx (fun y hy => hl y (List.mem_cons_of_mem _ hy)) h (fun j z hj => hes (j + 1) z hj)
      · cases ht
    · cases ht
  | .alt m' c cs, m, [], l, S, ht, i, x, hx, hl, h, hes => by simp at hx
  | .alt m' c cs, m, (.eof, z) :: es, l, S, ht, i, x, hx, hl, h, hes => by rw [trkAlt] at ht; cases ht; all_goals simp
  | .alt m' c cs, m, (.set _, z) :: es, l, S, ht, i, x, hx, hl, h, hes => by rw [trkAlt] at ht; cases ht; all_goals simp
  | .alt m' c cs, m, (.call _ _, z) :: es, l, S, ht, i, x, hx, hl, h, hes => by rw [trkAlt] at ht; cases ht; all_goals simp
  | .toks _ c cs, m, es, l, S, ht, i, x, hx, hl, h, hes => by rw [trkAlt] at ht; cases ht; all_goals simp
theorem runLa_after (W : Well N late) (hok : ∀ {p l q}, (l, q) ∈ N.out p → ok q = true)
    (hP : ∀ {d p σ s a}, N.decisions[d]? = some p → predict d σ s = some a → ∃ i e, a = i + 1 ∧ (N.out p)[i]? = some e)
    (hrec : ∀ R σ S i, ruleOf i = some R → (ends R = true → σ = []) → sofar (at' (Gen.norm N.out fuel (N.start i)) σ) S → AfterRule N ok p0 toks σ (N.stop i) (rec R σ S))
    {e : Bool} (he : e = true → σ = []) {p q st : Nat} (hst : Gen.norm N.out fuel st = p) : ∀ (cs : Cases) (es : List (Label × Nat)) (l : List Nat) (S : St),
    trkLa N.out N.start N.decisions (isStop N) ends e cs es = some l → (∀ y ∈ l, y = q) → sofar (here p σ) S →
    (∀ z ∈ es, z ∈ N.out p) → after σ q (runLa N σ predict rec n st cs S)
  | .nil, es, l, S, ht, hl, h, hes => by
    rw [runLa]
    exact Sofar.mono h fun r hr => Here.back W fuel (by rw [hst]; exact hr)
  | .toks ks c cs, (.eps, z) :: es, l, S, ht, hl, h, hes => by
    rw [trkLa] at ht
    split at ht
    · rename_i y l' h1 h2
      cases ht
      rw [runLa]
      split
      · rw [← hl y (List.mem_cons_self ..)]
        exact run_after W hok hP hrec he c _ y S h1 (h.mono fun r hr => .inl ((hr.eps W (hes _ (List.mem_cons_self ..))).norm W fuel))
      · exact runLa_after W hok hP hrec he hst cs es l' S h2 (fun y hy => hl y (List.mem_cons_of_mem _ hy)) h (fun z hz => hes z (List.mem_cons_of_mem _ hz))
    · cases ht
  | .toks ks c cs, [], l, S, ht, hl, h, hes => by rw [trkLa] at ht; cases ht; all_goals simp
  | .toks ks c cs, (.eof, z) :: es, l, S, ht, hl, h, hes => by rw [trkLa] at ht; cases ht; all_goals simp
  | .toks ks c cs, (.set _, z) :: es, l, S, ht, hl, h, hes => by rw [trkLa] at ht; cases ht; all_goals simp
  | .toks ks c cs, (.call _ _, z) :: es, l, S, ht, hl, h, hes => by rw [trkLa] at ht; cases ht; all_goals simp
  | .alt _ c cs, es, l, S, ht, hl, h, hes => by rw [trkLa] at ht; cases ht; all_goals simp
end

theorem recover_log (N : Net) (σ : List Nat) (st : Nat) (S : St) : (recover N σ st S).log = S.log := by
  unfold recover
  first | rfl | (dsimp only; repeat' split) <;> rfl

theorem runRule_after (W : Well N late) (hok : ∀ {p l q}, (l, q) ∈ N.out p → ok q = true)
    (hP : ∀ {d p σ s a}, N.decisions[d]? = some p → predict d σ s = some a → ∃ i e, a = i + 1 ∧ (N.out p)[i]? = some e)
    {code : Rule → Code} (hcode : ∀ R i, ruleOf i = some R → trkRule N.out N.start N.decisions (isStop N) ends N.stop i R (code R) = true) :
    ∀ n R σ S i, ruleOf i = some R → (ends R = true → σ = []) → sofar (at' (Gen.norm N.out fuel (N.start i)) σ) S →
      AfterRule N ok p0 toks σ (N.stop i) (runRule N predict code n R σ S)
  | 0, _, _, _, _, _, _, _ => by rw [runRule]; trivial
  | n + 1, R, σ, S, i, hi, he, hS => by
    have h1 := run_after (n := n) (predict := predict) W hok hP (fun R σ S i => runRule_after W hok hP hcode n R σ S i) he (code R) _ (N.stop i) S (eq_of_beq (hcode R i hi)) hS
    rw [runRule]
    cases hr : run N σ predict (runRule N predict code n) n (code R) S with
    | timeout => trivial
    | done ts S' => rw [hr] at h1; exact h1
    | panic k st S' =>
      rw [hr] at h1
      exact .inr ((report_told' h1).same (recover_log ..))

/-! ## This parser -/

/-- The functions that match the end of the input. -/
def lastRules (R : Rule) : Bool := R == .addressList || R == .dateTime

/-- The functions follow the network. -/
theorem trk_table : ((List.range 67).all fun i => match ruleOf i with
    | some R => trkRule (Trie.build 11 parserNet.edges).out parserNet.start parserNet.decisions (isStop parserNet) lastRules parserNet.stop i R (code R)
    | none => true) = true := by decide +kernel

end Rfc5322.Recovery
