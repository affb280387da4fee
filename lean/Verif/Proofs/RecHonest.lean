import Verif.Proofs.RecFirst

/-!
# What is extraneous is not expected

A token that is reported as extraneous or mismatched, or before which another is reported as missing, is none of those that can come next.
-/

namespace Rfc5322.Recovery

open Atn Gen AllStar Relation

/-! ## One transition -/

variable {N : Net} {late : Nat → Bool} {σ : List Nat} {predict : Nat → List Nat → List Char → Option Nat}

theorem nextTokens_of_expected : ∀ {σ : List Nat} {p : Nat} {t : Option Char}, expected N σ p t → nextTokens N p t
  | [], _, _, h => h.imp id And.left
  | _ :: _, _, _, h => h.imp id And.left

theorem nextTokens_eps (W : Well N late) {p q : Nat} {t : Option Char} (ho : N.out p = [(.eps, q)]) (h : nextTokens N p t) : nextTokens N q t := by
  have hm : (.eps, q) ∈ N.out p := by rw [ho]; exact List.mem_singleton.mpr rfl
  have step : ∀ {c}, ReflTransGen (Moves N true false) (p, []) c → c = (p, []) ∨ ReflTransGen (Moves N true false) (q, []) c := by
    intro c hc
    rcases ReflTransGen.cases_head hc with hc | ⟨y, h1, h2⟩
    · exact .inl hc.symm
    · cases h1 with
      | eps h' => rw [ho, List.mem_singleton] at h'; cases h'; exact .inr h2
      | eof h' => cases h'
      | call h' => rw [ho, List.mem_singleton] at h'; cases h'
      | out h' => cases h'
  rcases h with ⟨y, st, l, x, h1, h2, h3⟩ | ⟨y, h1, h2⟩
  · rcases step h1 with h4 | h4
    · cases h4
      rw [ho, List.mem_singleton] at h2
      cases h2
      cases h3
    · exact .inl ⟨y, st, l, x, h4, h2, h3⟩
  · rcases step h1 with h4 | h4
    · cases h4
      rw [W.notStop hm] at h2
      cases h2
    · exact .inr ⟨y, h4, h2⟩

theorem nextTokens_norm (W : Well N late) {t : Option Char} : ∀ (n : Nat) {p : Nat}, nextTokens N p t → nextTokens N (norm N.out n p) t
  | 0, _, h => h
  | n + 1, p, h => by
    rw [norm.eq_def]
    dsimp only
    split
    · rename_i q ho
      exact nextTokens_norm W n (nextTokens_eps W ho h)
    · exact h

/-- A single transition that needs a token. -/
theorem nextTokens_one (W : Well N late) {p q : Nat} {l : Label} {t : Option Char} (ho : N.out p = [(l, q)]) (hl : isEpsilon l = false) (h : nextTokens N p t) : takes l t := by
  have hm : (l, q) ∈ N.out p := by rw [ho]; exact List.mem_singleton.mpr rfl
  have step : ∀ {c}, ReflTransGen (Moves N true false) (p, []) c → c = (p, []) := by
    intro c hc
    rcases ReflTransGen.cases_head hc with hc | ⟨y, h1, h2⟩
    · exact hc.symm
    · cases h1 with
      | eps h' => rw [ho, List.mem_singleton] at h'; cases h'; cases hl
      | eof h' => cases h'
      | call h' => rw [ho, List.mem_singleton] at h'; cases h'; cases hl
      | out h' => cases h'
  rcases h with ⟨y, st, l', x, h1, h2, h3⟩ | ⟨y, h1, h2⟩
  · cases step h1
    rw [ho, List.mem_singleton] at h2
    cases h2
    exact h3
  · cases step h1
    rw [W.notStop hm] at h2
    cases h2

/-! ## The code -/

/-- All types in the set pass the test. -/
def passes (test : Int → Bool) (is : List (Nat × Nat)) : Bool := (List.range 71).all fun k => !(k != 0 && inSet is k) || test (k : Nat)

section
variable (out : Nat → List (Label × Nat))

mutual
/-- Where a token is matched, the network has a single transition, for the same tokens. -/
def fair : Code → Bool
  | .skip => true
  | .seq a b => fair a && fair b
  | .tok st k => match out (norm out fuel st) with
    | [(.set is, _)] => passes (fun x => x == (typeOf k : Nat)) is
    | _ => false
  | .eof st => match out (norm out fuel st) with
    | [(.eof, _)] => true
    | _ => false
  | .set st t => match out (norm out fuel st) with
    | [(.set is, _)] => passes t.eval is
    | _ => false
  | .call _ _ => true
  | .switchAlt _ _ cs => fairCases cs
  | .ifLa _ _ c => fair c
  | .switchLa _ cs => fairCases cs
  | .star _ _ _ c => fair c
  | .plus _ _ _ c => fair c
/-- The same for cases. -/
def fairCases : Cases → Bool
  | .nil => true
  | .alt _ c cs => fair c && fairCases cs
  | .toks _ c cs => fair c && fairCases cs
end

end

theorem passes_takes {test : Int → Bool} {is} (h : passes test is = true) {c : Char} {s : List Char} (ht : takes (.set is) (some c)) : test (la1 (c :: s)) = true := by
  obtain ⟨k, h1, h2⟩ := ht
  have h3 := List.all_eq_true.mp h k (List.mem_range.mpr (tokenType_pos h1).2)
  rw [show la1 (c :: s) = (((tokenType c).getD 0 : Nat) : Int) from rfl, h1]
  have h4 : (k != 0) = true := bne_iff_ne.mpr (by have := (tokenType_pos h1).1; omega)
  rw [h2, h4] at h3
  simpa using h3

/-! ## The invariant -/

/-- Not about a token that can come next, except where no alternative is viable. -/
def Honest (N : Net) (m : Report) : Prop := m.kind ≠ .noViable → ¬ nextTokens N m.state m.rest.head?

/-- All reports. -/
def Hon (N : Net) (S : St) : Prop := ∀ m ∈ S.log, Honest N m

/-- The same for results. -/
def HonR (N : Net) : Result → Prop
  | .timeout => True
  | .panic k st S => Hon N S ∧ (k ≠ .noViable → ¬ nextTokens N st S.rest.head?)
  | .done _ S => Hon N S

theorem Hon.report {S : St} (h : Hon N S) {k σ st} (hk : k ≠ .noViable → ¬ nextTokens N st S.rest.head?) : Hon N (S.report k σ st) := by
  rw [St.report]
  split
  · exact h
  · intro m hm
    rcases List.mem_cons.mp hm with rfl | hm
    · exact hk
    · exact h m hm

theorem Hon.same {S S' : St} (h : Hon N S) (he : S'.log = S.log) : Hon N S' := fun m hm => h m (by rw [← he]; exact hm)

theorem deletion_hon {st S S'} (h : Hon N S) (hn : ¬ nextTokens N st S.rest.head?) (hd : deletion N σ st S = some S') : Hon N S' := by
  rw [deletion] at hd
  split at hd
  · cases hd; exact (h.report fun _ => hn).same rfl
  · cases hd

theorem recoverInline_hon {st S} (h : Hon N S) (hn : ¬ nextTokens N st S.rest.head?) : HonR N (recoverInline N σ st S) := by
  rw [recoverInline]
  split
  · rename_i S' hd
    exact (deletion_hon h hn hd).same rfl
  · split
    · exact h.report fun _ => hn
    · exact ⟨h, fun _ => hn⟩

theorem sync_none {st S} (hs : sync N σ st S = none) : ¬ nextTokens N st S.rest.head? := by
  rw [sync] at hs
  split at hs
  · cases hs
  · rename_i h1
    exact fun h' => h1 (.inr h')

theorem sync_hon {st S S'} (h : Hon N S) (hs : sync N σ st S = some S') : Hon N S' := by
  rw [sync] at hs
  split at hs
  · cases hs; exact h
  · rename_i h1
    have hn : ¬ nextTokens N st S.rest.head? := fun h' => h1 (.inr h')
    split at hs
    · exact deletion_hon h hn hs
    · cases hs; exact (h.report fun _ => hn).same rfl
    · cases hs; exact h

theorem synced_hon {st S f} (h : Hon N S) (hf : ∀ S1, Hon N S1 → HonR N (f S1)) : HonR N (synced N σ st S f) := by
  rw [synced]
  split
  · rename_i hs
    exact ⟨h, fun _ => sync_none hs⟩
  · rename_i S1 hs
    exact hf S1 (sync_hon h hs)

theorem HonR.andThen {r} {f : St → Result} (h : HonR N r) (hf : ∀ S1, Hon N S1 → HonR N (f S1)) : HonR N (r.andThen f) := by
  cases r with
  | timeout => trivial
  | panic k st S' => exact h
  | done ts S1 =>
    have h1 := hf S1 h
    rw [Result.andThen]
    cases hr : f S1 with
    | timeout => trivial
    | panic k st S' => rw [hr] at h1; exact h1
    | done us S' => rw [hr] at h1; exact h1

theorem matchTok_hon (W : Well N late) {st q is test S} (ho : N.out (norm N.out fuel st) = [(.set is, q)]) (ht : passes test is = true) (h : Hon N S) :
    HonR N (matchTok N σ st test S) := by
  have hn : ∀ t, nextTokens N st t → takes (.set is) t := fun t h' => nextTokens_one W ho rfl (nextTokens_norm W fuel h')
  rw [matchTok]
  split
  · rename_i hr
    refine recoverInline_hon h fun h' => ?_
    rw [hr] at h'
    cases hn _ h'
  · rename_i c s hr
    split
    · exact h
    · rename_i h1
      refine recoverInline_hon h fun h' => h1 ?_
      rw [hr] at h' ⊢
      exact passes_takes ht (hn _ h')

theorem matchEof_hon (W : Well N late) {st q S} (ho : N.out (norm N.out fuel st) = [(.eof, q)]) (h : Hon N S) : HonR N (matchEof N σ st S) := by
  rw [matchEof]
  split
  · exact h
  · rename_i c s hr
    refine recoverInline_hon h fun h' => ?_
    rw [hr] at h'
    cases nextTokens_one W ho rfl (nextTokens_norm W fuel h')

theorem star_hon {a : Ask} {body : St → Result} {st' : Nat} (hbody : ∀ S, Hon N S → HonR N (body S)) :
    ∀ (n : Nat) (st : Nat) (S : St), Hon N S → HonR N (star N σ predict st st' a body n S)
  | 0, _, _, _ => by rw [star]; trivial
  | n + 1, st, S, h => by
    rw [star]
    refine synced_hon h fun S1 h1 => ?_
    split
    · exact ⟨h1, fun h' => absurd rfl h'⟩
    · exact h1
    · exact (hbody S1 h1).andThen fun S2 => star_hon hbody n st' S2
    · exact star_hon hbody n st' S1 h1

theorem plus_hon {a : Ask} {body : St → Result} {st' : Nat} (hbody : ∀ S, Hon N S → HonR N (body S)) :
    ∀ (n : Nat) (S : St), Hon N S → HonR N (plus N σ predict st' a body n S)
  | 0, _, _ => by rw [plus]; trivial
  | n + 1, S, h => by
    rw [plus]
    refine (hbody S h).andThen fun S1 h1 => synced_hon h1 fun S2 h2 => ?_
    split
    · exact ⟨h2, fun h' => absurd rfl h'⟩
    · exact h2
    · exact plus_hon hbody n S2 h2
    · exact ⟨h2, fun h' => absurd rfl h'⟩

variable {rec : Rule → List Nat → St → Result} {n : Nat}

mutual
theorem run_hon (W : Well N late) (hrec : ∀ R σ S, Hon N S → HonR N (rec R σ S)) : ∀ (c : Code) (S : St), fair N.out c = true → Hon N S → HonR N (run N σ predict rec n c S)
  | .skip, S, _, h => by rw [run]; exact h
  | .seq a b, S, hc, h => by
    rw [fair, Bool.and_eq_true] at hc
    rw [run]; exact (run_hon W hrec a S hc.1 h).andThen fun S1 h1 => run_hon W hrec b S1 hc.2 h1
  | .tok st k, S, hc, h => by
    rw [fair] at hc
    split at hc
    · rename_i is q ho; rw [run]; exact matchTok_hon W ho hc h
    · cases hc
  | .eof st, S, hc, h => by
    rw [fair] at hc
    split at hc
    · rename_i q ho; rw [run]; exact matchEof_hon W ho h
    · cases hc
  | .set st t, S, hc, h => by
    rw [fair] at hc
    split at hc
    · rename_i is q ho; rw [run]; exact matchTok_hon W ho hc h
    · cases hc
  | .call st r, S, hc, h => by
    rw [run.eq_def]
    dsimp only
    have h1 := hrec r (st :: σ) S h
    cases hr : rec r (st :: σ) S with
    | timeout => trivial
    | panic k st S' => rw [hr] at h1; exact h1
    | done ts S' => rw [hr] at h1; exact h1
  | .switchAlt st d cs, S, hc, h => by
    rw [fair] at hc
    rw [run]
    refine synced_hon h fun S1 h1 => ?_
    cases hp : predict d σ S1.rest with
    | none => exact ⟨h1, fun h' => absurd rfl h'⟩
    | some a => exact runAlt_hon W hrec a cs S1 hc h1
  | .ifLa st t c, S, hc, h => by
    rw [fair] at hc
    rw [run]
    refine synced_hon h fun S1 h1 => ?_
    split
    · exact run_hon W hrec c S1 hc h1
    · exact h1
  | .switchLa st cs, S, hc, h => by
    rw [fair] at hc
    rw [run]; exact synced_hon h fun S1 h1 => runLa_hon W hrec cs S1 hc h1
  | .star st st' a c, S, hc, h => by
    rw [fair] at hc
    rw [run]; exact star_hon (fun S1 h1 => run_hon W hrec c S1 hc h1) n st S h
  | .plus st st' a c, S, hc, h => by
    rw [fair] at hc
    rw [run]; exact synced_hon h fun S1 h1 => plus_hon (fun S2 h2 => run_hon W hrec c S2 hc h2) n S1 h1
theorem runAlt_hon (W : Well N late) (hrec : ∀ R σ S, Hon N S → HonR N (rec R σ S)) (a : Nat) :
    ∀ (cs : Cases) (S : St), fairCases N.out cs = true → Hon N S → HonR N (runAlt N σ predict rec n a cs S)
  | .nil, S, _, h => by rw [runAlt]; exact h
  | .alt m c cs, S, hc, h => by
    rw [fairCases, Bool.and_eq_true] at hc
    rw [runAlt]
    split
    · exact run_hon W hrec c S hc.1 h
    · exact runAlt_hon W hrec a cs S hc.2 h
  | .toks _ c cs, S, hc, h => by
    rw [fairCases, Bool.and_eq_true] at hc
    rw [runAlt]; exact runAlt_hon W hrec a cs S hc.2 h
theorem runLa_hon (W : Well N late) (hrec : ∀ R σ S, Hon N S → HonR N (rec R σ S)) {st : Nat} :
    ∀ (cs : Cases) (S : St), fairCases N.out cs = true → Hon N S → HonR N (runLa N σ predict rec n st cs S)
  | .nil, S, _, h => by rw [runLa]; exact ⟨h, fun h' => absurd rfl h'⟩
  | .alt m c cs, S, hc, h => by
    rw [fairCases, Bool.and_eq_true] at hc
    rw [runLa]; exact runLa_hon W hrec cs S hc.2 h
  | .toks ks c cs, S, hc, h => by
    rw [fairCases, Bool.and_eq_true] at hc
    rw [runLa]
    split
    · exact run_hon W hrec c S hc.1 h
    · exact runLa_hon W hrec cs S hc.2 h
end

theorem runRule_hon (W : Well N late) {code : Rule → Code} (hcode : ∀ R, fair N.out (code R) = true) : ∀ n R σ S, Hon N S → HonR N (runRule N predict code n R σ S)
  | 0, _, _, _, _ => by rw [runRule]; trivial
  | n + 1, R, σ, S, hS => by
    have h := run_hon (σ := σ) (n := n) (predict := predict) W (runRule_hon W hcode n) (code R) S (hcode R) hS
    rw [runRule]
    split
    · rename_i kd st S1 h1
      rw [h1] at h
      exact (Hon.report h.1 (k := kd) (σ := σ) (st := st) h.2).same (recover_log ..)
    · exact h

/-! ## This parser -/

theorem fair_table : (rules.all fun R => fair (Trie.build 11 parserNet.edges).out (code R)) = true := by decide +kernel

/-- What is reported as extraneous or mismatched, or before which something is reported as missing, is not expected. -/
theorem parser_honest {n R toks ts S} (h : runRule parserNet predict code n R [] (.init toks) = .done ts S) :
    ∀ m ∈ S.log, m.kind ≠ .noViable → ¬ expected parserNet m.callers m.state m.rest.head? := by
  have ht := fair_table
  rw [show (Trie.build 11 parserNet.edges).out = parserNet.out from funext fun p => out_build parserNet p] at ht
  have h1 := runRule_hon (N := parserNet) (predict := predict) (well_of parser_well).1 (fun R => List.all_eq_true.mp ht R (mem_rules R)) n R [] (.init toks)
    (fun _ h => (nomatch h))
  rw [h] at h1
  exact fun m hm hk he => h1 m hm hk (nextTokens_of_expected he)

/-! ## Types -/

theorem takes_type {l : Label} {t t' : Option Char} (ht : t.bind tokenType = t'.bind tokenType) (hn : t = none ↔ t' = none) (h : takes l t) : takes l t' := by
  cases t with
  | none => rw [hn.mp rfl]; exact h
  | some c =>
    obtain ⟨is, k, rfl, h1, h2⟩ := takes_some h
    cases t' with
    | none => exact absurd (hn.mpr rfl) (by simp)
    | some c' => exact ⟨k, by rw [← h1]; exact ht.symm, h2⟩

theorem tokenNext_type {p : Nat} {t t' : Option Char} (ht : t.bind tokenType = t'.bind tokenType) (hn : t = none ↔ t' = none) (h : tokenNext N p t) : tokenNext N p t' := by
  obtain ⟨q, st, l, x, h1, h2, h3⟩ := h
  exact ⟨q, st, l, x, h1, h2, takes_type ht hn h3⟩

/-- Only the type matters. -/
theorem expected_type {t t' : Option Char} (ht : t.bind tokenType = t'.bind tokenType) (hn : t = none ↔ t' = none) : ∀ {σ : List Nat} {p : Nat}, expected N σ p t → expected N σ p t'
  | [], _, h => h.imp (tokenNext_type ht hn) fun h => ⟨h.1, hn.mp h.2⟩
  | _ :: _, _, h => h.imp (tokenNext_type ht hn) fun h => ⟨h.1, expected_type ht hn h.2⟩

end Rfc5322.Recovery
