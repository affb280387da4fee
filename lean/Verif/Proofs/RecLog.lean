import Verif.Proofs.RecParser
import Verif.Model.Messages

/-!
# What is reported is about the input

Reports name states of the network from which something can come next, and a rest of the input.
-/

namespace Rfc5322.Recovery

open Atn Gen AllStar

/-! ## States from which something can come next -/

/-- A token can come next, or the rule can end. -/
def Live (N : Net) (p : Nat) : Prop := (∃ t, (∀ c, t = some c → (tokenType c).isSome = true) ∧ tokenNext N p t) ∨ endNext N p

/-- Then something is expected. -/
theorem expected_exists {N : Net} : ∀ {σ : List Nat} {p : Nat}, Live N p → (∀ x ∈ σ, Live N (follow N x)) →
    ∃ t, (∀ c, t = some c → (tokenType c).isSome = true) ∧ expected N σ p t
  | [], _, .inl ⟨t, h, h'⟩, _ => ⟨t, h, .inl h'⟩
  | [], _, .inr h, _ => ⟨none, fun _ h => (nomatch h), .inr ⟨h, rfl⟩⟩
  | _ :: _, _, .inl ⟨t, h, h'⟩, _ => ⟨t, h, .inl h'⟩
  | _ :: _, _, .inr h, hσ => by
    obtain ⟨t, h1, h2⟩ := expected_exists (hσ _ (List.mem_cons_self ..)) (fun x hx => hσ x (List.mem_cons_of_mem _ hx))
    exact ⟨t, h1, .inr ⟨h, h2⟩⟩

/-- There is a token with a type in the set. -/
def nonempty : List (Nat × Nat) → Bool
  | (a, b) :: _ => 1 ≤ a && a ≤ 70 && a ≤ b
  | [] => false

/-- `Live`, by following transitions, at most `n` of them; the rule may end if `e`. -/
def live (out : Nat → List (Label × Nat)) (stop : Nat → Bool) : Nat → Bool → Nat → Bool
  | 0, _, _ => false
  | n + 1, e, p => (e && stop p) || (out p).any fun t =>
    match t.1 with
    | .eof => true
    | .set is => nonempty is
    | .eps => live out stop n e t.2
    | .call a _ => live out stop n false a

/-- There are tokens of all types. -/
theorem type_exists {k : Nat} (h : 1 ≤ k) (h' : k ≤ 70) : ∃ c, tokenType c = some k := by
  have ht : ((List.range 70).all fun i => ((List.range 128 ++ [200]).any fun c => tokenType (Char.ofNat c) == some (i + 1))) = true := by decide +kernel
  have h1 := List.all_eq_true.mp ht (k - 1) (List.mem_range.mpr (by omega))
  obtain ⟨c, -, hc⟩ := List.any_eq_true.mp h1
  refine ⟨Char.ofNat c, ?_⟩
  rw [beq_iff_eq] at hc
  rw [hc, Nat.sub_add_cancel h]

theorem nonempty_takes {is : List (Nat × Nat)} (h : nonempty is = true) : ∃ c k, tokenType c = some k ∧ inSet is k = true := by
  match is, h with
  | (a, b) :: is, h =>
    rw [nonempty, Bool.and_eq_true, Bool.and_eq_true] at h
    obtain ⟨⟨h1, h2⟩, h3⟩ := h
    obtain ⟨c, hc⟩ := type_exists (k := a) (by simpa using h1) (by simpa using h2)
    refine ⟨c, a, hc, ?_⟩
    rw [inSet, List.any_cons, Bool.or_eq_true]
    left
    have h4 : a ≤ b := by simpa using h3
    rw [Bool.and_eq_true]
    exact ⟨Nat.ble_eq.mpr (Nat.le_refl a), Nat.ble_eq.mpr h4⟩

theorem live_sound {N : Net} : ∀ (n : Nat) (e : Bool) (p : Nat) (ρ : List Nat), live N.out (isStop N) n e p = true →
    (∃ t q st l x, (∀ c, t = some c → (tokenType c).isSome = true) ∧ Relation.ReflTransGen (Moves N true false) (p, ρ) (q, st) ∧ (l, x) ∈ N.out q ∧ takes l t) ∨
    e = true ∧ ∃ q, Relation.ReflTransGen (Moves N true false) (p, ρ) (q, ρ) ∧ isStop N q = true
  | 0, _, _, _, h => by rw [live] at h; cases h
  | n + 1, e, p, ρ, h => by
    rw [live, Bool.or_eq_true] at h
    rcases h with h | h
    · rw [Bool.and_eq_true] at h
      exact .inr ⟨h.1, p, .refl, h.2⟩
    · obtain ⟨⟨l, q⟩, hm, h1⟩ := List.any_eq_true.mp h
      cases l with
      | eof => exact .inl ⟨none, p, ρ, .eof, q, fun _ h => (nomatch h), .refl, hm, trivial⟩
      | set is =>
        obtain ⟨c, k, hc, hk⟩ := nonempty_takes h1
        exact .inl ⟨some c, p, ρ, .set is, q, fun c' h => by cases h; rw [hc]; rfl, .refl, hm, k, hc, hk⟩
      | eps =>
        rcases live_sound n e q ρ h1 with ⟨t, q', st, l, x, ht, h2, h3, h4⟩ | ⟨he, q', h2, h3⟩
        · exact .inl ⟨t, q', st, l, x, ht, .head (.eps hm) h2, h3, h4⟩
        · exact .inr ⟨he, q', .head (.eps hm) h2, h3⟩
      | call a r =>
        rcases live_sound n false a (q :: ρ) h1 with ⟨t, q', st, l, x, ht, h2, h3, h4⟩ | ⟨he, _⟩
        · exact .inl ⟨t, q', st, l, x, ht, .head (.call hm) h2, h3, h4⟩
        · cases he

theorem live_live {N : Net} {n p : Nat} (h : live N.out (isStop N) n true p = true) : Live N p := by
  rcases live_sound n true p [] h with ⟨t, q, st, l, x, h1, h2⟩ | ⟨-, h⟩
  · exact .inl ⟨t, h1, q, st, l, x, h2⟩
  · exact .inr h

/-! ## States that are mentioned -/

mutual
/-- All states of a statement, and all states of calls. -/
def mentions (g f : Nat → Bool) : Code → Bool
  | .skip => true
  | .seq a b => mentions g f a && mentions g f b
  | .tok st _ => g st
  | .eof st => g st
  | .set st _ => g st
  | .call st _ => f st
  | .switchAlt st _ cs => g st && mentionsCases g f cs
  | .ifLa st _ c => g st && mentions g f c
  | .switchLa st cs => g st && mentionsCases g f cs
  | .star st st' _ c => g st && g st' && mentions g f c
  | .plus st st' _ c => g st && g st' && mentions g f c
/-- The same for cases. -/
def mentionsCases (g f : Nat → Bool) : Cases → Bool
  | .nil => true
  | .alt _ c cs => mentions g f c && mentionsCases g f cs
  | .toks _ c cs => mentions g f c && mentionsCases g f cs
end

/-! ## The invariant -/

/-- A report about a rest of this text, in certain states. -/
structure About (g f : Nat → Bool) (s : List Char) (m : Report) : Prop where
  rest : m.rest <:+ s
  state : g m.state = true
  callers : ∀ x ∈ m.callers, f x = true

/-- The remaining tokens are a rest of the text, and so are those in all reports. -/
structure Sane (g f : Nat → Bool) (s : List Char) (S : St) : Prop where
  rest : S.rest <:+ s
  log : ∀ m ∈ S.log, About g f s m

/-- The same for results. -/
def SaneR (g f : Nat → Bool) (s : List Char) : Result → Prop
  | .timeout => True
  | .panic _ st S => g st = true ∧ Sane g f s S
  | .done _ S => Sane g f s S

variable {g f : Nat → Bool} {s : List Char} {N : Net} {σ : List Nat} {predict : Nat → List Nat → List Char → Option Nat}

theorem Sane.report {S : St} (h : Sane g f s S) {k st} (hσ : ∀ x ∈ σ, f x = true) (hst : g st = true) : Sane g f s (S.report k σ st) := by
  rw [St.report]
  split
  · exact h
  · refine ⟨h.rest, fun m hm => ?_⟩
    rcases List.mem_cons.mp hm with rfl | hm
    · exact ⟨h.rest, hst, hσ⟩
    · exact h.log m hm

theorem Sane.consume {S : St} (h : Sane g f s S) : Sane g f s S.consume := ⟨(List.tail_suffix _).trans h.rest, h.log⟩

theorem Sane.matched {S : St} (h : Sane g f s S) : Sane g f s S.matched := ⟨h.rest, h.log⟩

theorem Sane.skip {S : St} (h : Sane g f s S) (keep : Option Char → Prop) : Sane g f s (S.skip keep) := ⟨(skipUntil_suffix _).trans h.rest, h.log⟩

theorem Sane.recover {S : St} (h : Sane g f s S) (st : Nat) : Sane g f s (recover N σ st S) := by
  rw [Recovery.recover]
  refine Sane.skip ?_ _
  split
  · exact ⟨h.consume.rest, h.log⟩
  · exact ⟨h.rest, h.log⟩

theorem Sane.deletion {st S S'} (h : Sane g f s S) (hσ : ∀ x ∈ σ, f x = true) (hst : g st = true) (hd : deletion N σ st S = some S') : Sane g f s S' := by
  rw [Recovery.deletion] at hd
  split at hd
  · cases hd; exact (h.report hσ hst).consume.matched
  · cases hd

theorem Sane.sync {st S S'} (h : Sane g f s S) (hσ : ∀ x ∈ σ, f x = true) (hst : g st = true) (hd : sync N σ st S = some S') : Sane g f s S' := by
  rw [Recovery.sync] at hd
  split at hd
  · cases hd; exact h
  · split at hd
    · exact h.deletion hσ hst hd
    · cases hd; exact (h.report hσ hst).skip _
    · cases hd; exact h

theorem SaneR.andThen {r} {k : St → Result} (h : SaneR g f s r) (hf : ∀ S1, Sane g f s S1 → SaneR g f s (k S1)) : SaneR g f s (r.andThen k) := by
  cases r with
  | timeout => trivial
  | panic k st S' => exact h
  | done ts S1 =>
    have h1 := hf S1 h
    rw [Result.andThen]
    cases hr : k S1 with
    | timeout => trivial
    | panic k st S' => rw [hr] at h1; exact h1
    | done us S' => rw [hr] at h1; exact h1

variable (hσ : ∀ x ∈ σ, f x = true)
include hσ

theorem recoverInline_sane {st : Nat} (hst : g st = true) {S : St} (h : Sane g f s S) : SaneR g f s (recoverInline N σ st S) := by
  rw [recoverInline]
  split
  · rename_i S' hd
    exact (h.deletion hσ hst hd).consume
  · split
    · exact h.report hσ hst
    · exact ⟨hst, h⟩

theorem matchTok_sane {st : Nat} (hst : g st = true) (test : Int → Bool) {S : St} (h : Sane g f s S) : SaneR g f s (matchTok N σ st test S) := by
  rw [matchTok]
  split
  · exact recoverInline_sane hσ hst h
  · split
    · exact h.matched.consume
    · exact recoverInline_sane hσ hst h

theorem matchEof_sane {st : Nat} (hst : g st = true) {S : St} (h : Sane g f s S) : SaneR g f s (matchEof N σ st S) := by
  rw [matchEof]
  split
  · exact h.matched
  · exact recoverInline_sane hσ hst h

theorem synced_sane {st : Nat} (hst : g st = true) {S : St} (h : Sane g f s S) {k : St → Result} (hf : ∀ S1, Sane g f s S1 → SaneR g f s (k S1)) :
    SaneR g f s (synced N σ st S k) := by
  rw [synced]
  split
  · exact ⟨hst, h⟩
  · rename_i S1 hd
    exact hf S1 (h.sync hσ hst hd)

theorem star_sane {a : Ask} {body : St → Result} (hbody : ∀ S, Sane g f s S → SaneR g f s (body S)) :
    ∀ (n : Nat) {st st' : Nat} (_ : g st = true) (_ : g st' = true) (S : St), Sane g f s S → SaneR g f s (star N σ predict st st' a body n S)
  | 0, _, _, _, _, _, _ => by rw [star]; trivial
  | n + 1, st, st', hst, hst', S, h => by
    rw [star]
    refine synced_sane hσ hst h fun S1 h1 => ?_
    split
    · exact ⟨hst, h1⟩
    · exact h1
    · exact (hbody S1 h1).andThen fun S2 => star_sane hbody n hst' hst' S2
    · exact star_sane hbody n hst' hst' S1 h1

theorem plus_sane {a : Ask} {body : St → Result} (hbody : ∀ S, Sane g f s S → SaneR g f s (body S)) :
    ∀ (n : Nat) {st' : Nat} (_ : g st' = true) (S : St), Sane g f s S → SaneR g f s (plus N σ predict st' a body n S)
  | 0, _, _, _, _ => by rw [plus]; trivial
  | n + 1, st', hst', S, h => by
    rw [plus]
    refine (hbody S h).andThen fun S1 h1 => synced_sane hσ hst' h1 fun S2 h2 => ?_
    split
    · exact ⟨hst', h2⟩
    · exact h2
    · exact plus_sane hbody n hst' S2 h2
    · exact ⟨hst', h2⟩

variable {rec : Rule → List Nat → St → Result} {n : Nat}

mutual
theorem run_sane (hrec : ∀ R σ S, (∀ x ∈ σ, f x = true) → Sane g f s S → SaneR g f s (rec R σ S)) :
    ∀ (c : Code) (S : St), mentions g f c = true → Sane g f s S → SaneR g f s (run N σ predict rec n c S)
  | .skip, S, _, h => by rw [run]; exact h
  | .seq a b, S, hc, h => by
    rw [mentions, Bool.and_eq_true] at hc
    rw [run]; exact (run_sane hrec a S hc.1 h).andThen fun S1 h1 => run_sane hrec b S1 hc.2 h1
  | .tok st k, S, hc, h => by rw [mentions] at hc; rw [run]; exact matchTok_sane hσ hc _ h
  | .eof st, S, hc, h => by rw [mentions] at hc; rw [run]; exact matchEof_sane hσ hc h
  | .set st t, S, hc, h => by rw [mentions] at hc; rw [run]; exact matchTok_sane hσ hc _ h
  | .call st r, S, hc, h => by
    rw [mentions] at hc
    rw [run.eq_def]
    dsimp only
    have h1 := hrec r (st :: σ) S (fun x hx => by
      rcases List.mem_cons.mp hx with rfl | hx
      · exact hc
      · exact hσ x hx) h
    cases hr : rec r (st :: σ) S with
    | timeout => trivial
    | panic k st S' => rw [hr] at h1; exact h1
    | done ts S' => rw [hr] at h1; exact h1
  | .switchAlt st d cs, S, hc, h => by
    rw [mentions, Bool.and_eq_true] at hc
    rw [run]
    refine synced_sane hσ hc.1 h fun S1 h1 => ?_
    cases hp : predict d σ S1.rest with
    | none => exact ⟨hc.1, h1⟩
    | some a => exact runAlt_sane hrec a cs S1 hc.2 h1
  | .ifLa st t c, S, hc, h => by
    rw [mentions, Bool.and_eq_true] at hc
    rw [run]
    refine synced_sane hσ hc.1 h fun S1 h1 => ?_
    split
    · exact run_sane hrec c S1 hc.2 h1
    · exact h1
  | .switchLa st cs, S, hc, h => by
    rw [mentions, Bool.and_eq_true] at hc
    rw [run]; exact synced_sane hσ hc.1 h fun S1 h1 => runLa_sane hrec hc.1 cs S1 hc.2 h1
  | .star st st' a c, S, hc, h => by
    rw [mentions, Bool.and_eq_true, Bool.and_eq_true] at hc
    rw [run]; exact star_sane hσ (fun S1 h1 => run_sane hrec c S1 hc.2 h1) n hc.1.1 hc.1.2 S h
  | .plus st st' a c, S, hc, h => by
    rw [mentions, Bool.and_eq_true, Bool.and_eq_true] at hc
    rw [run]; exact synced_sane hσ hc.1.1 h fun S1 h1 => plus_sane hσ (fun S2 h2 => run_sane hrec c S2 hc.2 h2) n hc.1.2 S1 h1
theorem runAlt_sane (hrec : ∀ R σ S, (∀ x ∈ σ, f x = true) → Sane g f s S → SaneR g f s (rec R σ S)) (a : Nat) :
    ∀ (cs : Cases) (S : St), mentionsCases g f cs = true → Sane g f s S → SaneR g f s (runAlt N σ predict rec n a cs S)
  | .nil, S, _, h => by rw [runAlt]; exact h
  | .alt m c cs, S, hc, h => by
    rw [mentionsCases, Bool.and_eq_true] at hc
    rw [runAlt]
    split
    · exact run_sane hrec c S hc.1 h
    · exact runAlt_sane hrec a cs S hc.2 h
  | .toks _ c cs, S, hc, h => by
    rw [mentionsCases, Bool.and_eq_true] at hc
    rw [runAlt]; exact runAlt_sane hrec a cs S hc.2 h
theorem runLa_sane (hrec : ∀ R σ S, (∀ x ∈ σ, f x = true) → Sane g f s S → SaneR g f s (rec R σ S)) {st : Nat} (hst : g st = true) :
    ∀ (cs : Cases) (S : St), mentionsCases g f cs = true → Sane g f s S → SaneR g f s (runLa N σ predict rec n st cs S)
  | .nil, S, _, h => by rw [runLa]; exact ⟨hst, h⟩
  | .alt m c cs, S, hc, h => by
    rw [mentionsCases, Bool.and_eq_true] at hc
    rw [runLa]; exact runLa_sane hrec hst cs S hc.2 h
  | .toks ks c cs, S, hc, h => by
    rw [mentionsCases, Bool.and_eq_true] at hc
    rw [runLa]
    split
    · exact run_sane hrec c S hc.1 h
    · exact runLa_sane hrec hst cs S hc.2 h
end

omit hσ

theorem runRule_sane {code : Rule → Code} (hcode : ∀ R, mentions g f (code R) = true) : ∀ n R σ S, (∀ x ∈ σ, f x = true) → Sane g f s S → SaneR g f s (runRule N predict code n R σ S)
  | 0, _, _, _, _, _ => by rw [runRule]; trivial
  | n + 1, R, σ, S, hσ, hS => by
    have h := run_sane (N := N) (σ := σ) (n := n) (predict := predict) hσ (runRule_sane hcode n) (code R) S (hcode R) hS
    rw [runRule]
    split
    · rename_i st S1 h1
      rw [h1] at h
      exact (h.2.report hσ h.1).recover st
    · exact h

/-! ## This parser -/

/-- `follow`. -/
def followIn (out : Nat → List (Label × Nat)) (p : Nat) : Nat :=
  match out p with
  | [(.call _ _, q)] => q
  | _ => 0

theorem followIn_out (N : Net) : followIn N.out = follow N := rfl

/-- Something can come next in all states of the functions, and after all calls. -/
theorem live_table : (rules.all fun R => mentions (live (Trie.build 11 parserNet.edges).out (isStop parserNet) 40 true)
    (fun st => live (Trie.build 11 parserNet.edges).out (isStop parserNet) 40 true (followIn (Trie.build 11 parserNet.edges).out st)) (code R)) = true := by decide +kernel

/-- What is reported has a state in which something can come next, and a rest of the input. -/
theorem parser_log {n R toks ts S} (h : runRule parserNet predict code n R [] (.init toks) = .done ts S) :
    ∀ m ∈ S.log, m.rest <:+ toks ∧ ∃ t, (∀ c, t = some c → (tokenType c).isSome = true) ∧ expected parserNet m.callers m.state t := by
  have ht := live_table
  rw [show (Trie.build 11 parserNet.edges).out = parserNet.out from funext fun p => out_build parserNet p, followIn_out] at ht
  generalize 40 = k at ht
  have h1 := runRule_sane (N := parserNet) (predict := predict) (s := toks) (fun R => List.all_eq_true.mp ht R (mem_rules R)) n R [] (.init toks)
    (fun _ h => (nomatch h)) ⟨List.suffix_refl _, fun _ h => (nomatch h)⟩
  rw [h] at h1
  intro m hm
  have h2 := h1.log m hm
  exact ⟨h2.rest, expected_exists (live_live h2.state) fun x hx => live_live (h2.callers x hx)⟩

end Rfc5322.Recovery
