import Verif.Proofs.Mixture
import Verif.Props.Clear

/-!
# C51: concurrent calls

`Execution` (`Verif/Model/Concurrent.lean`): any number of calls, their steps interleaved with each other, with assignments
to `CharsetReader` and with the passing of time.  `Returned k j fn input o`: at time `j` call number `k`, of the function `fn` with
argument `input`, has returned `o`.  `Running k t`: it is under way at time `t`.  `wordValue env v`: what the decoder makes of
the encoded word `v`, or `v` itself if the decoder fails.
-/

namespace Rfc5322.Props

open Spec

/-- Every encoded word in the input is decoded with a `CharsetReader` that was in effect at some moment of the call, from left to
right, and this accounts for the result: nothing else that happens in the program matters.  Conversely every such
combination can happen. -/
theorem C51_addresses_in_any_schedule (input : Bytes) : ∃ (words : List Bytes) (f : List Bytes → Obs),
    (∀ P env, .addresses (parseAddressList P env input) = f (words.map (wordValue env))) ∧
    (∀ (x : Execution) k j o, x.Returned k j .addresses input o → ∃ times : List Nat, times.length = words.length ∧
      times.Pairwise (· ≤ ·) ∧ (∀ t ∈ times, t < j ∧ x.Running k t) ∧
      o = f (List.zipWith (fun v t => wordValue (x.state t).env v) words times)) ∧
    (∀ (env : Env) (envs : List Env), envs.length = words.length → ∃ (x : Execution) (j : Nat),
      x.Returned 0 j .addresses input (f (List.zipWith (fun v e => wordValue e v) words envs)) ∧
      ∀ t, (x.state t).env ∈ env :: envs) := by
  obtain ⟨words, f, h1, h2, h3, _⟩ := mixture input
  refine ⟨words, f, h1, fun x k j o h => ?_, h3⟩
  obtain ⟨times, hl, hm, ho⟩ := h2 x k j o h
  exact ⟨times, hl, hm.1, hm.2, ho⟩

/-- If the `CharsetReader` behaves the same whenever the call looks at it, the call returns what it returns in a program that does
nothing else. -/
theorem C51_steady_reader {x : Execution} {k j : Nat} {input : Bytes} {o : Obs} {d : Bytes → Option Bytes}
    (h : x.Returned k j .addresses input o) (hd : ∀ t, t < j → x.Running k t → (x.state t).env.decode = d) (P : Predictor) (year : Int) :
    o = .addresses (parseAddressList P ⟨d, year⟩ input) := by
  obtain ⟨words, f, h1, h2, h3⟩ := C51_addresses_in_any_schedule input
  obtain ⟨times, hl, hpw, hm, ho⟩ := h2 x k j o h
  rw [h1, ho]
  congr 1
  clear ho h1 h2 h h3 hpw
  induction words generalizing times with
  | nil => simp
  | cons v words ih =>
    cases times with
    | nil => simp at hl
    | cons t times =>
      simp only [List.zipWith_cons_cons, List.map_cons]
      rw [ih times (by simpa using hl) fun t ht => hm t (by simp [ht])]
      obtain ⟨h3, h4⟩ := hm t (by simp)
      simp [wordValue, hd t h3 h4]

/-- The schedule and the `CharsetReader`s have no influence on whether the input is accepted, on the error and on the number of
addresses. -/
theorem C51_outcome_in_any_schedule {x : Execution} {k j : Nat} {input : Bytes} {o : Obs} (h : x.Returned k j .addresses input o)
    (P : Predictor) (env : Env) : ∃ (l l' : AddrSlice) (err : Option Err), o = .addresses (.ok (l, err)) ∧
      parseAddressList P env input = .ok (l', err) ∧ l.map List.length = l'.map List.length := by
  obtain ⟨words, f, h1, h2, _, h4⟩ := mixture input
  obtain ⟨times, hl, _, ho⟩ := h2 x k j o h
  have hp := h1 P env
  rcases h4 (List.zipWith (fun v t => wordValue (x.state t).env v) words times) (words.map (wordValue env)) (by simp [hl]) (by simp) with
    ⟨p, h5, h6⟩ | ⟨l, l', err, h5, h6, h7⟩
  · rw [h6] at hp
    obtain ⟨_, _, h8⟩ := C02_addresses_never_panic P env input
    rw [h8] at hp; cases hp
  · rw [h6] at hp
    injection hp with hp
    exact ⟨l, l', err, ho.trans h5, hp, h7⟩

theorem running_before {x : Execution} {k j : Nat} {fn : Fn} {input : Bytes} {o : Obs} (h : x.Returned k j fn input o) (hne : input ≠ []) :
    ∃ t, t < j ∧ x.Running k t := by
  induction j with
  | zero => rw [Execution.Returned, x.start] at h; simp at h
  | succ j ih =>
    unfold Execution.Returned at h ih
    by_cases hk : k < (x.state j).calls.length
    · obtain ⟨c, hc⟩ : ∃ c, (x.state j).calls[k]? = some c := ⟨_, List.getElem?_eq_getElem hk⟩
      rcases x.next hc with ⟨_, hd, _⟩ | ⟨_, h'⟩
      · exact ⟨j, Nat.lt_succ_self j, c, hc, hd⟩
      · rw [h] at h'
        cases h'
        obtain ⟨t, ht, hr⟩ := ih hc
        exact ⟨t, Nat.lt_succ_of_lt ht, hr⟩
    · exfalso
      have ha := x.acts j
      generalize x.action j = a at ha
      generalize x.state (j + 1) = s' at ha h
      have hnone : (x.state j).calls[k]? = none := List.getElem?_eq_none (by omega)
      cases ha with
      | @call fn' input' =>
        dsimp only at h
        rw [List.getElem?_append_right (by omega)] at h
        rcases hk' : k - (x.state j).calls.length with _ | m
        · rw [hk'] at h
          simp only [List.getElem?_cons_zero, Option.some.injEq, Call.start, Call.mk.injEq] at h
          obtain ⟨_, rfl, h⟩ := h
          rw [if_neg (by simpa using hne)] at h
          cases h
        · rw [hk'] at h; simp at h
      | environment => rw [hnone] at h; cases h
      | step P' _ _ =>
        dsimp only at h
        rw [List.getElem?_eq_none (by simpa using hk)] at h
        cases h

/-- A call of `ParseDateTime` returns what it returns, in a program that does nothing else, at some moment between its
beginning and its end. -/
theorem C51_dates_are_atomic {x : Execution} {k j : Nat} {input : Bytes} {o : Obs} (h : x.Returned k j .date input o) (hne : input ≠ [])
    (P : Predictor) : ∃ t, t < j ∧ x.Running k t ∧ o = .date (parseDateTime P (x.state t).env input) := by
  have hlen : input.length ≠ 0 := by simpa using hne
  have alone := fun env => Fn.alone_eq .date P env input hlen
  rcases returned h with ⟨h', _⟩ | ⟨_, ⟨hs, ho⟩ | ⟨ts, times, hs, hm, hl, ho⟩⟩
  · exact absurd h' hlen
  · obtain ⟨t, ht, hr⟩ := running_before h hne
    refine ⟨t, ht, hr, ?_⟩
    have := alone (x.state t).env
    rw [hs] at this
    exact ho.trans this.symm
  · have hd := search_sound hs
    have hy : yearsIn (eventsList ts) ≤ 1 := Nat.le_trans (derives_years hd (by decide)) (by decide)
    have hw : ∀ e ∈ eventsList ts, e.word = none := by
      have ha := eventsList_ok _ (derives_allRules (p := fun r => r != .encodedWord) (by decide) hd (by decide))
      intro e he
      have := List.all_eq_true.mp ha e he
      cases e with
      | exit => rfl
      | enter r ts => cases r <;> first | rfl | exact absurd (show (Rule.encodedWord != Rule.encodedWord) = true from this) (by decide)
    have hnil : eventsList ts ≠ [] := by
      intro e
      cases hd with
      | rule _ => simp [eventsList, events] at e
    obtain ⟨t, ht, hp⟩ := one_year x _ times hl hy hnil
    obtain ⟨h1, h2⟩ := hm.2 t ht
    refine ⟨t, h1, h2, ?_⟩
    have := alone (x.state t).env
    rw [hs] at this
    refine ho.trans (Eq.trans ?_ this.symm)
    dsimp only
    rw [Fn.result, Fn.result, runEvents_env (env := (x.state t).env) (fun p hp' => ⟨hw _ (List.of_mem_zip hp').1, hp p hp'⟩),
      zip_fst (by rw [x.envs_length, hl])]

/-- A call that gets to run again and again, as long as it has not returned, returns — however the other calls interfere with the
prediction caches. -/
theorem C51_every_call_returns (x : Execution) {k i : Nat} {c : Call} (hc : (x.state i).calls[k]? = some c)
    (hf : ∀ j, i ≤ j → x.Running k j → ∃ j', j ≤ j' ∧ x.action j' = .step k) :
    ∃ j o, i ≤ j ∧ x.Returned k j c.fn c.input o := x.returns _ i c rfl hc hf

/-- A program that makes one call and lets it run. -/
def soloNext (fn : Fn) (input : Bytes) (s : Program) : Action × Program :=
  match s.calls with
  | [] => (.call fn input, { s with calls := s.calls ++ [Call.start fn input] })
  | c :: _ => if c.phase.isDone then (.environment s.env, s) else (.step 0, { s with calls := s.calls.set 0 (c.step s.predictor s.env) })

def soloState (fn : Fn) (input : Bytes) (s : Program) : Nat → Program
  | 0 => s
  | n + 1 => (soloNext fn input (soloState fn input s n)).2

/-- Such a call returns. -/
theorem solo (fn : Fn) (input : Bytes) (env : Env) (P : Predictor) :
    ∃ (x : Execution) (j : Nat) (o : Obs), x.Returned 0 j fn input o ∧ ∀ t, (x.state t).env = env := by
  have hnext : ∀ s : Program, s.Acts (soloNext fn input s).1 (soloNext fn input s).2 := by
    intro s
    obtain ⟨e, P, calls⟩ := s
    cases calls with
    | nil => exact .call
    | cons c cs =>
      simp only [soloNext]
      by_cases h : c.phase.isDone = true
      · rw [if_pos h]; exact .environment
      · rw [if_neg h]; exact .step (s := ⟨e, P, c :: cs⟩) (k := 0) P rfl (by simpa using h)
  have henv : ∀ n, (soloState fn input ⟨env, P, []⟩ n).env = env := by
    intro n
    induction n with
    | zero => rfl
    | succ n ih =>
      have : ∀ s, (soloNext fn input s).2.env = s.env := by
        intro s
        obtain ⟨e, P, calls⟩ := s
        cases calls with
        | nil => rfl
        | cons c cs => simp only [soloNext]; split <;> rfl
      show (soloNext fn input (soloState fn input ⟨env, P, []⟩ n)).2.env = env
      rw [this, ih]
  let x : Execution := ⟨soloState fn input ⟨env, P, []⟩, fun n => (soloNext fn input (soloState fn input ⟨env, P, []⟩ n)).1, rfl, fun n => hnext (soloState fn input ⟨env, P, []⟩ n)⟩
  have hstep : ∀ j, x.Running 0 j → x.action j = .step 0 := by
    rintro j ⟨c, hc, hd⟩
    show (soloNext fn input (soloState fn input ⟨env, P, []⟩ j)).1 = .step 0
    have hc : (soloState fn input ⟨env, P, []⟩ j).calls[0]? = some c := hc
    generalize soloState fn input ⟨env, P, []⟩ j = s at hc
    obtain ⟨e, P, calls⟩ := s
    cases calls with
    | nil => cases hc
    | cons c' cs => cases hc; simp only [soloNext, hd]; rfl
  obtain ⟨j, o, _, h⟩ := C51_every_call_returns x (k := 0) (i := 1) (c := Call.start fn input) rfl
    (fun j _ hr => ⟨j, Nat.le_refl _, hstep j hr⟩)
  exact ⟨x, j, o, h, henv⟩

example (fn : Fn) (P : Predictor) (env : Env) : ∃ (x : Execution) (j : Nat) (o : Obs), x.Returned 0 j fn b!"a@b" o ∧ ∀ t, (x.state t).env = env :=
  solo fn _ env P

/-- A call of `ParseAddressList` is not atomic: when `CharsetReader` is changed while it runs, it may return what it returns with
neither of the two. -/
theorem C51_not_atomic : ∃ (d₁ d₂ : Bytes → Option Bytes) (input : Bytes) (x : Execution) (j : Nat) (o : Obs),
    x.Returned 0 j .addresses input o ∧ (∀ t, (x.state t).env.decode = d₁ ∨ (x.state t).env.decode = d₂) ∧
    ∀ (P : Predictor) (year : Int), o ≠ .addresses (parseAddressList P ⟨d₁, year⟩ input) ∧ o ≠ .addresses (parseAddressList P ⟨d₂, year⟩ input) := by
  let d₁ : Bytes → Option Bytes := fun _ => some b!"1"
  let d₂ : Bytes → Option Bytes := fun _ => some b!"2"
  let input := b!"=?a?q?x?= =?a?q?y?= <a@b>"
  let choose : Bytes → Env := fun v => if v = b!"=?a?q?x?=" then ⟨d₁, 2024⟩ else ⟨d₂, 2024⟩
  let mix : Env := ⟨fun v => (choose v).decode v, 2024⟩
  obtain ⟨words, f, h1, h2, h3⟩ := C51_addresses_in_any_schedule input
  obtain ⟨x, j, hr, hE⟩ := h3 ⟨d₁, 2024⟩ (words.map choose) (by simp)
  refine ⟨d₁, d₂, input, x, j, _, hr, ?_, ?_⟩
  · intro t
    have := hE t
    simp only [List.mem_cons, List.mem_map] at this
    rcases this with h | ⟨v, _, h⟩
    · exact .inl (by rw [h])
    · rw [← h]
      by_cases hv : v = b!"=?a?q?x?="
      · exact .inl (by simp [choose, hv])
      · exact .inr (by simp [choose, hv])
  · intro P year
    have e : List.zipWith (fun v e => wordValue e v) words (words.map choose) = words.map (wordValue mix) := by
      clear hr hE h1 h2 h3
      induction words with
      | nil => rfl
      | cons v words ih => simp only [List.map_cons, List.zipWith_cons_cons]; rw [ih]; rfl
    rw [e, ← h1 P mix]
    have hmix : parseAddressList P mix input = .ok (some [⟨b!"12", b!"a@b"⟩], none) := by eval_addr
    have h₁ : parseAddressList P ⟨d₁, year⟩ input = .ok (some [⟨b!"11", b!"a@b"⟩], none) := by
      refine (parseAddressList_clock P (env := ⟨d₁, year⟩) (env' := ⟨d₁, 2024⟩) rfl input).trans ?_; eval_addr
    have h₂ : parseAddressList P ⟨d₂, year⟩ input = .ok (some [⟨b!"22", b!"a@b"⟩], none) := by
      refine (parseAddressList_clock P (env := ⟨d₂, year⟩) (env' := ⟨d₂, 2024⟩) rfl input).trans ?_; eval_addr
    rw [hmix, h₁, h₂]
    exact ⟨by simp, by simp⟩

end Rfc5322.Props
