import Verif.Proofs.GoShared

/-!
# C63: calls running at the same time, one access to the heap after the other

`Verif/Model/GoShared.lean` says what can happen: any number of calls of the two functions, as written in /repo, in any worlds, begin and go on in any order, by single
accesses to the common heap; the rest of the program makes objects and overwrites those that no running call has made.
-/

namespace Rfc5322.Props

open Spec Go

/-! ## Nothing is shared -/

/-- A call reads and writes only objects it has made itself. -/
theorem C63_only_own_objects {s : State} (r : Reachable s) {c : Call} (hc : c ∈ s.calls) {a : Nat} (h : c.about a) : a ∈ c.made := by
  have no : c.over = false := by
    cases ho : c.over with
    | false => rfl
    | true =>
      obtain ⟨vs, e⟩ := over_ret r c hc ho
      rcases h with ⟨k, h⟩ | ⟨o, k, h⟩ <;> rw [e] at h <;> cases h
  obtain ⟨f₀, k⟩ := r.fine.same c hc no
  obtain ⟨h₀, m, hr, run, mr⟩ := k f₀ fun _ _ => rfl
  rcases h with ⟨k, h⟩ | ⟨o, k, h⟩
  · rw [h] at mr
    cases mr with
    | load e _ => exact List.mem_of_getElem? e
  · rw [h] at mr
    cases mr with
    | store e _ _ => exact List.mem_of_getElem? e

/-- No object has been made by two calls. -/
theorem C63_nothing_shared {s : State} (r : Reachable s) {i j : Nat} {c d : Call} (hi : s.calls[i]? = some c) (hj : s.calls[j]? = some d) (ne : i ≠ j)
    {a : Nat} (hc : a ∈ c.made) : a ∉ d.made := r.fine.apart hi hj ne a hc

/-- No data races: two calls are never about to access the same object, be it for reading or for writing. -/
theorem C63_no_races {s : State} (r : Reachable s) {i j : Nat} {c d : Call} (hi : s.calls[i]? = some c) (hj : s.calls[j]? = some d) (ne : i ≠ j)
    {a : Nat} (hc : c.about a) : ¬ d.about a :=
  fun hd => r.fine.apart hi hj ne a (C63_only_own_objects r (List.mem_of_getElem? hi) hc) (C63_only_own_objects r (List.mem_of_getElem? hj) hd)

/-- An access of a call changes no object but its own: not those of other calls, not those of the rest of the program. -/
theorem C63_others_unchanged {s s' : State} (r : Reachable s) {i : Nat} (n : Next (some i) s s') {c : Call} (hi : s.calls[i]? = some c)
    {a : Nat} (ha : a < s.heap.length) (hm : a ∉ c.made) : s'.heap[a]? = s.heap[a]? := by
  cases n with
  | @access h cs h' _ c' code new hi' x =>
    rw [hi] at hi'
    cases hi'
    have mi : c ∈ cs := List.mem_of_getElem? hi
    have no : c.over = false := by
      cases ho : c.over with
      | false => rfl
      | true =>
        obtain ⟨vs, e⟩ := over_ret r c mi ho
        rw [e] at x
        cases x
    exact (Access.outside (r.fine.own c mi) (r.fine.same c mi no) x).1 a ha hm

/-! ## Every call gives what it would give alone -/

theorem shared_result {s : State} (r : Reachable s) {c : Call} (hc : c ∈ s.calls) (no : c.over = false) {vs : List Val} (e : c.code = .ret vs) :
    ∃ f h₀ us, (c.function.code (c.world.growing f) c.nesting c.input).run [] = .ok (us, h₀) ∧ HR c.made h₀ s.heap ∧ VL c.made us vs := by
  obtain ⟨f₀, k⟩ := r.fine.same c hc no
  obtain ⟨h₀, m, hr, run, mr⟩ := k f₀ fun _ _ => rfl
  rw [e] at mr
  cases mr with
  | ret v => exact ⟨f₀, h₀, _, run, hr, v⟩

theorem errorIs_VR {ρ err v u} (h : errorIs err v) (r : VR ρ v u) : errorIs err u := by
  cases err with
  | none => cases (show v = .nil from h); exact VR_nil.1 r
  | some x =>
    cases x with
    | syntaxError => obtain ⟨msg, rfl⟩ := h; exact ⟨msg, VR_err.1 r⟩
    | _ => cases h; exact VR_err.1 r

/-- A call of `ParseAddressList` that has come to its end delivers what `parseAddressList` says about its input, whatever has happened meanwhile. -/
theorem C63_addresses {s : State} (r : Reachable s) (P : Predictor) {c : Call} (hc : c ∈ s.calls) (hf : c.function = .parseAddressList) (no : c.over = false)
    {vs : List Val} (e : c.code = .ret vs) : ∃ slice err v x, vs = [v, x] ∧ parseAddressList P c.world.env c.input = .ok (slice, err) ∧
      readSlice s.heap v = some slice ∧ errorIs err x := by
  obtain ⟨f, h₀, us, run, hr, vl⟩ := shared_result r hc no e
  obtain ⟨slice, err, v, x, h', run', ok, rd, er⟩ := C61_addresses (c.world.growing f) P (r.fine.nesting c hc) [] c.input
  rw [hf] at run
  rw [show (Function.parseAddressList.code (c.world.growing f) c.nesting c.input).run [] = _ from run'] at run
  simp only [Except.ok.injEq, Prod.mk.injEq] at run
  obtain ⟨rfl, rfl⟩ := run
  cases vl with
  | cons r₁ vl => cases vl with
    | cons r₂ vl => cases vl with
      | nil => exact ⟨slice, err, _, _, rfl, ok, (readSlice_HR hr r₁).trans rd, errorIs_VR er r₂⟩

/-- The same for `ParseDateTime`. -/
theorem C63_dates {s : State} (r : Reachable s) (P : Predictor) {c : Call} (hc : c ∈ s.calls) (hf : c.function = .parseDateTime) (no : c.over = false)
    {vs : List Val} (e : c.code = .ret vs) : ∃ t err x, vs = [.time t, x] ∧ parseDateTime P c.world.env c.input = .ok (t, err) ∧ errorIs err x := by
  obtain ⟨f, h₀, us, run, hr, vl⟩ := shared_result r hc no e
  obtain ⟨t, err, x, h', run', ok, er⟩ := C61_dates (c.world.growing f) P (r.fine.nesting c hc) [] c.input
  rw [hf] at run
  rw [show (Function.parseDateTime.code (c.world.growing f) c.nesting c.input).run [] = _ from run'] at run
  simp only [Except.ok.injEq, Prod.mk.injEq] at run
  obtain ⟨rfl, rfl⟩ := run
  cases vl with
  | cons r₁ vl => cases vl with
    | cons r₂ vl => cases vl with
      | nil =>
        rw [VR_time] at r₁
        subst r₁
        exact ⟨t, err, _, rfl, ok, errorIs_VR er r₂⟩

/-- Without the model of the parser in between: the language of `Verif/Spec/Address.lean`. -/
theorem C63_addresses_language {s : State} (r : Reachable s) {c : Call} (hc : c ∈ s.calls) (hf : c.function = .parseAddressList) (no : c.over = false)
    {vs : List Val} (e : c.code = .ret vs) (hne : c.input ≠ []) :
    (∃ l v, AddressList c.world.env (tokens c.input) l ∧ vs = [v, .nil] ∧ readSlice s.heap v = some (goSlice l)) ∨
    ((∀ l, ¬ AddressList c.world.env (tokens c.input) l) ∧ ∃ v,
      vs = [v, .err (.new (b!"error parsing rfc5322 input: " ++
        (c.world.message .addressList c.input :: c.world.messages .addressList c.input).getLast (by simp)))] ∧ readSlice s.heap v = some none) := by
  obtain ⟨f, h₀, us, run, hr, vl⟩ := shared_result r hc no e
  rw [hf] at run
  rcases C61_addresses_language (c.world.growing f) (r.fine.nesting c hc) [] hne with ⟨l, v, h', hl, run', rd⟩ | ⟨hl, v, h', run', rd⟩
  · rw [show (Function.parseAddressList.code (c.world.growing f) c.nesting c.input).run [] = _ from run'] at run
    simp only [Except.ok.injEq, Prod.mk.injEq] at run
    obtain ⟨rfl, rfl⟩ := run
    rw [VL_cons] at vl
    obtain ⟨u, r₁, us, vl, rfl⟩ := vl
    rw [VL_cons] at vl
    obtain ⟨u', r₂, us, vl, rfl⟩ := vl
    rw [VL_nil] at vl
    rw [VR_nil] at r₂
    subst vl r₂
    exact .inl ⟨l, u, hl, rfl, (readSlice_HR hr r₁).trans rd⟩
  · rw [show (Function.parseAddressList.code (c.world.growing f) c.nesting c.input).run [] = _ from run'] at run
    simp only [Except.ok.injEq, Prod.mk.injEq] at run
    obtain ⟨rfl, rfl⟩ := run
    rw [VL_cons] at vl
    obtain ⟨u, r₁, us, vl, rfl⟩ := vl
    rw [VL_cons] at vl
    obtain ⟨u', r₂, us, vl, rfl⟩ := vl
    rw [VL_nil] at vl
    rw [VR_err] at r₂
    subst vl r₂
    exact .inr ⟨hl, u, rfl, (readSlice_HR hr r₁).trans rd⟩

/-- The same for `ParseDateTime`. -/
theorem C63_dates_language {s : State} (r : Reachable s) {c : Call} (hc : c ∈ s.calls) (hf : c.function = .parseDateTime) (no : c.over = false)
    {vs : List Val} (e : c.code = .ret vs) (hne : c.input ≠ []) :
    (∃ d, DateTime c.world.env.nowYear (tokens c.input) d ∧ vs = [.time d.time, .nil]) ∨
    ((∀ d, ¬ DateTime c.world.env.nowYear (tokens c.input) d) ∧
      vs = [.time ⟨-62135596800, ⟨b!"UTC", 0⟩⟩, .err (.new (b!"error parsing rfc5322 input: " ++
        (c.world.message .dateTime c.input :: c.world.messages .dateTime c.input).getLast (by simp)))]) := by
  obtain ⟨f, h₀, us, run, hr, vl⟩ := shared_result r hc no e
  rw [hf] at run
  rcases C61_dates_language (c.world.growing f) (r.fine.nesting c hc) [] hne with ⟨d, h', hl, run'⟩ | ⟨hl, h', run'⟩
  · rw [show (Function.parseDateTime.code (c.world.growing f) c.nesting c.input).run [] = _ from run'] at run
    simp only [Except.ok.injEq, Prod.mk.injEq] at run
    obtain ⟨rfl, rfl⟩ := run
    rw [VL_cons] at vl
    obtain ⟨u, r₁, us, vl, rfl⟩ := vl
    rw [VL_cons] at vl
    obtain ⟨u', r₂, us, vl, rfl⟩ := vl
    rw [VL_nil] at vl
    rw [VR_nil] at r₂
    rw [VR_time] at r₁
    subst vl r₂ r₁
    exact .inl ⟨d, hl, rfl⟩
  · rw [show (Function.parseDateTime.code (c.world.growing f) c.nesting c.input).run [] = _ from run'] at run
    simp only [Except.ok.injEq, Prod.mk.injEq] at run
    obtain ⟨rfl, rfl⟩ := run
    rw [VL_cons] at vl
    obtain ⟨u, r₁, us, vl, rfl⟩ := vl
    rw [VL_cons] at vl
    obtain ⟨u', r₂, us, vl, rfl⟩ := vl
    rw [VL_nil] at vl
    rw [VR_err] at r₂
    rw [VR_time] at r₁
    subst vl r₂ r₁
    exact .inr ⟨hl, rfl⟩

/-- The slice and its elements are objects of the call. -/
theorem C63_results_are_own {s : State} (r : Reachable s) {c : Call} (hc : c ∈ s.calls) (no : c.over = false) {vs : List Val} (e : c.code = .ret vs)
    {v : Val} (hv : v ∈ vs) {a : Nat} (ha : a ∈ refersTo s.heap v) : a ∈ c.made := by
  obtain ⟨f, h₀, us, run, hr, vl⟩ := shared_result r hc no e
  clear run e
  induction vl with
  | nil => simp at hv
  | cons r₁ _ ih =>
    simp only [List.mem_cons] at hv
    rcases hv with rfl | hv
    · exact refersTo_HR hr r₁ a ha
    · exact ih hv

/-- What happens after the end of a call while the rest of the program leaves the objects `own` alone; calls go on as ever. -/
inductive After (own : List Nat) : State → State → Prop
  | refl (s) : After own s s
  | next {s s' s'' l} : After own s s' → Next l s' s'' → (l = none → ∀ a ∈ own, s''.heap[a]? = s'.heap[a]?) → After own s s''

theorem After.keeps {own s s'} (k : After own s s') {i : Nat} {c : Call} {vs : List Val} (hi : s.calls[i]? = some c) (e : c.code = .ret vs) :
    ∃ c', s'.calls[i]? = some c' ∧ c'.code = .ret vs ∧ c'.made = c.made := by
  induction k with
  | refl => exact ⟨c, hi, e, rfl⟩
  | next _ n _ ih =>
    obtain ⟨c', hi', e', m'⟩ := ih
    cases n with
    | call => exact ⟨c', by rw [List.getElem?_append_left (List.getElem?_eq_some_iff.1 hi').1]; exact hi', e', m'⟩
    | @access h cs h' j d code new hj a =>
      by_cases ij : j = i
      · subst ij
        rw [hi'] at hj
        cases hj
        rw [e'] at a
        cases a
      · exact ⟨c', by rw [List.getElem?_set_ne ij]; exact hi', e', m'⟩
    | @over h cs j d us hj a =>
      by_cases ij : j = i
      · subst ij
        rw [hi'] at hj
        cases hj
        exact ⟨{ c' with over := true }, List.getElem?_set_self (List.getElem?_eq_some_iff.1 hi').1, e', m'⟩
      · exact ⟨c', by rw [List.getElem?_set_ne ij]; exact hi', e', m'⟩
    | other => exact ⟨c', hi', e', m'⟩
    | write => exact ⟨c', hi', e', m'⟩

/-- The result of a call stays as it is, whatever other calls do, as long as the rest of the program leaves the slice and its elements alone. -/
theorem C63_results_last {s s' : State} (r : Reachable s) {i : Nat} {c : Call} (hi : s.calls[i]? = some c) (no : c.over = false) {vs : List Val}
    (e : c.code = .ret vs) {v : Val} (hv : v ∈ vs) (k : After (refersTo s.heap v) s s') : readSlice s'.heap v = readSlice s.heap v := by
  have own : ∀ a ∈ refersTo s.heap v, a ∈ c.made := fun a ha => C63_results_are_own r (List.mem_of_getElem? hi) no e hv ha
  have lt : ∀ a ∈ c.made, a < s.heap.length := (r.fine.own c (List.mem_of_getElem? hi)).lt
  have key : Reachable s' ∧ (∀ a ∈ refersTo s.heap v, s'.heap[a]? = s.heap[a]?) := by
    clear hv
    generalize refersTo s.heap v = l at *
    induction k with
    | refl => exact ⟨r, fun _ _ => rfl⟩
    | @next s₁ s₂ l' k n still ih =>
      obtain ⟨r₁, keep⟩ := ih
      refine ⟨.next r₁ n, fun a ha => ?_⟩
      rw [← keep a ha]
      cases l' with
      | none => exact still rfl a ha
      | some j =>
        obtain ⟨c', hi', e', m'⟩ := k.keeps hi e
        have la : a < s₁.heap.length := by
          have := (r₁.fine.own c' (List.mem_of_getElem? hi')).lt a (by rw [m']; exact own a ha)
          exact this
        obtain ⟨d, hj⟩ : ∃ d, s₁.calls[j]? = some d := by cases n with | access hj _ => exact ⟨_, hj⟩
        refine C63_others_unchanged r₁ n hj la fun md => ?_
        by_cases ij : i = j
        · subst ij
          rw [hi'] at hj
          cases hj
          cases n with
          | access hj x =>
            rw [hi'] at hj
            cases hj
            rw [e'] at x
            cases x
        · exact C63_nothing_shared r₁ hi' hj ij (by rw [m']; exact own a ha) md
  exact readSlice_congr key.2

/-! ## Every call comes to its end -/

/-- A call that is not at its end can go on, whatever the others do: it does not panic and does not wait for anybody. -/
theorem C63_no_waiting {s : State} (r : Reachable s) {i : Nat} {c : Call} (hi : s.calls[i]? = some c) : (∃ vs, c.code = .ret vs) ∨ ∃ s', Next (some i) s s' := by
  obtain ⟨h, cs⟩ := s
  cases ho : c.over with
  | true => exact .inl (over_ret r c (List.mem_of_getElem? hi) ho)
  | false =>
    obtain ⟨f₀, k⟩ := r.fine.same c (List.mem_of_getElem? hi) ho
    obtain ⟨h₀, m, hr, run, mr⟩ := k f₀ fun _ _ => rfl
    have no : ∀ x, m ≠ .fault x := by
      rintro x rfl
      obtain ⟨P⟩ := Predictor.nonempty
      cases hf : c.function with
      | parseAddressList =>
        obtain ⟨slice, err, v, x, h', run', -⟩ := C61_addresses (c.world.growing f₀) P (r.fine.nesting c (List.mem_of_getElem? hi)) [] c.input
        rw [hf, show (Function.parseAddressList.code (c.world.growing f₀) c.nesting c.input).run [] = _ from run', M.run] at run
        cases run
      | parseDateTime =>
        obtain ⟨slice, err, v, h', run', -⟩ := C61_dates (c.world.growing f₀) P (r.fine.nesting c (List.mem_of_getElem? hi)) [] c.input
        rw [hf, show (Function.parseDateTime.code (c.world.growing f₀) c.nesting c.input).run [] = _ from run', M.run] at run
        cases run
    generalize hc : c.code = code at mr
    cases mr with
    | ret => exact .inl ⟨_, rfl⟩
    | fault => exact (no _ rfl).elim
    | alloc => exact .inr ⟨_, .access hi (by rw [hc]; exact .alloc)⟩
    | load e _ =>
      obtain ⟨o, o', -, e', -⟩ := hr.objects e
      exact .inr ⟨_, .access hi (by rw [hc]; exact .load e')⟩
    | store e _ _ =>
      obtain ⟨o, o', -, e', -⟩ := hr.objects e
      exact .inr ⟨_, .access hi (by rw [hc]; exact .store (getElem?_lt e'))⟩
    | grow => exact .inr ⟨_, .access hi (by rw [hc]; exact .grow)⟩

/-- Code after an access. -/
def Succ {α : Type} (m' m : M α) : Prop := ∃ h h' new, Access m h m' h' new

theorem Succ.acc {α : Type} : ∀ m : M α, Acc Succ m
  | .ret _ => ⟨_, fun _ ⟨_, _, _, a⟩ => nomatch a⟩
  | .fault _ => ⟨_, fun _ ⟨_, _, _, a⟩ => nomatch a⟩
  | .alloc _ k => ⟨_, fun _ ⟨_, _, _, a⟩ => by cases a; exact Succ.acc _⟩
  | .load _ k => ⟨_, fun _ ⟨_, _, _, a⟩ => by cases a; exact Succ.acc _⟩
  | .store _ _ k => ⟨_, fun _ ⟨_, _, _, a⟩ => by cases a; exact Succ.acc _⟩
  | .grow _ _ k => ⟨_, fun _ ⟨_, _, _, a⟩ => by cases a; exact Succ.acc _⟩

theorem Next.code {l s s'} (n : Next l s s') {i : Nat} {c : Call} (hi : s.calls[i]? = some c) : ∃ c', s'.calls[i]? = some c' ∧ (l ≠ some i → c'.code = c.code) ∧ (l = some i → Succ c'.code c.code) := by
  cases n with
  | call => exact ⟨c, by rw [List.getElem?_append_left (List.getElem?_eq_some_iff.1 hi).1]; exact hi, fun _ => rfl, nofun⟩
  | @access h cs h' j d code new hj a =>
    by_cases ij : j = i
    · subst ij
      rw [hi] at hj
      cases hj
      exact ⟨_, List.getElem?_set_self (List.getElem?_eq_some_iff.1 hi).1, fun h => (h rfl).elim, fun _ => ⟨_, _, _, a⟩⟩
    · exact ⟨c, by rw [List.getElem?_set_ne ij]; exact hi, fun _ => rfl, fun e => (ij (Option.some.inj e)).elim⟩
  | @over h cs j d us hj a =>
    by_cases ij : j = i
    · subst ij
      rw [hi] at hj
      cases hj
      exact ⟨_, List.getElem?_set_self (List.getElem?_eq_some_iff.1 hi).1, fun _ => rfl, nofun⟩
    · exact ⟨c, by rw [List.getElem?_set_ne ij]; exact hi, fun _ => rfl, nofun⟩
  | other => exact ⟨c, hi, fun _ => rfl, nofun⟩
  | write => exact ⟨c, hi, fun _ => rfl, nofun⟩

theorem Next.has {i s s'} (n : Next (some i) s s') : ∃ c, s.calls[i]? = some c := by
  cases n with
  | access hi _ => exact ⟨_, hi⟩

/-- In an execution that goes on for ever every call makes finitely many accesses.  So, by `C63_no_waiting`, a call that always gets its turn again reaches its end. -/
theorem C63_finishes (s : Nat → State) (l : Nat → Option Nat) (run : ∀ n, Next (l n) (s n) (s (n + 1))) (i : Nat) : ∃ n, ∀ m, n ≤ m → l m ≠ some i := by
  have key : ∀ code : M (List Val), ∀ n c, (s n).calls[i]? = some c → c.code = code → ∃ n, ∀ m, n ≤ m → l m ≠ some i := by
    intro code
    induction Succ.acc code with
    | intro code _ ih =>
      intro n c hi e
      by_cases h : ∃ d, l (n + d) = some i
      · have first : ∃ d, l (n + d) = some i ∧ ∀ d', d' < d → l (n + d') ≠ some i := by
          classical
          exact ⟨Nat.find h, Nat.find_spec h, fun d' hd => Nat.find_min h hd⟩
        obtain ⟨d, hd, before⟩ := first
        have same : ∀ k, k ≤ d → ∃ c', (s (n + k)).calls[i]? = some c' ∧ c'.code = code := by
          intro k hk
          induction k with
          | zero => exact ⟨c, hi, e⟩
          | succ k ihk =>
            obtain ⟨c', hi', e'⟩ := ihk (by omega)
            obtain ⟨c'', h1, h2, -⟩ := Next.code (run (n + k)) hi'
            exact ⟨c'', h1, (h2 (before k (by omega))).trans e'⟩
        obtain ⟨c', hi', e'⟩ := same d (Nat.le_refl _)
        obtain ⟨c'', h1, -, h2⟩ := Next.code (run (n + d)) hi'
        exact ih c''.code (e' ▸ h2 hd) (n + d + 1) c'' h1 rfl
      · exact ⟨n, fun m hm hl => h ⟨m - n, by rw [Nat.add_sub_cancel' hm]; exact hl⟩⟩
  by_cases h : ∃ n, l n = some i
  · obtain ⟨n, hn⟩ := h
    obtain ⟨c, hi⟩ := Next.has (hn ▸ run n)
    exact key c.code n c hi rfl
  · exact ⟨0, fun m _ hm => h ⟨m, hm⟩⟩

/-- Accesses of one call only. -/
inductive Alone (i : Nat) : State → State → Prop
  | refl (s) : Alone i s s
  | next {s s' s''} : Next (some i) s s' → Alone i s' s'' → Alone i s s''

theorem Alone.reachable {i s s'} (k : Alone i s s') : Reachable s → Reachable s' := by
  induction k with
  | refl => exact id
  | next n _ ih => exact fun r => ih (.next r n)

/-- At any time a call can be brought to its end by its own accesses alone. -/
theorem C63_can_finish {s : State} (r : Reachable s) {i : Nat} {c : Call} (hi : s.calls[i]? = some c) :
    ∃ s' c' vs, Alone i s s' ∧ s'.calls[i]? = some c' ∧ c'.code = .ret vs := by
  generalize e : c.code = code
  induction Succ.acc code generalizing s c with
  | intro code _ ih =>
    rcases C63_no_waiting r hi with ⟨vs, h⟩ | ⟨s', n⟩
    · exact ⟨s, c, vs, .refl s, hi, h⟩
    · obtain ⟨c', hi', -, h⟩ := Next.code n hi
      obtain ⟨s'', c'', vs, a, b, d⟩ := ih _ (e ▸ h rfl) (.next r n) hi' rfl
      exact ⟨s'', c'', vs, .next n a, b, d⟩

/-! ## A concrete case -/

theorem Next.others {i s s'} (n : Next (some i) s s') : s'.calls.length = s.calls.length ∧ (∀ j, j ≠ i → s'.calls[j]? = s.calls[j]?) ∧
    ∀ c, s.calls[i]? = some c → ∃ code made, s'.calls[i]? = some { c with code := code, made := made } := by
  cases n with
  | access hi _ =>
    refine ⟨by simp, fun j ne => List.getElem?_set_ne (Ne.symm ne), fun c hc => ?_⟩
    cases hi.symm.trans hc
    exact ⟨_, _, List.getElem?_set_self (List.getElem?_eq_some_iff.1 hi).1⟩

theorem Alone.others {i s s'} (k : Alone i s s') : s'.calls.length = s.calls.length ∧ (∀ j, j ≠ i → s'.calls[j]? = s.calls[j]?) ∧
    ∀ c, s.calls[i]? = some c → ∃ code made, s'.calls[i]? = some { c with code := code, made := made } := by
  induction k with
  | refl => exact ⟨rfl, fun _ _ => rfl, fun c h => ⟨c.code, c.made, h⟩⟩
  | next n _ ih =>
    obtain ⟨l, o, m⟩ := Next.others n
    refine ⟨ih.1.trans l, fun j ne => (ih.2.1 j ne).trans (o j ne), fun c hc => ?_⟩
    obtain ⟨code, made, h⟩ := m c hc
    obtain ⟨code', made', h'⟩ := ih.2.2 _ h
    exact ⟨code', made', h'⟩

/-- Two calls whose accesses alternate at first and that both come to their end; the first is over, and its slice has been overwritten by its owner, before
the second has finished. -/
example (W : World) (hW : W.env = env0) : ∃ s, Reachable s ∧ ∃ c d v u, s.calls = [c, d] ∧ c.input = utf8 c!"c@d" ∧ d.input = utf8 c!"g: Joe <a@b>;" ∧
    c.over = true ∧ d.over = false ∧ c.code = .ret [v, .nil] ∧ d.code = .ret [u, .nil] ∧ readSlice s.heap u = some (some [⟨b!"Joe", b!"a@b"⟩]) ∧
    c.made ≠ [] ∧ d.made ≠ [] := by
  obtain ⟨P⟩ := Predictor.nonempty
  -- both calls begin, each makes one access
  have r₂ : Reachable ⟨[], [⟨.parseAddressList, utf8 c!"c@d", W, 3, goParseAddressList W 3 (utf8 c!"c@d"), [], false⟩,
      ⟨.parseAddressList, utf8 c!"g: Joe <a@b>;", W, 3, goParseAddressList W 3 (utf8 c!"g: Joe <a@b>;"), [], false⟩]⟩ :=
    .next (.next (.start []) (.call .parseAddressList (utf8 c!"c@d") W 3 (Nat.le_refl 3))) (.call .parseAddressList (utf8 c!"g: Joe <a@b>;") W 3 (Nat.le_refl 3))
  obtain ⟨o₁, k₁, e₁⟩ : ∃ o k, goParseAddressList W 3 (utf8 c!"c@d") = .alloc o k := ⟨_, _, rfl⟩
  obtain ⟨o₂, k₂, e₂⟩ : ∃ o k, goParseAddressList W 3 (utf8 c!"g: Joe <a@b>;") = .alloc o k := ⟨_, _, rfl⟩
  rw [e₁, e₂] at r₂
  have r₃ := Reachable.next r₂ (.access (i := 0) rfl .alloc)
  have r₄ := Reachable.next r₃ (.access (i := 1) rfl .alloc)
  -- the first is run to its end
  obtain ⟨s₅, c₅, vs, a₅, h₅, ret₅⟩ := C63_can_finish r₄ (i := 0) rfl
  have r₅ := a₅.reachable r₄
  obtain ⟨l₅, o₅, m₅⟩ := a₅.others
  obtain ⟨code₅, made₅, i₅⟩ := m₅ _ rfl
  rw [h₅] at i₅
  cases i₅
  have j₅ := o₅ 1 (by decide)
  obtain ⟨slice, err, v, x, rfl, ok, rd, er⟩ := C63_addresses r₅ P (List.mem_of_getElem? h₅) rfl rfl ret₅
  rw [show W.env = env0 from hW, show parseAddressList P env0 (utf8 c!"c@d") = .ok (some [⟨b!"", b!"c@d"⟩], none) by eval_addr] at ok
  cases ok
  cases (show x = .nil from er)
  have r₆ := Reachable.next r₅ (.over h₅ ret₅)
  obtain ⟨h, cs⟩ := s₅
  obtain ⟨c, d, rfl⟩ : ∃ c d, cs = [c, d] := by
    match cs, l₅ with
    | [c, d], _ => exact ⟨c, d, rfl⟩
  cases Option.some.inj h₅
  cases Option.some.inj j₅
  -- its owner overwrites the array
  obtain ⟨a, len, cap, rfl⟩ : ∃ a len cap, v = .slice (.ptr .«mail.Address») (some a) len cap := by
    unfold readSlice at rd
    split at rd
    · cases rd
    · exact ⟨_, _, _, rfl⟩
    · cases rd
  have ma := C63_results_are_own r₅ (List.mem_cons_self ..) rfl ret₅ (List.mem_cons_self ..) (a := a) (by simp [refersTo])
  have na := C63_nothing_shared r₅ (i := 0) (j := 1) rfl rfl (by decide) ma
  have r₇ := Reachable.next r₆ (.write a (.array []) (by
    intro c mc ho
    rcases List.mem_cons.1 mc with rfl | mc
    · cases ho
    · rcases List.mem_cons.1 mc with rfl | mc
      · exact na
      · cases mc))
  -- then the second is run to its end
  obtain ⟨s₈, c₈, us, a₈, h₈, ret₈⟩ := C63_can_finish r₇ (i := 1) rfl
  have r₈ := a₈.reachable r₇
  obtain ⟨l₈, o₈, m₈⟩ := a₈.others
  obtain ⟨code₈, made₈, i₈⟩ := m₈ _ rfl
  rw [h₈] at i₈
  cases i₈
  obtain ⟨slice, err, u, x, rfl, ok, rd', er'⟩ := C63_addresses r₈ P (List.mem_of_getElem? h₈) rfl rfl ret₈
  rw [show W.env = env0 from hW, show parseAddressList P env0 (utf8 c!"g: Joe <a@b>;") = .ok (some [⟨b!"Joe", b!"a@b"⟩], none) by eval_addr] at ok
  cases ok
  cases (show x = .nil from er')
  have j₈ := o₈ 0 (by decide)
  obtain ⟨h', cs⟩ := s₈
  obtain ⟨c, d, rfl⟩ : ∃ c d, cs = [c, d] := by
    match cs, l₈ with
    | [c, d], _ => exact ⟨c, d, rfl⟩
  cases Option.some.inj h₈
  cases Option.some.inj j₈
  refine ⟨_, r₈, _, _, _, _, rfl, rfl, rfl, rfl, rfl, ret₅, ret₈, rd', fun e => ?_, fun e => ?_⟩
  · rw [e] at ma
    cases ma
  · obtain ⟨b, len, cap, rfl⟩ : ∃ a len cap, u = .slice (.ptr .«mail.Address») (some a) len cap := by
      unfold readSlice at rd'
      split at rd'
      · cases rd'
      · exact ⟨_, _, _, rfl⟩
      · cases rd'
    have mb := C63_results_are_own r₈ (List.mem_of_getElem? (i := 1) rfl) rfl ret₈ (List.mem_cons_self ..) (a := b) (by simp [refersTo])
    rw [e] at mb
    cases mb

end Rfc5322.Props
