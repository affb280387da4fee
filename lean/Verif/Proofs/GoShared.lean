import Verif.Proofs.GoRel2
import Verif.Model.GoShared
import Verif.Props.Source

/-!
# Calls running at the same time: invariant

Every call does what a call alone on an empty heap would do, with other addresses (`MR`, `Verif/Proofs/GoRel.lean`), and with a growth of slices as if it had been chosen
in advance.
-/

set_option linter.constructorNameAsVariable false
set_option linter.unusedVariables false

namespace Rfc5322.Go

open Props

/-- The same world with another growth of slices: `f` says what an array made when there are so many objects gets, if that suffices. -/
def World.growing (W : World) (f : Nat → Nat) : World :=
  { W with grow := fun h _ n => max (f h.length) n, grow_ge := fun _ _ _ => Nat.le_max_right .. }

theorem growing_twin (W : World) (f : Nat → Nat) : Twin f (W.growing f).setting W.setting := ⟨rfl, rfl, rfl, rfl, rfl, fun _ _ _ => rfl⟩

theorem code_MR (W : World) (f : Nat → Nat) (n : Nat) (input : Bytes) (g : Function) : MR f VL [] (g.code (W.growing f) n input) (g.code W n input) := by
  cases g with
  | parseAddressList => exact callFn_MR (growing_twin W f) _ n _ _ _ _ (.cons (.flat rfl) .nil)
  | parseDateTime => exact callFn_MR (growing_twin W f) _ n _ _ _ _ (.cons (.flat rfl) .nil)

/-- The objects of a call alone, and those it has made on the common heap. -/
structure HR (ρ : List Nat) (h₀ h : Heap) : Prop where
  length : h₀.length = ρ.length
  objects : ∀ {i b : Nat}, ρ[i]? = some b → ∃ o o', h₀[i]? = some o ∧ h[b]? = some o' ∧ OR ρ o o'

/-- A call does what it would do alone. -/
def Same (c : Call) (h : Heap) : Prop := ∃ f₀ : Nat → Nat, ∀ f, (∀ i, i < c.made.length → f i = f₀ i) → ∃ h₀ m,
  HR c.made h₀ h ∧ (c.function.code (c.world.growing f) c.nesting c.input).run [] = m.run h₀ ∧ MR f VL c.made m c.code

/-- The objects a call has made. -/
structure Own (c : Call) (h : Heap) : Prop where
  nodup : c.made.Nodup
  lt : ∀ a ∈ c.made, a < h.length

/-- Invariant. -/
structure Fine (s : State) : Prop where
  nesting : ∀ c ∈ s.calls, 3 ≤ c.nesting
  own : ∀ c ∈ s.calls, Own c s.heap
  same : ∀ c ∈ s.calls, c.over = false → Same c s.heap
  apart : ∀ {i j : Nat} {c d : Call}, s.calls[i]? = some c → s.calls[j]? = some d → i ≠ j → ∀ a ∈ c.made, a ∉ d.made

theorem HR.keep {ρ h₀ h h'} (k : HR ρ h₀ h) (e : ∀ a ∈ ρ, h'[a]? = h[a]?) : HR ρ h₀ h' :=
  ⟨k.length, fun x => by rw [e _ (List.mem_of_getElem? x)]; exact k.objects x⟩

theorem Same.keep {c h h'} (k : Same c h) (e : ∀ a ∈ c.made, h'[a]? = h[a]?) : Same c h' := by
  obtain ⟨f₀, k⟩ := k
  refine ⟨f₀, fun f hf => ?_⟩
  obtain ⟨h₀, m, a, b, d⟩ := k f hf
  exact ⟨h₀, m, a.keep e, b, d⟩

theorem getElem?_append_old {h : Heap} {o : Obj} {a : Nat} (l : a < h.length) : (h ++ [o])[a]? = h[a]? := List.getElem?_append_left l

/-- New objects on both sides. -/
theorem HR.alloc {ρ h₀ h o o'} (k : HR ρ h₀ h) (r : OR ρ o o') (lt : ∀ a ∈ ρ, a < h.length) : HR (ρ ++ [h.length]) (h₀ ++ [o]) (h ++ [o']) := by
  refine ⟨by simp [k.length], fun {i b} x => ?_⟩
  rw [List.getElem?_append] at x
  split at x
  · rename_i hi
    obtain ⟨p, p', e₁, e₂, q⟩ := k.objects x
    refine ⟨p, p', ?_, ?_, q.mono (List.prefix_append ..)⟩
    · rw [List.getElem?_append_left (by rw [k.length]; exact hi)]; exact e₁
    · rw [List.getElem?_append_left (lt _ (List.mem_of_getElem? x))]; exact e₂
  · rename_i hi
    have hi' : i = ρ.length := by
      obtain ⟨this, -⟩ := List.getElem?_eq_some_iff.1 x
      simp at this
      omega
    subst hi'
    simp at x
    subst x
    refine ⟨o, o', ?_, by simp, r.mono (List.prefix_append ..)⟩
    rw [← k.length]
    simp

/-- Objects overwritten on both sides. -/
theorem HR.store {ρ h₀ h o o' a b} (k : HR ρ h₀ h) (nd : ρ.Nodup) (e : ρ[a]? = some b) (r : OR ρ o o') : HR ρ (h₀.set a o) (h.set b o') := by
  refine ⟨by simp [k.length], fun {i d} x => ?_⟩
  obtain ⟨p, p', e₁, e₂, q⟩ := k.objects x
  by_cases hi : i = a
  · subst hi
    rw [e] at x
    cases x
    exact ⟨o, o', getElem?_set_eq _ e₁, getElem?_set_eq _ e₂, r⟩
  · have hd : d ≠ b := by
      rintro rfl
      exact hi ((List.getElem?_inj (l := ρ) (List.getElem?_eq_some_iff.1 x).1 nd).1 (x.trans e.symm))
    exact ⟨p, p', by rw [getElem?_set_ne (Ne.symm hi)]; exact e₁, by rw [getElem?_set_ne (Ne.symm hd)]; exact e₂, q⟩

/-- One access keeps the correspondence. -/
theorem Same.access {c : Call} {h h' code new} (o : Own c h) (k : Same c h) (a : Access c.code h code h' new) :
    Same { c with code := code, made := c.made ++ new } h' := by
  obtain ⟨f₀, k⟩ := k
  obtain ⟨g, input, W, n, code₀, made, over⟩ := c
  dsimp only at *
  cases a with
  | @alloc ob k' =>
    refine ⟨f₀, fun f hf => ?_⟩
    simp only [List.length_append] at hf
    obtain ⟨h₀, m, hr, run, mr⟩ := k f fun i hi => hf i (by omega)
    cases mr with
    | alloc r nx =>
      refine ⟨_, _, hr.alloc r o.lt, ?_, nx h.length⟩
      rw [run, M.run, hr.length]
  | @load b k' _ ob e =>
    refine ⟨f₀, fun f hf => ?_⟩
    rw [List.append_nil] at hf ⊢
    obtain ⟨h₀, m, hr, run, mr⟩ := k f hf
    cases mr with
    | load x nx =>
      obtain ⟨p, p', e₁, e₂, q⟩ := hr.objects x
      rw [e] at e₂
      cases e₂
      refine ⟨h₀, _, hr, ?_, nx p ob q⟩
      rw [run, M.run, e₁]
  | store l =>
    refine ⟨f₀, fun f hf => ?_⟩
    rw [List.append_nil] at hf ⊢
    obtain ⟨h₀, m, hr, run, mr⟩ := k f hf
    cases mr with
    | store x r nx =>
      refine ⟨_, _, hr.store o.nodup x r, ?_, nx⟩
      rw [run, M.run]
  | @grow cc oo kk =>
    refine ⟨fun i => if i = made.length then cc h else f₀ i, fun f hf => ?_⟩
    simp only [List.length_append, List.length_cons, List.length_nil] at hf
    obtain ⟨h₀, m, hr, run, mr⟩ := k f fun i hi => by
      rw [hf i (by omega), if_neg (by omega)]
    cases mr with
    | @grow _ lo c₀ _ o₀ _ k₀ _ cf cl r nx =>
      have e : c₀ h₀ = cc h := by
        rw [cf, hr.length, hf made.length (by omega), if_pos rfl]
        exact Nat.max_eq_left (cl h)
      refine ⟨_, _, hr.alloc (r (cc h)) o.lt, ?_, nx (cc h) h.length⟩
      rw [run, M.run, hr.length, e]

theorem Own.access {c : Call} {h h' code new} (o : Own c h) (a : Access c.code h code h' new) :
    Own { c with code := code, made := c.made ++ new } h' := by
  have key : (c.made ++ [h.length]).Nodup := by
    rw [List.nodup_append]
    exact ⟨o.nodup, by simp, fun a m b m' => by simp at m'; subst m'; have := o.lt a m; omega⟩
  obtain ⟨g, input, W, n, code₀, made, over⟩ := c
  dsimp only at *
  constructor
  · cases a <;> simp only [List.append_nil] <;> first | exact key | exact o.nodup
  · cases a <;> simp only [List.append_nil, List.mem_append, List.mem_singleton, List.length_append, List.length_cons, List.length_nil, List.length_set]
    · rintro a (m | rfl)
      · have := o.lt a m; omega
      · omega
    · exact o.lt
    · exact o.lt
    · rintro a (m | rfl)
      · have := o.lt a m; omega
      · omega

/-- An access changes nothing but objects of its call, and new objects are new. -/
theorem Access.outside {c : Call} {h h' code new} (o : Own c h) (k : Same c h) (a : Access c.code h code h' new) :
    (∀ i, i < h.length → i ∉ c.made → h'[i]? = h[i]?) ∧ h.length ≤ h'.length ∧ ∀ i ∈ new, h.length ≤ i := by
  obtain ⟨f₀, k⟩ := k
  obtain ⟨h₀, m, hr, run, mr⟩ := k f₀ fun _ _ => rfl
  obtain ⟨g, input, W, n, code₀, made, over⟩ := c
  dsimp only at *
  cases a with
  | alloc => exact ⟨fun i l _ => List.getElem?_append_left l, by simp, by simp⟩
  | load => exact ⟨fun _ _ _ => rfl, Nat.le_refl _, by simp⟩
  | grow => exact ⟨fun i l _ => List.getElem?_append_left l, by simp, by simp⟩
  | store =>
    cases mr with
    | store x r nx =>
      refine ⟨fun i _ ni => ?_, by simp, by simp⟩
      rw [getElem?_set_ne]
      rintro rfl
      exact ni (List.mem_of_getElem? x)

theorem mem_set_cases {α} {l : List α} {i : Nat} {x y : α} (h : y ∈ l.set i x) : y = x ∨ ∃ j, j ≠ i ∧ l[j]? = some y := by
  obtain ⟨j, hj⟩ := List.getElem?_of_mem h
  by_cases e : i = j
  · subst e
    rw [List.getElem?_set] at hj
    simp at hj
    exact .inl hj.2.symm
  · rw [List.getElem?_set_ne e] at hj
    exact .inr ⟨j, Ne.symm e, hj⟩

theorem getElem?_set_cases {α} {l : List α} {i j : Nat} {x y : α} (h : (l.set i x)[j]? = some y) : (j = i ∧ y = x) ∨ (j ≠ i ∧ l[j]? = some y) := by
  by_cases e : i = j
  · subst e
    rw [List.getElem?_set] at h
    simp at h
    exact .inl ⟨rfl, h.2.symm⟩
  · rw [List.getElem?_set_ne e] at h
    exact .inr ⟨Ne.symm e, h⟩

/-- A call with code to run is not over. -/
theorem Fine.next {l s s'} (F : Fine s) (R : ∀ c ∈ s.calls, c.over = true → ∃ vs, c.code = .ret vs) (n : Next l s s') : Fine s' := by
  cases n with
  | @call h cs g input W n hn =>
    constructor
    · intro c m
      simp only [List.mem_append, List.mem_singleton] at m
      rcases m with m | rfl
      · exact F.nesting c m
      · exact hn
    · intro c m
      simp only [List.mem_append, List.mem_singleton] at m
      rcases m with m | rfl
      · exact F.own c m
      · exact ⟨.nil, by simp⟩
    · intro c m
      simp only [List.mem_append, List.mem_singleton] at m
      rcases m with m | rfl
      · exact F.same c m
      · exact fun _ => ⟨fun _ => 0, fun f _ => ⟨[], _, ⟨rfl, by simp⟩, rfl, code_MR W f n input g⟩⟩
    · intro i j c d hi hj ne a m m'
      dsimp only at hi hj
      rw [List.getElem?_append] at hi hj
      split at hi <;> split at hj
      · exact F.apart hi hj ne a m m'
      · have := List.mem_of_getElem? hj
        simp at this
        subst this
        simp at m'
      · have := List.mem_of_getElem? hi
        simp at this
        subst this
        simp at m
      · have := List.mem_of_getElem? hi
        simp at this
        subst this
        simp at m
  | @access h cs h' i c code new hi a =>
    have mi := List.mem_of_getElem? hi
    have no : c.over = false := by
      cases ho : c.over with
      | false => rfl
      | true =>
        obtain ⟨vs, e⟩ := R c mi ho
        rw [e] at a
        cases a
    have own := F.own c mi
    have same := F.same c mi no
    obtain ⟨out, len, fresh⟩ := Access.outside own same a
    have keep : ∀ {j d}, cs[j]? = some d → j ≠ i → ∀ a ∈ d.made, h'[a]? = h[a]? := fun {j d} hj ne a m =>
      out a ((F.own d (List.mem_of_getElem? hj)).lt a m) (F.apart hj hi ne a m)
    constructor
    · intro d m
      rcases mem_set_cases m with rfl | ⟨j, ne, hj⟩
      · exact F.nesting c mi
      · exact F.nesting d (List.mem_of_getElem? hj)
    · intro d m
      rcases mem_set_cases m with rfl | ⟨j, ne, hj⟩
      · exact own.access a
      · have od := F.own d (List.mem_of_getElem? hj)
        exact ⟨od.nodup, fun a m => Nat.lt_of_lt_of_le (od.lt a m) len⟩
    · intro d m ho
      rcases mem_set_cases m with rfl | ⟨j, ne, hj⟩
      · exact same.access own a
      · exact (F.same d (List.mem_of_getElem? hj) ho).keep (keep hj ne)
    · intro j k d e hj hk ne x m m'
      rcases getElem?_set_cases hj with ⟨rfl, rfl⟩ | ⟨nj, hj'⟩ <;> rcases getElem?_set_cases hk with ⟨rfl, rfl⟩ | ⟨nk, hk'⟩
      · exact ne rfl
      · simp only [List.mem_append] at m
        rcases m with m | m
        · exact F.apart hi hk' ne x m m'
        · have : h.length ≤ x := fresh x m
          have : x < h.length := (F.own e (List.mem_of_getElem? hk')).lt x m'
          omega
      · simp only [List.mem_append] at m'
        rcases m' with m' | m'
        · exact F.apart hj' hi ne x m m'
        · have : h.length ≤ x := fresh x m'
          have : x < h.length := (F.own d (List.mem_of_getElem? hj')).lt x m
          omega
      · exact F.apart hj' hk' ne x m m'
  | @over h cs i c vs hi e =>
    have mi := List.mem_of_getElem? hi
    constructor
    · intro d m
      rcases mem_set_cases m with rfl | ⟨j, ne, hj⟩
      · exact F.nesting c mi
      · exact F.nesting d (List.mem_of_getElem? hj)
    · intro d m
      rcases mem_set_cases m with rfl | ⟨j, ne, hj⟩
      · exact ⟨(F.own c mi).nodup, (F.own c mi).lt⟩
      · exact F.own d (List.mem_of_getElem? hj)
    · intro d m ho
      rcases mem_set_cases m with rfl | ⟨j, ne, hj⟩
      · cases ho
      · exact F.same d (List.mem_of_getElem? hj) ho
    · intro j k d e hj hk ne x m m'
      rcases getElem?_set_cases hj with ⟨rfl, rfl⟩ | ⟨nj, hj'⟩ <;> rcases getElem?_set_cases hk with ⟨rfl, rfl⟩ | ⟨nk, hk'⟩
      · exact ne rfl
      · exact F.apart hi hk' ne x m m'
      · exact F.apart hj' hi ne x m m'
      · exact F.apart hj' hk' ne x m m'
  | @other h cs o =>
    constructor
    · exact F.nesting
    · exact fun c m => ⟨(F.own c m).nodup, fun a ma => by have := (F.own c m).lt a ma; simp; dsimp only at this; omega⟩
    · exact fun c m ho => (F.same c m ho).keep fun a ma => List.getElem?_append_left ((F.own c m).lt a ma)
    · exact F.apart
  | @write h cs a o free =>
    constructor
    · exact F.nesting
    · exact fun c m => ⟨(F.own c m).nodup, fun a ma => by have := (F.own c m).lt a ma; simpa using this⟩
    · exact fun c m ho => (F.same c m ho).keep fun b mb => getElem?_set_ne (by rintro rfl; exact free c m ho mb)
    · exact F.apart

theorem over_ret {s} (r : Reachable s) : ∀ c ∈ s.calls, c.over = true → ∃ vs, c.code = .ret vs := by
  induction r with
  | start => simp
  | next _ n ih =>
    cases n with
    | call g input W n hn =>
      intro c m ho
      simp only [List.mem_append, List.mem_singleton] at m
      rcases m with m | rfl
      · exact ih c m ho
      · cases ho
    | @access h cs h' i c code new hi a =>
      intro d m ho
      rcases mem_set_cases m with rfl | ⟨j, ne, hj⟩
      · obtain ⟨vs, e⟩ := ih c (List.mem_of_getElem? hi) ho
        rw [e] at a
        cases a
      · exact ih d (List.mem_of_getElem? hj) ho
    | @over h cs i c vs hi e =>
      intro d m ho
      rcases mem_set_cases m with rfl | ⟨j, ne, hj⟩
      · exact ⟨vs, e⟩
      · exact ih d (List.mem_of_getElem? hj) ho
    | other => exact ih
    | write => exact ih

/-- In every state that can be reached. -/
theorem Reachable.fine {s} (r : Reachable s) : Fine s := by
  induction r with
  | start h => exact ⟨by simp, by simp, by simp, by simp⟩
  | next r n ih => exact ih.next (over_ret r) n

/-! ## Reading results -/

theorem OR_address {ρ o o'} (r : OR ρ o o') {n x : Bytes} : o = .struct .«mail.Address» [(.Name, .str n), (.Address, .str x)] ↔
    o' = .struct .«mail.Address» [(.Name, .str n), (.Address, .str x)] := by
  have key : ∀ {l m : List (Ident × Val)}, LR ρ l m → (l = [(.Name, .str n), (.Address, .str x)] ↔ m = [(.Name, .str n), (.Address, .str x)]) := by
    intro l m r
    cases r with
    | nil => simp
    | @cons y z _ _ r q =>
      obtain ⟨y, v⟩ := y
      obtain ⟨z, u⟩ := z
      obtain ⟨rfl, r⟩ : y = z ∧ VR ρ v u := r
      cases q with
      | nil => simp
      | @cons y' z' _ _ r' q =>
        obtain ⟨y', v'⟩ := y'
        obtain ⟨z', u'⟩ := z'
        obtain ⟨rfl, r'⟩ : y' = z' ∧ VR ρ v' u' := r'
        have e1 : v = .str n ↔ u = .str n := ⟨by rintro rfl; exact VR_str.1 r, by rintro rfl; exact VR_str'.1 r⟩
        have e2 : v' = .str x ↔ u' = .str x := ⟨by rintro rfl; exact VR_str.1 r', by rintro rfl; exact VR_str'.1 r'⟩
        cases q <;> simp [e1, e2]
  cases r with
  | array => simp
  | struct r => simp [key r]

theorem readAddress_HR {ρ h₀ h v u} (k : HR ρ h₀ h) (r : VR ρ v u) : readAddress h u = readAddress h₀ v := by
  cases r with
  | @ptr a b e =>
    obtain ⟨o, o', e₁, e₂, q⟩ := k.objects e
    simp only [readAddress, e₁, e₂]
    split
    · rename_i x
      cases x
      rw [(OR_address q).2 rfl]
    · rename_i x
      split
      · rename_i y
        cases y
        rw [(OR_address q).1 rfl] at x
        exact (x _ _ rfl).elim
      · rfl
  | slice => rfl
  | @flat v e => cases v <;> first | rfl | cases e

theorem readAddresses_HR {ρ h₀ h vs us} (k : HR ρ h₀ h) (r : VL ρ vs us) : readAddresses h us = readAddresses h₀ vs := by
  induction r with
  | nil => rfl
  | cons r _ ih => simp only [readAddresses, readAddress_HR k r, ih]

theorem readSlice_HR {ρ h₀ h v u} (k : HR ρ h₀ h) (r : VR ρ v u) : readSlice h u = readSlice h₀ v := by
  cases r with
  | ptr => rfl
  | @slice a b t l c e =>
    obtain ⟨o, o', e₁, e₂, q⟩ := k.objects e
    cases t with
    | ptr n =>
      cases n with
      | «mail.Address» =>
        simp only [readSlice, e₁, e₂]
        cases q with
        | struct => rfl
        | array q => simp only [readAddresses_HR k (q.take l)]
      | _ => rfl
    | _ => rfl
  | @flat v e =>
    cases v with
    | slice t a l c => cases a with
      | none =>
        cases t with
        | ptr n => cases n <;> rfl
        | _ => rfl
      | some => cases e
    | _ => rfl

theorem refersTo_HR {ρ h₀ h v u} (k : HR ρ h₀ h) (r : VR ρ v u) : ∀ a ∈ refersTo h u, a ∈ ρ := by
  cases r with
  | ptr => simp [refersTo]
  | @slice a b t l c e =>
    obtain ⟨o, o', e₁, e₂, q⟩ := k.objects e
    intro x m
    simp only [refersTo, e₂, List.mem_cons] at m
    rcases m with rfl | m
    · exact List.mem_of_getElem? e
    · cases q with
      | struct => simp at m
      | array q =>
        simp only [List.mem_filterMap] at m
        obtain ⟨u, mu, eu⟩ := m
        have q := q.take l
        generalize List.take l _ = vs, List.take l _ = us at q mu
        induction q with
        | nil => simp at mu
        | cons r _ ih =>
          simp only [List.mem_cons] at mu
          rcases mu with rfl | mu
          · cases r with
            | ptr e => simp at eu; subst eu; exact List.mem_of_getElem? e
            | slice => simp at eu
            | flat e => cases u <;> first | (simp at eu; done) | exact nomatch e
          · exact ih mu
  | @flat v e =>
    cases v with
    | slice t a l c => cases a with
      | none => simp [refersTo]
      | some => cases e
    | _ => simp [refersTo]

end Rfc5322.Go
