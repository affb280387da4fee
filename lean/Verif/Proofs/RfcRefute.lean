import Verif.Proofs.Rfc5322

/-!
# Texts that are not derived from a rule

A table of masks, one for each rule and each position of a text, that contains the ends of all derivations: it is enough to check that it is closed under the rules.
-/

namespace Rfc5322.Rfc

/-- The union of the masks at the positions up to `k` that are in `mask`. -/
def orAll (mask : Nat) (f : Nat → Nat) : Nat → Nat
  | 0 => 0
  | k + 1 => if mask.testBit k then orAll mask f k ||| f k else orAll mask f k

theorem testBit_orAll {mask : Nat} {f : Nat → Nat} {k j : Nat} (hj : j < k) (hm : mask.testBit j = true) {b : Nat} (hb : (f j).testBit b = true) :
    (orAll mask f k).testBit b = true := by
  induction k with
  | zero => omega
  | succ k ih =>
    rw [orAll]
    rcases Nat.lt_succ_iff_lt_or_eq.mp hj with h | rfl
    · have := ih h
      split
      · rw [Nat.testBit_or, this]; rfl
      · exact this
    · rw [if_pos hm, Nat.testBit_or, hb, Bool.or_true]

/-- Add one step, `n` times or until nothing changes. -/
def grow (step : Nat → Nat) : Nat → Nat → Nat
  | 0, m => m
  | n + 1, m => if Nat.beq (m ||| step m) m then m else grow step n (m ||| step m)

theorem toLower_mod (c : Char) : c.toLower.toNat % 32 = c.toNat % 32 := by
  unfold Char.toLower
  split
  · rename_i h
    have h1 : (c.val + 32).toNat = c.val.toNat + 32 := by
      have : c.val.toNat ≤ 90 := by
        have := h.2
        exact this
      rw [UInt32.toNat_add]
      exact Nat.mod_eq_of_lt (Nat.lt_of_le_of_lt (Nat.add_le_add_right this _) (by decide))
    show (c.val + 32).toNat % 32 = c.val.toNat % 32
    omega
  · rfl

/-- Whether the text begins with `s`, in upper or lower case. -/
def begins : List Char → List Char → Bool
  | [], _ => true
  | _ :: _, [] => false
  | a :: s, c :: x => Nat.beq (a.toNat % 32) (c.toNat % 32) && (a.toLower == c.toLower && begins s x)

theorem begins_of_eq : ∀ {s x z : List Char}, x.map Char.toLower = s.map Char.toLower → begins s (x ++ z) = true
  | [], _, _, _ => by rw [begins]
  | _ :: _, [], _, h => by simp at h
  | a :: s, c :: x, z, h => by
    rw [List.map_cons, List.map_cons, List.cons.injEq] at h
    have h1 := toLower_mod a
    rw [← h.1, toLower_mod c] at h1
    rw [List.cons_append, begins, begins_of_eq h.2, h1, h.1]
    simp

/-- Take one step, `n` times. -/
def walk (step : Nat → Nat) : Nat → Nat → Nat
  | 0, m => m
  | n + 1, m => walk step n (step m)

/-- All positions of a text of `k - 1` characters. -/
def everywhere (k : Nat) : Nat := 2 ^ k - 1

/-- A mask that contains the positions of `m` and is closed under steps. -/
def closure (step : Nat → Nat) (k m : Nat) : Nat :=
  let c := grow step k m
  if Nat.beq (c ||| step c) c then c else everywhere k

/-- The ends of the derivations from position `i` of the text `w`, if the table is right about rules. -/
def ends (w : List Char) (T : Name → Nat → Nat) : Abnf → Nat → Nat
  | .range lo hi, i =>
    match w[i]? with
    | some c => if Nat.ble lo c.toNat && Nat.ble c.toNat hi then 2 ^ (i + 1) else 0
    | none => 0
  | .text s, i => if begins s (w.drop i) then 2 ^ (i + s.length) else 0
  | .rule n, i => T n i
  | .seq a b, i => orAll (ends w T a i) (ends w T b) (w.length + 1)
  | .alt a b, i => ends w T a i ||| ends w T b i
  | .rep min max a, i =>
    let step m := orAll m (ends w T a) (w.length + 1)
    let m := walk step min (2 ^ i)
    match max with
    | none => closure step (w.length + 1) m
    | some k => grow step (k - min) m

theorem grow_ge {step : Nat → Nat} {b : Nat} : ∀ {n m : Nat}, m.testBit b = true → (grow step n m).testBit b = true
  | 0, _, h => h
  | n + 1, m, h => by
    rw [grow]
    split
    · exact h
    · exact grow_ge (n := n) (by rw [Nat.testBit_or, h]; rfl)

section
variable {g : Name → Abnf} {w : List Char} {T : Name → Nat → Nat}

/-- A text in `w` at position `i`. -/
def At (w : List Char) (i : Nat) (x : List Char) : Prop := i ≤ w.length ∧ x <+: w.drop i

theorem At.left {i : Nat} {x y : List Char} (h : At w i (x ++ y)) : At w i x := ⟨h.1, (List.prefix_append x y).trans h.2⟩

theorem At.le {i : Nat} {x : List Char} (h : At w i x) : i + x.length ≤ w.length := by
  have := h.2.length_le
  rw [List.length_drop] at this
  have := h.1
  omega

theorem At.right {i : Nat} {x y : List Char} (h : At w i (x ++ y)) : At w (i + x.length) y := by
  refine ⟨h.left.le, ?_⟩
  obtain ⟨z, hz⟩ := h.2
  refine ⟨z, ?_⟩
  rw [← List.drop_drop, ← hz, List.append_assoc, List.drop_left]

theorem walk_mem {step : Nat → Nat} : ∀ {xs : List (List Char)} {i m : Nat},
    (∀ x ∈ xs, ∀ j, At w j x → ∀ m, m.testBit j = true → (step m).testBit (j + x.length) = true) → At w i xs.flatten → m.testBit i = true →
    (walk step xs.length m).testBit (i + xs.flatten.length) = true
  | [], i, m, _, _, hm => hm
  | x :: xs, i, m, h, ha, hm => by
    rw [List.flatten_cons] at ha
    have h1 := h x (List.mem_cons_self ..) i ha.left m hm
    have h2 := walk_mem (fun x hx => h x (List.mem_cons_of_mem _ hx)) ha.right h1
    rw [List.length_cons, walk, List.flatten_cons, List.length_append, ← Nat.add_assoc]
    exact h2

theorem closed_mem {step : Nat → Nat} {c : Nat} (hc : (c ||| step c) = c) : ∀ {xs : List (List Char)} {i : Nat},
    (∀ x ∈ xs, ∀ j, At w j x → ∀ m, m.testBit j = true → (step m).testBit (j + x.length) = true) → At w i xs.flatten → c.testBit i = true →
    c.testBit (i + xs.flatten.length) = true
  | [], i, _, _, hm => hm
  | x :: xs, i, h, ha, hm => by
    rw [List.flatten_cons] at ha
    have h1 := h x (List.mem_cons_self ..) i ha.left c hm
    have h2 := closed_mem hc (i := i + x.length) (fun x hx => h x (List.mem_cons_of_mem _ hx)) ha.right
      (by rw [← hc, Nat.testBit_or, h1, Bool.or_true])
    rw [List.flatten_cons, List.length_append, ← Nat.add_assoc]
    exact h2

theorem grow_mem {step : Nat → Nat} : ∀ {xs : List (List Char)} {i m n : Nat}, xs.length ≤ n →
    (∀ x ∈ xs, ∀ j, At w j x → ∀ m, m.testBit j = true → (step m).testBit (j + x.length) = true) → At w i xs.flatten → m.testBit i = true →
    (grow step n m).testBit (i + xs.flatten.length) = true
  | [], i, m, n, _, _, _, hm => grow_ge hm
  | x :: xs, i, m, 0, hn, _, _, _ => by simp at hn
  | x :: xs, i, m, n + 1, hn, h, ha, hm => by
    rw [List.flatten_cons] at ha
    have h1 := h x (List.mem_cons_self ..) i ha.left m hm
    have h2 := grow_mem (n := n) (m := m ||| step m) (by simpa using hn) (fun x hx => h x (List.mem_cons_of_mem _ hx)) ha.right
      (by rw [Nat.testBit_or, h1, Bool.or_true])
    rw [grow]
    split
    · rename_i hc
      exact closed_mem (Nat.eq_of_beq_eq_true hc) (xs := x :: xs) h (by rw [List.flatten_cons]; exact ha) hm
    · rw [List.flatten_cons, List.length_append, ← Nat.add_assoc]
      exact h2

theorem closure_mem {step : Nat → Nat} {xs : List (List Char)} {i m : Nat}
    (h : ∀ x ∈ xs, ∀ j, At w j x → ∀ m, m.testBit j = true → (step m).testBit (j + x.length) = true) (ha : At w i xs.flatten) (hm : m.testBit i = true) :
    (closure step (w.length + 1) m).testBit (i + xs.flatten.length) = true := by
  unfold closure
  dsimp only
  split
  · rename_i hc
    exact closed_mem (Nat.eq_of_beq_eq_true hc) h ha (grow_ge hm)
  · rw [everywhere, Nat.testBit_two_pow_sub_one]
    have := ha.le
    exact decide_eq_true (by omega)

/-- The table is closed under the rules. -/
def Closed (g : Name → Abnf) (w : List Char) (T : Name → Nat → Nat) : Prop :=
  ∀ n i b, i ≤ w.length → (ends w T (g n) i).testBit b = true → (T n i).testBit b = true

theorem ends_complete (hT : Closed g w T) {e : Abnf} {x : List Char} (h : Derivable g e x) :
    ∀ i, At w i x → (ends w T e i).testBit (i + x.length) = true := by
  induction h with
  | @range lo hi c h1 h2 =>
    intro i ha
    obtain ⟨z, hz⟩ := ha.2
    have : w[i]? = some c := by
      have := congrArg List.head? hz
      simpa [List.head?_drop] using this.symm
    simp only [ends, this, Nat.ble_eq.mpr h1, Nat.ble_eq.mpr h2, Bool.and_self, if_true, List.length_singleton]
    exact Nat.testBit_two_pow_self
  | @text s x hx =>
    intro i ha
    obtain ⟨z, hz⟩ := ha.2
    have hl : x.length = s.length := by simpa using congrArg List.length hx
    have : begins s (w.drop i) = true := by rw [← hz]; exact begins_of_eq hx
    simp only [ends, this, if_true, hl]
    exact Nat.testBit_two_pow_self
  | rule _ ih =>
    intro i ha
    exact hT _ _ _ ha.1 (ih i ha)
  | @seq a b x y _ _ iha ihb =>
    intro i ha
    rw [ends, List.length_append, ← Nat.add_assoc]
    exact testBit_orAll (Nat.lt_succ_of_le ha.left.le) (iha i ha.left) (ihb _ ha.right)
  | left _ ih =>
    intro i ha
    rw [ends, Nat.testBit_or, ih i ha]; rfl
  | right _ ih =>
    intro i ha
    rw [ends, Nat.testBit_or, ih i ha, Bool.or_true]
  | @rep min max a xs hmin hmax _ ih =>
    intro i ha
    have hstep : ∀ x ∈ xs, ∀ j, At w j x → ∀ m : Nat, m.testBit j = true → (orAll m (ends w T a) (w.length + 1)).testBit (j + x.length) = true := by
      intro x hx j hj m hm
      exact testBit_orAll (Nat.lt_succ_of_le hj.1) hm (ih x hx j hj)
    have e : xs = xs.take min ++ xs.drop min := (List.take_append_drop ..).symm
    have hlen : (xs.take min).length = min := by rw [List.length_take]; omega
    have h1 : ∀ x ∈ xs.take min, _ := fun x hx => hstep x (List.mem_of_mem_take hx)
    have h2 : ∀ x ∈ xs.drop min, _ := fun x hx => hstep x (List.mem_of_mem_drop hx)
    have hf : xs.flatten = (xs.take min).flatten ++ (xs.drop min).flatten := by rw [← List.flatten_append, List.take_append_drop]
    rw [hf] at ha ⊢
    have h3 := walk_mem (m := 2 ^ i) h1 ha.left Nat.testBit_two_pow_self
    rw [hlen] at h3
    rw [List.length_append, ← Nat.add_assoc]
    cases max with
    | none => exact closure_mem h2 ha.right h3
    | some k =>
      refine grow_mem ?_ h2 ha.right h3
      have := hmax k rfl
      rw [List.length_drop]; omega

end

/-- A table as a list of rows, by the number of the rule. -/
def rowsTable (rows : List (List Nat)) (n : Name) (i : Nat) : Nat := (rows.getD n.ctorIdx []).getD i 0

/-- All names. -/
def allNames : List Name :=
  [.ALPHA, .CR, .CRLF, .DIGIT, .DQUOTE, .HTAB, .LF, .SP, .VCHAR, .WSP, .«quoted-pair», .FWS, .ctext, .ccontent, .comment, .CFWS, .atext, .atom,
   .«dot-atom-text», .«dot-atom», .qtext, .qcontent, .«quoted-string», .word, .phrase, .«date-time», .«day-of-week», .«day-name», .date, .day,
   .month, .year, .time, .«time-of-day», .hour, .minute, .second, .zone, .address, .mailbox, .«name-addr», .«angle-addr», .group, .«display-name»,
   .«mailbox-list», .«address-list», .«group-list», .«addr-spec», .«local-part», .domain, .«domain-literal», .dtext, .«obs-NO-WS-CTL», .«obs-ctext»,
   .«obs-qtext», .«obs-qp», .«obs-phrase», .«obs-FWS», .«obs-day-of-week», .«obs-day», .«obs-year», .«obs-hour», .«obs-minute», .«obs-second»,
   .«obs-zone», .«obs-angle-addr», .«obs-route», .«obs-domain-list», .«obs-mbox-list», .«obs-addr-list», .«obs-group-list», .«obs-local-part»,
   .«obs-domain», .«obs-dtext», .«encoded-word», .charset, .encoding, .token, .«encoded-text», .«UTF8-non-ascii»]

theorem mem_allNames (n : Name) : n ∈ allNames := by cases n <;> decide

/-- Whether a table is closed under the rules. -/
def closedCheck (g : Name → Abnf) (w : List Char) (rows : List (List Nat)) : Bool :=
  allNames.all fun n => (List.range (w.length + 1)).all fun i => Nat.beq (ends w (rowsTable rows) (g n) i ||| rowsTable rows n i) (rowsTable rows n i)

theorem closed_of_check {g : Name → Abnf} {w : List Char} {rows : List (List Nat)} (h : closedCheck g w rows = true) : Closed g w (rowsTable rows) := by
  intro n i b hi hb
  have h1 := List.all_eq_true.mp (List.all_eq_true.mp h n (mem_allNames n)) i (List.mem_range.mpr (Nat.lt_succ_of_le hi))
  rw [← Nat.eq_of_beq_eq_true h1, Nat.testBit_or, hb]; rfl

/-- Whether a table shows that the text is not derived from a rule. -/
def refutes (g : Name → Abnf) (r : Name) (w : List Char) (rows : List (List Nat)) : Bool :=
  closedCheck g w rows && !(rowsTable rows r 0).testBit w.length

theorem not_derivable_of_refutes {g : Name → Abnf} {r : Name} {w : List Char} (rows : List (List Nat)) (h : refutes g r w rows = true) : ¬ Derivable g (.rule r) w := by
  rw [refutes, Bool.and_eq_true, Bool.not_eq_true'] at h
  intro hd
  have h1 := ends_complete (closed_of_check h.1) hd 0 ⟨Nat.zero_le _, by simp⟩
  rw [Nat.zero_add] at h1
  have h2 : (rowsTable rows r 0).testBit w.length = true := h1
  rw [h2] at h
  exact absurd h.2 (by decide)

/-- The least table: `k` rounds. -/
def leastTable (g : Name → Abnf) (w : List Char) : Nat → List (List Nat)
  | 0 => []
  | k + 1 =>
    let rows := leastTable g w k
    allNames.map fun n => (List.range (w.length + 1)).map fun i => ends w (rowsTable rows) (g n) i ||| rowsTable rows n i

end Rfc5322.Rfc
