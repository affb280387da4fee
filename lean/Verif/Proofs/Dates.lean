import Verif.Proofs.Names
import Verif.Proofs.Calendar
import Verif.Proofs.Descend
import Verif.Model.Api

/-!
# Denotations: date-times
-/

namespace Rfc5322

open Spec

variable {env : Env} {Q : Rule → Prop}

/-! ## Numbers -/

/-- Denotation of the body of a numeric rule: `S t x` says that the text `t` has the digits `x` among its direct
children; nothing else is delivered. -/
structure DMeans (env : Env) (g : G) (S : List Char → List Char → Prop) : Prop where
  sound : ∀ {s ts s'}, Derives g s ts s' →
    ∃ t x, s = t ++ s' ∧ S t x ∧ textList ts = utf8 t ∧ digitText ts = utf8 x ∧ Eff plainK env ts id
  complete : ∀ {t x}, S t x → ∀ s',
    ∃ ts, Derives g (t ++ s') ts s' ∧ textList ts = utf8 t ∧ digitText ts = utf8 x ∧ Eff plainK env ts id

theorem digitText_append {ts us : List Tree} : digitText (ts ++ us) = digitText ts ++ digitText us := by
  induction ts with
  | nil => rfl
  | cons t ts ih =>
    cases t with
    | tok c =>
      simp only [List.cons_append, digitText]
      split <;> simp [ih]
    | eof => simpa [digitText] using ih
    | node r ts => simpa [digitText] using ih

theorem DMeans.congr {g S T} (h : DMeans env g S) (e : ∀ t x, S t x ↔ T t x) : DMeans env g T where
  sound hd := by
    obtain ⟨t, x, h1, h2, h3⟩ := h.sound hd
    exact ⟨t, x, h1, (e _ _).mp h2, h3⟩
  complete hm := h.complete ((e _ _).mpr hm)

theorem DMeans.ofRule {r a T} (h : Means plainK env (.rule r a) (.quiet T)) :
    DMeans env (.rule r a) (fun t x => T t ∧ x = []) where
  sound hd := by
    obtain ⟨t, f, h1, ⟨h2, rfl⟩, h3, h4⟩ := h.sound hd
    cases hd with
    | rule hd => exact ⟨t, [], h1, ⟨h2, rfl⟩, h3, rfl, h4⟩
  complete := by
    rintro t x ⟨h1, rfl⟩ s'
    obtain ⟨ts, hd, h3, h4⟩ := h.complete ⟨h1, rfl⟩ s'
    refine ⟨ts, hd, h3, ?_, h4⟩
    cases hd with
    | rule hd => rfl

theorem DMeans.eps : DMeans env .eps (fun t x => t = [] ∧ x = []) where
  sound hd := by cases hd; exact ⟨[], [], rfl, ⟨rfl, rfl⟩, rfl, rfl, .nil⟩
  complete := by rintro t x ⟨rfl, rfl⟩ s'; exact ⟨[], .eps, rfl, rfl, .nil⟩

theorem DMeans.alt {a b S T} (ha : DMeans env a S) (hb : DMeans env b T) :
    DMeans env (a ‖ b) (fun t x => S t x ∨ T t x) where
  sound hd := by
    cases hd with
    | altL h => obtain ⟨t, x, h1, h2, h3⟩ := ha.sound h; exact ⟨t, x, h1, .inl h2, h3⟩
    | altR h => obtain ⟨t, x, h1, h2, h3⟩ := hb.sound h; exact ⟨t, x, h1, .inr h2, h3⟩
  complete := by
    rintro t x (h | h) s'
    · obtain ⟨ts, hd, h3⟩ := ha.complete h s'; exact ⟨ts, .altL hd, h3⟩
    · obtain ⟨ts, hd, h3⟩ := hb.complete h s'; exact ⟨ts, .altR hd, h3⟩

theorem DMeans.seq {a b S T} (ha : DMeans env a S) (hb : DMeans env b T) :
    DMeans env (a ⬝ b) (fun t x => ∃ t₁ x₁ t₂ x₂, S t₁ x₁ ∧ T t₂ x₂ ∧ t = t₁ ++ t₂ ∧ x = x₁ ++ x₂) where
  sound hd := by
    cases hd with
    | seq h1 h2 =>
      obtain ⟨t, x, rfl, h3, h4, h5, h6⟩ := ha.sound h1
      obtain ⟨u, y, rfl, k3, k4, k5, k6⟩ := hb.sound h2
      exact ⟨t ++ u, x ++ y, by simp, ⟨t, x, u, y, h3, k3, rfl, rfl⟩, by rw [textList_append, h4, k4, utf8_append],
        by rw [digitText_append, h5, k5, utf8_append], h6.append k6⟩
  complete := by
    rintro t x ⟨t, x, u, y, h3, k3, rfl, rfl⟩ s'
    obtain ⟨ts, d1, e1, e2, e3⟩ := ha.complete h3 (u ++ s')
    obtain ⟨us, d2, k1, k2, k3⟩ := hb.complete k3 s'
    exact ⟨ts ++ us, by rw [List.append_assoc]; exact .seq d1 d2, by rw [textList_append, e1, k1, utf8_append],
      by rw [digitText_append, e2, k2, utf8_append], e3.append k3⟩

theorem DMeans.digit : DMeans env (.t .Digit) (fun t x => ∃ c, t = [c] ∧ isDigit c = true ∧ x = [c]) where
  sound hd := by
    cases hd with
    | t h =>
      refine ⟨[_], [_], rfl, ⟨_, rfl, by rwa [digit_matches] at h, rfl⟩, by rw [textList_tok, utf8_single], ?_, .tok⟩
      simp [digitText, h, utf8_single]
  complete := by
    rintro t x ⟨c, rfl, h, rfl⟩ s'
    rw [← digit_matches] at h
    refine ⟨[.tok c], .t h, by rw [textList_tok, utf8_single], ?_, .tok⟩
    simp [digitText, h, utf8_single]

theorem DMeans.opt {a S} (ha : DMeans env a S) : DMeans env (.opt a) (fun t x => S t x ∨ t = [] ∧ x = []) :=
  ha.alt .eps

/-- White space with no digits among the direct children. -/
theorem dmeans_fws : DMeans env Gr.fws (fun t x => Fws t ∧ x = []) := DMeans.ofRule means_fws_plain
theorem dmeans_optFws : DMeans env (.opt Gr.fws) (fun t x => OptFws t ∧ x = []) :=
  dmeans_fws.opt.congr fun t x => by unfold OptFws; constructor <;> grind
theorem dmeans_optCfws : DMeans env (.opt Gr.cfws) (fun t x => OptCfws t ∧ x = []) :=
  (DMeans.ofRule means_cfws).opt.congr fun t x => by rw [optCfws_iff]; constructor <;> grind

theorem fws_cfws {t} (h : Fws t) : OptCfws t := ⟨[], t, .nil, .inr h, rfl⟩
theorem optFws_cfws {t} (h : OptFws t) : OptCfws t := ⟨[], t, .nil, h, rfl⟩

theorem dmeans_digit12 : DMeans env (.t .Digit ⬝ .opt (.t .Digit)) (fun t x => Digits12 t ∧ x = t) :=
  (DMeans.digit.seq DMeans.digit.opt).congr fun t x => by
    constructor
    · rintro ⟨_, _, _, _, ⟨c, rfl, hc, rfl⟩, ⟨d, rfl, hd, rfl⟩ | ⟨rfl, rfl⟩, rfl, rfl⟩
      · exact ⟨.inr ⟨rfl, by simp [hc, hd]⟩, rfl⟩
      · exact ⟨.inl ⟨rfl, by simp [hc]⟩, rfl⟩
    · rintro ⟨⟨h1, h2⟩ | ⟨h1, h2⟩, rfl⟩
      · match x, h1 with
        | [c], _ => exact ⟨_, _, _, _, ⟨c, rfl, h2 c (by simp), rfl⟩, .inr ⟨rfl, rfl⟩, rfl, rfl⟩
      · match x, h1 with
        | [c, d], _ => exact ⟨_, _, _, _, ⟨c, rfl, h2 c (by simp), rfl⟩, .inl ⟨d, rfl, h2 d (by simp), rfl⟩, rfl, rfl⟩

theorem dmeans_digit12' : DMeans env (.opt (.t .Digit) ⬝ .t .Digit) (fun t x => Digits12 t ∧ x = t) :=
  (DMeans.digit.opt.seq DMeans.digit).congr fun t x => by
    constructor
    · rintro ⟨_, _, _, _, ⟨c, rfl, hc, rfl⟩ | ⟨rfl, rfl⟩, ⟨d, rfl, hd, rfl⟩, rfl, rfl⟩
      · exact ⟨.inr ⟨rfl, by simp [hc, hd]⟩, rfl⟩
      · exact ⟨.inl ⟨rfl, by simp [hd]⟩, rfl⟩
    · rintro ⟨⟨h1, h2⟩ | ⟨h1, h2⟩, rfl⟩
      · match x, h1 with
        | [c], _ => exact ⟨_, _, _, _, .inr ⟨rfl, rfl⟩, ⟨c, rfl, h2 c (by simp), rfl⟩, rfl, rfl⟩
      · match x, h1 with
        | [c, d], _ => exact ⟨_, _, _, _, .inl ⟨c, rfl, h2 c (by simp), rfl⟩, ⟨d, rfl, h2 d (by simp), rfl⟩, rfl, rfl⟩

theorem dmeans_digit2 : DMeans env (.t .Digit ⬝ .t .Digit) (fun t x => Digits 2 t ∧ x = t) :=
  (DMeans.digit.seq DMeans.digit).congr fun t x => by
    constructor
    · rintro ⟨_, _, _, _, ⟨c, rfl, hc, rfl⟩, ⟨d, rfl, hd, rfl⟩, rfl, rfl⟩
      exact ⟨⟨rfl, by simp [hc, hd]⟩, rfl⟩
    · rintro ⟨⟨h1, h2⟩, rfl⟩
      match x, h1 with
      | [c, d], _ => exact ⟨_, _, _, _, ⟨c, rfl, h2 c (by simp), rfl⟩, ⟨d, rfl, h2 d (by simp), rfl⟩, rfl, rfl⟩

theorem dmeans_digit4 : DMeans env (.t .Digit ⬝ .t .Digit ⬝ .t .Digit ⬝ .t .Digit) (fun t x => Digits 4 t ∧ x = t) :=
  (DMeans.digit.seq (DMeans.digit.seq (DMeans.digit.seq DMeans.digit))).congr fun t x => by
    constructor
    · rintro ⟨_, _, _, _, ⟨a, rfl, ha, rfl⟩, ⟨_, _, _, _, ⟨b, rfl, hb, rfl⟩, ⟨_, _, _, _, ⟨c, rfl, hc, rfl⟩, ⟨d, rfl, hd, rfl⟩,
        rfl, rfl⟩, rfl, rfl⟩, rfl, rfl⟩
      exact ⟨⟨rfl, by simp [ha, hb, hc, hd]⟩, rfl⟩
    · rintro ⟨⟨h1, h2⟩, rfl⟩
      match x, h1 with
      | [a, b, c, d], _ =>
        exact ⟨_, _, _, _, ⟨a, rfl, h2 a (by simp), rfl⟩, ⟨_, _, _, _, ⟨b, rfl, h2 b (by simp), rfl⟩, ⟨_, _, _, _,
          ⟨c, rfl, h2 c (by simp), rfl⟩, ⟨d, rfl, h2 d (by simp), rfl⟩, rfl, rfl⟩, rfl, rfl⟩, rfl, rfl⟩

theorem DMeans.assoc {a b c S} (h : DMeans env ((a ⬝ b) ⬝ c) S) : DMeans env (a ⬝ b ⬝ c) S where
  sound hd := by
    cases hd with
    | seq h1 hd => cases hd with
      | seq h2 h3 => rw [← List.append_assoc]; exact h.sound (.seq (.seq h1 h2) h3)
  complete hm s' := by
    obtain ⟨ts, hd, h3⟩ := h.complete hm s'
    cases hd with
    | seq hd k3 => cases hd with
      | seq k1 k2 => exact ⟨_, .seq k1 (.seq k2 k3), by rw [← List.append_assoc]; exact h3⟩

/-- Digits with something after them. -/
theorem DMeans.before {b g} {B D : List Char → Prop} (hg : DMeans env g (fun t x => D t ∧ x = t))
    (hb : DMeans env b (fun t x => B t ∧ x = [])) :
    DMeans env (g ⬝ b) (fun t x => ∃ v, D x ∧ B v ∧ t = x ++ v) :=
  (hg.seq hb).congr fun t x => by
    constructor
    · rintro ⟨y, _, v, _, ⟨hy, rfl⟩, ⟨hv, rfl⟩, rfl, rfl⟩
      exact ⟨v, by simpa using hy, hv, by simp⟩
    · rintro ⟨v, hx, hv, rfl⟩
      exact ⟨x, _, v, _, ⟨hx, rfl⟩, ⟨hv, rfl⟩, rfl, by simp⟩

/-- Digits with something around them. -/
theorem DMeans.after {a g} {A B D : List Char → Prop} (ha : DMeans env a (fun t x => A t ∧ x = []))
    (hg : DMeans env g (fun t x => ∃ v, D x ∧ B v ∧ t = x ++ v)) :
    DMeans env (a ⬝ g) (fun t x => ∃ u v, A u ∧ D x ∧ B v ∧ t = u ++ (x ++ v)) :=
  (ha.seq hg).congr fun t x => by
    constructor
    · rintro ⟨u, _, _, y, ⟨hu, rfl⟩, ⟨v, hy, hv, rfl⟩, rfl, rfl⟩
      exact ⟨u, v, hu, by simpa using hy, hv, by simp⟩
    · rintro ⟨u, v, hu, hx, hv, rfl⟩
      exact ⟨u, _, _, x, ⟨hu, rfl⟩, ⟨v, hx, hv, rfl⟩, rfl, by simp⟩

theorem isDigit_iff {c : Char} : isDigit c = true ↔ 48 ≤ c.toNat ∧ c.toNat ≤ 57 := by
  simp only [isDigit, Bool.and_eq_true, decide_eq_true_eq]
  rfl

theorem encodeRune_ascii {c : Char} (h : c.toNat < 128) : encodeRune c = [UInt8.ofNat c.toNat] := by
  simp [encodeRune, h]

theorem digit_byte {c : Char} (h : isDigit c = true) :
    isDigitByte (UInt8.ofNat c.toNat) = true ∧ (UInt8.ofNat c.toNat).toNat = c.toNat := by
  obtain ⟨h1, h2⟩ := isDigit_iff.mp h
  have e : (UInt8.ofNat c.toNat).toNat = c.toNat := by
    rw [UInt8.toNat_ofNat']; omega
  refine ⟨?_, e⟩
  simp [isDigitByte, inRange, e]; omega

theorem utf8_digits {x} (h : ∀ c ∈ x, isDigit c = true) : utf8 x = x.map fun c => UInt8.ofNat c.toNat := by
  induction x with
  | nil => rfl
  | cons c x ih =>
    simp only [List.mem_cons, forall_eq_or_imp] at h
    rw [utf8_cons, ih h.2, encodeRune_ascii (by have := isDigit_iff.mp h.1; omega)]; rfl

theorem digitsVal_foldl {x : List Char} (h : ∀ c ∈ x, isDigit c = true) : ∀ n,
    (x.map fun c => UInt8.ofNat c.toNat).foldl (fun n b => 10 * n + (b.toNat - 0x30)) n =
      x.foldl (fun n c => 10 * n + (c.toNat - 48)) n := by
  induction x with
  | nil => intro n; rfl
  | cons c x ih =>
    intro n
    simp only [List.mem_cons, forall_eq_or_imp] at h
    simp only [List.map_cons, List.foldl_cons, (digit_byte h.1).2]
    exact ih h.2 _

theorem digitsVal_utf8 {x} (h : ∀ c ∈ x, isDigit c = true) : digitsVal (utf8 x) = num x := by
  rw [utf8_digits h]; exact digitsVal_foldl h 0

theorem num_bound_aux {x : List Char} (h : ∀ c ∈ x, isDigit c = true) : ∀ n,
    x.foldl (fun n c => 10 * n + (c.toNat - 48)) n < (n + 1) * 10 ^ x.length := by
  induction x with
  | nil => intro n; simp
  | cons c x ih =>
    intro n
    simp only [List.mem_cons, forall_eq_or_imp] at h
    have := isDigit_iff.mp h.1
    have k := ih h.2 (10 * n + (c.toNat - 48))
    simp only [List.foldl_cons, List.length_cons]
    refine Nat.lt_of_lt_of_le k ?_
    rw [Nat.pow_succ, Nat.mul_comm (10 ^ x.length) 10, ← Nat.mul_assoc]
    exact Nat.mul_le_mul_right _ (by omega)

theorem num_bound {x} (h : ∀ c ∈ x, isDigit c = true) : num x < 10 ^ x.length := by
  simpa [num] using num_bound_aux h 0

/-- `strconv.Atoi` on a short non-empty string of digits. -/
theorem atoi_digits {x} (h : ∀ c ∈ x, isDigit c = true) (h0 : x ≠ []) (h1 : x.length ≤ 18) :
    atoi (utf8 x) = ((num x : Int), none) := by
  have hb := num_bound h
  have hb' : num x < 10 ^ 18 := Nat.lt_of_lt_of_le hb (Nat.pow_le_pow_right (by decide) h1)
  have hv := digitsVal_utf8 h
  have hall : (utf8 x).all isDigitByte = true := by
    rw [utf8_digits h, List.all_map, List.all_eq_true]
    intro c hc; exact (digit_byte (h c hc)).1
  have hne : (utf8 x).isEmpty = false := by
    rw [utf8_digits h]; cases x with
    | nil => exact absurd rfl h0
    | cons => rfl
  have hx : ∃ b r, utf8 x = b :: r ∧ b ≠ 0x2D ∧ b ≠ 0x2B := by
    cases x with
    | nil => exact absurd rfl h0
    | cons c x =>
      simp only [List.mem_cons, forall_eq_or_imp] at h
      have hc := isDigit_iff.mp h.1
      have e := (digit_byte h.1).2
      refine ⟨_, _, by rw [utf8_cons, encodeRune_ascii (by omega)]; rfl, ?_, ?_⟩ <;>
      · intro he
        have := congrArg UInt8.toNat he; rw [e] at this; simp at this; omega
  obtain ⟨b, r, hu, hb1, hb2⟩ := hx
  rw [hu] at hv hall hne ⊢
  have hv' : ((digitsVal (b :: r) : Nat) : Int) < 9223372036854775808 := by rw [hv]; omega
  have : atoi (b :: r) = if (b :: r).isEmpty || !(b :: r).all isDigitByte then (0, some .atoi)
      else if ((digitsVal (b :: r) : Nat) : Int) < 9223372036854775808 then ((digitsVal (b :: r) : Int), none)
      else (9223372036854775807, some .atoi) := by
    unfold atoi
    split
    rename_i heq
    split at heq
    · rename_i h2; simp only [List.cons.injEq] at h2; exact absurd h2.1 hb1
    · rename_i h2; simp only [List.cons.injEq] at h2; exact absurd h2.1 hb2
    · simp only [Prod.mk.injEq] at heq; obtain ⟨rfl, rfl⟩ := heq; rfl
  rw [this, if_neg (by simp [hne, hall]), if_pos hv', hv]

theorem Means.number {r a S} {mk : Int → Node} (hr : r.delivers = true) (hk : ∀ v, (mk v).kind = r) (hp : plainK r)
    (he : ∀ ts w, enterRule env r ts w = .ok (enterNumber mk ts w)) (ha : DMeans env a S)
    (hS : ∀ t x, S t x → (∀ c ∈ x, isDigit c = true) ∧ x ≠ [] ∧ x.length ≤ 18) :
    Means Q env (.rule r a) (.value (fun t v => ∃ x, S t x ∧ v = num x) fun v => deliver (mk v)) := by
  have ent : ∀ {ts t x}, S t x → digitText ts = utf8 x → ∀ w, enterRule env r ts w = .ok (w.enter (mk (num x))) := by
    intro ts t x hx ht w
    obtain ⟨h1, h2, h3⟩ := hS t x hx
    rw [he, enterNumber, ht, atoi_digits h1 h2 h3]; rfl
  constructor
  · intro s ts s' hd
    cases hd with
    | rule hd =>
      obtain ⟨t, x, h1, h2, h3, h4, h5⟩ := ha.sound hd
      exact ⟨t, _, h1, ⟨_, ⟨x, h2, rfl⟩, rfl⟩, by rw [textList_node, h3], h5.push hr (hk _) hp (ent h2 h4)⟩
  · rintro t f ⟨v, ⟨x, h2, rfl⟩, rfl⟩ s'
    obtain ⟨ts, hd, h3, h4, h5⟩ := ha.complete h2 s'
    exact ⟨_, .rule hd, by rw [textList_node, h3], h5.push hr (hk _) hp (ent h2 h4)⟩

theorem digits12_ok {x} (h : Digits12 x) : (∀ c ∈ x, isDigit c = true) ∧ x ≠ [] ∧ x.length ≤ 18 := by
  rcases h with ⟨h1, h2⟩ | ⟨h1, h2⟩ <;> exact ⟨h2, by rintro rfl; simp at h1, by omega⟩

theorem digits_ok {n x} (h : Digits n x) (hn : 0 < n) (hn' : n ≤ 18) :
    (∀ c ∈ x, isDigit c = true) ∧ x ≠ [] ∧ x.length ≤ 18 := by
  obtain ⟨h1, h2⟩ := h
  exact ⟨h2, by rintro rfl; simp at h1; omega, by omega⟩

/-- The value of a numeric rule whose digits may be surrounded by CFWS. -/
theorem padded_congr {D : List Char → Prop} {mk : Nat → Node → Node} {S : List Char → List Char → Prop}
    (hS : ∀ t x, S t x ↔ ∃ u v, OptCfws u ∧ D x ∧ OptCfws v ∧ t = u ++ (x ++ v)) (t f) :
    Lang.value (fun t v => ∃ x, S t x ∧ v = num x) mk t f ↔ Lang.value (Padded D) mk t f := by
  constructor
  · rintro ⟨_, ⟨x, hx, rfl⟩, rfl⟩
    obtain ⟨u, v, hu, hx', hv, rfl⟩ := (hS _ _).mp hx
    exact ⟨_, ⟨u, x, v, hu, hx', hv, rfl, rfl⟩, rfl⟩
  · rintro ⟨_, ⟨u, x, v, hu, hx, hv, rfl, rfl⟩, rfl⟩
    exact ⟨_, ⟨x, (hS _ _).mpr ⟨u, v, hu, hx, hv, rfl⟩, rfl⟩, rfl⟩

theorem means_day : Means Q env Gr.day (.value (Padded Digits12) fun v => deliver (.day v)) := by
  have body : DMeans env (.opt Gr.fws ⬝ .t .Digit ⬝ .opt (.t .Digit) ⬝ Gr.fws ‖
      .opt Gr.cfws ⬝ .t .Digit ⬝ .opt (.t .Digit) ⬝ .opt Gr.cfws) _ :=
    (dmeans_optFws.after (dmeans_digit12.before dmeans_fws).assoc).alt
      (dmeans_optCfws.after (dmeans_digit12.before dmeans_optCfws).assoc)
  have e : ∀ t x, ((∃ u v, OptFws u ∧ Digits12 x ∧ Fws v ∧ t = u ++ (x ++ v)) ∨
      ∃ u v, OptCfws u ∧ Digits12 x ∧ OptCfws v ∧ t = u ++ (x ++ v)) ↔
      ∃ u v, OptCfws u ∧ Digits12 x ∧ OptCfws v ∧ t = u ++ (x ++ v) := by
    intro t x
    constructor
    · rintro (⟨u, v, hu, hx, hv, rfl⟩ | h)
      · exact ⟨u, v, optFws_cfws hu, hx, fws_cfws hv, rfl⟩
      · exact h
    · exact .inr
  exact (Means.number (Q := Q) (r := .day) (mk := .day) rfl (fun _ => rfl) (plainK_of rfl) (fun _ _ => rfl) body
    (fun t x h => by obtain ⟨_, _, _, h, _⟩ := (e _ _).mp h; exact digits12_ok h)).congr
    (padded_congr (mk := fun v => deliver (.day v)) e)

theorem means_hour : Means Q env Gr.hour (.value (Padded Digits12) fun v => deliver (.hour v)) := by
  have body : DMeans env (.opt (.t .Digit) ⬝ .t .Digit ‖
      .opt Gr.cfws ⬝ .opt (.t .Digit) ⬝ .t .Digit ⬝ .opt Gr.cfws) _ :=
    dmeans_digit12'.alt (dmeans_optCfws.after (dmeans_digit12'.before dmeans_optCfws).assoc)
  have e : ∀ t x, ((Digits12 t ∧ x = t) ∨ ∃ u v, OptCfws u ∧ Digits12 x ∧ OptCfws v ∧ t = u ++ (x ++ v)) ↔
      ∃ u v, OptCfws u ∧ Digits12 x ∧ OptCfws v ∧ t = u ++ (x ++ v) := by
    intro t x
    constructor
    · rintro (⟨h, rfl⟩ | h)
      · exact ⟨[], [], OptCfws.nil, h, OptCfws.nil, by simp⟩
      · exact h
    · exact .inr
  exact (Means.number (Q := Q) (r := .hour) (mk := .hour) rfl (fun _ => rfl) (plainK_of rfl) (fun _ _ => rfl) body
    (fun t x h => by obtain ⟨_, _, _, h, _⟩ := (e _ _).mp h; exact digits12_ok h)).congr
    (padded_congr (mk := fun v => deliver (.hour v)) e)

theorem dmeans_sixty : DMeans env (.t .Digit ⬝ .t .Digit ‖ .opt Gr.cfws ⬝ .t .Digit ⬝ .t .Digit ⬝ .opt Gr.cfws)
    (fun t x => ∃ u v, OptCfws u ∧ Digits 2 x ∧ OptCfws v ∧ t = u ++ (x ++ v)) :=
  (dmeans_digit2.alt (dmeans_optCfws.after (dmeans_digit2.before dmeans_optCfws).assoc)).congr fun t x => by
    constructor
    · rintro (⟨h, rfl⟩ | h)
      · exact ⟨[], [], OptCfws.nil, h, OptCfws.nil, by simp⟩
      · exact h
    · exact .inr

theorem means_minute : Means Q env Gr.minute (.value (Padded (Digits 2)) fun v => deliver (.minute v)) :=
  (Means.number (Q := Q) (r := .minute) (mk := .minute) rfl (fun _ => rfl) (plainK_of rfl) (fun _ _ => rfl) dmeans_sixty
    (fun t x ⟨_, _, _, h, _⟩ => digits_ok h (by decide) (by decide))).congr
    (padded_congr (mk := fun v => deliver (.minute v)) fun _ _ => Iff.rfl)

theorem means_second : Means Q env Gr.second (.value (Padded (Digits 2)) fun v => deliver (.second v)) :=
  (Means.number (Q := Q) (r := .second) (mk := .second) rfl (fun _ => rfl) (plainK_of rfl) (fun _ _ => rfl) dmeans_sixty
    (fun t x ⟨_, _, _, h, _⟩ => digits_ok h (by decide) (by decide))).congr
    (padded_congr (mk := fun v => deliver (.second v)) fun _ _ => Iff.rfl)

/-- The year denoted by its digits. -/
def yearOf (now : Int) (x : List Char) : Nat :=
  if x.length = 2 then (if (num x : Int) > now.tmod 100 then 1900 + num x else 2000 + num x) else num x

theorem means_year : Means Q env Gr.year (.value (Year env.nowYear) fun v => deliver (.year v)) := by
  have body : DMeans env (Gr.fws ⬝ .t .Digit ⬝ .t .Digit ⬝ .t .Digit ⬝ .t .Digit ⬝ Gr.fws ‖
      .opt Gr.cfws ⬝ .t .Digit ⬝ .t .Digit ⬝ .opt Gr.cfws)
      (fun t x => (∃ u v, Fws u ∧ Digits 4 x ∧ Fws v ∧ t = u ++ (x ++ v)) ∨
        ∃ u v, OptCfws u ∧ Digits 2 x ∧ OptCfws v ∧ t = u ++ (x ++ v)) := by
    have d4 := (dmeans_digit4 (env := env)).before dmeans_fws
    have d4' : DMeans env (.t .Digit ⬝ .t .Digit ⬝ .t .Digit ⬝ .t .Digit ⬝ Gr.fws)
        (fun t x => ∃ v, Digits 4 x ∧ Fws v ∧ t = x ++ v) := by
      refine ⟨fun hd => d4.sound ?_, fun h s' => ?_⟩
      · cases hd with
        | seq h1 hd => cases hd with
          | seq h2 hd => cases hd with
            | seq h3 hd => cases hd with
              | seq h4 h5 =>
                simp only [← List.append_assoc]
                refine .seq ?_ h5
                simp only [List.append_assoc]
                exact .seq h1 (.seq h2 (.seq h3 h4))
      · obtain ⟨ts, hd, h⟩ := d4.complete h s'
        refine ⟨ts, ?_, h⟩
        cases hd with
        | seq hd h5 => cases hd with
          | seq h1 hd => cases hd with
            | seq h2 hd => cases hd with
              | seq h3 h4 =>
                simp only [List.append_assoc]
                exact .seq h1 (.seq h2 (.seq h3 (.seq h4 h5)))
    exact (dmeans_fws.after d4').alt (dmeans_optCfws.after (dmeans_digit2.before dmeans_optCfws).assoc)
  have ent : ∀ {ts x}, (Digits 4 x ∨ Digits 2 x) → digitText ts = utf8 x → ∀ w,
      enterRule env .year ts w = .ok (w.enter (.year (yearOf env.nowYear x))) := by
    intro ts x hx ht w
    have hl : (utf8 x).length = x.length := by
      have : ∀ c ∈ x, isDigit c = true := by rcases hx with h | h <;> exact h.2
      rw [utf8_digits this]; simp
    have ha : atoi (utf8 x) = ((num x : Int), none) := by
      rcases hx with h | h
      · obtain ⟨h1, h2, h3⟩ := digits_ok h (by decide) (by decide); exact atoi_digits h1 h2 h3
      · obtain ⟨h1, h2, h3⟩ := digits_ok h (by decide) (by decide); exact atoi_digits h1 h2 h3
    simp only [enterRule, enterYear, ht, hl, ha, yearOf]
    split
    · split <;> simp [Walker.setErrIf, Int.add_comm]
    · simp [Walker.setErrIf]
  have val : ∀ t x, ((∃ u v, Fws u ∧ Digits 4 x ∧ Fws v ∧ t = u ++ (x ++ v)) ∨
        ∃ u v, OptCfws u ∧ Digits 2 x ∧ OptCfws v ∧ t = u ++ (x ++ v)) →
      (Digits 4 x ∨ Digits 2 x) ∧ Year env.nowYear t (yearOf env.nowYear x) := by
    rintro t x (⟨u, v, hu, hx, hv, rfl⟩ | ⟨u, v, hu, hx, hv, rfl⟩)
    · refine ⟨.inl hx, ?_⟩
      rw [yearOf, if_neg (by rw [hx.1]; decide)]; exact .four hu hx hv
    · refine ⟨.inr hx, ?_⟩
      rw [yearOf, if_pos hx.1]; exact .two hu hx hv
  constructor
  · intro s ts s' hd
    unfold Gr.year at hd
    cases hd with
    | rule hd =>
      obtain ⟨t, x, h1, h2, h3, h4, h5⟩ := body.sound hd
      exact ⟨t, _, h1, ⟨_, (val t x h2).2, rfl⟩, by rw [textList_node, h3],
        h5.push (r := .year) (Q' := plainK) rfl rfl (plainK_of rfl) (ent (val t x h2).1 h4)⟩
  · rintro t f ⟨v, hv, rfl⟩ s'
    have : ∃ x, ((∃ u v, Fws u ∧ Digits 4 x ∧ Fws v ∧ t = u ++ (x ++ v)) ∨
        ∃ u v, OptCfws u ∧ Digits 2 x ∧ OptCfws v ∧ t = u ++ (x ++ v)) ∧ v = yearOf env.nowYear x := by
      cases hv with
      | @four u x v hu hx hv => exact ⟨x, .inl ⟨u, v, hu, hx, hv, rfl⟩, by rw [yearOf, if_neg (by rw [hx.1]; decide)]⟩
      | @two u x v hu hx hv => exact ⟨x, .inr ⟨u, v, hu, hx, hv, rfl⟩, by rw [yearOf, if_pos hx.1]⟩
    obtain ⟨x, hx, rfl⟩ := this
    obtain ⟨ts, hd, h3, h4, h5⟩ := body.complete hx s'
    exact ⟨_, .rule hd, by rw [textList_node, h3],
        h5.push (r := .year) (Q' := plainK) rfl rfl (plainK_of rfl) (ent (val t x hx).1 h4)⟩

end Rfc5322
