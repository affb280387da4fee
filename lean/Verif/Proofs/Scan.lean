import Verif.Proofs.Groups
import Verif.Proofs.Exact

/-!
# Reading the skeleton of a list from left to right

Two automata over skeletons: `whole` notices items that are missing in a list, `gapped` those missing among the members of a group.
-/

namespace Rfc5322.Scan

open Spec

variable {env : Env}

/-! ## What the parts of addresses look like -/

/-- Not one of the characters that the automata know. -/
def hushed (c : Char) : Bool := c != ',' && c != ';' && c != ':' && c != '<' && c != '>'

/-- The text contributes `s`, without such characters. -/
def Hush (t s : List Char) : Prop := Aligned t s ∧ ∀ c ∈ s, hushed c = true

theorem Hush.append {t u s v} (h1 : Hush t s) (h2 : Hush u v) : Hush (t ++ u) (s ++ v) := by
  refine ⟨h1.1.append h2.1, fun c hc => ?_⟩
  rcases List.mem_append.mp hc with hc | hc
  · exact h1.2 c hc
  · exact h2.2 c hc

theorem Hush.nil : Hush [] [] := ⟨fun _ => rfl, by simp⟩
theorem Hush.cfws {t} (h : OptCfws t) : Hush t [] := ⟨fun r => skeleton_cfws h r, by simp⟩
theorem Hush.quoted {t v} (h : QuotedString t v) : Hush t ['"'] := ⟨fun r => skeleton_quoted h r, by decide⟩
theorem Hush.literal {t} (h : DomainLiteral t) : Hush t ['['] := ⟨fun r => skeleton_literal h r, by decide⟩
theorem Hush.cons {c t s} (h : stays c = true) (h' : hushed c = true) (ht : Hush t s) : Hush (c :: t) (c :: s) := by
  refine ⟨ht.1.cons h, fun d hd => ?_⟩
  rcases List.mem_cons.mp hd with rfl | hd
  · exact h'
  · exact ht.2 d hd
theorem Hush.around {a t b s} (ha : OptCfws a) (ht : Hush t s) (hb : OptCfws b) : Hush (a ++ (t ++ b)) s := by
  simpa using (Hush.cfws ha).append (ht.append (.cfws hb))

theorem Hush.wordChars {t : List Char} (h : ∀ c ∈ t, wordChar c = true) : Hush t t := by
  refine ⟨(Part.wordChars h).1, fun c hc => ?_⟩
  have := h c hc
  simp only [hushed, Bool.and_eq_true, bne_iff_ne]
  refine ⟨⟨⟨⟨?_, ?_⟩, ?_⟩, ?_⟩, ?_⟩ <;> (rintro rfl; exact absurd this (by decide))

theorem Hush.atom {t} (h : Atom t) : Hush t t := .wordChars fun c hc => by simp [wordChar, h.2 c hc]
theorem Hush.dotAtom {t} (h : DotAtom t) : Hush t t := .wordChars (dotAtom_wordChars h)

theorem _root_.Rfc5322.Spec.AtomWords.mono {t u : List Char} (h : AtomWords t) (hu : u <:+: t) : AtomWords u := fun w hw hi => h w hw (hi.trans hu)
theorem _root_.Rfc5322.Spec.AtomWords.left {t u : List Char} (h : AtomWords (t ++ u)) : AtomWords t := h.mono ⟨[], u, rfl⟩
theorem _root_.Rfc5322.Spec.AtomWords.right {t u : List Char} (h : AtomWords (t ++ u)) : AtomWords u := h.mono ⟨t, [], by simp⟩
theorem _root_.Rfc5322.Spec.AtomWords.tail {c : Char} {u : List Char} (h : AtomWords (c :: u)) : AtomWords u := AtomWords.right (t := [c]) h

theorem _root_.Rfc5322.Spec.NoMark.left {t u : List Char} (h : NoMark (t ++ u)) : NoMark t := h.mono ⟨[], u, rfl⟩
theorem _root_.Rfc5322.Spec.NoMark.right {t u : List Char} (h : NoMark (t ++ u)) : NoMark u := h.mono ⟨t, [], by simp⟩
theorem _root_.Rfc5322.Spec.NoMark.tail {c : Char} {u : List Char} (h : NoMark (c :: u)) : NoMark u := NoMark.right (t := [c]) h

theorem atomWords_of_noMark {t : List Char} (h : NoMark t) : AtomWords t := by
  intro w hw hi
  obtain ⟨cs, en, tx, _, _, _, _, _, _, rfl⟩ := hw
  obtain ⟨x, y, rfl⟩ := hi
  exact absurd ⟨x, cs ++ '?' :: (en ++ '?' :: (tx ++ '?' :: '=' :: y)), by simp⟩ h

theorem tameWords_of_atomWords {t : List Char} (h : AtomWords t) : TameWords t := by
  intro w hw hi c hc hm
  have := h w hw hi c hc
  simp only [List.mem_cons, List.not_mem_nil, or_false] at hm
  rcases hm with rfl | rfl | rfl | rfl | rfl <;> exact absurd this (by decide)

/-- All the places where an encoded word might begin are looked at. -/
def atomCheck : List Char → Bool
  | [] => true
  | c :: r => (!(c == '=' && r.head? == some '?') || (upTo 4 (c :: r)).any isBlank || (upTo 4 (c :: r)).all isAtext) && atomCheck r

theorem atomWords_of_check : ∀ {t : List Char}, atomCheck t = true → AtomWords t := by
  have key : ∀ {x w y : List Char}, EncodedWord w → atomCheck (x ++ (w ++ y)) = true → ∀ c ∈ w, isAtext c = true := by
    intro x w y hw h
    induction x with
    | cons c x ih => rw [List.cons_append, atomCheck, Bool.and_eq_true] at h; exact ih h.2
    | nil =>
      have hv := encodedWord_visible hw
      obtain ⟨cs, en, tx, _, _, _, h1, h2, h3, rfl⟩ := hw
      have q1 : '?' ∉ cs := fun hm => absurd (h1 _ hm) (by decide)
      have q2 : '?' ∉ en := fun hm => absurd (h2 _ hm) (by decide)
      have q3 : '?' ∉ tx := fun hm => absurd (h3 _ hm) (by decide)
      have e : '=' :: '?' :: (cs ++ '?' :: (en ++ '?' :: (tx ++ ['?', '=']))) ++ y =
          '=' :: '?' :: (cs ++ '?' :: (en ++ '?' :: (tx ++ '?' :: '=' :: y))) := by simp
      rw [List.nil_append, e, atomCheck, Bool.and_eq_true] at h
      have h := h.1
      simp only [List.head?_cons, beq_self_eq_true, Bool.and_self, Bool.not_true, Bool.false_or, Bool.or_eq_true, List.any_eq_true, List.all_eq_true, upTo,
        if_neg (show '=' ≠ '?' by decide), if_true, upTo_skip q1, upTo_skip q2, upTo_skip q3] at h
      replace h := h.resolve_left (by
        rintro ⟨c, hc, hb⟩
        have := hv c (by
          simp only [List.mem_cons, List.mem_append, List.not_mem_nil, or_false] at hc ⊢
          rcases hc with hc | hc | hc | hc | hc | hc | hc | hc <;> simp [hc])
        simp only [isBlank, Bool.or_eq_true, beq_iff_eq] at hb
        rcases hb with ((rfl | rfl) | rfl) | rfl <;> exact absurd this (by decide))
      intro c hc
      have := h c
      simp only [List.mem_cons, List.mem_append, List.not_mem_nil, or_false] at hc
      rcases hc with hc | hc | hc | hc | hc | hc | hc | hc | hc <;> first
        | (subst hc; decide)
        | (have := h c (by simp [hc]); simpa using this)
  rintro t h w hw ⟨x, y, rfl⟩
  rw [List.append_assoc] at h
  exact key hw h

theorem encodedWords_hush {t v} (h : EncodedWords env t v) (hn : AtomWords t) : ∃ s, Hush t s ∧ s ≠ [] := by
  have word : ∀ {t : List Char}, EncodedWord t → AtomWords t → Hush t t := fun h hn => .wordChars fun c hc => by simp [wordChar, hn _ h List.infix_rfl c hc]
  induction h with
  | one ha ht hb => exact ⟨_, .around ha (word ht hn.right.left) hb, encodedWord_ne ht⟩
  | cons ha ht hb _ ih =>
    obtain ⟨s, hs, _⟩ := ih hn.right.right.right
    exact ⟨_, (Hush.cfws ha).append ((word ht hn.right.left).append ((Hush.cfws hb).append hs)), by simp [encodedWord_ne ht]⟩

theorem word_hush {t v} (h : Word env t v) (hn : AtomWords t) : ∃ s, Hush t s ∧ s ≠ [] := by
  cases h with
  | encoded h => exact encodedWords_hush h hn
  | atom ha ht hb => exact ⟨_, .around ha (.atom ht) hb, ht.1⟩
  | quoted ha ht hb => exact ⟨_, .around ha (.quoted ht) hb, by simp⟩

theorem nameTail_hush {t ps} (h : NameTail env t ps) (hn : AtomWords t) : ∃ s, Hush t s := by
  induction h with
  | nil => exact ⟨_, .nil⟩
  | word hw _ ih =>
    obtain ⟨s, hs, _⟩ := word_hush hw hn.left
    obtain ⟨s', hs'⟩ := ih hn.right
    exact ⟨_, hs.append hs'⟩
  | dot _ ih => obtain ⟨s', hs'⟩ := ih hn.tail; exact ⟨_, .cons rfl rfl hs'⟩
  | «at» _ ih => obtain ⟨s', hs'⟩ := ih hn.tail; exact ⟨_, .cons rfl rfl hs'⟩
  | cfws hc _ ih => obtain ⟨s', hs'⟩ := ih hn.right; exact ⟨_, (Hush.cfws hc.1).append hs'⟩

theorem displayName_hush {t v} (h : DisplayName env t v) (hn : AtomWords t) : ∃ s, Hush t s := by
  obtain ⟨w, u, r, ps, hw, hr, rfl, _⟩ := h
  obtain ⟨s, hs, _⟩ := word_hush hw hn.left
  obtain ⟨s', hs'⟩ := nameTail_hush hr hn.right
  exact ⟨_, hs.append hs'⟩

theorem dottedWords_hush {t v} (h : DottedWords env t v) (hn : AtomWords t) : ∃ s, Hush t s := by
  induction h with
  | one hw => obtain ⟨s, hs, _⟩ := word_hush hw hn; exact ⟨s, hs⟩
  | cons hw _ ih =>
    obtain ⟨s, hs, _⟩ := word_hush hw hn.left
    obtain ⟨s', hs'⟩ := ih hn.right.tail
    exact ⟨_, hs.append (.cons rfl rfl hs')⟩

theorem localPart_hush {t v} (h : LocalPart env t v) (hn : AtomWords t) : ∃ s, Hush t s := by
  cases h with
  | dotAtom ha ht hb => exact ⟨_, .around ha (.dotAtom ht) hb⟩
  | quoted ha ht hb => exact ⟨_, .around ha (.quoted ht) hb⟩
  | obs h => exact dottedWords_hush h hn

theorem domain_hush {t v} (h : Domain t v) : ∃ s, Hush t s := by
  cases h with
  | dotAtom ha ht hb => exact ⟨_, .around ha (.dotAtom ht) hb⟩
  | literal ha ht hb => exact ⟨_, .around ha (.literal ht) hb⟩

/-- The skeletons of mailboxes without a port. -/
inductive Firm : List Char → Prop where
  | angle {p q} : (∀ c ∈ p, hushed c = true) → '>' ∉ q → Firm (p ++ '<' :: (q ++ ['>']))
  | bare {p} : (∀ c ∈ p, hushed c = true) → p ≠ [] → Firm p

/-- The skeletons of mailboxes. -/
inductive Shape : List Char → Prop where
  | firm {s} : Firm s → Shape s
  | port {p d} : (∀ c ∈ p, hushed c = true) → (∀ c ∈ d, hushed c = true) → Shape (p ++ ':' :: d)

theorem hushed_greater {p : List Char} (h : ∀ c ∈ p, hushed c = true) : '>' ∉ p := fun hm => absurd (h _ hm) (by decide)

theorem digits_hush {p : List Char} (h : ∀ c ∈ p, isDigit c = true) : Hush p p := by
  have ne : ∀ c ∈ p, ∀ d, isDigit d = false → c ≠ d := by
    rintro c hc _ hd rfl
    rw [h _ hc] at hd; cases hd
  refine ⟨(Part.chars fun c hc => ⟨?_, ?_⟩).1, fun c hc => ?_⟩
  · simp [stays, isBlank]
    have := ne c hc
    repeat' apply And.intro
    all_goals exact this _ (by decide)
  · simp [isSep]
    have := ne c hc
    repeat' apply And.intro
    all_goals exact this _ (by decide)
  · simp [hushed]
    have := ne c hc
    repeat' apply And.intro
    all_goals exact this _ (by decide)

theorem addrSpec_firm {t v} (h : AddrSpec env t v) (hn : AtomWords t) : ∃ s, Aligned t s ∧ Shape s ∧ '>' ∉ s := by
  cases h with
  | plain hl hd =>
    obtain ⟨s, hs⟩ := localPart_hush hl hn.left
    obtain ⟨s', hs'⟩ := domain_hush hd
    have := hs.append (.cons (c := '@') rfl rfl hs')
    exact ⟨_, this.1, .firm (.bare this.2 (by simp)), hushed_greater this.2⟩
  | port hl hd hp hd' =>
    obtain ⟨s, hs⟩ := localPart_hush hl hn.left
    obtain ⟨s', hs'⟩ := domain_hush hd
    have := hs.append (.cons (c := '@') rfl rfl hs')
    have h2 := digits_hush hd'
    have h3 := this.1.append (h2.1.cons (c := ':') rfl)
    refine ⟨_, by simpa using h3, .port this.2 h2.2, ?_⟩
    have := hushed_greater this.2
    have := hushed_greater h2.2
    simp_all

theorem route_aligned {q} (h : Route q) : ∃ s, Aligned q s ∧ '>' ∉ s := by
  have head : ∀ {t}, RouteHead t → ∃ s, Aligned t s ∧ '>' ∉ s := by
    intro t h
    induction h with
    | nil => exact ⟨[], fun _ => rfl, by simp⟩
    | comma _ ih => obtain ⟨s, hs, h'⟩ := ih; exact ⟨_, hs.cons rfl, by simp [h']⟩
    | cfws hc _ ih => obtain ⟨s, hs, h'⟩ := ih; exact ⟨_, Aligned.append (s := []) (skeleton_cfws hc.1) hs, h'⟩
  have tail : ∀ {t}, RouteTail t → ∃ s, Aligned t s ∧ '>' ∉ s := by
    intro t h
    induction h with
    | nil => exact ⟨[], fun _ => rfl, by simp⟩
    | empty hc _ ih => obtain ⟨s, hs, h'⟩ := ih; exact ⟨_, (Aligned.append (s := []) (skeleton_cfws hc) hs).cons rfl, by simp [h']⟩
    | hop hc hd _ ih =>
      obtain ⟨s, hs, h'⟩ := ih
      obtain ⟨s', hs'⟩ := domain_hush hd
      exact ⟨_, (Aligned.append (s := []) (skeleton_cfws hc) ((Aligned.append hs'.1 hs).cons rfl)).cons rfl, by simp [h', hushed_greater hs'.2]⟩
  obtain ⟨h, d, v, q, h1, h2, h3, rfl⟩ := h
  obtain ⟨s, hs, k⟩ := head h1
  obtain ⟨s', hs'⟩ := domain_hush h2
  obtain ⟨s'', hs'', k'⟩ := tail h3
  exact ⟨_, hs.append ((hs'.1.append (hs''.append (Aligned.cons (c := ':') (t := []) (s := []) rfl fun _ => rfl))).cons rfl), by simp [k, k', hushed_greater hs'.2]⟩

theorem angleAddr_firm {t v} (h : AngleAddr env t v) (hn : AtomWords t) : ∃ q, Aligned t ('<' :: (q ++ ['>'])) ∧ '>' ∉ q := by
  have around : ∀ {a t b s : List Char}, OptCfws a → OptCfws b → Aligned t s → Aligned (a ++ '<' :: (t ++ '>' :: b)) ('<' :: (s ++ ['>'])) := by
    intro a t b s ha hb ht
    exact Aligned.append (s := []) (skeleton_cfws ha) ((ht.append (Aligned.cons (s := []) rfl (skeleton_cfws hb))).cons rfl)
  cases h with
  | null ha hb => exact ⟨[], around (t := []) ha hb (fun _ => rfl), by simp⟩
  | addr ha ht hb =>
    obtain ⟨s, hs, _, h'⟩ := addrSpec_firm ht hn.right.tail.left
    exact ⟨s, around ha hb hs, h'⟩
  | @routed a q t _ b ha hq ht hb =>
    obtain ⟨s, hs, _, h'⟩ := addrSpec_firm ht (hn.mono ⟨a ++ '<' :: q, '>' :: b, by simp⟩)
    obtain ⟨s', hs', h''⟩ := route_aligned hq
    exact ⟨s' ++ s, by simpa using around ha hb (hs'.append hs), by simp [h', h'']⟩

theorem mailbox_shape {t a} (h : Mailbox env t a) (hn : AtomWords t) : ∃ s, Aligned t s ∧ Shape s := by
  cases h with
  | named h1 h2 =>
    obtain ⟨s, hs⟩ := displayName_hush h1 hn.left
    obtain ⟨q, hq, h'⟩ := angleAddr_firm h2 hn.right
    exact ⟨_, hs.1.append hq, .firm (.angle hs.2 h')⟩
  | angle h =>
    obtain ⟨q, hq, h'⟩ := angleAddr_firm h hn
    exact ⟨_, hq, .firm (.angle (p := []) (by simp) h')⟩
  | bare h =>
    obtain ⟨s, hs, h', _⟩ := addrSpec_firm h hn
    exact ⟨s, hs, h'⟩

/-! ## Missing items in a list -/

/-- At the beginning of an item; within one; between angle brackets; in a group; in angle brackets in a group. -/
inductive Place where
  | start | item | angle | group | deep
  deriving DecidableEq

/-- One step; nothing, if an item is missing. -/
def Place.next : Place → Char → Option Place
  | .start, c => if c = ',' ∨ c = ';' then none else if c = ':' then some .group else if c = '<' then some .angle else some .item
  | .item, c => if c = ',' then some .start else if c = ':' then some .group else if c = '<' then some .angle else some .item
  | .angle, c => if c = '>' then some .item else some .angle
  | .group, c => if c = ';' then some .item else if c = '<' then some .deep else some .group
  | .deep, c => if c = '>' then some .group else some .deep

/-- No item is missing. -/
def whole : Place → List Char → Bool
  | p, [] => p != .start
  | p, c :: r => match p.next c with
    | some q => whole q r
    | none => false

theorem whole_next {p q : Place} {c : Char} (h : p.next c = some q) (r) : whole p (c :: r) = whole q r := by rw [whole, h]

/-- In an item, or in a group. -/
def Place.Settled (p : Place) : Prop := p = .item ∨ p = .group
/-- Where an item may begin. -/
def Place.Open (p : Place) : Prop := p = .start ∨ p.Settled

theorem Place.Settled.open {p : Place} (h : p.Settled) : p.Open := .inr h

theorem whole_hushed : ∀ {s : List Char}, (∀ c ∈ s, hushed c = true) → ∀ {p : Place}, p.Open →
    ∃ q : Place, q.Open ∧ (p = .group → q = .group) ∧ (p ≠ .group → s ≠ [] → q = .item) ∧ (p = .item → q = .item) ∧ (s = [] → q = p) ∧ (p = .start → q ≠ .group) ∧ ∀ r, whole p (s ++ r) = whole q r
  | [], _, p, hp => ⟨p, hp, id, by simp, id, by simp, by rintro rfl; simp, fun _ => rfl⟩
  | c :: s, h, p, hp => by
    have hc : ((((c ≠ ',' ∧ c ≠ ';') ∧ c ≠ ':') ∧ c ≠ '<') ∧ c ≠ '>') := by simpa [hushed] using h c (by simp)
    have step : p.next c = some (if p = .group then .group else .item) := by
      rcases hp with rfl | rfl | rfl <;> simp [Place.next, hc]
    have hq : (if p = Place.group then Place.group else .item).Open := by split <;> simp [Place.Open, Place.Settled]
    obtain ⟨q, h1, h2, h3, h4, h5, h6, h7⟩ := whole_hushed (s := s) (fun c hc => h c (by simp [hc])) hq
    refine ⟨q, h1, fun e => h2 (by simp [e]), fun e _ => h4 (by simp [e]), fun e => h4 (by simp [e]), by simp, fun e => ?_, fun r => ?_⟩
    · rw [h4 (by simp [e])]; simp
    · rw [List.cons_append, whole_next step, h7]

theorem whole_angle : ∀ {q : List Char}, '>' ∉ q → ∀ r, whole .angle (q ++ r) = whole .angle r
  | [], _, _ => rfl
  | c :: q, h, r => by
    simp only [List.mem_cons, not_or] at h
    rw [List.cons_append, whole_next (q := .angle) (by simp [Place.next, Ne.symm h.1]), whole_angle h.2]

theorem whole_deep : ∀ {q : List Char}, '>' ∉ q → ∀ r, whole .deep (q ++ r) = whole .deep r
  | [], _, _ => rfl
  | c :: q, h, r => by
    simp only [List.mem_cons, not_or] at h
    rw [List.cons_append, whole_next (q := .deep) (by simp [Place.next, Ne.symm h.1]), whole_deep h.2]

theorem whole_firm {s : List Char} (h : Firm s) {p : Place} (hp : p.Open) (r) : whole p (s ++ r) = whole (if p = .group then .group else .item) r := by
  cases h with
  | @angle n a hn ha =>
    obtain ⟨q, h1, h2, _, h4, _, h6, h7⟩ := whole_hushed hn hp
    rw [List.append_assoc, h7]
    by_cases hg : p = .group
    · rw [h2 hg, List.cons_append, whole_next (q := .deep) rfl, List.append_assoc, whole_deep ha, List.singleton_append, whole_next (q := .group) rfl, if_pos hg]
    · have : q = .start ∨ q = .item := by
        rcases h1 with h | h | h
        · exact .inl h
        · exact .inr h
        · rcases hp with rfl | rfl | rfl
          · exact absurd h (h6 rfl)
          · exact .inr (h4 rfl)
          · exact absurd rfl hg
      have e : ∀ x, whole q ('<' :: x) = whole .angle x := by rcases this with rfl | rfl <;> exact fun x => whole_next rfl x
      rw [List.cons_append, e, List.append_assoc, whole_angle ha, List.singleton_append, whole_next (q := .item) rfl, if_neg hg]
  | bare hn hne =>
    obtain ⟨q, _, h2, h3, _, _, _, h7⟩ := whole_hushed hn hp
    rw [h7]
    by_cases hg : p = .group
    · rw [h2 hg, if_pos hg]
    · rw [h3 hg hne, if_neg hg]

/-- A colon. -/
theorem whole_colon {s : List Char} (hs : ∀ c ∈ s, hushed c = true) {p : Place} (hp : p.Open) (r) : whole p (s ++ ':' :: r) = whole .group r := by
  obtain ⟨q, h1, _, _, _, _, _, h7⟩ := whole_hushed hs hp
  rw [h7]
  rcases h1 with rfl | rfl | rfl <;> exact whole_next rfl r

theorem whole_shape {s : List Char} (h : Shape s) {p : Place} (hp : p.Open) : ∃ q : Place, q.Settled ∧ (p = .group → q = .group) ∧ ∀ r, whole p (s ++ r) = whole q r := by
  cases h with
  | firm h => exact ⟨_, by split <;> simp [Place.Settled], fun e => by simp [e], whole_firm h hp⟩
  | @port n d hn hd =>
    obtain ⟨q, _, h2, _, _, _, _, h7⟩ := whole_hushed hd (p := .group) (.inr (.inr rfl))
    refine ⟨.group, .inr rfl, fun _ => rfl, fun r => ?_⟩
    rw [List.append_assoc, List.cons_append, whole_colon hn hp, h7, h2 rfl]

end Rfc5322.Scan
