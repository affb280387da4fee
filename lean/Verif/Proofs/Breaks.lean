import Verif.Proofs.Shape
import Verif.Proofs.Calendar
import Verif.Proofs.DateText

/-!
# Line ends in accepted texts
-/

namespace Rfc5322

open Spec

variable {env : Env}

/-- CR and LF occur only right after a backslash or in a CRLF followed by white space. -/
def Breaks (t : List Char) : Prop := ∀ a c b, t = a ++ c :: b → c = '\r' ∨ c = '\n' →
  (∃ a', a = a' ++ ['\\']) ∨ (c = '\r' ∧ ∃ w b', b = '\n' :: w :: b' ∧ isWsp w = true) ∨
  (c = '\n' ∧ (∃ a', a = a' ++ ['\r']) ∧ ∃ w b', b = w :: b' ∧ isWsp w = true)

/-- The last character is neither CR nor LF. -/
def EndsWell (t : List Char) : Prop := ∀ a c, t = a ++ [c] → c ≠ '\r' ∧ c ≠ '\n'

def Neat (t : List Char) : Prop := Breaks t ∧ EndsWell t

theorem breaks_append {t u : List Char} (ht : Breaks t) (hu : Breaks u) : Breaks (t ++ u) := by
  intro a c b h hc
  rw [List.append_eq_append_iff] at h
  rcases h with ⟨x, h1, h2⟩ | ⟨x, h1, h2⟩
  · rcases hu _ _ _ h2 hc with ⟨a', rfl⟩ | h | ⟨h3, ⟨a', rfl⟩, h4⟩
    · exact .inl ⟨t ++ a', by rw [h1, List.append_assoc]⟩
    · exact .inr (.inl h)
    · exact .inr (.inr ⟨h3, ⟨t ++ a', by rw [h1, List.append_assoc]⟩, h4⟩)
  · cases x with
    | nil =>
      simp only [List.append_nil] at h1
      simp only [List.nil_append] at h2
      subst h1
      rcases hu [] c b (by simpa using h2.symm) hc with ⟨a', h⟩ | h | ⟨h3, ⟨a', h⟩, h4⟩
      · simp at h
      · exact .inr (.inl h)
      · simp at h
    | cons d x =>
      rw [List.cons_append] at h2
      injection h2 with h2 h3
      subst h2; subst h3
      rcases ht _ _ _ h1 hc with h | ⟨h, w, b', rfl, h4⟩ | ⟨h3, h5, w, b', rfl, h4⟩
      · exact .inl h
      · exact .inr (.inl ⟨h, w, b' ++ u, by simp, h4⟩)
      · exact .inr (.inr ⟨h3, h5, w, b' ++ u, by simp, h4⟩)

theorem neat_append {t u : List Char} (ht : Neat t) (hu : Neat u) : Neat (t ++ u) := by
  refine ⟨breaks_append ht.1 hu.1, fun a c h => ?_⟩
  rcases List.eq_nil_or_concat u with rfl | ⟨u, d, rfl⟩
  · exact ht.2 a c (by simpa using h)
  · rw [List.concat_eq_append] at h hu
    rw [← List.append_assoc] at h
    have := List.append_inj_right' h rfl
    injection this with this
    subst this
    exact hu.2 u d rfl

theorem breaks_plain {t : List Char} (h : ∀ c ∈ t, c ≠ '\r' ∧ c ≠ '\n') : Breaks t := by
  intro a c b e hc
  subst e
  have := h c (by simp)
  rcases hc with rfl | rfl
  · exact absurd rfl this.1
  · exact absurd rfl this.2

theorem neat_plain {t : List Char} (h : ∀ c ∈ t, c ≠ '\r' ∧ c ≠ '\n') : Neat t :=
  ⟨breaks_plain h, fun a c e => h c (by rw [e]; simp)⟩

theorem neat_nil : Neat [] := neat_plain (by simp)

theorem neat_cons {c : Char} {u : List Char} (h : c ≠ '\r' ∧ c ≠ '\n') (hu : Neat u) : Neat (c :: u) :=
  neat_append (neat_plain (t := [c]) (by simpa using h)) hu

theorem breaks_cons {c : Char} {u : List Char} (h : c ≠ '\r' ∧ c ≠ '\n') (hu : Breaks u) : Breaks (c :: u) :=
  breaks_append (breaks_plain (t := [c]) (by simpa using h)) hu

/-- Classes without CR and LF. -/
theorem noBreak {p : Char → Bool} (h1 : p '\r' = false) (h2 : p '\n' = false) {c : Char} (h : p c = true) : c ≠ '\r' ∧ c ≠ '\n' := by
  constructor <;> (rintro rfl; simp_all)

theorem breaks_pair {c : Char} {u : List Char} (hu : Breaks u) : Breaks ('\\' :: c :: u) := by
  refine breaks_append (t := ['\\', c]) ?_ hu
  intro a d b e hd
  rcases a with _ | ⟨x, _ | ⟨y, a⟩⟩
  · injection e with e _; subst e; rcases hd with hd | hd <;> cases hd
  · injection e with e e2; subst e; exact .inl ⟨[], rfl⟩
  · simp at e

theorem neat_fws {t} (h : Fws t) : Neat t := by
  have hw : ∀ {w : List Char}, (∀ c ∈ w, isWsp c = true) → ∀ c ∈ w, c ≠ '\r' ∧ c ≠ '\n' :=
    fun h c hc => noBreak (p := isWsp) rfl rfl (h c hc)
  cases h with
  | plain _ h => exact neat_plain (hw h)
  | @folded v w hv hne h =>
    have hW := neat_plain (hw h)
    constructor
    · refine breaks_append (breaks_plain (hw hv)) ?_
      intro a c b e hc
      obtain ⟨d, w, rfl⟩ := List.exists_cons_of_ne_nil hne
      have hd := h d (by simp)
      rcases a with _ | ⟨x, _ | ⟨y, a⟩⟩
      · injection e with e e2; subst e; exact .inr (.inl ⟨rfl, d, w, e2.symm, hd⟩)
      · injection e with e e2; injection e2 with e2 e3
        subst e; subst e2; exact .inr (.inr ⟨rfl, ⟨[], rfl⟩, d, w, e3.symm, hd⟩)
      · injection e with e e2; injection e2 with e2 e3
        have hcm : c ∈ d :: w := by rw [e3]; simp
        have := hw h c hcm
        rcases hc with rfl | rfl
        · exact absurd rfl this.1
        · exact absurd rfl this.2
    · refine (neat_append (t := v) (u := ['\r', '\n'] ++ w) (neat_plain (hw hv)) ⟨?_, ?_⟩).2 |> fun h => by simpa using h
      · intro a c b e hc
        obtain ⟨d, w, rfl⟩ := List.exists_cons_of_ne_nil hne
        have hd := h d (by simp)
        rcases a with _ | ⟨x, _ | ⟨y, a⟩⟩
        · injection e with e e2; subst e; exact .inr (.inl ⟨rfl, d, w, e2.symm, hd⟩)
        · injection e with e e2; injection e2 with e2 e3
          subst e; subst e2; exact .inr (.inr ⟨rfl, ⟨[], rfl⟩, d, w, e3.symm, hd⟩)
        · injection e with e e2; injection e2 with e2 e3
          have hcm : c ∈ d :: w := by show c ∈ d :: w; rw [show d :: w = a ++ c :: b from e3]; simp
          have := hw h c hcm
          rcases hc with rfl | rfl
          · exact absurd rfl this.1
          · exact absurd rfl this.2
      · intro a c e
        rcases List.eq_nil_or_concat w with rfl | ⟨w, d, rfl⟩
        · exact absurd rfl hne
        · rw [List.concat_eq_append, ← List.append_assoc] at e
          have := List.append_inj_right' e rfl
          injection this with this
          subst this
          exact hw h d (by simp)

theorem neat_optFws {t} (h : OptFws t) : Neat t := h.elim (fun h => h ▸ neat_nil) neat_fws

theorem breaks_items {t} (h : CommentItems t) : Breaks t := by
  induction h with
  | nil => exact neat_nil.1
  | char hf hc _ ih => exact breaks_append (neat_optFws hf).1 (breaks_cons (noBreak (p := isCtext) rfl rfl hc) ih)
  | pair hf _ _ ih => exact breaks_append (neat_optFws hf).1 (breaks_pair ih)
  | nested hf _ hg _ ih1 ih2 =>
    exact breaks_append (neat_optFws hf).1 (breaks_cons (by decide) (breaks_append ih1 (breaks_append (neat_optFws hg).1
      (breaks_cons (by decide) ih2))))

/-- A text whose last character is harmless. -/
theorem neat_closed {x : List Char} {c : Char} (hx : Breaks x) (hc : c ≠ '\r' ∧ c ≠ '\n') : Neat (x ++ [c]) := by
  refine ⟨breaks_append hx (breaks_plain (by simpa using hc)), fun a d e => ?_⟩
  have := List.append_inj_right' e rfl
  injection this with this
  exact this ▸ hc

theorem neat_comment {t} (h : Comment t) : Neat t := by
  obtain ⟨xs, f, hx, hf, rfl⟩ := h
  rw [← List.append_assoc]
  exact neat_cons (by decide) (neat_closed (breaks_append (breaks_items hx) (neat_optFws hf).1) (by decide))

theorem neat_comments {t} (h : Comments t) : Neat t := by
  induction h with
  | nil => exact neat_nil
  | cons hf hc _ ih => exact neat_append (neat_optFws hf) (neat_append (neat_comment hc) ih)

theorem neat_optCfws {t} (h : OptCfws t) : Neat t := by
  obtain ⟨r, f, hr, hf, rfl⟩ := h
  exact neat_append (neat_comments hr) (neat_optFws hf)

theorem neat_atom {t} (h : Atom t) : Neat t := neat_plain fun c hc => noBreak (p := isAtext) rfl rfl (h.2 c hc)

theorem neat_dotted {t} (h : Dotted t) : Neat t := by
  induction h with
  | one h => exact neat_atom h
  | cons h _ ih => exact neat_append (neat_atom h) (neat_cons (by decide) ih)

theorem neat_dotAtom {t} (h : DotAtom t) : Neat t := by
  rcases h with h | ⟨r, h, rfl⟩
  · exact neat_dotted h
  · exact neat_append (neat_dotted h) (neat_plain (by decide))

theorem breaks_quotedText {t v} (h : QuotedText t v) : Breaks t := by
  induction h with
  | nil => exact neat_nil.1
  | char hf hc _ ih => exact breaks_append (neat_optFws hf).1 (breaks_cons (noBreak (p := isQtext) rfl rfl hc) ih)
  | pair hf _ _ ih => exact breaks_append (neat_optFws hf).1 (breaks_pair ih)
  | obsPair hf _ _ ih => exact breaks_append (neat_optFws hf).1 (breaks_pair ih)

theorem neat_quotedString {t v} (h : QuotedString t v) : Neat t := by
  obtain ⟨xs, f, hx, hf, rfl⟩ := h
  rw [← List.append_assoc]
  exact neat_cons (by decide) (neat_closed (breaks_append (breaks_quotedText hx) (neat_optFws hf).1) (by decide))

theorem neat_encodedWord {t} (h : EncodedWord t) : Neat t := by
  obtain ⟨cs, en, tx, _, _, _, h1, h2, h3, rfl⟩ := h
  have p1 := neat_plain fun c hc => noBreak (p := isTokenChar) rfl rfl (h1 c hc)
  have p2 := neat_plain fun c hc => noBreak (p := isTokenChar) rfl rfl (h2 c hc)
  have p3 := neat_plain fun c hc => noBreak (p := isEncodedChar) rfl rfl (h3 c hc)
  exact neat_cons (by decide) (neat_cons (by decide) (neat_append p1 (neat_cons (by decide) (neat_append p2
    (neat_cons (by decide) (neat_append p3 (neat_plain (by decide))))))))

theorem neat_around {a t b : List Char} (ha : OptCfws a) (ht : Neat t) (hb : OptCfws b) : Neat (a ++ (t ++ b)) :=
  neat_append (neat_optCfws ha) (neat_append ht (neat_optCfws hb))

theorem neat_word {t v} (h : Word env t v) : Neat t := by
  cases h with
  | encoded h =>
    induction h with
    | one ha h hb => exact neat_around ha (neat_encodedWord h) hb
    | cons ha h hb _ ih =>
      exact neat_append (neat_optCfws ha) (neat_append (neat_encodedWord h) (neat_append (neat_optCfws hb) ih))
  | atom ha h hb => exact neat_around ha (neat_atom h) hb
  | quoted ha h hb => exact neat_around ha (neat_quotedString h) hb

theorem neat_nameTail {t ps} (h : NameTail env t ps) : Neat t := by
  induction h with
  | nil => exact neat_nil
  | word h _ ih => exact neat_append (neat_word h) ih
  | dot _ ih => exact neat_cons (by decide) ih
  | «at» _ ih => exact neat_cons (by decide) ih
  | cfws h _ ih => exact neat_append (neat_optCfws h.1) ih

theorem neat_displayName {t v} (h : DisplayName env t v) : Neat t := by
  obtain ⟨w, u, r, ps, hw, hr, rfl, rfl⟩ := h
  exact neat_append (neat_word hw) (neat_nameTail hr)

theorem neat_localPart {t v} (h : LocalPart env t v) : Neat t := by
  cases h with
  | dotAtom ha h hb => exact neat_around ha (neat_dotAtom h) hb
  | quoted ha h hb => exact neat_around ha (neat_quotedString h) hb
  | obs h =>
    induction h with
    | one h => exact neat_word h
    | cons h _ ih => exact neat_append (neat_word h) (neat_cons (by decide) ih)

theorem breaks_literalItems {t} (h : LiteralItems t) : Breaks t := by
  induction h with
  | nil => exact neat_nil.1
  | char hf hc _ ih => exact breaks_append (neat_optFws hf).1 (breaks_cons (noBreak (p := isDtext) rfl rfl hc) ih)

theorem neat_domain {t v} (h : Domain t v) : Neat t := by
  cases h with
  | dotAtom ha h hb => exact neat_around ha (neat_dotAtom h) hb
  | literal ha h hb =>
    obtain ⟨x, f, hx, hf, rfl⟩ := h
    refine neat_around ha ?_ hb
    rw [← List.append_assoc]
    exact neat_cons (by decide) (neat_closed (breaks_append (breaks_literalItems hx) (neat_optFws hf).1) (by decide))

theorem neat_digits {t : List Char} (h : ∀ c ∈ t, isDigit c = true) : Neat t :=
  neat_plain fun c hc => noBreak (p := isDigit) rfl rfl (h c hc)

theorem neat_addrSpec {t v} (h : AddrSpec env t v) : Neat t := by
  cases h with
  | plain hl hd => exact neat_append (neat_localPart hl) (neat_cons (by decide) (neat_domain hd))
  | port hl hd _ hp => exact neat_append (neat_localPart hl) (neat_cons (by decide) (neat_append (neat_domain hd)
      (neat_cons (by decide) (neat_digits hp))))

theorem neat_route {t} (h : Route t) : Neat t := by
  obtain ⟨h, d, v, r, hh, hd, hr, rfl⟩ := h
  refine neat_append ?_ (neat_cons (by decide) (neat_append (neat_domain hd) (neat_append ?_ (neat_plain (by decide)))))
  · induction hh with
    | nil => exact neat_nil
    | comma _ ih => exact neat_cons (by decide) ih
    | cfws h _ ih => exact neat_append (neat_optCfws h.1) ih
  · induction hr with
    | nil => exact neat_nil
    | empty h _ ih => exact neat_cons (by decide) (neat_append (neat_optCfws h) ih)
    | hop h hd _ ih => exact neat_cons (by decide) (neat_append (neat_optCfws h) (neat_cons (by decide)
        (neat_append (neat_domain hd) ih)))

theorem neat_angleAddr {t v} (h : AngleAddr env t v) : Neat t := by
  cases h with
  | null ha hb => exact neat_append (neat_optCfws ha) (neat_cons (by decide) (neat_cons (by decide) (neat_optCfws hb)))
  | addr ha h hb => exact neat_append (neat_optCfws ha) (neat_cons (by decide) (neat_append (neat_addrSpec h)
      (neat_cons (by decide) (neat_optCfws hb))))
  | routed ha hq h hb => exact neat_append (neat_optCfws ha) (neat_cons (by decide) (neat_append (neat_route hq)
      (neat_append (neat_addrSpec h) (neat_cons (by decide) (neat_optCfws hb)))))

theorem neat_mailbox {t a} (h : Mailbox env t a) : Neat t := by
  cases h with
  | named hn h => exact neat_append (neat_displayName hn) (neat_angleAddr h)
  | angle h => exact neat_angleAddr h
  | bare h => exact neat_addrSpec h

theorem neat_commas {t} (h : Commas t) : Neat t := by
  induction h with
  | nil => exact neat_nil
  | cons h _ ih => exact neat_append (neat_optCfws h) (neat_cons (by decide) ih)

theorem neat_commaTail {Item : List Char → List Addr → Prop} (hI : ∀ {t as}, Item t as → Neat t) {t as}
    (h : CommaTail Item t as) : Neat t := by
  induction h with
  | nil => exact neat_nil
  | item h _ ih => exact neat_cons (by decide) (neat_append (hI h) ih)
  | empty h _ ih => exact neat_cons (by decide) (neat_append (neat_optCfws h) ih)

theorem neat_address {t as} (h : Address env t as) : Neat t := by
  cases h with
  | mailbox h => exact neat_mailbox h
  | group h =>
    obtain ⟨q, n, nv, b, q', e, c, hq, hn, hb, hq', he, hc, rfl⟩ := h
    have hb' : Neat b := by
      cases hb with
      | list h =>
        obtain ⟨h, m, a, r, bs, hh, hm, hr, rfl, rfl⟩ := h
        refine neat_append (neat_commas hh) (neat_append (neat_mailbox hm) (neat_commaTail ?_ hr))
        rintro t as ⟨a, h, _⟩; exact neat_mailbox h
      | empty h1 h2 => exact neat_append (neat_commas h1) (neat_optCfws h2)
    have hd : ∀ {q : List Char} {c : Char}, (c ≠ '\r' ∧ c ≠ '\n') → (q = [] ∨ q = [c]) → Neat q := by
      rintro q c hc (rfl | rfl)
      · exact neat_nil
      · exact neat_plain (by simpa using hc)
    exact neat_append (hd (by decide) hq) (neat_append (neat_displayName hn) (neat_cons (by decide) (neat_append hb'
      (neat_append (hd (by decide) hq') (neat_append (hd (by decide) he) (neat_optCfws hc))))))

theorem neat_addressList {t as} (h : AddressList env t as) : Neat t := by
  cases h with
  | strict h1 h2 =>
    refine neat_append (neat_address h1) ?_
    clear h1
    induction h2 with
    | nil => exact neat_nil
    | item hs h _ ih =>
      exact neat_cons (by rcases hs with rfl | rfl <;> decide) (neat_append (neat_address h) ih)
  | obs hh h1 h2 => exact neat_append (neat_commas hh) (neat_append (neat_address h1) (neat_commaTail neat_address h2))

/-! ## Dates -/

theorem neat_lower {t : List Char} (h : ∀ c ∈ lower t, c ≠ '\r' ∧ c ≠ '\n') : Neat t := by
  refine neat_plain fun c hc => ⟨?_, ?_⟩
  · rintro rfl; exact (h '\r' (List.mem_map.mpr ⟨_, hc, by decide⟩)).1 rfl
  · rintro rfl; exact (h '\n' (List.mem_map.mpr ⟨_, hc, by decide⟩)).2 rfl

theorem neat_names {t : List Char} (l : List (List Char)) (hl : l.all (fun n => n.all fun c => c != '\r' && c != '\n') = true)
    (h : lower t ∈ l) : Neat t := by
  rw [List.all_eq_true] at hl
  have := hl _ h
  rw [List.all_eq_true] at this
  exact neat_lower fun c hc => by simpa using this c hc

theorem neat_padded {D : List Char → Prop} (hD : ∀ x, D x → ∀ c ∈ x, isDigit c = true) {t v} (h : Padded D t v) : Neat t := by
  obtain ⟨a, x, b, ha, hx, hb, rfl, _⟩ := h
  exact neat_around ha (neat_digits (hD x hx)) hb

theorem digits12_all (x : List Char) (h : Digits12 x) : ∀ c ∈ x, isDigit c = true := h.elim (·.2) (·.2)

theorem neat_dateTime {now t f} (h : DateTime now t f) : Neat t := by
  obtain ⟨dw, d, mo, y, hh, mi, s, z, c, h1, h2, h3, h4, h5, h6, h7, h8, h9, rfl⟩ := h
  have n1 : Neat dw := by
    rcases h1 with rfl | ⟨a, n, b, ha, hn, hb, rfl⟩
    · exact neat_nil
    · exact neat_append (neat_optCfws ha) (neat_append (neat_names _ (by decide) hn) (neat_append (neat_optCfws hb) (neat_plain (by decide))))
  have n3 : Neat mo := neat_names monthNames (by decide) (List.mem_of_getElem? h3.2)
  have n4 : Neat y := by
    generalize f.year = yv at h4
    cases h4 with
    | four ha hx hb => exact neat_append (neat_fws ha) (neat_append (neat_digits hx.2) (neat_fws hb))
    | two ha hx hb => exact neat_around ha (neat_digits hx.2) hb
  have n7 : Neat s := by
    generalize f.sec = sv at h7
    cases h7 with
    | none => exact neat_nil
    | some h => exact neat_cons (by decide) (neat_padded (fun x h => h.2) h)
  have n8 : Neat z := by
    generalize f.zone = l at h8
    cases h8 with
    | none => exact neat_nil
    | numeric hf hz =>
      refine neat_append (neat_fws hf) ?_
      cases hz with
      | plus h m => exact neat_cons (by decide) (neat_append (neat_digits h.2) (neat_digits m.2))
      | minus h m => exact neat_cons (by decide) (neat_append (neat_digits h.2) (neat_digits m.2))
      | unsigned h m => exact neat_append (neat_digits h.2) (neat_digits m.2)
    | named h => exact neat_names (zoneNames.map Prod.fst) (by decide) (List.mem_map.mpr ⟨_, h, rfl⟩)
  exact neat_append n1 (neat_append (neat_padded digits12_all h2) (neat_append n3 (neat_append n4 (neat_append
    (neat_padded digits12_all h5) (neat_cons (by decide) (neat_append (neat_padded (fun x h => h.2) h6)
      (neat_append n7 (neat_append n8 (neat_optCfws h9)))))))))

end Rfc5322
