import Verif.Proofs.Means
import Verif.Spec.Address

/-!
# Denotations: white space, comments, atoms, quoted strings, encoded words
-/

namespace Rfc5322

open Spec

variable {env : Env} {Q : Rule → Prop}

/-! ## Algebra of quiet languages -/

namespace Lang

theorem star_char {p : Char → Bool} {t f} : star (char p) t f ↔ (∀ c ∈ t, p c = true) ∧ f = id := by
  constructor
  · intro h
    induction h with
    | nil => exact ⟨by simp, rfl⟩
    | cons h _ ih =>
      obtain ⟨c, rfl, hc, rfl⟩ := h
      obtain ⟨ih, rfl⟩ := ih
      refine ⟨?_, rfl⟩
      intro d hd
      simp only [List.cons_append, List.nil_append, List.mem_cons] at hd
      rcases hd with rfl | hd
      · exact hc
      · exact ih d hd
  · rintro ⟨h, rfl⟩
    induction t with
    | nil => exact .nil
    | cons c t ih =>
      simp only [List.mem_cons, forall_eq_or_imp] at h
      exact .cons (t₁ := [c]) (f₁ := id) ⟨c, rfl, h.1, rfl⟩ (ih h.2)

theorem plus_char {p : Char → Bool} {t f} :
    seq (char p) (star (char p)) t f ↔ t ≠ [] ∧ (∀ c ∈ t, p c = true) ∧ f = id := by
  constructor
  · rintro ⟨_, _, t₂, _, ⟨c, rfl, hc, rfl⟩, h2, rfl, rfl⟩
    obtain ⟨h3, rfl⟩ := star_char.mp h2
    exact ⟨by simp, by simpa using ⟨hc, h3⟩, rfl⟩
  · rintro ⟨h1, h2, rfl⟩
    cases t with
    | nil => exact absurd rfl h1
    | cons c t =>
      simp only [List.mem_cons, forall_eq_or_imp] at h2
      exact ⟨[c], id, t, id, ⟨c, rfl, h2.1, rfl⟩, star_char.mpr ⟨h2.2, rfl⟩, rfl, rfl⟩

theorem seq_quiet {S T t f} : seq (quiet S) (quiet T) t f ↔ quiet (fun t => ∃ a b, S a ∧ T b ∧ t = a ++ b) t f := by
  constructor
  · rintro ⟨a, _, b, _, ⟨h1, rfl⟩, ⟨h2, rfl⟩, rfl, rfl⟩
    exact ⟨⟨a, b, h1, h2, rfl⟩, rfl⟩
  · rintro ⟨⟨a, b, h1, h2, rfl⟩, rfl⟩
    exact ⟨a, id, b, id, ⟨h1, rfl⟩, ⟨h2, rfl⟩, rfl, rfl⟩

theorem opt_quiet {S t f} : alt (quiet S) eps t f ↔ quiet (fun t => t = [] ∨ S t) t f := by
  constructor
  · rintro (⟨h, rfl⟩ | ⟨rfl, rfl⟩)
    · exact ⟨.inr h, rfl⟩
    · exact ⟨.inl rfl, rfl⟩
  · rintro ⟨rfl | h, rfl⟩
    · exact .inr ⟨rfl, rfl⟩
    · exact .inl ⟨h, rfl⟩

theorem alt_quiet {S T t f} : alt (quiet S) (quiet T) t f ↔ quiet (fun t => S t ∨ T t) t f := by
  constructor
  · rintro (⟨h, rfl⟩ | ⟨h, rfl⟩)
    · exact ⟨.inl h, rfl⟩
    · exact ⟨.inr h, rfl⟩
  · rintro ⟨h | h, rfl⟩
    · exact .inl ⟨h, rfl⟩
    · exact .inr ⟨h, rfl⟩

theorem quiet_congr {S T} (h : ∀ t, S t ↔ T t) {t f} : quiet S t f ↔ quiet T t f := by
  simp only [quiet, h]

end Lang

theorem Means.quiet_congr {g S T} (h : Means Q env g (.quiet S)) (e : ∀ t, S t ↔ T t) : Means Q env g (.quiet T) :=
  h.congr fun _ _ => Lang.quiet_congr e

theorem Means.qseq {a b S T} (ha : Means Q env a (.quiet S)) (hb : Means Q env b (.quiet T)) :
    Means Q env (a ⬝ b) (.quiet fun t => ∃ x y, S x ∧ T y ∧ t = x ++ y) :=
  (ha.seq hb).congr fun _ _ => Lang.seq_quiet

theorem Means.qopt {a S} (ha : Means Q env a (.quiet S)) : Means Q env (.opt a) (.quiet fun t => t = [] ∨ S t) :=
  ha.opt.congr fun _ _ => Lang.opt_quiet

theorem Means.qalt {a b S T} (ha : Means Q env a (.quiet S)) (hb : Means Q env b (.quiet T)) :
    Means Q env (a ‖ b) (.quiet fun t => S t ∨ T t) :=
  (ha.alt hb).congr fun _ _ => Lang.alt_quiet

theorem Means.qstar_char {a p} (ha : Means Q env a (.char p)) :
    Means Q env (.star a) (.quiet fun t => ∀ c ∈ t, p c = true) :=
  ha.star.congr fun _ _ => Lang.star_char

theorem Means.qplus_char {a p} (ha : Means Q env a (.char p)) :
    Means Q env (.plus a) (.quiet fun t => t ≠ [] ∧ ∀ c ∈ t, p c = true) :=
  ha.plus.congr fun _ _ => by rw [Lang.plus_char]; simp only [Lang.quiet, and_assoc]

theorem Means.qlit {k : Tok} {d : Char} (hd : d.toNat < 128)
    (h : (List.range 128).all (fun n => k.matchesN n == (n == d.toNat)) = true) (h8 : k ≠ .UTF8NonAscii) :
    Means Q env (.t k) (.quiet fun t => t = [d]) := Means.lit hd h h8

/-! ## Single characters -/

theorem means_atext : Means Q env Gr.atext (.char isAtext) :=
  Means.class (B := atextToks) rfl (by decide) anyTok_atext
theorem means_wsp : Means Q env Gr.wsp (.char isWsp) := Means.class (B := wspToks) rfl (by decide) anyTok_wsp
theorem means_vchar : Means Q env Gr.vchar (.char isVchar) := Means.class (B := vcharToks) rfl (by decide) anyTok_vchar
theorem means_ctext : Means Q env Gr.ctext (.char isCtext) := Means.class (B := ctextToks) rfl (by decide) anyTok_ctext
theorem means_dtext : Means Q env Gr.dtext (.char isDtext) := Means.class (B := dtextToks) rfl (by decide) anyTok_dtext
theorem means_ctl : Means Q env Gr.obsNoWSCTL (.char isCtl) := Means.class (B := ctlToks) rfl (by decide) anyTok_ctl
theorem means_tokenChar : Means Q env Gr.tokenChar (.char isTokenChar) :=
  Means.class (B := tokenToks) rfl (by decide) anyTok_token
theorem means_encodedChar : Means Q env Gr.encodedChar (.char isEncodedChar) :=
  Means.class (B := encodedToks) rfl (by decide) anyTok_encoded
theorem means_digit : Means Q env (.t .Digit) (.char isDigit) :=
  Means.t.congr fun t f => by simp only [Lang.char, digit_matches]

/-! ## White space -/

theorem means_crlf : Means Q env Gr.crlf (.quiet fun t => t = ['\r', '\n']) :=
  ((Means.qlit (k := .CR) (d := '\r') (by decide) (by decide +kernel) (by decide)).qseq
    (Means.qlit (k := .LF) (d := '\n') (by decide) (by decide +kernel) (by decide))).silent rfl |>.quiet_congr
    fun t => by
      constructor
      · rintro ⟨_, _, rfl, rfl, rfl⟩; rfl
      · rintro rfl; exact ⟨_, _, rfl, rfl, rfl⟩

theorem means_fwsBody : Means Q env
    (.opt (.star Gr.wsp ⬝ Gr.crlf) ⬝ .plus Gr.wsp ‖ Gr.obsFWS) (.quiet Fws) := by
  have star : Means Q env (.star Gr.wsp) _ := means_wsp.qstar_char
  have plus : Means Q env (.plus Gr.wsp) _ := means_wsp.qplus_char
  have obs : Means Q env Gr.obsFWS _ := (plus.qseq (means_crlf.qseq plus)).silent rfl
  have first : Means Q env (.opt (.star Gr.wsp ⬝ Gr.crlf) ⬝ .plus Gr.wsp) _ := (star.qseq means_crlf).qopt.qseq plus
  refine (first.qalt obs).quiet_congr fun t => ?_
  constructor
  · rintro (⟨_, w, rfl | ⟨v, _, hv, rfl, rfl⟩, ⟨hw, hw'⟩, rfl⟩ | ⟨v, _, ⟨_, hv⟩, ⟨_, w, rfl, ⟨hw, hw'⟩, rfl⟩, rfl⟩)
    · exact .plain hw hw'
    · simpa using Fws.folded hv hw hw'
    · exact .folded hv hw hw'
  · rintro (⟨hw, hw'⟩ | ⟨hv, hw, hw'⟩)
    · exact .inl ⟨[], _, .inl rfl, ⟨hw, hw'⟩, rfl⟩
    · exact .inl ⟨_, _, .inr ⟨_, _, hv, rfl, rfl⟩, ⟨hw, hw'⟩, by simp⟩

/-- White space is handed to the parent as it is. -/
theorem means_fws : Means Q env Gr.fws (fun t f => Fws t ∧ f = deliver (.fws (utf8 t))) :=
  (Means.push (Q' := anyK) (mk := fun t => .fws (utf8 t)) rfl (fun _ => rfl) trivial means_fwsBody
    (fun t f ts w _ h => by simp [enterRule, h])).congr fun t f => by
    constructor
    · rintro ⟨g, ⟨h, rfl⟩, rfl⟩; exact ⟨h, rfl⟩
    · rintro ⟨h, rfl⟩; exact ⟨id, ⟨h, rfl⟩, rfl⟩

theorem deliver_fws_plain {v p} (hp : plainK p.kind) : deliver (.fws v) p = p := by
  cases p <;> first | rfl | exact absurd rfl hp.1

/-- White space is ignored by every parent but the content of a quoted string. -/
theorem means_fws_plain : Means plainK env Gr.fws (.quiet Fws) :=
  (means_fws (Q := anyK)).weaken
    (fun t f ⟨h, e⟩ => ⟨id, ⟨h, rfl⟩, fun _ => rfl, fun p hp => ⟨trivial, by rw [e, deliver_fws_plain hp]; rfl⟩⟩)
    (fun t f ⟨h, e⟩ => ⟨_, ⟨h, rfl⟩, by subst e; exact fun _ => rfl,
      fun p hp => ⟨trivial, by rw [e, deliver_fws_plain hp]; rfl⟩⟩)

theorem means_optFws : Means plainK env (.opt Gr.fws) (.quiet OptFws) := means_fws_plain.qopt

/-! ## Quoted pairs -/

/-- Quoted pairs and their values. -/
inductive Pair : List Char → Bytes → Prop where
  | char {c} : isQuotable c → Pair ['\\', c] (encodeRune c)
  | obs {c} : isObsQuoted c → Pair ['\\', c] []

theorem means_backslash : Means Q env (.t .Backslash) (.quiet fun t => t = ['\\']) :=
  Means.qlit (by decide) (by decide +kernel) (by decide)

theorem means_quotedChar : Means Q env Gr.quotedChar
    (fun t f => ∃ c, t = [c] ∧ isQuotable c ∧ f = deliver (.quotedChar (encodeRune c))) :=
  (Means.push (Q' := anyK) (mk := fun t => .quotedChar (utf8 t)) rfl (fun _ => rfl) trivial
    (means_vchar.alt means_wsp) (fun t f ts w _ h => by simp [enterRule, h])).congr fun t f => by
    constructor
    · rintro ⟨g, ⟨c, rfl, h, rfl⟩ | ⟨c, rfl, h, rfl⟩, rfl⟩
      · exact ⟨c, rfl, by simp [isQuotable, h], by simp [utf8_single]⟩
      · exact ⟨c, rfl, by simp [isQuotable, h], by simp [utf8_single]⟩
    · rintro ⟨c, rfl, h, rfl⟩
      simp only [isQuotable, Bool.or_eq_true] at h
      rcases h with h | h
      · exact ⟨id, .inl ⟨c, rfl, h, rfl⟩, by simp [utf8_single]⟩
      · exact ⟨id, .inr ⟨c, rfl, h, rfl⟩, by simp [utf8_single]⟩

theorem anyTok_obsQuoted : ∀ c, anyTok (.U_00 :: ctlToks ++ [.LF, .CR]) c = isObsQuoted c :=
  char_ext (by decide +kernel) fun c h => by
    have : ∀ d : Char, d.toNat < 128 → (c == d) = false := by
      intro d hd; simp; rintro rfl; omega
    rw [anyTok_ge h, isObsQuoted, isCtl_ge h, this _ (by decide), this _ (by decide)]
    simp [ctlToks]; omega

theorem means_obsQP : Means Q env Gr.obsQP (.quiet fun t => ∃ c, t = ['\\', c] ∧ isObsQuoted c) := by
  have h : Means Q env (.t .U_00 ‖ Gr.obsNoWSCTL ‖ .t .LF ‖ .t .CR) (.char isObsQuoted) :=
    Means.class (B := .U_00 :: ctlToks ++ [.LF, .CR]) rfl (by decide) anyTok_obsQuoted
  exact ((means_backslash.seq h).silent rfl).congr fun t f => by
    constructor
    · rintro ⟨_, _, _, _, ⟨rfl, rfl⟩, ⟨c, rfl, hc, rfl⟩, rfl, rfl⟩
      exact ⟨⟨c, rfl, hc⟩, rfl⟩
    · rintro ⟨⟨c, rfl, hc⟩, rfl⟩
      exact ⟨['\\'], id, [c], id, ⟨rfl, rfl⟩, ⟨c, rfl, hc, rfl⟩, rfl, rfl⟩

theorem means_quotedPair : Means Q env Gr.quotedPair (.value Pair fun v => deliver (.quotedPair v)) := by
  refine (Means.push₀ (Q' := anyK) (mk := .quotedPair []) rfl rfl trivial
    ((means_backslash.seq means_quotedChar).alt means_obsQP) (fun _ _ => rfl)).congr fun t f => ?_
  constructor
  · rintro ⟨g, ⟨_, _, _, _, ⟨rfl, rfl⟩, ⟨c, rfl, hc, rfl⟩, rfl, rfl⟩ | ⟨⟨c, rfl, hc⟩, rfl⟩, rfl⟩
    · exact ⟨_, .char hc, rfl⟩
    · exact ⟨_, .obs hc, rfl⟩
  · rintro ⟨v, ⟨hc⟩ | ⟨hc⟩, rfl⟩
    · exact ⟨_, .inl ⟨['\\'], id, [_], _, ⟨rfl, rfl⟩, ⟨_, rfl, hc, rfl⟩, rfl, rfl⟩, rfl⟩
    · exact ⟨id, .inr ⟨⟨_, rfl, hc⟩, rfl⟩, rfl⟩

theorem deliver_quotedPair_plain {v p} (hp : plainK p.kind) : deliver (.quotedPair v) p = p := by
  cases p <;> first | rfl | exact absurd rfl hp.2

theorem means_quotedPair_plain : Means plainK env Gr.quotedPair
    (.quiet fun t => ∃ c, t = ['\\', c] ∧ (isQuotable c || isObsQuoted c) = true) :=
  (means_quotedPair (Q := anyK)).weaken
    (fun t f ⟨v, h, e⟩ => ⟨id, ⟨by
      cases h with
      | char h => exact ⟨_, rfl, by simp [h]⟩
      | obs h => exact ⟨_, rfl, by simp [h]⟩, rfl⟩, fun _ => rfl,
      fun p hp => ⟨trivial, by subst e; exact deliver_quotedPair_plain hp⟩⟩)
    (fun t f ⟨⟨c, ht, hc⟩, e⟩ => by
      subst ht; subst e
      simp only [Bool.or_eq_true] at hc
      rcases hc with hc | hc
      · exact ⟨_, ⟨_, .char hc, rfl⟩, fun _ => rfl, fun p hp => ⟨trivial, deliver_quotedPair_plain hp⟩⟩
      · exact ⟨_, ⟨_, .obs hc, rfl⟩, fun _ => rfl, fun p hp => ⟨trivial, deliver_quotedPair_plain hp⟩⟩)

/-! ## Comments -/

/-- The part of `Means` used in the recursion. -/
def Reads (env : Env) (s : List Char) (ts : List Tree) (s' : List Char) (S : List Char → Prop) : Prop :=
  ∃ t, s = t ++ s' ∧ S t ∧ textList ts = utf8 t ∧ Eff plainK env ts id

theorem Means.reads {g S s ts s'} (h : Means plainK env g (.quiet S)) (hd : Derives g s ts s') :
    Reads env s ts s' S := by
  obtain ⟨t, f, h1, ⟨h2, rfl⟩, h3, h4⟩ := h.sound hd
  exact ⟨t, h1, h2, h3, h4⟩

theorem means_ctext_q : Means plainK env Gr.ctext (.quiet fun t => ∃ c, t = [c] ∧ isCtext c = true) :=
  means_ctext.congr fun t f => by
    constructor
    · rintro ⟨c, h1, h2, h3⟩; exact ⟨⟨c, h1, h2⟩, h3⟩
    · rintro ⟨⟨c, h1, h2⟩, h3⟩; exact ⟨c, h1, h2, h3⟩

theorem commentItems_sound {n : Nat}
    (ih : ∀ s ts s', s.length ≤ n → Derives .comment s ts s' → Reads env s ts s' Comment) :
    ∀ {s ts s'}, Derives (.star (.opt Gr.fws ⬝ Gr.ccontent)) s ts s' → s.length ≤ n →
      Reads env s ts s' CommentItems := by
  intro s ts s' hd
  have key : ∀ {s ts s'}, s.length ≤ n → Derives (Gr.ctext ‖ Gr.quotedPair ‖ .comment) s ts s' →
      Reads env s ts s' (fun t => ∀ f r, OptFws f → CommentItems r → CommentItems (f ++ (t ++ r))) := by
    intro s ts s' hl h2
    cases h2 with
    | altL h2 =>
      obtain ⟨t, e, ⟨c, rfl, hc⟩, h⟩ := means_ctext_q.reads (env := env) h2
      exact ⟨_, e, fun f r hf hr => .char hf hc hr, h⟩
    | altR h2 => cases h2 with
      | altL h2 =>
        obtain ⟨t, e, ⟨c, rfl, hc⟩, h⟩ := means_quotedPair_plain.reads (env := env) h2
        exact ⟨_, e, fun f r hf hr => .pair hf hc hr, h⟩
      | altR h2 =>
        obtain ⟨t, e, ⟨xs, g, hxs, hg, rfl⟩, h⟩ := ih _ _ _ (by omega) h2
        refine ⟨_, e, fun f r hf hr => ?_, h⟩
        have := CommentItems.nested hf hxs hg hr
        simpa using this
  generalize hg : G.star (.opt Gr.fws ⬝ Gr.ccontent) = g at hd
  induction hd with
  | starNil => intro _; exact ⟨[], rfl, .nil, rfl, .nil⟩
  | starCons h1 _ _ ih2 =>
    cases hg
    intro hl
    obtain ⟨r, rfl, hr, er, fr⟩ := ih2 rfl (Nat.le_trans h1.length_le hl)
    cases h1 with
    | seq h1 h2 =>
      have hle := h1.length_le
      obtain ⟨f, rfl, hf, ef, ff⟩ := means_optFws.reads h1
      unfold Gr.ccontent at h2
      cases h2 with
      | rule h2 =>
        obtain ⟨t, e, ht, et, ft⟩ := key (by omega) h2
        subst e
        refine ⟨f ++ (t ++ r), by simp, ht f r hf hr, ?_, ?_⟩
        · simp only [textList_append, textList_node, ef, et, er, utf8_append, List.append_assoc]
        · exact (ff.append (ft.silent (r := .ccontent) rfl)).append fr
  | _ => cases hg

theorem comment_sound : ∀ n {s ts s'}, s.length ≤ n → Derives .comment s ts s' → Reads env s ts s' Comment := by
  intro n
  induction n with
  | zero =>
    intro s ts s' hl hd
    have := hd.length_lt rfl
    omega
  | succ n ih =>
    intro s ts s' hl hd
    cases hd with
    | comment hd =>
      unfold Gr.commentBody at hd
      cases hd with
      | seq h1 hd =>
        have hlt := h1.length_lt rfl
        obtain ⟨a, rfl, rfl, ea, fa⟩ :=
          (Means.qlit (k := .LParens) (d := '(') (by decide) (by decide +kernel) (by decide)).reads (env := env) h1
        cases hd with
        | seq h2 hd =>
          obtain ⟨xs, rfl, hxs, ex, fx⟩ := commentItems_sound (fun s ts s' hl hd => ih hl hd) h2 (by omega)
          cases hd with
          | seq h3 h4 =>
            obtain ⟨f, rfl, hf, ef, ff⟩ := means_optFws.reads (env := env) h3
            obtain ⟨b, rfl, rfl, eb, fb⟩ :=
              (Means.qlit (k := .RParens) (d := ')') (by decide) (by decide +kernel) (by decide)).reads (env := env) h4
            refine ⟨'(' :: (xs ++ (f ++ [')'])), by simp, ⟨xs, f, hxs, hf, rfl⟩, ?_, ?_⟩
            · simp only [textList_node, textList_append, ea, ex, ef, eb]
              simp [utf8]
            · exact (fa.append (fx.append (ff.append fb))).silent rfl

theorem commentItems_complete {xs} (h : CommentItems xs) : ∀ s', ∃ ts,
    Derives (.star (.opt Gr.fws ⬝ Gr.ccontent)) (xs ++ s') ts s' ∧ textList ts = utf8 xs ∧ Eff plainK env ts id := by
  have lparen : Means plainK env (.t .LParens) (.quiet fun t => t = ['(']) :=
    Means.qlit (by decide) (by decide +kernel) (by decide)
  have rparen : Means plainK env (.t .RParens) (.quiet fun t => t = [')']) :=
    Means.qlit (by decide) (by decide +kernel) (by decide)
  induction h with
  | nil => intro s'; exact ⟨[], .starNil, rfl, .nil⟩
  | @char f c r hf hc _ ih =>
    intro s'
    obtain ⟨us, d3, e3, f3⟩ := ih s'
    obtain ⟨vs, d2, e2, f2⟩ := means_ctext_q.complete (env := env) (t := [c]) (f := id) ⟨⟨c, rfl, hc⟩, rfl⟩ (r ++ s')
    obtain ⟨ws, d1, e1, f1⟩ := means_optFws.complete (env := env) (t := f) (f := id) ⟨hf, rfl⟩ (c :: (r ++ s'))
    refine ⟨(ws ++ [.node .ccontent vs]) ++ us, ?_, ?_, ?_⟩
    · have d2' : Derives Gr.ccontent ([c] ++ (r ++ s')) [.node .ccontent vs] (r ++ s') := .rule (.altL d2)
      have := Derives.starCons (.seq d1 d2') d3
      simpa using this
    · simp only [textList_append, textList_node, e1, e2, e3]; simp [utf8]
    · exact (f1.append (f2.silent rfl)).append f3
  | @pair f c r hf hc _ ih =>
    intro s'
    obtain ⟨us, d3, e3, f3⟩ := ih s'
    obtain ⟨vs, d2, e2, f2⟩ := means_quotedPair_plain.complete (env := env) (t := ['\\', c]) (f := id)
      ⟨⟨c, rfl, hc⟩, rfl⟩ (r ++ s')
    obtain ⟨ws, d1, e1, f1⟩ := means_optFws.complete (env := env) (t := f) (f := id) ⟨hf, rfl⟩ ('\\' :: c :: (r ++ s'))
    refine ⟨(ws ++ [.node .ccontent vs]) ++ us, ?_, ?_, ?_⟩
    · have d2' : Derives Gr.ccontent (['\\', c] ++ (r ++ s')) [.node .ccontent vs] (r ++ s') := .rule (.altR (.altL d2))
      have := Derives.starCons (.seq d1 d2') d3
      simpa using this
    · simp only [textList_append, textList_node, e1, e2, e3]; simp [utf8]
    · exact (f1.append (f2.silent rfl)).append f3
  | @nested f xs g r hf _ hg _ ihx ihr =>
    intro s'
    obtain ⟨us, d3, e3, f3⟩ := ihr s'
    obtain ⟨as, da, ea, fa⟩ := lparen.complete (t := ['(']) (f := id) ⟨rfl, rfl⟩ (xs ++ (g ++ (')' :: (r ++ s'))))
    obtain ⟨bs, db, eb, fb⟩ := ihx (g ++ (')' :: (r ++ s')))
    obtain ⟨cs, dc, ec, fc⟩ := means_optFws.complete (env := env) (t := g) (f := id) ⟨hg, rfl⟩ (')' :: (r ++ s'))
    obtain ⟨ds, dd, ed, fd⟩ := rparen.complete (t := [')']) (f := id) ⟨rfl, rfl⟩ (r ++ s')
    obtain ⟨ws, d1, e1, f1⟩ := means_optFws.complete (env := env) (t := f) (f := id) ⟨hf, rfl⟩
      ('(' :: (xs ++ (g ++ (')' :: (r ++ s')))))
    have body : Derives .comment ('(' :: (xs ++ (g ++ (')' :: (r ++ s'))))) [.node .comment (as ++ (bs ++ (cs ++ ds)))]
        (r ++ s') := .comment (.seq da (.seq db (.seq dc dd)))
    refine ⟨(ws ++ [.node .ccontent [.node .comment (as ++ (bs ++ (cs ++ ds)))]]) ++ us, ?_, ?_, ?_⟩
    · have d2' : Derives Gr.ccontent ('(' :: (xs ++ (g ++ (')' :: (r ++ s')))))
          [.node .ccontent [.node .comment (as ++ (bs ++ (cs ++ ds)))]] (r ++ s') := .rule (.altR (.altR body))
      have := Derives.starCons (.seq d1 d2') d3
      simpa using this
    · simp only [textList_append, textList_node, e1, ea, eb, ec, ed, e3]; simp [utf8]
    · exact (f1.append (((fa.append (fb.append (fc.append fd))).silent (r := .comment) rfl).silent
        (r := .ccontent) rfl)).append f3

theorem means_comment : Means plainK env .comment (.quiet Comment) where
  sound hd := by
    obtain ⟨t, h1, h2, h3, h4⟩ := comment_sound _ (Nat.le_refl _) hd
    exact ⟨t, id, h1, ⟨h2, rfl⟩, h3, h4⟩
  complete := by
    rintro t f ⟨⟨xs, g, hx, hg, rfl⟩, rfl⟩ s'
    have lparen : Means plainK env (.t .LParens) (.quiet fun t => t = ['(']) :=
      Means.qlit (by decide) (by decide +kernel) (by decide)
    have rparen : Means plainK env (.t .RParens) (.quiet fun t => t = [')']) :=
      Means.qlit (by decide) (by decide +kernel) (by decide)
    obtain ⟨as, da, ea, fa⟩ := lparen.complete (t := ['(']) (f := id) ⟨rfl, rfl⟩ (xs ++ (g ++ (')' :: s')))
    obtain ⟨bs, db, eb, fb⟩ := commentItems_complete (env := env) hx (g ++ (')' :: s'))
    obtain ⟨cs, dc, ec, fc⟩ := means_optFws.complete (env := env) (t := g) (f := id) ⟨hg, rfl⟩ (')' :: s')
    obtain ⟨ds, dd, ed, fd⟩ := rparen.complete (t := [')']) (f := id) ⟨rfl, rfl⟩ s'
    refine ⟨[.node .comment (as ++ (bs ++ (cs ++ ds)))], ?_, ?_, ?_⟩
    · have : Derives .comment ('(' :: (xs ++ (g ++ (')' :: s')))) [.node .comment (as ++ (bs ++ (cs ++ ds)))] s' :=
        .comment (.seq da (.seq db (.seq dc dd)))
      simpa using this
    · simp only [textList_append, textList_node, ea, eb, ec, ed]; simp [utf8]
    · exact (fa.append (fb.append (fc.append fd))).silent rfl

end Rfc5322
