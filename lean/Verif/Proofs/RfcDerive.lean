import Verif.Proofs.RfcMeaning

/-!
# The meaning of RFC 5322 covers its grammar
-/

namespace Rfc5322.Rfc

open Name Abnf

/-- Every white space has a value. -/
structure Blanks.Total (B : Blanks) : Prop where
  inner : ∀ f, ∃ u, B.inner f u
  last : ∀ f, ∃ u, B.last f u

theorem d_dq {x} : Derivable current DQUOTE x ↔ x = ['"'] := by
  rw [d_rule]
  show Derivable current (code 34) x ↔ _
  rw [d_code]
  constructor
  · rintro ⟨c, rfl, h⟩
    have : Char.ofNat c.toNat = Char.ofNat 34 := by rw [h]
    rw [Char.ofNat_toNat] at this
    rw [this]
  · rintro rfl; exact ⟨_, rfl, rfl⟩

theorem no_obs {n x} (hn : current n = nothing) : ¬ Derivable current (.rule n) x := by rw [d_rule, hn]; exact d_nothing

/-- A character of `qtext`. -/
theorem qtext_char {x} (h : Derivable current qtext x) : ∃ c, x = [c] := by
  obtain ⟨c, e, _⟩ := (cls_qtext _).mp (cur_acc h)
  exact ⟨c, e⟩

theorem pair_char {x} (h : Derivable current «quoted-pair» x) : ∃ c, x = ['\\', c] := by
  rw [d_rule] at h
  rcases d_alt.mp h with h | h
  · obtain ⟨y, z, rfl, h1, h2⟩ := d_seq.mp h
    rw [d_punct '\\' (by decide)] at h1
    obtain ⟨d, rfl, _⟩ := (cls_quotable _).mp (cur_acc h2)
    exact ⟨d, by rw [h1]; rfl⟩
  · exact absurd h (no_obs rfl)

section
variable {B : Blanks}

/-! ## Meaning implies derivation -/

theorem quoted_derives {q v} (h : Quoted B q v) : Derivable current (many (opt FWS ⬝ qcontent) ⬝ opt FWS) q := by
  induction h with
  | @char f u c x v hf _ hc _ ih =>
    obtain ⟨y, z, rfl, h1, h2⟩ := d_seq.mp ih
    have : Derivable current (opt FWS ⬝ qcontent) (f ++ [c]) := .seq hf (.rule (.left hc))
    have := Derivable.seq (d_many.mpr (.cons this (d_many.mp h1))) h2
    simpa using this
  | @pair f u c x v hf _ hc _ ih =>
    obtain ⟨y, z, rfl, h1, h2⟩ := d_seq.mp ih
    have : Derivable current (opt FWS ⬝ qcontent) (f ++ ['\\', c]) := .seq hf (.rule (.right hc))
    have := Derivable.seq (d_many.mpr (.cons this (d_many.mp h1))) h2
    simpa using this
  | done hf _ => exact .seq (x := []) (d_many.mpr .nil) hf

theorem quotedString_derives {a q v b} (ha : Derivable current (opt CFWS) a) (hq : Quoted B q v) (hb : Derivable current (opt CFWS) b) :
    Derivable current «quoted-string» (a ++ ('"' :: (q ++ '"' :: b))) := by
  obtain ⟨y, z, rfl, h1, h2⟩ := d_seq.mp (quoted_derives hq)
  have hd := d_dq.mpr rfl
  have := Derivable.seq ha (.seq hd (.seq h1 (.seq h2 (.seq hd hb))))
  have : Derivable current «quoted-string» _ := .rule this
  simpa only [List.append_assoc, List.cons_append, List.nil_append] using this

theorem word_derives {t v} (h : Word B t v) : Derivable current word t := by
  cases h with
  | atom ha ht hb => exact .rule (.left (.rule (.seq ha (.seq ht hb))))
  | quoted ha hq hb => exact .rule (.right (quotedString_derives ha hq hb))

theorem phrase_derives {t vs} (h : Phrase B t vs) : Derivable current phrase t := by
  refine .rule (.left ?_)
  induction h with
  | one h => exact d_some1.mpr ⟨_, [], by simp, word_derives h, .nil⟩
  | cons h _ _ ih =>
    obtain ⟨y, z, rfl, h1, h2⟩ := d_some1.mp ih
    exact d_some1.mpr ⟨_, _, rfl, word_derives h, .cons h1 h2⟩

theorem p_ {d : Char} (h : d ∈ c!"\\()!#$%&'*+-/=?^_`{|}~.,:;<>@[]" := by decide) : Derivable current (.text [d]) [d] := (d_punct d h).mpr rfl

theorem localPart_derives {t v} (h : LocalPart B t v) : Derivable current «local-part» t := by
  cases h with
  | dotAtom ha ht hb => exact .rule (.left (.rule (.seq ha (.seq ht hb))))
  | quoted ha hq hb => exact .rule (.right (.left (quotedString_derives ha hq hb)))

theorem domain_derives {t v} (h : Domain t v) : Derivable current domain t := by
  cases h with
  | dotAtom ha ht hb => exact .rule (.left (.rule (.seq ha (.seq ht hb))))
  | literal ha ht hb =>
    obtain ⟨y, z, rfl, h1, h2⟩ := d_seq.mp ht
    have := Derivable.seq ha (.seq (p_ (d := '[')) (.seq h1 (.seq h2 (.seq (p_ (d := ']')) hb))))
    have : Derivable current domain _ := .rule (.right (.left (.rule this)))
    simpa only [List.append_assoc, List.cons_append, List.nil_append] using this

theorem addrSpec_derives {t v} (h : AddrSpec B t v) : Derivable current «addr-spec» t := by
  cases h with
  | mk h1 h2 => exact .rule (.seq (localPart_derives h1) (.seq (p_ (d := '@')) (domain_derives h2)))

theorem angle_derives {a t v b} (ha : Derivable current (opt CFWS) a) (ht : AddrSpec B t v) (hb : Derivable current (opt CFWS) b) :
    Derivable current «angle-addr» (a ++ '<' :: (t ++ '>' :: b)) :=
  .rule (.left (.seq ha (.seq (p_ (d := '<')) (.seq (addrSpec_derives ht) (.seq (p_ (d := '>')) hb)))))

theorem mailbox_derives {t v} (h : Mailbox B t v) : Derivable current mailbox t := by
  cases h with
  | named hn ha ht hb => exact .rule (.left (.rule (.seq (d_opt.mpr (.inr (.rule (phrase_derives hn)))) (angle_derives ha ht hb))))
  | angle ha ht hb => exact .rule (.left (.rule (.seq (x := []) (d_opt.mpr (.inl rfl)) (angle_derives ha ht hb))))
  | bare h => exact .rule (.right (addrSpec_derives h))

theorem mailboxes_derive {t vs} (h : Mailboxes B t vs) : Derivable current «mailbox-list» t := by
  refine .rule (.left ?_)
  induction h with
  | @one t v h =>
    have := Derivable.seq (mailbox_derives h) (d_many (a := text c!"," ⬝ mailbox).mpr .nil)
    simpa using this
  | cons h _ ih =>
    obtain ⟨y, z, rfl, h1, h2⟩ := d_seq.mp ih
    exact .seq (mailbox_derives h) (d_many.mpr (.cons (.seq (p_ (d := ',')) h1) (d_many.mp h2)))

theorem members_derive {t vs} (h : Members B t vs) : Derivable current (opt «group-list») t := by
  cases h with
  | boxes h => exact d_opt.mpr (.inr (.rule (.left (mailboxes_derive h))))
  | none h =>
    rcases d_opt.mp h with rfl | h
    · exact d_opt.mpr (.inl rfl)
    · exact d_opt.mpr (.inr (.rule (.right (.left h))))

theorem address_derives {t vs} (h : Address B t vs) : Derivable current address t := by
  cases h with
  | box h => exact .rule (.left (mailbox_derives h))
  | group hn hm hb => exact .rule (.right (.rule (.seq (.rule (phrase_derives hn)) (.seq (p_ (d := ':')) (.seq (members_derive hm) (.seq (p_ (d := ';')) hb))))))

theorem list_derives {t l} (h : AddressList B t l) : Derivable current «address-list» t := by
  obtain ⟨hne, h, rfl⟩ := h
  refine .rule (.left ?_)
  induction l with
  | nil => exact absurd rfl hne
  | cons i l ih =>
    have hi := address_derives (h i (by simp))
    cases l with
    | nil =>
      have := Derivable.seq hi (d_many (a := text c!"," ⬝ address).mpr .nil)
      simpa [List.intercalate] using this
    | cons j l =>
      have ih := ih (by simp) (fun i hi => h i (by simp [hi]))
      rw [List.map_cons, List.map_cons, intercalate_cons, ← List.map_cons]
      obtain ⟨y, z, e, h1, h2⟩ := d_seq.mp ih
      rw [e]
      exact .seq hi (d_many.mpr (.cons (.seq (p_ (d := ',')) h1) (d_many.mp h2)))

/-! ## Derivation implies meaning -/

theorem quoted_exists (hB : B.Total) {x y} (h : Many (Derivable current (opt FWS ⬝ qcontent)) x) (hy : Derivable current (opt FWS) y) :
    ∃ v, Quoted B (x ++ y) v := by
  induction h with
  | nil => obtain ⟨u, hu⟩ := hB.last y; exact ⟨u, .done hy hu⟩
  | @cons t r h _ ih =>
    obtain ⟨v, hv⟩ := ih
    obtain ⟨f, c, rfl, hf, hc⟩ := d_seq.mp h
    obtain ⟨u, hu⟩ := hB.inner f
    rw [d_rule] at hc
    rcases d_alt.mp hc with hc | hc
    · obtain ⟨c, rfl⟩ := qtext_char hc
      exact ⟨_, by simpa using Quoted.char hf hu hc hv⟩
    · obtain ⟨c, rfl⟩ := pair_char hc
      exact ⟨_, by simpa using Quoted.pair hf hu hc hv⟩

theorem quotedString_inv (hB : B.Total) {x} (h : Derivable current «quoted-string» x) :
    ∃ a q v b, Derivable current (opt CFWS) a ∧ Quoted B q v ∧ Derivable current (opt CFWS) b ∧ x = a ++ ('"' :: (q ++ '"' :: b)) := by
  rw [d_rule] at h
  obtain ⟨a, x, rfl, ha, h⟩ := d_seq.mp h
  obtain ⟨q1, x, rfl, h1, h⟩ := d_seq.mp h
  obtain ⟨y, x, rfl, h2, h⟩ := d_seq.mp h
  obtain ⟨z, x, rfl, h3, h⟩ := d_seq.mp h
  obtain ⟨q2, b, rfl, h4, hb⟩ := d_seq.mp h
  rw [d_dq] at h1 h4
  subst h1 h4
  obtain ⟨v, hv⟩ := quoted_exists hB (d_many.mp h2) h3
  exact ⟨a, y ++ z, v, b, ha, hv, hb, by simp⟩

theorem word_exists (hB : B.Total) {x} (h : Derivable current word x) : ∃ v, Word B x v := by
  rw [d_rule] at h
  rcases d_alt.mp h with h | h
  · rw [d_rule] at h
    obtain ⟨a, x, rfl, ha, h⟩ := d_seq.mp h
    obtain ⟨t, b, rfl, ht, hb⟩ := d_seq.mp h
    exact ⟨_, .atom ha ht hb⟩
  · obtain ⟨a, q, v, b, h1, h2, h3, rfl⟩ := quotedString_inv hB h
    exact ⟨_, .quoted h1 h2 h3⟩

theorem cfws_head_atext {b : List Char} (hb : Derivable current (opt CFWS) b) {c} (hc : c ∈ b.head?) : Spec.isAtext c = false := by
  cases b with
  | nil => simp at hc
  | cons d b =>
    have := cfws_heads (cur_cfws hb) (by simp) []
    cases hc
    simpa [Heads] using this

theorem cfws_last_atext {b : List Char} (hb : Derivable current (opt CFWS) b) {c} (hc : c ∈ b.getLast?) : Spec.isAtext c = false := by
  have fws : ∀ {f}, Spec.OptFws f → ∀ c ∈ f.getLast?, Spec.isAtext c = false := by
    have wsp : ∀ {c}, Spec.isWsp c = true → Spec.isAtext c = false := by
      intro c h
      simp only [Spec.isWsp, Bool.or_eq_true, beq_iff_eq] at h
      rcases h with rfl | rfl <;> decide
    intro f hf c hc
    rcases hf with rfl | hf
    · simp at hc
    · cases hf with
      | plain _ h => exact wsp (h c (List.mem_of_getLast? hc))
      | @folded v w _ hne h =>
        rw [show v ++ '\r' :: '\n' :: w = (v ++ ['\r', '\n']) ++ w by simp] at hc
        rcases last_append hc with hc | ⟨e, _⟩
        · exact wsp (h c (List.mem_of_getLast? hc))
        · exact absurd e hne
  obtain ⟨r, f, hr, hf, rfl⟩ := cur_cfws hb
  rcases last_append hc with h | ⟨_, h⟩
  · exact fws hf c h
  · clear hb hc
    revert h
    intro hc
    induction hr with
    | nil => simp at hc
    | @cons f t r hf ht _ ih =>
      rcases last_append hc with hc | ⟨_, hc⟩
      · rcases last_append hc with hc | ⟨_, hc⟩
        · exact ih hc
        · obtain ⟨xs, f, _, _, rfl⟩ := ht
          rw [show '(' :: (xs ++ (f ++ [')'])) = ('(' :: (xs ++ f)) ++ [')'] by simp, List.getLast?_append] at hc
          cases hc; decide
      · exact fws hf c hc

theorem atext_cur {c} (h : Derivable current atext [c]) : Spec.isAtext c = true := by
  obtain ⟨d, e, h⟩ := (cls_atext _).mp (cur_acc h)
  injection e with e; subst e; exact h

/-- A word in front of a phrase; atoms that touch are one. -/
theorem phrase_cons {t v r vs} (h : Word B t v) (hr : Phrase B r vs) : ∃ vs', Phrase B (t ++ r) vs' := by
  by_cases hs : ∃ c ∈ t.getLast?, ∃ d ∈ r.head?, Derivable current atext [c] ∧ Derivable current atext [d]
  · obtain ⟨c, hc, d, hd, hc', hd'⟩ := hs
    replace hc' := atext_cur hc'
    replace hd' := atext_cur hd'
    -- the word is an atom with nothing behind it
    have h1 : ∃ a, Derivable current (opt CFWS) a ∧ Derivable current (some1 atext) v ∧ t = a ++ v := by
      cases h with
      | @atom a _ b ha ht hb =>
        rcases last_append hc with hc | ⟨e, _⟩
        · rcases last_append hc with hc | ⟨e, hc⟩
          · rw [cfws_last_atext hb hc] at hc'; cases hc'
          · subst e; exact ⟨a, ha, ht, by simp⟩
        · exact absurd (List.append_eq_nil_iff.mp e).1 (cur_atom ht).1
      | @quoted a q v b ha hq hb =>
        rw [show a ++ '"' :: (q ++ '"' :: b) = (a ++ '"' :: (q ++ ['"'])) ++ b by simp] at hc
        rcases last_append hc with hc | ⟨_, hc⟩
        · rw [cfws_last_atext hb hc] at hc'; cases hc'
        · rw [show a ++ '"' :: (q ++ ['"']) = (a ++ '"' :: q) ++ ['"'] by simp, List.getLast?_append] at hc
          cases hc; exact absurd hc' (by decide)
    -- the phrase begins with an atom
    have h2 : ∀ {t' w}, Word B t' w → d ∈ t'.head? → ∃ b, Derivable current (some1 atext) w ∧ Derivable current (opt CFWS) b ∧ t' = w ++ b := by
      intro t' w h hd
      cases h with
      | @atom a _ b ha ht hb =>
        rcases head_append hd with hd | ⟨e, _⟩
        · rw [cfws_head_atext ha hd] at hd'; cases hd'
        · subst e; exact ⟨b, ht, hb, rfl⟩
      | @quoted a q v b ha hq hb =>
        rcases head_append hd with hd | ⟨e, hd⟩
        · rw [cfws_head_atext ha hd] at hd'; cases hd'
        · cases hd; exact absurd hd' (by decide)
    obtain ⟨a, ha, hv, rfl⟩ := h1
    have merge : ∀ {w}, Derivable current (some1 atext) w → Derivable current (some1 atext) (v ++ w) := by
      intro w hw
      obtain ⟨y, z, rfl, h3, h4⟩ := d_some1.mp hv
      refine d_some1.mpr ⟨y, z ++ w, by simp, h3, ?_⟩
      obtain ⟨y', z', rfl, h5, h6⟩ := d_some1.mp hw
      have : Many (Derivable current atext) (y' ++ z') := .cons h5 h6
      clear h3 hv hw hc hd h
      induction h4 with
      | nil => exact this
      | cons h _ ih => rw [List.append_assoc]; exact .cons h ih
    cases hr with
    | one h =>
      obtain ⟨b, hw, hb, rfl⟩ := h2 h hd
      exact ⟨_, by simpa using Phrase.one (.atom ha (merge hw) hb)⟩
    | @cons t' w r' vs h hs hr =>
      have hd1 : d ∈ t'.head? := by
        rcases head_append hd with hd | ⟨e, _⟩
        · exact hd
        · exact absurd e (word_ne_nil h)
      obtain ⟨b, hw, hb, rfl⟩ := h2 h hd1
      have := Phrase.cons (.atom ha (merge hw) hb) (fun ⟨c, hc, d, hd, hcd⟩ => hs ⟨c, ?_, d, hd, hcd⟩) hr
      · exact ⟨_, by simpa using this⟩
      rw [show a ++ (v ++ w ++ b) = (a ++ v) ++ (w ++ b) by simp] at hc
      rcases last_append hc with hc | ⟨e, _⟩
      · exact hc
      · exact absurd e (word_ne_nil h)
  · exact ⟨_, .cons h hs hr⟩

theorem phrase_exists (hB : B.Total) {x} (h : Derivable current phrase x) : ∃ vs, Phrase B x vs := by
  rcases d_alt.mp (d_rule.mp h) with h' | h'
  all_goals clear h
  · obtain ⟨y, z, rfl, h1, h2⟩ := d_some1.mp h'
    clear h'
    induction h2 generalizing y with
    | nil => obtain ⟨v, hv⟩ := word_exists hB h1; exact ⟨[v], by simpa using Phrase.one hv⟩
    | @cons t r ht hr ih =>
      obtain ⟨v, hv⟩ := word_exists hB h1
      obtain ⟨vs, hvs⟩ := ih t ht
      exact phrase_cons hv hvs
  · exact absurd h' (no_obs rfl)

theorem dotAtom_inv {x} (h : Derivable current «dot-atom» x) :
    ∃ a t b, Derivable current (opt CFWS) a ∧ Derivable current «dot-atom-text» t ∧ Derivable current (opt CFWS) b ∧ x = a ++ (t ++ b) := by
  rw [d_rule] at h
  obtain ⟨a, x, rfl, ha, h⟩ := d_seq.mp h
  obtain ⟨t, b, rfl, ht, hb⟩ := d_seq.mp h
  exact ⟨a, t, b, ha, ht, hb, rfl⟩

theorem localPart_exists (hB : B.Total) {x} (h : Derivable current «local-part» x) : ∃ v, LocalPart B x v := by
  rw [d_rule] at h
  rcases d_alt.mp h with h | h
  · obtain ⟨a, t, b, ha, ht, hb, rfl⟩ := dotAtom_inv h
    exact ⟨_, .dotAtom ha ht hb⟩
  · rcases d_alt.mp h with h | h
    · obtain ⟨a, q, v, b, h1, h2, h3, rfl⟩ := quotedString_inv hB h
      exact ⟨_, .quoted h1 h2 h3⟩
    · exact absurd h (no_obs rfl)

theorem domain_exists {x} (h : Derivable current domain x) : ∃ v, Domain x v := by
  rw [d_rule] at h
  rcases d_alt.mp h with h | h
  · obtain ⟨a, t, b, ha, ht, hb, rfl⟩ := dotAtom_inv h
    exact ⟨_, .dotAtom ha ht hb⟩
  · rcases d_alt.mp h with h | h
    · rw [d_rule] at h
      obtain ⟨a, x, rfl, ha, h⟩ := d_seq.mp h
      obtain ⟨q1, x, rfl, h1, h⟩ := d_seq.mp h
      obtain ⟨y, x, rfl, h2, h⟩ := d_seq.mp h
      obtain ⟨z, x, rfl, h3, h⟩ := d_seq.mp h
      obtain ⟨q2, b, rfl, h4, hb⟩ := d_seq.mp h
      rw [d_punct '[' (by decide)] at h1
      rw [d_punct ']' (by decide)] at h4
      subst h1 h4
      have := Domain.literal ha (.seq h2 h3) hb
      exact ⟨_, by simpa using this⟩
    · exact absurd h (no_obs rfl)

theorem addrSpec_exists (hB : B.Total) {x} (h : Derivable current «addr-spec» x) : ∃ v, AddrSpec B x v := by
  rw [d_rule] at h
  obtain ⟨l, x, rfl, hl, h⟩ := d_seq.mp h
  obtain ⟨q, d, rfl, h1, hd⟩ := d_seq.mp h
  rw [d_punct '@' (by decide)] at h1
  subst h1
  obtain ⟨u, hu⟩ := localPart_exists hB hl
  obtain ⟨v, hv⟩ := domain_exists hd
  exact ⟨_, .mk hu hv⟩

theorem mailbox_exists (hB : B.Total) {x} (h : Derivable current mailbox x) : ∃ v, Mailbox B x v := by
  rw [d_rule] at h
  rcases d_alt.mp h with h | h
  · rw [d_rule] at h
    obtain ⟨n, x, rfl, hn, h⟩ := d_seq.mp h
    rw [d_rule] at h
    rcases d_alt.mp h with h | h
    · obtain ⟨a, x, rfl, ha, h⟩ := d_seq.mp h
      obtain ⟨q1, x, rfl, h1, h⟩ := d_seq.mp h
      obtain ⟨t, x, rfl, ht, h⟩ := d_seq.mp h
      obtain ⟨q2, b, rfl, h2, hb⟩ := d_seq.mp h
      rw [d_punct '<' (by decide)] at h1
      rw [d_punct '>' (by decide)] at h2
      subst h1 h2
      obtain ⟨v, hv⟩ := addrSpec_exists hB ht
      rcases d_opt.mp hn with rfl | hn
      · exact ⟨_, .angle ha hv hb⟩
      · obtain ⟨vs, hvs⟩ := phrase_exists hB (d_rule.mp hn)
        exact ⟨_, .named hvs ha hv hb⟩
    · exact absurd h (no_obs rfl)
  · obtain ⟨v, hv⟩ := addrSpec_exists hB h
    exact ⟨_, .bare hv⟩

theorem mailboxes_exist (hB : B.Total) {x} (h : Derivable current «mailbox-list» x) : ∃ vs, Mailboxes B x vs := by
  rcases d_alt.mp (d_rule.mp h) with h' | h'
  all_goals clear h
  · obtain ⟨t, z, rfl, ht, hz⟩ := d_seq.mp h'
    replace hz := d_many.mp hz
    clear h'
    induction hz generalizing t with
    | nil => obtain ⟨v, hv⟩ := mailbox_exists hB ht; exact ⟨[v], by simpa using Mailboxes.one hv⟩
    | @cons y r hy _ ih =>
      obtain ⟨q, t', rfl, h1, ht'⟩ := d_seq.mp hy
      rw [d_punct ',' (by decide)] at h1
      subst h1
      obtain ⟨v, hv⟩ := mailbox_exists hB ht
      obtain ⟨vs, hvs⟩ := ih t' ht'
      exact ⟨_, by simpa using Mailboxes.cons hv hvs⟩
  · exact absurd h' (no_obs rfl)

theorem members_exist (hB : B.Total) {x} (h : Derivable current (opt «group-list») x) : ∃ vs, Members B x vs := by
  rcases d_opt.mp h with rfl | h
  · exact ⟨[], .none (d_opt.mpr (.inl rfl))⟩
  · rw [d_rule] at h
    rcases d_alt.mp h with h | h
    · obtain ⟨vs, hvs⟩ := mailboxes_exist hB h; exact ⟨vs, .boxes hvs⟩
    · rcases d_alt.mp h with h | h
      · exact ⟨[], .none (d_opt.mpr (.inr h))⟩
      · exact absurd h (no_obs rfl)

theorem address_exists (hB : B.Total) {x} (h : Derivable current address x) : ∃ vs, Address B x vs := by
  rw [d_rule] at h
  rcases d_alt.mp h with h | h
  · obtain ⟨v, hv⟩ := mailbox_exists hB h; exact ⟨_, .box hv⟩
  · rw [d_rule] at h
    obtain ⟨n, x, rfl, hn, h⟩ := d_seq.mp h
    obtain ⟨q1, x, rfl, h1, h⟩ := d_seq.mp h
    obtain ⟨m, x, rfl, hm, h⟩ := d_seq.mp h
    obtain ⟨q2, b, rfl, h2, hb⟩ := d_seq.mp h
    rw [d_punct ':' (by decide)] at h1
    rw [d_punct ';' (by decide)] at h2
    subst h1 h2
    obtain ⟨ws, hws⟩ := phrase_exists hB (d_rule.mp hn)
    obtain ⟨vs, hvs⟩ := members_exist hB hm
    exact ⟨_, .group hws hvs hb⟩

theorem list_exists (hB : B.Total) {x} (h : Derivable current «address-list» x) : ∃ l, AddressList B x l := by
  rcases d_alt.mp (d_rule.mp h) with h' | h'
  all_goals clear h
  · obtain ⟨t, z, rfl, ht, hz⟩ := d_seq.mp h'
    replace hz := d_many.mp hz
    clear h'
    induction hz generalizing t with
    | nil => obtain ⟨v, hv⟩ := address_exists hB ht; exact ⟨[(t, v)], by simp, by simpa using hv, by simp [List.intercalate]⟩
    | @cons y r hy _ ih =>
      obtain ⟨q, t', rfl, h1, ht'⟩ := d_seq.mp hy
      rw [d_punct ',' (by decide)] at h1
      subst h1
      obtain ⟨v, hv⟩ := address_exists hB ht
      obtain ⟨l, hne, hl, e⟩ := ih t' ht'
      obtain ⟨j, l, rfl⟩ := List.exists_cons_of_ne_nil hne
      refine ⟨(t, v) :: j :: l, by simp, ?_, ?_⟩
      · intro i hi
        rcases List.mem_cons.mp hi with rfl | hi
        · exact hv
        · exact hl i hi
      · rw [List.map_cons, List.map_cons, intercalate_cons, ← List.map_cons, ← e]; simp
  · exact absurd h' (no_obs rfl)

end

/-! ## Comparing -/

/-- Whatever is white space in `A` is so in `B`, with the same value. -/
structure Blanks.Le (A B : Blanks) : Prop where
  inner : ∀ f u, Derivable current (opt FWS) f → A.inner f u → B.inner f u
  last : ∀ f u, Derivable current (opt FWS) f → A.last f u → B.last f u

section
variable {A B : Blanks} (le : A.Le B)
include le

theorem Quoted.mono {q v} (h : Quoted A q v) : Quoted B q v := by
  induction h with
  | char hf hu hc _ ih => exact .char hf (le.inner _ _ hf hu) hc ih
  | pair hf hu hc _ ih => exact .pair hf (le.inner _ _ hf hu) hc ih
  | done hf hu => exact .done hf (le.last _ _ hf hu)

theorem Word.mono {t v} (h : Word A t v) : Word B t v := by
  cases h with
  | atom ha ht hb => exact .atom ha ht hb
  | quoted ha hq hb => exact .quoted ha (hq.mono le) hb

theorem Phrase.mono {t v} (h : Phrase A t v) : Phrase B t v := by
  induction h with
  | one h => exact .one (h.mono le)
  | cons h hs _ ih => exact .cons (h.mono le) hs ih

theorem LocalPart.mono {t v} (h : LocalPart A t v) : LocalPart B t v := by
  cases h with
  | dotAtom ha ht hb => exact .dotAtom ha ht hb
  | quoted ha hq hb => exact .quoted ha (hq.mono le) hb

theorem AddrSpec.mono {t v} (h : AddrSpec A t v) : AddrSpec B t v := by
  cases h with
  | mk h1 h2 => exact .mk (h1.mono le) h2

theorem Mailbox.mono {t v} (h : Mailbox A t v) : Mailbox B t v := by
  cases h with
  | named hn ha ht hb => exact .named (hn.mono le) ha (ht.mono le) hb
  | angle ha ht hb => exact .angle ha (ht.mono le) hb
  | bare h => exact .bare (h.mono le)

theorem Mailboxes.mono {t v} (h : Mailboxes A t v) : Mailboxes B t v := by
  induction h with
  | one h => exact .one (h.mono le)
  | cons h _ ih => exact .cons (h.mono le) ih

theorem Members.mono {t v} (h : Members A t v) : Members B t v := by
  cases h with
  | boxes h => exact .boxes (h.mono le)
  | none h => exact .none h

theorem Address.mono {t v} (h : Address A t v) : Address B t v := by
  cases h with
  | box h => exact .box (h.mono le)
  | group hn hm hb => exact .group (hn.mono le) (hm.mono le) hb

theorem AddressList.mono {t v} (h : AddressList A t v) : AddressList B t v := ⟨h.1, fun i hi => (h.2.1 i hi).mono le, h.2.2⟩

theorem FirmGroups.mono {l} (h : FirmGroups A l) : FirmGroups B l := fun l₁ i l₂ e => (h l₁ i l₂ e).imp_left fun ⟨v, h1, h2⟩ => ⟨v, h1.mono le, h2⟩

end

theorem tidy_rfc : tidyBlanks.Le rfcBlanks where
  inner f u _ h := by
    obtain ⟨h1, h2, rfl⟩ := h
    refine (List.filter_eq_self.mpr ?_).symm
    intro c hc
    have h3 : c ≠ '\r' := by rintro rfl; exact h1 hc
    have h4 : c ≠ '\n' := by rintro rfl; exact h2 hc
    simp [h3, h4]
  last f u _ h := by obtain ⟨rfl, rfl⟩ := h; rfl

theorem tidy_go : tidyBlanks.Le goBlanks where
  inner _ _ _ h := h.2.2
  last _ _ _ h := h.2

theorem rfc_total : rfcBlanks.Total := ⟨fun _ => ⟨_, rfl⟩, fun _ => ⟨_, rfl⟩⟩
theorem go_total : goBlanks.Total := ⟨fun _ => ⟨_, rfl⟩, fun _ => ⟨_, rfl⟩⟩

end Rfc5322.Rfc
