import Verif.Proofs.Quoted
import Verif.Spec.Clear

/-!
# Pieces taken as a whole, with their effect

`Takes Q env g t r f`: from `t ++ r`, whatever must follow, the preferred derivation of `g` consumes `t`, and walking it has
effect `f`.
-/

namespace Rfc5322

open Spec

def Takes (Q : Rule → Prop) (env : Env) (g : G) (t r : List Char) (f : Node → Node) : Prop :=
  ∀ K : List Char → Prop, K r → Picks K Q env g t r f

variable {env : Env} {Q : Rule → Prop}

namespace Takes

theorem eps {r} : Takes Q env .eps [] r id := fun _ hK => .eps hK
theorem tok {k : Tok} {c r} (hm : k.matches c = true) : Takes Q env (.t k) [c] r id := fun _ hK => .tok hm hK

theorem seq {a b t u r f g} (h1 : Takes Q env a t (u ++ r) f) (h2 : Takes Q env b u r g) :
    Takes Q env (a ⬝ b) (t ++ u) r (fun p => g (f p)) :=
  fun _ hK => .seq (h1 _ (h2 _ hK).completes) (h2 _ hK)

theorem altL {a b t r f} (h : Takes Q env a t r f) : Takes Q env (a ‖ b) t r f := fun _ hK => (h _ hK).altL
theorem altR {a b t r f} (hn : NoDer a (t ++ r)) (h : Takes Q env b t r f) : Takes Q env (a ‖ b) t r f :=
  fun _ hK => .altR (not_completes hn) (h _ hK)
theorem optNil {a r} (hn : NoDer a r) : Takes Q env (.opt a) [] r id := fun _ hK => .optNil (not_completes hn) hK
theorem again {a t u r f g} (h1 : Takes Q env a t (u ++ r) f) (h2 : Takes Q env (.star a) u r g) :
    Takes Q env (.star a) (t ++ u) r (fun p => g (f p)) :=
  fun _ hK => .again (h1 _ (h2 _ hK).completes) (h2 _ hK)
theorem stop {a r} (hn : NoDer a r) : Takes Q env (.star a) [] r id := fun _ hK => .stop (not_completes hn) hK
theorem silent {q a t r f} (hq : q.silent = true) (h : Takes Q env a t r f) : Takes Q env (.rule q a) t r f :=
  fun _ hK => (h _ hK).silent hq
theorem push {Q' : Rule → Prop} {q a t r f} {mk : Node} (hq : q.delivers = true) (hk : mk.kind = q) (hp : Q' q)
    (h : Takes Q' env a t r f) (he : ∀ ts w, textList ts = utf8 t → enterRule env q ts w = .ok (w.enter mk)) :
    Takes Q env (.rule q a) t r (deliver (f mk)) :=
  fun _ hK => (h _ hK).push hq hk hp he
theorem mono {Q' : Rule → Prop} {g t r f} (h : Takes Q env g t r f) (hk : ∀ q, Q' q → Q q) : Takes Q' env g t r f :=
  fun _ hK => (h _ hK).mono hk
theorem cast {g t r f f'} (h : Takes Q env g t r f) (e : ∀ p, f p = f' p) : Takes Q env g t r f' :=
  fun _ hK => (h _ hK).cast (funext e)
theorem weaken {Q' : Rule → Prop} {g t r f f'} (h : Takes Q env g t r f) (hk : ∀ p, (f' p).kind = p.kind)
    (e : ∀ p, Q' p.kind → Q p.kind ∧ f p = f' p) : Takes Q' env g t r f' :=
  fun _ hK => (h _ hK).weaken hk e
theorem text {g t t' r f} (h : Takes Q env g t r f) (e : t = t') : Takes Q env g t' r f := e ▸ h

/-- Followed by something empty. -/
theorem seqNil {a b t r f g} (h1 : Takes Q env a t r f) (h2 : Takes Q env b [] r g) :
    Takes Q env (a ⬝ b) t r (fun p => g (f p)) := by
  have := Takes.seq (u := []) h1 h2
  rwa [List.append_nil] at this

end Takes

theorem Picks.text {K : List Char → Prop} {g t t' r f} (h : Picks K Q env g t r f) (e : t = t') : Picks K Q env g t' r f := e ▸ h

theorem Greedy.quiet {g t r S} (h : Greedy g t r) (hm : Means Q env g (.quiet S)) : Takes Q env g t r id :=
  fun _ hK => (h _ hK).quiet hm

theorem Greedy.value {α : Type} {g t r} {S : List Char → α → Prop} {h : α → Node → Node} {v : α} (hg : Greedy g t r)
    (hm : Means Q env g (.value S h)) (hu : ∀ v', S t v' → v' = v) : Takes Q env g t r (h v) :=
  fun _ hK => (hg _ hK).value hm hu

/-! ## Lexical pieces -/

theorem takes_optCfws {w r : List Char} (hw : OptCfws w) (hr : Heads solid r) : Takes plainK env (.opt Gr.cfws) w r id :=
  (greedy_optCfws hw hr).quiet means_optCfws

theorem takes_cfws {w r : List Char} (hw : Cfws w) (hr : Heads solid r) : Takes plainK env Gr.cfws w r id :=
  (greedy_cfws hw hr).quiet means_cfws

theorem takes_atom {t r : List Char} (ht : Atom t) (hr : Heads (fun c => !isAtext c) r) :
    Takes Q env Gr.atom t r (deliver (.atom (utf8 t))) :=
  (greedy_atom ht hr).value (h := fun v => deliver (.atom v)) means_atom' fun _ h => h.2

theorem takes_dotAtom {t r : List Char} (ht : DotAtom t) (hr : Heads afterDot r) :
    Takes Q env Gr.dotAtom t r (deliver (.dotAtom (utf8 t))) :=
  (greedy_dotAtom ht hr).value (h := fun v => deliver (.dotAtom v)) means_dotAtom' fun _ h => h.2

theorem takes_quotedString {t r v} (h : QuotedString t v) : Takes Q env Gr.quotedString t r (deliver (.quotedString v)) :=
  (greedy_quotedString h).value (h := fun v => deliver (.quotedString v)) means_quotedString fun _ h' => quotedString_value h h'

theorem takes_domainLiteral {t r} (h : DomainLiteral t) : Takes Q env Gr.domainLiteral t r (setDomain (utf8 t)) :=
  (greedy_domainLiteral h).value means_domainLiteral fun _ h => h.2

theorem takes_encodedWord {t r} (h : EncodedWord t) : Takes Q env Gr.encodedWord t r (addEnc (decoded env t)) :=
  (greedy_encodedWord h).value means_encodedWord' fun _ h => h.2

theorem heads_append {p : Char → Bool} {t r : List Char} (hne : t ≠ []) (ht : ∀ c ∈ t.head?, p c = true) : Heads p (t ++ r) := by
  obtain ⟨c, t, rfl⟩ := List.exists_cons_of_ne_nil hne
  exact .cons (ht c (by simp))

theorem takes_around {g : G} {a t b r : List Char} {f} (ha : OptCfws a) (hb : OptCfws b) (hg : Takes plainK env g t (b ++ r) f)
    (ht : Heads solid (t ++ (b ++ r))) (hr : Heads solid r) :
    Takes plainK env (.opt Gr.cfws ⬝ g ⬝ .opt Gr.cfws) (a ++ (t ++ b)) r f :=
  (Takes.seq (takes_optCfws ha (by simpa using ht)) (.seq hg (takes_optCfws hb hr))).cast fun _ => rfl

/-! ## The first solid character -/

theorem atext_solid {c : Char} (h : isAtext c = true) : solid c = true := by
  rw [solid_iff]
  refine ⟨?_, by rintro rfl; exact absurd h (by decide)⟩
  cases hb : isBlank c with
  | false => rfl
  | true => rcases blank_iff.mp hb with rfl | rfl | rfl | rfl <;> exact absurd h (by decide)

theorem atom_heads {t r : List Char} (h : Atom t) : Heads solid (t ++ r) := by
  obtain ⟨hne, h⟩ := h
  obtain ⟨c, t, rfl⟩ := List.exists_cons_of_ne_nil hne
  exact .cons (atext_solid (h c (by simp)))

theorem dotted_cons {t : List Char} (h : Dotted t) : ∃ c x, t = c :: x ∧ isAtext c = true := by
  have : ∀ {a : List Char} (y), Atom a → ∃ c x, a ++ y = c :: x ∧ isAtext c = true := by
    rintro a y ⟨hne, h⟩
    obtain ⟨c, t, rfl⟩ := List.exists_cons_of_ne_nil hne
    exact ⟨c, _, rfl, h c (by simp)⟩
  cases h with
  | one h => simpa using this [] h
  | cons h _ => exact this _ h

theorem dotAtom_cons {t : List Char} (h : DotAtom t) : ∃ c x, t = c :: x ∧ isAtext c = true := by
  rcases h with h | ⟨r, h, rfl⟩
  · exact dotted_cons h
  · obtain ⟨c, x, rfl, h'⟩ := dotted_cons h
    exact ⟨c, _, rfl, h'⟩

theorem dotAtom_heads {t r : List Char} (h : DotAtom t) : Heads solid (t ++ r) := by
  obtain ⟨c, x, rfl, h'⟩ := dotAtom_cons h
  exact .cons (atext_solid h')

theorem quoted_heads {t r : List Char} {v} (h : QuotedString t v) : Heads solid (t ++ r) := by
  obtain ⟨y, rfl⟩ := quotedString_head h; exact .cons rfl

theorem literal_heads {t r : List Char} (h : DomainLiteral t) : Heads solid (t ++ r) := by
  obtain ⟨y, rfl⟩ := domainLiteral_head h; exact .cons rfl

theorem encoded_heads {t r : List Char} (h : EncodedWord t) : Heads solid (t ++ r) := by
  obtain ⟨y, rfl⟩ := encodedWord_head h; exact .cons rfl

/-! ## What cannot start here -/

/-- Neither an atom nor a quoted string starts with this character. -/
def noWord (c : Char) : Bool := solid c && !isAtext c && c != '"'

theorem noWord_iff {c : Char} : noWord c = true ↔ solid c = true ∧ isAtext c = false ∧ c ≠ '"' := by
  simp [noWord, and_assoc]

/-- A text surrounded by CFWS that starts with a character not satisfying `p`. -/
theorem around_split {a a' t' b' : List Char} {r r' : List Char} (ha : OptCfws a) (ha' : OptCfws a')
    (hr : Heads solid r) (ht' : ∃ c x, t' = c :: x ∧ solid c = true) (e : a ++ r = (a' ++ (t' ++ b')) ++ r') :
    a = a' ∧ r = t' ++ (b' ++ r') := by
  obtain ⟨c', x', rfl, hc'⟩ := ht'
  cases r with
  | nil =>
    have : a' ++ c' :: (x' ++ (b' ++ r')) = a := by simpa using e.symm
    exact (cfws_ne ha' ha hc' this).elim
  | cons c r =>
    have e : a ++ c :: r = a' ++ c' :: (x' ++ (b' ++ r')) := by simpa using e
    obtain ⟨h1, h2, h3⟩ := cfws_split ha ha' hr.head hc' e
    exact ⟨h1, by rw [h2, h3]; rfl⟩

theorem encodedWords_head {t v} (h : EncodedWords env t v) : ∃ a e x, OptCfws a ∧ EncodedWord e ∧ t = a ++ (e ++ x) := by
  cases h with
  | one ha he hb => exact ⟨_, _, _, ha, he, rfl⟩
  | cons ha he hb => exact ⟨_, _, _, ha, he, rfl⟩

theorem word_head {t v} (h : Word env t v) : ∃ a c x, OptCfws a ∧ (isAtext c = true ∨ c = '"') ∧ t = a ++ c :: x := by
  cases h with
  | encoded h =>
    obtain ⟨a, e, x, ha, he, rfl⟩ := encodedWords_head h
    obtain ⟨y, rfl⟩ := encodedWord_head he
    exact ⟨a, '=', _, ha, .inl (by decide), rfl⟩
  | @atom a u b ha hu hb =>
    obtain ⟨hne, h⟩ := hu
    obtain ⟨c, t, rfl⟩ := List.exists_cons_of_ne_nil hne
    exact ⟨a, c, _, ha, .inl (h c (by simp)), rfl⟩
  | @quoted a u b v ha hu hb =>
    obtain ⟨y, rfl⟩ := quotedString_head hu
    exact ⟨a, '"', _, ha, .inr rfl, rfl⟩

theorem noWord_split {a a' r r' : List Char} {c : Char} (ha : OptCfws a) (hr : Heads noWord r) (ha' : OptCfws a')
    (hc : isAtext c = true ∨ c = '"') (e : a ++ r = a' ++ c :: r') : False := by
  have hc' : solid c = true := by
    rcases hc with h | rfl
    · exact atext_solid h
    · rfl
  obtain ⟨-, e2⟩ := around_split (b' := []) (t' := c :: r') (r' := []) ha ha' (hr.mono fun c h => (noWord_iff.mp h).1)
    ⟨c, r', rfl, hc'⟩ (by simpa using e)
  obtain ⟨_, h1, h2⟩ := noWord_iff.mp (hr _ _ e2)
  rcases hc with h | h
  · rw [h] at h1; cases h1
  · exact h2 h

theorem noDer_word {a r : List Char} (ha : OptCfws a) (hr : Heads noWord r) : NoDer Gr.word (a ++ r) := by
  refine noDer_means (means_word (Q := anyK) (env := nenv)) ?_
  rintro t _ r' ⟨v, hv, _⟩ e
  obtain ⟨a', c, x, ha', hc, rfl⟩ := word_head hv
  exact noWord_split ha hr ha' hc (by simpa using e)

theorem noDer_displayName {a r : List Char} (ha : OptCfws a) (hr : Heads noWord r) : NoDer Gr.displayName (a ++ r) :=
  .rule (.alt (noDer_word ha hr).seq_left (noDer_word ha hr).seq_left)

theorem localPart_head {t v} (h : LocalPart env t v) : ∃ a c x, OptCfws a ∧ (isAtext c = true ∨ c = '"') ∧ t = a ++ c :: x := by
  cases h with
  | dotAtom ha ht hb =>
    obtain ⟨c, x, rfl, hc⟩ := dotAtom_cons ht
    exact ⟨_, c, _, ha, .inl hc, rfl⟩
  | quoted ha ht hb =>
    obtain ⟨y, rfl⟩ := quotedString_head ht
    exact ⟨_, '"', _, ha, .inr rfl, rfl⟩
  | obs h =>
    cases h with
    | one h => exact word_head h
    | cons h _ =>
      obtain ⟨a, c, x, ha, hc, rfl⟩ := word_head h
      exact ⟨a, c, _, ha, hc, by simp; rfl⟩

theorem noDer_addrSpec {a r : List Char} (ha : OptCfws a) (hr : Heads noWord r) : NoDer Gr.addrSpec (a ++ r) := by
  refine .rule (NoDer.seq_left ?_)
  refine noDer_means (means_localPart (Q := anyK) (env := nenv)) ?_
  rintro t _ r' ⟨v, hv, _⟩ e
  obtain ⟨a', c, x, ha', hc, rfl⟩ := localPart_head hv
  exact noWord_split ha hr ha' hc (by simpa using e)

/-! ## Words -/

/-- No encoded word starts here. -/
def NoEncHere (r : List Char) : Prop := ∀ e x, EncodedWord e → r ≠ e ++ x

theorem noDer_encoded {a r : List Char} (ha : OptCfws a) (hr : Heads solid r) (hn : NoEncHere r) :
    NoDer (.opt Gr.cfws ⬝ Gr.encodedWord ⬝ .opt Gr.cfws) (a ++ r) := by
  refine noDer_means (means_encodedWord' (Q := plainK) (env := nenv)).around ?_
  rintro _ _ r' ⟨_, ⟨a', e, b', ha', ⟨he, _⟩, hb', rfl⟩, _⟩ eq
  obtain ⟨_, h⟩ := around_split ha ha' hr (by obtain ⟨y, rfl⟩ := encodedWord_head he; exact ⟨_, _, rfl, rfl⟩) eq
  exact hn _ _ he h

theorem noEncHere_atom {t r : List Char} (hne : t ≠ []) (ht : ¬ c!"=?" <+: t) (hr : Heads (fun c => !isAtext c) r) : NoEncHere (t ++ r) := by
  intro e x he eq
  obtain ⟨y, rfl⟩ := encodedWord_head he
  cases t with
  | nil => exact hne rfl
  | cons c t =>
    simp only [List.cons_append] at eq
    injection eq with e1 e2
    subst e1
    cases t with
    | nil =>
      exact absurd (hr _ _ e2) (by decide)
    | cons d t =>
      injection e2 with e2 e3
      subst e2
      exact ht ⟨t, rfl⟩

theorem noEncHere_head {c : Char} {r : List Char} (hc : c ≠ '=') : NoEncHere (c :: r) := by
  intro e x he eq
  obtain ⟨y, rfl⟩ := encodedWord_head he
  injection eq with e1 _
  exact hc e1

theorem takes_word_atom {a t b r : List Char} (ha : OptCfws a) (ht : Atom t) (hb : OptCfws b) (hr : Heads solid r)
    (hbr : Heads (fun c => !isAtext c) (b ++ r)) (hn : NoEncHere (t ++ (b ++ r))) :
    Takes Q env Gr.word (a ++ (t ++ b)) r (deliver (.word (utf8 t))) := by
  have hs := atom_heads (r := b ++ r) ht
  refine .push (Q' := plainK) (mk := .word []) rfl rfl (plainK_of rfl) (.altR ?_ (.altL (takes_around ha hb (takes_atom ht hbr) hs hr)))
    (fun _ _ _ => rfl)
  have := noDer_encoded ha hs hn
  rw [List.append_assoc, List.append_assoc]
  exact this.seq_left

theorem takes_word_quoted {a t b r : List Char} {v} (ha : OptCfws a) (ht : QuotedString t v) (hb : OptCfws b) (hr : Heads solid r) :
    Takes Q env Gr.word (a ++ (t ++ b)) r (deliver (.word v)) := by
  have hs := quoted_heads (r := b ++ r) ht
  obtain ⟨y, rfl⟩ := quotedString_head ht
  refine .push (Q' := plainK) (mk := .word []) rfl rfl (plainK_of rfl)
    (.altR ?_ (.altR ?_ (takes_around ha hb (takes_quotedString ht) hs hr)))
    (fun _ _ _ => rfl)
  · have := noDer_encoded ha hs (noEncHere_head (by decide))
    rw [List.append_assoc, List.append_assoc]
    exact this.seq_left
  · refine noDer_means (means_atom' (Q := plainK) (env := nenv)).around ?_
    rintro _ _ r' ⟨_, ⟨a', u, b', ha', ⟨hu, _⟩, hb', rfl⟩, _⟩ eq
    obtain ⟨hne, hu⟩ := hu
    obtain ⟨c, u, rfl⟩ := List.exists_cons_of_ne_nil hne
    have hc := hu c (by simp)
    obtain ⟨_, h⟩ := around_split (r := '"' :: (y ++ (b ++ r))) ha ha' (.cons rfl) ⟨_, _, rfl, atext_solid hc⟩ (by simpa using eq)
    injection h with h _
    rw [← h] at hc; exact absurd hc (by decide)

theorem encRun_head {t v} (h : EncodedRun env t v) : ∃ y, t = '=' :: '?' :: y := by
  cases h with
  | one h _ => obtain ⟨y, rfl⟩ := encodedWord_head h; exact ⟨_, rfl⟩
  | cons h _ _ => obtain ⟨y, rfl⟩ := encodedWord_head h; exact ⟨_, rfl⟩

theorem takes_encRun_star {t r : List Char} {v} (h : EncodedRun env t v) (hr : Heads solid r) (hn : NoEncHere r) :
    Takes plainK env (.star (.opt Gr.cfws ⬝ Gr.encodedWord ⬝ .opt Gr.cfws)) t r (addEnc v) := by
  induction h with
  | @one t b ht hb =>
    have h1 : Takes plainK env _ _ _ _ := takes_around (r := r) OptCfws.nil hb (takes_encodedWord ht) (encoded_heads ht) hr
    exact ((h1.again (Takes.stop (r := r) (noDer_encoded OptCfws.nil hr hn))).text (by simp)).cast fun _ => rfl
  | @cons t b u v ht hb hu ih =>
    obtain ⟨y, rfl⟩ := encRun_head hu
    have h1 : Takes plainK env _ _ _ _ := takes_around (r := '=' :: '?' :: y ++ r) OptCfws.nil hb (takes_encodedWord ht) (encoded_heads ht)
      (.cons rfl)
    exact ((h1.again ih).text (by simp)).cast fun _ => addEnc_add

theorem takes_encRun {a t r : List Char} {v} (ha : OptCfws a) (h : EncodedRun env t v) (hr : Heads solid r) (hn : NoEncHere r) :
    Takes plainK env (.plus (.opt Gr.cfws ⬝ Gr.encodedWord ⬝ .opt Gr.cfws)) (a ++ t) r (addEnc v) := by
  cases h with
  | @one t b ht hb =>
    have h1 : Takes plainK env _ _ _ _ := takes_around (r := r) ha hb (takes_encodedWord ht) (encoded_heads ht) hr
    exact ((h1.seq (Takes.stop (r := r) (noDer_encoded OptCfws.nil hr hn))).text (by simp)).cast fun _ => rfl
  | @cons t b u v ht hb hu =>
    have h2 := takes_encRun_star hu hr hn
    obtain ⟨y, rfl⟩ := encRun_head hu
    have h1 : Takes plainK env _ _ _ _ := takes_around (r := '=' :: '?' :: y ++ r) ha hb (takes_encodedWord ht) (encoded_heads ht)
      (.cons rfl)
    exact ((h1.seq h2).text (by simp)).cast fun _ => addEnc_add

theorem takes_word_encoded {a t r : List Char} {v} (ha : OptCfws a) (h : EncodedRun env t v) (hr : Heads solid r) (hn : NoEncHere r) :
    Takes Q env Gr.word (a ++ t) r (deliver (.word v)) :=
  .push (Q' := plainK) (mk := .word []) rfl rfl (plainK_of rfl) (.altL (takes_encRun ha h hr hn)) (fun _ _ _ => rfl)

end Rfc5322
