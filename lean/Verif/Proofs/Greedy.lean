import Verif.Proofs.Picks

/-!
# Lexical pieces are taken greedily and unambiguously
-/

namespace Rfc5322

open Spec

/-- Any environment; the language does not depend on it. -/
def nenv : Env := ⟨fun _ => none, 0⟩

/-- The first character, if any, satisfies `p`. -/
def Heads (p : Char → Bool) (r : List Char) : Prop := ∀ c x, r = c :: x → p c = true

theorem Heads.nil {p} : Heads p [] := by rintro c x ⟨⟩
theorem Heads.cons {p : Char → Bool} {c x} (h : p c = true) : Heads p (c :: x) := by rintro d y e; cases e; exact h
theorem Heads.mono {p q : Char → Bool} {r} (h : Heads p r) (hpq : ∀ c, p c = true → q c = true) : Heads q r :=
  fun c x e => hpq c (h c x e)
theorem Heads.head {p : Char → Bool} {c x} (h : Heads p (c :: x)) : p c = true := h c x rfl

theorem Heads.append {p : Char → Bool} {t r : List Char} (ht : Heads p t) (hr : t = [] → Heads p r) : Heads p (t ++ r) := by
  cases t with
  | nil => exact hr rfl
  | cons c t => rintro d y e; cases e; exact ht.head

theorem Heads.not {p : Char → Bool} {r} (h : Heads (fun c => !p c) r) : ∀ c x, r = c :: x → p c = false := by
  intro c x e
  have := h c x e
  simpa using this

/-! ## White space -/

theorem blank_iff {c : Char} : isBlank c = true ↔ c = ' ' ∨ c = '\t' ∨ c = '\r' ∨ c = '\n' := by
  simp [isBlank, or_assoc]

theorem noDer_fws {r : List Char} (h : Heads (fun c => !isBlank c) r) : NoDer Gr.fws r := by
  refine noDer_means (means_fws_plain (env := nenv)) ?_
  rintro t _ r' ⟨ht, _⟩ rfl
  have hb := fws_blank ht
  cases t with
  | nil => exact absurd rfl (fws_ne_nil ht)
  | cons c t => have := h.head; rw [hb c (by simp)] at this; cases this

theorem greedy_crlf {r} : Greedy Gr.crlf ['\r', '\n'] r :=
  .rule (Greedy.seq (t := ['\r']) (.tok (by decide +kernel)) (.tok (by decide +kernel)))

theorem not_wsp_of_not_blank {r : List Char} (h : Heads (fun c => !isBlank c) r) : ∀ c x, r = c :: x → isWsp c = false := by
  intro c x e
  have := h c x e
  cases hw : isWsp c with
  | false => rfl
  | true => simp [wsp_blank hw] at this

theorem greedy_fws {t r} (ht : Fws t) (hr : Heads (fun c => !isBlank c) r) : Greedy Gr.fws t r := by
  have hr' := not_wsp_of_not_blank hr
  have hp : ∀ {w : List Char}, w ≠ [] → (∀ c ∈ w, isWsp c = true) → Greedy (.plus Gr.wsp) w r := fun hne hw =>
    greedy_plus_char (Q := plainK) (env := nenv) (by decide) means_wsp hne hw hr'
  refine .rule (.altL ?_)
  cases ht with
  | plain hne hw =>
    refine Greedy.seq (t := []) (.optNil ?_) (hp hne hw)
    refine noDer_means (((means_wsp (Q := plainK) (env := nenv)).qstar_char).qseq means_crlf) ?_
    rintro _ _ r' ⟨⟨v, _, hv, rfl, rfl⟩, _⟩ e
    have : ∀ (w v : List Char), (∀ c ∈ w, isWsp c = true) → (∀ c ∈ v, isWsp c = true) → w ++ r = (v ++ ['\r', '\n']) ++ r' → False := by
      intro w
      induction w with
      | nil =>
        intro v _ hv e
        cases v with
        | nil => exact absurd (hr _ _ e) (by decide)
        | cons c v => have := hr' _ _ e; rw [hv c (by simp)] at this; cases this
      | cons c w ih =>
        intro v hw hv e
        cases v with
        | nil => injection e with e _; have := hw c (by simp); rw [e] at this; cases this
        | cons d v => injection e with _ e; exact ih v (fun c hc => hw c (by simp [hc])) (fun c hc => hv c (by simp [hc])) e
    exact this _ v hw hv e
  | @folded v w hv hne hw =>
    have : v ++ '\r' :: '\n' :: w = (v ++ ['\r', '\n']) ++ w := by simp
    rw [this]
    refine Greedy.seq (.altL (.seq ?_ greedy_crlf)) (hp hne hw)
    exact greedy_star_char (Q := plainK) (env := nenv) (by decide) means_wsp hv (by rintro c x e; cases e; rfl)

theorem greedy_optFws {t r} (ht : OptFws t) (hr : Heads (fun c => !isBlank c) r) : Greedy (.opt Gr.fws) t r := by
  rcases ht with rfl | ht
  · exact .optNil (noDer_fws hr)
  · exact (greedy_fws ht hr).altL

/-! ## Comments -/

/-- What follows the comment one is in; `d` is the nesting depth and `esc` says that the previous character was a backslash. -/
def closing : Nat → Bool → List Char → List Char
  | 0, _, s => s
  | _, _, [] => []
  | d + 1, true, _ :: r => closing (d + 1) false r
  | d + 1, false, c :: r =>
    if c = '\\' then closing (d + 1) true r
    else if c = '(' then closing (d + 2) false r
    else if c = ')' then closing d false r
    else closing (d + 1) false r

theorem closing_blanks {w : List Char} (h : ∀ c ∈ w, isBlank c = true) (d r) :
    closing (d + 1) false (w ++ r) = closing (d + 1) false r := by
  induction w with
  | nil => rfl
  | cons c w ih =>
    obtain ⟨h1, h2, h3⟩ := blank_in (h c (by simp))
    rw [List.cons_append]
    simp only [closing, if_neg h1, if_neg h2, if_neg h3]
    exact ih fun c hc => h c (by simp [hc])

theorem optFws_blank {w : List Char} (h : OptFws w) : ∀ c ∈ w, isBlank c = true := by
  rcases h with rfl | h
  · simp
  · exact fws_blank h

theorem closing_items {x : List Char} (h : CommentItems x) : ∀ d r,
    closing (d + 1) false (x ++ r) = closing (d + 1) false r := by
  induction h with
  | nil => intros; rfl
  | char hf hc _ ih =>
    intro d r
    obtain ⟨h1, h2, h3⟩ := ctext_plain hc
    rw [List.append_assoc, closing_blanks (optFws_blank hf), List.cons_append]
    simp only [closing, if_neg h1, if_neg h2, if_neg h3]
    exact ih d r
  | pair hf hc _ ih =>
    intro d r
    rw [List.append_assoc, closing_blanks (optFws_blank hf), List.cons_append, List.cons_append]
    simp only [closing, if_true]
    exact ih d r
  | nested hf _ hg _ ih1 ih2 =>
    intro d r
    rw [List.append_assoc, closing_blanks (optFws_blank hf), List.cons_append]
    rw [show ∀ s, closing (d + 1) false ('(' :: s) = closing (d + 2) false s from fun s => by simp [closing]]
    rw [List.append_assoc, ih1, List.append_assoc, closing_blanks (optFws_blank hg), List.cons_append]
    rw [show ∀ s, closing (d + 2) false (')' :: s) = closing (d + 1) false s from fun s => by simp [closing]]
    exact ih2 d r

theorem closing_comment {x : List Char} (h : Comment x) (r) : ∃ y, x = '(' :: y ∧ closing 1 false (y ++ r) = r := by
  obtain ⟨xs, f, hx, hf, rfl⟩ := h
  refine ⟨_, rfl, ?_⟩
  rw [List.append_assoc, closing_items hx, List.append_assoc, closing_blanks (optFws_blank hf)]
  simp [closing]

/-- Where a comment ends does not depend on how it is read. -/
theorem comment_unique {t t' r r' : List Char} (h : Comment t) (h' : Comment t') (e : t ++ r = t' ++ r') : r' = r := by
  obtain ⟨y, rfl, hy⟩ := closing_comment h r
  obtain ⟨y', rfl, hy'⟩ := closing_comment h' r'
  injection e with _ e
  exact hy'.symm.trans ((congrArg (closing 1 false) e.symm).trans hy)

theorem greedy_comment {t r} (h : Comment t) : Greedy .comment t r :=
  greedy_forced (by decide) (means_comment (env := nenv)) ⟨h, rfl⟩ fun _ _ _ h' e => comment_unique h h'.1 e

theorem comment_head {t} (h : Comment t) : ∃ y, t = '(' :: y := by
  obtain ⟨xs, f, hx, hf, rfl⟩ := h; exact ⟨_, rfl⟩

/-- The first character that is not blank. -/
theorem dropBlank {w : List Char} (h : ∀ c ∈ w, isBlank c = true) (r) : (w ++ r).dropWhile isBlank = r.dropWhile isBlank := by
  induction w with
  | nil => rfl
  | cons c w ih => rw [List.cons_append, List.dropWhile_cons_of_pos (h c (by simp)), ih fun c hc => h c (by simp [hc])]

theorem noDer_spacedComment {f r : List Char} (hf : OptFws f) (hr : Heads solid r) :
    NoDer (.opt Gr.fws ⬝ .comment) (f ++ r) := by
  refine noDer_means ((means_optFws (env := nenv)).qseq means_comment) ?_
  rintro _ _ r' ⟨⟨g, t, hg, ht, rfl⟩, _⟩ e
  obtain ⟨y, rfl⟩ := comment_head ht
  have := congrArg (List.dropWhile isBlank) e
  rw [dropBlank (optFws_blank hf), List.append_assoc, dropBlank (optFws_blank hg), List.cons_append,
    List.dropWhile_cons_of_neg (by decide)] at this
  cases r with
  | nil => cases this
  | cons c r =>
    have hc := solid_iff.mp hr.head
    rw [List.dropWhile_cons_of_neg (by simp [hc.1])] at this
    injection this with this
    exact hc.2 this

theorem heads_notBlank {r : List Char} (h : Heads solid r) : Heads (fun c => !isBlank c) r :=
  h.mono fun c hc => by simp [(solid_iff.mp hc).1]

theorem greedy_comments {x f r : List Char} (hx : Comments x) (hf : OptFws f) (hr : Heads solid r) :
    Greedy (.star (.opt Gr.fws ⬝ .comment)) x (f ++ r) := by
  induction hx with
  | nil => exact .stop (noDer_spacedComment hf hr)
  | cons hg hc _ ih =>
    obtain ⟨y, rfl⟩ := comment_head hc
    rw [← List.append_assoc]
    exact Greedy.again (.seq (greedy_optFws hg (.cons rfl)) (greedy_comment hc)) ih

theorem noDer_cfws {r : List Char} (hr : Heads solid r) : NoDer Gr.cfws r := by
  refine noDer_means (means_cfws (env := nenv)) ?_
  rintro t _ r' ⟨⟨ht, hne⟩, _⟩ rfl
  cases t with
  | nil => exact hne rfl
  | cons c t => 
    have := cfws_split (a := []) (r := t ++ r') (r' := []) (c' := 'a') (a' := c :: t) OptCfws.nil ht hr.head (by decide)
    have h2 := skip_cfws ht r'
    rw [List.cons_append, skip_solid hr.head] at h2
    have h3 := congrArg List.length h2
    have : ∀ (n : Nat) (b : Bool) (s : List Char), (skipFrom n b s).length ≤ s.length := by
      intro n b s
      induction s generalizing n b with
      | nil => cases n <;> cases b <;> simp [skipFrom]
      | cons c s ih =>
        rcases n with _ | n <;> cases b <;> simp only [skipFrom]
        · split
          · exact Nat.le_succ_of_le (ih _ _)
          · split
            · exact Nat.le_succ_of_le (ih _ _)
            · exact Nat.le_refl _
        · exact Nat.le_succ_of_le (ih _ _)
        · repeat' split
          all_goals exact Nat.le_succ_of_le (ih _ _)
        · exact Nat.le_succ_of_le (ih _ _)
    have := this 0 false r'
    unfold skip at h3
    simp at h3
    omega

/-- Comments and white space are taken as a whole. -/
theorem greedy_optCfws {w r : List Char} (hw : OptCfws w) (hr : Heads solid r) : Greedy (.opt Gr.cfws) w r := by
  obtain ⟨x, f, hx, hf, rfl⟩ := hw
  cases hx with
  | nil =>
    rcases hf with rfl | hf
    · exact .optNil (noDer_cfws hr)
    · refine .altL (.rule (.altR ?_ (greedy_fws hf (heads_notBlank hr))))
      exact (NoDer.seq_left (noDer_spacedComment (.inr hf) hr)).seq_left
  | @cons g c x hg hc hx =>
    obtain ⟨y, rfl⟩ := comment_head hc
    refine .altL (.rule (.altL (.seq ?_ (greedy_optFws hf (heads_notBlank hr)))))
    rw [← List.append_assoc]
    exact .seq (.seq (greedy_optFws hg (.cons rfl)) (greedy_comment hc)) (greedy_comments hx hf hr)

theorem greedy_cfws {w r : List Char} (hw : Cfws w) (hr : Heads solid r) : Greedy Gr.cfws w r := by
  obtain ⟨⟨x, f, hx, hf, rfl⟩, hne⟩ := hw
  cases hx with
  | nil =>
    rcases hf with rfl | hf
    · exact absurd rfl hne
    · refine (.rule (.altR ?_ (greedy_fws hf (heads_notBlank hr))))
      exact (NoDer.seq_left (noDer_spacedComment (.inr hf) hr)).seq_left
  | @cons g c x hg hc hx =>
    obtain ⟨y, rfl⟩ := comment_head hc
    refine (.rule (.altL (.seq ?_ (greedy_optFws hf (heads_notBlank hr)))))
    rw [← List.append_assoc]
    exact .seq (.seq (greedy_optFws hg (.cons rfl)) (greedy_comment hc)) (greedy_comments hx hf hr)

/-! ## Atoms -/

theorem greedy_atom {t r : List Char} (ht : Atom t) (hr : Heads (fun c => !isAtext c) r) : Greedy Gr.atom t r :=
  .rule (greedy_plus_char (Q := plainK) (env := nenv) (by decide) means_atext ht.1 ht.2 hr.not)

/-- May follow a dot-atom. -/
def afterDot (c : Char) : Bool := !isAtext c && c != '.'

theorem afterDot_iff {c : Char} : afterDot c = true ↔ isAtext c = false ∧ c ≠ '.' := by simp [afterDot]

theorem period_matches : Tok.matches .Period '.' = true := by decide +kernel

theorem greedy_dotAtom {t r : List Char} (ht : DotAtom t) (hr : Heads afterDot r) : Greedy Gr.dotAtom t r := by
  have hra : Heads (fun c => !isAtext c) r := hr.mono fun c h => by simp [(afterDot_iff.mp h).1]
  have plus : ∀ {a s : List Char}, Atom a → Heads (fun c => !isAtext c) s → Greedy (.plus Gr.atext) a s := fun ha hs =>
    greedy_plus_char (Q := plainK) (env := nenv) (by decide) means_atext ha.1 ha.2 hs.not
  have noAtext : ∀ {s : List Char}, Heads (fun c => !isAtext c) s → NoDer (.plus Gr.atext) s := fun hs =>
    (noDer_char (Q := plainK) (env := nenv) means_atext hs.not).seq_left
  have noItem : ∀ {s : List Char}, Heads (fun c => c != '.') s → NoDer (.t .Period ⬝ .plus Gr.atext) s := by
    intro s hs
    refine (noDer_means (means_period (Q := plainK) (env := nenv)) ?_).seq_left
    rintro _ _ r' ⟨rfl, _⟩ e
    exact absurd (hs _ _ e) (by decide)
  -- the tail, with an optional trailing period `e`
  have tail : ∀ {x : List Char} (e : List Char), (e = [] ∨ e = ['.']) → Dotted x → ∃ a y, Atom a ∧ x = a ++ y ∧
      Heads (fun c => !isAtext c) (y ++ (e ++ r)) ∧
      Greedy (.star (.t .Period ⬝ .plus Gr.atext) ⬝ .opt (.t .Period)) (y ++ e) r := by
    intro x e he hx
    have hev : Heads (fun c => !isAtext c) (e ++ r) := by
      rcases he with rfl | rfl
      · exact hra
      · exact .cons rfl
    induction hx with
    | one ha =>
      refine ⟨_, [], ha, by simp, hev, ?_⟩
      rcases he with rfl | rfl
      · refine Greedy.seq (t := []) (.stop ?_) (.optNil ?_)
        · exact noItem (hr.mono fun c h => by simp [(afterDot_iff.mp h).2])
        · refine noDer_means (means_period (Q := plainK) (env := nenv)) ?_
          rintro _ _ r' ⟨rfl, _⟩ e
          exact absurd (hr _ _ e) (by decide)
      · refine Greedy.seq (t := []) (.stop ?_) (.altL (.tok period_matches))
        intro ts s' hd
        cases hd with
        | seq h1 h2 =>
          cases h1 with
          | t _ => exact noAtext (s := [] ++ r) hra _ _ h2
    | @cons a y ha hy ih =>
      obtain ⟨a', y', ha', rfl, hh, hg⟩ := ih
      refine ⟨a, '.' :: (a' ++ y'), ha, rfl, .cons rfl, fun K hK => ?_⟩
      obtain ⟨ts, h⟩ := hg K hK
      -- reassociate: one more item of the star
      rw [List.append_assoc] at h
      cases h with
      | @seq _ _ _ _ ts₁ s₁ us₁ _ h1 h2 =>
        have hc := (Preferred.completes h1)
        have hi : Greedy (.t .Period ⬝ .plus Gr.atext) (['.'] ++ a') (y' ++ (e ++ r)) :=
          .seq (.tok period_matches) (plus ha' hh)
        obtain ⟨ts₂, h2'⟩ := hi _ hc
        have := Preferred.seq (.again h2' h1) h2
        exact ⟨_, by simpa using this⟩
  rcases ht with ht | ⟨x, ht, rfl⟩
  · obtain ⟨a, y, ha, rfl, hh, hg⟩ := tail [] (.inl rfl) ht
    simp only [List.append_nil] at hg
    exact .rule (.seq (plus ha hh) hg)
  · obtain ⟨a, y, ha, rfl, hh, hg⟩ := tail ['.'] (.inr rfl) ht
    rw [List.append_assoc]
    exact .rule (.seq (plus ha (by rw [List.append_assoc]; exact hh)) hg)

end Rfc5322
