import Verif.Spec.Groups
import Verif.Proofs.Split

/-!
# Lists with groups
-/

namespace Rfc5322

open Spec

variable {env : Env} {Q : Rule → Prop}

/-- Semicolon or end. -/
abbrev Semi (r : List Char) : Prop := Heads (fun d => d == ';') r

theorem Semi.solid {r : List Char} (h : Semi r) : Heads solid r := h.mono fun d hd => by simp at hd; subst hd; rfl
theorem Semi.follow {r : List Char} (h : Semi r) : Heads follow r := h.mono fun d hd => by simp at hd; subst hd; rfl

/-! ## Members after commas -/

theorem takes_mboxTail {r bs z} (h : CommaTail (BoxItem env) r bs) (hz : Semi z) :
    Takes plainK env (.star (.t .Comma ⬝ (Gr.mailbox ‖ Gr.cfws ‖ .eps))) r z (addBoxes bs) := by
  have fol : ∀ {r bs}, CommaTail (BoxItem env) r bs → Heads follow (r ++ z) := fun h =>
    (commaTail_follow h).append fun _ => hz.follow
  induction h with
  | nil =>
    refine (Takes.stop (NoDer.seq_left (noDer_tok' means_comma ?_))).cast fun p => by rw [acts_addBoxes.nil]
    exact hz.mono fun d hd => by simp at hd; subst hd; rfl
  | @item t as r bs hi hr ih =>
    obtain ⟨b, hb, rfl⟩ := hi
    have h1 : Takes plainK env Gr.mailbox t (r ++ z) (addBoxes [b]) := takes_mailbox hb (fol hr)
    have h2 : Takes plainK env _ _ _ _ := (Takes.tok (r := t ++ (r ++ z)) comma_matches).seq (h1.altL (b := Gr.cfws ‖ .eps))
    exact ((h2.again ih).text (by simp)).cast fun p => by rw [acts_addBoxes.add]; rfl
  | @empty t r bs ht hr ih =>
    have hf := fol hr
    have hs : Heads solid (r ++ z) := hf.follow rfl rfl
    have hn : NoDer Gr.mailbox (t ++ (r ++ z)) := by
      refine noDer_means (means_mailbox (Q := anyK) (env := nenv)) ?_
      rintro u _ r' ⟨as, ⟨_, ha, _⟩, _⟩ e
      obtain ⟨c, x, h1, h2⟩ := mailbox_skip ha r'
      rw [← e, skip_end ht hs] at h1
      have := hf _ _ h1
      rcases follow_iff.mp this with rfl | rfl <;> cases h2
    have h1 : Takes plainK env (Gr.mailbox ‖ Gr.cfws ‖ .eps) t (r ++ z) id := by
      refine .altR hn ?_
      by_cases hne : t = []
      · subst hne
        exact .altR (noDer_cfws (by simpa using hs)) .eps
      · exact (takes_cfws ⟨ht, hne⟩ (by simpa using hs)).altL
    have h2 : Takes plainK env _ _ _ _ := (Takes.tok (r := t ++ (r ++ z)) comma_matches).seq h1
    exact ((h2.again ih).text (by simp)).cast fun p => rfl

theorem takes_obsMbox {h t r z : List Char} {a bs} (hh : Commas h) (ht : ClearBox env t a) (hr : CommaTail (BoxItem env) r bs) (hz : Semi z) :
    Takes Q env Gr.obsMboxList (h ++ (t ++ r)) z (addMbl (a :: bs)) := by
  have eff : ∀ as, deliver (.obsMboxList as) = addMbl as := by intro v; funext p; cases p <;> rfl
  have h1 : Takes plainK env Gr.mailbox t (r ++ z) (addBoxes [a]) := takes_mailbox ht ((commaTail_follow hr).append fun _ => hz.follow)
  have hb : ∃ v, Mailbox env t v := by
    obtain ⟨ts, hp, _⟩ := h1 (fun s => s = r ++ z) rfl
    obtain ⟨t', _, e, ⟨_, ⟨as, ha, _⟩, _⟩, _⟩ := (means_mailbox (Q := anyK) (env := env)).sound (Preferred.derives hp).1
    rw [List.append_cancel_right e]
    exact ⟨as, ha⟩
  obtain ⟨v, hv⟩ := hb
  obtain ⟨c, x, hs, hc⟩ := mailbox_skip hv (r ++ z)
  have h2 : Takes plainK env (.star (.opt Gr.cfws ⬝ .t .Comma)) h ((t ++ r) ++ z) id := takes_commas hh (by simpa using hs) hc
  exact (Takes.push (q := .obsMboxList) (mk := .obsMboxList []) (Q' := plainK) rfl rfl (plainK_of rfl) (h2.seq (h1.seq (takes_mboxTail hr hz)))
    (fun _ _ _ => rfl)).cast fun p => by
      simp [acts_addBoxes.add, addBoxes, eff]

/-! ## Commas only -/

/-- Whatever follows an address, a comma is followed by something. -/
def Dense (K : List Char → Prop) : Prop := ∀ x y, K x → skip x = ',' :: y → ∃ c z, skip y = c :: z ∧ boxStart c = true

theorem commas_end {h w z : List Char} (hh : Commas h) (hw : OptCfws w) (hz : Semi z) {c x} (e : skip (h ++ (w ++ z)) = c :: x) :
    c = ',' ∨ c = ';' := by
  rcases commas_skip hh (w ++ z) with rfl | ⟨y, hy⟩
  · rw [List.nil_append, skip_end hw hz.solid] at e
    have := hz _ _ e
    exact .inr (by simpa using this)
  · rw [hy] at e
    injection e with e _
    exact .inl e.symm

theorem not_boxes_commas {h h' m r w z : List Char} {v} (hh : Commas h) (hw : OptCfws w) (hz : Semi z) (hh' : Commas h') (hm : Mailbox env m v) :
    h' ++ (m ++ r) ≠ h ++ (w ++ z) := by
  intro e
  induction hh' generalizing h with
  | nil =>
    obtain ⟨c, x, h1, h2⟩ := mailbox_skip hm r
    rw [List.nil_append] at e
    rw [e] at h1
    rcases commas_end hh hw hz h1 with rfl | rfl <;> cases h2
  | @cons t y ht _ ih =>
    have h1 := congrArg skip e
    rw [List.append_assoc, skip_cfws ht, List.cons_append, skip_solid (by decide)] at h1
    cases hh with
    | nil =>
      rw [List.nil_append, skip_end hw hz.solid] at h1
      have := hz _ _ h1.symm
      simp at this
    | @cons t' y' ht' hh' =>
      rw [List.append_assoc, skip_cfws ht', List.cons_append, skip_solid (by decide)] at h1
      injection h1 with _ h1
      exact ih hh' h1

theorem noDer_mailboxList_commas {h w z : List Char} (hh : Commas h) (hw : OptCfws w) (hz : Semi z) : NoDer Gr.mailboxList (h ++ (w ++ z)) := by
  refine noDer_means (means_mailboxList (Q := anyK) (env := nenv)) ?_
  rintro t _ r ⟨v, ⟨h', m, a, x, bs, hh', hm, hx, rfl, rfl⟩, _⟩ e
  exact not_boxes_commas (r := x ++ r) hh hw hz hh' hm (by rw [e]; simp)

theorem takes_commasEnd {h w z : List Char} (hh : Commas h) (hw : OptCfws w) (hz : Semi z) :
    Takes plainK env (.star (.opt Gr.cfws ⬝ .t .Comma)) h (w ++ z) id := by
  induction hh with
  | nil =>
    refine .stop ?_
    refine noDer_means (((means_optCfws (env := nenv)).qseq means_comma)) ?_
    rintro _ _ r' ⟨⟨a, _, ha, rfl, rfl⟩, _⟩ e
    have h1 := congrArg skip e
    rw [skip_end hw hz.solid, List.append_assoc, skip_cfws ha] at h1
    have := hz _ _ (h1.trans (skip_solid (c := ',') (by decide) r'))
    simp at this
  | @cons t y ht _ ih =>
    have h1 : Takes plainK env (.opt Gr.cfws ⬝ .t .Comma) (t ++ [',']) (y ++ (w ++ z)) id :=
      Takes.seq (u := [',']) (takes_optCfws ht (.cons (by decide))) (.tok comma_matches)
    exact ((h1.again ih).text (by simp)).cast fun p => rfl

theorem takes_obsGroupList {h w z : List Char} (hh : Commas h) (hne : h ≠ []) (hw : OptCfws w) (hz : Semi z) :
    Takes plainK env Gr.obsGroupList (h ++ w) z id := by
  cases hh with
  | nil => exact absurd rfl hne
  | @cons t y ht hh =>
    have h1 : Takes plainK env (.opt Gr.cfws ⬝ .t .Comma) (t ++ [',']) (y ++ (w ++ z)) id :=
      Takes.seq (u := [',']) (takes_optCfws ht (.cons (by decide))) (.tok comma_matches)
    have h2 : Takes plainK env (.plus (.opt Gr.cfws ⬝ .t .Comma)) ((t ++ [',']) ++ y) (w ++ z) id :=
      (h1.seq (takes_commasEnd hh hw hz)).cast fun p => rfl
    have h3 := h2.seq (takes_optCfws hw hz.solid)
    exact ((Takes.silent (q := .obsGroupList) rfl h3).text (by simp)).cast fun p => rfl

/-- What follows the members. -/
abbrev Gr.groupEnd : G := .opt (.t .DQuote) ⬝ .opt (.t .Semicolon) ⬝ .opt Gr.cfws

theorem groupEnd_skip {K : List Char → Prop} {x y : List Char} (h : Completes Gr.groupEnd K x) (hx : skip x = ',' :: y) : ∃ x', K x' ∧ skip x' = ',' :: y := by
  obtain ⟨ts, x', hd, hK⟩ := h
  refine ⟨x', hK, ?_⟩
  have m := ((means_dquote (Q := plainK) (env := nenv)).qopt).qseq (((means_semicolon (Q := plainK) (env := nenv)).qopt).qseq (means_optCfws (env := nenv)))
  obtain ⟨t, _, e, ⟨⟨q, s, hq, ⟨sm, c, hs, hc, rfl⟩, rfl⟩, _⟩, _⟩ := m.sound hd
  subst e
  rcases hq with rfl | rfl
  · rcases hs with rfl | rfl
    · simpa [skip_cfws hc] using hx
    · exact absurd ((skip_solid (c := ';') rfl _).symm.trans hx) (by simp)
  · exact absurd ((skip_solid (c := '"') rfl _).symm.trans hx) (by simp)

/-- Members of a group. -/
theorem picks_members {K : List Char → Prop} {t z : List Char} {as} (h : GroupMembers env t as) (hz : Semi z) (hd : Dense K) (hK : Completes Gr.groupEnd K z) :
    Picks (Completes Gr.groupEnd K) (· = .group) env (.opt Gr.groupList) t z (addGroup as) := by
  have effM : ∀ as, deliver (.mailboxList as) = addGl as := by intro v; funext p; cases p <;> rfl
  have eff : ∀ as, deliver (.groupList as) = addGroup as := by intro v; funext p; cases p <;> rfl
  cases h with
  | plain h => exact takes_members h hz _ hK
  | @padded h t a r bs hh hne ht hr =>
    have hn : NoDer (Gr.mailbox ⬝ .star (.t .Comma ⬝ Gr.mailbox)) (h ++ (t ++ r) ++ z) := by
      refine NoDer.seq_left (noDer_means (means_mailbox (Q := anyK) (env := nenv)) ?_)
      rintro u _ r' ⟨as, ⟨_, ha, _⟩, _⟩ e
      obtain ⟨c, x, h1, h2⟩ := mailbox_skip ha r'
      rw [← e, List.append_assoc] at h1
      rcases commas_skip hh (t ++ r ++ z) with he | ⟨y, hy⟩
      · exact hne he
      · rw [hy] at h1
        injection h1 with h1 _
        subst h1; cases h2
    have h1 : Takes plainK env Gr.mailboxList _ _ _ := .push (Q' := anyK) (mk := .mailboxList []) rfl rfl trivial
      (Takes.altR hn (takes_obsMbox hh ht hr hz)) (fun _ _ _ => rfl)
    exact ((((h1.altL (b := Gr.cfws ‖ Gr.obsGroupList)).push (q := .groupList) (mk := .groupList []) (Q' := plainK) rfl rfl (plainK_of rfl) (fun _ _ _ => rfl)).altL (b := .eps)).cast
      fun p => by simp [addMbl, effM, addGl, eff]) _ hK
  | @commas h w hh hne hw =>
    have h1 := noDer_mailboxList_commas hh hw hz
    have h2 : ¬ Completes Gr.cfws (Completes Gr.groupEnd K) (h ++ w ++ z) := by
      rintro ⟨ts, x, hder, hx⟩
      obtain ⟨u, _, e, ⟨hu, _⟩, _⟩ := (means_cfws (env := nenv)).sound hder
      cases hh with
      | nil => exact hne rfl
      | @cons t y ht hh =>
        have e1 := congrArg skip e
        rw [List.append_assoc, List.append_assoc, skip_cfws ht, List.cons_append, skip_solid (by decide), skip_cfws hu.1] at e1
        obtain ⟨x', hK', hx'⟩ := groupEnd_skip hx e1.symm
        obtain ⟨c, y', h3, h4⟩ := hd _ _ hK' hx'
        rcases commas_end hh hw hz h3 with rfl | rfl <;> cases h4
    have h3 : Picks (Completes Gr.groupEnd K) plainK env (Gr.mailboxList ‖ Gr.cfws ‖ Gr.obsGroupList) (h ++ w) z id :=
      .altR (not_completes (by simpa using h1)) (.altR h2 (takes_obsGroupList hh hne hw hz _ hK))
    exact ((Picks.push (q := .groupList) (mk := .groupList []) (Q' := plainK) rfl rfl (plainK_of rfl) h3 (fun _ _ _ => rfl)).altL (b := .eps)).cast
      (by rw [show (id (Node.groupList [])) = .groupList [] from rfl, eff])

/-! ## Groups -/

theorem firm_dquote {x : List Char} {K : List Char → Prop} (h : FirmQuote x) :
    ¬ Completes (.t .DQuote) (Completes (Gr.displayName ⬝ (.t .Colon ⬝ (.opt Gr.groupList ⬝ Gr.groupEnd))) K) x := by
  rintro ⟨ts, y, h1, us, s', h2, hK⟩
  obtain ⟨_, _, e, ⟨rfl, _⟩, _⟩ := (means_dquote (Q := plainK) (env := nenv)).sound h1
  obtain ⟨hc, ht⟩ := h y (by simpa using e)
  cases h2 with
  | seq h3 h4 =>
    cases h4 with
    | seq h5 h6 =>
      obtain ⟨d, _, rfl, ⟨v, hv, _⟩, _⟩ := (means_displayName (Q := anyK) (env := nenv)).sound h3
      obtain ⟨_, _, rfl, ⟨rfl, _⟩, _⟩ := (means_colon (Q := plainK) (env := nenv)).sound h5
      obtain ⟨s, hs⟩ := displayName_part hv ht.left
      refine hc ?_
      rw [hs.1, List.mem_append]
      exact .inr (by rw [List.cons_append, skeleton_stays (by decide)]; simp)

/-- A group followed by an optional semicolon and CFWS. -/
theorem picks_group {K : List Char → Prop} {t s w r : List Char} {as} (h : GroupText env t as) (hd : Dense K) (hK : K r)
    (hf : FirmQuote (t ++ (s ++ w) ++ r)) (hs : s = [';'] ∧ OptCfws w ∧ Heads follow r ∨ s = [] ∧ w = [] ∧ r = []) :
    Picks K Q env Gr.group (t ++ (s ++ w)) r (addAddress as) := by
  have eff : ∀ as, deliver (.group as) = addAddress as := by intro v; funext p; cases p <;> rfl
  have pl : ∀ r, r = Rule.group → plainK r := by rintro _ rfl; exact plainK_of rfl
  obtain @⟨a, n, m, _, ha, hn, hm⟩ := h
  have hne := groupName_ne hn
  obtain ⟨nw, ps, hn, hat⟩ := hn
  have hend : Semi ((s ++ w) ++ r) := by
    rcases hs with ⟨rfl, _⟩ | ⟨rfl, rfl, rfl⟩
    · exact .cons rfl
    · exact .nil
  have h5 : Takes (· = .group) env (.opt (.t .DQuote)) [] ((s ++ w) ++ r) id :=
    .optNil (noDer_tok' means_dquote (hend.mono fun d hd => by simp at hd; subst hd; rfl))
  have h6 : Takes (· = .group) env (.opt (.t .Semicolon) ⬝ .opt Gr.cfws) (s ++ w) r id := by
    rcases hs with ⟨rfl, hw, hr⟩ | ⟨rfl, rfl, rfl⟩
    · exact ((Takes.tok semicolon_matches).altL (b := .eps)).seq ((takes_optCfws hw (hr.follow rfl rfl)).mono pl)
    · exact Takes.seq (t := []) (.optNil (noDer_tok' means_semicolon .nil)) ((takes_optCfws (r := []) OptCfws.nil .nil).mono pl)
  have h56 := (h5.seq h6) K hK
  have h4 := picks_members (K := K) hm hend hd (by simpa using h56.completes)
  have h4' := Picks.seq (by simpa using h4) h56
  have h7 : Picks K (· = .group) env _ _ r _ := Picks.seq (Picks.tok (c := ':') colon_matches h4'.completes) h4'
  have h2 := (picks_displayName (Q := anyK) ha hn (r := ([':'] ++ (m ++ ([] ++ (s ++ w)))) ++ r) (.cons (by decide)) h7.completes (by
    rintro s ⟨ts, s', hd, _⟩
    cases hd with
    | seq h1 _ =>
      obtain ⟨t, _, e, ⟨rfl, _⟩, _⟩ := (means_colon (Q := plainK) (env := nenv)).sound h1
      exact ⟨[], ':', _, OptCfws.nil, by decide, e⟩)).weaken (Q' := (· = .group)) (f' := id) (fun _ => rfl) (fun p hp => ⟨trivial, by
    cases p with
    | group xs => rfl
    | _ => simp [Node.kind] at hp⟩)
  have h8 := Picks.seq h2 h7
  have h1 : Picks _ (· = .group) env (.opt (.t .DQuote)) [] _ id := .optNil (firm_dquote (by simpa using hf)) h8.completes
  have h := Picks.seq h1 h8
  exact ((Picks.push (q := .group) (mk := .group []) (Q' := (· = .group)) rfl rfl rfl h (fun _ _ _ => rfl)).text (by simp)).cast
    (funext fun p => congrFun (eff _) p)

theorem noDer_mailbox_groupText {t r : List Char} {as} (h : GroupText env t as) : NoDer Gr.mailbox (t ++ r) := by
  obtain @⟨a, n, m, _, ha, hn, hm⟩ := h
  have hne := groupName_ne hn
  obtain ⟨nw, ps, hn, hat⟩ := hn
  have hb : Heads barrier (':' :: (m ++ r)) := .cons (by decide)
  have := Stuff.addCfws ha (groupName_stuff hn (by simpa using hat) hb)
  have := noDer_mailbox_stuff (walls_word (fun c hc => by simp only [dotChar, Bool.or_eq_true] at hc; rcases hc with h | h <;> simp [wordChar, h]) hb) this (.cons rfl) (by decide)
  simpa using this

theorem picks_groupItem {K : List Char → Prop} {t s w r : List Char} {as} (h : GroupText env t as) (hd : Dense K) (hK : K r)
    (hf : FirmQuote (t ++ (s ++ w) ++ r)) (hs : s = [';'] ∧ OptCfws w ∧ Heads follow r ∨ s = [] ∧ w = [] ∧ r = []) :
    Picks K Q env Gr.address (t ++ (s ++ w)) r (addList as) := by
  have eff : ∀ as, deliver (.address as) = addList as := by intro v; funext p; cases p <;> rfl
  have h1 : Picks K anyK env _ _ _ _ := picks_group h hd hK hf hs
  have h2 : Picks K anyK env (Gr.mailbox ‖ Gr.group) _ _ _ := .altR (not_completes (by simpa using noDer_mailbox_groupText h)) h1
  exact (Picks.push (q := .address) (mk := .address []) (Q' := anyK) rfl rfl trivial h2
    (fun _ _ _ => rfl)).cast (by simp [addAddress, eff])

/-! ## Lists -/

/-- More items, and then the end. -/
abbrev More : List Char → Prop := Completes (.star ((.t .Comma ‖ .t .Semicolon) ⬝ Gr.address)) AtEnd

theorem dense_more : Dense More := by
  rintro x y ⟨ts, s, hd, hs⟩ hx
  cases hd with
  | starNil => rw [hs.nil] at hx; simp [skip, skipFrom] at hx
  | starCons h1 _ =>
    cases h1 with
    | seq h2 h3 =>
      rename_i s1 _
      have : ∃ c, (c = ',' ∨ c = ';') ∧ x = c :: s1 := by
        cases h2 with
        | altL h => obtain ⟨_, _, rfl, ⟨rfl, _⟩, _⟩ := (means_comma (Q := plainK) (env := nenv)).sound h; exact ⟨_, .inl rfl, rfl⟩
        | altR h => obtain ⟨_, _, rfl, ⟨rfl, _⟩, _⟩ := (means_semicolon (Q := plainK) (env := nenv)).sound h; exact ⟨_, .inr rfl, rfl⟩
      obtain ⟨c, hc, rfl⟩ := this
      rw [skip_solid (by rcases hc with rfl | rfl <;> decide)] at hx
      injection hx with _ hx
      subst hx
      obtain ⟨t, _, rfl, ⟨as, ha, _⟩, _⟩ := (means_address (Q := anyK) (env := nenv)).sound h3
      exact address_skip ha _

theorem picks_groups {t : List Char} {as} (h : GroupsList env t as) :
    Picks AtEnd plainK env (Gr.address ⬝ .star ((.t .Comma ‖ .t .Semicolon) ⬝ Gr.address)) t [] (addList as) := by
  have stop : Picks AtEnd plainK env (.star ((.t .Comma ‖ .t .Semicolon) ⬝ Gr.address)) [] [] (addList []) :=
    Picks.cast ((Takes.stop (Q := plainK) (env := env) (NoDer.seq_left (.alt (noDer_tok' means_comma .nil) (noDer_tok' means_semicolon .nil)))) _ atEnd_nil)
      (funext fun p => by rw [acts_addList.nil])
  have next : ∀ {sep u x : List Char} {c : Char} {bs cs}, (c = ',' ∨ c = ';') → Picks More plainK env Gr.address u x (addList bs) →
      Picks AtEnd plainK env (.star ((.t .Comma ‖ .t .Semicolon) ⬝ Gr.address)) x [] (addList cs) →
      Picks AtEnd plainK env (.star ((.t .Comma ‖ .t .Semicolon) ⬝ Gr.address)) (c :: (u ++ x)) [] (addList (bs ++ cs)) := by
    intro sep u x c bs cs hc hb hx
    have hs : Takes plainK env (.t .Comma ‖ .t .Semicolon) [c] (u ++ x) id := by
      rcases hc with rfl | rfl
      · exact (Takes.tok comma_matches).altL
      · exact (Takes.tok semicolon_matches).altR (noDer_tok' means_comma (.cons rfl))
    have h3 := Picks.seq (hs _ hb.completes) hb
    have h4 := Picks.again (u := x) (r := []) (by simpa using h3) hx
    exact (h4.text (by simp)).cast (funext fun p => by simp [acts_addList.add])
  have key : ∀ {t as}, GroupsList env t as → ∃ u x bs cs, t = u ++ x ∧ as = bs ++ cs ∧ Picks More plainK env Gr.address u x (addList bs) ∧
      Picks AtEnd plainK env (.star ((.t .Comma ‖ .t .Semicolon) ⬝ Gr.address)) x [] (addList cs) := by
    intro t as h
    induction h with
    | @one t as h => exact ⟨t, [], as, [], by simp, by simp, takes_item h .nil _ (by simpa using stop.completes), stop⟩
    | @last t as h hf =>
      exact ⟨t, [], as, [], by simp, by simp, (picks_groupItem (s := []) (w := []) h dense_more (by simpa using stop.completes) (by simpa using hf)
        (.inr ⟨rfl, rfl, rfl⟩)).text (by simp), stop⟩
    | @group t as w h hw hf =>
      exact ⟨t ++ ';' :: w, [], as, [], by simp, by simp, (picks_groupItem (s := [';']) (w := w) h dense_more (by simpa using stop.completes) (by simpa using hf)
        (.inl ⟨rfl, hw, .nil⟩)).text (by simp), stop⟩
    | @cons t as sep r bs h hsep _ ih =>
      obtain ⟨u, x, bs, cs, rfl, rfl, hb, hx⟩ := ih
      have h2 := next (sep := []) hsep hb hx
      exact ⟨t, sep :: (u ++ x), as, bs ++ cs, rfl, rfl, takes_item h (.cons (by rcases hsep with rfl | rfl <;> rfl)) _ (by simpa using h2.completes), h2⟩
    | @groupCons g as w sep r bs h hw hsep _ hf ih =>
      obtain ⟨u, x, bs, cs, rfl, rfl, hb, hx⟩ := ih
      have h2 := next (sep := []) hsep hb hx
      exact ⟨g ++ ([';'] ++ w), sep :: (u ++ x), as, bs ++ cs, by simp, rfl, picks_groupItem (s := [';']) (w := w) h dense_more (by simpa using h2.completes)
        (by simpa using hf) (.inl ⟨rfl, hw, .cons (by rcases hsep with rfl | rfl <;> rfl)⟩), h2⟩
  obtain ⟨u, x, bs, cs, rfl, rfl, hb, hx⟩ := key h
  exact (Picks.seq (r := []) (by simpa using hb) hx).cast (funext fun p => by simp [acts_addList.add])

/-- A list with groups has the value it is meant to have. -/
theorem parse_groups (P : Predictor) {t : List Char} {as : List Addr} (h : GroupsList env t as) :
    parseAddressList P env (encode t) = .ok (goSlice as, none) := by
  have hpick := picks_groups h
  obtain ⟨ts, hp, hf⟩ := picks_withEof hpick
  have hb : ∀ c ∈ t, bmp c = true := by
    obtain ⟨t', e, hb⟩ := derives_bmp (Preferred.derives hp).1
    rw [List.append_nil] at e
    exact e ▸ hb
  have e : tokens (encode t) = t := by rw [tokens_encode, dropAstral_of hb]
  have hne : t ≠ [] := by
    rintro rfl
    obtain ⟨_, s', hd, hs⟩ := hpick.completes
    cases hd with
    | seq h1 _ =>
      obtain ⟨t, _, e, ⟨as, ha, _⟩, _⟩ := (means_address (Q := anyK) (env := nenv)).sound h1
      obtain ⟨c, x, hx, _⟩ := address_skip ha []
      have : t = [] := by
        have e := congrArg List.length e
        simp at e
        exact List.eq_nil_of_length_eq_zero (by omega)
      subst this
      simp [skip, skipFrom] at hx
  refine result_of_preferred P (encode_ne_nil hne) rfl (.first (preferred_assoc ?_)) hf
  rw [e]
  exact hp

end Rfc5322
