import Verif.Proofs.Skeleton

/-!
# Lists with empty items
-/

namespace Rfc5322

open Spec

variable {env : Env} {Q : Rule → Prop}

theorem takes_address_sound {t r : List Char} {f} (h : Takes Q env Gr.address t r f) : ∃ as, Address env t as := by
  obtain ⟨ts, hp, _⟩ := h (fun s => s = r) rfl
  obtain ⟨t', _, e, ⟨as, ha, _⟩, _⟩ := (means_address (Q := anyK) (env := env)).sound (Preferred.derives hp).1
  rw [List.append_cancel_right e]
  exact ⟨as, ha⟩

theorem address_skip {t as} (h : Address env t as) (r) : ∃ c x, skip (t ++ r) = c :: x ∧ boxStart c = true := by
  cases h with
  | mailbox h => exact mailbox_skip h r
  | group h =>
    obtain ⟨q, n, nv, b, q', e, c, hq, hn, _, _, _, _, rfl⟩ := h
    rcases hq with rfl | rfl
    · obtain ⟨a, c', x, ha, hc, rfl⟩ := displayName_head hn
      have hb : boxStart c' = true := by rcases hc with h | rfl <;> simp [boxStart, *]
      refine ⟨c', x ++ (':' :: (b ++ (q' ++ (e ++ c))) ++ r), ?_, hb⟩
      have e : [] ++ (a ++ c' :: x ++ ':' :: (b ++ (q' ++ (e ++ c)))) ++ r = a ++ c' :: (x ++ (':' :: (b ++ (q' ++ (e ++ c))) ++ r)) := by simp
      rw [e, skip_cfws ha]
      exact skip_solid (boxStart_solid hb) _
    · exact ⟨'"', _, skip_solid rfl _, rfl⟩

theorem noDer_address_skip {s : List Char} (h : ∀ c x, skip s = c :: x → boxStart c = false) : NoDer Gr.address s := by
  refine noDer_means (means_address (Q := anyK) (env := nenv)) ?_
  rintro t _ r ⟨as, ha, _⟩ rfl
  obtain ⟨c, x, h1, h2⟩ := address_skip ha r
  rw [h c x h1] at h2; cases h2

theorem noDer_comma_skip {s : List Char} {c x} (h : skip s = c :: x) (hc : boxStart c = true) : NoDer (.opt Gr.cfws ⬝ .t .Comma) s := by
  refine noDer_means (((means_optCfws (env := nenv)).qseq means_comma)) ?_
  rintro _ _ r' ⟨⟨a, _, ha, rfl, rfl⟩, _⟩ rfl
  rw [List.append_assoc, skip_cfws ha] at h
  have := (skip_solid (c := ',') (by decide) r').symm.trans h
  injection this with h1 _
  subst h1; cases hc

/-- Empty items in front. -/
theorem takes_commas {h r : List Char} (hh : Commas h) {c x} (hs : skip r = c :: x) (hc : boxStart c = true) :
    Takes plainK env (.star (.opt Gr.cfws ⬝ .t .Comma)) h r id := by
  induction hh with
  | nil => exact .stop (noDer_comma_skip hs hc)
  | @cons t y ht _ ih =>
    have h1 : Takes plainK env (.opt Gr.cfws ⬝ .t .Comma) (t ++ [',']) (y ++ r) id :=
      Takes.seq (u := [',']) (takes_optCfws ht (.cons (by decide))) (.tok comma_matches)
    exact ((h1.again ih).text (by simp)).cast fun p => rfl

theorem commaTail_follow {Item : List Char → List Addr → Prop} {r bs} (h : CommaTail Item r bs) : Heads follow r := by
  cases h with
  | nil => exact .nil
  | item => exact .cons rfl
  | empty => exact .cons rfl

theorem takes_commaTail {r bs} (h : CommaTail (ClearItem env) r bs) :
    Takes plainK env (.star (.t .Comma ⬝ (Gr.address ‖ Gr.cfws ‖ .eps))) r [] (addList bs) := by
  induction h with
  | nil => exact (Takes.stop (NoDer.seq_left (noDer_tok' means_comma .nil))).cast fun p => by rw [acts_addList.nil]
  | @item t as r bs hi hr ih =>
    have h1 : Takes plainK env Gr.address t (r ++ []) (addList as) := takes_item hi (by simpa using commaTail_follow hr)
    have h2 : Takes plainK env _ _ _ _ := (Takes.tok (r := t ++ (r ++ [])) comma_matches).seq (h1.altL (b := Gr.cfws ‖ .eps))
    exact ((h2.again ih).text (by simp)).cast fun p => by simp [acts_addList.add]
  | @empty t r bs ht hr ih =>
    have hf := commaTail_follow hr
    have hs : Heads solid r := hf.follow rfl rfl
    have hn : NoDer Gr.address (t ++ (r ++ [])) := by
      refine noDer_address_skip fun c x hx => ?_
      rw [List.append_nil, skip_end ht hs] at hx
      have := hf _ _ hx
      rcases follow_iff.mp this with rfl | rfl <;> rfl
    have h1 : Takes plainK env (Gr.address ‖ Gr.cfws ‖ .eps) t (r ++ []) id := by
      refine .altR hn ?_
      by_cases hne : t = []
      · subst hne
        exact .altR (noDer_cfws (by simpa using hs)) .eps
      · exact (takes_cfws ⟨ht, hne⟩ (by simpa using hs)).altL
    have h2 : Takes plainK env _ _ _ _ := (Takes.tok (r := t ++ (r ++ [])) comma_matches).seq h1
    exact ((h2.again ih).text (by simp)).cast fun p => rfl

theorem takes_obsList {h t r : List Char} {as bs} (hh : Commas h) (ht : ClearItem env t as) (hr : CommaTail (ClearItem env) r bs) :
    Takes plainK env Gr.obsAddrList (h ++ (t ++ r)) [] (addList (as ++ bs)) := by
  have h1 : Takes plainK env Gr.address t (r ++ []) (addList as) := takes_item ht (by simpa using commaTail_follow hr)
  obtain ⟨_, ha⟩ := takes_address_sound h1
  obtain ⟨c, x, hs, hc⟩ := address_skip ha r
  have h2 : Takes plainK env (.star (.opt Gr.cfws ⬝ .t .Comma)) h ((t ++ r) ++ []) id := takes_commas hh (by simpa using hs) hc
  exact (Takes.silent (q := .obsAddrList) rfl (h2.seq (h1.seq (takes_commaTail hr)))).cast fun p => by simp [acts_addList.add]

theorem not_strict {t : List Char} (h : ∀ as, ¬ StrictList nenv t as) :
    ¬ Completes (Gr.address ⬝ .star ((.t .Comma ‖ .t .Semicolon) ⬝ Gr.address) ⬝ .eof) (· = []) t := by
  rintro ⟨ts, s', hd, rfl⟩
  cases seq_assoc_derives.mp hd with
  | seq h1 h2 =>
    cases h2
    obtain ⟨u, _, e, ⟨l, hl, _⟩, _⟩ := (means_strictList (Q := anyK) (env := nenv)).sound h1
    rw [List.append_nil] at e
    subst e
    exact h l hl

theorem parse_obs (P : Predictor) {t : List Char} {as : List Addr} (hn : ∀ as, ¬ StrictList nenv t as)
    (h : Takes plainK env Gr.obsAddrList t [] (addList as)) :
    parseAddressList P env (encode t) = .ok (goSlice as, none) := by
  have e : tokens (encode t) = t := by rw [tokens_encode, dropAstral_of (takes_bmp h)]
  exact result_of_obs P (encode_ne_nil (takes_ne_nil h (by decide))) (e.symm ▸ not_strict hn) (e.symm ▸ h)

/-- Commas in front. -/
theorem parse_leading (P : Predictor) {h t r : List Char} {as bs} (hh : Commas h) (hne : h ≠ []) (ht : ClearItem env t as)
    (hr : CommaTail (ClearItem env) r bs) :
    parseAddressList P env (encode (h ++ (t ++ r))) = .ok (goSlice (as ++ bs), none) := by
  refine parse_obs P ?_ (takes_obsList hh ht hr)
  rintro l ⟨u, cs, x, ds, hu, _, e, _⟩
  obtain ⟨c, y, h1, h2⟩ := address_skip hu x
  rw [← e] at h1
  rcases commas_skip hh (t ++ r) with h | ⟨z, hz⟩
  · exact hne h
  · rw [hz] at h1
    injection h1 with h1 _
    subst h1; cases h2

/-- A mailbox as an item. -/
def BoxItem (env : Env) (t : List Char) (as : List Addr) : Prop := ∃ b, ClearBox env t b ∧ as = [b]

theorem boxItem_part {t as} (h : BoxItem env t as) (hn : Tame t) : (∃ s, Part t s ∧ s ≠ []) ∧ as.length = 1 := by
  obtain ⟨b, h, rfl⟩ := h
  have h1 : Takes plainK env _ _ _ _ := takes_item (r := []) (.box h) .nil
  obtain ⟨_, ha⟩ := takes_address_sound h1
  exact ⟨(address_part ha hn).1, rfl⟩

theorem boxItem_tail {r bs} (h : CommaTail (BoxItem env) r bs) : CommaTail (ClearItem env) r bs := by
  induction h with
  | nil => exact .nil
  | item h _ ih => obtain ⟨b, h, rfl⟩ := h; exact .item (.box h) ih
  | empty h _ ih => exact .empty h ih

theorem commaTail_noEmpty {r bs} (h : CommaTail (BoxItem env) r bs) (hn : Tame r) : [] ∈ splitSeps (['x'] ++ skeleton r) ∨
    ∀ t as, ClearItem env t as → ClearList env (t ++ r) (as ++ bs) := by
  have tail : ∀ {r s : List Char}, (∀ c ∈ s, isSep c = false) → s ≠ [] → [] ∈ splitSeps (['x'] ++ skeleton r) → [] ∈ splitSeps (s ++ skeleton r) := by
    intro r s hs hne h
    have key : ∀ (y : List Char), ∃ z zs, splitSeps y = z :: zs ∧ ∀ s, (∀ c ∈ s, isSep c = false) → splitSeps (s ++ y) = (s ++ z) :: zs := by
      intro y
      obtain ⟨z, zs, hz⟩ := List.exists_cons_of_ne_nil (splitSeps_ne_nil y)
      refine ⟨z, zs, hz, fun s hs => ?_⟩
      induction s with
      | nil => exact hz
      | cons c s ih => rw [List.cons_append, splitSeps, if_neg (by simp [hs c]), ih fun c hc => hs c (by simp [hc])]; rfl
    obtain ⟨z, zs, _, hz⟩ := key (skeleton r)
    rw [hz _ (by decide)] at h
    rw [hz _ hs]
    simpa [hne] using h
  induction h with
  | nil => exact .inr fun t as h => by simpa using ClearList.one h
  | @item u cs r bs hi hr ih =>
    have hn' := hn.tail rfl
    obtain ⟨⟨s, hs, hne⟩, _⟩ := boxItem_part hi hn'.left
    rcases ih (hn'.right hs.1 (CommaTail.rest hr)) with h | h
    · refine .inl ?_
      rw [skeleton_sep rfl, splitSeps_sep (by decide) rfl, hs.1]
      exact List.mem_cons_of_mem _ (tail hs.2 hne h)
    · obtain ⟨b, hb, rfl⟩ := hi
      exact .inr fun t as ht => .cons ht (.inl rfl) (h u _ (.box hb))
  | @empty w r bs hw hr ih =>
    refine .inl ?_
    rw [skeleton_sep rfl, splitSeps_sep (by decide) rfl, skeleton_cfws hw]
    refine List.mem_cons_of_mem _ ?_
    cases hr with
    | nil => exact List.mem_singleton.mpr rfl
    | item => rw [skeleton_sep rfl, splitSeps, if_pos (by decide)]; simp
    | empty => rw [skeleton_sep rfl, splitSeps, if_pos (by decide)]; simp

/-- Empty items anywhere. -/
theorem parse_padded (P : Predictor) {h t r : List Char} {a bs} (hh : Commas h) (ht : ClearBox env t a)
    (hr : CommaTail (BoxItem env) r bs) (hn : Tame (h ++ (t ++ r))) :
    parseAddressList P env (encode (h ++ (t ++ r))) = .ok (goSlice (a :: bs), none) := by
  by_cases hne : h = []
  · subst hne
    have hn' : Tame (t ++ r) := hn
    obtain ⟨⟨s, hs, hsn⟩, _⟩ := boxItem_part ⟨a, ht, rfl⟩ hn'.left
    have hn2 := hn'.right hs.1 (CommaTail.rest hr)
    rcases commaTail_noEmpty hr hn2 with he | he
    · refine parse_obs P ?_ (takes_obsList hh (.box ht) (boxItem_tail hr))
      intro l hl
      have h2 := (strict_items hl hn).1
      rw [List.nil_append, items, hs.1] at h2
      obtain ⟨ss, _, _, h3⟩ := commaTail_items (Item := BoxItem env) boxItem_part hr hn2
      rw [h3 s hs.2] at h2
      rw [h3 _ (by decide)] at he
      have : [] ∈ ss := by simpa using he
      exact h2 [] (by simp [this]) rfl
    · exact parse_clear P (he t _ (.box ht))
  · exact parse_leading P hh hne (.box ht) (boxItem_tail hr)

/-! ## A semicolon at the end -/

theorem sepTail_app {r bs} (h : SepTail env r bs) (hn : Tame r) (x) : skeleton (r ++ x) = skeleton r ++ skeleton x := by
  induction h with
  | nil => rfl
  | @item sep t as r bs hsep hi hr ih =>
    have hsep' : isSep sep = true := by rcases hsep with rfl | rfl <;> rfl
    obtain ⟨k1, k2⟩ := Tame.split hi (SepTail.rest hr) (hn.tail hsep')
    obtain ⟨⟨u, hu, _⟩, _⟩ := address_part hi k1
    rw [List.cons_append, skeleton_sep hsep', List.append_assoc, hu.1, ih k2, skeleton_sep hsep', hu.1]
    simp

theorem commaTail_app {r bs} (h : CommaTail (Address env) r bs) (hn : Tame r) (x) : skeleton (r ++ x) = skeleton r ++ skeleton x := by
  induction h with
  | nil => rfl
  | @item t as r bs hi hr ih =>
    obtain ⟨k1, k2⟩ := Tame.split hi (CommaTail.rest hr) (hn.tail rfl)
    obtain ⟨⟨u, hu, _⟩, _⟩ := address_part hi k1
    rw [List.cons_append, skeleton_sep rfl, List.append_assoc, hu.1, ih k2, skeleton_sep rfl, hu.1]
    simp
  | @empty t r bs ht hr ih =>
    rw [List.cons_append, skeleton_sep rfl, List.append_assoc, skeleton_cfws ht,
      ih ((hn.tail rfl).right (s := []) (skeleton_cfws ht) (CommaTail.rest hr)), skeleton_sep rfl, skeleton_cfws ht]
    simp

theorem commas_app {h : List Char} (hh : Commas h) (x) : skeleton (h ++ x) = skeleton h ++ skeleton x := by
  induction hh with
  | nil => rfl
  | @cons t r ht _ ih =>
    rw [List.append_assoc, List.cons_append, skeleton_cfws ht, skeleton_cfws ht, skeleton_sep rfl, ih, skeleton_sep rfl]
    simp

theorem addressList_app {t as} (h : AddressList env t as) (hn : Tame t) (x) : skeleton (t ++ x) = skeleton t ++ skeleton x := by
  cases h with
  | strict ha hr =>
    obtain ⟨k1, k2⟩ := Tame.split ha (SepTail.rest hr) hn
    obtain ⟨⟨u, hu, _⟩, _⟩ := address_part ha k1
    rw [List.append_assoc, hu.1, hu.1, sepTail_app hr k2, List.append_assoc]
  | obs hh ha hr =>
    obtain ⟨k1, k2⟩ := Tame.split ha (CommaTail.rest hr) (hn.commas hh)
    obtain ⟨⟨u, hu, _⟩, _⟩ := address_part ha k1
    rw [List.append_assoc, commas_app hh, commas_app hh, List.append_assoc, hu.1, hu.1, commaTail_app hr k2, List.append_assoc, List.append_assoc]

theorem splitSeps_last (s : List Char) {c : Char} (h : isSep c = true) : splitSeps (s ++ [c]) = splitSeps s ++ [[]] := by
  induction s with
  | nil => simp [splitSeps, h]
  | cons d s ih =>
    rw [List.cons_append, splitSeps, splitSeps, ih]
    split
    · rfl
    · obtain ⟨y, ys, hy⟩ := List.exists_cons_of_ne_nil (splitSeps_ne_nil s)
      rw [hy]; rfl

end Rfc5322
