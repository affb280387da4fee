import Verif.Proofs.RfcObsolete
import Verif.Proofs.ScanPicks

/-!
# The value of address lists in the obsolete syntax
-/

namespace Rfc5322.Rfc.Old

open Name Abnf Scan
open Spec (NoMark NoBlankLines encode)

variable {env : Env}

/-! ## What the pieces look like -/

theorem word_hushed {t v} (h : Word goStyle t v) : ∃ s, Hush t s := by
  cases h with
  | atom ha ht hb => exact ⟨_, .around (r_cfws ha) (.atom (is_atom ht)) (r_cfws hb)⟩
  | @quoted a q v b ha hq hb => exact ⟨['"'], by simpa using Hush.around (r_cfws ha) (.quoted (quoted_string hq)) (r_cfws hb)⟩

theorem parts_hushed {t ps} (h : Parts goStyle t ps) : ∃ s, Hush t s := by
  induction h with
  | nil => exact ⟨_, .nil⟩
  | word h _ _ ih =>
    obtain ⟨s, hs⟩ := word_hushed h
    obtain ⟨s', hs'⟩ := ih
    exact ⟨_, hs.append hs'⟩
  | period _ ih => obtain ⟨s', hs'⟩ := ih; exact ⟨_, .cons rfl rfl hs'⟩
  | cfws h _ ih => obtain ⟨s', hs'⟩ := ih; exact ⟨_, (Hush.cfws (r_cfws (d_opt.mpr (.inr h)))).append hs'⟩

theorem phrase_hushed {t ps} (h : Phrase goStyle t ps) : ∃ s, Hush t s := by
  cases h with
  | mk h hs hr => exact parts_hushed (.word h hs hr)

theorem localPart_hushed {t v} (h : LocalPart goStyle t v) : ∃ s, Hush t s := by
  induction h with
  | one h => exact word_hushed h
  | more h _ ih =>
    obtain ⟨s, hs⟩ := word_hushed h
    obtain ⟨s', hs'⟩ := ih
    exact ⟨_, hs.append (.cons rfl rfl hs')⟩

theorem addrSpec_hushed {t v} (h : AddrSpec goStyle t v) : ∃ s, Hush t s ∧ s ≠ [] := by
  cases h with
  | mk h1 h2 =>
    obtain ⟨s, hs⟩ := localPart_hushed h1
    obtain ⟨s', hs'⟩ := domain_hush (clear_domain h2)
    exact ⟨_, hs.append (.cons (c := '@') rfl rfl hs'), by simp⟩

theorem angle_firm {a r t v b} (ha : Is (opt CFWS) a) (hr : Is (opt «obs-route») r) (ht : AddrSpec goStyle t v) (hb : Is (opt CFWS) b) :
    ∃ q, Aligned (a ++ '<' :: (r ++ (t ++ '>' :: b))) ('<' :: (q ++ ['>'])) ∧ '>' ∉ q := by
  obtain ⟨s, hs, _⟩ := addrSpec_hushed ht
  obtain ⟨s', hs', h'⟩ : ∃ s', Aligned r s' ∧ '>' ∉ s' := by
    rcases d_opt.mp hr with rfl | hr
    · exact ⟨[], fun _ => rfl, by simp⟩
    · exact route_aligned (is_route hr)
  refine ⟨s' ++ s, ?_, ?_⟩
  · have := Aligned.append (s := []) (skeleton_cfws (r_cfws ha)) ((hs'.append (hs.1.append (Aligned.cons (c := '>') (s := []) rfl (skeleton_cfws (r_cfws hb))))).cons (c := '<') rfl)
    simpa using this
  · have := hushed_greater hs.2
    simp [h', this]

theorem mailbox_firm {t v} (h : Mailbox goStyle t v) : ∃ s, Aligned t s ∧ Firm s := by
  cases h with
  | named hn ha hr ht hb =>
    obtain ⟨s, hs⟩ := phrase_hushed hn
    obtain ⟨q, hq, h'⟩ := angle_firm ha hr ht hb
    exact ⟨_, hs.1.append hq, .angle hs.2 h'⟩
  | angle ha hr ht hb =>
    obtain ⟨q, hq, h'⟩ := angle_firm ha hr ht hb
    exact ⟨_, hq, .angle (p := []) (by simp) h'⟩
  | bare h =>
    obtain ⟨s, hs, h'⟩ := addrSpec_hushed h
    exact ⟨_, hs.1, .bare hs.2 h'⟩

/-! ## Items with their values -/

/-- With the values that the package returns. -/
def given (i : List Char × List Box) : List Char × List Addr := (i.1, i.2.map Box.out)

theorem given_text (l : List (List Char × List Box)) : (l.map given).map (·.1) = l.map (·.1) := by simp [given, Function.comp_def]

theorem given_values (l : List (List Char × List Box)) : (l.map given).flatMap (·.2) = (l.flatMap (·.2)).map Box.out := by
  induction l with
  | nil => rfl
  | cons i l ih => simp [ih, given]

theorem box_item {t v} (h : Mailbox goStyle t v) (hc : Calm t) : Scan.Box env (given (t, [v])) := ⟨_, clear_box env h hc, rfl, mailbox_firm h⟩

theorem item_in {l : List (List Char × List Box)} {i} (hi : i ∈ l) : i.1 <:+: [','].intercalate (l.map (·.1)) := by
  induction l with
  | nil => cases hi
  | cons j l ih =>
    cases l with
    | nil => simp at hi; subst hi; exact ⟨[], [], by simp⟩
    | cons k l =>
      have e : [','].intercalate ((j :: k :: l).map (·.1)) = j.1 ++ ',' :: [','].intercalate ((k :: l).map (·.1)) := by
        simp [List.intercalate]
      rw [e]
      rcases List.mem_cons.mp hi with rfl | hi
      · exact ⟨[], ',' :: [','].intercalate ((k :: l).map (·.1)), by simp⟩
      · obtain ⟨x, y, h⟩ := ih hi
        exact ⟨j.1 ++ ',' :: x, y, by rw [← h]; simp⟩

theorem gap_item {i : List Char × List Box} (h : Is (opt CFWS) i.1 ∧ i.2 = []) : Gap (given i) := ⟨r_cfws h.1, by simp [given, h.2]⟩

theorem entry_item {t vs} (h : Address goStyle t vs) (hc : Calm t) : Entry env (given (t, vs)) := by
  cases h with
  | box h => exact .inl (box_item h hc)
  | @group n ps m l b hn hm hb =>
    obtain ⟨hne, hl, rfl⟩ := hm
    obtain ⟨a, n', rfl, ha, hg⟩ := group_name env hn (hc.mono ⟨[], _, rfl⟩)
    refine .inr ⟨a, n', l.map given, b, ha, hg, phrase_hushed hn, by simpa using hne, ?_, r_cfws hb, ?_, ?_⟩
    · intro j hj
      obtain ⟨i, hi, rfl⟩ := List.mem_map.mp hj
      rcases hl i hi with ⟨v, h, hv⟩ | h
      · obtain ⟨x, y, e⟩ := item_in hi
        obtain ⟨t, vs⟩ := i
        obtain rfl : vs = [v] := hv
        exact .inl (box_item h (hc.mono ⟨a ++ (n' ++ ':' :: x), y ++ ';' :: b, by rw [← e]; simp⟩))
      · exact .inr (gap_item h)
    · simp only [given, join, given_text]; simp
    · rw [given_values]; rfl

theorem parse_obsolete (P : Predictor) {text l} (h : AddressList goStyle text l) (hc : Calm text) (hs : SureQuotes text) :
    parseAddressList P env (encode text) = .ok (goSlice ((l.flatMap (·.2)).map Box.out), none) := by
  obtain ⟨⟨hne, hl, e⟩, i, hi, ha⟩ := h
  have e' : text = join (l.map given) := by rw [join, given_text, e]
  have calm : ∀ i ∈ l, Calm i.1 := fun i hi => hc.mono (e ▸ item_in hi)
  rw [e'] at hs ⊢
  rw [parse_items P hs (e' ▸ atomWords_of_noMark hc.1) ?_ ⟨given i, List.mem_map.mpr ⟨i, hi, rfl⟩, entry_item ha (calm i hi)⟩, given_values]
  intro j hj
  obtain ⟨i, hi, rfl⟩ := List.mem_map.mp hj
  exact (hl i hi).imp (fun h => entry_item h (calm i hi)) gap_item

end Rfc5322.Rfc.Old
