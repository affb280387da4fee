import Verif.Proofs.RfcNames
import Verif.Props.RfcObsolete

/-!
# C73: what RFC 2047 says that names with encoded words mean
-/

namespace Rfc5322.Props

open Rfc Abnf
open Rfc.Old (goStyle tidyStyle rfcStyle)
open Rfc.Mime (Known)
open Spec (NoMark NoBlankLines encode)

/-- An address list whose display names and names of groups may contain encoded words has the value of its mailboxes, in their order, and of the members of its groups; in the
display names the encoded words are decoded, and what separates two of them is left out. -/
theorem C73_addresses (P : Predictor) (cr : CharsetReader) (year : Int) {text : List Char} {l : List (List Char × List Box)}
    (h : Mime.AddressList goStyle (Known cr) text l) (hb : NoBlankLines text) (hf : Mime.FirmGroups goStyle (Known cr) l) :
    parseAddressList P (goEnv cr year) (encode text) = .ok (if l.flatMap (·.2) = [] then none else some ((l.flatMap (·.2)).map asAddr), none) := by
  obtain ⟨hne, hl, rfl⟩ := h
  rw [parse_groups P (Mime.groups_list hne hl hb hf), asAddr_eq]
  cases l.flatMap (·.2) <;> rfl

/-- Without line breaks, control characters, and white space at the end, in quoted strings, the result is exactly what RFC 5322 and RFC 2047 say. -/
theorem C73_rfc_addresses (P : Predictor) (cr : CharsetReader) (year : Int) {text : List Char} {l : List (List Char × List Box)}
    (h : Mime.AddressList tidyStyle (Known cr) text l) (hb : NoBlankLines text) (hf : Mime.FirmGroups tidyStyle (Known cr) l) :
    Mime.AddressList rfcStyle (Known cr) text l ∧
    parseAddressList P (goEnv cr year) (encode text) = .ok (if l.flatMap (·.2) = [] then none else some ((l.flatMap (·.2)).map asAddr), none) :=
  ⟨h.mono Old.tidy_rfc, C73_addresses P cr year (h.mono Old.tidy_go) hb (hf.mono Old.tidy_go)⟩

/-- The same with missing items in lists and groups, if what looks like an encoded word consists of characters of atoms everywhere in the text. -/
theorem C73_with_missing_items (P : Predictor) (cr : CharsetReader) (year : Int) {text : List Char} {l : List (List Char × List Box)}
    (h : Mime.OldAddressList goStyle (Known cr) text l) (hw : Spec.AtomWords text) (hb : NoBlankLines text) (hs : Old.SureQuotes text) :
    parseAddressList P (goEnv cr year) (encode text) = .ok (if l.flatMap (·.2) = [] then none else some ((l.flatMap (·.2)).map asAddr), none) := by
  rw [Mime.parse_names P h hw hb hs, asAddr_eq]
  cases l.flatMap (·.2) <;> rfl

/-- And exactly what the RFCs say, in the same case as before. -/
theorem C73_rfc_with_missing_items (P : Predictor) (cr : CharsetReader) (year : Int) {text : List Char} {l : List (List Char × List Box)}
    (h : Mime.OldAddressList tidyStyle (Known cr) text l) (hw : Spec.AtomWords text) (hb : NoBlankLines text) (hs : Old.SureQuotes text) :
    Mime.OldAddressList rfcStyle (Known cr) text l ∧
    parseAddressList P (goEnv cr year) (encode text) = .ok (if l.flatMap (·.2) = [] then none else some ((l.flatMap (·.2)).map asAddr), none) :=
  ⟨h.mono Old.tidy_rfc, C73_with_missing_items P cr year (h.mono Old.tidy_go) hw hb hs⟩

/-- Without encoded words, these are the address lists of RFC 5322, with the meaning that they have there. -/
theorem C73_without_encoded_words {S : Old.Style} {C : Mime.Charsets} {text : List Char} (hn : NoMark text) (l : List (List Char × List Box)) :
    Mime.OldAddressList S C text l ↔ Old.AddressList S text l :=
  ⟨Mime.to_rfc5322 hn, Mime.of_rfc5322 hn⟩

/-! ## Examples, some from section 8 of RFC 2047 -/

section
variable {S : Old.Style} {cr : CharsetReader}

theorem encodedQ {cs en tx bs v} (h1 : cs ≠ [] ∧ ∀ c ∈ cs, '!' ≤ c ∧ c ≤ '~' ∧ c ∉ c!"()<>@,;:\"/[]?.=") (h2 : Spec.Spells en c!"q")
    (h3 : (∀ c ∈ tx, Spec.isEncodedChar c) ∧ qDecode (utf8 tx) = some bs) (h4 : tx ≠ [])
    (h5 : ∀ c ∈ cs ++ tx, check restricted Name.atext [c] = true) (h6 : Known cr cs bs v) : Mime.Encoded (Known cr) (Spec.encodedWord cs en tx) v :=
  .mk h1 (.q h2 (qDecode_sound h3.1 h3.2)) h4 (fun c hc => derivable_of_check (h5 c hc)) h6

theorem plainSpec {l d : List Char} (h1 : Old.Is (some1 Name.atext) l) (h2 : Old.Is Name.«dot-atom-text» d) : Old.AddrSpec S (l ++ '@' :: d) (l ++ '@' :: d) :=
  .mk (.one (by simpa using Old.Word.atom (S := S) (a := []) (b := []) noCfws h1 noCfws)) (atomDomain h2)

theorem keld : Mime.Mailbox S (Known cr) c!"=?ISO-8859-1?Q?Keld_J=F8rn_Simonsen?= <keld@dkuug.dk>" ⟨c!"Keld Jørn Simonsen", c!"keld@dkuug.dk"⟩ :=
  .named (n := c!"=?ISO-8859-1?Q?Keld_J=F8rn_Simonsen?= ") (ps := [.encoded c!"Keld Jørn Simonsen"]) (r := []) (t := c!"keld@dkuug.dk") (b := [])
    (.encoded (a := []) (t := c!"=?ISO-8859-1?Q?Keld_J=F8rn_Simonsen?=") (r := c!" ") noCfws
      (encodedQ (cs := c!"ISO-8859-1") (en := c!"Q") (tx := c!"Keld_J=F8rn_Simonsen") (bs := b!"Keld J" ++ 0xF8 :: b!"rn Simonsen") (by decide) (by decide) (by decide) (by decide) (by decide +kernel) (.latin1 (cs := c!"ISO-8859-1") (by decide)))
      (noTouch (by decide)) (.cfws (t := c!" ") (r := []) (by derive) .nil))
    (by derive) (plainSpec (l := c!"keld") (d := c!"dkuug.dk") (by derive) (by derive)) (by unfold NoMark; decide) noCfws

theorem andre : Mime.Mailbox S (Known cr) c!"=?ISO-8859-1?Q?Andr=E9?= Pirard <PIRARD@vm1.ulg.ac.be>" ⟨c!"André Pirard", c!"PIRARD@vm1.ulg.ac.be"⟩ :=
  .named (n := c!"=?ISO-8859-1?Q?Andr=E9?= Pirard ") (ps := [.encoded c!"André", .word c!"Pirard"]) (r := []) (t := c!"PIRARD@vm1.ulg.ac.be") (b := [])
    (.encoded (a := []) (t := c!"=?ISO-8859-1?Q?Andr=E9?=") (r := c!" Pirard ") noCfws
      (encodedQ (cs := c!"ISO-8859-1") (en := c!"Q") (tx := c!"Andr=E9") (bs := b!"Andr" ++ [0xE9]) (by decide) (by decide) (by decide) (by decide) (by decide +kernel) (.latin1 (cs := c!"ISO-8859-1") (by decide)))
      (noTouch (by decide))
      (.word (t := c!" Pirard ") (r := []) (.atom (a := c!" ") (t := c!"Pirard") (b := c!" ") (by derive) (by derive) (by derive)) (by unfold NoMark; decide) (noTouch (by decide)) .nil))
    (by derive) (plainSpec (l := c!"PIRARD") (d := c!"vm1.ulg.ac.be") (by derive) (by derive)) (by unfold NoMark; decide) noCfws

theorem rfc2047 : Mime.AddressList tidyStyle (Known cr) c!"=?ISO-8859-1?Q?Keld_J=F8rn_Simonsen?= <keld@dkuug.dk>,=?ISO-8859-1?Q?Andr=E9?= Pirard <PIRARD@vm1.ulg.ac.be>"
    [(c!"=?ISO-8859-1?Q?Keld_J=F8rn_Simonsen?= <keld@dkuug.dk>", [⟨c!"Keld Jørn Simonsen", c!"keld@dkuug.dk"⟩]),
     (c!"=?ISO-8859-1?Q?Andr=E9?= Pirard <PIRARD@vm1.ulg.ac.be>", [⟨c!"André Pirard", c!"PIRARD@vm1.ulg.ac.be"⟩])] := by
  refine ⟨by simp, ?_, by decide⟩
  intro i hi
  simp only [List.mem_cons, List.not_mem_nil, or_false] at hi
  rcases hi with rfl | rfl
  · exact .box keld
  · exact .box andre

/-- There are only mailboxes. -/
theorem firmBoxes {l : List (List Char × List Box)} (h : ∀ i ∈ l, ∃ v, Mime.Mailbox S (Known cr) i.1 v ∧ i.2 = [v]) : Mime.FirmGroups S (Known cr) l := by
  rintro l₁ i l₂ rfl
  exact .inl (h i (by simp))

example (P : Predictor) (year : Int) : parseAddressList P (goEnv cr year)
      (encode c!"=?ISO-8859-1?Q?Keld_J=F8rn_Simonsen?= <keld@dkuug.dk>,=?ISO-8859-1?Q?Andr=E9?= Pirard <PIRARD@vm1.ulg.ac.be>") =
    .ok (some [⟨utf8 c!"Keld Jørn Simonsen", b!"keld@dkuug.dk"⟩, ⟨utf8 c!"André Pirard", b!"PIRARD@vm1.ulg.ac.be"⟩], none) := by
  refine (C73_rfc_addresses P cr year rfc2047 (noBlankLines_of_check (by decide)) (firmBoxes ?_)).2
  intro i hi
  simp only [List.mem_cons, List.not_mem_nil, or_false] at hi
  rcases hi with rfl | rfl
  · exact ⟨_, keld, rfl⟩
  · exact ⟨_, andre, rfl⟩

/-- A group; encoded words one after the other, with a comment between them; base 64; a character set that only the reader knows. -/
theorem mixed {f} (hf : f b!"koi8-r" [0xC1] = some (encode c!"а")) :
    Mime.AddressList tidyStyle (Known (some f)) c!"=?utf-8?q?My?= friends:=?utf-8?B?w6k=?= (x)\r\n =?utf-8?q?_b?= =?KOI8-R?q?=C1?= \"c\" d. <e@f>;"
    [(c!"=?utf-8?q?My?= friends:=?utf-8?B?w6k=?= (x)\r\n =?utf-8?q?_b?= =?KOI8-R?q?=C1?= \"c\" d. <e@f>;", [⟨c!"é bа c d.", c!"e@f"⟩])] := by
  refine ⟨by simp, ?_, by decide⟩
  intro i hi
  simp only [List.mem_cons, List.not_mem_nil, or_false] at hi
  subst hi
  have name : Mime.Phrase tidyStyle (Known (some f)) c!"=?utf-8?q?My?= friends" [.encoded c!"My", .word c!"friends"] :=
    .encoded (a := []) (t := c!"=?utf-8?q?My?=") (r := c!" friends") noCfws
      (encodedQ (cs := c!"utf-8") (en := c!"q") (tx := c!"My") (by decide) (by decide) (by decide) (by decide) (by decide +kernel) (.utf8 (v := c!"My") (by decide))) (noTouch (by decide))
      (.word (t := c!" friends") (r := []) (.atom (a := c!" ") (t := c!"friends") (b := []) (by derive) (by derive) noCfws) (by unfold NoMark; decide) (noTouch (by decide)) .nil)
  have box : Mime.Mailbox tidyStyle (Known (some f)) c!"=?utf-8?B?w6k=?= (x)\r\n =?utf-8?q?_b?= =?KOI8-R?q?=C1?= \"c\" d. <e@f>" ⟨c!"é bа c d.", c!"e@f"⟩ :=
    .named (n := c!"=?utf-8?B?w6k=?= (x)\r\n =?utf-8?q?_b?= =?KOI8-R?q?=C1?= \"c\" d. ")
      (ps := [.encoded c!"é", .encoded c!" b", .encoded c!"а", .word c!"c", .word c!"d", .period]) (r := []) (t := c!"e@f") (b := [])
      (.encoded (a := []) (t := c!"=?utf-8?B?w6k=?=") (r := c!" (x)\r\n =?utf-8?q?_b?= =?KOI8-R?q?=C1?= \"c\" d. ") noCfws
        (.mk (cs := c!"utf-8") (en := c!"B") (tx := c!"w6k=") (bs := [0xC3, 0xA9]) ⟨by decide, by decide⟩ (.b (bs := [0xC3, 0xA9]) (by decide)) (by decide)
          (fun c hc => derivable_of_check ((by decide +kernel : ∀ c ∈ c!"utf-8" ++ c!"w6k=", check restricted Name.atext [c] = true) c hc)) (.utf8 (v := c!"é") (by decide))) (noTouch (by decide))
        (.cfws (t := c!" (x)\r\n ") (r := c!"=?utf-8?q?_b?= =?KOI8-R?q?=C1?= \"c\" d. ") (by derive)
        (.encoded (t := c!"=?utf-8?q?_b?=") (r := c!" =?KOI8-R?q?=C1?= \"c\" d. ")
          (encodedQ (cs := c!"utf-8") (en := c!"q") (tx := c!"_b") (by decide) (by decide) (by decide) (by decide) (by decide +kernel) (.utf8 (v := c!" b") (by decide))) (noTouch (by decide))
        (.cfws (t := c!" ") (r := c!"=?KOI8-R?q?=C1?= \"c\" d. ") (by derive)
        (.encoded (t := c!"=?KOI8-R?q?=C1?=") (r := c!" \"c\" d. ")
          (encodedQ (cs := c!"KOI8-R") (en := c!"q") (tx := c!"=C1") (bs := [0xC1]) (by decide) (by decide) (by decide) (by decide) (by decide +kernel)
            (.other (by unfold Spec.KnownCharset; decide) rfl hf)) (noTouch (by decide))
        (.word (t := c!" \"c\" ") (r := c!"d. ") (.quoted (a := c!" ") (q := c!"c") (b := c!" ") (by derive) (quotedPlain (by decide +kernel) tidyStyleNil) (by derive)) (by unfold NoMark; decide)
          (noTouch (by decide))
        (.word (t := c!"d") (r := c!". ") (atomWord (t := c!"d") (b := []) (by derive) noCfws) (by unfold NoMark; decide) (noTouch (by decide))
        (.period (.cfws (t := c!" ") (r := []) (by derive) .nil)))))))))
      (by derive) (plainSpec (l := c!"e") (d := c!"f") (by derive) (by derive)) (by unfold NoMark; decide) noCfws
  exact .group (n := c!"=?utf-8?q?My?= friends") (m := c!"=?utf-8?B?w6k=?= (x)\r\n =?utf-8?q?_b?= =?KOI8-R?q?=C1?= \"c\" d. <e@f>") (b := []) name (.boxes (.one box)) noCfws

example (P : Predictor) (year : Int) {f} (hf : f b!"koi8-r" [0xC1] = some (encode c!"а")) : parseAddressList P (goEnv (some f) year)
      (encode c!"=?utf-8?q?My?= friends:=?utf-8?B?w6k=?= (x)\r\n =?utf-8?q?_b?= =?KOI8-R?q?=C1?= \"c\" d. <e@f>;") = .ok (some [⟨utf8 c!"é bа c d.", b!"e@f"⟩], none) := by
  refine (C73_rfc_addresses P (some f) year (mixed hf) (noBlankLines_of_check (by decide)) ?_).2
  intro l₁ i l₂ e
  rcases l₁ with - | ⟨_, l₁⟩
  · obtain ⟨rfl, rfl⟩ := List.cons.inj e
    right
    intro x hx
    simp at hx
  · simp at e

/-- Missing items, and missing members of a group. -/
theorem missing : Mime.OldAddressList tidyStyle (Known cr) c!",Mine:,=?ISO-8859-1?Q?Andr=E9?= Pirard <PIRARD@vm1.ulg.ac.be>;, (nobody)"
    [([], []), (c!"Mine:,=?ISO-8859-1?Q?Andr=E9?= Pirard <PIRARD@vm1.ulg.ac.be>;", [⟨c!"André Pirard", c!"PIRARD@vm1.ulg.ac.be"⟩]), (c!" (nobody)", [])] := by
  have h : Mime.OldAddress tidyStyle (Known cr) c!"Mine:,=?ISO-8859-1?Q?Andr=E9?= Pirard <PIRARD@vm1.ulg.ac.be>;" [⟨c!"André Pirard", c!"PIRARD@vm1.ulg.ac.be"⟩] := by
    refine .group (n := c!"Mine") (ps := [.word c!"Mine"]) (m := c!",=?ISO-8859-1?Q?Andr=E9?= Pirard <PIRARD@vm1.ulg.ac.be>") (b := [])
      (l := [([], []), (c!"=?ISO-8859-1?Q?Andr=E9?= Pirard <PIRARD@vm1.ulg.ac.be>", [⟨c!"André Pirard", c!"PIRARD@vm1.ulg.ac.be"⟩])])
      (.word (t := c!"Mine") (r := []) (atomWord (t := c!"Mine") (b := []) (by derive) noCfws) (by unfold NoMark; decide) (noTouch (by decide)) .nil)
      ⟨by simp, ?_, by decide⟩ noCfws
    intro i hi
    simp only [List.mem_cons, List.not_mem_nil, or_false] at hi
    rcases hi with rfl | rfl
    · exact .inr ⟨noCfws, rfl⟩
    · exact .inl ⟨_, andre, rfl⟩
  refine ⟨⟨by simp, ?_, by decide⟩, _, List.mem_cons_of_mem _ List.mem_cons_self, h⟩
  intro i hi
  simp only [List.mem_cons, List.not_mem_nil, or_false] at hi
  rcases hi with rfl | rfl | rfl
  · exact .inr ⟨noCfws, rfl⟩
  · exact .inl h
  · exact .inr ⟨by derive, rfl⟩

example (P : Predictor) (year : Int) : parseAddressList P (goEnv cr year) (encode c!",Mine:,=?ISO-8859-1?Q?Andr=E9?= Pirard <PIRARD@vm1.ulg.ac.be>;, (nobody)") =
    .ok (some [⟨utf8 c!"André Pirard", b!"PIRARD@vm1.ulg.ac.be"⟩], none) :=
  (C73_rfc_with_missing_items P cr year missing (Scan.atomWords_of_check (by decide)) (noBlankLines_of_check (by decide)) (sureQuotes_of_check (by decide))).2

end

end Rfc5322.Props
