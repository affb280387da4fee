import Verif.Proofs.EnvIndep
import Verif.Proofs.Words

/-!
# The decoder is asked about the encoded words of the input only
-/

namespace Rfc5322

open Spec

/-- All rule nodes of the trees satisfy `p`. -/
inductive AllNodes (p : Rule → List Tree → Prop) : List Tree → Prop where
  | nil : AllNodes p []
  | tok {c ts} : AllNodes p ts → AllNodes p (.tok c :: ts)
  | eof {ts} : AllNodes p ts → AllNodes p (.eof :: ts)
  | node {r us ts} : p r us → AllNodes p us → AllNodes p ts → AllNodes p (.node r us :: ts)

theorem AllNodes.append {p ts us} (h : AllNodes p ts) (h' : AllNodes p us) : AllNodes p (ts ++ us) := by
  induction h with
  | nil => exact h'
  | tok _ ih => exact .tok ih
  | eof _ ih => exact .eof ih
  | node h1 h2 _ _ ih => exact .node h1 h2 ih

/-- The rule `encodedWord` is called with its own body only. -/
def G.wordsOk : G → Bool
  | .eps | .eof | .t _ | .comment => true
  | .seq a b | .alt a b => a.wordsOk && b.wordsOk
  | .star a => a.wordsOk
  | .rule r a => (r != .encodedWord || decide (G.rule r a = Gr.encodedWord)) && a.wordsOk

/-- The nodes of encoded words carry encoded words of the text. -/
def WordNode (text : List Char) (r : Rule) (ts : List Tree) : Prop :=
  r = .encodedWord → ∃ w, w <:+: text ∧ EncodedWord w ∧ textList ts = utf8 w

theorem derives_suffix {g s ts s'} (h : Derives g s ts s') : s' <:+ s := by
  induction h with
  | eps | eof | starNil => exact List.suffix_refl _
  | t => exact List.suffix_cons _ _
  | seq _ _ ih1 ih2 | starCons _ _ ih1 ih2 => exact ih2.trans ih1
  | altL _ ih | altR _ ih | rule _ ih | comment _ ih => exact ih

theorem derives_words {text g s ts s'} (h : Derives g s ts s') (hg : g.wordsOk = true) (hs : s <:+ text) :
    AllNodes (WordNode text) ts := by
  induction h with
  | eps | starNil => exact .nil
  | eof => exact .eof .nil
  | t => exact .tok .nil
  | seq h1 _ ih1 ih2 =>
    simp only [G.wordsOk, Bool.and_eq_true] at hg
    exact (ih1 hg.1 hs).append (ih2 hg.2 ((derives_suffix h1).trans hs))
  | starCons h1 _ ih1 ih2 => exact (ih1 hg hs).append (ih2 hg ((derives_suffix h1).trans hs))
  | altL _ ih => simp only [G.wordsOk, Bool.and_eq_true] at hg; exact ih hg.1 hs
  | altR _ ih => simp only [G.wordsOk, Bool.and_eq_true] at hg; exact ih hg.2 hs
  | @rule r a s ts s' hd ih =>
    simp only [G.wordsOk, Bool.and_eq_true, Bool.or_eq_true, bne_iff_ne, ne_eq, decide_eq_true_eq] at hg
    refine .node ?_ (ih hg.2 hs) .nil
    intro hr
    have e : G.rule r a = Gr.encodedWord := hg.1.resolve_left (fun h => h hr)
    have hd' : Derives Gr.encodedWord s [.node r ts] s' := e ▸ .rule hd
    obtain ⟨w, _, rfl, ⟨hw, _⟩, ht, _⟩ := (means_encodedWord (Q := anyK) (env := ⟨fun _ => none, 0⟩)).sound hd'
    rw [textList_node] at ht
    exact ⟨w, (List.prefix_append w s').isInfix.trans hs.isInfix, hw, ht⟩
  | comment _ ih => exact .node (fun h => by cases h) (ih (by decide) hs) .nil

theorem AllNodes.walk {env env' : Env} {p} (h : ∀ r ts w, p r ts → enterRule env r ts w = enterRule env' r ts w) {ts}
    (ht : AllNodes p ts) : ∀ w, walkList env ts w = walkList env' ts w := by
  induction ht with
  | nil => intro w; simp only [walkList]
  | tok _ ih => intro w; simp only [walkList, Rfc5322.walk, ih]
  | eof _ ih => intro w; simp only [walkList, Rfc5322.walk, ih]
  | @node r us ts hp _ _ ih1 ih2 =>
    intro w
    simp only [walkList, Rfc5322.walk, h r us w hp]
    cases enterRule env' r us w with
    | error => rfl
    | ok w₁ =>
      simp only [ih1]
      cases walkList env' us w₁ with
      | error => rfl
      | ok w₂ => simp only [ih2]

theorem enterRule_word {env env' : Env} {r ts w} (h1 : r ≠ .year) (h2 : r = .encodedWord → env.decode (textList ts) = env'.decode (textList ts)) :
    enterRule env r ts w = enterRule env' r ts w := by
  cases r <;> first | rfl | (exact absurd rfl h1) | (simp only [enterRule, enterEncodedWord, h2 rfl])

theorem allNodes_and {p q : Rule → List Tree → Prop} {ts} (h1 : AllNodes p ts) (h2 : AllNodes q ts) : AllNodes (fun r us => p r us ∧ q r us) ts := by
  induction h1 with
  | nil => exact .nil
  | tok _ ih => cases h2 with | tok h => exact .tok (ih h)
  | eof _ ih => cases h2 with | eof h => exact .eof (ih h)
  | node h _ _ ih1 ih2 => cases h2 with | node h' h3 h4 => exact .node ⟨h, h'⟩ (ih1 h3) (ih2 h4)

mutual
theorem allNodes_of_tree {p : Rule → Bool} : ∀ {t : Tree}, t.allRules p = true → AllNodes (fun r _ => p r = true) [t]
  | .tok _, _ => .tok .nil
  | .eof, _ => .eof .nil
  | .node r us, h => by
    simp only [Tree.allRules, Bool.and_eq_true] at h
    exact .node h.1 (allNodes_of_rules h.2) .nil
theorem allNodes_of_rules {p : Rule → Bool} : ∀ {ts : List Tree}, allRulesList p ts = true → AllNodes (fun r _ => p r = true) ts
  | [], _ => .nil
  | t :: ts, h => by
    simp only [allRulesList, Bool.and_eq_true] at h
    exact (allNodes_of_tree h.1).append (allNodes_of_rules h.2)
end

/-- The result depends on the decoder only through what it says about encoded words occurring in the text. -/
theorem parseAddressList_words (P : Predictor) {env env' : Env} {input : Bytes}
    (h : ∀ w, w <:+: tokens input → EncodedWord w → env.decode (utf8 w) = env'.decode (utf8 w)) :
    parseAddressList P env input = parseAddressList P env' input := by
  rw [evalAddresses_eq, evalAddresses_eq]
  unfold evalAddresses
  cases hs : search Gr.addressList (tokens input) with
  | none => rfl
  | some ts =>
    have ha := allNodes_of_rules (derives_allRules (p := fun r => r != .year) (by decide) (search_sound hs) (by decide))
    have hb := derives_words (search_sound hs) (by decide +kernel) (List.suffix_refl _)
    dsimp only
    rw [(allNodes_and ha hb).walk (env := env) (env' := env') fun r us w hr => enterRule_word (by simpa using hr.1) fun e => by
      obtain ⟨w, h1, h2, h3⟩ := hr.2 e
      rw [h3, h w h1 h2]]

end Rfc5322
