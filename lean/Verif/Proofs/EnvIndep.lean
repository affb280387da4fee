import Verif.Proofs.Eval
import Verif.Model.History

/-!
# What the walk reads from the environment
-/

namespace Rfc5322

mutual
/-- All rule nodes satisfy `p`. -/
def Tree.allRules (p : Rule → Bool) : Tree → Bool
  | .tok _ => true
  | .eof => true
  | .node r ts => p r && allRulesList p ts
def allRulesList (p : Rule → Bool) : List Tree → Bool
  | [] => true
  | t :: ts => t.allRules p && allRulesList p ts
end

theorem allRulesList_append {p ts us} : allRulesList p (ts ++ us) = (allRulesList p ts && allRulesList p us) := by
  induction ts with
  | nil => simp [allRulesList]
  | cons t ts ih => simp [allRulesList, ih, Bool.and_assoc]

/-- All rules called by the expression satisfy `p` (those below `comment` excepted). -/
def G.allRules (p : Rule → Bool) : G → Bool
  | .eps | .eof | .t _ => true
  | .comment => p .comment
  | .seq a b | .alt a b => a.allRules p && b.allRules p
  | .star a => a.allRules p
  | .rule r a => p r && a.allRules p

theorem derives_allRules {p : Rule → Bool} (hc : Gr.commentBody.allRules p = true) {g s ts s'} (h : Derives g s ts s')
    (hg : g.allRules p = true) : allRulesList p ts = true := by
  induction h with
  | eps | eof | t _ | starNil => rfl
  | seq _ _ ih1 ih2 =>
    simp only [G.allRules, Bool.and_eq_true] at hg
    rw [allRulesList_append, ih1 hg.1, ih2 hg.2]; rfl
  | altL _ ih => simp only [G.allRules, Bool.and_eq_true] at hg; exact ih hg.1
  | altR _ ih => simp only [G.allRules, Bool.and_eq_true] at hg; exact ih hg.2
  | starCons _ _ ih1 ih2 => rw [allRulesList_append, ih1 hg, ih2 hg]; rfl
  | rule _ ih =>
    simp only [G.allRules, Bool.and_eq_true] at hg
    simp [allRulesList, Tree.allRules, hg.1, ih hg.2]
  | comment _ ih => simp [allRulesList, Tree.allRules, ih hc, show p .comment = true from hg]

mutual
theorem walk_congr {env env' : Env} {p : Rule → Bool}
    (h : ∀ r ts w, p r = true → enterRule env r ts w = enterRule env' r ts w) :
    ∀ (t : Tree) w, t.allRules p = true → walk env t w = walk env' t w
  | .tok _, _, _ => by simp only [walk]
  | .eof, _, _ => by simp only [walk]
  | .node r ts, w, ht => by
    simp only [Tree.allRules, Bool.and_eq_true] at ht
    simp only [walk, h r ts w ht.1]
    cases enterRule env' r ts w with
    | error => rfl
    | ok w₁ => simp only [walkList_congr h ts w₁ ht.2]
theorem walkList_congr {env env' : Env} {p : Rule → Bool}
    (h : ∀ r ts w, p r = true → enterRule env r ts w = enterRule env' r ts w) :
    ∀ (ts : List Tree) w, allRulesList p ts = true → walkList env ts w = walkList env' ts w
  | [], _, _ => by simp only [walkList]
  | t :: ts, w, ht => by
    simp only [allRulesList, Bool.and_eq_true] at ht
    simp only [walkList, walk_congr h t w ht.1]
    cases walk env' t w with
    | error => rfl
    | ok w₁ => exact walkList_congr h ts w₁ ht.2
end

theorem enterRule_congr {env env' : Env} {r ts w} (h1 : r ≠ .year) (h2 : r = .encodedWord → env.decode = env'.decode) :
    enterRule env r ts w = enterRule env' r ts w := by
  cases r <;> first | rfl | (exact absurd rfl h1) | (simp only [enterRule, enterEncodedWord, h2 rfl])

theorem enterRule_congr' {env env' : Env} {r ts w} (h1 : env.nowYear = env'.nowYear) (h2 : r ≠ .encodedWord) :
    enterRule env r ts w = enterRule env' r ts w := by
  cases r <;> first | rfl | (exact absurd rfl h2) | (simp only [enterRule, enterYear, h1])

/-- `ParseAddressList` does not look at the clock. -/
theorem parseAddressList_clock (P : Predictor) {env env' : Env} (h : env.decode = env'.decode) (input : Bytes) :
    parseAddressList P env input = parseAddressList P env' input := by
  rw [evalAddresses_eq, evalAddresses_eq]
  unfold evalAddresses
  cases hs : search Gr.addressList (tokens input) with
  | none => rfl
  | some ts =>
    have ha := derives_allRules (p := fun r => r != .year) (by decide) (search_sound hs) (by decide)
    dsimp only
    rw [walkList_congr (env := env) (env' := env') (p := fun r => r != .year)
      (fun r ts w hr => enterRule_congr (by simpa using hr) fun _ => h) ts _ ha]

/-- `ParseDateTime` does not use the decoder. -/
theorem parseDateTime_decode (P : Predictor) {env env' : Env} (h : env.nowYear = env'.nowYear) (input : Bytes) :
    parseDateTime P env input = parseDateTime P env' input := by
  rw [evalDate_eq, evalDate_eq]
  unfold evalDate
  cases hs : search Gr.dateTime (tokens input) with
  | none => rfl
  | some ts =>
    have ha := derives_allRules (p := fun r => r != .encodedWord) (by decide) (search_sound hs) (by decide)
    dsimp only
    rw [walkList_congr (env := env) (env' := env') (p := fun r => r != .encodedWord)
      (fun r ts w hr => enterRule_congr' h (by simpa using hr)) ts _ ha]

end Rfc5322
