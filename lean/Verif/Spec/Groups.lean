import Verif.Spec.Clear
import Verif.Spec.Skeleton

/-!
# Specification: lists with groups

Like `Spec.ClearList`, but the name of a group may begin with a quoted string, and its members may be padded with commas.
-/

namespace Rfc5322.Spec

/-- The members of a group: mailboxes separated by commas, or nothing; commas in front, and then also between them; or commas only. -/
inductive GroupMembers (env : Env) : List Char → List Addr → Prop where
  | plain {m as} : Members env m as → GroupMembers env m as
  | padded {h t a r bs} : Commas h → h ≠ [] → ClearBox env t a → CommaTail (fun t as => ∃ b, ClearBox env t b ∧ as = [b]) r bs →
      GroupMembers env (h ++ (t ++ r)) (a :: bs)
  | commas {h w} : Commas h → h ≠ [] → OptCfws w → GroupMembers env (h ++ w) []

/-- A group up to its terminating semicolon. -/
inductive GroupText (env : Env) : List Char → List Addr → Prop where
  | mk {a n m as} : OptCfws a → GroupName env n → GroupMembers env m as → GroupText env (a ++ (n ++ ':' :: m)) as

/-- If the text begins with a quotation mark and this is ignored, no colon is visible, and encoded words are as in `TameWords`. -/
def FirmQuote (t : List Char) : Prop := ∀ x, t = '"' :: x → ':' ∉ skeleton x ∧ TameWords x

/-- Mailboxes and groups, separated by `,` or `;`.  Groups are terminated, except perhaps the last one.  Where a group begins, the text from there
on has to be as in `FirmQuote`. -/
inductive GroupsList (env : Env) : List Char → List Addr → Prop where
  | one {t as} : ClearItem env t as → GroupsList env t as
  | last {g as} : GroupText env g as → FirmQuote g → GroupsList env g as
  | group {g as w} : GroupText env g as → OptCfws w → FirmQuote (g ++ ';' :: w) → GroupsList env (g ++ ';' :: w) as
  | cons {t as sep r bs} : ClearItem env t as → (sep = ',' ∨ sep = ';') → GroupsList env r bs →
      GroupsList env (t ++ sep :: r) (as ++ bs)
  | groupCons {g as w sep r bs} : GroupText env g as → OptCfws w → (sep = ',' ∨ sep = ';') → GroupsList env r bs →
      FirmQuote (g ++ ';' :: (w ++ sep :: r)) → GroupsList env (g ++ ';' :: (w ++ sep :: r)) (as ++ bs)

end Rfc5322.Spec
