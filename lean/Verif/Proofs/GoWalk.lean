import Verif.Proofs.GoEnter

/-!
# Walking a tree
-/

set_option linter.constructorNameAsVariable false

namespace Rfc5322.Go

mutual
/-- The Go walker does what the model's walker does. -/
theorem walk_ok (S : Setting) (n : Nat) {base wp : Nat} : ∀ (t : Tree) {h : Heap} {ns rv ev : Val} {cells : List Cell} {w w' : Walker}, Rep base h wp ns rv ev cells w →
    walk S.env t w = .ok w' → ∃ h' ns' rv' ev' cells', walkTree Code.program (callFn Code.program S (n + 2)) (.ptr wp) t h = .ok ((), h') ∧
      Rep base h' wp ns' rv' ev' cells' w' ∧ Keep base h h'
  | .tok _, h, ns, rv, ev, cells, w, w', R, ok => by
    cases ok
    exact ⟨h, ns, rv, ev, cells, rfl, R, Keep.refl _ _⟩
  | .eof, h, ns, rv, ev, cells, w, w', R, ok => by
    cases ok
    exact ⟨h, ns, rv, ev, cells, rfl, R, Keep.refl _ _⟩
  | .node r ts, h, ns, rv, ev, cells, w, w', R, ok => by
    rw [walk] at ok
    split at ok
    · cases ok
    · rename_i w₁ e1
      split at ok
      · cases ok
      · rename_i w₂ e2
        obtain ⟨h₁, ns₁, ev₁, cells₁, run1, R1, k1⟩ := enterRule_ok S n R r ts e1
        obtain ⟨h₂, ns₂, rv₂, ev₂, cells₂, run2, R2, k2⟩ := walkList_ok S n ts R1 e2
        obtain ⟨h₃, ns₃, rv₃, cells₃, run3, R3, k3⟩ := exitRule_ok S n R2 r ok (.ctx r ts)
        refine ⟨h₃, ns₃, rv₃, ev₂, cells₃, ?_, R3, (k1.trans k2).trans k3⟩
        rw [walkTree, M.bind_ok _ run1, M.bind_ok _ run2, run3]
/-- Children in order. -/
theorem walkList_ok (S : Setting) (n : Nat) {base wp : Nat} : ∀ (ts : List Tree) {h : Heap} {ns rv ev : Val} {cells : List Cell} {w w' : Walker},
    Rep base h wp ns rv ev cells w →
    walkList S.env ts w = .ok w' → ∃ h' ns' rv' ev' cells', walkTrees Code.program (callFn Code.program S (n + 2)) (.ptr wp) ts h = .ok ((), h') ∧
      Rep base h' wp ns' rv' ev' cells' w' ∧ Keep base h h'
  | [], h, ns, rv, ev, cells, w, w', R, ok => by
    cases ok
    exact ⟨h, ns, rv, ev, cells, rfl, R, Keep.refl _ _⟩
  | t :: ts, h, ns, rv, ev, cells, w, w', R, ok => by
    rw [walkList] at ok
    split at ok
    · cases ok
    · rename_i w₁ e1
      obtain ⟨h₁, ns₁, rv₁, ev₁, cells₁, run1, R1, k1⟩ := walk_ok S n t R e1
      obtain ⟨h₂, ns₂, rv₂, ev₂, cells₂, run2, R2, k2⟩ := walkList_ok S n ts R1 ok
      refine ⟨h₂, ns₂, rv₂, ev₂, cells₂, ?_, R2, k1.trans k2⟩
      rw [walkTrees, M.bind_ok _ run1, run2]
end

end Rfc5322.Go
