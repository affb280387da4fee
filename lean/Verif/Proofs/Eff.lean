import Verif.Model.Walker

/-!
# Effects of walking a piece of parse tree

`Eff Q env ts f`: walking the trees `ts` with a struct of a kind in `Q` on top of the stack rewrites the struct on top by `f` and
changes nothing else.
-/

namespace Rfc5322

/-- Kinds of structs that ignore white space and quoted pairs: all but those inside quoted strings. -/
def plainK (r : Rule) : Prop := r ≠ .quotedValue ∧ r ≠ .quotedContent

/-- Any kind of struct. -/
def anyK (_ : Rule) : Prop := True

/-- The effect of walking `ts` on a parent whose kind satisfies `Q`. -/
structure Eff (Q : Rule → Prop) (env : Env) (ts : List Tree) (f : Node → Node) : Prop where
  kind : ∀ p, (f p).kind = p.kind
  run : ∀ p rest res err, Q p.kind → walkList env ts ⟨p :: rest, res, err⟩ = .ok ⟨f p :: rest, res, err⟩

variable {env : Env} {Q : Rule → Prop}

theorem kind_displayWithWord (v u w) : (displayWithWord v u w).kind = .displayName := by
  unfold displayWithWord
  split
  · rfl
  · split <;> rfl

theorem kind_deliver (c p : Node) : (deliver c p).kind = p.kind := by
  cases c <;> dsimp only [deliver] <;> (try split) <;> first | rfl | exact kind_displayWithWord _ _ _

theorem walkList_append {ts us w} :
    walkList env (ts ++ us) w = match walkList env ts w with
      | .error p => .error p
      | .ok w' => walkList env us w' := by
  induction ts generalizing w with
  | nil => rfl
  | cons t ts ih =>
    simp only [List.cons_append, walkList]
    cases walk env t w with
    | error p => rfl
    | ok w' => exact ih

theorem Eff.nil : Eff Q env [] id := ⟨fun _ => rfl, fun _ _ _ _ _ => rfl⟩
theorem Eff.tok {c} : Eff Q env [.tok c] id := ⟨fun _ => rfl, fun _ _ _ _ _ => rfl⟩
theorem Eff.eof : Eff Q env [.eof] id := ⟨fun _ => rfl, fun _ _ _ _ _ => rfl⟩

theorem Eff.append {ts us f g} (h1 : Eff Q env ts f) (h2 : Eff Q env us g) : Eff Q env (ts ++ us) (fun p => g (f p)) := by
  refine ⟨fun p => by rw [h2.kind, h1.kind], fun p rest res err hp => ?_⟩
  rw [walkList_append, h1.run p rest res err hp]
  exact h2.run _ _ _ _ (by rw [h1.kind]; exact hp)

theorem Eff.cast {ts f g} (h : Eff Q env ts f) (e : ∀ p, f p = g p) : Eff Q env ts g := by
  have : f = g := funext e
  exact this ▸ h

/-- Rules without callbacks. -/
def Rule.silent : Rule → Bool
  | .ctext | .ccontent | .comment | .cfws | .atext | .dayOfweek | .dayName | .dtext | .obsNoWSCTL
  | .obsCtext | .obsQtext | .obsQP | .obsFWS | .obsRoute | .obsDomainList | .obsAddrList | .obsGroupList
  | .charset | .encoding | .token | .tokenChar | .encodedText | .encodedChar | .crlf | .wsp | .vchar
  | .alpha => true
  | _ => false

theorem walk_silent {r ts w} (h : r.silent = true) : walk env (.node r ts) w = walkList env ts w := by
  cases r <;> simp [Rule.silent] at h <;> simp only [walk, enterRule, exitRule] <;>
    cases walkList env ts w <;> rfl

theorem walkList_single {t w} : walkList env [t] w = walk env t w := by
  simp only [walkList]
  cases walk env t w <;> rfl

theorem Eff.silent {r ts f} (hr : r.silent = true) (h : Eff Q env ts f) : Eff Q env [.node r ts] f :=
  ⟨h.kind, fun p rest res err hp => by rw [walkList_single, walk_silent hr, h.run p rest res err hp]⟩

/-- Rules whose `ExitX` pops a struct and hands it to the parent. -/
def Rule.delivers (r : Rule) : Bool := !r.silent && r != .addressList && r != .dateTime

theorem exitRule_delivers {r w} (h : r.delivers = true) : exitRule r w = exitNode r w := by
  cases r <;> first | rfl | (exact absurd h (by decide))

/-- A rule that pushes the struct `mk` and whose children turn it into `n`. -/
theorem walk_push {r ts} (hr : r.delivers = true) {mk n : Node} (hk : n.kind = r)
    {p : Node} {rest : List Node} {res : Option Res} {err : Option Err}
    (he : enterRule env r ts ⟨p :: rest, res, err⟩ = .ok ⟨mk :: p :: rest, res, err⟩)
    (hc : walkList env ts ⟨mk :: p :: rest, res, err⟩ = .ok ⟨n :: p :: rest, res, err⟩) :
    walk env (.node r ts) ⟨p :: rest, res, err⟩ = .ok ⟨deliver n p :: rest, res, err⟩ := by
  simp only [walk, he, hc]
  rw [exitRule_delivers hr]
  simp [exitNode, hk]

theorem Eff.push {Q' : Rule → Prop} {r ts f} {mk : Node} (hr : r.delivers = true) (hk : mk.kind = r) (hp : Q' r)
    (he : ∀ w, enterRule env r ts w = .ok (w.enter mk)) (h : Eff Q' env ts f) :
    Eff Q env [.node r ts] (deliver (f mk)) := by
  refine ⟨fun p => kind_deliver _ _, fun p rest res err _ => ?_⟩
  rw [walkList_single]
  exact walk_push hr (by rw [h.kind, hk]) (he _) (h.run _ _ _ _ (hk ▸ hp))

theorem Eff.weaken {Q' : Rule → Prop} {ts f g} (h : Eff Q env ts f) (hk : ∀ p, (g p).kind = p.kind)
    (e : ∀ p, Q' p.kind → Q p.kind ∧ f p = g p) : Eff Q' env ts g :=
  ⟨hk, fun p rest res err hp => by
    obtain ⟨hq, e⟩ := e p hp
    rw [h.run p rest res err hq, e]⟩

theorem textList_append {ts us : List Tree} : textList (ts ++ us) = textList ts ++ textList us := by
  induction ts with
  | nil => rfl
  | cons t ts ih => simp [textList, ih]

theorem textList_node {r ts} : textList [.node r ts] = textList ts := by simp [textList, Tree.text]
theorem textList_tok {c} : textList [.tok c] = encodeRune c := by simp [textList, Tree.text]

theorem utf8_append {a b : List Char} : utf8 (a ++ b) = utf8 a ++ utf8 b := by simp [utf8]
theorem utf8_cons {c : Char} {b : List Char} : utf8 (c :: b) = encodeRune c ++ utf8 b := by simp [utf8]
theorem utf8_nil : utf8 [] = [] := rfl
theorem utf8_single {c : Char} : utf8 [c] = encodeRune c := by simp [utf8]

end Rfc5322
