import Verif.Proofs.Names
import Verif.Proofs.Descend
import Verif.Model.Api

/-!
# Denotations: angle addresses, mailboxes, groups, lists; the whole address list
-/

namespace Rfc5322

open Spec

variable {env : Env} {Q : Rule → Prop}

/-! ## Routes -/

theorem means_domain_route :
    Means (· = .obsAngleAddr) env Gr.domain (.quiet fun t => ∃ v, Domain t v) := by
  refine (means_domain (Q := anyK)).ignore (fun _ _ => trivial) fun v p hp => ?_
  cases p with
  | obsAngleAddr a => rfl
  | _ => simp [Node.kind] at hp

theorem plain_obsAngle (r : Rule) (h : r = .obsAngleAddr) : plainK r := by subst h; exact plainK_of rfl

theorem routeHead_iff {t} : Rep (fun t => Cfws t ∨ t = [',']) t ↔ RouteHead t := by
  constructor
  · intro h
    induction h with
    | nil => exact .nil
    | cons h _ ih =>
      rcases h with h | rfl
      · exact .cfws h ih
      · exact .comma ih
  · intro h
    induction h with
    | nil => exact .nil
    | comma _ ih => exact .cons (S := fun t => Cfws t ∨ t = [',']) (.inr rfl) ih
    | cfws h _ ih => exact .cons (S := fun t => Cfws t ∨ t = [',']) (.inl h) ih

/-- One further hop of a route. -/
def Hop (t : List Char) : Prop :=
  ∃ x y, x = [','] ∧ (∃ u w, OptCfws u ∧ (w = [] ∨ ∃ a b, a = ['@'] ∧ (∃ v, Domain b v) ∧ w = a ++ b) ∧ y = u ++ w) ∧
    t = x ++ y

theorem routeTail_iff {t} : Rep Hop t ↔ RouteTail t := by
  constructor
  · intro h
    induction h with
    | nil => exact .nil
    | cons h _ ih =>
      obtain ⟨_, _, rfl, ⟨u, w, hu, hw, rfl⟩, rfl⟩ := h
      rcases hw with rfl | ⟨_, b, rfl, ⟨v, hv⟩, rfl⟩
      · simpa using RouteTail.empty hu ih
      · simpa using RouteTail.hop hu hv ih
  · intro h
    induction h with
    | nil => exact .nil
    | @empty t r ht _ ih =>
      have := Rep.cons (S := Hop) ⟨[','], t, rfl, ⟨t, [], ht, .inl rfl, by simp⟩, rfl⟩ ih
      simpa using this
    | @hop t d v r ht hd _ ih =>
      have := Rep.cons (S := Hop) ⟨[','], t ++ '@' :: d, rfl, ⟨t, '@' :: d, ht, .inr ⟨['@'], d, rfl, ⟨v, hd⟩, rfl⟩, rfl⟩, rfl⟩ ih
      simpa using this

theorem means_obsRoute : Means (· = .obsAngleAddr) env Gr.obsRoute (.quiet Route) := by
  have cf : Means (· = .obsAngleAddr) env Gr.cfws (.quiet Cfws) := means_cfws.mono plain_obsAngle
  have ocf : Means (· = .obsAngleAddr) env (.opt Gr.cfws) (.quiet OptCfws) := means_optCfws.mono plain_obsAngle
  have head := (cf.qalt means_comma).qstar.quiet_congr fun t => routeHead_iff
  have hop := means_at.qseq (means_domain_route (env := env))
  have tail := (means_comma.qseq (ocf.qseq hop.qopt)).qstar.quiet_congr fun t => routeTail_iff
  have list : Means (· = .obsAngleAddr) env Gr.obsDomainList _ :=
    (head.qseq (means_at.qseq (means_domain_route.qseq tail))).silent rfl
  refine ((list.qseq means_colon).silent (r := .obsRoute) rfl).quiet_congr fun t => ?_
  constructor
  · rintro ⟨_, _, ⟨h, _, hh, ⟨_, _, rfl, ⟨d, r, ⟨v, hd⟩, hr, rfl⟩, rfl⟩, rfl⟩, rfl, rfl⟩
    exact ⟨h, d, v, r, hh, hd, hr, by simp⟩
  · rintro ⟨h, d, v, r, hh, hd, hr, rfl⟩
    exact ⟨_, _, ⟨h, _, hh, ⟨_, _, rfl, ⟨d, r, ⟨v, hd⟩, hr, rfl⟩, rfl⟩, rfl⟩, rfl, by simp⟩

/-! ## Angle addresses -/

/-- Setting the address of an angle-addr. -/
def setAngle (v : Bytes) : Node → Node
  | .angleAddr _ => .angleAddr v
  | p => p

/-- Angle addresses with a route. -/
def RoutedAngle (env : Env) (t : List Char) (v : Bytes) : Prop :=
  ∃ a q u b, OptCfws a ∧ Route q ∧ AddrSpec env u v ∧ OptCfws b ∧ t = a ++ '<' :: (q ++ (u ++ '>' :: b))

theorem means_obsAngleAddr : Means Q env Gr.obsAngleAddr (.value (RoutedAngle env) setAngle) := by
  have eff : ∀ v, deliver (.obsAngleAddr v) = setAngle v := by intro v; funext p; cases p <;> rfl
  have ocf : Means (· = .obsAngleAddr) env (.opt Gr.cfws) (.quiet OptCfws) := means_optCfws.mono plain_obsAngle
  have body := ocf.seq (means_less.seq (means_obsRoute.seq (means_addrSpec.seq (means_greater.seq ocf))))
  refine (Means.push₀ (Q := Q) (Q' := (· = .obsAngleAddr)) (r := .obsAngleAddr) (mk := .obsAngleAddr []) rfl rfl rfl body
    (fun _ _ => rfl)).congr fun t f => ?_
  constructor
  · rintro ⟨_, ⟨a, _, _, _, ⟨ha, rfl⟩, ⟨_, _, _, _, ⟨rfl, rfl⟩, ⟨q, _, _, _, ⟨hq, rfl⟩, ⟨u, _, _, _, ⟨v, hu, rfl⟩,
      ⟨_, _, b, _, ⟨rfl, rfl⟩, ⟨hb, rfl⟩, rfl, rfl⟩, rfl, rfl⟩, rfl, rfl⟩, rfl, rfl⟩, rfl, rfl⟩, rfl⟩
    exact ⟨v, ⟨a, q, u, b, ha, hq, hu, hb, by simp⟩, eff _⟩
  · rintro ⟨v, ⟨a, q, u, b, ha, hq, hu, hb, rfl⟩, rfl⟩
    exact ⟨_, ⟨a, _, _, _, ⟨ha, rfl⟩, ⟨_, _, _, _, ⟨rfl, rfl⟩, ⟨q, _, _, _, ⟨hq, rfl⟩, ⟨u, _, _, _, ⟨v, hu, rfl⟩,
      ⟨_, _, b, _, ⟨rfl, rfl⟩, ⟨hb, rfl⟩, rfl, rfl⟩, rfl, rfl⟩, rfl, rfl⟩, rfl, rfl⟩, by simp, rfl⟩, (eff _).symm⟩

/-- Setting the address of a name-addr. -/
def setNA (v : Bytes) : Node → Node
  | .nameAddr n _ => .nameAddr n v
  | p => p

theorem means_angleAddr : Means Q env Gr.angleAddr (.value (AngleAddr env) setNA) := by
  have eff : ∀ v, deliver (.angleAddr v) = setNA v := by intro v; funext p; cases p <;> rfl
  have pl : ∀ r, r = Rule.angleAddr → plainK r := by rintro _ rfl; exact plainK_of rfl
  have ocf : Means (· = .angleAddr) env (.opt Gr.cfws) (.quiet OptCfws) := means_optCfws.mono pl
  have body := (ocf.seq (means_less.seq (means_addrSpec.opt.seq (means_greater.seq ocf)))).alt means_obsAngleAddr
  refine (Means.push₀ (Q := Q) (Q' := (· = .angleAddr)) (r := .angleAddr) (mk := .angleAddr []) rfl rfl rfl body
    (fun _ _ => rfl)).congr fun t f => ?_
  constructor
  · rintro ⟨_, ⟨a, _, _, _, ⟨ha, rfl⟩, ⟨_, _, _, _, ⟨rfl, rfl⟩, ⟨u, _, _, _, h,
      ⟨_, _, b, _, ⟨rfl, rfl⟩, ⟨hb, rfl⟩, rfl, rfl⟩, rfl, rfl⟩, rfl, rfl⟩, rfl, rfl⟩ |
      ⟨v, ⟨a, q, u, b, ha, hq, hu, hb, rfl⟩, rfl⟩, rfl⟩
    · rcases h with ⟨v, hu, rfl⟩ | ⟨rfl, rfl⟩
      · exact ⟨v, by simpa using AngleAddr.addr ha hu hb, eff _⟩
      · exact ⟨[], by simpa using AngleAddr.null ha hb, eff _⟩
    · exact ⟨v, .routed ha hq hu hb, eff _⟩
  · rintro ⟨v, h, rfl⟩
    cases h with
    | @null a b ha hb =>
      exact ⟨_, .inl ⟨a, _, _, _, ⟨ha, rfl⟩, ⟨_, _, _, _, ⟨rfl, rfl⟩, ⟨[], _, _, _, .inr ⟨rfl, rfl⟩,
        ⟨_, _, b, _, ⟨rfl, rfl⟩, ⟨hb, rfl⟩, rfl, rfl⟩, rfl, rfl⟩, rfl, rfl⟩, by simp, rfl⟩, (eff _).symm⟩
    | @addr a u v b ha hu hb =>
      exact ⟨_, .inl ⟨a, _, _, _, ⟨ha, rfl⟩, ⟨_, _, _, _, ⟨rfl, rfl⟩, ⟨u, _, _, _, .inl ⟨v, hu, rfl⟩,
        ⟨_, _, b, _, ⟨rfl, rfl⟩, ⟨hb, rfl⟩, rfl, rfl⟩, rfl, rfl⟩, rfl, rfl⟩, by simp, rfl⟩, (eff _).symm⟩
    | @routed a q u v b ha hq hu hb =>
      exact ⟨_, .inr ⟨v, ⟨a, q, u, b, ha, hq, hu, hb, rfl⟩, rfl⟩, (eff _).symm⟩

/-! ## Mailboxes -/

/-- Appending addresses to a struct that accepts mailboxes. -/
def addBoxes (as : List Addr) : Node → Node
  | .address xs => .address (xs ++ as)
  | .mailboxList xs => .mailboxList (xs ++ as)
  | .obsMboxList xs => .obsMboxList (xs ++ as)
  | p => p

/-- Setting name and address of a mailbox. -/
def setBox (a : Addr) : Node → Node
  | .mailbox _ _ => .mailbox a.name a.address
  | p => p

/-- name-addr and its value. -/
inductive NameAddr (env : Env) : List Char → Addr → Prop where
  | named {n nv a av} : DisplayName env n nv → AngleAddr env a av → NameAddr env (n ++ a) ⟨nv, av⟩
  | angle {a av} : AngleAddr env a av → NameAddr env a ⟨[], av⟩

theorem means_nameAddr : Means Q env Gr.nameAddr (.value (NameAddr env) setBox) := by
  have eff : ∀ n a, deliver (.nameAddr n a) = setBox ⟨n, a⟩ := by intro v a; funext p; cases p <;> rfl
  have body := (means_displayName (Q := anyK) (env := env)).opt.seq means_angleAddr
  refine (Means.push₀ (Q := Q) (Q' := anyK) (r := .nameAddr) (mk := .nameAddr [] []) rfl rfl trivial body
    (fun _ _ => rfl)).congr fun t f => ?_
  constructor
  · rintro ⟨_, ⟨n, _, a, _, h, ⟨av, ha, rfl⟩, rfl, rfl⟩, rfl⟩
    rcases h with ⟨nv, hn, rfl⟩ | ⟨rfl, rfl⟩
    · exact ⟨_, .named hn ha, eff _ _⟩
    · exact ⟨_, .angle ha, eff _ _⟩
  · rintro ⟨_, h, rfl⟩
    cases h with
    | @named n nv a av hn ha => exact ⟨_, ⟨n, _, a, _, .inl ⟨nv, hn, rfl⟩, ⟨av, ha, rfl⟩, rfl, rfl⟩, (eff _ _).symm⟩
    | @angle a av ha => exact ⟨_, ⟨[], _, _, _, .inr ⟨rfl, rfl⟩, ⟨av, ha, rfl⟩, rfl, rfl⟩, (eff _ _).symm⟩

theorem means_mailbox : Means Q env Gr.mailbox (.value (MailboxItem env) addBoxes) := by
  have eff : ∀ n a, deliver (.mailbox n a) = addBoxes [⟨n, a⟩] := by intro v a; funext p; cases p <;> rfl
  have body := (means_nameAddr (Q := anyK) (env := env)).alt means_addrSpec
  refine (Means.push₀ (Q := Q) (Q' := anyK) (r := .mailbox) (mk := .mailbox [] []) rfl rfl trivial body
    (fun _ _ => rfl)).congr fun t f => ?_
  constructor
  · rintro ⟨_, ⟨a, h, rfl⟩ | ⟨v, h, rfl⟩, rfl⟩
    · cases h with
      | named hn ha => exact ⟨_, ⟨_, .named hn ha, rfl⟩, eff _ _⟩
      | angle ha => exact ⟨_, ⟨_, .angle ha, rfl⟩, eff _ _⟩
    · exact ⟨_, ⟨_, .bare h, rfl⟩, eff _ _⟩
  · rintro ⟨_, ⟨a, h, rfl⟩, rfl⟩
    cases h with
    | named hn ha => exact ⟨_, .inl ⟨_, .named hn ha, rfl⟩, (eff _ _).symm⟩
    | angle ha => exact ⟨_, .inl ⟨_, .angle ha, rfl⟩, (eff _ _).symm⟩
    | bare h => exact ⟨_, .inr ⟨_, h, rfl⟩, (eff _ _).symm⟩

/-! ## Comma separated lists -/

/-- Effects that compose like concatenation. -/
structure Acts (h : List Addr → Node → Node) : Prop where
  nil : h [] = id
  add : ∀ as bs p, h bs (h as p) = h (as ++ bs) p

theorem acts_addBoxes : Acts addBoxes where
  nil := by funext p; cases p <;> simp [addBoxes]
  add as bs p := by cases p <;> simp [addBoxes]

theorem commas_iff {t} : Rep (fun t => ∃ x y, OptCfws x ∧ y = [','] ∧ t = x ++ y) t ↔ Commas t := by
  constructor
  · intro h
    induction h with
    | nil => exact .nil
    | cons h _ ih =>
      obtain ⟨x, _, hx, rfl, rfl⟩ := h
      simpa using Commas.cons hx ih
  · intro h
    induction h with
    | nil => exact .nil
    | @cons t r ht _ ih =>
      have := Rep.cons (S := fun t => ∃ x y, OptCfws x ∧ y = [','] ∧ t = x ++ y) ⟨t, [','], ht, rfl, rfl⟩ ih
      simpa using this

theorem means_commas : Means plainK env (.star (.opt Gr.cfws ⬝ .t .Comma)) (.quiet Commas) :=
  (means_optCfws.qseq means_comma).qstar.quiet_congr fun _ => commas_iff

theorem means_commaTail {g} {Item : List Char → List Addr → Prop} {h : List Addr → Node → Node} (ah : Acts h)
    (hg : Means plainK env g (.value Item h)) :
    Means plainK env (.star (.t .Comma ⬝ (g ‖ Gr.cfws ‖ .eps))) (.value (CommaTail Item) h) := by
  have sep := means_optCfws (env := env)
  refine ((means_comma.seq (hg.alt sep)).star).congr fun t f => ?_
  constructor
  · intro hs
    induction hs with
    | nil => exact ⟨[], .nil, ah.nil.symm⟩
    | cons hi _ ih =>
      obtain ⟨bs, hr, rfl⟩ := ih
      obtain ⟨_, _, u, _, ⟨rfl, rfl⟩, hi | ⟨hu, rfl⟩, rfl, rfl⟩ := hi
      · obtain ⟨as, hi, rfl⟩ := hi
        exact ⟨_, by simpa using CommaTail.item hi hr, by funext p; exact ah.add _ _ _⟩
      · exact ⟨_, by simpa using CommaTail.empty hu hr, rfl⟩
  · rintro ⟨bs, ht, rfl⟩
    induction ht with
    | nil => rw [ah.nil]; exact .nil
    | @item t as r bs hi _ ih =>
      have := Lang.star.cons (A := .seq (.quiet fun t => t = [',']) (.alt (.value Item h) (.quiet OptCfws)))
        ⟨[','], id, t, h as, ⟨rfl, rfl⟩, .inl ⟨as, hi, rfl⟩, rfl, rfl⟩ ih
      rw [show (fun p => h bs ((fun p => h as (id p)) p)) = h (as ++ bs) by funext p; exact ah.add _ _ _] at this
      simpa using this
    | @empty t r bs ht _ ih =>
      have := Lang.star.cons (A := .seq (.quiet fun t => t = [',']) (.alt (.value Item h) (.quiet OptCfws)))
        ⟨[','], id, t, id, ⟨rfl, rfl⟩, .inr ⟨ht, rfl⟩, rfl, rfl⟩ ih
      simpa using this

theorem strictTail {Item : List Char → List Addr → Prop} {h : List Addr → Node → Node} (ah : Acts h) {t f}
    (hs : Lang.star (.seq (.quiet fun t => t = [',']) (.value Item h)) t f) : ∃ bs, CommaTail Item t bs ∧ f = h bs := by
  induction hs with
  | nil => exact ⟨[], .nil, ah.nil.symm⟩
  | cons hi _ ih =>
    obtain ⟨bs, hr, rfl⟩ := ih
    obtain ⟨_, _, u, _, ⟨rfl, rfl⟩, ⟨as, hi, rfl⟩, rfl, rfl⟩ := hi
    exact ⟨_, by simpa using CommaTail.item hi hr, by funext p; exact ah.add _ _ _⟩

/-- Appending to a mailbox list. -/
def addMbl (as : List Addr) : Node → Node
  | .mailboxList xs => .mailboxList (xs ++ as)
  | p => p

theorem means_obsMboxList : Means Q env Gr.obsMboxList (.value (MailboxList env) addMbl) := by
  have eff : ∀ as, deliver (.obsMboxList as) = addMbl as := by intro v; funext p; cases p <;> rfl
  have body := means_commas.seq (means_mailbox.seq (means_commaTail acts_addBoxes (means_mailbox (env := env))))
  refine (Means.push₀ (Q := Q) (Q' := plainK) (r := .obsMboxList) (mk := .obsMboxList []) rfl rfl (plainK_of rfl) body
    (fun _ _ => rfl)).congr fun t f => ?_
  constructor
  · rintro ⟨_, ⟨h, _, _, _, ⟨hh, rfl⟩, ⟨m, _, r, _, ⟨_, ⟨a, hm, rfl⟩, rfl⟩, ⟨bs, hr, rfl⟩, rfl, rfl⟩, rfl, rfl⟩, rfl⟩
    exact ⟨a :: bs, ⟨h, m, a, r, bs, hh, hm, hr, rfl, rfl⟩, eff _⟩
  · rintro ⟨_, ⟨h, m, a, r, bs, hh, hm, hr, rfl, rfl⟩, rfl⟩
    exact ⟨_, ⟨h, _, _, _, ⟨hh, rfl⟩, ⟨m, _, r, _, ⟨_, ⟨a, hm, rfl⟩, rfl⟩, ⟨bs, hr, rfl⟩, rfl, rfl⟩, rfl, rfl⟩, (eff _).symm⟩

/-- Appending to a group list. -/
def addGl (as : List Addr) : Node → Node
  | .groupList xs => .groupList (xs ++ as)
  | p => p

theorem means_mailboxList : Means Q env Gr.mailboxList (.value (MailboxList env) addGl) := by
  have eff : ∀ as, deliver (.mailboxList as) = addGl as := by intro v; funext p; cases p <;> rfl
  have body := ((means_mailbox (Q := anyK) (env := env)).seq (means_comma.seq means_mailbox).star).alt means_obsMboxList
  refine (Means.push₀ (Q := Q) (Q' := anyK) (r := .mailboxList) (mk := .mailboxList []) rfl rfl trivial body
    (fun _ _ => rfl)).congr fun t f => ?_
  constructor
  · rintro ⟨_, ⟨m, _, r, _, ⟨_, ⟨a, hm, rfl⟩, rfl⟩, hr, rfl, rfl⟩ | ⟨as, h, rfl⟩, rfl⟩
    · obtain ⟨bs, hr', rfl⟩ := strictTail acts_addBoxes hr
      exact ⟨a :: bs, ⟨[], m, a, r, bs, .nil, hm, hr', rfl, rfl⟩, eff _⟩
    · exact ⟨as, h, eff _⟩
  · rintro ⟨as, h, rfl⟩
    exact ⟨_, .inr ⟨as, h, rfl⟩, (eff _).symm⟩

/-! ## Groups -/

/-- Setting the addresses of a group. -/
def addGroup (as : List Addr) : Node → Node
  | .group xs => .group (xs ++ as)
  | p => p

/-- Nonempty or empty group content. -/
def GroupContent (env : Env) (t : List Char) (as : List Addr) : Prop :=
  MailboxList env t as ∨ Cfws t ∧ as = [] ∨ (∃ x y, (∃ a r, (∃ u v, OptCfws u ∧ v = [','] ∧ a = u ++ v) ∧ Commas r ∧ x = a ++ r) ∧
    OptCfws y ∧ t = x ++ y) ∧ as = []

theorem means_groupList : Means Q env Gr.groupList (.value (GroupContent env) addGroup) := by
  have eff : ∀ as, deliver (.groupList as) = addGroup as := by intro v; funext p; cases p <;> rfl
  have obs : Means plainK env Gr.obsGroupList _ :=
    (((means_optCfws.qseq means_comma).qseq means_commas).qseq means_optCfws).silent rfl
  have body := (means_mailboxList (Q := plainK) (env := env)).alt (means_cfws.alt obs)
  refine (Means.push₀ (Q := Q) (Q' := plainK) (r := .groupList) (mk := .groupList []) rfl rfl (plainK_of rfl) body
    (fun _ _ => rfl)).congr fun t f => ?_
  constructor
  · rintro ⟨_, ⟨as, h, rfl⟩ | ⟨h, rfl⟩ | ⟨h, rfl⟩, rfl⟩
    · exact ⟨as, .inl h, eff _⟩
    · exact ⟨[], .inr (.inl ⟨h, rfl⟩), eff _⟩
    · exact ⟨[], .inr (.inr ⟨h, rfl⟩), eff _⟩
  · rintro ⟨as, h | ⟨h, rfl⟩ | ⟨h, rfl⟩, rfl⟩
    · exact ⟨_, .inl ⟨as, h, rfl⟩, (eff _).symm⟩
    · exact ⟨_, .inr (.inl ⟨h, rfl⟩), (eff _).symm⟩
    · exact ⟨_, .inr (.inr ⟨h, rfl⟩), (eff _).symm⟩

theorem addGroup_nil : addGroup [] = id := by funext p; cases p <;> simp [addGroup]

theorem means_groupBody : Means Q env (.opt Gr.groupList) (.value (GroupBody env) addGroup) :=
  means_groupList.opt.congr fun t f => by
    constructor
    · rintro (⟨as, h | ⟨h, rfl⟩ | ⟨⟨_, y, ⟨_, r, ⟨u, _, hu, rfl, rfl⟩, hr, rfl⟩, hy, rfl⟩, rfl⟩, rfl⟩ | ⟨rfl, rfl⟩)
      · exact ⟨as, .list h, rfl⟩
      · exact ⟨[], by simpa using GroupBody.empty .nil h.1, rfl⟩
      · exact ⟨[], by simpa using GroupBody.empty (.cons hu hr) hy, rfl⟩
      · exact ⟨[], by simpa using GroupBody.empty .nil OptCfws.nil, addGroup_nil.symm⟩
    · rintro ⟨as, h, rfl⟩
      cases h with
      | list h => exact .inl ⟨as, .inl h, rfl⟩
      | @empty h t hh ht =>
        cases hh with
        | nil =>
          rcases optCfws_iff.mp ht with rfl | ht
          · exact .inr ⟨rfl, addGroup_nil⟩
          · exact .inl ⟨_, .inr (.inl ⟨ht, rfl⟩), rfl⟩
        | @cons u r hu hr =>
          exact .inl ⟨[], .inr (.inr ⟨⟨_, t, ⟨_, r, ⟨u, _, hu, rfl, rfl⟩, hr, by simp⟩, ht, rfl⟩, rfl⟩), rfl⟩

/-- Appending to an address. -/
def addAddress (as : List Addr) : Node → Node
  | .address xs => .address (xs ++ as)
  | p => p

theorem means_group : Means Q env Gr.group (.value (Group env) addAddress) := by
  have eff : ∀ as, deliver (.group as) = addAddress as := by intro v; funext p; cases p <;> rfl
  have pl : ∀ r, r = Rule.group → plainK r := by rintro _ rfl; exact plainK_of rfl
  have name : Means (· = .group) env Gr.displayName (.quiet fun t => ∃ v, DisplayName env t v) := by
    refine (means_displayName (Q := anyK)).ignore (fun _ _ => trivial) fun v p hp => ?_
    cases p with
    | group xs => rfl
    | _ => simp [Node.kind] at hp
  have ocf : Means (· = .group) env (.opt Gr.cfws) (.quiet OptCfws) := means_optCfws.mono pl
  have body := means_dquote.qopt.seq (name.seq (means_colon.seq (means_groupBody.seq
    (means_dquote.qopt.seq (means_semicolon.qopt.seq ocf)))))
  refine (Means.push₀ (Q := Q) (Q' := (· = .group)) (r := .group) (mk := .group []) rfl rfl rfl body
    (fun _ _ => rfl)).congr fun t f => ?_
  constructor
  · rintro ⟨_, ⟨q, _, _, _, ⟨hq, rfl⟩, ⟨n, _, _, _, ⟨⟨nv, hn⟩, rfl⟩, ⟨_, _, _, _, ⟨rfl, rfl⟩, ⟨b, _, _, _, ⟨as, hb, rfl⟩,
      ⟨q', _, _, _, ⟨hq', rfl⟩, ⟨e, _, c, _, ⟨he, rfl⟩, ⟨hc, rfl⟩, rfl, rfl⟩, rfl, rfl⟩, rfl, rfl⟩, rfl, rfl⟩, rfl, rfl⟩,
      rfl, rfl⟩, rfl⟩
    exact ⟨as, ⟨q, n, nv, b, q', e, c, hq, hn, hb, hq', he, hc, by simp⟩, eff _⟩
  · rintro ⟨as, ⟨q, n, nv, b, q', e, c, hq, hn, hb, hq', he, hc, rfl⟩, rfl⟩
    exact ⟨_, ⟨q, _, _, _, ⟨hq, rfl⟩, ⟨n, _, _, _, ⟨⟨nv, hn⟩, rfl⟩, ⟨_, _, _, _, ⟨rfl, rfl⟩, ⟨b, _, _, _, ⟨as, hb, rfl⟩,
      ⟨q', _, _, _, ⟨hq', rfl⟩, ⟨e, _, c, _, ⟨he, rfl⟩, ⟨hc, rfl⟩, rfl, rfl⟩, rfl, rfl⟩, rfl, rfl⟩, rfl, rfl⟩, rfl, rfl⟩,
      by simp, rfl⟩, (eff _).symm⟩

/-! ## Addresses and address lists -/

/-- Appending to an address list. -/
def addList (as : List Addr) : Node → Node
  | .addressList xs => .addressList (xs ++ as)
  | p => p

theorem acts_addList : Acts addList where
  nil := by funext p; cases p <;> simp [addList]
  add as bs p := by cases p <;> simp [addList]

theorem means_address : Means Q env Gr.address (.value (Address env) addList) := by
  have eff : ∀ as, deliver (.address as) = addList as := by intro v; funext p; cases p <;> rfl
  have body := (means_mailbox (Q := anyK) (env := env)).alt means_group
  refine (Means.push₀ (Q := Q) (Q' := anyK) (r := .address) (mk := .address []) rfl rfl trivial body
    (fun _ _ => rfl)).congr fun t f => ?_
  constructor
  · rintro ⟨_, ⟨_, ⟨a, h, rfl⟩, rfl⟩ | ⟨as, h, rfl⟩, rfl⟩
    · exact ⟨_, .mailbox h, eff _⟩
    · exact ⟨_, .group h, eff _⟩
  · rintro ⟨_, h, rfl⟩
    cases h with
    | mailbox h => exact ⟨_, .inl ⟨_, ⟨_, h, rfl⟩, rfl⟩, (eff _).symm⟩
    | group h => exact ⟨_, .inr ⟨_, h, rfl⟩, (eff _).symm⟩

theorem means_sepTail : Means Q env (.star ((.t .Comma ‖ .t .Semicolon) ⬝ Gr.address)) (.value (SepTail env) addList) :=
  ((means_comma.qalt means_semicolon).seq (means_address (env := env))).star.congr fun t f => by
    constructor
    · intro hs
      induction hs with
      | nil => exact ⟨[], .nil, acts_addList.nil.symm⟩
      | cons hi _ ih =>
        obtain ⟨bs, hr, rfl⟩ := ih
        obtain ⟨s, _, u, _, ⟨hsep, rfl⟩, ⟨as, hi, rfl⟩, rfl, rfl⟩ := hi
        refine ⟨as ++ bs, ?_, by funext p; exact acts_addList.add _ _ _⟩
        rcases hsep with rfl | rfl
        · simpa using SepTail.item (.inl rfl) hi hr
        · simpa using SepTail.item (.inr rfl) hi hr
    · rintro ⟨bs, ht, rfl⟩
      induction ht with
      | nil => rw [acts_addList.nil]; exact .nil
      | @item sep t as r bs hsep hi _ ih =>
        have := Lang.star.cons (A := .seq (.quiet fun t => t = [','] ∨ t = [';']) (.value (Address env) addList))
          ⟨[sep], id, t, addList as, ⟨by simpa using hsep, rfl⟩, ⟨as, hi, rfl⟩, rfl, rfl⟩ ih
        rw [show (fun p => addList bs ((fun p => addList as (id p)) p)) = addList (as ++ bs) by
          funext p; exact acts_addList.add _ _ _] at this
        simpa using this

/-- The strict form of an address list. -/
def StrictList (env : Env) (t : List Char) (as : List Addr) : Prop :=
  ∃ u cs r bs, Address env u cs ∧ SepTail env r bs ∧ t = u ++ r ∧ as = cs ++ bs

/-- The obsolete form of an address list. -/
def ObsList (env : Env) (t : List Char) (as : List Addr) : Prop :=
  ∃ h u cs r bs, Commas h ∧ Address env u cs ∧ CommaTail (Address env) r bs ∧ t = h ++ (u ++ r) ∧ as = cs ++ bs

theorem means_strictList : Means Q env (Gr.address ⬝ .star ((.t .Comma ‖ .t .Semicolon) ⬝ Gr.address))
    (.value (StrictList env) addList) :=
  (means_address.seq means_sepTail).congr fun t f => by
    constructor
    · rintro ⟨u, _, r, _, ⟨cs, hu, rfl⟩, ⟨bs, hr, rfl⟩, rfl, rfl⟩
      exact ⟨_, ⟨u, cs, r, bs, hu, hr, rfl, rfl⟩, by funext p; exact acts_addList.add _ _ _⟩
    · rintro ⟨_, ⟨u, cs, r, bs, hu, hr, rfl, rfl⟩, rfl⟩
      exact ⟨u, _, r, _, ⟨cs, hu, rfl⟩, ⟨bs, hr, rfl⟩, rfl, by funext p; exact (acts_addList.add _ _ _).symm⟩

theorem means_obsAddrList : Means plainK env Gr.obsAddrList (.value (ObsList env) addList) :=
  ((means_commas.seq (means_address.seq (means_commaTail acts_addList (means_address (env := env))))).silent
    (r := .obsAddrList) rfl).congr fun t f => by
    constructor
    · rintro ⟨h, _, _, _, ⟨hh, rfl⟩, ⟨u, _, r, _, ⟨cs, hu, rfl⟩, ⟨bs, hr, rfl⟩, rfl, rfl⟩, rfl, rfl⟩
      exact ⟨_, ⟨h, u, cs, r, bs, hh, hu, hr, rfl, rfl⟩, by funext p; exact acts_addList.add _ _ _⟩
    · rintro ⟨_, ⟨h, u, cs, r, bs, hh, hu, hr, rfl, rfl⟩, rfl⟩
      exact ⟨h, _, _, _, ⟨hh, rfl⟩, ⟨u, _, r, _, ⟨cs, hu, rfl⟩, ⟨bs, hr, rfl⟩, rfl, rfl⟩, rfl,
        by funext p; exact (acts_addList.add _ _ _).symm⟩

theorem addressList_iff {t l} : AddressList env t l ↔ StrictList env t l ∨ ObsList env t l := by
  constructor
  · intro h
    cases h with
    | strict h1 h2 => exact .inl ⟨_, _, _, _, h1, h2, rfl, rfl⟩
    | obs h1 h2 h3 => exact .inr ⟨_, _, _, _, _, h1, h2, h3, rfl, rfl⟩
  · rintro (⟨_, _, _, _, h1, h2, rfl, rfl⟩ | ⟨_, _, _, _, _, h1, h2, h3, rfl, rfl⟩)
    · exact .strict h1 h2
    · exact .obs h1 h2 h3

theorem walk_root {ts l} (h : Eff plainK env ts (addList l)) :
    walkList env [.node .addressList (ts ++ [.eof])] Walker.init = .ok ⟨[], some (.addrs l), none⟩ := by
  have h2 := (h.append .eof).run (.addressList []) [] none none (plainK_of rfl)
  rw [walkList_single]
  simp only [walk, enterRule, Walker.init, Walker.enter, h2]
  simp [exitRule, exitAddressList, addList]

theorem seq_assoc_derives {a b c s ts s'} : Derives (a ⬝ b ⬝ c) s ts s' ↔ Derives ((a ⬝ b) ⬝ c) s ts s' := by
  constructor
  · intro h
    cases h with
    | seq h1 h => cases h with
      | seq h2 h3 => rw [← List.append_assoc]; exact .seq (.seq h1 h2) h3
  · intro h
    cases h with
    | seq h h3 => cases h with
      | seq h1 h2 => rw [List.append_assoc]; exact .seq h1 (.seq h2 h3)

/-- Every complete derivation of an address list walks to a value denoted by the text. -/
theorem addressList_sound {s ts s'} (h : Derives Gr.addressList s ts s') :
    s' = [] ∧ ∃ l, AddressList env s l ∧ walkList env ts Walker.init = .ok ⟨[], some (.addrs l), none⟩ := by
  unfold Gr.addressList at h
  cases h with
  | rule h => cases h with
    | altL h =>
      cases seq_assoc_derives.mp h with
      | seq h1 h2 =>
        cases h2
        obtain ⟨t, _, rfl, ⟨l, hl, rfl⟩, _, he⟩ := (means_strictList (env := env)).sound h1
        exact ⟨rfl, l, addressList_iff.mpr (.inl (by simpa using hl)), walk_root he⟩
    | altR h => cases h with
      | seq h1 h2 =>
        cases h2
        obtain ⟨t, _, rfl, ⟨l, hl, rfl⟩, _, he⟩ := (means_obsAddrList (env := env)).sound h1
        exact ⟨rfl, l, addressList_iff.mpr (.inr (by simpa using hl)), walk_root he⟩

/-- Every text of the language is derived, with a tree that walks to the value. -/
theorem addressList_complete {t l} (h : AddressList env t l) :
    ∃ ts, Derives Gr.addressList t ts [] ∧ walkList env ts Walker.init = .ok ⟨[], some (.addrs l), none⟩ := by
  rcases addressList_iff.mp h with h | h
  · obtain ⟨ts, hd, _, he⟩ := (means_strictList (env := env) (Q := plainK)).complete ⟨l, h, rfl⟩ []
    refine ⟨[.node .addressList (ts ++ [.eof])], ?_, walk_root he⟩
    simp only [List.append_nil] at hd
    exact .rule (.altL (seq_assoc_derives.mpr (.seq hd .eof)))
  · obtain ⟨ts, hd, _, he⟩ := (means_obsAddrList (env := env)).complete ⟨l, h, rfl⟩ []
    refine ⟨[.node .addressList (ts ++ [.eof])], ?_, walk_root he⟩
    simp only [List.append_nil] at hd
    exact .rule (.altR (.seq hd .eof))

end Rfc5322
