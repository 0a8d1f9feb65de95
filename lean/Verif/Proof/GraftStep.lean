import Verif.Proof.Graft

/-!
# Steps of the proof that parse functions do the same with two bodies of a block
-/

set_option linter.unusedSimpArgs false
set_option linter.unusedTactic false
set_option linter.unusedSectionVars false
set_option linter.unusedVariables false

namespace Verif
open Prog Graft

section
variable [Graft] {β : Type} [LkG β]

theorem graft_bare_kind {t u : Token} (h : t.bare = u.bare) : t.kind = u.kind := by
  have : ∀ t : Token, t.bare.kind = t.kind := by intro t; cases t <;> rfl
  rw [← this, h, this]
theorem graft_bare_match {t u : Token} (h : t.bare = u.bare) : t.isMatchName = u.isMatchName := by
  have : ∀ t : Token, t.bare.isMatchName = t.isMatchName := by intro t; cases t <;> rfl
  rw [← this, h, this]

theorem g_bind_assoc {α γ : Type} (p : Prog α) (f : α → Prog γ) (g : γ → Prog β) : ((p >>= f) >>= g) = (p >>= fun x => f x >>= g) := by
  show (p.bind f).bind g = p.bind fun x => (f x).bind g
  induction p with
  | ret | fail | panic => rfl
  | getPos k ih | getExc k ih | call _ k ih => simp only [Prog.bind, ih]
  | adv k ih | setExc _ k ih => simp only [Prog.bind, ih]
  | sym k e ih1 ih2 => simp only [Prog.bind, ih1, ih2]

theorem g_assoc {w o} {α γ : Type} {p q : Prog α} {f f' : α → Prog γ} {g g' : γ → Prog β}
    (h : RelG w o (p >>= fun x => f x >>= g) (q >>= fun x => f' x >>= g')) : RelG w o ((p >>= f) >>= g) ((q >>= f') >>= g') := by
  rw [g_bind_assoc, g_bind_assoc]; exact h
theorem g_pureBind {w o} {α : Type} {a b : α} {f g : α → Prog β} (h : RelG w o (f a) (g b)) : RelG w o (pure a >>= f) (pure b >>= g) := h
theorem g_setExcBind {w o x} {α : Type} {p q : Prog α} {f g : α → Prog β} (h : RelG w o (p >>= f) (q >>= g)) :
    RelG w o (Prog.setExc x p >>= f) (Prog.setExc x q >>= g) := .setExc h
theorem g_getExcBind {w o} {α : Type} {p q : ExcStatus → Prog α} {f g : α → Prog β} (h : ∀ x, RelG w o (p x >>= f) (q x >>= g)) :
    RelG w o (Prog.getExc p >>= f) (Prog.getExc q >>= g) := .getExc h
theorem g_pure {w o} {a b : β} (h : LkG.rel a b) : RelG w o (pure a) (pure b) := .ret h
theorem g_failHere' {w o s s'} : RelG (α := β) w o (failHere s) (failHere s') := .getPos fun _ _ => .fail
theorem g_failBind {w o p s} {α : Type} {f : α → Prog β} {q} : RelG w o (Prog.fail p s >>= f) q := .fail
theorem g_here {w o} {f g : Nat → Prog β} (h : ∀ p q, RelG w o (f p) (g q)) : RelG w o (here >>= f) (here >>= g) := .getPos h
theorem g_next {w} {t : Token} {f g : Unit → Prog β} (hk : t.kind ≠ .Indent) (h : RelG false none (f ()) (g ())) :
    RelG w (some t) (next >>= f) (next >>= g) := .adv hk h
theorem g_nextN {w} {t : Token} {f g : Unit → Prog β} (hk : t.kind ≠ .Indent) (hk' : t.kind ≠ .Newline) (h : RelG true none (f ()) (g ())) :
    RelG w (some t) (next >>= f) (next >>= g) := .advN hk hk' h
theorem g_nextT {t : Token} {f g : Unit → Prog β} (h : RelG false none (f ()) (g ())) :
    RelG true (some t) (next >>= f) (next >>= g) := .advT h
theorem g_symAgain {w t s s'} {f g : Token → Prog β} (h : ∀ u, t.bare = u.bare → RelG w (some t) (f t) (g u)) :
    RelG w (some t) (symHere s >>= f) (symHere s' >>= g) := .symAgain h
theorem g_parseEnds {w o x y} {f g : Tree → Prog β} (hl : FnLooks x = true) (he : FnEnds x = true) (hx : Fn.LikeG x y)
    (h : ∀ t u, GT t u → RelG true none (f t) (g u)) : RelG w o (parse x >>= f) (parse y >>= g) := .callEnds hl he hx h
theorem g_symAt {w o p q s s'} {f g : Token → Prog β}
    (h : ∀ t u, t.bare = u.bare → t.kind = u.kind → t.isMatchName = u.isMatchName → RelG w (some t) (f t) (g u)) :
    RelG w o (symAt p s >>= f) (symAt q s' >>= g) :=
  .sym (fun t u x => h t u x (graft_bare_kind x) (graft_bare_match x)) .fail
theorem g_symHere {w o s s'} {f g : Token → Prog β}
    (h : ∀ t u, t.bare = u.bare → t.kind = u.kind → t.isMatchName = u.isMatchName → RelG w (some t) (f t) (g u)) :
    RelG w o (symHere s >>= f) (symHere s' >>= g) :=
  .sym (fun t u x => h t u x (graft_bare_kind x) (graft_bare_match x)) (.getPos fun _ _ => .fail)
theorem g_sym? {w o} {f g : Option Token → Prog β}
    (h : ∀ t u, t.bare = u.bare → t.kind = u.kind → t.isMatchName = u.isMatchName → RelG w (some t) (f (some t)) (g (some u)))
    (hn : RelG w none (f none) (g none)) : RelG w o (sym? >>= f) (sym? >>= g) :=
  .sym (fun t u x => h t u x (graft_bare_kind x) (graft_bare_match x)) hn
theorem g_parse {w o x y} {f g : Tree → Prog β} (hl : FnLooks x = true) (hx : Fn.LikeG x y) (h : ∀ t u, GT t u → RelG false none (f t) (g u)) :
    RelG w o (parse x >>= f) (parse y >>= g) := .call hl hx h
theorem g_parseAt {w t x y} {f g : Tree → Prog β} (hi : x.input = false) (hl : t.kind ≠ .Indent) (hx : Fn.LikeG x y)
    (h : ∀ t u, GT t u → RelG false none (f t) (g u)) : RelG w (some t) (parse x >>= f) (parse y >>= g) := .callAt hi hl hx h
theorem g_mkBind {w o tag s s' l l'} {f g : Tree → Prog β} (hl : ∀ p q, GT (.node tag s p l) (.node tag s' q l'))
    (h : ∀ t u, GT t u → RelG w o (f t) (g u)) : RelG w o (mk tag s l >>= f) (mk tag s' l' >>= g) := .getPos fun p q => h _ _ (hl p q)
theorem g_ite {w o} {b b' : Prop} [Decidable b] [Decidable b'] {p q p' q' : Prog β} (hb : b ↔ b') (h1 : b → RelG w o p p')
    (h2 : ¬ b → RelG w o q q') : RelG w o (if b then p else q) (if b' then p' else q') := by
  by_cases h : b
  · rw [if_pos h, if_pos (hb.mp h)]; exact h1 h
  · rw [if_neg h, if_neg (fun x => h (hb.mpr x))]; exact h2 h
theorem g_iteBind {w o} {α : Type} {b b' : Prop} [Decidable b] [Decidable b'] {p q p' q' : Prog α} {f g : α → Prog β} (hb : b ↔ b')
    (h1 : b → RelG w o (p >>= f) (p' >>= g)) (h2 : ¬ b → RelG w o (q >>= f) (q' >>= g)) :
    RelG w o ((if b then p else q) >>= f) ((if b' then p' else q') >>= g) := by
  by_cases h : b
  · rw [if_pos h, if_pos (hb.mp h)]; exact h1 h
  · rw [if_neg h, if_neg (fun x => h (hb.mpr x))]; exact h2 h
end

section
variable [Graft]
theorem g_parseT {w o x y} (hl : FnLooks x = true) (hx : Fn.LikeG x y) : RelG w o (parse x) (parse y) := .call hl hx (fun _ _ h => .ret h)
theorem g_parseAtT {w t x y} (hi : x.input = false) (hl : t.kind ≠ .Indent) (hx : Fn.LikeG x y) : RelG w (some t) (parse x) (parse y) :=
  .callAt hi hl hx (fun _ _ h => .ret h)
theorem g_mk {w o tag s s' l l'} (hl : ∀ p q, GT (.node tag s p l) (.node tag s' q l')) : RelG w o (mk tag s l) (mk tag s' l') :=
  .getPos fun p q => .ret (hl p q)
theorem graft_tag_eq {t u : Tree} (h : GT t u) : t.tag? = u.tag? := by
  rw [← erase_tag Token.bare u, ← h]
  cases t <;> rfl
theorem graft_tag {t u : Tree} (h : GT t u) {T : Tag} : t.tag? = some T ↔ u.tag? = some T := by rw [graft_tag_eq h]
theorem graft_none {t u : Tree} (h : GT t u) : t = .none ↔ u = .none := by
  have : t = .none ↔ t.graft nl xs = .none := by cases t <;> simp [Tree.graft]
  rw [this, h]
  cases u <;> simp [Tree.erase]
theorem graft_toks (a : List Token) (x r) : (Tree.toks a).graft x r = Tree.toks (a.map Token.bare) := by
  simp [Tree.toks, Tree.graft, graftList_toks]
theorem graftList_reverse (a : List Tree) (x r) : graftList a.reverse x r = (graftList a x r).reverse := by
  simp [graftList_eq_map]
theorem GL.length {a b : List Tree} (h : GL a b) : a.length = b.length := by
  have := congrArg List.length h; simpa [graftList_eq_map, eraseList_eq_map] using this
theorem isBlock_tag {n tag l} (h1 : tag ≠ .SuiteStmt) (h2 : tag ≠ .FuncBodySuite) : isBlock n tag l = false := by
  cases tag <;> first | rfl | exact absurd rfl h1 | exact absurd rfl h2
theorem isBlock_tok {n tag t l} (h : t ≠ n) : isBlock n tag (.tok t :: l) = false := by
  simp [isBlock, h]
theorem graft_node {tag s e l} (h : isBlock nl tag l = false) : (Tree.node tag s e l).graft nl xs = .node tag 0 0 (graftList l nl xs) := by
  simp [Tree.graft, h]
/-- A node other than that of a block. -/
theorem graft_plain {tag s p l s' q l'} (h1 : (tag == .SuiteStmt || tag == .FuncBodySuite) = false) (h : GL l l') :
    GT (.node tag s p l) (.node tag s' q l') := by
  show Tree.graft _ _ _ = _
  rw [graft_node (by simp [isBlock, h1]), h]
  rfl
theorem graft_block {tag t s p l s' q l'} (h1 : t ≠ nl) (h : GL (.tok t :: l) l') :
    GT (.node tag s p (.tok t :: l)) (.node tag s' q l') := by
  show Tree.graft _ _ _ = _
  rw [graft_node (isBlock_tok h1), h]
  rfl
end

macro "g_leaf" : tactic => `(tactic| first
  | trivial
  | rfl
  | assumption
  | (refine graft_plain rfl ?_)
  | (refine graft_plain (by assumption) ?_)
  | (refine graft_block (by assumption) ?_)
  | (simp only [GT, GL, Tree.graft, graftList, Tree.erase, eraseList, eraseList_append, erase_toks, List.map_append, List.map_reverse, eraseList_reverse,
      graftList_append, graft_toks, graftList_reverse,
      List.map_cons, List.map_nil, *]; done)
  | (refine graft_tag ?_ <;> assumption))

/-- The current symbol is no indent. -/
macro "g_kind" : tactic => `(tactic| first
  | assumption
  | (intro hI; simp only [hI, reduceCtorEq, or_self, or_false, false_or, and_false, false_and, not_true, not_false_eq_true] at *; done)
  | (intro hI; simp_all; done))

macro "g_step'" : tactic => `(tactic| first
  | with_reducible exact .fail
  | with_reducible exact .panic
  | with_reducible exact g_failHere'
  | with_reducible exact g_failBind
  | ((with_reducible refine g_here ?_); intro _ _)
  | ((with_reducible refine g_next ?_ ?_); focus g_kind)
  | ((with_reducible refine g_symAt ?_); intro _ _ _ _ _)
  | ((with_reducible refine g_symHere ?_); intro _ _ _ _ _)
  | ((with_reducible refine g_sym? ?_ ?_); intro _ _ _ _ _)
  | ((with_reducible refine g_parse ?_ ?_ ?_); rfl; rotate_left; (intro _ _ _))
  | ((with_reducible refine g_parseAt ?_ ?_ ?_ ?_); rfl; focus g_kind; rotate_left; (intro _ _ _))
  | ((with_reducible refine g_mkBind ?_ ?_); (intro _ _); rotate_left; intro _ _ _)
  | ((with_reducible refine g_parseT ?_ ?_); rfl)
  | ((with_reducible refine g_parseAtT ?_ ?_ ?_); rfl; focus g_kind)
  | ((with_reducible refine g_mk ?_); intro _ _)
  | ((with_reducible refine g_ite ?_ ?_ ?_); rotate_left; intro _; rotate_left; intro _; rotate_left)
  | ((with_reducible refine g_iteBind ?_ ?_ ?_); rotate_left; intro _; rotate_left; intro _; rotate_left)
  | (with_reducible refine g_assoc ?_)
  | (with_reducible refine g_pureBind ?_)
  | (with_reducible refine g_pure ?_)
  | (with_reducible refine g_setExcBind ?_)
  | ((with_reducible refine g_getExcBind ?_); intro x; cases x)
  | ((with_reducible refine RelG.getExc ?_); intro x; cases x)
  | (with_reducible refine RelG.setExc ?_)
  | (show RelG _ _ _ _; dsimp only)
  | g_leaf
  | (with_reducible constructor))

def plainTag (tag : Tag) : Prop := (tag == .SuiteStmt || tag == .FuncBodySuite) = false
theorem compOp_plain {k : Kind} {tag} (h : compOp k = some tag) : (tag == .SuiteStmt || tag == .FuncBodySuite) = false ∧ k ≠ .Indent := by
  revert h; cases k <;> simp [compOp] <;> (try (rintro rfl; simp))
theorem augOp_plain {k : Kind} {tag} (h : augOp k = some tag) : (tag == .SuiteStmt || tag == .FuncBodySuite) = false ∧ k ≠ .Indent := by
  revert h; cases k <;> simp [augOp] <;> (try (rintro rfl; simp))

theorem g_left [Graft] {w o} (op : Kind → Option Tag) (operand : Fn) (self : Nat → Tree → Fn) (msg : String) (s s' : Nat) (left left' : Tree)
    (hop : ∀ k tag, op k = some tag → (tag == .SuiteStmt || tag == .FuncBodySuite) = false ∧ k ≠ .Indent) (he : FnLooks operand = true)
    (ho : Fn.LikeG operand operand) (hs : ∀ s s' l l', GT l l' → FnLooks (self s l) = true ∧ Fn.LikeG (self s l) (self s' l'))
    (hl : GT left left') : RelG w o (leftLoopBody op operand self msg s left) (leftLoopBody op operand self msg s' left') := by
  unfold leftLoopBody
  refine g_symAt ?_
  intro t u h hk hm
  rw [hk]
  cases hop' : op u.kind with
  | none => exact g_pure hl
  | some tag =>
    obtain ⟨htag, hi⟩ := hop _ _ hop'
    refine g_next (hk ▸ hi) (g_parse he ho fun a b hab => g_mkBind (fun p q => graft_plain htag ?_) fun x y hxy => g_parseT (hs _ s' _ _ hxy).1 (hs _ _ _ _ hxy).2)
    simp only [GT, GL, Tree.graft, graftList, Tree.erase, eraseList] at *
    rw [hl, hab, h]

theorem g_fin [Graft] {w o} (s s' : Nat) (await await' right right' : Tree) (lst lst' : List Tree)
    (h1 : GT await await') (h2 : GT right right') (h3 : GL lst lst') :
    RelG w o (trailerLoopBody.fin s await right lst) (trailerLoopBody.fin s' await' right' lst') := by
  have hn : ∀ p q, GT (.node .AtomExpr s p [await, right, .seq lst]) (.node .AtomExpr s' q [await', right', .seq lst']) := by
    intro p q
    refine graft_plain rfl ?_
    simp only [GT, GL, Tree.graft, graftList, Tree.erase, eraseList] at *
    simp only [*]
  have h4 := graft_none h1
  have h5 : lst = [] ↔ lst' = [] := by rw [← List.length_eq_zero_iff, ← List.length_eq_zero_iff, h3.length]
  unfold trailerLoopBody.fin
  cases await <;> cases await' <;> first | (simp only [reduceCtorEq, iff_true, true_iff, iff_false, false_iff, not_true] at h4; done) | skip
  all_goals first
    | (cases lst <;> cases lst' <;> first
        | (simp only [reduceCtorEq, iff_true, true_iff] at h5; done)
        | exact g_pure h2
        | exact g_mk hn)
    | exact g_mk hn

theorem g_listResult [Graft] {w o} (tag) (ht : (tag == .SuiteStmt || tag == .FuncBodySuite) = false) (s s' : Nat) (l l' : List Tree) (p p' : List Token)
    (h1 : GL l l') (h2 : p.map Token.bare = p'.map Token.bare) :
    RelG w o (listResult tag s l p) (listResult tag s' l' p') := by
  have hn : ∀ a b, GT (.node tag s a [.seq l, .toks p]) (.node tag s' b [.seq l', .toks p']) := by
    intro a b
    refine graft_plain ht ?_
    simp only [GT, GL, Tree.graft, graftList, Tree.erase, eraseList, erase_toks, graft_toks] at *
    simp only [*]
  have hl := h1.length
  have hp : p.length = p'.length := by simpa using congrArg List.length h2
  unfold listResult
  match l, l', p, p' with
  | [x], [y], [], [] => exact g_pure (show GT _ _ by simpa [GL, graftList, eraseList] using h1)
  | [], [], _, _ => exact g_mk hn
  | _ :: _ :: _, _ :: _ :: _, _, _ => exact g_mk hn
  | [x], [y], _ :: _, _ :: _ => exact g_mk hn

theorem g_starResult [Graft] {w o} (s s' : Nat) (l l' : List Tree) (p p' : List Token)
    (h1 : GL l l') (h2 : p.map Token.bare = p'.map Token.bare) :
    RelG w o (testlistStarExprResult s l p) (testlistStarExprResult s' l' p') := by
  have := g_listResult (w := w) (o := o) .TestListStarExpr rfl s s' l.reverse l'.reverse p.reverse p'.reverse
    (by rw [GL, eraseList_reverse, graftList_reverse, h1])
    (by rw [List.map_reverse, List.map_reverse, h2])
  have hx : ∀ s l p, testlistStarExprResult s l p = listResult .TestListStarExpr s l.reverse p.reverse := by
    intro s l p
    unfold testlistStarExprResult listResult
    generalize l.reverse = a
    generalize p.reverse = b
    match a, b with
    | [x], [] => rfl
    | [], _ => rfl
    | _ :: _ :: _, _ => rfl
    | [_], _ :: _ => rfl
  rw [hx, hx]
  exact this

macro "g_step" : tactic => `(tactic| first
  | (with_reducible refine g_fin _ _ _ _ _ _ _ _ ?_ ?_ ?_)
  | ((with_reducible refine g_listResult _ ?_ _ _ _ _ _ _ ?_ ?_); focus rfl)
  | (with_reducible refine g_starResult _ _ _ _ _ _ ?_ ?_)
  | g_step')

macro "g_auto" : tactic => `(tactic| (repeat' g_step))

end Verif
