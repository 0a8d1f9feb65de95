import Verif.Proof.Plug

/-!
# Steps of the proof that parse functions do the same with an expression in parentheses in the place of a number
-/

set_option linter.unusedSimpArgs false
set_option linter.unusedTactic false
set_option linter.unusedSectionVars false
set_option linter.unusedVariables false

namespace Verif
open Prog Plug

section
variable [Plug] {β : Type} [LkQ β]

theorem plug_bare_kind (t : Token) : t.bare.kind = t.kind := by cases t <;> rfl
theorem bare_isMatch (t : Token) : t.bare.isMatchName = t.isMatchName := by cases t <;> rfl
theorem TT.kind {t u} (h : TT t u) : t.kind = u.kind := by rw [← plug_bare_kind, h.1, plug_bare_kind]
theorem TT.isMatch {t u} (h : TT t u) : t.isMatchName = u.isMatchName := by rw [← bare_isMatch, h.1, bare_isMatch]
theorem match_kind {t : Token} (h : t.kind ≠ .AtomName) : t.isMatchName = false := by
  cases t <;> first | rfl | exact absurd rfl h
theorem num_match : num.isMatchName = false := match_kind (by rw [hn]; simp)
theorem lp_match : lp.isMatchName = false := match_kind (by rw [hl]; simp)

theorem bind_assocP {α γ : Type} (p : Prog α) (f : α → Prog γ) (g : γ → Prog β) : ((p >>= f) >>= g) = (p >>= fun x => f x >>= g) := by
  show (p.bind f).bind g = p.bind fun x => (f x).bind g
  induction p with
  | ret | fail | panic => rfl
  | getPos k ih | getExc k ih | call _ k ih => simp only [Prog.bind, ih]
  | adv k ih | setExc _ k ih => simp only [Prog.bind, ih]
  | sym k e ih1 ih2 => simp only [Prog.bind, ih1, ih2]

theorem q_assoc {m} {α γ : Type} {p q : Prog α} {f f' : α → Prog γ} {g g' : γ → Prog β}
    (h : RelQ m (p >>= fun x => f x >>= g) (q >>= fun x => f' x >>= g')) : RelQ m ((p >>= f) >>= g) ((q >>= f') >>= g') := by
  rw [bind_assocP, bind_assocP]; exact h
theorem q_pureBind {m} {α : Type} {a b : α} {f g : α → Prog β} (h : RelQ m (f a) (g b)) : RelQ m (pure a >>= f) (pure b >>= g) := h
theorem q_setExcBind {m x} {α : Type} {p q : Prog α} {f g : α → Prog β} (h : RelQ m (p >>= f) (q >>= g)) :
    RelQ m (Prog.setExc x p >>= f) (Prog.setExc x q >>= g) := .setExc h
theorem q_getExcBind {m} {α : Type} {p q : ExcStatus → Prog α} {f g : α → Prog β} (h : ∀ x, RelQ m (p x >>= f) (q x >>= g)) :
    RelQ m (Prog.getExc p >>= f) (Prog.getExc q >>= g) := .getExc h
theorem d_symAt {p s} {f : Token → Prog β} (h : DeadAt (f num)) : DeadAt (symAt p s >>= f) := .sym h
theorem d_symHere {s} {f : Token → Prog β} (h : DeadAt (f num)) : DeadAt (symHere s >>= f) := .sym h
theorem d_parse {x} {f : Tree → Prog β} (h : NumFails x = true) : DeadAt (parse x >>= f) := .call h
theorem d_pureBind {α : Type} {a : α} {f : α → Prog β} (h : DeadAt (f a)) : DeadAt (pure a >>= f) := h
theorem d_failHere {s} : DeadAt (α := β) (failHere s) := .getPos fun _ => .fail
theorem aug_num : augOp .AtomNumber = none ∧ augOp .PyLeftParen = none := ⟨rfl, rfl⟩
theorem q_pure {m} {a b : β} (h : LkQ.rel a b) : RelQ m (pure a) (pure b) := .ret h
theorem q_failHere' {m s s'} : RelQ (α := β) m (failHere s) (failHere s') := .getPos fun _ _ => .fail
theorem q_failBind {m p s} {α : Type} {f : α → Prog β} {q} : RelQ m (Prog.fail p s >>= f) q := .fail
theorem q_here {m} {f g : Nat → Prog β} (h : ∀ p q, RelQ m (f p) (g q)) : RelQ m (here >>= f) (here >>= g) := .getPos h
theorem q_next {o} {f g : Unit → Prog β} (h : RelQ (.pre none) (f ()) (g ())) (h' : RelQ .at (f ()) (g ())) :
    RelQ (.pre o) (next >>= f) (next >>= g) := .adv h h'
theorem q_nextWith {t : Token} {f g : Unit → Prog β} (hk : t.kind = .PyWith) (h : RelQ (.pre none) (f ()) (g ())) :
    RelQ (.pre (some t)) (next >>= f) (next >>= g) := .advLast (by rw [hk]; rfl) h
theorem q_nextPost {f g : Unit → Prog β} (h : RelQ .post (f ()) (g ())) : RelQ .post (next >>= f) (next >>= g) := .advPost h

theorem q_symAt {o p q s s'} {f g : Token → Prog β}
    (h : ∀ t u, t.bare = u.bare → t ≠ num → t.kind = u.kind → t.isMatchName = u.isMatchName → RelQ (.pre (some t)) (f t) (g u)) :
    RelQ (.pre o) (symAt p s >>= f) (symAt q s' >>= g) :=
  .sym (fun t u x => h t u x.1 x.2 x.kind x.isMatch) .fail
theorem q_symHere {o s s'} {f g : Token → Prog β}
    (h : ∀ t u, t.bare = u.bare → t ≠ num → t.kind = u.kind → t.isMatchName = u.isMatchName → RelQ (.pre (some t)) (f t) (g u)) :
    RelQ (.pre o) (symHere s >>= f) (symHere s' >>= g) :=
  .sym (fun t u x => h t u x.1 x.2 x.kind x.isMatch) (.getPos fun _ _ => .fail)
theorem q_sym? {o} {f g : Option Token → Prog β}
    (h : ∀ t u, t.bare = u.bare → t ≠ num → t.kind = u.kind → t.isMatchName = u.isMatchName → RelQ (.pre (some t)) (f (some t)) (g (some u)))
    (hn : RelQ (.pre none) (f none) (g none)) : RelQ (.pre o) (sym? >>= f) (sym? >>= g) :=
  .sym (fun t u x => h t u x.1 x.2 x.kind x.isMatch) hn
theorem q_symAtP {p q s s'} {f g : Token → Prog β}
    (h : ∀ t u, t.bare = u.bare → t ≠ num → t.kind = u.kind → t.isMatchName = u.isMatchName → RelQ .post (f t) (g u)) :
    RelQ .post (symAt p s >>= f) (symAt q s' >>= g) :=
  .symPost (fun t u x => h t u x.1 x.2 x.kind x.isMatch) .fail
theorem q_symHereP {s s'} {f g : Token → Prog β}
    (h : ∀ t u, t.bare = u.bare → t ≠ num → t.kind = u.kind → t.isMatchName = u.isMatchName → RelQ .post (f t) (g u)) :
    RelQ .post (symHere s >>= f) (symHere s' >>= g) :=
  .symPost (fun t u x => h t u x.1 x.2 x.kind x.isMatch) (.getPos fun _ _ => .fail)
theorem q_sym?P {f g : Option Token → Prog β}
    (h : ∀ t u, t.bare = u.bare → t ≠ num → t.kind = u.kind → t.isMatchName = u.isMatchName → RelQ .post (f (some t)) (g (some u)))
    (hn : RelQ .post (f none) (g none)) : RelQ .post (sym? >>= f) (sym? >>= g) :=
  .symPost (fun t u x => h t u x.1 x.2 x.kind x.isMatch) hn
theorem q_symAtA {p q s s'} {f g : Token → Prog β} (h : RelQ .at (f num) (g lp)) : RelQ .at (symAt p s >>= f) (symAt q s' >>= g) := .symAt h
theorem q_symHereA {s s'} {f g : Token → Prog β} (h : RelQ .at (f num) (g lp)) : RelQ .at (symHere s >>= f) (symHere s' >>= g) := .symAt h
theorem q_sym?A {f g : Option Token → Prog β} (h : RelQ .at (f (some num)) (g (some lp))) : RelQ .at (sym? >>= f) (sym? >>= g) := .symAt h

theorem q_parseEnds {o x y} {f g : Tree → Prog β} (he : FnEnds x = true) (hx : Fn.LikeQ x y)
    (h : ∀ t u, PT t u → RelQ (.pre none) (f t) (g u)) : RelQ (.pre o) (parse x >>= f) (parse y >>= g) := .callEnds he hx h
theorem q_parse {o x y} {f g : Tree → Prog β} (hx : Fn.LikeQ x y) (h : ∀ t u, PT t u → RelQ (.pre none) (f t) (g u))
    (h' : ∀ t u, PT t u → RelQ .at (f t) (g u)) : RelQ (.pre o) (parse x >>= f) (parse y >>= g) := .call hx h h'
theorem q_parseEndsA {x y} {f g : Tree → Prog β} (he : FnEnds x = true) (hs : FnSafe x = true) (hx : Fn.LikeQ x y)
    (h : ∀ t u, PT t u → RelQ .post (f t) (g u)) : RelQ .at (parse x >>= f) (parse y >>= g) := .callAtEnds he hs hx h
theorem q_parseA {x y} {f g : Tree → Prog β} (hs : FnSafe x = true) (hx : Fn.LikeQ x y)
    (h : ∀ t u, PT t u → RelQ .post (f t) (g u)) (h' : ∀ t u, PT t u → RelQ .at (f t) (g u)) :
    RelQ .at (parse x >>= f) (parse y >>= g) := .callAt hs hx h h'
theorem q_parseP {x y} {f g : Tree → Prog β} (hx : Fn.LikeQ x y) (h : ∀ t u, PT t u → RelQ .post (f t) (g u)) :
    RelQ .post (parse x >>= f) (parse y >>= g) := .callPost hx h
theorem q_mkBind {m tag s s' l l'} {f g : Tree → Prog β} (hl : ∀ p q, PT (.node tag s p l) (.node tag s' q l'))
    (h : ∀ t u, PT t u → RelQ m (f t) (g u)) : RelQ m (mk tag s l >>= f) (mk tag s' l' >>= g) := .getPos fun p q => h _ _ (hl p q)
theorem q_ite {m} {b b' : Prop} [Decidable b] [Decidable b'] {p q p' q' : Prog β} (hb : b ↔ b') (h1 : b → RelQ m p p')
    (h2 : ¬ b → RelQ m q q') : RelQ m (if b then p else q) (if b' then p' else q') := by
  by_cases h : b
  · rw [if_pos h, if_pos (hb.mp h)]; exact h1 h
  · rw [if_neg h, if_neg (fun x => h (hb.mpr x))]; exact h2 h
theorem q_iteBind {m} {α : Type} {b b' : Prop} [Decidable b] [Decidable b'] {p q p' q' : Prog α} {f g : α → Prog β} (hb : b ↔ b')
    (h1 : b → RelQ m (p >>= f) (p' >>= g)) (h2 : ¬ b → RelQ m (q >>= f) (q' >>= g)) :
    RelQ m ((if b then p else q) >>= f) ((if b' then p' else q') >>= g) := by
  by_cases h : b
  · rw [if_pos h, if_pos (hb.mp h)]; exact h1 h
  · rw [if_neg h, if_neg (fun x => h (hb.mpr x))]; exact h2 h
end

section
variable [Plug]
theorem q_parseT {o x y} (hx : Fn.LikeQ x y) : RelQ (.pre o) (parse x) (parse y) := .call hx (fun _ _ h => .ret h) (fun _ _ h => .ret h)
theorem q_parseTA {x y} (hs : FnSafe x = true) (hx : Fn.LikeQ x y) : RelQ .at (parse x) (parse y) :=
  .callAt hs hx (fun _ _ h => .ret h) (fun _ _ h => .ret h)
theorem q_parseTP {x y} (hx : Fn.LikeQ x y) : RelQ .post (parse x) (parse y) := .callPost hx (fun _ _ h => .ret h)
theorem q_mk {m tag s s' l l'} (hl : ∀ p q, PT (.node tag s p l) (.node tag s' q l')) : RelQ m (mk tag s l) (mk tag s' l') :=
  .getPos fun p q => .ret (hl p q)
theorem plug_tag {t u : Tree} (h : PT t u) {T : Tag} (h1 : T ≠ .AtomNumber) (h2 : T ≠ .AtomTuple) : t.tag? = some T ↔ u.tag? = some T := by
  rw [← erase_tag Token.bare u, ← h]
  cases t with
  | node tag s e l =>
    simp only [Tree.plug]
    split
    next hc =>
      rw [hr]
      simp only [Tree.tag?, hc.1, Option.some.injEq]
      exact ⟨fun h => absurd h.symm h1, fun h => absurd h.symm h2⟩
    next => rfl
  | _ => rfl
theorem plug_none {t u : Tree} (h : PT t u) : t = .none ↔ u = .none := by
  have : t = .none ↔ t.plug num r = .none := by
    cases t with
    | node tag s e l =>
      simp only [Tree.plug]
      split
      next hc =>
        refine ⟨fun h => (by cases h), fun h => ?_⟩
        have := hr
        rw [h] at this; cases this
      next => simp
    | none => simp [Tree.plug]
    | _ => simp [Tree.plug]
  rw [this, h]
  cases u <;> simp [Tree.erase]
theorem plug_toks (a : List Token) (x r) : (Tree.toks a).plug x r = Tree.toks (a.map Token.bare) := by
  simp [Tree.toks, Tree.plug, plugList_toks]
theorem plugList_reverse (a : List Tree) (x r) : plugList a.reverse x r = (plugList a x r).reverse := by
  simp [plugList_eq_map]
theorem PL.length {a b : List Tree} (h : PL a b) : a.length = b.length := by
  have := congrArg List.length h; simpa [plugList_eq_map, eraseList_eq_map] using this
end

macro "q_leaf" : tactic => `(tactic| first
  | trivial
  | rfl
  | assumption
  | (simp only [PT, PL, Tree.plug, plugList, Tree.erase, eraseList, eraseList_append, erase_toks, List.map_append, List.map_reverse, eraseList_reverse,
      plugList_append, plug_toks, plugList_reverse, isLeaf, beq_iff_eq, reduceCtorEq, false_and, and_false, if_false,
      List.map_cons, List.map_nil, *]; done)
  | (refine plug_tag ?_ ?_ ?_ <;> first | assumption | (simp; done)))

/-- At the number: all tests are decided. -/
macro "q_at" : tactic => `(tactic|
  simp only [hn, hl, aug_num, num_match, lp_match, reduceCtorEq, false_or, or_false, or_self, true_or, or_true, if_false, if_true, and_false,
    false_and, ite_true, ite_false, Bool.false_eq_true, not_false_eq_true, not_true_eq_false])
macro "q_step'" : tactic => `(tactic| first
  | with_reducible exact .fail
  | with_reducible exact .panic
  | with_reducible exact q_failHere'
  | with_reducible exact q_failBind
  | ((with_reducible refine q_here ?_); intro _ _)
  | (with_reducible refine q_nextWith (by assumption) ?_)
  | (with_reducible refine q_next ?_ ?_)
  | (with_reducible refine q_nextPost ?_)
  | ((with_reducible refine q_symAt ?_); intro _ _ _ _ _ _)
  | ((with_reducible refine q_symHere ?_); intro _ _ _ _ _ _)
  | ((with_reducible refine q_sym? ?_ ?_); intro _ _ _ _ _ _)
  | ((with_reducible refine q_symAtP ?_); intro _ _ _ _ _ _)
  | ((with_reducible refine q_symHereP ?_); intro _ _ _ _ _ _)
  | ((with_reducible refine q_sym?P ?_ ?_); intro _ _ _ _ _ _)
  | ((with_reducible refine q_symAtA ?_); try q_at)
  | ((with_reducible refine q_symHereA ?_); try q_at)
  | ((with_reducible refine q_sym?A ?_); try q_at)
  | ((with_reducible refine q_parseEnds ?_ ?_ ?_); rfl; rotate_left; intro _ _ _)
  | ((with_reducible refine q_parse ?_ ?_ ?_); rotate_left; (intro _ _ _); rotate_left; (intro _ _ _))
  | ((with_reducible refine q_parseEndsA ?_ ?_ ?_ ?_); rfl; rfl; rotate_left; intro _ _ _)
  | ((with_reducible refine q_parseA ?_ ?_ ?_ ?_); rfl; rotate_left; (intro _ _ _); rotate_left; (intro _ _ _))
  | ((with_reducible refine q_parseP ?_ ?_); rotate_left; intro _ _ _)
  | ((with_reducible refine q_mkBind ?_ ?_); (intro _ _); rotate_left; intro _ _ _)
  | (with_reducible refine q_parseT ?_)
  | ((with_reducible refine q_parseTA ?_ ?_); rfl)
  | (with_reducible refine q_parseTP ?_)
  | ((with_reducible refine q_mk ?_); intro _ _)
  | ((with_reducible refine q_ite ?_ ?_ ?_); rotate_left; intro _; rotate_left; intro _; rotate_left)
  | ((with_reducible refine q_iteBind ?_ ?_ ?_); rotate_left; intro _; rotate_left; intro _; rotate_left)
  | (with_reducible refine q_assoc ?_)
  | (with_reducible refine q_pureBind ?_)
  | (with_reducible refine q_pure ?_)
  | (with_reducible refine q_setExcBind ?_)
  | ((with_reducible refine q_getExcBind ?_); intro x; cases x)
  | ((with_reducible refine RelQ.getExc ?_); intro x; cases x)
  | (with_reducible refine RelQ.setExc ?_)
  | (show RelQ _ _ _; dsimp only)
  | with_reducible exact DeadAt.fail
  | with_reducible exact d_failHere
  | ((with_reducible refine d_symAt ?_); try q_at)
  | ((with_reducible refine d_symHere ?_); try q_at)
  | ((with_reducible refine d_parse ?_); rfl)
  | (with_reducible refine d_pureBind ?_)
  | (show DeadAt _; dsimp only)
  | q_leaf
  | (with_reducible constructor))

theorem compOp_ne (k : Kind) : compOp k ≠ some .AtomNumber := by cases k <;> simp [compOp]
theorem augOp_ne (k : Kind) : augOp k ≠ some .AtomNumber := by cases k <;> simp [augOp]

theorem q_left [Plug] {o} (op : Kind → Option Tag) (operand : Fn) (self : Nat → Tree → Fn) (msg : String) (s s' : Nat) (left left' : Tree)
    (hop : ∀ k, op k ≠ some .AtomNumber) (he : FnEnds operand = true) (hs0 : FnSafe operand = true)
    (ho : Fn.LikeQ operand operand) (hs : ∀ s s' l l', PT l l' → Fn.LikeQ (self s l) (self s' l'))
    (hl : PT left left') : RelQ (.pre o) (leftLoopBody op operand self msg s left) (leftLoopBody op operand self msg s' left') := by
  unfold leftLoopBody
  refine q_symAt ?_
  intro t u h _ hk hm
  rw [hk]
  cases hop' : op u.kind with
  | none => exact q_pure hl
  | some tag =>
    have htag : tag ≠ .AtomNumber := fun e => hop _ (e ▸ hop')
    have key : ∀ a b, PT a b → ∀ p q, PT (.node tag s p [left, .tok t, a]) (.node tag s' q [left', .tok u, b]) := by
      intro a b hab p q
      simp only [PT, Tree.plug, plugList, Tree.erase, eraseList, htag, false_and, if_false] at *
      rw [hl, hab, h]
    exact q_next (q_parseEnds he ho fun a b hab => q_mkBind (key a b hab) fun x y hxy => q_parseT (hs _ _ _ _ hxy))
      (q_parseEndsA he hs0 ho fun a b hab => q_mkBind (key a b hab) fun x y hxy => q_parseTP (hs _ _ _ _ hxy))

theorem q_fin [Plug] {m} (s s' : Nat) (await await' right right' : Tree) (lst lst' : List Tree)
    (h1 : PT await await') (h2 : PT right right') (h3 : PL lst lst') :
    RelQ m (trailerLoopBody.fin s await right lst) (trailerLoopBody.fin s' await' right' lst') := by
  have hn : ∀ p q, PT (.node .AtomExpr s p [await, right, .seq lst]) (.node .AtomExpr s' q [await', right', .seq lst']) := by
    intro p q
    simp only [PT, Tree.plug, plugList, Tree.erase, eraseList, reduceCtorEq, false_and, if_false] at *
    simp only [*]
  have h4 := plug_none h1
  have h5 : lst = [] ↔ lst' = [] := by rw [← List.length_eq_zero_iff, ← List.length_eq_zero_iff, h3.length]
  unfold trailerLoopBody.fin
  cases await <;> cases await' <;> first | (simp only [reduceCtorEq, iff_true, true_iff, iff_false, false_iff, not_true] at h4; done) | skip
  all_goals first
    | (cases lst <;> cases lst' <;> first
        | (simp only [reduceCtorEq, iff_true, true_iff] at h5; done)
        | exact q_pure h2
        | exact q_mk hn)
    | exact q_mk hn

theorem q_listResult [Plug] {m} (tag) (ht : tag ≠ .AtomNumber) (s s' : Nat) (l l' : List Tree) (p p' : List Token)
    (h1 : PL l l') (h2 : p.map Token.bare = p'.map Token.bare) :
    RelQ m (listResult tag s l p) (listResult tag s' l' p') := by
  have hn : ∀ a b, PT (.node tag s a [.seq l, .toks p]) (.node tag s' b [.seq l', .toks p']) := by
    intro a b
    simp only [PT, PL, Tree.plug, plugList, Tree.erase, eraseList, erase_toks, plug_toks, ht, false_and, if_false] at *
    simp only [*]
  have hl := h1.length
  have hp : p.length = p'.length := by simpa using congrArg List.length h2
  unfold listResult
  match l, l', p, p' with
  | [x], [y], [], [] => exact q_pure (show PT _ _ by simpa [PL, plugList, eraseList] using h1)
  | [], [], _, _ => exact q_mk hn
  | _ :: _ :: _, _ :: _ :: _, _, _ => exact q_mk hn
  | [x], [y], _ :: _, _ :: _ => exact q_mk hn

theorem q_starResult [Plug] {m} (s s' : Nat) (l l' : List Tree) (p p' : List Token)
    (h1 : PL l l') (h2 : p.map Token.bare = p'.map Token.bare) :
    RelQ m (testlistStarExprResult s l p) (testlistStarExprResult s' l' p') := by
  have := q_listResult (m := m) .TestListStarExpr (by simp) s s' l.reverse l'.reverse p.reverse p'.reverse
    (by rw [PL, eraseList_reverse, plugList_reverse, h1])
    (by rw [List.map_reverse, List.map_reverse, h2])
  have hx : ∀ s l p, testlistStarExprResult s l p = listResult .TestListStarExpr s l.reverse p.reverse := by
    intro s l p
    unfold testlistStarExprResult listResult
    generalize l.reverse = a
    generalize p.reverse = b
    match a, b with
    | [x], [] => rfl
    | [], _ => rfl
    | _ :: _ :: _, _ => rfl
    | [_], _ :: _ => rfl
  rw [hx, hx]
  exact this

macro "q_step" : tactic => `(tactic| first
  | (with_reducible refine q_fin _ _ _ _ _ _ _ _ ?_ ?_ ?_)
  | ((with_reducible refine q_listResult _ ?_ _ _ _ _ _ _ ?_ ?_); focus (simp; done))
  | (with_reducible refine q_starResult _ _ _ _ _ _ ?_ ?_)
  | q_step')

macro "q_auto" : tactic => `(tactic| (repeat' q_step))

end Verif
