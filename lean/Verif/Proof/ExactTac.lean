import Verif.Proof.ExactRun
import Lean.Elab.Tactic

/-!
# Running the parse functions on sentences of the exact grammar: tactics
-/

namespace Verif
open XR Prog

/-! ### Facts about the kind of a token -/

open Lean Elab Tactic Meta in
/-- Closes a goal about `t.kind`, from the hypotheses about `t.kind`, by going through all kinds. -/
elab "kdec" : tactic => withMainContext do
  let g ← getMainGoal
  let tgt ← instantiateMVars (← g.getType)
  let some e := tgt.find? (fun e => e.isAppOfArity ``Verif.Token.kind 1 && e.appArg!.isFVar)
    | throwError "kdec: no token"
  let mut full := tgt
  let mut hs : Array Expr := #[]
  for d in ← getLCtx do
    if !d.isImplementationDetail then
      let ty ← instantiateMVars d.type
      if (ty.find? (· == e)).isSome then
        if ← isProp ty then
          let ab := ty.replace fun s => if s == e then some (mkConst ``Verif.Kind.EOF) else none
          if !ab.hasFVar && !ab.hasExprMVar then hs := hs.push d.toExpr
  for h in hs.reverse do
    full := mkForall `h .default (← instantiateMVars (← inferType h)) full
  let goalTy ← withLocalDeclD `x (mkConst ``Verif.Kind) fun x => do
    mkForallFVars #[x] (full.replace fun s => if s == e then some x else none)
  if goalTy.hasFVar || goalTy.hasExprMVar then throwError "kdec: other variables"
  let m ← mkFreshExprMVar goalTy
  let saved ← getGoals
  setGoals [m.mvarId!]
  evalTactic (← `(tactic| decide +kernel))
  setGoals saved
  g.assign (mkAppN m (#[e] ++ hs))
  replaceMainGoal []

/-- The list is not empty and starts with `t`. -/
def HdIs (a : List Token) (t : Token) : Prop := a.head? = some t

theorem hdT_cons {t ts u} : hdT (t :: ts) u = t := rfl
theorem hdT_nil {u} : hdT [] u = u := rfl
theorem hdT_app {a us t u} (h : HdIs a t) : hdT (a ++ us) u = t := by
  cases a with
  | nil => cases h
  | cons b a => cases h; rfl
theorem hdT_self {a t u} (h : HdIs a t) : hdT a u = t := by
  cases a with
  | nil => cases h
  | cons b a => cases h; rfl
theorem XN.hd {h p x ts y} (d : XN h (.n p) x ts y) : ∃ t, HdIs ts t ∧ p.firsts.contains t.kind = true := by
  obtain ⟨t, us, rfl, e⟩ := d.head
  exact ⟨t, rfl, e⟩

theorem XN.hdR {h r x ts y} (d : XN h r x ts y) (hn : r.null = false) :
    ∃ t, HdIs ts t ∧ r.first t.kind = true := by
  cases ts with
  | nil => rw [d.null rfl] at hn; cases hn
  | cons t us => exact ⟨t, rfl, d.first _ _ rfl⟩

section
variable [Uni]

theorem eats_setExc {β : Type} {f : Unit → Prog β} {c ts x u y} (ho : On c ts u)
    (h : ∀ d, d.exc = x → On d ts u → Eats (f ()) d ts y) : Eats (Prog.setExc x (pure ()) >>= f) c ts y := by
  obtain ⟨b, h⟩ := h { c with exc := x } rfl (on_withExc.2 ho)
  rw [after_withExc] at h
  exact ⟨b, evp_bind (a := ()) (d := { c with exc := x }) ⟨0, rfl⟩ h⟩

theorem eats_symAt {β : Type} {s m} {f : Token → Prog β} {c ts u y t} (ho : On c ts u) (e : hdT ts u = t)
    (h : Eats (f t) c ts y) : Eats (symAt s m >>= f) c ts y := acc_symAt ho (e ▸ h)
theorem eats_symHere {β : Type} {m} {f : Token → Prog β} {c ts u y t} (ho : On c ts u) (e : hdT ts u = t)
    (h : Eats (f t) c ts y) : Eats (symHere m >>= f) c ts y := acc_symHere ho (e ▸ h)
theorem eats_sym? {β : Type} {f : Option Token → Prog β} {c ts u y t} (ho : On c ts u) (e : hdT ts u = t)
    (h : Eats (f (some t)) c ts y) : Eats (sym? >>= f) c ts y := acc_sym? ho (e ▸ h)
theorem eats_next {β : Type} {f : Unit → Prog β} {c t ts x u y} (ho : On c (t :: ts) u) (hx : c.exc = x)
    (h : ∀ d, d.exc = x → On d ts u → Eats (f ()) d ts y) : Eats (next >>= f) c (t :: ts) y :=
  acc_next (h _ ((advance_exc_eq c).trans hx) ho.2)
theorem eats_pos {α : Type} {b : Prop} [Decidable b] {p q : Prog α} {c ts y} (hb : b) (h : Eats p c ts y) :
    Eats (if b then p else q) c ts y := by rwa [if_pos hb]
theorem eats_neg {α : Type} {b : Prop} [Decidable b] {p q : Prog α} {c ts y} (hb : ¬ b) (h : Eats q c ts y) :
    Eats (if b then p else q) c ts y := by rwa [if_neg hb]

omit [Uni] in
theorem prog_assoc {α β γ : Type} (p : Prog α) (f : α → Prog β) (g : β → Prog γ) :
    (p >>= f) >>= g = p >>= fun a => f a >>= g := by
  show (p.bind f).bind g = p.bind fun a => (f a).bind g
  induction p with
  | ret | fail | panic => rfl
  | getPos k ih => exact congrArg getPos (funext ih)
  | sym k e ih1 ih2 => simp only [Prog.bind]; rw [ih2, funext ih1]
  | adv k ih => exact congrArg Prog.adv ih
  | call f k ih => exact congrArg (call f) (funext ih)
  | getExc k ih => exact congrArg getExc (funext ih)
  | setExc x k ih => exact congrArg (Prog.setExc x) ih
theorem eats_assoc {α β γ : Type} {p : Prog α} {f : α → Prog β} {g : β → Prog γ} {c ts y}
    (h : Eats (p >>= fun a => f a >>= g) c ts y) : Eats ((p >>= f) >>= g) c ts y := by
  rwa [prog_assoc]
theorem eats_posBind {α β : Type} {b : Prop} [Decidable b] {p q : Prog α} {f : α → Prog β} {c ts y} (hb : b)
    (h : Eats (p >>= f) c ts y) : Eats ((if b then p else q) >>= f) c ts y := by rwa [if_pos hb]
theorem eats_negBind {α β : Type} {b : Prop} [Decidable b] {p q : Prog α} {f : α → Prog β} {c ts y} (hb : ¬ b)
    (h : Eats (q >>= f) c ts y) : Eats ((if b then p else q) >>= f) c ts y := by rwa [if_neg hb]

theorem eats_call {β : Type} {f : Fn} {k : Tree → Prog β} {c ts z us u y} (ho : On c (ts ++ us) u)
    (h1 : On c ts (hdT us u) → Suc f c ts z) (h2 : ∀ d t, d.exc = z → On d us u → Eats (k t) d us y) :
    Eats (parse f >>= k) c (ts ++ us) y := acc_call (h1 (on_append (z := c.exc).1 ho).1) ho h2
theorem eats_call0 {β : Type} {f : Fn} {k : Tree → Prog β} {c ts z u y} (ho : On c ts u)
    (h1 : On c ts u → Suc f c ts z) (h2 : ∀ d t, d.exc = z → On d [] u → Eats (k t) d [] y) :
    Eats (parse f >>= k) c ts y := by
  have := eats_call (us := []) (by rwa [List.append_nil]) h1 h2
  rwa [List.append_nil] at this
theorem eats_tail {f : Fn} {c ts u y} (ho : On c ts u) (h1 : On c ts u → Suc f c ts y) :
    Eats (parse f) c ts y := (h1 ho).parse

theorem Claim.use {h p} (hc : Claim h p) {c x ts y u} (d : XN h (.n p) x ts y) (hx : c.exc = x) (hf : XFits p ts u)
    (ho : On c ts u) : Suc p.fn c ts y := hc c x ts y u d hx ho hf

end

/-- Side goals of `eats_symAt`. -/
macro "hd_is" : tactic => `(tactic| first
  | exact hdT_cons | exact hdT_nil | exact hdT_app (by assumption) | exact hdT_self (by assumption))

/-- Goals `us <:+ ts`. -/
syntax "suff" : tactic
macro_rules
  | `(tactic| suff) => `(tactic| first
    | exact List.suffix_rfl
    | exact List.nil_suffix
    | (refine List.IsSuffix.trans ?_ (List.suffix_append _ _); suff)
    | (refine List.IsSuffix.trans ?_ (List.suffix_cons _ _); suff))

/-- Goals `XFits p ts u`. -/
macro "fit" : tactic => `(tactic| first
  | assumption
  | (rw [hdT_cons]; assumption)
  | exact XFits.kind (by assumption) (by decide)
  | exact XFits.sub (XFits.suff (by assumption) (by suff)) (by decide +kernel)
  | exact XFits.rest (XFits.suff (by assumption) (by suff)) (by assumption) (by decide +kernel) (by decide +kernel)
  | (refine XFits.mk' ?_ (StrEnd.of ?_) <;> (try simp only [hdT_cons, hdT_nil]) <;> kdec))

/-- Goals `c.exc = x`. -/
macro "exc_is" : tactic => `(tactic| first | assumption | rfl)

/-- One step of a run. -/
macro "eat1" : tactic => `(tactic| first
  | refine acc_here fun _ => ?_
  | refine acc_mkBind fun _ => ?_
  | (refine eats_symAt (by assumption) (by hd_is) ?_)
  | (refine eats_symHere (by assumption) (by hd_is) ?_)
  | (refine eats_sym? (by assumption) (by hd_is) ?_)
  | refine eats_next (by assumption) (by exc_is) fun _ _ _ => ?_
  | exact acc_mk (by exc_is)
  | exact acc_pure (by exc_is)
  | refine eats_pos (by first | assumption | kdec) ?_
  | refine eats_neg (by kdec) ?_
  | refine eats_posBind (by first | assumption | kdec) ?_
  | refine eats_negBind (by kdec) ?_
  | refine eats_assoc ?_
  | refine acc_pureBind ?_)

macro "lists" : tactic => `(tactic|
  simp only [List.append_nil, List.nil_append, List.singleton_append, List.append_assoc, List.cons_append] at *)

/-- Inversion of derivations. -/
macro "inv" d:ident : tactic => `(tactic|
  simp only [xn_seq, xn_alt, xn_opt, xn_k, xn_eps, xn_any, xn_only, xn_mark] at $d:ident)

theorem XN.inv {h p x ts y} (d : XN (h + 1) (.n p) x ts y) : XN h (pRule p) x ts y := by
  cases d; assumption
theorem XN.inv' {h p x ts y} (d : XN h (.n p) x ts y) : XN h (pRule p) x ts y := by
  obtain ⟨j, rfl, e⟩ := xn_n d
  exact e.mono _ (Nat.le_succ j)

open Lean Elab Tactic Meta in
/-- The derivations of nonterminals in the context. -/
def xnHyps : TacticM (Array Expr) := withMainContext do
  let mut r := #[]
  for d in ← getLCtx do
    if !d.isImplementationDetail then
      let ty ← instantiateMVars d.type
      if ty.isAppOfArity ``Verif.XN 5 && (ty.getArg! 1).isAppOf ``Verif.XR.n then r := r.push d.toExpr
  return r

open Lean Elab Tactic Meta in
/-- A call, by the induction hypothesis, of the function of a nonterminal derived in the context. -/
elab "eat_any" : tactic => withMainContext do
  for d in ← xnHyps do
    let st ← saveState
    try
      let dx ← withMainContext (Term.exprToSyntax d)
      evalTactic (← `(tactic| first
        | (refine eats_call (by assumption) (Claim.use (‹∀ p, Claim _ p› _) $dx (by exc_is) (by fit)) fun _ _ _ _ => ?_)
        | (refine eats_call0 (by assumption) (Claim.use (‹∀ p, Claim _ p› _) $dx (by exc_is) (by fit)) fun _ _ _ _ => ?_)
        | (refine eats_tail (by assumption) (Claim.use (‹∀ p, Claim _ p› _) $dx (by exc_is) (by fit)))))
      return
    catch _ => restoreState st
  throwError "eat_any"

open Lean Elab Tactic Meta in
/-- The first tokens of the derivations in the context. -/
elab "hds" : tactic => withMainContext do
  for d in ← xnHyps do
    withMainContext do
      let dx ← Term.exprToSyntax d
      evalTactic (← `(tactic| obtain ⟨_, _, _⟩ := XN.hd $dx))

/-- Splits all alternatives. -/
macro "splits" : tactic => `(tactic| ((first | casesm* _ ∨ _, ∃ _, _, _ ∧ _ | skip) <;> subst_vars <;> (try lists) <;> hds))

/-- All steps and calls. -/
macro "eat" : tactic => `(tactic| repeat first | eat1 | eat_any)

/-- The beginning of the proof of a claim. -/
macro "start" d:ident hf:ident : tactic => `(tactic| (
  intro c x ts y u $d:ident hx ho $hf:ident
  have hfk := XFits.fol $hf
  replace $d:ident := XN.inv $d
  simp only [pRule, X.comma, X.colon, X.name, X.elem, X.starOrTest, X.list, X.listTr, XR.plus, xn_seq, xn_alt, xn_opt, xn_k, xn_eps, xn_any, xn_only, xn_mark] at $d:ident))

/-- The body of a function. -/
macro "go" b:ident : tactic => `(tactic| (refine Suc.of (show Eats ($b ..) _ _ _ from ?_); unfold $b))

end Verif
