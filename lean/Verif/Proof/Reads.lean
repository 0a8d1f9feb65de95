import Verif.Proof.Wp
import Verif.Spec.Parse
import Mathlib.Tactic.CasesM

/-!
# The tokens of a tree are the tokens consumed
-/

namespace Verif
set_option linter.unusedSimpArgs false
set_option linter.unusedVariables false

/-! ### `Consumed` and `Reads` compose -/

section
variable [Uni]

theorem advance_congr {c d : PSt} (h : d.lex = c.lex) :
    d.advance.lex = c.advance.lex ∧ d.advance.symbol = c.advance.symbol := by
  unfold PSt.advance; rw [h]
  cases getSymbol c.lex <;> exact ⟨rfl, rfl⟩

theorem Consumed.congr {c d ts c'} (h : Consumed c ts c') (h1 : d.lex = c.lex) (h2 : d.symbol = c.symbol) :
    Consumed d ts c' := by
  induction h generalizing d with
  | done e1 e2 => exact .done (e1.trans h1.symm) (e2.trans h2.symm)
  | step hs _ ih =>
    have := advance_congr h1
    exact .step (h2.trans hs) (ih this.1 this.2)

theorem Consumed.refl (c : PSt) : Consumed c [] c := .done rfl rfl

theorem Consumed.trans {c ts c1 us c2} (h : Consumed c ts c1) (h' : Consumed c1 us c2) :
    Consumed c (ts ++ us) c2 := by
  induction h with
  | done e1 e2 => exact h'.congr e1.symm e2.symm
  | step hs _ ih => exact .step hs (ih h')

theorem Consumed.exc {c x ts c'} (h : Consumed { c with exc := x } ts c') : Consumed c ts c' :=
  h.congr rfl rfl
end

theorem Reads.app {a ts b us} (h : Reads a ts) (h' : Reads b us) : Reads (a ++ b) (ts ++ us) := by
  induction h with
  | nil => exact h'
  | none _ ih => exact .none ih
  | tok _ ih => exact .tok ih
  | seq _ ih => exact .seq (List.append_assoc .. ▸ ih)
  | node h _ ih => exact .node h (List.append_assoc .. ▸ ih)
  | loose h hp _ ih => exact .loose h hp (List.append_assoc .. ▸ ih)

theorem Reads.cons {x l ts us} (h : Reads [x] ts) (h' : Reads l us) : Reads (x :: l) (ts ++ us) := h.app h'

theorem Reads.split {l ts} (h : Reads l ts) : ∀ {a b}, l = a ++ b →
    ∃ us vs, ts = us ++ vs ∧ Reads a us ∧ Reads b vs := by
  induction h with
  | nil =>
    intro a b h
    obtain ⟨rfl, rfl⟩ := List.append_eq_nil_iff.1 h.symm
    exact ⟨[], [], rfl, .nil, .nil⟩
  | none h ih =>
    intro a b e
    cases a with
    | nil => subst e; exact ⟨[], _, rfl, .nil, .none h⟩
    | cons x a =>
      simp only [List.cons_append, List.cons.injEq] at e
      obtain ⟨rfl, e⟩ := e
      obtain ⟨us, vs, e1, h1, h2⟩ := ih e
      exact ⟨us, vs, e1, .none h1, h2⟩
  | tok h ih =>
    intro a b e
    cases a with
    | nil => subst e; exact ⟨[], _, rfl, .nil, .tok h⟩
    | cons x a =>
      simp only [List.cons_append, List.cons.injEq] at e
      obtain ⟨rfl, e⟩ := e
      obtain ⟨us, vs, e1, h1, h2⟩ := ih e
      exact ⟨_ :: us, vs, by rw [e1]; rfl, .tok h1, h2⟩
  | @seq xs l ts h ih =>
    intro a b e
    cases a with
    | nil => subst e; exact ⟨[], _, rfl, .nil, .seq h⟩
    | cons x a =>
      simp only [List.cons_append, List.cons.injEq] at e
      obtain ⟨rfl, e⟩ := e
      obtain ⟨us, vs, e1, h1, h2⟩ := ih (a := xs ++ a) (b := b) (by rw [e, List.append_assoc])
      exact ⟨us, vs, e1, .seq h1, h2⟩
  | @node tag s e' fs fs' l ts ha h ih =>
    intro a b e
    cases a with
    | nil => subst e; exact ⟨[], _, rfl, .nil, .node ha h⟩
    | cons x a =>
      simp only [List.cons_append, List.cons.injEq] at e
      obtain ⟨rfl, e⟩ := e
      obtain ⟨us, vs, e1, h1, h2⟩ := ih (a := fs' ++ a) (b := b) (by rw [e, List.append_assoc])
      exact ⟨us, vs, e1, .node ha h1, h2⟩
  | @loose tag s e' fs fs' l ts ha hp h ih =>
    intro a b e
    cases a with
    | nil => subst e; exact ⟨[], _, rfl, .nil, .loose ha hp h⟩
    | cons x a =>
      simp only [List.cons_append, List.cons.injEq] at e
      obtain ⟨rfl, e⟩ := e
      obtain ⟨us, vs, e1, h1, h2⟩ := ih (a := fs' ++ a) (b := b) (by rw [e, List.append_assoc])
      exact ⟨us, vs, e1, .loose ha hp h1, h2⟩

/-- A list field at the end. -/
theorem Reads.pack {l xs ts} (h : Reads (l ++ xs) ts) : Reads (l ++ [.seq xs]) ts := by
  obtain ⟨us, vs, rfl, h1, h2⟩ := h.split rfl
  exact h1.app (.seq (by simpa using h2))

theorem Reads.toks (ts : List Token) : Reads (ts.map .tok) ts := by
  induction ts with
  | nil => exact .nil
  | cons t ts ih => exact .tok ih

theorem alternate_snoc {ns : List Tree} {ss : List Tree} {s x : Tree} (h : ss.length + 1 = ns.length) :
    alternate (ns ++ [x]) (ss ++ [s]) = alternate ns ss ++ [s, x] := by
  induction ns generalizing ss with
  | nil => simp at h
  | cons n ns ih =>
    cases ss with
    | nil =>
      cases ns with
      | nil => rfl
      | cons => simp at h
    | cons a ss =>
      simp only [List.cons_append, alternate]
      rw [ih (by simpa using h)]

theorem alternate_trailing {ns : List Tree} {ss : List Tree} {s : Tree} (h : ss.length + 1 = ns.length) :
    alternate ns (ss ++ [s]) = alternate ns ss ++ [s] := by
  induction ns generalizing ss with
  | nil => simp at h
  | cons n ns ih =>
    cases ss with
    | nil =>
      cases ns with
      | nil => rfl
      | cons => simp at h
    | cons a ss =>
      simp only [List.cons_append, alternate]
      rw [ih (by simpa using h)]

/-! ### The invariant -/

section
variable [Uni]

/-- The trees `l` followed by what was consumed are the result. -/
def RdFrom (l : List Tree) (c : PSt) (t : Tree) (c' : PSt) : Prop :=
  ∀ pre, Reads l pre → ∃ ts, Consumed c ts c' ∧ Reads [t] (pre ++ ts)

/-- The result is what was consumed. -/
def Rd (c : PSt) (t : Tree) (c' : PSt) : Prop := ∃ ts, Consumed c ts c' ∧ Reads [t] ts

/-- The result is what was consumed and the token `k` after it. -/
def RdPeek (k : Kind) (c : PSt) (t : Tree) (c' : PSt) : Prop :=
  ∃ ts u, Consumed c ts c' ∧ c'.symbol = .ok u ∧ u.kind = k ∧ Reads [t] (ts ++ [u])

def RdFromPeek (k : Kind) (l : List Tree) (c : PSt) (t : Tree) (c' : PSt) : Prop :=
  ∀ pre, Reads l pre → ∃ ts u, Consumed c ts c' ∧ c'.symbol = .ok u ∧ u.kind = k ∧
    Reads [t] (pre ++ (ts ++ [u]))

/-- One separator less than elements; or as many, and the current symbol is no comma. -/
def SepOk (c : PSt) (ns : List Tree) (ss : List Token) : Prop :=
  ss.length + 1 = ns.length ∨ (ss.length = ns.length ∧ ns ≠ [] ∧ ∃ t, c.symbol = .ok t ∧ t.kind ≠ .PyComa)

/-- `l` holds what is in `v`. -/
def Holds (v : VA) (l : List Tree) : Prop :=
  l.Perm (present (v.nodes ++ v.seps.map .tok ++ [v.mulS, v.mulN, v.powS, v.powN, v.div])) ∧
    (present v.nodes).Sublist l ∧ (v.seps.map Tree.tok).Sublist l

def RdLoose (v : VA) (c : PSt) (t : Tree) (c' : PSt) : Prop := ∀ l, Holds v l → RdFrom l c t c'

def ΦR : Fn → PSt → Tree → PSt → Prop
  | .atomStrLoop _ toks, c, t, c' => RdFrom (toks.map .tok) c t c'
  | .trailerLoop _ a r lst, c, t, c' => RdFrom (a :: r :: lst) c t c'
  | .termLoop _ l, c, t, c' | .arithLoop _ l, c, t, c' | .shiftLoop _ l, c, t, c'
  | .andExprLoop _ l, c, t, c' | .xorExprLoop _ l, c, t, c' | .exprLoop _ l, c, t, c'
  | .comparisonLoop _ l, c, t, c' | .andTestLoop _ l, c, t, c' | .orTestLoop _ l, c, t, c'
  | .annAssign _ l, c, t, c' => RdFrom [l] c t c'
  | .testlistCompLoop _ ns ss, c, t, c' | .subscriptListLoop _ ns ss, c, t, c'
  | .importAsNamesLoop _ ns ss, c, t, c' | .dottedAsNamesLoop _ ns ss, c, t, c' =>
    ss.length + 1 = ns.length → RdFrom (alternate ns (ss.map .tok)) c t c'
  | .exprlistLoop _ ns ss, c, t, c' | .testlistLoop _ ns ss, c, t, c'
  | .arglistLoop _ ns ss, c, t, c' | .testlistStarExprLoop _ ns ss, c, t, c' =>
    SepOk c ns ss → RdFrom (alternate ns (ss.map .tok)) c t c'
  | .setLoop _ ns ss, c, t, c' =>
    SepOk c ns ss → RdFrom (alternate ns (ss.map .tok)) c t c' ∧ t.tag? = some .SetContainer
  | .dictorsetMaker, c, t, c' => Rd c t c' ∧ (t.tag? = some .DictionaryContainer ∨ t.tag? = some .SetContainer)
  | .varArgsMainLoop _ v, c, t, c' | .typeListMainLoop _ v, c, t, c' =>
    v.mulS = .none → v.mulN = .none → v.powS = .none → v.powN = .none → v.div = .none → RdLoose v c t c'
  | .varArgsDivLoop _ v, c, t, c' =>
    v.mulS = .none → v.mulN = .none → v.powS = .none → v.powN = .none → RdLoose v c t c'
  | .varArgsStarLoop _ v, c, t, c' => v.powS = .none → v.powN = .none → RdLoose v c t c'
  | .typeListStarLoop _ v, c, t, c' =>
    v.powS = .none → v.powN = .none → v.div = .none → RdLoose v c t c'
  | .simpleStmtLoop _ ns ss, c, t, c' =>
    ss.length + 1 = ns.length → RdFrom (alternate ns (ss.map .tok)) c t c'
  | .assignLoop _ l ns, c, t, c' => RdFrom (l :: ns) c t c'
  | .importDotLoop _ s ds, c, t, c' => RdFrom (.tok s :: ds.map .tok) c t c'
  | .dottedNameLoop _ ns ss, c, t, c' =>
    ss.length + 1 = ns.length → RdFrom (alternate (ns.map .tok) (ss.map .tok)) c t c'
  | .globalLoop _ s ns ss, c, t, c' | .nonlocalLoop _ s ns ss, c, t, c' =>
    ss.length + 1 = ns.length → RdFrom (.tok s :: alternate (ns.map .tok) (ss.map .tok)) c t c'
  | .ifLoop _ s l s2 r ns, c, t, c' => RdFrom (.tok s :: l :: .tok s2 :: r :: ns) c t c'
  | .tryLoop _ s s2 l ns, c, t, c' => RdFrom (.tok s :: .tok s2 :: l :: ns) c t c'
  | .withParenLoop _ s lp ns ss, c, t, c' =>
    ss.length + 1 = ns.length → RdFrom (.tok s :: .tok lp :: alternate ns (ss.map .tok)) c t c'
  | .withLoop _ s ns ss, c, t, c' =>
    ss.length + 1 = ns.length → RdFrom (.tok s :: alternate ns (ss.map .tok)) c t c'
  | .suiteLoop _ s s2 ns, c, t, c' => RdFrom (.tok s :: .tok s2 :: ns) c t c'
  | .evalInput, c, t, c' | .fileInput, c, t, c' | .funcTypeInput, c, t, c' => RdPeek .EOF c.advance t c'
  | .evalLoop _ r ss, c, t, c' | .funcTypeLoop _ r ss, c, t, c' => RdFromPeek .EOF (r :: ss.map .tok) c t c'
  | .fileLoop _ ns ss, c, t, c' => ∀ l, Holds { nodes := ns, seps := ss } l → RdFromPeek .EOF l c t c'
  | .singleInput, c, t, c' => Rd c.advance t c' ∨ RdPeek .Newline c.advance t c'
  | .decorator, c, t, c' | .decorators, c, t, c' => RdPeek .Newline c t c'
  | .decoratorsLoop _ ns, c, t, c' =>
    (∃ u, c.symbol = .ok u ∧ u.kind = .Newline) → c' = c ∧ ∃ s e, t = .node .Decorators s e [.seq ns.reverse]
  | .decorated, _, _, _ => False
  | .funcBodyLoop _ s tc tn s4 ns, c, t, c' => RdFrom (.tok s :: tc :: tn :: .tok s4 :: ns) c t c'
  | .lambdaDef _, c, t, c'
  | .atom, c, t, c'
  | .atomExpr, c, t, c'
  | .power, c, t, c'
  | .factor, c, t, c'
  | .term, c, t, c'
  | .arith, c, t, c'
  | .shift, c, t, c'
  | .andExpr, c, t, c'
  | .xorExpr, c, t, c'
  | .expr, c, t, c'
  | .starExpr, c, t, c'
  | .comparison, c, t, c'
  | .notTest, c, t, c'
  | .andTest, c, t, c'
  | .orTest, c, t, c'
  | .noCondTest, c, t, c'
  | .test, c, t, c'
  | .namedExpression, c, t, c'
  | .testlistComp, c, t, c'
  | .trailer, c, t, c'
  | .subscriptList, c, t, c'
  | .subscript, c, t, c'
  | .exprlist, c, t, c'
  | .testlist, c, t, c'
  | .arglist, c, t, c'
  | .argument, c, t, c'
  | .compIter, c, t, c'
  | .syncCompFor, c, t, c'
  | .compFor, c, t, c'
  | .compIf, c, t, c'
  | .yieldExpr, c, t, c'
  | .testlistStarExpr, c, t, c'
  | .varArgsList, c, t, c'
  | .varArgsAssignments, c, t, c'
  | .vfpDef, c, t, c'
  | .stmt, c, t, c'
  | .simpleStmt, c, t, c'
  | .smallStmt, c, t, c'
  | .exprStmt, c, t, c'
  | .delStmt, c, t, c'
  | .passStmt, c, t, c'
  | .flowStmt, c, t, c'
  | .breakStmt, c, t, c'
  | .continueStmt, c, t, c'
  | .returnStmt, c, t, c'
  | .yieldStmt, c, t, c'
  | .raiseStmt, c, t, c'
  | .importStmt, c, t, c'
  | .importName, c, t, c'
  | .importFrom, c, t, c'
  | .importAsName, c, t, c'
  | .dottedAsName, c, t, c'
  | .importAsNames, c, t, c'
  | .dottedAsNames, c, t, c'
  | .dottedName, c, t, c'
  | .globalStmt, c, t, c'
  | .nonlocalStmt, c, t, c'
  | .assertStmt, c, t, c'
  | .compoundStmt, c, t, c'
  | .asyncStmt, c, t, c'
  | .ifStmt, c, t, c'
  | .elifStmt, c, t, c'
  | .elseStmt, c, t, c'
  | .whileStmt, c, t, c'
  | .forStmt, c, t, c'
  | .tryStmt, c, t, c'
  | .finallyStmt, c, t, c'
  | .withStmt, c, t, c'
  | .withItem, c, t, c'
  | .exceptStmt, c, t, c'
  | .exceptClause, c, t, c'
  | .suite, c, t, c'
  | .asyncFuncDef, c, t, c'
  | .funcDef, c, t, c'
  | .parameters, c, t, c'
  | .typedArgsList, c, t, c'
  | .tfpDefAssign, c, t, c'
  | .tfpDef, c, t, c'
  | .funcBodySuite, c, t, c'
  | .classDef, c, t, c'
  | .funcType, c, t, c'
  | .typeList, c, t, c'
  | .patternsMatch, c, t, c' => Rd c t c'

end

section
variable [Uni]
theorem advance_exc (c : PSt) (x) : PSt.advance { c with exc := x } = { c.advance with exc := x } := by
  unfold PSt.advance; cases getSymbol c.lex <;> rfl
theorem consumed_exc {c : PSt} {x ts c'} : Consumed ⟨c.lex, c.symbol, x⟩ ts c' ↔ Consumed c ts c' :=
  ⟨fun h => h.congr rfl rfl, fun h => h.congr rfl rfl⟩
theorem Consumed.congr' {c ts c' d} (h : Consumed c ts c') (h1 : d.lex = c'.lex) (h2 : d.symbol = c'.symbol) :
    Consumed c ts d := by
  induction h with
  | done e1 e2 => exact .done (h1.trans e1) (h2.trans e2)
  | step hs _ ih => exact .step hs (ih h1 h2)
theorem rd_exc' {c c' : PSt} {x t} : Rd c t ⟨c'.lex, c'.symbol, x⟩ ↔ Rd c t c' :=
  ⟨fun ⟨ts, a, b⟩ => ⟨ts, a.congr' rfl rfl, b⟩, fun ⟨ts, a, b⟩ => ⟨ts, a.congr' rfl rfl, b⟩⟩
theorem rd_exc {c : PSt} {x t c'} : Rd ⟨c.lex, c.symbol, x⟩ t c' ↔ Rd c t c' := by
  simp only [Rd, consumed_exc]

theorem Rd.mk {c ts c' t} (h : Consumed c ts c') (h' : Reads [t] ts) : Rd c t c' := ⟨_, h, h'⟩
theorem Rd.of {c ts c1 m t c'} (h : RdFrom m c1 t c') (h1 : Consumed c ts c1) (h2 : Reads m ts) : Rd c t c' := by
  obtain ⟨us, h3, h4⟩ := h _ h2
  exact ⟨_, h1.trans h3, h4⟩
theorem rd_imp {c t c'} {P : Prop} : (Rd c t c' → P) ↔ (∀ ts, Consumed c ts c' → Reads [t] ts → P) :=
  ⟨fun h ts a b => h ⟨ts, a, b⟩, fun h ⟨ts, a, b⟩ => h ts a b⟩
theorem RdFrom.step {l m c1 t c' ts c} (h : RdFrom (l ++ m) c1 t c') (h1 : Consumed c ts c1) (h2 : Reads m ts) :
    RdFrom l c t c' := by
  intro pre hp
  obtain ⟨us, h3, h4⟩ := h _ (hp.app h2)
  exact ⟨_, h1.trans h3, by rw [← List.append_assoc]; exact h4⟩
theorem RdFrom.fin {l m fs tag s e c c' ts} (h : arrange tag fs = some (l ++ m)) (h1 : Consumed c ts c')
    (h2 : Reads m ts) : RdFrom l c (.node tag s e fs) c' := by
  intro pre hp
  exact ⟨_, h1, .node h (by rw [List.append_nil]; exact hp.app h2)⟩
theorem RdFrom.re {l m c1 t c' ts c} (h : RdFrom m c1 t c') (h2 : ∀ pre, Reads l pre → Reads m (pre ++ ts))
    (h1 : Consumed c ts c1) : RdFrom l c t c' := by
  intro pre hp
  obtain ⟨us, h3, h4⟩ := h _ (h2 _ hp)
  exact ⟨_, h1.trans h3, by rw [← List.append_assoc]; exact h4⟩
theorem RdFrom.self (l c) : RdFrom [l] c l c := fun pre hp => ⟨[], .refl _, by simpa using hp⟩
theorem Rd.elim {c t c'} (h : Rd c t c') : ∃ ts, Consumed c ts c' ∧ Reads [t] ts := h
theorem RdFrom.elim {l c t c'} (h : RdFrom l c t c') :
    ∀ pre, Reads l pre → ∃ ts, Consumed c ts c' ∧ Reads [t] (pre ++ ts) := h
theorem RdFrom.intro {l c t c'} (h : ∀ pre, Reads l pre → ∃ ts, Consumed c ts c' ∧ Reads [t] (pre ++ ts)) :
    RdFrom l c t c' := h

/-- A loop adds a separator and an element. -/
theorem RdFrom.snoc {p ns ss c2 y c3 c t x ts} (hl : List.length ss + 1 = List.length ns)
    (h : (ss ++ [t]).length + 1 = (ns ++ [x]).length →
      RdFrom (p ++ alternate (ns ++ [x]) ((ss ++ [t]).map Tree.tok)) c2 y c3)
    (h1 : Consumed c ts c2) (h2 : Reads [.tok t, x] ts) :
    RdFrom (p ++ alternate ns (ss.map .tok)) c y c3 := by
  have h := h (by simpa using hl)
  rw [List.map_append, List.map_singleton, alternate_snoc (by simpa using hl), ← List.append_assoc] at h
  exact RdFrom.step h h1 h2

/-- A loop adds a trailing separator. -/
theorem RdFrom.trail {ns ss y c3 c t t2} (hl : List.length ss + 1 = List.length ns)
    (h : SepOk c.advance ns (ss ++ [t]) → RdFrom (alternate ns ((ss ++ [t]).map Tree.tok)) c.advance y c3)
    (hs : c.symbol = .ok t) (hs2 : c.advance.symbol = .ok t2) (hk : t2.kind ≠ .PyComa) :
    RdFrom (alternate ns (ss.map .tok)) c y c3 := by
  have h := h (.inr ⟨by simpa using hl, by rintro rfl; simp at hl, t2, hs2, hk⟩)
  rw [List.map_append, List.map_singleton, alternate_trailing (by simpa using hl)] at h
  exact RdFrom.step h (.step hs (.refl _)) (.tok .nil)

omit [Uni] in
theorem SepOk.comma {c ns ss t} (h : SepOk c ns ss) (hs : c.symbol = .ok t) (hk : t.kind = .PyComa) :
    ss.length + 1 = ns.length := by
  rcases h with h | ⟨_, _, u, hu, hk'⟩
  · exact h
  · rw [hs] at hu; cases hu; exact absurd hk hk'

omit [Uni] in
theorem sepOk_one (c x) : SepOk c [x] [] = True := by simp [SepOk]
omit [Uni] in
theorem alternate_one (x : Tree) : alternate [x] [] = [x] := rfl

end

syntax "reads" : tactic
macro_rules
  | `(tactic| reads) => `(tactic| first
    | exact Reads.nil
    | (refine Reads.tok ?_; reads)
    | (refine Reads.none ?_; reads)
    | (refine Reads.cons (by with_reducible assumption) ?_; reads)
    | (refine Reads.seq ?_; reads)
    | (refine Reads.node rfl ?_; reads))

syntax "consume" : tactic
macro_rules
  | `(tactic| consume) => `(tactic| first
    | with_reducible exact Consumed.refl _
    | (apply Consumed.trans (by with_reducible assumption); consume)
    | (apply Consumed.step (by with_reducible assumption); consume))

macro "rd_close" : tactic => `(tactic| first
  | ((with_reducible apply Rd.mk); (consume); (reads))
  | (apply Rd.of (by with_reducible assumption); (consume); (reads))
  | trivial
  | contradiction)

syntax "rd_simp" (" [" Lean.Parser.Tactic.simpLemma,* "]")? : tactic
macro_rules
  | `(tactic| rd_simp) => `(tactic| rd_simp [])
  | `(tactic| rd_simp [$ls,*]) => `(tactic| simp only [wp_bind, wp_here, wp_symAt, wp_symHere, wp_sym?, wp_ite,
  wp_next, wp_mk, wp_parse, wp_fail, wp_failHere, wp_panic, wp_pure, wp_ret, wp_getExc, wp_setExc,
  implies_true, and_true, true_and, ΦR, advance_exc, rd_exc, rd_exc', consumed_exc, sepOk_one, List.map_nil, List.map_cons, alternate_one, true_implies, List.length_singleton, List.length_nil, Nat.zero_add, imp_self, rd_imp, forall_const, $ls,*])
macro "wp_paths" : tactic => `(tactic| repeat' with_reducible first | intro _ | apply And.intro)


/-! ### Lists whose interleaving is not recorded -/

section

theorem present_append (a b) : present (a ++ b) = present a ++ present b := List.filter_append ..
theorem present_toks (l : List Token) : present (l.map .tok) = l.map .tok := by
  induction l with
  | nil => rfl
  | cons t l ih => exact congrArg (Tree.tok t :: ·) ih
theorem present_tok (t : Token) (l) : present (.tok t :: l) = .tok t :: present l := rfl
theorem present_none (l) : present (.none :: l) = present l := rfl

theorem reads_present {x ts} (h : Reads [x] ts) : Reads (present [x]) ts := by
  cases x with
  | none => cases h with | none h => exact h
  | _ => exact h

open Classical in
theorem perm_of_count {α} {a b : List α} (h : ∀ x, a.count x = b.count x) : a.Perm b := List.perm_iff_count.2 h

theorem Holds.sep {v l} (h : Holds v l) (t : Token) : Holds { v with seps := v.seps ++ [t] } (l ++ [.tok t]) := by
  obtain ⟨h1, h2, h3⟩ := h
  refine ⟨?_, h2.trans (List.sublist_append_left ..), ?_⟩
  · classical
    refine perm_of_count fun x => ?_
    have := List.perm_iff_count.1 h1 x
    simp only [List.map_append, List.map_singleton, present_append, present_tok, List.count_append, List.append_assoc]
      at this ⊢
    simp only [show present [] = [] from rfl, List.count_nil] at this ⊢
    omega
  · rw [List.map_append]; exact h3.append (.refl _)

theorem Holds.node {v l} (h : Holds v l) (x : Tree) :
    Holds { v with nodes := v.nodes ++ [x] } (l ++ present [x]) := by
  obtain ⟨h1, h2, h3⟩ := h
  refine ⟨?_, ?_, h3.trans (List.sublist_append_left ..)⟩
  · classical
    refine perm_of_count fun y => ?_
    have := List.perm_iff_count.1 h1 y
    simp only [present_append, List.count_append, List.append_assoc] at this ⊢
    omega
  · rw [present_append]; exact h2.append (.refl _)

theorem present_cons (x l) : present (x :: l) = present [x] ++ present l := present_append [x] l

theorem Holds.field {v l m} (h : Holds v l) {v' : VA} (h1 : v'.nodes = v.nodes) (h2 : v'.seps = v.seps)
    (h3 : (present [v.mulS, v.mulN, v.powS, v.powN, v.div] ++ m).Perm
      (present [v'.mulS, v'.mulN, v'.powS, v'.powN, v'.div])) : Holds v' (l ++ m) := by
  obtain ⟨a, b, d⟩ := h
  refine ⟨?_, ?_, ?_⟩
  · rw [h1, h2]
    refine (a.append_right m).trans ?_
    rw [present_append _ [_, _, _, _, _], present_append _ [_, _, _, _, _], List.append_assoc]
    exact h3.append_left _
  · rw [h1]; exact b.trans (List.sublist_append_left ..)
  · rw [h2]; exact d.trans (List.sublist_append_left ..)

theorem present_five (a b c d e) :
    present [a, b, c, d, e] = present [a] ++ (present [b] ++ (present [c] ++ (present [d] ++ present [e]))) := by
  rw [present_cons a, present_cons b, present_cons c, present_cons d]

theorem Holds.mul {v l} (h : Holds v l) (a : v.mulS = .none) (b : v.mulN = .none) (t x) :
    Holds { v with mulS := .tok t, mulN := x } (l ++ .tok t :: present [x]) := by
  refine h.field rfl rfl ?_
  classical
  refine perm_of_count fun y => ?_
  show List.count y (_ ++ ([.tok t] ++ present [x])) = _
  simp only [a, b, present_five, List.count_append, show present [.none] = [] from rfl,
    show present [Tree.tok t] = [Tree.tok t] from rfl, List.count_nil]
  omega

theorem Holds.pow {v l} (h : Holds v l) (a : v.powS = .none) (b : v.powN = .none) (t x) :
    Holds { v with powS := .tok t, powN := x } (l ++ .tok t :: present [x]) := by
  refine h.field rfl rfl ?_
  classical
  refine perm_of_count fun y => ?_
  show List.count y (_ ++ ([.tok t] ++ present [x])) = _
  simp only [a, b, present_five, List.count_append, show present [.none] = [] from rfl,
    show present [Tree.tok t] = [Tree.tok t] from rfl, List.count_nil]
  omega

theorem Holds.setDiv {v l} (h : Holds v l) (a : v.div = .none) (t) :
    Holds { v with div := .tok t } (l ++ [.tok t]) := by
  refine h.field rfl rfl ?_
  classical
  refine perm_of_count fun y => ?_
  simp only [a, present_five, List.count_append, show present [.none] = [] from rfl,
    show present [Tree.tok t] = [Tree.tok t] from rfl, List.count_nil]
  omega

variable [Uni]

theorem RdLoose.step {v v' c1 t c' ts c m} (h : RdLoose v' c1 t c') (hm : ∀ l, Holds v l → Holds v' (l ++ m))
    (h1 : Consumed c ts c1) (h2 : Reads m ts) : RdLoose v c t c' :=
  fun l hl => RdFrom.step (h _ (hm l hl)) h1 h2

theorem RdLoose.elim {v c t c'} (h : RdLoose v c t c') : ∀ l, Holds v l → RdFrom l c t c' := h

theorem Rd.ofLoose {v c1 t c' ts c l} (h : RdLoose v c1 t c') (hl : Holds v l) (h1 : Consumed c ts c1)
    (h2 : Reads l ts) : Rd c t c' := Rd.of (h _ hl) h1 h2

omit [Uni] in
theorem holds_nil : Holds {} [] := ⟨.refl _, .refl _, .refl _⟩

theorem RdLoose.fin {v tag s e rest c} (ha : ∀ fs, arrange tag fs = none)
    (hr : present rest = present [v.mulS, v.mulN, v.powS, v.powN, v.div]) :
    RdLoose v c (.node tag s e (.seq v.nodes.reverse :: .toks v.seps.reverse :: rest)) c := by
  intro l ⟨h1, h2, h3⟩ pre hp
  refine ⟨[], .refl _, .loose (ha _) (fs' := l) ⟨?_, ?_, ?_⟩ (by simpa using hp)⟩
  · refine h1.trans ?_
    rw [present_append, present_append, present_append, present_append, hr]
    refine List.Perm.append_right _ (List.Perm.append ?_ ?_)
    · exact (List.reverse_perm _).symm.filter _
    · exact ((List.reverse_perm _).symm.map _).filter _
  · rw [List.reverse_reverse]; exact h2
  · rw [List.map_reverse, List.reverse_reverse, present_toks]; exact h3

end

end Verif
