import Verif.Proof.Reads
import Verif.Spec.Spans

/-!
# Where the nodes of a tree start and end: the invariant
-/

namespace Verif
set_option linter.unusedSimpArgs false
set_option linter.unusedVariables false

section
variable [Uni]

theorem Spans.congr {b c l c'} (h : Spans b c l c') : ∀ {d}, d.lex = c.lex → d.symbol = c.symbol → Spans b d l c' := by
  induction h with
  | nil e1 e2 => exact fun h1 h2 => .nil (e1.trans h1.symm) (e2.trans h2.symm)
  | none _ ih => exact fun h1 h2 => .none (ih h1 h2)
  | tok hs _ ih =>
    intro d h1 h2
    have := advance_congr h1
    exact .tok (h2.trans hs) (ih this.1 this.2)
  | seq _ ih => exact fun h1 h2 => .seq (ih h1 h2)
  | node ha hs he _ _ ih _ =>
    intro d h1 h2
    refine .node ha ?_ he (ih h1 h2) (by assumption)
    rw [PSt.pos, h1]; exact hs

theorem Spans.congr' {b c l c'} (h : Spans b c l c') : ∀ {d}, d.lex = c'.lex → d.symbol = c'.symbol → Spans b c l d := by
  induction h with
  | nil e1 e2 => exact fun h1 h2 => .nil (h1.trans e1) (h2.trans e2)
  | none _ ih => exact fun h1 h2 => .none (ih h1 h2)
  | tok hs _ ih => exact fun h1 h2 => .tok hs (ih h1 h2)
  | seq _ ih => exact fun h1 h2 => .seq (ih h1 h2)
  | node ha hs he h _ _ ih => exact fun h1 h2 => .node ha hs he h (ih h1 h2)

theorem Spans.app {b c l d m c'} (h : Spans b c l d) (h' : Spans b d m c') : Spans b c (l ++ m) c' := by
  induction h with
  | nil e1 e2 => exact h'.congr e1.symm e2.symm
  | none _ ih => exact .none (ih h')
  | tok hs _ ih => exact .tok hs (ih h')
  | seq _ ih => exact .seq (List.append_assoc .. ▸ ih h')
  | node ha hs he h _ _ ih => exact .node ha hs he h (ih h')

theorem Spans.split {b c l c'} (h : Spans b c l c') : ∀ {p q}, l = p ++ q → ∃ d, Spans b c p d ∧ Spans b d q c' := by
  induction h with
  | nil e1 e2 =>
    intro a b h
    obtain ⟨rfl, rfl⟩ := List.append_eq_nil_iff.1 h.symm
    exact ⟨_, .nil e1 e2, .nil rfl rfl⟩
  | none h ih =>
    intro a b e
    cases a with
    | nil => subst e; exact ⟨_, .nil rfl rfl, .none h⟩
    | cons x a =>
      simp only [List.cons_append, List.cons.injEq] at e
      obtain ⟨rfl, e⟩ := e
      obtain ⟨d, h1, h2⟩ := ih e
      exact ⟨d, .none h1, h2⟩
  | tok hs h ih =>
    intro a b e
    cases a with
    | nil => subst e; exact ⟨_, .nil rfl rfl, .tok hs h⟩
    | cons x a =>
      simp only [List.cons_append, List.cons.injEq] at e
      obtain ⟨rfl, e⟩ := e
      obtain ⟨d, h1, h2⟩ := ih e
      exact ⟨d, .tok hs h1, h2⟩
  | @seq b c xs l c' h ih =>
    intro a b e
    cases a with
    | nil => subst e; exact ⟨_, .nil rfl rfl, .seq h⟩
    | cons x a =>
      simp only [List.cons_append, List.cons.injEq] at e
      obtain ⟨rfl, e⟩ := e
      obtain ⟨d, h1, h2⟩ := ih (p := xs ++ a) (q := b) (by rw [e, List.append_assoc])
      exact ⟨d, .seq h1, h2⟩
  | node ha hs he h h' _ ih =>
    intro a b e
    cases a with
    | nil => subst e; exact ⟨_, .nil rfl rfl, .node ha hs he h h'⟩
    | cons x a =>
      simp only [List.cons_append, List.cons.injEq] at e
      obtain ⟨rfl, e⟩ := e
      obtain ⟨d, h1, h2⟩ := ih e
      exact ⟨d, .node ha hs he h h1, h2⟩

/-- `Spans` for every start of the node around. -/
def Sp (c : PSt) (l : List Tree) (c' : PSt) : Prop := ∀ b, Spans b c l c'

theorem Sp.refl (c) : Sp c [] c := fun _ => .nil rfl rfl
theorem Sp.none {c l c'} (h : Sp c l c') : Sp c (.none :: l) c' := fun b => .none (h b)
theorem Sp.tok {c t l c'} (hs : c.symbol = .ok t) (h : Sp c.advance l c') : Sp c (.tok t :: l) c' := fun b => .tok hs (h b)
theorem Sp.seq {c xs l c'} (h : Sp c (xs ++ l) c') : Sp c (.seq xs :: l) c' := fun b => .seq (h b)
theorem Sp.node {tag fs fs' c d s e} (ha : arrange tag fs = some fs') (h : Sp c fs' d) (hs : s = c.pos) (he : e = d.pos)
    (hn : tag.isEntry = false := by rfl) : Sp c [.node tag s e fs] d :=
  fun b => .node (.inl ha) (by rw [hn]; exact hs) he (h _) (.nil rfl rfl)
theorem Sp.at {c l c'} (h : Sp c l c') (b) : Spans b c l c' := h b
theorem Sp.unNone {c l c'} (h : Sp c (.none :: l) c') : Sp c l c' := by
  intro b; cases h b with | none h => exact h
theorem Sp.insNone {c x l c'} (h : Sp c (x :: l) c') : Sp c (x :: .none :: l) c' := by
  intro b
  obtain ⟨d, h1, h2⟩ := (h b).split (p := [x]) (q := l) rfl
  exact h1.app (.none h2)
theorem Sp.app {c l d m c'} (h : Sp c l d) (h' : Sp d m c') : Sp c (l ++ m) c' := fun b => (h b).app (h' b)
theorem Sp.cons {c x d m c'} (h : Sp c [x] d) (h' : Sp d m c') : Sp c (x :: m) c' := h.app h'
theorem Sp.congr {c l c' d} (h : Sp c l c') (h1 : d.lex = c.lex) (h2 : d.symbol = c.symbol) : Sp d l c' :=
  fun b => (h b).congr h1 h2
theorem Sp.congr' {c l c' d} (h : Sp c l c') (h1 : d.lex = c'.lex) (h2 : d.symbol = c'.symbol) : Sp c l d :=
  fun b => (h b).congr' h1 h2
theorem Sp.pack {c l xs c'} (h : Sp c (l ++ xs) c') : Sp c (l ++ [.seq xs]) c' := by
  intro b
  obtain ⟨d, h1, h2⟩ := (h b).split rfl
  exact h1.app (.seq (by simpa using h2))
theorem Sp.present {c x c'} (h : Sp c [x] c') : Sp c (present [x]) c' := by
  cases x with
  | none => intro b; cases h b with | none h => exact h
  | _ => exact h
theorem sp_exc {c : PSt} {x l c'} : Sp ⟨c.lex, c.symbol, x⟩ l c' ↔ Sp c l c' :=
  ⟨fun h => h.congr rfl rfl, fun h => h.congr rfl rfl⟩
theorem sp_exc' {c : PSt} {x l c'} : Sp c l ⟨c'.lex, c'.symbol, x⟩ ↔ Sp c l c' :=
  ⟨fun h => h.congr' rfl rfl, fun h => h.congr' rfl rfl⟩

/-- The result is what was taken. -/
def Sp1 (c : PSt) (t : Tree) (c' : PSt) : Prop := Sp c [t] c'

/-- The trees `l`, which start at `s`, and what was taken are the result. -/
def SpFrom (s : Nat) (l : List Tree) (c : PSt) (t : Tree) (c' : PSt) : Prop :=
  ∀ c0, s = c0.pos → Sp c0 l c → Sp1 c0 t c'

/-- The same for lists that may hold entries that start at `s`. -/
def SpFromE (s : Nat) (l : List Tree) (c : PSt) (t : Tree) (c' : PSt) : Prop :=
  ∀ c0, s = c0.pos → Spans s c0 l c → Sp1 c0 t c'

/-- The result is what was taken and the token `k` after it. -/
def SpPeek (k : Kind) (c : PSt) (t : Tree) (c' : PSt) : Prop :=
  ∃ tag fs fs' u, t = .node tag c.pos c'.pos fs ∧ c'.symbol = .ok u ∧ u.kind = k ∧ tag.isEntry = false ∧
    (arrange tag fs = some (fs' ++ [.tok u]) ∨ (arrange tag fs = Option.none ∧ Interleaves fs (fs' ++ [.tok u]))) ∧
    Sp c fs' c'

def SpFromPeek (k : Kind) (s : Nat) (l : List Tree) (c : PSt) (t : Tree) (c' : PSt) : Prop :=
  ∀ c0, s = c0.pos → Sp c0 l c → SpPeek k c0 t c'

def SpLoose (s : Nat) (v : VA) (c : PSt) (t : Tree) (c' : PSt) : Prop := ∀ l, Holds v l → SpFrom s l c t c'

def ΦP : Fn → PSt → Tree → PSt → Prop
  | .atomStrLoop s toks, c, t, c' => SpFrom s (toks.map .tok) c t c'
  | .trailerLoop s a r lst, c, t, c' => SpFrom s (a :: r :: lst) c t c'
  | .termLoop s l, c, t, c' | .arithLoop s l, c, t, c' | .shiftLoop s l, c, t, c'
  | .andExprLoop s l, c, t, c' | .xorExprLoop s l, c, t, c' | .exprLoop s l, c, t, c'
  | .comparisonLoop s l, c, t, c' | .andTestLoop s l, c, t, c' | .orTestLoop s l, c, t, c'
  | .annAssign s l, c, t, c' => SpFrom s [l] c t c'
  | .testlistCompLoop s ns ss, c, t, c' | .subscriptListLoop s ns ss, c, t, c'
  | .importAsNamesLoop s ns ss, c, t, c' | .dottedAsNamesLoop s ns ss, c, t, c' =>
    ss.length + 1 = ns.length → SpFrom s (alternate ns (ss.map .tok)) c t c'
  | .exprlistLoop s ns ss, c, t, c' | .testlistLoop s ns ss, c, t, c'
  | .arglistLoop s ns ss, c, t, c' | .testlistStarExprLoop s ns ss, c, t, c' =>
    SepOk c ns ss → SpFrom s (alternate ns (ss.map .tok)) c t c'
  | .setLoop s ns ss, c, t, c' =>
    SepOk c ns ss → SpFromE s (alternate ns (ss.map .tok)) c t c' ∧ t.tag? = some .SetContainer
  | .dictorsetMaker, c, t, c' => Sp1 c t c' ∧ (t.tag? = some .DictionaryContainer ∨ t.tag? = some .SetContainer)
  | .varArgsMainLoop s v, c, t, c' | .typeListMainLoop s v, c, t, c' =>
    v.mulS = .none → v.mulN = .none → v.powS = .none → v.powN = .none → v.div = .none → SpLoose s v c t c'
  | .varArgsDivLoop s v, c, t, c' =>
    v.mulS = .none → v.mulN = .none → v.powS = .none → v.powN = .none → SpLoose s v c t c'
  | .varArgsStarLoop s v, c, t, c' => v.powS = .none → v.powN = .none → SpLoose s v c t c'
  | .typeListStarLoop s v, c, t, c' =>
    v.powS = .none → v.powN = .none → v.div = .none → SpLoose s v c t c'
  | .simpleStmtLoop s ns ss, c, t, c' =>
    ss.length + 1 = ns.length → SpFrom s (alternate ns (ss.map .tok)) c t c'
  | .assignLoop s l ns, c, t, c' => SpFrom s (l :: ns) c t c'
  | .importDotLoop s s1 ds, c, t, c' => SpFrom s (.tok s1 :: ds.map .tok) c t c'
  | .dottedNameLoop s ns ss, c, t, c' =>
    ss.length + 1 = ns.length → SpFrom s (alternate (ns.map .tok) (ss.map .tok)) c t c'
  | .globalLoop s s1 ns ss, c, t, c' | .nonlocalLoop s s1 ns ss, c, t, c' =>
    ss.length + 1 = ns.length → SpFrom s (.tok s1 :: alternate (ns.map .tok) (ss.map .tok)) c t c'
  | .ifLoop s s1 l s2 r ns, c, t, c' => SpFrom s (.tok s1 :: l :: .tok s2 :: r :: ns) c t c'
  | .tryLoop s s1 s2 l ns, c, t, c' => SpFrom s (.tok s1 :: .tok s2 :: l :: ns) c t c'
  | .withParenLoop s s1 lp ns ss, c, t, c' =>
    ss.length + 1 = ns.length → SpFrom s (.tok s1 :: .tok lp :: alternate ns (ss.map .tok)) c t c'
  | .withLoop s s1 ns ss, c, t, c' =>
    ss.length + 1 = ns.length → SpFrom s (.tok s1 :: alternate ns (ss.map .tok)) c t c'
  | .suiteLoop s s1 s2 ns, c, t, c' => SpFrom s (.tok s1 :: .tok s2 :: ns) c t c'
  | .evalInput, c, t, c' | .fileInput, c, t, c' | .funcTypeInput, c, t, c' => SpPeek .EOF c.advance t c'
  | .evalLoop s r ss, c, t, c' | .funcTypeLoop s r ss, c, t, c' => SpFromPeek .EOF s (r :: ss.map .tok) c t c'
  | .fileLoop s ns ss, c, t, c' => ∀ l, Holds { nodes := ns, seps := ss } l → SpFromPeek .EOF s l c t c'
  | .singleInput, c, t, c' => Sp1 c.advance t c' ∨ SpPeek .Newline c.advance t c'
  | .decorator, c, t, c' => SpPeek .Newline c t c'
  | .decorators, c, t, c' => ∃ x, SpPeek .Newline c x c' ∧ t = .node .Decorators c.pos c'.pos [.seq [x]]
  | .decoratorsLoop s ns, c, t, c' =>
    (∃ u, c.symbol = .ok u ∧ u.kind = .Newline) → c' = c ∧ t = .node .Decorators s c.pos [.seq ns.reverse]
  | .decorated, _, _, _ => False
  | .funcBodyLoop s s1 tc tn s4 ns, c, t, c' => SpFrom s (.tok s1 :: tc :: tn :: .tok s4 :: ns) c t c'
  | .lambdaDef _, c, t, c'
  | .atom, c, t, c'
  | .atomExpr, c, t, c'
  | .power, c, t, c'
  | .factor, c, t, c'
  | .term, c, t, c'
  | .arith, c, t, c'
  | .shift, c, t, c'
  | .andExpr, c, t, c'
  | .xorExpr, c, t, c'
  | .expr, c, t, c'
  | .starExpr, c, t, c'
  | .comparison, c, t, c'
  | .notTest, c, t, c'
  | .andTest, c, t, c'
  | .orTest, c, t, c'
  | .noCondTest, c, t, c'
  | .test, c, t, c'
  | .namedExpression, c, t, c'
  | .testlistComp, c, t, c'
  | .trailer, c, t, c'
  | .subscriptList, c, t, c'
  | .subscript, c, t, c'
  | .exprlist, c, t, c'
  | .testlist, c, t, c'
  | .arglist, c, t, c'
  | .argument, c, t, c'
  | .compIter, c, t, c'
  | .syncCompFor, c, t, c'
  | .compFor, c, t, c'
  | .compIf, c, t, c'
  | .yieldExpr, c, t, c'
  | .testlistStarExpr, c, t, c'
  | .varArgsList, c, t, c'
  | .varArgsAssignments, c, t, c'
  | .vfpDef, c, t, c'
  | .stmt, c, t, c'
  | .simpleStmt, c, t, c'
  | .smallStmt, c, t, c'
  | .exprStmt, c, t, c'
  | .delStmt, c, t, c'
  | .passStmt, c, t, c'
  | .flowStmt, c, t, c'
  | .breakStmt, c, t, c'
  | .continueStmt, c, t, c'
  | .returnStmt, c, t, c'
  | .yieldStmt, c, t, c'
  | .raiseStmt, c, t, c'
  | .importStmt, c, t, c'
  | .importName, c, t, c'
  | .importFrom, c, t, c'
  | .importAsName, c, t, c'
  | .dottedAsName, c, t, c'
  | .importAsNames, c, t, c'
  | .dottedAsNames, c, t, c'
  | .dottedName, c, t, c'
  | .globalStmt, c, t, c'
  | .nonlocalStmt, c, t, c'
  | .assertStmt, c, t, c'
  | .compoundStmt, c, t, c'
  | .asyncStmt, c, t, c'
  | .ifStmt, c, t, c'
  | .elifStmt, c, t, c'
  | .elseStmt, c, t, c'
  | .whileStmt, c, t, c'
  | .forStmt, c, t, c'
  | .tryStmt, c, t, c'
  | .finallyStmt, c, t, c'
  | .withStmt, c, t, c'
  | .withItem, c, t, c'
  | .exceptStmt, c, t, c'
  | .exceptClause, c, t, c'
  | .suite, c, t, c'
  | .asyncFuncDef, c, t, c'
  | .funcDef, c, t, c'
  | .parameters, c, t, c'
  | .typedArgsList, c, t, c'
  | .tfpDefAssign, c, t, c'
  | .tfpDef, c, t, c'
  | .funcBodySuite, c, t, c'
  | .classDef, c, t, c'
  | .funcType, c, t, c'
  | .typeList, c, t, c'
  | .patternsMatch, c, t, c' => Sp1 c t c'


theorem Sp1.mk {c c' t} (h : Sp c [t] c') : Sp1 c t c' := h
theorem Sp1.elim {c c' t} (h : Sp1 c t c') : Sp c [t] c' := h
theorem SpFrom.elim {s l c t c'} (h : SpFrom s l c t c') : ∀ c0, s = c0.pos → Sp c0 l c → Sp1 c0 t c' := h
theorem SpFromE.elim {s l c t c'} (h : SpFromE s l c t c') : ∀ c0, s = c0.pos → Spans s c0 l c → Sp1 c0 t c' := h
theorem SpFromE.intro {s l c t c'} (h : ∀ c0, s = c0.pos → Spans s c0 l c → Sp1 c0 t c') : SpFromE s l c t c' := h
theorem SpFrom.intro {s l c t c'} (h : ∀ c0, s = c0.pos → Sp c0 l c → Sp1 c0 t c') : SpFrom s l c t c' := h
theorem Sp1.of {s c c1 m t c'} (h : SpFrom s m c1 t c') (h1 : Sp c m c1) (hs : s = c.pos) : Sp1 c t c' := h _ hs h1
theorem SpFrom.step {s l m c1 t c' c} (h : SpFrom s (l ++ m) c1 t c') (h1 : Sp c m c1) : SpFrom s l c t c' :=
  fun c0 hs hp => h c0 hs (hp.app h1)
theorem SpFrom.fin {s l m fs tag e c c'} (h : arrange tag fs = some (l ++ m)) (h1 : Sp c m c') (he : e = c'.pos)
    (hn : tag.isEntry = false := by rfl) : SpFrom s l c (.node tag s e fs) c' :=
  fun c0 hs hp => Sp.node h (hp.app h1) hs he hn
theorem SpFrom.re {s l m c1 t c' c} (h : SpFrom s m c1 t c') (h2 : ∀ c0, s = c0.pos → Sp c0 l c → Sp c0 m c1) :
    SpFrom s l c t c' := fun c0 hs hp => h c0 hs (h2 c0 hs hp)
theorem SpFrom.self (s l c) : SpFrom s [l] c l c := fun _ _ h => h
theorem SpFromE.to {s l c t c'} (h : SpFromE s l c t c') : SpFrom s l c t c' := fun c0 hs hp => h c0 hs (hp s)
theorem SpFromE.step {s l m c1 t c' c} (h : SpFromE s (l ++ m) c1 t c') (h1 : Spans s c m c1) : SpFromE s l c t c' :=
  fun c0 hs hp => h c0 hs (hp.app h1)
theorem SpFromE.fin {s l m fs tag e c c'} (h : arrange tag fs = some (l ++ m)) (h1 : Spans s c m c') (he : e = c'.pos)
    (hn : tag.isEntry = false := by rfl) : SpFromE s l c (.node tag s e fs) c' :=
  fun c0 hs hp _ => .node (.inl h) (by rw [hn]; exact hs) he (hp.app h1) (.nil rfl rfl)
theorem sp1_exc {c : PSt} {x t c'} : Sp1 ⟨c.lex, c.symbol, x⟩ t c' ↔ Sp1 c t c' := sp_exc
theorem sp1_exc' {c : PSt} {x t c'} : Sp1 c t ⟨c'.lex, c'.symbol, x⟩ ↔ Sp1 c t c' := sp_exc'

/-- A loop adds a separator and an element. -/
theorem SpFrom.snoc {s p ns ss c2 y c3 c t x} (hl : List.length ss + 1 = List.length ns)
    (h : (ss ++ [t]).length + 1 = (ns ++ [x]).length →
      SpFrom s (p ++ alternate (ns ++ [x]) ((ss ++ [t]).map Tree.tok)) c2 y c3)
    (h1 : Sp c [.tok t, x] c2) : SpFrom s (p ++ alternate ns (ss.map .tok)) c y c3 := by
  have h := h (by simpa using hl)
  rw [List.map_append, List.map_singleton, alternate_snoc (by simpa using hl), ← List.append_assoc] at h
  exact SpFrom.step h h1

theorem SpFromE.snoc {s p ns ss c2 y c3 c t x} (hl : List.length ss + 1 = List.length ns)
    (h : (ss ++ [t]).length + 1 = (ns ++ [x]).length →
      SpFromE s (p ++ alternate (ns ++ [x]) ((ss ++ [t]).map Tree.tok)) c2 y c3)
    (h1 : Spans s c [.tok t, x] c2) : SpFromE s (p ++ alternate ns (ss.map .tok)) c y c3 := by
  have h := h (by simpa using hl)
  rw [List.map_append, List.map_singleton, alternate_snoc (by simpa using hl), ← List.append_assoc] at h
  exact SpFromE.step h h1

/-- A loop adds a trailing separator. -/
theorem SpFrom.trail {s ns ss y c3 c t t2} (hl : List.length ss + 1 = List.length ns)
    (h : SepOk c.advance ns (ss ++ [t]) → SpFrom s (alternate ns ((ss ++ [t]).map Tree.tok)) c.advance y c3)
    (hs : c.symbol = .ok t) (hs2 : c.advance.symbol = .ok t2) (hk : t2.kind ≠ .PyComa) :
    SpFrom s (alternate ns (ss.map .tok)) c y c3 := by
  have h := h (.inr ⟨by simpa using hl, by rintro rfl; simp at hl, t2, hs2, hk⟩)
  rw [List.map_append, List.map_singleton, alternate_trailing (by simpa using hl)] at h
  exact SpFrom.step h (.tok hs (.refl _))

theorem SpFromE.trail {s ns ss y c3 c t t2} (hl : List.length ss + 1 = List.length ns)
    (h : SepOk c.advance ns (ss ++ [t]) → SpFromE s (alternate ns ((ss ++ [t]).map Tree.tok)) c.advance y c3)
    (hs : c.symbol = .ok t) (hs2 : c.advance.symbol = .ok t2) (hk : t2.kind ≠ .PyComa) :
    SpFromE s (alternate ns (ss.map .tok)) c y c3 := by
  have h := h (.inr ⟨by simpa using hl, by rintro rfl; simp at hl, t2, hs2, hk⟩)
  rw [List.map_append, List.map_singleton, alternate_trailing (by simpa using hl)] at h
  exact SpFromE.step h (.tok hs (.nil rfl rfl))

theorem SpLoose.step {s v v' c1 t c' c m} (h : SpLoose s v' c1 t c') (hm : ∀ l, Holds v l → Holds v' (l ++ m))
    (h1 : Sp c m c1) : SpLoose s v c t c' := fun l hl => SpFrom.step (h _ (hm l hl)) h1

theorem Sp1.ofLoose {s v c1 t c' c l} (h : SpLoose s v c1 t c') (hl : Holds v l) (h1 : Sp c l c1) (hs : s = c.pos) :
    Sp1 c t c' := Sp1.of (h _ hl) h1 hs

theorem SpLoose.fin {s v tag rest c} (ha : ∀ fs, arrange tag fs = Option.none) (hn : tag.isEntry = false)
    (hr : present rest = present [v.mulS, v.mulN, v.powS, v.powN, v.div]) :
    SpLoose s v c (.node tag s c.pos (.seq v.nodes.reverse :: .toks v.seps.reverse :: rest)) c := by
  intro l ⟨h1, h2, h3⟩ c0 hs hp
  refine fun b => .node (.inr ⟨ha _, ?_, ?_, ?_⟩) (by rw [hn]; exact hs) rfl (hp _) (.nil rfl rfl)
  · refine h1.trans ?_
    rw [present_append, present_append, present_append, present_append, hr]
    refine List.Perm.append_right _ (List.Perm.append ?_ ?_)
    · exact (List.reverse_perm _).symm.filter _
    · exact ((List.reverse_perm _).symm.map _).filter _
  · rw [List.reverse_reverse]; exact h2
  · rw [List.map_reverse, List.reverse_reverse, present_toks]; exact h3

theorem SpPeek.intro {k c t c'} (h : ∃ tag fs fs' u, t = .node tag c.pos c'.pos fs ∧ c'.symbol = .ok u ∧ u.kind = k ∧ tag.isEntry = false ∧
    (arrange tag fs = some (fs' ++ [.tok u]) ∨ (arrange tag fs = Option.none ∧ Interleaves fs (fs' ++ [.tok u]))) ∧
    Sp c fs' c') : SpPeek k c t c' := h
theorem SpPeek.elim {k c t c'} (h : SpPeek k c t c') : ∃ tag fs fs' u, t = .node tag c.pos c'.pos fs ∧ c'.symbol = .ok u ∧ u.kind = k ∧ tag.isEntry = false ∧
    (arrange tag fs = some (fs' ++ [.tok u]) ∨ (arrange tag fs = Option.none ∧ Interleaves fs (fs' ++ [.tok u]))) ∧
    Sp c fs' c' := h
theorem SpFromPeek.intro {k s l c t c'} (h : ∀ c0, s = c0.pos → Sp c0 l c → SpPeek k c0 t c') : SpFromPeek k s l c t c' := h
theorem SpFromPeek.step {k s l m c1 t c' c} (h : SpFromPeek k s (l ++ m) c1 t c') (h1 : Sp c m c1) : SpFromPeek k s l c t c' :=
  fun c0 hs hp => h c0 hs (hp.app h1)
theorem SpPeek.of {k s l c1 t c' c} (h : SpFromPeek k s l c1 t c') (h1 : Sp c l c1) (hs : s = c.pos) : SpPeek k c t c' := h _ hs h1
theorem SpFromPeek.fin {k s l fs tag c u} (h : arrange tag fs = some (l ++ [.tok u])) (h1 : c.symbol = .ok u)
    (h2 : u.kind = k) (hn : tag.isEntry = false := by rfl) : SpFromPeek k s l c (.node tag s c.pos fs) c :=
  fun c0 hs hp => ⟨tag, fs, l, u, by rw [hs], h1, h2, hn, .inl h, hp⟩

end

theorem pos_exc (c : PSt) (x) : PSt.pos ⟨c.lex, c.symbol, x⟩ = c.pos := rfl
theorem pos_eq (c : PSt) : c.lex.tokStart = c.pos := rfl

syntax "sp" : tactic
macro_rules
  | `(tactic| sp) => `(tactic| first
    | with_reducible exact Sp.refl _
    | (refine Sp.tok (by with_reducible assumption) ?_; sp)
    | (refine Sp.none ?_; sp)
    | (refine Sp.cons (Sp1.elim (by with_reducible assumption)) ?_; sp)
    | (refine Sp.cons (Sp.node rfl ?_ rfl rfl) ?_; sp; sp)
    | (refine Sp.seq ?_; (try simp only [List.cons_append, List.nil_append]); sp))

macro "sp_close" : tactic => `(tactic| first
  | with_reducible assumption
  | ((with_reducible apply Sp1.mk); sp)
  | (apply Sp1.of (by with_reducible assumption) ?_ rfl; sp)
  | trivial
  | contradiction)

syntax "sp_simp" (" [" Lean.Parser.Tactic.simpLemma,* "]")? : tactic
macro_rules
  | `(tactic| sp_simp) => `(tactic| sp_simp [])
  | `(tactic| sp_simp [$ls,*]) => `(tactic| simp only [wp_bind, wp_here, wp_symAt, wp_symHere, wp_sym?, wp_ite,
  wp_next, wp_mk, wp_parse, wp_fail, wp_failHere, wp_panic, wp_pure, wp_ret, wp_getExc, wp_setExc, pos_eq,
  implies_true, and_true, true_and, ΦP, advance_exc, pos_exc, sp1_exc, sp1_exc', sp_exc, sp_exc', sepOk_one, List.map_nil, List.map_cons, alternate_one, true_implies, List.length_singleton, List.length_nil, Nat.zero_add, imp_self, forall_const, $ls,*])

end Verif
