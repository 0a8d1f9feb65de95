import Verif.Proof.Reads
import Verif.Proof.SimpSets
import Verif.Spec.Shape

/-!
# Every node has the shape of its variant: preparation
-/

namespace Verif
set_option linter.unusedVariables false
set_option linter.unusedSimpArgs false
open Field Sch

/-- A tree with right nodes that is such a field. -/
def Sh (f : Field) (t : Tree) : Prop := t.All NodeOk ∧ Has f t
/-- A list of them. -/
def ShL (f : Field) (l : List Tree) : Prop := AllIn NodeOk l ∧ ∀ a ∈ l, Has f a
/-- Tokens of the kind. -/
def Tk (x : Kind) (l : List Token) : Prop := ∀ u ∈ l, u.kind = x
/-- The current symbol has the kind. -/
def CurIs (x : Kind) (c : PSt) : Prop := ∃ t, c.symbol = .ok t ∧ t.kind = x
/-- The parts of a parameter list; `d` separators are missing. -/
def ShV (f : Field) (v : VA) (d : Nat) : Prop :=
  ShL f v.nodes ∧ Tk .PyComa v.seps ∧ Has (opt (k .PyMul)) v.mulS ∧ Has (opt f) v.mulN ∧ v.mulN.All NodeOk ∧
  v.mulS.count = v.mulN.count ∧ v.powS = .none ∧ v.powN = .none ∧ Has (opt (k .PyDiv)) v.div ∧
  v.seps.length + d = v.nodes.length + v.mulS.count + v.div.count

section
variable [Uni]
/-- What is proved of each parse function. -/
def ΦS : Fn → PSt → Tree → PSt → Prop
  | .atomStrLoop _ ts, c, y, c' => ts ≠ [] → Tk .AtomString ts → Sh (e 16) y
  | .trailerLoop _ a r l, c, y, c' => Has (opt (k .PyAwait)) a → Sh (e 16) r → ShL trailers l → Sh (e 15) y
  | .termLoop _ l, c, y, c' => Sh (e 12) l → Sh (e 12) y
  | .arithLoop _ l, c, y, c' => Sh (e 11) l → Sh (e 11) y
  | .shiftLoop _ l, c, y, c' => Sh (e 10) l → Sh (e 10) y
  | .andExprLoop _ l, c, y, c' => Sh (e 9) l → Sh (e 9) y
  | .xorExprLoop _ l, c, y, c' => Sh (e 8) l → Sh (e 8) y
  | .exprLoop _ l, c, y, c' => Sh (e 7) l → Sh (e 7) y
  | .comparisonLoop _ l, c, y, c' => Sh (e 6) l → Sh (e 6) y
  | .andTestLoop _ l, c, y, c' => Sh (e 4) l → Sh (e 4) y
  | .orTestLoop _ l, c, y, c' => Sh (e 3) l → Sh (e 3) y
  | .lambdaDef _, c, y, c' => CurIs .PyLambda c → Sh (is [.Lambda]) y
  | .testlistCompLoop _ ns ss, c, y, c' => ShL elem ns → Tk .PyComa ss → ss.length + 1 = ns.length → Sh (is [.TestListComp]) y
  | .subscriptListLoop _ ns ss, c, y, c' => ShL (is [.Subscript]) ns → Tk .PyComa ss → ss.length + 1 = ns.length → Sh (is [.SubscriptList]) y
  | .exprlistLoop _ ns ss, c, y, c' => ShL elem ns → Tk .PyComa ss → SepOk c ns ss → Sh exprs y
  | .testlistLoop _ ns ss, c, y, c' => ShL (e 2) ns → Tk .PyComa ss → SepOk c ns ss → Sh testlist y
  | .setLoop _ ns ss, c, y, c' => ShL (or (e 2) (is [.MulSet])) ns → Tk .PyComa ss → SepOk c ns ss → Sh (is [.SetContainer]) y
  | .arglistLoop _ ns ss, c, y, c' => ShL (is [.Argument]) ns → Tk .PyComa ss → SepOk c ns ss → Sh (is [.ArgList]) y
  | .testlistStarExprLoop _ ns ss, c, y, c' => ShL starTest ns → Tk .PyComa ss → SepOk c ns ss → Sh starlist y
  | .varArgsMainLoop _ v, c, y, c' => ShV param v 1 → v.mulS = .none → v.div = .none → Sh (is [.VarArgsList]) y
  | .varArgsStarLoop _ v, c, y, c' => ShV param v 1 → Sh (is [.VarArgsList]) y
  | .varArgsDivLoop _ v, c, y, c' => ShV param v 1 → v.mulS = .none → Sh (is [.VarArgsList]) y
  | .simpleStmtLoop _ ns ss, c, y, c' => ShL simple ns → Tk .PySemiColon ss → ss.length + 1 = ns.length → Sh (is [.SimpleStmtList]) y
  | .assignLoop _ l ns, c, y, c' => Sh starlist l → ShL (pair (k .PyAssign) rhs) ns → (ns = [] → CurIs .PyAssign c) →
    Sh (is [.AssignmentStmt]) y
  | .annAssign _ l, c, y, c' => Sh starlist l → Sh (is [.AnnAssignStmt]) y
  | .importDotLoop _ s ds, c, y, c' => s.kind = .PyFrom → (∀ u ∈ ds, u.kind = .PyDot ∨ u.kind = .PyElipsis) → Sh (is [.ImportFromStmt]) y
  | .importAsNamesLoop _ ns ss, c, y, c' => ShL (is [.ImportAsName]) ns → Tk .PyComa ss → ss.length + 1 = ns.length → Sh (is [.ImportAsNamesStmt]) y
  | .dottedAsNamesLoop _ ns ss, c, y, c' => ShL (is [.DottedAsNameStmt]) ns → Tk .PyComa ss → ss.length + 1 = ns.length → Sh (is [.DottedAsNamesStmt]) y
  | .dottedNameLoop _ ns ss, c, y, c' => Tk .AtomName ns → Tk .PyDot ss → ss.length + 1 = ns.length → Sh (is [.DottedNameStmt]) y
  | .globalLoop _ s ns ss, c, y, c' => s.kind = .PyGlobal → Tk .AtomName ns → Tk .PyComa ss → ss.length + 1 = ns.length → Sh (is [.GlobalStmt]) y
  | .nonlocalLoop _ s ns ss, c, y, c' => s.kind = .PyNonLocal → Tk .AtomName ns → Tk .PyComa ss → ss.length + 1 = ns.length → Sh (is [.NonLocalStmt]) y
  | .ifLoop _ t1 l t2 r ns, c, y, c' => t1.kind = .PyIf → Sh (e 2) l → t2.kind = .PyColon → Sh suite r → ShL (is [.ElifStmt]) ns → Sh (is [.IfStmt]) y
  | .tryLoop _ t1 t2 l ns, c, y, c' => t1.kind = .PyTry → t2.kind = .PyColon → Sh suite l → ShL (head .ExceptStmt (is [.ExceptClauseStmt])) ns → ns ≠ [] →
    Sh (is [.TryStmt]) y
  | .withParenLoop _ t1 lp ns ss, c, y, c' => t1.kind = .PyWith → lp.kind = .PyLeftParen → ShL (or (is [.WithItem]) (head .ExceptStmt (e 2))) ns →
    Tk .PyComa ss → ss.length + 1 = ns.length → Sh (is [.WithStmt]) y
  | .withLoop _ t1 ns ss, c, y, c' => t1.kind = .PyWith → ShL (or (is [.WithItem]) (head .ExceptStmt (e 2))) ns →
    Tk .PyComa ss → ss.length + 1 = ns.length → Sh (is [.WithStmt]) y
  | .suiteLoop _ t1 t2 ns, c, y, c' => t1.kind = .Newline → t2.kind = .Indent → ShL stmt ns → ns ≠ [] → Sh (is [.SuiteStmt]) y
  | .evalLoop _ r ss, c, y, c' => Sh testlist r → Tk .Newline ss → Sh (is [.EvalInput]) y
  | .fileLoop _ ns ss, c, y, c' => ShL stmt ns → Tk .Newline ss → Sh (is [.FileInput]) y
  | .funcTypeLoop _ r ss, c, y, c' => Sh (is [.FuncType]) r → Tk .Newline ss → Sh (is [.FuncTypeInput]) y
  | .decoratorsLoop _ ns, c, y, c' => ShL (is [.Decorator]) ns → ns ≠ [] → Sh (is [.Decorators]) y
  | .funcBodyLoop _ t1 a b t4 ns, c, y, c' => t1.kind = .Newline → t4.kind = .Indent →
    (a = .none ∧ b = .none ∨ Sh (k .TypeComment) a ∧ Sh (k .Newline) b) → ShL stmt ns → ns ≠ [] → Sh (is [.FuncBodySuite]) y
  | .classDef, c, y, c' => Sh (is [.ClassDef]) y ∧ CurIs .PyClass c
  | .typeListMainLoop _ v, c, y, c' => ShV (e 2) v 1 → v.mulS = .none → v.div = .none → Sh (is [.TypeList]) y
  | .typeListStarLoop _ v, c, y, c' => ShV (e 2) v 1 → v.div = .none → Sh (is [.TypeList]) y
  | .patternsMatch, c, y, c' => False
  | .atom, c, y, c' => Sh (e 16) y
  | .atomExpr, c, y, c' => Sh (e 15) y
  | .power, c, y, c' => Sh (e 14) y
  | .factor, c, y, c' => Sh (e 13) y
  | .term, c, y, c' => Sh (e 12) y
  | .arith, c, y, c' => Sh (e 11) y
  | .shift, c, y, c' => Sh (e 10) y
  | .andExpr, c, y, c' => Sh (e 9) y
  | .xorExpr, c, y, c' => Sh (e 8) y
  | .expr, c, y, c' => Sh (e 7) y
  | .starExpr, c, y, c' => Sh (is [.StarExpr]) y
  | .comparison, c, y, c' => Sh (e 6) y
  | .notTest, c, y, c' => Sh (e 5) y
  | .andTest, c, y, c' => Sh (e 4) y
  | .orTest, c, y, c' => Sh (e 3) y
  | .noCondTest, c, y, c' => Sh (or (e 3) (is [.Lambda])) y
  | .test, c, y, c' => Sh (e 2) y
  | .namedExpression, c, y, c' => Sh (e 1) y
  | .testlistComp, c, y, c' => Sh (is [.TestListComp]) y
  | .trailer, c, y, c' => Sh (trailers) y
  | .subscriptList, c, y, c' => Sh (is [.SubscriptList]) y
  | .subscript, c, y, c' => Sh (is [.Subscript]) y
  | .exprlist, c, y, c' => Sh (exprs) y
  | .testlist, c, y, c' => Sh (testlist) y
  | .dictorsetMaker, c, y, c' => Sh (is [.DictionaryContainer, .SetContainer]) y
  | .arglist, c, y, c' => Sh (is [.ArgList]) y
  | .argument, c, y, c' => Sh (is [.Argument]) y
  | .compIter, c, y, c' => Sh (iter) y
  | .syncCompFor, c, y, c' => Sh (is [.SyncCompForComprehension]) y
  | .compFor, c, y, c' => Sh (comp) y
  | .compIf, c, y, c' => Sh (is [.CompIfComprehension]) y
  | .yieldExpr, c, y, c' => Sh (yields) y
  | .testlistStarExpr, c, y, c' => Sh (starlist) y
  | .varArgsList, c, y, c' => Sh (is [.VarArgsList]) y
  | .varArgsAssignments, c, y, c' => Sh (param) y
  | .vfpDef, c, y, c' => Sh (is [.VFPDef]) y
  | .stmt, c, y, c' => Sh (stmt) y
  | .simpleStmt, c, y, c' => Sh (is [.SimpleStmtList]) y
  | .smallStmt, c, y, c' => Sh (simple) y
  | .exprStmt, c, y, c' => Sh (simple) y
  | .delStmt, c, y, c' => Sh (is [.DelStmt]) y
  | .passStmt, c, y, c' => Sh (is [.PassStmt]) y
  | .flowStmt, c, y, c' => Sh (simple) y
  | .breakStmt, c, y, c' => Sh (is [.BreakStmt]) y
  | .continueStmt, c, y, c' => Sh (is [.ContinueStmt]) y
  | .returnStmt, c, y, c' => Sh (is [.ReturnStmt]) y
  | .yieldStmt, c, y, c' => Sh (yields) y
  | .raiseStmt, c, y, c' => Sh (is [.RaiseStmt]) y
  | .importStmt, c, y, c' => Sh (is [.ImportNameStmt, .ImportFromStmt]) y
  | .importName, c, y, c' => Sh (is [.ImportNameStmt]) y
  | .importFrom, c, y, c' => Sh (is [.ImportFromStmt]) y
  | .importAsName, c, y, c' => Sh (is [.ImportAsName]) y
  | .dottedAsName, c, y, c' => Sh (is [.DottedAsNameStmt]) y
  | .importAsNames, c, y, c' => Sh (is [.ImportAsNamesStmt]) y
  | .dottedAsNames, c, y, c' => Sh (is [.DottedAsNamesStmt]) y
  | .dottedName, c, y, c' => Sh (is [.DottedNameStmt]) y
  | .globalStmt, c, y, c' => Sh (is [.GlobalStmt]) y
  | .nonlocalStmt, c, y, c' => Sh (is [.NonLocalStmt]) y
  | .assertStmt, c, y, c' => Sh (is [.AssertStmt]) y
  | .compoundStmt, c, y, c' => Sh (compound) y
  | .asyncStmt, c, y, c' => Sh (is [.AsyncStmt]) y
  | .ifStmt, c, y, c' => Sh (is [.IfStmt]) y
  | .elifStmt, c, y, c' => Sh (is [.ElifStmt]) y
  | .elseStmt, c, y, c' => Sh (is [.ElseStmt]) y
  | .whileStmt, c, y, c' => Sh (is [.WhileStmt]) y
  | .forStmt, c, y, c' => Sh (is [.ForStmt]) y
  | .tryStmt, c, y, c' => Sh (is [.TryStmt]) y
  | .finallyStmt, c, y, c' => Sh (is [.FinallyStmt]) y
  | .withStmt, c, y, c' => Sh (is [.WithStmt]) y
  | .withItem, c, y, c' => Sh (or (is [.WithItem]) (head .ExceptStmt (e 2))) y
  | .exceptStmt, c, y, c' => Sh (head .ExceptStmt (is [.ExceptClauseStmt])) y
  | .exceptClause, c, y, c' => Sh (is [.ExceptClauseStmt]) y
  | .suite, c, y, c' => Sh (suite) y
  | .evalInput, c, y, c' => Sh (is [.EvalInput]) y
  | .fileInput, c, y, c' => Sh (is [.FileInput]) y
  | .singleInput, c, y, c' => Sh (is [.SingleInput]) y
  | .funcTypeInput, c, y, c' => Sh (is [.FuncTypeInput]) y
  | .decorator, c, y, c' => Sh (is [.Decorator]) y
  | .decorators, c, y, c' => Sh (is [.Decorators]) y
  | .decorated, c, y, c' => Sh (is [.Decorated]) y
  | .asyncFuncDef, c, y, c' => Sh (is [.AsyncStmt]) y
  | .funcDef, c, y, c' => Sh (is [.FuncDef]) y
  | .parameters, c, y, c' => Sh (is [.Parameter]) y
  | .typedArgsList, c, y, c' => Sh (is [.TypedArgsList]) y
  | .tfpDefAssign, c, y, c' => Sh (is [.TFPDef, .TFPAssign]) y
  | .tfpDef, c, y, c' => Sh (is [.TFPDef]) y
  | .funcBodySuite, c, y, c' => Sh (is [.FuncBodySuite, .SimpleStmtList]) y
  | .funcType, c, y, c' => Sh (is [.FuncType]) y
  | .typeList, c, y, c' => Sh (is [.TypeList]) y
end

/-! ### Lemmas -/

theorem allIn_append {P : Tag → List Tree → Prop} : ∀ {a b : List Tree}, AllIn P (a ++ b) ↔ AllIn P a ∧ AllIn P b
  | [], b => by simp [AllIn]
  | x :: a, b => by simp [AllIn, allIn_append (a := a), and_assoc]
theorem allIn_reverse {P : Tag → List Tree → Prop} : ∀ {a : List Tree}, AllIn P a.reverse ↔ AllIn P a
  | [] => by simp [AllIn]
  | x :: a => by simp [AllIn, allIn_append, allIn_reverse (a := a), and_comm]
theorem allIn_toks {P : Tag → List Tree → Prop} : ∀ {a : List Token}, AllIn P (a.map .tok) ↔ True
  | [] => by simp [AllIn]
  | x :: a => by simp [AllIn, Tree.All, allIn_toks (a := a)]
theorem all_toks {P : Tag → List Tree → Prop} {a : List Token} : (Tree.toks a).All P ↔ True := by
  simp [Tree.toks, Tree.All, allIn_toks]
theorem all_tok {P : Tag → List Tree → Prop} {t} : (Tree.tok t).All P ↔ True := by simp [Tree.All]
theorem all_none {P : Tag → List Tree → Prop} : Tree.none.All P ↔ True := by simp [Tree.All]
theorem all_seq {P : Tag → List Tree → Prop} {l} : (Tree.seq l).All P ↔ AllIn P l := by simp [Tree.All]
theorem all_node {P : Tag → List Tree → Prop} {g s e l} : (Tree.node g s e l).All P ↔ P g l ∧ AllIn P l := by simp [Tree.All]
theorem allIn_nil {P : Tag → List Tree → Prop} : AllIn P [] ↔ True := by simp [AllIn]
theorem allIn_cons {P : Tag → List Tree → Prop} {x l} : AllIn P (x :: l) ↔ x.All P ∧ AllIn P l := by simp [AllIn]

theorem shL_nil {f} : ShL f [] ↔ True := by simp [ShL, AllIn]
theorem shL_snoc {f l x} : ShL f (l ++ [x]) ↔ ShL f l ∧ Sh f x := by
  simp only [ShL, Sh, allIn_append, allIn_cons, allIn_nil, List.mem_append, List.mem_singleton]
  constructor
  · rintro ⟨⟨a, b, _⟩, c⟩; exact ⟨⟨a, fun y h => c y (.inl h)⟩, b, c _ (.inr rfl)⟩
  · rintro ⟨⟨a, b⟩, c, d⟩; exact ⟨⟨a, c, trivial⟩, fun y h => by rcases h with h | rfl; exact b y h; exact d⟩
theorem shL_one {f x} : ShL f [x] ↔ Sh f x := by simpa [shL_nil] using shL_snoc (f := f) (l := []) (x := x)
theorem shL_rev {f l} : ShL f l.reverse ↔ ShL f l := by simp [ShL, allIn_reverse]
theorem tk_nil {x} : Tk x [] ↔ True := by simp [Tk]
theorem tk_snoc {x l t} : Tk x (l ++ [t]) ↔ Tk x l ∧ t.kind = x := by
  simp only [Tk, List.mem_append, List.mem_singleton]
  exact ⟨fun h => ⟨fun y hy => h y (.inl hy), h _ (.inr rfl)⟩, fun h y hy => by rcases hy with hy | rfl; exact h.1 y hy; exact h.2⟩
theorem tk_one {x t} : Tk x [t] ↔ t.kind = x := by simp [Tk]
theorem sh_imp {f t} {P : Prop} : (Sh f t → P) ↔ (t.All NodeOk → Has f t → P) := and_imp

theorem has_t {ks t} : Has (.t ks) (.tok t) ↔ t.kind ∈ ks := by simp [Has]
theorem has_any {t} : Has .any (.tok t) ↔ True := by simp [Has]
theorem has_none : Has .none .none ↔ True := by simp [Has]
theorem has_opt_none {f} : Has (.opt f) .none ↔ True := by simp [Has]
theorem has_pair {f g a b} : Has (.pair f g) (.seq [a, b]) ↔ Has f a ∧ Has g b := by
  simp only [Has, Tree.seq.injEq, List.cons.injEq, and_true]
  exact ⟨fun ⟨_, _, ⟨h1, h2⟩, h3⟩ => by subst h1 h2; exact h3, fun h => ⟨_, _, ⟨rfl, rfl⟩, h⟩⟩
theorem has_empty : Has .empty (.seq []) ↔ True := by simp [Has]
theorem has_many {f l} : Has (.many f) (.seq l) ↔ ∀ a ∈ l, Has f a := by simp [Has]
theorem has_many1 {f l} : Has (.many1 f) (.seq l) ↔ l ≠ [] ∧ ∀ a ∈ l, Has f a := by simp [Has]
theorem has_many_toks {x l} : Has (.many (k x)) (Tree.toks l) ↔ Tk x l := by
  simp [Has, Tree.toks, Tk]
theorem has_many1_toks {x l} : Has (.many1 (k x)) (Tree.toks l) ↔ l ≠ [] ∧ Tk x l := by
  simp [Has, Tree.toks, Tk]
theorem has_or {f g t} : Has (.or f g) t ↔ Has f t ∨ Has g t := by rw [Has]
theorem has_e {n t} : Has (.e n) t ↔ n ≤ t.strength := by rw [Has]
theorem has_is {l t} : Has (.is l) t ↔ ∃ g ∈ l, t.tag? = some g := by rw [Has]
theorem has_head {g f g' s e a l} : Has (.head g f) (.node g' s e (a :: l)) ↔ g' = g ∧ Has f a := by
  simp only [Has, Tree.node.injEq, List.cons.injEq]
  constructor
  · rintro ⟨_, _, _, _, ⟨h, _, _, rfl, _⟩, h2⟩; exact ⟨h, h2⟩
  · rintro ⟨rfl, h⟩; exact ⟨_, _, _, _, ⟨rfl, rfl, rfl, rfl, rfl⟩, h⟩
theorem strength_tag {t : Tree} {g} (h : t.tag? = some g) : t.strength = g.strength := by
  cases t <;> simp [Tree.tag?] at h; subst h; rfl
theorem tag_node {g s e l} : (Tree.node g s e l).tag? = some g := rfl
theorem strength_node {g s e l} : (Tree.node g s e l).strength = g.strength := rfl
theorem len_seq {l} : (Tree.seq l).len = l.length := rfl
theorem len_toks {l} : (Tree.toks l).len = l.length := by simp [Tree.toks, Tree.len]
theorem count_none : Tree.none.count = 0 := rfl
theorem count_tok {t} : (Tree.tok t).count = 1 := rfl
theorem count_tag {t : Tree} {g} (h : t.tag? = some g) : t.count = 1 := by cases t <;> simp [Tree.tag?] at h; rfl
theorem count_e {t : Tree} {k} (h : k + 1 ≤ t.strength) : t.count = 1 := by cases t <;> simp_all [Tree.strength, Tree.count]
theorem has_weaken {m n t} (h : Has (.e n) t) (hm : m ≤ n) : Has (.e m) t := by rw [has_e] at *; omega


theorem has_opt {f x} : Has (.opt f) x ↔ x = .none ∨ Has f x := by rw [Has]

theorem tk_rev {x l} : Tk x l.reverse ↔ Tk x l := by simp [Tk]

theorem has_dots {a b l} : Has (.many (.t [a, b])) (Tree.toks l) ↔ ∀ u ∈ l, u.kind = a ∨ u.kind = b := by
  simp [Has, Tree.toks]
theorem toks_nil : Tree.toks [] = .seq [] := rfl
theorem has_none_eq {x} : Has .none x ↔ x = .none := by rw [Has]

attribute [sh_tables] tk_rev tk_nil tk_one tk_snoc toks_nil has_dots has_none_eq List.reverse_cons List.reverse_nil
  List.nil_append forall_eq_or_imp forall_eq or_imp forall_and List.mem_append List.cons_append List.append_eq_nil_iff List.cons_ne_nil and_false
  Sch.k Sh ShL has_opt all_node allIn_cons allIn_nil all_tok all_none all_seq all_toks
      allIn_reverse allIn_append NodeOk schema List.mem_cons List.not_mem_nil exists_eq_or_imp exists_eq_left
      or_false false_and exists_false HasAll
      has_t has_any has_none has_opt_none has_pair has_empty has_many has_many1 has_many_toks has_many1_toks has_or
      has_e has_is has_head tag_node strength_node Tag.strength len_seq len_toks count_none count_tok seps
      sepBetween sepTrailing bin un lit commas elem exprs Sch.testlist starTest starlist yields Sch.rhs comp iter param
      trailers simple compound Sch.stmt Sch.suite Sch.as aug and_true true_and Option.some.injEq reduceCtorEq or_true true_or
      List.length_reverse List.length_cons List.length_nil List.length_append List.mem_reverse ne_eq
      List.reverse_eq_nil_iff not_false_eq_true ge_iff_le Nat.le_refl Nat.reduceLeDiff

attribute [sh_rules] wp_bind wp_here wp_symAt wp_symHere wp_sym? wp_ite
  wp_next wp_mk wp_parse wp_fail wp_failHere wp_panic wp_pure wp_ret wp_getExc wp_setExc
  implies_true and_true true_and ΦS true_implies imp_self sh_imp and_imp forall_const false_implies
  shL_nil shL_one shL_snoc tk_nil tk_one tk_snoc sepOk_one
  ne_eq List.append_eq_nil_iff List.cons_ne_nil and_false not_false_eq_true

/-- Unfolds shapes. -/
macro "sh_unfold" : tactic => `(tactic| simp only [sh_tables] at *)

theorem SepOk.more {c d ns ss t x} (h : SepOk c ns ss) (ht : c.symbol = .ok t) (hk : t.kind = .PyComa) :
    SepOk d (ns ++ [x]) (ss ++ [t]) := .inl (by simp [SepOk.comma h ht hk])
theorem SepOk.trail [Uni] {c ns ss t t2} (h : SepOk c ns ss) (ht : c.symbol = .ok t) (hk : t.kind = .PyComa)
    (ht2 : c.advance.symbol = .ok t2) (hk2 : t2.kind ≠ .PyComa) : SepOk c.advance ns (ss ++ [t]) := by
  have h1 := SepOk.comma h ht hk
  exact .inr ⟨by simp [h1], by rintro rfl; simp at h1, t2, ht2, hk2⟩
theorem SepOk.len {c ns ss} (h : SepOk c ns ss) : (ss.length + 1 = ns.length ∨ ss.length = ns.length) ∧ ns ≠ [] := by
  rcases h with h | ⟨h, h2, _⟩
  · exact ⟨.inl h, by rintro rfl; simp at h⟩
  · exact ⟨.inr h, h2⟩
theorem has_lambda {t} (h : Has (.is [.Lambda]) t) : Has (.e 2) t := by
  simp only [has_is, List.mem_singleton, exists_eq_left] at h
  rw [has_e, strength_tag h]; decide
theorem curIs {c t x} (h : c.symbol = .ok t) (hk : t.kind = x) : CurIs x c := ⟨t, h, hk⟩

theorem CurIs.kind {c t x} (hc : CurIs x c) (h : c.symbol = .ok t) : t.kind = x := by
  obtain ⟨u, hu, hk⟩ := hc; rw [h] at hu; cases hu; exact hk
theorem curLambda {c t y} (h : c.symbol = .ok t) (hk : t.kind = .PyLambda) (hy : CurIs .PyLambda c → Sh (is [.Lambda]) y) :
    Sh (e 2) y ∧ Sh (is [.Lambda]) y := by
  have := hy (curIs h hk)
  exact ⟨⟨this.1, has_lambda this.2⟩, this⟩

macro "sh_leaf" : tactic => `(tactic| first
    | with_reducible assumption
    | trivial
    | (with_reducible exact curIs ‹_› ‹_›)
    | (with_reducible exact SepOk.more ‹_› ‹_› ‹_›)
    | ((with_reducible refine SepOk.trail ‹_› ‹_› ‹_› ‹_› ?_); first | grind | (intro hh; simp_all [starListEnd]))
    | (sh_unfold; done)
    | ((try have hsep := SepOk.len (by assumption)); (try have hkind := CurIs.kind (by assumption) (by assumption));
       (try have hlam := curLambda (by assumption) (by assumption) (by assumption));
       (try sh_unfold); grind))

macro "sh_close" : tactic => `(tactic| ((try simp only [ΦS]); first
    | with_reducible assumption
    | ((with_reducible apply_assumption -exfalso -symm) <;> sh_leaf)
    | sh_leaf))

syntax "sh_simp" (" [" Lean.Parser.Tactic.simpLemma,* "]")? : tactic
macro_rules
  | `(tactic| sh_simp) => `(tactic| simp only [sh_rules])
  | `(tactic| sh_simp [$ls,*]) => `(tactic| simp only [sh_rules, $ls,*])

macro "sh_auto" : tactic => `(tactic| (wp_paths <;> sh_close))

end Verif
