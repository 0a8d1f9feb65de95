import Verif.Spec.Ast

/-!
# Statements and programs, how they are written, and the trees expected for them
-/

namespace Verif

/-! ### Simple statements -/

/-- Expressions with commas between them and perhaps a comma after the last one. -/
structure Exprs where
  es : List Ex
  comma : Bool

/-- The operators of augmented assignments. -/
inductive AugOp
  | add | sub | mul | pow | div | floorDiv | mod | mat | bitAnd | bitOr | bitXor | shl | shr

/-- What is assigned. -/
inductive Rhs
  | exprs (l : Exprs)
  | yield (l : Exprs)
  | yieldFrom (e : Ex)

/-- What is imported: a name, perhaps under another name. -/
structure AsName where
  name : List Char
  as? : Option (List Char)

inductive ImportList
  | all
  | plain (x : AsName) (xs : List AsName)
  | paren (x : AsName) (xs : List AsName)

/-- Simple statements. -/
inductive Small
  | expr (l : Exprs)
  | assign (l : Exprs) (r : Rhs) (rs : List Rhs)
  | aug (op : AugOp) (l : Exprs) (r : Rhs)
  | ann (l : Exprs) (ty : Ex) (r : Option Rhs)
  | del (es : List Ex)
  | pass
  | brk
  | cont
  | ret (l : Option Exprs)
  | raise (e : Option (Ex × Option Ex))
  | yield (l : Exprs)
  | yieldFrom (e : Ex)
  | from_ (dots : List Bool) (mod : List (List Char)) (l : ImportList)
  | global (w : List Char) (ws : List (List Char))
  | nonlocal (w : List Char) (ws : List (List Char))
  | assert (e : Ex)

/-- A line of simple statements with semicolons between them and perhaps one after the last one. -/
structure SLine where
  s : Small
  ss : List Small
  semi : Bool

/-! ### Words -/

def wComma : Lexeme := .op (cs! ",") .PyComa
def wColon : Lexeme := .op (cs! ":") .PyColon
def wSemi : Lexeme := .op (cs! ";") .PySemiColon
def wAssign : Lexeme := .op (cs! "=") .PyAssign
def wDot : Lexeme := .op (cs! ".") .PyDot
def wLeft : Lexeme := .op (cs! "(") .PyLeftParen
def wRight : Lexeme := .op (cs! ")") .PyRightParen
def wStar : Lexeme := .op (cs! "*") .PyMul

def Exprs.words (l : Exprs) : List Lexeme := wordsList l.es ++ (if l.comma then [wComma] else [])

def AugOp.word : AugOp → Lexeme
  | .add => .op (cs! "+=") .PyPlusAssign
  | .sub => .op (cs! "-=") .PyMinusAssign
  | .mul => .op (cs! "*=") .PyMulAssign
  | .pow => .op (cs! "**=") .PyPowerAssign
  | .div => .op (cs! "/=") .PyDivAssign
  | .floorDiv => .op (cs! "//=") .PyFloorDivAssign
  | .mod => .op (cs! "%=") .PyModuloAssign
  | .mat => .op (cs! "@=") .PyMatriceAssign
  | .bitAnd => .op (cs! "&=") .PyBitAndAssign
  | .bitOr => .op (cs! "|=") .PyBitOrAssign
  | .bitXor => .op (cs! "^=") .PyBitXorAssign
  | .shl => .op (cs! "<<=") .PyShiftLeftAssign
  | .shr => .op (cs! ">>=") .PyShiftRightAssign

def wYield : Lexeme := .kw (cs! "yield") .PyYield
def wFrom : Lexeme := .kw (cs! "from") .PyFrom
def wAs : Lexeme := .kw (cs! "as") .PyAs
def wImport : Lexeme := .kw (cs! "import") .PyImport

def Rhs.words : Rhs → List Lexeme
  | .exprs l => l.words
  | .yield l => wYield :: l.words
  | .yieldFrom e => wYield :: wFrom :: e.words

def AsName.words (x : AsName) : List Lexeme :=
  .name x.name :: match x.as? with
    | none => []
    | some w => [wAs, .name w]

/-- Elements with a word before each of them. -/
def eachAfter {α : Type} (sep : Lexeme) (f : α → List Lexeme) : List α → List Lexeme
  | [] => []
  | x :: l => sep :: (f x ++ eachAfter sep f l)

def ImportList.words : ImportList → List Lexeme
  | .all => [wStar]
  | .plain x xs => x.words ++ eachAfter wComma AsName.words xs
  | .paren x xs => wLeft :: (x.words ++ (eachAfter wComma AsName.words xs ++ [wRight]))

def dotWord (three : Bool) : Lexeme := if three then .op (cs! "...") .PyElipsis else wDot

def dottedWords : List (List Char) → List Lexeme
  | [] => []
  | w :: ws => .name w :: eachAfter wDot (fun w => [.name w]) ws

def Small.words : Small → List Lexeme
  | .expr l => l.words
  | .assign l r rs => l.words ++ wAssign :: (r.words ++ eachAfter wAssign Rhs.words rs)
  | .aug op l r => l.words ++ op.word :: r.words
  | .ann l ty none => l.words ++ wColon :: ty.words
  | .ann l ty (some r) => l.words ++ wColon :: (ty.words ++ wAssign :: r.words)
  | .del es => .kw (cs! "del") .PyDel :: wordsList es
  | .pass => [.kw (cs! "pass") .PyPass]
  | .brk => [.kw (cs! "break") .PyBreak]
  | .cont => [.kw (cs! "continue") .PyContinue]
  | .ret none => [.kw (cs! "return") .PyReturn]
  | .ret (some l) => .kw (cs! "return") .PyReturn :: l.words
  | .raise none => [.kw (cs! "raise") .PyRaise]
  | .raise (some (e, none)) => .kw (cs! "raise") .PyRaise :: e.words
  | .raise (some (e, some e')) => .kw (cs! "raise") .PyRaise :: (e.words ++ wFrom :: e'.words)
  | .yield l => wYield :: l.words
  | .yieldFrom e => wYield :: wFrom :: e.words
  | .from_ dots mod l => wFrom :: (dots.map dotWord ++ (dottedWords mod ++ wImport :: l.words))
  | .global w ws => .kw (cs! "global") .PyGlobal :: .name w :: eachAfter wComma (fun w => [.name w]) ws
  | .nonlocal w ws => .kw (cs! "nonlocal") .PyNonLocal :: .name w :: eachAfter wComma (fun w => [.name w]) ws
  | .assert e => .kw (cs! "assert") .PyAssert :: e.words

def SLine.words (l : SLine) : List Lexeme :=
  l.s.words ++ (eachAfter wSemi Small.words l.ss ++ (if l.semi then [wSemi] else []))

/-! ### Which ones are well formed -/

/-- At least one expression; no `:=` without brackets, starred ones only if `star`. -/
def Exprs.Wf (star : Bool) (l : Exprs) : Prop :=
  l.es ≠ [] ∧ ∀ e ∈ l.es, e.Wf ∧ (e.level ≤ 15 ∨ (star = true ∧ e.level = 17))

def Rhs.Wf : Rhs → Prop
  | .exprs l => l.Wf false
  | .yield l => l.Wf true
  | .yieldFrom e => e.Wf ∧ e.level ≤ 15

/-- No comma at the end of what is assigned: the `testlist` rule accepts one in front of a newline or semicolon, but not
in front of another `=`. -/
def Rhs.noComma : Rhs → Prop
  | .exprs l => l.comma = false
  | _ => True

/-- All but the last one. -/
def initRhs : Rhs → List Rhs → List Rhs
  | _, [] => []
  | r, r' :: rs => r :: initRhs r' rs

def Small.Wf : Small → Prop
  | .expr l => l.Wf true
  | .assign l r rs => l.Wf true ∧ (∀ x ∈ r :: rs, x.Wf) ∧ ∀ x ∈ initRhs r rs, x.noComma
  | .aug _ l r => l.Wf true ∧ r.Wf
  | .ann l ty r => l.Wf true ∧ ty.Wf ∧ ty.level ≤ 15 ∧ ∀ x ∈ r, x.Wf
  | .del es => es ≠ [] ∧ ∀ e ∈ es, e.Wf ∧ e.level ≤ 17
  | .ret l => ∀ x ∈ l, x.Wf true
  | .raise e => ∀ x ∈ e, x.1.Wf ∧ x.1.level ≤ 15 ∧ ∀ y ∈ x.2, y.Wf ∧ y.level ≤ 15
  | .yield l => l.Wf true
  | .yieldFrom e => e.Wf ∧ e.level ≤ 15
  | .from_ dots mod _ => dots ≠ [] ∨ mod ≠ []
  | .assert e => e.Wf ∧ e.level ≤ 15
  | .pass | .brk | .cont | .global .. | .nonlocal .. => True

def SLine.Wf (l : SLine) : Prop := l.s.Wf ∧ ∀ x ∈ l.ss, x.Wf

/-! ### Compound statements: clauses, each one a header and a suite -/

/-- `e` or `e as e'`. -/
structure WithItem where
  e : Ex
  as? : Option Ex

inductive Head
  | if_ (e : Ex)
  | elif (e : Ex)
  | else_
  | while_ (e : Ex)
  /-- `for a, b, in c, d` -/
  | for_ (es : List Ex) (it : List Ex)
  | try_
  | except (star : Bool) (e : Option (Ex × Option (List Char)))
  | finally_
  | with_ (paren : Bool) (x : WithItem) (xs : List WithItem)
  | def_ (f : List Char) (ret : Option Ex)
  | class_ (w : List Char) (paren : Bool)

mutual
inductive Stm
  | simple (l : SLine)
  | comp (async : Bool) (cs : List Clause)
inductive Clause
  | mk (h : Head) (b : Suite)
/-- The statements of a clause: on the line of its header, or indented on the following lines. -/
inductive Suite
  | inline (l : SLine)
  | block (s : Stm) (ss : List Stm)
end

def WithItem.words (x : WithItem) : List Lexeme :=
  x.e.words ++ match x.as? with
    | none => []
    | some e' => wAs :: e'.words

def Head.words : Head → List Lexeme
  | .if_ e => .kw (cs! "if") .PyIf :: (e.words ++ [wColon])
  | .elif e => .kw (cs! "elif") .PyElif :: (e.words ++ [wColon])
  | .else_ => [.kw (cs! "else") .PyElse, wColon]
  | .while_ e => .kw (cs! "while") .PyWhile :: (e.words ++ [wColon])
  | .for_ es it => .kw (cs! "for") .PyFor :: (wordsList es ++ wComma :: .kw (cs! "in") .PyIn :: (wordsList it ++ [wColon]))
  | .try_ => [.kw (cs! "try") .PyTry, wColon]
  | .except star e => .kw (cs! "except") .PyExcept :: ((if star then [wStar] else []) ++ (match e with
      | none => []
      | some (e, none) => e.words
      | some (e, some w) => e.words ++ [wAs, .name w]) ++ [wColon])
  | .finally_ => [.kw (cs! "finally") .PyFinally, wColon]
  | .with_ false x xs => .kw (cs! "with") .PyWith :: (x.words ++ (eachAfter wComma WithItem.words xs ++ [wColon]))
  | .with_ true x xs => .kw (cs! "with") .PyWith :: wLeft :: (x.words ++ (eachAfter wComma WithItem.words xs ++ [wRight, wColon]))
  | .def_ f none => [.kw (cs! "def") .PyDef, .name f, wLeft, wRight, wColon]
  | .def_ f (some e) => .kw (cs! "def") .PyDef :: .name f :: wLeft :: wRight :: .op (cs! "->") .PyArrow :: (e.words ++ [wColon])
  | .class_ w paren => .kw (cs! "class") .PyClass :: .name w :: ((if paren then [wLeft, wRight] else []) ++ [wColon])

def WithItem.Wf (x : WithItem) : Prop := x.e.Wf ∧ x.e.level ≤ 15 ∧ ∀ y ∈ x.as?, y.Wf ∧ y.level ≤ 10

/-- The expressions of a header are well formed.  Without brackets around the items of a `with` the first one must not
start with a bracket. -/
def Head.Wf : Head → Prop
  | .if_ e | .elif e | .while_ e => e.Wf ∧ e.level ≤ 15
  | .for_ es it => es ≠ [] ∧ it ≠ [] ∧ (∀ e ∈ es, e.Wf ∧ e.level ≤ 17) ∧ ∀ e ∈ it, e.Wf ∧ e.level ≤ 15
  | .except _ e => ∀ x ∈ e, x.1.Wf ∧ x.1.level ≤ 15
  | .with_ paren x xs => (∀ y ∈ x :: xs, y.Wf) ∧ (paren = false → x.e.words.head?.map Lexeme.leaf ≠ some (.sym .PyLeftParen))
  | .def_ _ r => ∀ e ∈ r, e.Wf ∧ e.level ≤ 15
  | .else_ | .try_ | .finally_ | .class_ .. => True

/-- Which headers the clauses of one statement have. -/
inductive HeadsOk : List Head → Prop
  | if_ {e} {es : List Ex} : HeadsOk (.if_ e :: es.map .elif)
  | ifElse {e} {es : List Ex} : HeadsOk (.if_ e :: (es.map .elif ++ [.else_]))
  | while_ {e} : HeadsOk [.while_ e]
  | whileElse {e} : HeadsOk [.while_ e, .else_]
  | for_ {es it} : HeadsOk [.for_ es it]
  | forElse {es it} : HeadsOk [.for_ es it, .else_]
  | tryFinally : HeadsOk [.try_, .finally_]
  | tryExcept {star e} {es : List (Option (Ex × Option (List Char)))} : HeadsOk (.try_ :: (e :: es).map (.except star))
  | tryElse {star e} {es : List (Option (Ex × Option (List Char)))} : HeadsOk (.try_ :: ((e :: es).map (.except star) ++ [.else_]))
  | tryExceptFinally {star e} {es : List (Option (Ex × Option (List Char)))} : HeadsOk (.try_ :: ((e :: es).map (.except star) ++ [.finally_]))
  | tryElseFinally {star e} {es : List (Option (Ex × Option (List Char)))} : HeadsOk (.try_ :: ((e :: es).map (.except star) ++ [.else_, .finally_]))
  | with_ {p x xs} : HeadsOk [.with_ p x xs]
  | def_ {f r} : HeadsOk [.def_ f r]
  | class_ {w p} : HeadsOk [.class_ w p]

def Clause.head : Clause → Head
  | .mk h _ => h

def Head.asyncOk : Head → Prop
  | .for_ .. | .with_ .. | .else_ => True
  | _ => False

/-- The kind of `except` clauses in this list: with a star or without. -/
def excOf : List Head → Option Bool
  | [] => none
  | .except star _ :: _ => some star
  | _ :: hs => excOf hs

mutual
/-- Well formed statements.  `k`: the only kind of `except` clauses allowed, if given; inside of a `try` statement with
`except` clauses all `except` clauses must be of the kind of that statement (the parser forgets the kind of the outer
statement at an inner one). -/
def Stm.Wf (k : Option Bool) : Stm → Prop
  | .simple l => l.Wf ∧ l.words.head?.map Lexeme.leaf ≠ some (.name (cs! "match"))
  | .comp async cs => HeadsOk (cs.map Clause.head) ∧ (async = true → ∀ c ∈ cs, c.head.asyncOk) ∧
      (∀ x ∈ k, ∀ y ∈ excOf (cs.map Clause.head), x = y) ∧
      wfClauses ((excOf (cs.map Clause.head)).or k) cs
def wfClauses (k : Option Bool) : List Clause → Prop
  | [] => True
  | .mk h b :: cs => h.Wf ∧ b.Wf k ∧ wfClauses k cs
def Suite.Wf (k : Option Bool) : Suite → Prop
  | .inline l => l.Wf
  | .block s ss => s.Wf k ∧ wfStms k ss
def wfStms (k : Option Bool) : List Stm → Prop
  | [] => True
  | s :: ss => s.Wf k ∧ wfStms k ss
end

/-! ### The tokens of a statement, with those of the layout -/

mutual
def Stm.leaves : Stm → List Leaf
  | .simple l => l.words.map Lexeme.leaf ++ [.sym .Newline]
  | .comp async cs => (if async then [.sym .PyAsync] else []) ++ clauseLeaves cs
def clauseLeaves : List Clause → List Leaf
  | [] => []
  | .mk h b :: cs => h.words.map Lexeme.leaf ++ (b.leaves ++ clauseLeaves cs)
def Suite.leaves : Suite → List Leaf
  | .inline l => l.words.map Lexeme.leaf ++ [.sym .Newline]
  | .block s ss => .sym .Newline :: .sym .Indent :: (s.leaves ++ (stmLeaves ss ++ [.sym .Dedent]))
def stmLeaves : List Stm → List Leaf
  | [] => []
  | s :: ss => s.leaves ++ stmLeaves ss
end

/-! ### The lines of a statement -/

/-- A word in front of the first line. -/
def onFirst (ws : List Lexeme) : List Line → List Line
  | [] => []
  | ln :: r => ⟨ln.blanks, ws ++ ln.words⟩ :: r

mutual
/-- The lines of a statement whose first line is indented by `ind`; each block is indented by another `u`. -/
def Stm.lines (u ind : List Char) : Stm → List Line
  | .simple l => [⟨ind, l.words⟩]
  | .comp async cs => onFirst (if async then [.kw (cs! "async") .PyAsync] else []) (clauseLines u ind cs)
def clauseLines (u ind : List Char) : List Clause → List Line
  | [] => []
  | .mk h b :: cs => b.lines u ind h.words ++ clauseLines u ind cs
/-- The first line starts with the header `hd`. -/
def Suite.lines (u ind : List Char) (hd : List Lexeme) : Suite → List Line
  | .inline l => [⟨ind, hd ++ l.words⟩]
  | .block s ss => ⟨ind, hd⟩ :: (s.lines u (ind ++ u) ++ stmLines u (ind ++ u) ss)
def stmLines (u ind : List Char) : List Stm → List Line
  | [] => []
  | s :: ss => s.lines u ind ++ stmLines u ind ss
end

/-! ### The trees expected -/

/-- A list of elements, in the order of the source for `testlist` and `exprlist`, reversed for `testlist_star_expr`; one
element without a comma stands for itself. -/
def exprsSk (tag : Tag) (rev : Bool) (l : Exprs) : Sk :=
  match l.es, l.comma with
  | [e], false => e.sk
  | es, c => .node tag [.seq (if rev then (es.map Ex.sk).reverse else es.map Ex.sk),
      .seq (List.replicate (es.length - 1 + if c then 1 else 0) (kd .PyComa))]

def Exprs.starSk (l : Exprs) : Sk := exprsSk .TestListStarExpr true l

def Rhs.sk : Rhs → Sk
  | .exprs l => exprsSk .TestList false l
  | .yield l => .node .YieldExpr [kd .PyYield, l.starSk]
  | .yieldFrom e => .node .YieldFromExpr [kd .PyYield, kd .PyFrom, e.sk]

def AugOp.tag : AugOp → Tag
  | .add => .PlusAssignStmt
  | .sub => .MinusAssignStmt
  | .mul => .MulAssignStmt
  | .pow => .PowerAssignStmt
  | .div => .DivAssignStmt
  | .floorDiv => .FloorDivAssignStmt
  | .mod => .ModuloAssignStmt
  | .mat => .MatriceAssignStmt
  | .bitAnd => .BitAndAssignStmt
  | .bitOr => .BitOrAssignStmt
  | .bitXor => .BitXorAssignStmt
  | .shl => .ShiftLeftAssignStmt
  | .shr => .ShiftRightAssignStmt

def nm (w : List Char) : Sk := .leaf (.name w)

def AsName.sk (x : AsName) : Sk :=
  .node .ImportAsName [nm x.name, match x.as? with
    | none => .none
    | some w => .seq [kd .PyAs, nm w]]

def asNamesSk (xs : List AsName) : Sk :=
  .node .ImportAsNamesStmt [.seq (xs.map AsName.sk).reverse, commas xs.length]

def dottedSk : List (List Char) → Sk
  | [] => .none
  | ws => .node .DottedNameStmt [.seq (ws.map nm).reverse, .seq (List.replicate (ws.length - 1) (kd .PyDot))]

def Small.sk : Small → Sk
  | .expr l => l.starSk
  | .assign l r rs => .node .AssignmentStmt [l.starSk, .seq ((r :: rs).map fun x => .seq [kd .PyAssign, x.sk]), .none]
  | .aug op l r => .node op.tag [l.starSk, op.word.sk, r.sk]
  | .ann l ty none => .node .AnnAssignStmt [l.starSk, kd .PyColon, ty.sk, .none]
  | .ann l ty (some r) => .node .AnnAssignStmt [l.starSk, kd .PyColon, ty.sk, .seq [kd .PyAssign, r.sk]]
  | .del es => .node .DelStmt [kd .PyDel, exprsSk .ExprList false ⟨es, false⟩]
  | .pass => .node .PassStmt [kd .PyPass]
  | .brk => .node .BreakStmt [kd .PyBreak]
  | .cont => .node .ContinueStmt [kd .PyContinue]
  | .ret none => .node .ReturnStmt [kd .PyReturn, .none]
  | .ret (some l) => .node .ReturnStmt [kd .PyReturn, l.starSk]
  | .raise none => .node .RaiseStmt [kd .PyRaise, .none]
  | .raise (some (e, none)) => .node .RaiseStmt [kd .PyRaise, .seq [e.sk, .none]]
  | .raise (some (e, some e')) => .node .RaiseStmt [kd .PyRaise, .seq [e.sk, .seq [kd .PyFrom, e'.sk]]]
  | .yield l => .node .YieldExpr [kd .PyYield, l.starSk]
  | .yieldFrom e => .node .YieldFromExpr [kd .PyYield, kd .PyFrom, e.sk]
  | .from_ dots mod l => .node .ImportFromStmt ([kd .PyFrom, .seq (dots.map fun d => (dotWord d).sk).reverse, dottedSk mod,
      kd .PyImport] ++ match l with
        | .all => [kd .PyMul, .none, .none]
        | .plain x xs => [.none, asNamesSk (x :: xs), .none]
        | .paren x xs => [kd .PyLeftParen, asNamesSk (x :: xs), kd .PyRightParen])
  | .global w ws => .node .GlobalStmt [kd .PyGlobal, .seq ((w :: ws).map nm).reverse, commas (ws.length + 1)]
  | .nonlocal w ws => .node .NonLocalStmt [kd .PyNonLocal, .seq ((w :: ws).map nm).reverse, commas (ws.length + 1)]
  | .assert e => .node .AssertStmt [kd .PyAssert, e.sk, .none]

def SLine.sk (l : SLine) : Sk :=
  .node .SimpleStmtList [.seq ((l.s :: l.ss).map Small.sk).reverse,
    .seq (List.replicate (l.ss.length + if l.semi then 1 else 0) (kd .PySemiColon)), kd .Newline]

/-- The parser builds an `ExceptStmt` for an item with `as`. -/
def WithItem.sk (x : WithItem) : Sk :=
  match x.as? with
  | none => .node .WithItem [x.e.sk, .none]
  | some e' => .node .ExceptStmt [x.e.sk, kd .PyAs, e'.sk]

def exceptSk (star : Bool) (e : Option (Ex × Option (List Char))) (b : Sk) : Sk :=
  .node .ExceptStmt [.node .ExceptClauseStmt [kd .PyExcept, if star then kd .PyMul else .none, match e with
    | none => .none
    | some (e, none) => .seq [e.sk, .none]
    | some (e, some w) => .seq [e.sk, .seq [kd .PyAs, nm w]]], kd .PyColon, b]

/-- The `else` clause at the front of the clauses left, if there is one. -/
def elseSk : List (Head × Sk) → Sk
  | (.else_, b) :: _ => .node .ElseStmt [kd .PyElse, kd .PyColon, b]
  | _ => .none

/-- The `finally` clause at the end of the clauses left, if there is one. -/
def finallySk : List (Head × Sk) → Sk
  | [] => .none
  | (.finally_, b) :: _ => .node .FinallyStmt [kd .PyFinally, kd .PyColon, b]
  | _ :: cs => finallySk cs

def elifSks : List (Head × Sk) → List Sk
  | (.elif e, b) :: cs => .node .ElifStmt [kd .PyElif, e.sk, kd .PyColon, b] :: elifSks cs
  | _ => []

def exceptSks : List (Head × Sk) → List Sk
  | (.except star e, b) :: cs => exceptSk star e b :: exceptSks cs
  | _ => []

/-- The clauses left after all `elif` and `except` clauses. -/
def afterMid : List (Head × Sk) → List (Head × Sk)
  | (.elif _, _) :: cs | (.except .., _) :: cs => afterMid cs
  | cs => cs

/-- The tree of a compound statement from the trees of its suites. -/
def compSk : List (Head × Sk) → Sk
  | (.if_ e, b) :: cs => .node .IfStmt [kd .PyIf, e.sk, kd .PyColon, b, .seq (elifSks cs).reverse, elseSk (afterMid cs)]
  | (.while_ e, b) :: cs => .node .WhileStmt [kd .PyWhile, e.sk, kd .PyColon, b, elseSk cs]
  | (.for_ es it, b) :: cs => .node .ForStmt [kd .PyFor, exprsSk .ExprList false ⟨es, true⟩, kd .PyIn, exprsSk .TestList false ⟨it, false⟩,
      kd .PyColon, .none, b, elseSk cs]
  | (.try_, b) :: cs => .node .TryStmt [kd .PyTry, kd .PyColon, b,
      match exceptSks cs with
      | [] => .none
      | l => .seq l.reverse,
      elseSk (afterMid cs), finallySk cs]
  | (.with_ paren x xs, b) :: _ => .node .WithStmt [kd .PyWith, if paren then kd .PyLeftParen else .none,
      .seq ((x :: xs).map WithItem.sk).reverse, commas (xs.length + 1), if paren then kd .PyRightParen else .none, kd .PyColon, b]
  | (.def_ f ret, b) :: _ => .node .FuncDef [kd .PyDef, nm f, .node .Parameter [kd .PyLeftParen, .none, kd .PyRightParen],
      match ret with
      | none => .none
      | some e => .seq [kd .PyArrow, e.sk],
      kd .PyColon, .none, b]
  | (.class_ w paren, b) :: _ => .node .ClassDef [kd .PyClass, nm w, if paren then kd .PyLeftParen else .none, .none,
      if paren then kd .PyRightParen else .none, kd .PyColon, b]
  | _ => .none

def Head.isDef : Head → Bool
  | .def_ .. => true
  | _ => false

mutual
def Stm.sk : Stm → Sk
  | .simple l => l.sk
  | .comp true cs => .node .AsyncStmt [kd .PyAsync, compSk (clauseSks cs)]
  | .comp false cs => compSk (clauseSks cs)
def clauseSks : List Clause → List (Head × Sk)
  | [] => []
  | .mk h b :: cs => (h, b.sk h.isDef) :: clauseSks cs
/-- `isDef`: the suite of a function. -/
def Suite.sk (isDef : Bool) : Suite → Sk
  | .inline l => l.sk
  | .block s ss =>
    if isDef then .node .FuncBodySuite [kd .Newline, .none, .none, kd .Indent, .seq (s.sk :: stmSks ss).reverse, kd .Dedent]
    else .node .SuiteStmt [kd .Newline, kd .Indent, .seq (s.sk :: stmSks ss).reverse, kd .Dedent]
def stmSks : List Stm → List Sk
  | [] => []
  | s :: ss => s.sk :: stmSks ss
end

/-- The tree of a program. -/
def programSk (p : List Stm) : Sk := .node .FileInput [.seq (stmSks p).reverse, .seq [], kd .EOF]

/-! ### Feeding tokens to the parser -/

/-- Like `Fed`, for all kinds of tokens. -/
inductive FedL [Uni] : PSt → List Leaf → PSt → Prop
  | nil {c} : FedL c [] c
  | cons {c x t xs c'} : c.symbol = .ok t → t.leaf = x → FedL c.advance xs c' → FedL c (x :: xs) c'

/-- The current symbol does not start another clause of the statement in front of it. -/
def EndsStm (c : PSt) : Prop := ∃ u, c.symbol = .ok u ∧ u.kind ∉ [Kind.PyElif, .PyElse, .PyExcept, .PyFinally]

end Verif
