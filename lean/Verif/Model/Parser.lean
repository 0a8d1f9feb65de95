import Verif.Model.Tree
import Verif.Model.Lexer

/-!
# Parser state and the language of parse functions

Models `src/parser/parser.rs` and gives the small language in which `Expr.lean`, `Stmt.lean`,
`Block.lean` transcribe the parse functions.

A Rust parse function only ever does the following with the parser: read `self.symbol`, call
`self.advance()`, read `self.lexer.get_position()`, read or write `self.except_status`, call
another parse function (propagating `Err` with `?` or by returning it), return `Ok` or `Err`, or
(in `patterns.rs`) panic.  `Prog` has one constructor for each of these.  A `while` loop is
transcribed as a parse function of its own that calls itself, with the variables the loop changes
as parameters; the code following the loop is the exit branch of that function.
-/

namespace Verif

/-- `parser.rs` 6 `enum ET`. -/
inductive ExcStatus
  | exceptNone | exceptMul | except
  deriving DecidableEq, Repr

/-- The local variables of `parse_expressions_var_args_list` (`expressions.rs` 1544-1550) and of
`parse_functions_type_list` (`functions.rs` 68-73, no `div`).  `Option`s are trees. -/
structure VA where
  nodes : List Tree := []
  seps : List Token := []
  mulS : Tree := .none
  mulN : Tree := .none
  powS : Tree := .none
  powN : Tree := .none
  div : Tree := .none

/-- The parse functions.  Those named after a Rust function are that function; those ending in
`Loop` are the `while` loops. -/
inductive Fn
  -- expressions.rs
  | atom | atomStrLoop (s : Nat) (toks : List Token)
  | atomExpr | trailerLoop (s : Nat) (await right : Tree) (lst : List Tree)
  | power | factor
  | term | termLoop (s : Nat) (left : Tree)
  | arith | arithLoop (s : Nat) (left : Tree)
  | shift | shiftLoop (s : Nat) (left : Tree)
  | andExpr | andExprLoop (s : Nat) (left : Tree)
  | xorExpr | xorExprLoop (s : Nat) (left : Tree)
  | expr | exprLoop (s : Nat) (left : Tree)
  | starExpr
  | comparison | comparisonLoop (s : Nat) (left : Tree)
  | notTest
  | andTest | andTestLoop (s : Nat) (left : Tree)
  | orTest | orTestLoop (s : Nat) (left : Tree)
  | lambdaDef (cond : Bool) | noCondTest | test | namedExpression
  | testlistComp | testlistCompLoop (s : Nat) (nodes : List Tree) (seps : List Token)
  | trailer
  | subscriptList | subscriptListLoop (s : Nat) (nodes : List Tree) (seps : List Token)
  | subscript
  | exprlist | exprlistLoop (s : Nat) (nodes : List Tree) (seps : List Token)
  | testlist | testlistLoop (s : Nat) (nodes : List Tree) (seps : List Token)
  | dictorsetMaker
  | setLoop (s : Nat) (nodes : List Tree) (seps : List Token)
  | arglist | arglistLoop (s : Nat) (nodes : List Tree) (seps : List Token)
  | argument | compIter | syncCompFor | compFor | compIf | yieldExpr
  | testlistStarExpr | testlistStarExprLoop (s : Nat) (nodes : List Tree) (seps : List Token)
  | varArgsList | varArgsMainLoop (s : Nat) (v : VA) | varArgsStarLoop (s : Nat) (v : VA)
  | varArgsDivLoop (s : Nat) (v : VA)
  | varArgsAssignments | vfpDef
  -- statements.rs
  | stmt | simpleStmt | simpleStmtLoop (s : Nat) (nodes : List Tree) (seps : List Token)
  | smallStmt | exprStmt | assignLoop (s : Nat) (left : Tree) (nodes : List Tree)
  | annAssign (s : Nat) (left : Tree)
  | delStmt | passStmt | flowStmt | breakStmt | continueStmt | returnStmt | yieldStmt | raiseStmt
  | importStmt | importName | importFrom | importDotLoop (s : Nat) (sym1 : Token) (dots : List Token)
  | importAsName | dottedAsName
  | importAsNames | importAsNamesLoop (s : Nat) (nodes : List Tree) (seps : List Token)
  | dottedAsNames | dottedAsNamesLoop (s : Nat) (nodes : List Tree) (seps : List Token)
  | dottedName | dottedNameLoop (s : Nat) (nodes seps : List Token)
  | globalStmt | globalLoop (s : Nat) (sym : Token) (nodes seps : List Token)
  | nonlocalStmt | nonlocalLoop (s : Nat) (sym : Token) (nodes seps : List Token)
  | assertStmt | compoundStmt | asyncStmt
  | ifStmt | ifLoop (s : Nat) (sym1 : Token) (left : Tree) (sym2 : Token) (right : Tree)
      (nodes : List Tree)
  | elifStmt | elseStmt | whileStmt | forStmt
  | tryStmt | tryLoop (s : Nat) (sym1 sym2 : Token) (left : Tree) (nodes : List Tree)
  | finallyStmt
  | withStmt
  | withParenLoop (s : Nat) (sym1 lpar : Token) (nodes : List Tree) (seps : List Token)
  | withLoop (s : Nat) (sym1 : Token) (nodes : List Tree) (seps : List Token)
  | withItem | exceptStmt | exceptClause
  | suite | suiteLoop (s : Nat) (sym1 sym2 : Token) (nodes : List Tree)
  -- blocks.rs
  | evalInput | evalLoop (s : Nat) (right : Tree) (seps : List Token)
  | fileInput | fileLoop (s : Nat) (nodes : List Tree) (seps : List Token)
  | singleInput
  | funcTypeInput | funcTypeLoop (s : Nat) (right : Tree) (seps : List Token)
  | decorator | decorators | decoratorsLoop (s : Nat) (nodes : List Tree)
  | decorated | asyncFuncDef | funcDef | parameters | typedArgsList | tfpDefAssign | tfpDef
  | funcBodySuite
  | funcBodyLoop (s : Nat) (sym1 : Token) (tc tcnl : Tree) (sym2 : Token) (nodes : List Tree)
  | classDef
  -- functions.rs
  | funcType | typeList | typeListMainLoop (s : Nat) (v : VA) | typeListStarLoop (s : Nat) (v : VA)
  -- patterns.rs
  | patternsMatch

/-- Bodies of parse functions. -/
inductive Prog (α : Type) : Type
  /-- `Ok(a)` -/
  | ret (a : α)
  /-- `Err(format!("SyntaxError at {}: msg", pos))`.  (Simplification: some messages start with
  "Syntax Error at {} - " instead; the model keeps the position and the text after it.) -/
  | fail (pos : Nat) (msg : String)
  /-- `todo!()` -/
  | panic
  /-- `self.lexer.get_position()` -/
  | getPos (k : Nat → Prog α)
  /-- `match self.symbol.clone() { Ok(s) => k s, _ => e }` -/
  | sym (k : Token → Prog α) (e : Prog α)
  /-- `self.advance()` -/
  | adv (k : Prog α)
  /-- `self.parse_..()?` -/
  | call (f : Fn) (k : Tree → Prog α)
  /-- `match &self.except_status` -/
  | getExc (k : ExcStatus → Prog α)
  /-- `self.except_status = ..` -/
  | setExc (x : ExcStatus) (k : Prog α)

namespace Prog

protected def bind {α β : Type} : Prog α → (α → Prog β) → Prog β
  | ret a, f => f a
  | fail p m, _ => fail p m
  | panic, _ => panic
  | getPos k, f => getPos fun p => (k p).bind f
  | sym k e, f => sym (fun t => (k t).bind f) (e.bind f)
  | adv k, f => adv (k.bind f)
  | call g k, f => call g fun t => (k t).bind f
  | getExc k, f => getExc fun x => (k x).bind f
  | setExc x k, f => setExc x (k.bind f)

instance : Monad Prog where
  pure := ret
  bind := Prog.bind

/-- `self.lexer.get_position()` -/
def here : Prog Nat := getPos ret
/-- `let _ = self.advance();` -/
def next : Prog Unit := adv (ret ())
/-- `self.parse_..()?` -/
def parse (f : Fn) : Prog Tree := call f ret
/-- `match self.symbol { Ok(s) => s, _ => return Err(format!(.., start_pos)) }` -/
def symAt (p : Nat) (m : String) : Prog Token := sym ret (fail p m)
/-- `Err(format!(.., self.lexer.get_position()))` -/
def failHere {α} (m : String) : Prog α := getPos fun p => fail p m
/-- `match self.symbol { Ok(s) => s, _ => return Err(format!(.., self.lexer.get_position())) }` -/
def symHere (m : String) : Prog Token := sym ret (failHere m)
/-- `match self.symbol { Ok(s) => Some(s), _ => None }` (loops that stop at a lexical error) -/
def sym? : Prog (Option Token) := sym (fun t => ret (some t)) (ret none)
/-- `Ok(Box::new(ASTNode::T(start_pos, self.lexer.get_position(), fields..)))` -/
def mk (tag : Tag) (s : Nat) (fields : List Tree) : Prog Tree :=
  getPos fun e => ret (.node tag s e fields)

end Prog

/-- `parser.rs` 8-12 `PythonCoreParser`. -/
structure PSt where
  lex : Lexer
  symbol : Except LexErr Token
  exc : ExcStatus

/-- `parser.rs` 21-27 `new`. -/
def PSt.new (lex : Lexer) : PSt := { lex, symbol := .error .notAdvanced, exc := .exceptNone }

/-- `parser.rs` 29-31 `advance`. -/
def PSt.advance [Uni] (st : PSt) : PSt :=
  match getSymbol st.lex with
  | .ok t l => { st with lex := l, symbol := .ok t }
  | .err e l => { st with lex := l, symbol := .error e }

/-- Outcome of a parse function.  `diverge`: the recursion was cut off at the given depth. -/
inductive Res (α : Type)
  | ok (a : α) (st : PSt)
  | err (pos : Nat) (msg : String)
  | panic
  | diverge

/-- Executes a body, given the meaning of the calls in it. -/
def Prog.exec [Uni] {α : Type} (rec : Fn → PSt → Res Tree) : Prog α → PSt → Res α
  | .ret a, st => .ok a st
  | .fail p m, _ => .err p m
  | .panic, _ => .panic
  | .getPos k, st => (k st.lex.tokStart).exec rec st
  | .sym k e, st =>
    match st.symbol with
    | .ok t => (k t).exec rec st
    | .error _ => e.exec rec st
  | .adv k, st => k.exec rec st.advance
  | .call f k, st =>
    match rec f st with
    | .ok t st' => (k t).exec rec st'
    | .err p m => .err p m
    | .panic => .panic
    | .diverge => .diverge
  | .getExc k, st => (k st.exc).exec rec st
  | .setExc x k, st => k.exec rec { st with exc := x }

end Verif
