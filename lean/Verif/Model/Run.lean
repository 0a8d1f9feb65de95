import Verif.Model.Expr
import Verif.Model.Block

/-!
# Running parse functions
-/

namespace Verif

/-- The body of each parse function. -/
def body : Fn → Prog Tree
  | .atom => atomBody
  | .atomStrLoop s l => atomStrLoopBody s l
  | .atomExpr => atomExprBody
  | .trailerLoop s a r l => trailerLoopBody s a r l
  | .power => powerBody
  | .factor => factorBody
  | .term => termBody
  | .termLoop s l => termLoopBody s l
  | .arith => arithBody
  | .arithLoop s l => arithLoopBody s l
  | .shift => shiftBody
  | .shiftLoop s l => shiftLoopBody s l
  | .andExpr => andExprBody
  | .andExprLoop s l => andExprLoopBody s l
  | .xorExpr => xorExprBody
  | .xorExprLoop s l => xorExprLoopBody s l
  | .expr => exprBody
  | .exprLoop s l => exprLoopBody s l
  | .starExpr => starExprBody
  | .comparison => comparisonBody
  | .comparisonLoop s l => comparisonLoopBody s l
  | .notTest => notTestBody
  | .andTest => andTestBody
  | .andTestLoop s l => andTestLoopBody s l
  | .orTest => orTestBody
  | .orTestLoop s l => orTestLoopBody s l
  | .lambdaDef c => lambdaDefBody c
  | .noCondTest => noCondTestBody
  | .test => testBody
  | .namedExpression => namedExpressionBody
  | .testlistComp => testlistCompBody
  | .testlistCompLoop s n p => testlistCompLoopBody s n p
  | .trailer => trailerBody
  | .subscriptList => subscriptListBody
  | .subscriptListLoop s n p => subscriptListLoopBody s n p
  | .subscript => subscriptBody
  | .exprlist => exprlistBody
  | .exprlistLoop s n p => exprlistLoopBody s n p
  | .testlist => testlistBody
  | .testlistLoop s n p => testlistLoopBody s n p
  | .dictorsetMaker => dictorsetMakerBody
  | .setLoop s n p => setLoopBody s n p
  | .arglist => arglistBody
  | .arglistLoop s n p => arglistLoopBody s n p
  | .argument => argumentBody
  | .compIter => compIterBody
  | .syncCompFor => syncCompForBody
  | .compFor => compForBody
  | .compIf => compIfBody
  | .yieldExpr => yieldExprBody
  | .testlistStarExpr => testlistStarExprBody
  | .testlistStarExprLoop s n p => testlistStarExprLoopBody s n p
  | .varArgsList => varArgsListBody
  | .varArgsMainLoop s v => varArgsMainLoopBody s v
  | .varArgsStarLoop s v => varArgsStarLoopBody s v
  | .varArgsDivLoop s v => varArgsDivLoopBody s v
  | .varArgsAssignments => varArgsAssignmentsBody
  | .vfpDef => vfpDefBody
  | .stmt => stmtBody
  | .simpleStmt => simpleStmtBody
  | .simpleStmtLoop s n p => simpleStmtLoopBody s n p
  | .smallStmt => smallStmtBody
  | .exprStmt => exprStmtBody
  | .assignLoop s l n => assignLoopBody s l n
  | .annAssign s l => annAssignBody s l
  | .delStmt => delStmtBody
  | .passStmt => passStmtBody
  | .flowStmt => flowStmtBody
  | .breakStmt => breakStmtBody
  | .continueStmt => continueStmtBody
  | .returnStmt => returnStmtBody
  | .yieldStmt => yieldStmtBody
  | .raiseStmt => raiseStmtBody
  | .importStmt => importStmtBody
  | .importName => importNameBody
  | .importFrom => importFromBody
  | .importDotLoop s t d => importDotLoopBody s t d
  | .importAsName => importAsNameBody
  | .dottedAsName => dottedAsNameBody
  | .importAsNames => importAsNamesBody
  | .importAsNamesLoop s n p => importAsNamesLoopBody s n p
  | .dottedAsNames => dottedAsNamesBody
  | .dottedAsNamesLoop s n p => dottedAsNamesLoopBody s n p
  | .dottedName => dottedNameBody
  | .dottedNameLoop s n p => dottedNameLoopBody s n p
  | .globalStmt => globalStmtBody
  | .globalLoop s t n p => globalLoopBody s t n p
  | .nonlocalStmt => nonlocalStmtBody
  | .nonlocalLoop s t n p => nonlocalLoopBody s t n p
  | .assertStmt => assertStmtBody
  | .compoundStmt => compoundStmtBody
  | .asyncStmt => asyncStmtBody
  | .ifStmt => ifStmtBody
  | .ifLoop s t l t2 r n => ifLoopBody s t l t2 r n
  | .elifStmt => elifStmtBody
  | .elseStmt => elseStmtBody
  | .whileStmt => whileStmtBody
  | .forStmt => forStmtBody
  | .tryStmt => tryStmtBody
  | .tryLoop s t t2 l n => tryLoopBody s t t2 l n
  | .finallyStmt => finallyStmtBody
  | .withStmt => withStmtBody
  | .withParenLoop s t l n p => withParenLoopBody s t l n p
  | .withLoop s t n p => withLoopBody s t n p
  | .withItem => withItemBody
  | .exceptStmt => exceptStmtBody
  | .exceptClause => exceptClauseBody
  | .suite => suiteBody
  | .suiteLoop s t t2 n => suiteLoopBody s t t2 n
  | .evalInput => evalInputBody
  | .evalLoop s r p => evalLoopBody s r p
  | .fileInput => fileInputBody
  | .fileLoop s n p => fileLoopBody s n p
  | .singleInput => singleInputBody
  | .funcTypeInput => funcTypeInputBody
  | .funcTypeLoop s r p => funcTypeLoopBody s r p
  | .decorator => decoratorBody
  | .decorators => decoratorsBody
  | .decoratorsLoop s n => decoratorsLoopBody s n
  | .decorated => decoratedBody
  | .asyncFuncDef => asyncFuncDefBody
  | .funcDef => funcDefBody
  | .parameters => parametersBody
  | .typedArgsList => typedArgsListBody
  | .tfpDefAssign => tfpDefAssignBody
  | .tfpDef => tfpDefBody
  | .funcBodySuite => funcBodySuiteBody
  | .funcBodyLoop s t tc tn t4 n => funcBodyLoopBody s t tc tn t4 n
  | .classDef => classDefBody
  | .funcType => funcTypeBody
  | .typeList => typeListBody
  | .typeListMainLoop s v => typeListMainLoopBody s v
  | .typeListStarLoop s v => typeListStarLoopBody s v
  | .patternsMatch => patternsMatchBody

/-- `run n f st`: the parse function `f` started in parser state `st`, with calls nested at most
`n` deep (loop iterations count as calls).  `diverge` means that `n` was not enough. -/
def run [Uni] : Nat → Fn → PSt → Res Tree
  | 0, _, _ => .diverge
  | n + 1, f, st => (body f).exec (run n) st

/-- The parser over a source text, `PythonCoreParser::new(PythonCoreTokenizer::new(text))`. -/
def PSt.ofText (src : List Char) : PSt := PSt.new (Lexer.new src)

end Verif
