import Verif.Model.Run

/-!
# What a parse consumed, and how the tokens of a tree are read off it
-/

namespace Verif

/-- `Consumed c ts c'`: the parser got from `c` to `c'` by taking the tokens `ts`, one after another, as its
current symbol and advancing past each of them.  (The `except` status plays no role here.) -/
inductive Consumed [Uni] : PSt → List Token → PSt → Prop
  | done {c c'} : c'.lex = c.lex → c'.symbol = c.symbol → Consumed c [] c'
  | step {c t ts c'} : c.symbol = .ok t → Consumed c.advance ts c' → Consumed c (t :: ts) c'

/-- Elements and separators, in turn. -/
def alternate : List Tree → List Tree → List Tree
  | x :: xs, s :: ss => x :: s :: alternate xs ss
  | xs, [] => xs
  | [], ss => ss

/-- The fields of a node in the order in which they were written.  Most variants store their fields in this
order.  List fields are stored beside their separators, and most of them last element first.  `none`:
the variant does not record how its lists were interleaved. -/
def arrange : Tag → List Tree → Option (List Tree)
  | .ExprList, [.seq ns, .seq ss] | .TestList, [.seq ns, .seq ss] => some (alternate ns ss)
  | .TestListComp, [.seq ns, .seq ss] | .SubscriptList, [.seq ns, .seq ss] | .ArgList, [.seq ns, .seq ss]
  | .DictionaryContainer, [.seq ns, .seq ss] | .SetContainer, [.seq ns, .seq ss]
  | .TestListStarExpr, [.seq ns, .seq ss] | .ImportAsNamesStmt, [.seq ns, .seq ss]
  | .DottedAsNamesStmt, [.seq ns, .seq ss] | .DottedNameStmt, [.seq ns, .seq ss] =>
    some (alternate ns.reverse ss.reverse)
  | .SimpleStmtList, [.seq ns, .seq ss, nl] => some (alternate ns.reverse ss.reverse ++ [nl])
  | .GlobalStmt, [t, .seq ns, .seq ss] | .NonLocalStmt, [t, .seq ns, .seq ss] =>
    some (t :: alternate ns.reverse ss.reverse)
  | .ImportFromStmt, [t, .seq ds, l, t4, t5, r, t6] => some (t :: ds.reverse ++ [l, t4, t5, r, t6])
  | .IfStmt, [t, l, t2, r, .seq ns, x] => some (t :: l :: t2 :: r :: ns.reverse ++ [x])
  | .TryStmt, [t, t2, l, .seq ns, els, r] => some (t :: t2 :: l :: ns.reverse ++ [els, r])
  | .WithStmt, [t, lp, .seq ns, .seq ss, rp, t2, r] =>
    some (t :: lp :: alternate ns.reverse ss.reverse ++ [rp, t2, r])
  | .SuiteStmt, [t, t2, .seq ns, t3] => some (t :: t2 :: ns.reverse ++ [t3])
  | .FuncBodySuite, [t, tc, tn, t4, .seq ns, t5] => some (t :: tc :: tn :: t4 :: ns.reverse ++ [t5])
  | .Decorators, [.seq ns] => some ns.reverse
  | .EvalInput, [x, .seq ss, t] | .FuncTypeInput, [x, .seq ss, t] => some (x :: ss.reverse ++ [t])
  | .FileInput, _ | .VarArgsList, _ | .TypeList, _ => none
  | _, l => some l

/-- The trees that are there: an absent optional field is `none`. -/
def present (l : List Tree) : List Tree :=
  l.filter fun
    | .none => false
    | _ => true

/-- `Interleaves fs fs'`: `fs'` holds the elements and separators of the two list fields in front of `fs`
(both stored last element first), each of the two in the order in which they were written, and the other
fields of `fs`, and nothing else. -/
def Interleaves : List Tree → List Tree → Prop
  | .seq ns :: .seq ss :: rest, fs' =>
    fs'.Perm (present (ns ++ ss ++ rest)) ∧ (present ns.reverse).Sublist fs' ∧ (present ss.reverse).Sublist fs'
  | _, _ => False

/-- `Reads l ts`: written one after another, the trees `l` are the tokens `ts`. -/
inductive Reads : List Tree → List Token → Prop
  | nil : Reads [] []
  | none {l ts} : Reads l ts → Reads (.none :: l) ts
  | tok {t l ts} : Reads l ts → Reads (.tok t :: l) (t :: ts)
  | seq {xs l ts} : Reads (xs ++ l) ts → Reads (.seq xs :: l) ts
  | node {tag s e fs fs' l ts} : arrange tag fs = some fs' → Reads (fs' ++ l) ts →
      Reads (.node tag s e fs :: l) ts
  | loose {tag s e fs fs' l ts} : arrange tag fs = Option.none → Interleaves fs fs' → Reads (fs' ++ l) ts →
      Reads (.node tag s e fs :: l) ts

/-- The parse functions other than the input rules, the decorator rules and the loops inside them. -/
def ruleFns : List Fn :=
  [.lambdaDef true, .lambdaDef false, .dictorsetMaker, .atom, .atomExpr, .power, .factor, .term, .arith,
    .shift, .andExpr, .xorExpr, .expr, .starExpr, .comparison, .notTest, .andTest, .orTest, .noCondTest,
    .test, .namedExpression, .testlistComp, .trailer, .subscriptList, .subscript, .exprlist, .testlist,
    .arglist, .argument, .compIter, .syncCompFor, .compFor, .compIf, .yieldExpr, .testlistStarExpr,
    .varArgsList, .varArgsAssignments, .vfpDef, .stmt, .simpleStmt, .smallStmt, .exprStmt, .delStmt,
    .passStmt, .flowStmt, .breakStmt, .continueStmt, .returnStmt, .yieldStmt, .raiseStmt, .importStmt,
    .importName, .importFrom, .importAsName, .dottedAsName, .importAsNames, .dottedAsNames, .dottedName,
    .globalStmt, .nonlocalStmt, .assertStmt, .compoundStmt, .asyncStmt, .ifStmt, .elifStmt, .elseStmt,
    .whileStmt, .forStmt, .tryStmt, .finallyStmt, .withStmt, .withItem, .exceptStmt, .exceptClause, .suite,
    .asyncFuncDef, .funcDef, .parameters, .typedArgsList, .tfpDefAssign, .tfpDef, .funcBodySuite,
    .classDef, .funcType, .typeList, .patternsMatch]

mutual
/-- All tokens in a tree, in the order in which they are stored. -/
def Tree.tokens : Tree → List Token
  | .tok t => [t]
  | .none => []
  | .seq l => tokensList l
  | .node _ _ _ l => tokensList l
def tokensList : List Tree → List Token
  | [] => []
  | t :: l => t.tokens ++ tokensList l
end

end Verif
