import Verif.Spec.Position

/-!
# What the messages of syntax errors say
-/

namespace Verif

/-- What a message says about the place where the parser stopped. -/
inductive Saying
  /-- the next symbol could not be read -/
  | unreadable
  /-- there is none of these symbols -/
  | missing (ks : List Kind)
  /-- there is this symbol -/
  | found (k : Kind)

/-- What it says is true of the current symbol of a parser. -/
def Saying.holds : Saying → Except LexErr Token → Prop
  | .unreadable, s => ∃ e, s = .error e
  | .missing ks, s => ∀ t, s = .ok t → t.kind ∉ ks
  | .found k, s => ∃ t, s = .ok t ∧ t.kind = k

/-- Messages that only say that no symbol could be read. -/
def unreadableMessages : List String := [
  "Expecting 'is' pr 'is not' in comparison expression!",
  "Expecting Symbol in 'raise' statement!",
  "Expecting symbol in 'assert' statement!",
  "Expecting symbol in 'break' statement!",
  "Expecting symbol in 'continue' statement!",
  "Expecting symbol in 'del' statement!",
  "Expecting symbol in 'global' statement!",
  "Expecting symbol in 'import' or 'from' statement!",
  "Expecting symbol in 'import' statement!",
  "Expecting symbol in 'lambda' expression!",
  "Expecting symbol in 'nonlocal' statement!",
  "Expecting symbol in 'pass' statement!",
  "Expecting symbol in 'return' statement!",
  "Expecting symbol in and expression!",
  "Expecting symbol in and test expression!",
  "Expecting symbol in annotation assignment statement!",
  "Expecting symbol in argument expression!",
  "Expecting symbol in argument list expression!",
  "Expecting symbol in arith expression!",
  "Expecting symbol in async statement!",
  "Expecting symbol in atom_expr expression!",
  "Expecting symbol in class statement!",
  "Expecting symbol in comparison expression!",
  "Expecting symbol in compiter expression!",
  "Expecting symbol in compound statement!",
  "Expecting symbol in comprehension 'async' expression!",
  "Expecting symbol in comprehension 'for' expression!",
  "Expecting symbol in comprehension 'if' expression!",
  "Expecting symbol in decorator statement!",
  "Expecting symbol in dictionary/set expression!",
  "Expecting symbol in dotted as name statement!",
  "Expecting symbol in dotted name statement!",
  "Expecting symbol in elif statement!",
  "Expecting symbol in else statement!",
  "Expecting symbol in eval expression!",
  "Expecting symbol in except clause statement!",
  "Expecting symbol in except statement!",
  "Expecting symbol in expression statement!",
  "Expecting symbol in factor expression!",
  "Expecting symbol in finally statement!",
  "Expecting symbol in flow statement!",
  "Expecting symbol in for statement!",
  "Expecting symbol in function body!",
  "Expecting symbol in function statement!",
  "Expecting symbol in functional input!",
  "Expecting symbol in functional type list!",
  "Expecting symbol in functional type!",
  "Expecting symbol in if statement!",
  "Expecting symbol in import as name statement!",
  "Expecting symbol in import as names statement!",
  "Expecting symbol in list expression!",
  "Expecting symbol in named expression!",
  "Expecting symbol in non conditional test expression!",
  "Expecting symbol in not test expression!",
  "Expecting symbol in or expression!",
  "Expecting symbol in parameter of function statement!",
  "Expecting symbol in parameters of function statement!",
  "Expecting symbol in power expression!",
  "Expecting symbol in shift expression!",
  "Expecting symbol in simple statement!",
  "Expecting symbol in single input!",
  "Expecting symbol in star expression!",
  "Expecting symbol in statement",
  "Expecting symbol in statement list!",
  "Expecting symbol in subscript expression!",
  "Expecting symbol in subscript list expression!",
  "Expecting symbol in suite statement!",
  "Expecting symbol in term expression!",
  "Expecting symbol in test expression!",
  "Expecting symbol in trailer expression!",
  "Expecting symbol in try statement!",
  "Expecting symbol in varargs assignment expression!",
  "Expecting symbol in variable arguments list expression!",
  "Expecting symbol in vfpdef expression!",
  "Expecting symbol in while statement!",
  "Expecting symbol in with item statement!",
  "Expecting symbol in with statement!",
  "Expecting symbol in xor expression!"]

/-- Messages that name a symbol, and what they say. -/
def namingMessages : List (String × Saying) := [
  ("Expecting '(' in parameters of function statement!", .missing [.PyLeftParen]),
  ("Expecting ')' in class statement!", .missing [.PyRightParen]),
  ("Expecting ')' in from import statement!", .missing [.PyRightParen]),
  ("Expecting ')' in functional input!", .missing [.PyRightParen]),
  ("Expecting ')' in parameters of function statement!", .missing [.PyRightParen]),
  ("Expecting ')' in trailer expression!", .missing [.PyRightParen]),
  ("Expecting ')' in tuple atom expression!", .missing [.PyRightParen]),
  ("Expecting ')' in with statement!", .missing [.PyRightParen]),
  ("Expecting '*' in star expression!", .missing [.PyMul]),
  ("Expecting '.' in from part of import statement!", .missing [.PyDot, .PyElipsis]),
  ("Expecting ':' in 'lambda' expression!", .missing [.PyColon]),
  ("Expecting ':' in annotation assignment statement!", .missing [.PyColon]),
  ("Expecting ':' in class statement!", .missing [.PyColon]),
  ("Expecting ':' in dictionary entry expression!", .missing [.PyColon]),
  ("Expecting ':' in elif statement!", .missing [.PyColon]),
  ("Expecting ':' in else statement!", .missing [.PyColon]),
  ("Expecting ':' in except statement!", .missing [.PyColon]),
  ("Expecting ':' in finally statement!", .missing [.PyColon]),
  ("Expecting ':' in for statement!", .missing [.PyColon]),
  ("Expecting ':' in function statement!", .missing [.PyColon]),
  ("Expecting ':' in if statement!", .missing [.PyColon]),
  ("Expecting ':' in try statement!", .missing [.PyColon]),
  ("Expecting ':' in while statement!", .missing [.PyColon]),
  ("Expecting ':' in with statement!", .missing [.PyColon]),
  ("Expecting '@' in decorator statement!", .missing [.PyMatrice]),
  ("Expecting ']' in list atom expression!", .missing [.PyRightBracket]),
  ("Expecting ']' in trailer expression!", .missing [.PyRightBracket]),
  ("Expecting 'assert' in assert statement!", .missing [.PyAssert]),
  ("Expecting 'async' in async statement!", .missing [.PyAsync]),
  ("Expecting 'break' in break statement!", .missing [.PyBreak]),
  ("Expecting 'class' in class statement!", .missing [.PyClass]),
  ("Expecting 'class', 'def' or 'async' after '@' in decorator statement!", .missing [.PyClass, .PyDef, .PyAsync]),
  ("Expecting 'continue' in pass statement!", .missing [.PyContinue]),
  ("Expecting 'def' in function statement!", .missing [.PyDef]),
  ("Expecting 'def', 'with' or 'for' in 'async' statement!", .missing [.PyDef, .PyWith, .PyFor]),
  ("Expecting 'del' in del statement!", .missing [.PyDel]),
  ("Expecting 'elif' in elif statement!", .missing [.PyElif]),
  ("Expecting 'else' in elif statement!", .missing [.PyElse]),
  ("Expecting 'else' in test expression!", .missing [.PyElse]),
  ("Expecting 'except' in except statement!", .missing [.PyExcept]),
  ("Expecting 'finally' in finally statement!", .missing [.PyFinally]),
  ("Expecting 'for' in comprehension 'for' expression!", .missing [.PyFor]),
  ("Expecting 'for' in for statement!", .missing [.PyFor]),
  ("Expecting 'from' in import statement!", .missing [.PyFrom]),
  ("Expecting 'global' in global statement!", .missing [.PyGlobal]),
  ("Expecting 'if' in comprehension 'if' expression!", .missing [.PyIf]),
  ("Expecting 'if', 'for' or 'async' in compiter expression!", .missing [.PyIf, .PyFor, .PyAsync]),
  ("Expecting 'import' in from import statement!", .missing [.PyImport]),
  ("Expecting 'import' in import statement!", .missing [.PyImport]),
  ("Expecting 'import' or 'from' in statement!", .missing [.PyImport, .PyFrom]),
  ("Expecting 'in' in comprehension 'for' expression!", .missing [.PyIn]),
  ("Expecting 'in' in for statement!", .missing [.PyIn]),
  ("Expecting 'in' pr 'not in' in comparison expression!", .missing [.PyIn]),
  ("Expecting 'nonlocal' in global statement!", .missing [.PyNonLocal]),
  ("Expecting 'nonlocal' in nonlocal statement!", .missing [.PyNonLocal]),
  ("Expecting 'pass' in pass statement!", .missing [.PyPass]),
  ("Expecting 'raise' in 'raise' statement!", .missing [.PyRaise]),
  ("Expecting 'return' in 'return' statement!", .missing [.PyReturn]),
  ("Expecting 'try' in try statement!", .missing [.PyTry]),
  ("Expecting 'while' in while statement!", .missing [.PyWhile]),
  ("Expecting 'with' in finally statement!", .missing [.PyWith]),
  ("Expecting Newline after TypeComment in function body!", .missing [.Newline]),
  ("Expecting Newline after compound statement in single input!", .missing [.Newline]),
  ("Expecting Newline at end of statement list!", .missing [.Newline]),
  ("Expecting a valid name after '.' in trailer expression!", .missing [.AtomName]),
  ("Expecting a valid trailer expression!", .missing [.PyLeftParen, .PyLeftBracket, .PyDot]),
  ("Expecting compound statement!", .missing [.PyIf, .PyWhile, .PyFor, .PyTry, .PyWith, .PyDef, .PyClass, .PyMatrice, .PyAsync]),
  ("Expecting end marker in dictionary/set atom expression!", .missing [.PyRightCurly]),
  ("Expecting flow statement!", .missing [.PyBreak, .PyContinue, .PyReturn, .PyRaise, .PyYield]),
  ("Expecting indentation in function body!", .missing [.Indent]),
  ("Expecting indentation in suite statement!", .missing [.Indent]),
  ("Expecting literal name in class statement!", .missing [.AtomName]),
  ("Expecting literal name in function statement!", .missing [.AtomName]),
  ("Expecting literal name in import statement!", .missing [.AtomName]),
  ("Expecting name literal after 'as' in except statement!", .missing [.AtomName]),
  ("Expecting name literal in dotted as name statement!", .missing [.AtomName]),
  ("Expecting name literal in global statement!", .missing [.AtomName]),
  ("Expecting name literal in import as name statement!", .missing [.AtomName]),
  ("Expecting name literal in nonlocal statement!", .missing [.AtomName]),
  ("Expecting name literal in parameter of function statement!", .missing [.AtomName]),
  ("Expecting name literal in vfpdef expression!", .missing [.AtomName]),
  ("Expecting send of file in eval expression!", .missing [.EOF]),
  ("Expecting symbol in 'from' statement!", .missing [.PyImport]),
  ("Expecting symbol in 'if' statement!", .missing [.PyIf]),
  ("Expecting symbol in atom expression!", .missing [.PyElipsis, .PyFalse, .PyNone, .PyTrue, .AtomName, .AtomNumber, .AtomString, .PyLeftParen, .PyLeftBracket, .PyLeftCurly]),
  ("Expecting symbol in comprehension 'yield' expression!", .missing [.PyYield]),
  ("Missing elements between two ',' in argument list expression!", .found .PyComa),
  ("Missing elements between two ',' in list expression!", .found .PyComa),
  ("Missing elements between two ',' in set list expression!", .found .PyComa)]

/-- `Says m c`: the message `m` says `c`. -/
inductive Says : String → Saying → Prop
  | unreadable {m} : m ∈ unreadableMessages → Says m .unreadable
  | named {m c} : (m, c) ∈ namingMessages → Says m c

/-- Messages that may be wrong. -/
def misleadingMessages : List String := [
  "Expecting '(' in functional type!",
  "Expecting end of file in function input!",
  "Expecting 'except*' except statement!",
  "Expecting 'except' except statement!",
  "Expecting dictionary/set in atom expression!"]

end Verif
