import Verif.Model.Run
import Verif.Spec.Stream

/-!
# Replacing a number by an expression in brackets
-/

namespace Verif

/-- The kinds of symbols with which an expression can end. -/
def endsExpression : List Kind :=
  [.AtomName, .AtomNumber, .AtomString, .PyElipsis, .PyNone, .PyTrue, .PyFalse, .PyRightParen, .PyRightBracket, .PyRightCurly]

/-- Pairs of brackets. -/
def bracketPairs : List (Kind × Kind) :=
  [(.PyLeftParen, .PyRightParen), (.PyLeftBracket, .PyRightBracket), (.PyLeftCurly, .PyRightCurly)]

/-- The symbols of the text `e` are `es`, perhaps line ends, and the end of the text; the last one of `es` is no comma. -/
def SymbolsOf [Uni] (e : List Char) (es : List Token) : Prop :=
  ∃ nls x l, Tokens (Lexer.new e) (es ++ nls ++ [x]) l ∧ x.kind = .EOF ∧ (∀ v ∈ nls, v.kind = .Newline) ∧
    (∀ v ∈ es, v.kind ≠ .EOF) ∧ ∀ v, es.getLast? = some v → v.kind ≠ .Newline ∧ v.kind ≠ .PyComa

end Verif
