import Verif.Spec.LexGrammar

/-!
# Blank lines and lines with a comment only
-/

namespace Verif

/-- One line without code: blanks, perhaps a comment (that is no type comment), and the line end. -/
inductive BlankLine : List Char → Prop
  | blank {w} : (∀ c ∈ w, c = ' ' ∨ c = '\t') → BlankLine (w ++ ['\n'])
  | comment {w txt} : (∀ c ∈ w, c = ' ' ∨ c = '\t') → txt.head? = some '#' → ¬ cs! "# type:" <+: txt →
      (∀ c ∈ txt, c ≠ '\r' ∧ c ≠ '\n' ∧ c ≠ '\x00') → BlankLine (w ++ txt ++ ['\n'])

/-- One or more lines without code. -/
inductive BlankLines : List Char → Prop
  | one {w} : BlankLine w → BlankLines w
  | more {w v} : BlankLine w → BlankLines v → BlankLines (w ++ v)

/-- The text `a` with the symbols `ts` ends before the start of a line: it is empty, or it ends with a line feed that is a
symbol (and not a part of CR LF). -/
def BeforeLine (a : List Char) (ts : List Token) : Prop :=
  (a = [] ∧ ts = []) ∨ ∃ b us t, a = b ++ ['\n'] ∧ b.getLast? ≠ some '\r' ∧ ts = us ++ [t] ∧ t.kind = .Newline

end Verif
