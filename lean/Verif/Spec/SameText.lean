/-!
# Texts that differ only in what a tree does not record
-/

namespace Verif

/-- `SameText b w w'`: the texts `w` and `w'` are the same apart from which blank characters stand at the start of a
line, which character ends a line, and `<>` written for `!=`.  `b` says whether the texts begin at the start
of a line (or after blanks there). -/
inductive SameText : Bool → List Char → List Char → Prop
  | nil {b} : SameText b [] []
  | same {b c w w'} : SameText (c == '\n' || c == '\r' || b && (c == ' ' || c == '\t')) w w' → SameText b (c :: w) (c :: w')
  | blank {c d w w'} : c = ' ' ∨ c = '\t' → d = ' ' ∨ d = '\t' → SameText true w w' → SameText true (c :: w) (d :: w')
  | line {b c d w w'} : c = '\r' ∨ c = '\n' → d = '\r' ∨ d = '\n' → SameText true w w' → SameText b (c :: w) (d :: w')
  | less {b w w'} : SameText false w w' → SameText b ('<' :: '>' :: w) ('!' :: '=' :: w')
  | bang {b w w'} : SameText false w w' → SameText b ('!' :: '=' :: w) ('<' :: '>' :: w')

end Verif
