import Verif.Proof.LexBase

/-!
# What may be skipped between two tokens on one logical line

`HTrivia pos text t n`: the text (found at position `pos`) starts with the trivia `t`, `n`
characters long.  `HSkip pos text ts n`: it starts with the trivia `ts` one after the other, and
what follows starts neither with a blank, nor with a non-type comment, nor with a line
continuation.
-/

namespace Verif

/-- Everything up to the line end (or a NUL, or the end of the text). -/
def lineText (cs : List Char) : List Char :=
  cs.takeWhile fun c => !(c == '\r' || c == '\n' || c == '\x00')

inductive HTrivia : Nat → List Char → Trivia → Nat → Prop
  /-- a maximal run of spaces -/
  | spaces {pos cs} : hd cs = ' ' →
      HTrivia pos cs (.whiteSpace pos (pos + (cs.takeWhile (· == ' ')).length) ' ')
        (cs.takeWhile (· == ' ')).length
  /-- one tab -/
  | tab {pos cs} : hd cs = '\t' → HTrivia pos cs (.whiteSpace pos (pos + 1) '\t') 1
  /-- a comment up to the line end that is not a type comment -/
  | comment {pos cs} : hd cs = '#' → isTypeComment (lineText cs) = false →
      HTrivia pos cs (.comment pos (pos + (lineText cs).length) (lineText cs)) (lineText cs).length
  /-- backslash, CR, LF -/
  | cont3 {pos cs} : hd cs = '\\' → hd (cs.drop 1) = '\r' → hd (cs.drop 2) = '\n' →
      HTrivia pos cs (.lineContinuation pos (pos + 3) '\\' '\r' '\n') 3
  /-- backslash, CR -/
  | contCR {pos cs} : hd cs = '\\' → hd (cs.drop 1) = '\r' → hd (cs.drop 2) ≠ '\n' →
      HTrivia pos cs (.lineContinuation pos (pos + 2) '\\' '\r' ' ') 2
  /-- backslash, LF -/
  | contLF {pos cs} : hd cs = '\\' → hd (cs.drop 1) = '\n' →
      HTrivia pos cs (.lineContinuation pos (pos + 2) '\\' '\n' ' ') 2

inductive HRun : Nat → List Char → List Trivia → Nat → Prop
  | nil {pos cs} : HRun pos cs [] 0
  | cons {pos cs t n ts m} : HTrivia pos cs t n → HRun (pos + n) (cs.drop n) ts m →
      HRun pos cs (t :: ts) (n + m)

/-- `LineEnd cs m`: the text starts with a line end, of which the tokenizer consumes `m` characters
(for CR LF it consumes three: one more than the line end has). -/
inductive LineEnd (cs : List Char) : Nat → Prop
  | crlf : hd cs = '\r' → hd (cs.drop 1) = '\n' → LineEnd cs 3
  | cr : hd cs = '\r' → hd (cs.drop 1) ≠ '\n' → LineEnd cs 1
  | lf : hd cs = '\n' → LineEnd cs 1

/-- What may be skipped before a token, possibly over several lines (`multi = true`).  After a line
end the blanks at the start of the next line are skipped too, and leave no trivia. -/
inductive Gap (multi : Bool) : Nat → List Char → List Trivia → Nat → Prop
  | nil {pos cs} : Gap multi pos cs [] 0
  | item {pos cs t n ts m} : HTrivia pos cs t n → Gap multi (pos + n) (cs.drop n) ts m →
      Gap multi pos cs (t :: ts) (n + m)
  | line {pos cs n ts m} : multi = true → LineEnd cs n →
      Gap multi (pos + n + ((cs.drop n).takeWhile isBlank).length)
        (cs.drop (n + ((cs.drop n).takeWhile isBlank).length)) ts m →
      Gap multi pos cs (.newline pos (pos + n) '\r' '\n' :: ts)
        (n + ((cs.drop n).takeWhile isBlank).length + m)

end Verif
