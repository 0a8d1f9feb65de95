import Verif.Spec.Parse

/-!
# Where the nodes of a tree start and end
-/

namespace Verif

/-- What `get_position()` returns: where the current symbol starts (`C05_span_of_token`). -/
def PSt.pos (c : PSt) : Nat := c.lex.tokStart

/-- The entries of a dictionary or set display. -/
def Tag.isEntry : Tag → Bool
  | .DictionaryEntry | .MulSet | .PowerDictionary => true
  | _ => false

/-- `Spans b c l c'`: the parser takes the symbols of the trees `l`, one after another, from the state `c` to the
state `c'`, and every node in them starts at the position of the state before its first symbol and ends at the
position of the state after its last symbol.  `b` is the start of the node around `l`: an entry of a
dictionary or set display starts there instead. -/
inductive Spans [Uni] : Nat → PSt → List Tree → PSt → Prop
  | nil {b c c'} : c'.lex = c.lex → c'.symbol = c.symbol → Spans b c [] c'
  | none {b c l c'} : Spans b c l c' → Spans b c (.none :: l) c'
  | tok {b c t l c'} : c.symbol = .ok t → Spans b c.advance l c' → Spans b c (.tok t :: l) c'
  | seq {b c xs l c'} : Spans b c (xs ++ l) c' → Spans b c (.seq xs :: l) c'
  | node {b tag s e fs fs' c d l c'} : arrange tag fs = some fs' ∨ (arrange tag fs = Option.none ∧ Interleaves fs fs') →
      s = (if tag.isEntry then b else c.pos) → e = d.pos → Spans s c fs' d → Spans b d l c' →
      Spans b c (.node tag s e fs :: l) c'

/-- Start and end of a node. -/
def Tree.ends : Tree → Option (Nat × Nat)
  | .node _ s e _ => some (s, e)
  | _ => Option.none

/-- The functions C25 is about: every parse function but the loops inside them and `decorated`, which never
succeeds (`C33`). -/
def spanFns : List Fn :=
  ruleFns ++ [.evalInput, .fileInput, .singleInput, .funcTypeInput, .decorator, .decorators]

/-- The input rules take one step before anything else, to get the first symbol. -/
def Fn.first [Uni] (c : PSt) : Fn → PSt
  | .evalInput | .fileInput | .singleInput | .funcTypeInput => c.advance
  | _ => c

/-- `c.startsAt p`: `get_position()` is `p`, and the current symbol, if it has a span, starts there. -/
def PSt.startsAt (c : PSt) (p : Nat) : Prop :=
  getPosition c.lex = .ok p c.lex ∧ ∀ u x y, c.symbol = .ok u → u.span? = some (x, y) → x = p

end Verif
