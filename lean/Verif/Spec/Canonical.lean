import Verif.Spec.LexGrammar

/-!
# A text for given symbols
-/

namespace Verif

/-- The text of a symbol. -/
def Token.spelling : Token → List Char
  | .sym k _ _ _ => (((operators ++ pyKeywords).find? (fun x => x.2 == k)).map (·.1)).getD []
  | .name _ _ _ txt => txt
  | .number _ _ _ txt => txt
  | .string _ _ _ txt pfx => pfx.getD [] ++ txt
  | .typeComment _ _ _ txt => txt
  | _ => []

/-- The symbols as a text: one blank for each level of a block at the start of a line, one blank between two symbols of a
line, a line feed at the end of a line (and after a type comment inside brackets).  `fresh`: at the start of a line; `d`:
the number of blocks that are open; `st`: the closing brackets that are expected. -/
def render (fresh : Bool) (d : Nat) (st : List Char) : List Token → List Char
  | [] => []
  | t :: ts => match t.kind with
    | .Newline => '\n' :: render true d st ts
    | .Indent => render fresh (d + 1) st ts
    | .Dedent => render fresh (d - 1) st ts
    | .EOF => if fresh then List.replicate d ' ' else []
    | k => (if fresh then List.replicate d ' ' else [' ']) ++ (t.spelling ++
        ((if k = .TypeComment ∧ st ≠ [] then ['\n'] else []) ++ render false d ((brStep st k).getD st) ts))

/-- The canonical text of the symbols `ts`. -/
def canonical (ts : List Token) : List Char := render true 0 [] ts

example : canonical [.sym .PyIf 0 0 none, .name 0 0 none (cs! "a"), .sym .PyColon 0 0 none, .newline 0 0 none ' ' ' ', .indent none,
    .name 0 0 none (cs! "b"), .newline 0 0 none ' ' ' ', .dedent none, .eof 0 none] = cs! "if a :\n b\n" := by decide

end Verif
