import Verif.Model.Lexer
import Verif.Model.Run
import Verif.Spec.Trivia
import Verif.Spec.Stream
import Verif.Spec.Lexemes
import Verif.Proof.Chars
import Verif.Proof.LexOuter
import Verif.Proof.LexFacts
import Verif.Proof.LexAt
import Verif.Props.LexRun
import Verif.Proof.Numbers
import Verif.Props.Words
import Verif.Props.Numbers
import Verif.Proof.StepDet
import Verif.Spec.Gaps
import Verif.Proof.Gaps
import Verif.Props.Gaps
import Verif.Spec.Shift
import Verif.Proof.Shift
import Verif.Props.Shift
import Verif.Spec.Program
import Verif.Proof.Program
import Verif.Proof.Layout
import Verif.Props.Program
import Verif.Proof.Wp
import Verif.Spec.Parse
import Verif.Spec.Outcome
import Verif.Proof.Reads
import Verif.Proof.ReadsExpr
import Verif.Proof.ReadsStmt
import Verif.Props.Parse
import Verif.Spec.Grammar
import Verif.Spec.ReadsAs
import Verif.Proof.Gram
import Verif.Proof.GramExpr
import Verif.Proof.GramStmt
import Verif.Props.Grammar
import Verif.Spec.Shape
import Verif.Proof.SimpSets
import Verif.Proof.Shape
import Verif.Proof.ShapeAll
import Verif.Props.Shape
import Verif.Spec.Calls
import Verif.Proof.Term
import Verif.Proof.TermAll
import Verif.Proof.Panic
import Verif.Proof.PanicAll
import Verif.Props.Term
import Verif.Spec.View
import Verif.Proof.View
import Verif.Props.View
import Verif.Spec.Ast
import Verif.Proof.Ev
import Verif.Proof.Complete
import Verif.Proof.CompleteAtom
import Verif.Proof.CompleteText
import Verif.Props.Complete
import Verif.Spec.Limits
import Verif.Proof.Follow
import Verif.Proof.Limits
import Verif.Props.Limits
import Verif.Spec.Try
import Verif.Proof.Exc
import Verif.Props.Try
import Verif.Proof.NoNewline
import Verif.Spec.Single
import Verif.Proof.NotNL
import Verif.Props.Single
import Verif.Props.Spans
import Verif.Spec.StmtAst
import Verif.Proof.CompleteList
import Verif.Proof.CompleteSmall
import Verif.Proof.CompleteStmt
import Verif.Proof.CompleteProg
import Verif.Proof.CompleteLayout
import Verif.Props.CompleteStmt
import Verif.Proof.EndsIn
import Verif.Props.LastLine
import Verif.Props.Accepted
import Verif.Tests.Pat
import Verif.Tests.SourceBuffer
import Verif.Tests.Tokenizer
import Verif.Tests.Expressions
import Verif.Tests.Statements
import Verif.Proof.ExactAll
import Verif.Proof.ExactEnds
import Verif.Proof.ExactSound
import Verif.Proof.ExactSoundExpr
import Verif.Proof.ExactSoundExpr2
import Verif.Proof.ExactSoundList
import Verif.Proof.ExactSoundList2
import Verif.Proof.ExactSoundStmt
import Verif.Proof.ExactSoundStmt2
import Verif.Proof.ExactSoundStmt3
import Verif.Props.Exact
import Verif.Props.Kinds
import Verif.Spec.Cost
import Verif.Proof.Cost
import Verif.Proof.CostAll
import Verif.Props.Cost
import Verif.Spec.Erase
import Verif.Proof.Alike
import Verif.Proof.AlikeAll
import Verif.Props.Layout
import Verif.Spec.Position
import Verif.Proof.Position
import Verif.Props.ErrorPos
import Verif.Spec.LexGrammar
import Verif.Proof.LGNumber
import Verif.Proof.LGLines
import Verif.Proof.LGWord
import Verif.Props.LexGrammar
import Verif.Spec.Insert
import Verif.Proof.LGInsert
import Verif.Props.Insert
import Verif.Proof.Inject
import Verif.Props.Inject
import Verif.Proof.InjectPos
import Verif.Props.InjectPos
import Verif.Proof.Balance
import Verif.Props.Balance
import Verif.Proof.LGJoin
import Verif.Proof.LGConcat
import Verif.Props.Concat
import Verif.Spec.BlankLines
import Verif.Proof.LGBlank
import Verif.Props.BlankLines
import Verif.Spec.Canonical
import Verif.Proof.LGCanon
import Verif.Props.Canonical
import Verif.Spec.WholeText
import Verif.Props.WholeText
import Verif.Spec.FileTree
import Verif.Proof.ExcFree
import Verif.Proof.Edge
import Verif.Proof.EdgeStmt
import Verif.Proof.EdgeAll
import Verif.Props.JoinTrees
import Verif.Spec.SameText
import Verif.Props.TextOfTree
import Verif.Spec.Pieces
import Verif.Props.LocalEdit
import Verif.Proof.Cut
import Verif.Props.Split
import Verif.Spec.Session
import Verif.Props.Session
import Verif.Spec.TreeSize
import Verif.Props.TreeSize
import Verif.Proof.Subst
import Verif.Spec.Replace
import Verif.Props.Replace
import Verif.Proof.LGReplace
import Verif.Spec.Rename
import Verif.Props.Rename
import Verif.Proof.LGBracket
import Verif.Props.ReplaceText
import Verif.Proof.LexLocal
import Verif.Spec.Untouched
import Verif.Props.Untouched
import Verif.Proof.Block
import Verif.Spec.Indent
import Verif.Proof.LGIndent
import Verif.Props.Body
import Verif.Spec.Modes
import Verif.Props.Modes
import Verif.Spec.Plug
import Verif.Proof.Plug
import Verif.Proof.PlugStep
import Verif.Proof.PlugPre1
import Verif.Proof.PlugPre2
import Verif.Proof.PlugAt
import Verif.Proof.PlugBody
import Verif.Proof.PlugSound
import Verif.Proof.Clean
import Verif.Proof.ReadLike
import Verif.Props.PlugText
import Verif.Props.Anywhere
import Verif.Spec.Message
import Verif.Proof.Message
import Verif.Proof.MessageAll
import Verif.Props.Message
import Verif.Proof.Ins
import Verif.Proof.ReadStmt
import Verif.Props.StmtAnywhere
import Verif.Spec.Graft
import Verif.Proof.Graft
import Verif.Proof.GraftStep
import Verif.Proof.GraftBody1
import Verif.Proof.GraftBody2
import Verif.Proof.GraftBody
import Verif.Proof.GraftSound
import Verif.Proof.GraftStmts
import Verif.Props.OnlyBody
import Verif.Props.OnlyBodyText
import Verif.Spec.Viable
import Verif.Proof.Viable
import Verif.Proof.ViableExpr
import Verif.Proof.ViableExpr2
import Verif.Proof.ViableList
import Verif.Proof.ViableList2
import Verif.Proof.ViableStmt
import Verif.Proof.ViableStmt2
import Verif.Proof.ViableStmt3
import Verif.Proof.ViableStmt4
import Verif.Proof.ViableAll
import Verif.Props.Viable
import Verif.Proof.Prefix
import Verif.Spec.Lookahead
import Verif.Proof.Lookahead
import Verif.Props.Lookahead
import Verif.Spec.Assemble
import Verif.Props.Assemble
import Verif.Props.AssembleIff
import Verif.Proof.PlaceAlike
import Verif.Proof.PlaceAlikeAll
import Verif.Props.ErrorPlace
import Verif.Proof.ShiftAt
import Verif.Props.ErrorMoved
import Verif.Spec.Moved
import Verif.Proof.Moved
import Verif.Proof.MovedAll
import Verif.Props.Moved
import Verif.Props.MovedAny
