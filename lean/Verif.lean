import Verif.Py
import Verif.Tree
import Verif.Env
import Verif.Tokeniser
import Verif.Parser
import Verif.Repr
import Verif.Transform
import Verif.Validate
import Verif.Query
import Verif.Files
import Verif.Spec.Lex
import Verif.Spec.Spell
import Verif.Lemmas.Split
import Verif.Lemmas.Tokenise
import Verif.Lemmas.Merge
import Verif.Lemmas.Stuck
import Verif.Lemmas.Pieces
import Verif.Lemmas.Query
import Verif.Props.Tokens
import Verif.Spec.Scan
import Verif.Spec.Calls
import Verif.Spec.Run
import Verif.Lemmas.Scan
import Verif.Lemmas.Files
import Verif.Lemmas.Run
import Verif.Lemmas.RunFacts
import Verif.Props.Scan
import Verif.Props.Query
import Verif.Props.Runs
import Verif.Spec.PyFile
import Verif.Lemmas.Effects
import Verif.Lemmas.Untok
import Verif.Lemmas.Literal
import Verif.Props.PyFiles
import Verif.Spec.Fields
import Verif.Lemmas.NodeEq
import Verif.Lemmas.Validate
import Verif.Lemmas.Order
import Verif.Lemmas.Columns
import Verif.Lemmas.Exports
import Verif.Props.Columns
import Verif.Lemmas.Types
import Verif.Props.Clauses
import Verif.Termination
import Verif.Lemmas.Fuel
import Verif.Props.Parsing
import Verif.Spec.Core
import Verif.Lemmas.Reads
import Verif.Lemmas.Tame
import Verif.Lemmas.CoreTame
import Verif.Lemmas.CoreToks
import Verif.Lemmas.Ev
import Verif.Lemmas.CoreExpr
import Verif.Lemmas.CoreAtom
import Verif.Lemmas.CoreCompound
import Verif.Lemmas.CoreCase
import Verif.Lemmas.CoreFrom
import Verif.Lemmas.CoreSelect
import Verif.Lemmas.CoreWindow
import Verif.Lemmas.CoreParse
import Verif.Props.Core
import Verif.Spec.Names
import Verif.Spec.Layout
import Verif.Lemmas.Doc
import Verif.Lemmas.CoreSolid
import Verif.Lemmas.CoreRender
import Verif.Lemmas.CorePrint
import Verif.Lemmas.CorePrintFrom
import Verif.Lemmas.CorePrintCalls
import Verif.Lemmas.CorePrintAll
import Verif.Lemmas.CoreLetters
import Verif.Props.Layout
import Verif.Lemmas.DocLex
import Verif.Lemmas.OneKind
import Verif.Lemmas.CoreLex
import Verif.Lemmas.CoreLexAll
import Verif.Lemmas.CoreLast
import Verif.Lemmas.CoreLits
import Verif.Props.RoundTrip
import Verif.Lemmas.CoreValid
import Verif.Props.Texts
import Verif.Props.Messages
import Verif.Spec.Calm
import Verif.Lemmas.Calm
import Verif.Lemmas.Prints
import Verif.Lemmas.CalmAll
import Verif.Props.Raising
import Verif.Props.Literals
import Verif.Spec.Sound
import Verif.Lemmas.Sound
import Verif.Props.Tables
import Verif.Spec.Scope
import Verif.Lemmas.Scope
import Verif.Props.Scope
import Verif.Spec.Report
import Verif.Lemmas.Report
import Verif.Props.Report
import Verif.Equal
import Verif.Spec.Equal
import Verif.Lemmas.Equal
import Verif.Props.Equal
import Verif.Props.Exact
import Verif.Spec.Words
import Verif.Lemmas.Words
import Verif.Props.Words
import Verif.Spec.Said
import Verif.Lemmas.Said
import Verif.Lemmas.SaidAll
import Verif.Lemmas.SaidWritten
import Verif.Props.Said
import Verif.Spec.Shown
import Verif.Lemmas.Shown
import Verif.Lemmas.ShownWritten
import Verif.Props.Shown
import Verif.Spec.Printable
import Verif.Lemmas.Repr
import Verif.Lemmas.Printable
import Verif.Lemmas.PrintErrors
import Verif.Props.Printable
import Verif.Spec.Verdict
import Verif.Lemmas.Offer
import Verif.Lemmas.Verdict
import Verif.Lemmas.VerdictErrors
import Verif.Props.Verdict
import Verif.Spec.Built
import Verif.Lemmas.Built
import Verif.Lemmas.BuiltWith
import Verif.Props.Built
import Verif.Spec.Notes
import Verif.Lemmas.Notes
import Verif.Lemmas.NotesParts
import Verif.Lemmas.NotesSaid
import Verif.Props.Notes
import Verif.Props.Comments
import Verif.Spec.Quotes
import Verif.Lemmas.Quotes
import Verif.Props.Quotes
import Verif.Spec.Repr
import Verif.Props.Repr
import Verif.Args
import Verif.Spec.CommandLine
import Verif.Lemmas.Args
import Verif.Lemmas.CommandLine
import Verif.Props.CommandLine
import Verif.Props.Touched
import Verif.Props.Formatted
import Verif.Props.Reported
import Verif.Props.Flagged
import Verif.Props.Ambiguous
import Verif.Props.Checked
import Verif.Fidelity.Tokeniser
import Verif.Fidelity.Lexer
import Verif.Fidelity.Formatting
import Verif.Fidelity.Formatting2
import Verif.Fidelity.Validation
import Verif.Fidelity.FileHandler
import Verif.Fidelity.Sql
