import Verif.Util
import Verif.Lex.Fast
import Verif.Props.LexMatch
import Verif.Props.Lexer
import Verif.Props.Parse
import Verif.Props.Result
import Verif.Props.ResultEx
import Verif.Props.Value
import Verif.Props.Tokens
import Verif.Props.Compose
import Verif.Props.Api
import Verif.Props.Ast
import Verif.Sem.Pev
import Verif.Props.Copy
import Verif.Props.Limit
import Verif.Props.RoundTrip
import Verif.Props.Precedence
import Verif.Props.Defaults
import Verif.Props.Lengths
import Verif.Props.Print
import Verif.Lex.Cut
import Verif.Props.ScanEnd
import Verif.Props.Comment
import Verif.LR.Height
import Verif.Props.Short
import Verif.Sem.Split
import Verif.Props.Split
import Verif.Sql.Read
import Verif.Sql.ReadIs
import Verif.Sql.ReadTools
import Verif.Sql.ReadRules1
import Verif.Sql.ReadRules2
import Verif.Sql.ReadRules3
import Verif.Sql.ReadAll
import Verif.Props.Only
import Verif.Api.Access
import Verif.Props.Access
import Verif.Props.Bytes
import Verif.Props.Blame
import Verif.Props.BlameEx1
import Verif.Props.BlameEx2
import Verif.Props.BlameEx3
import Verif.LR.Adj
import Verif.Props.Temporal
import Verif.Sem.Size
import Verif.Props.Memory
import Verif.Sql.Load
import Verif.LR.Load
import Verif.LR.LoadBound
import Verif.Props.Nesting
import Verif.LR.Local
import Verif.Sem.Reads
import Verif.Props.Prefix
import Verif.LR.Map
import Verif.Sem.Rename
import Verif.Props.Names
import Verif.Api.Threads
import Verif.Props.Threads
import Verif.Lex.Count
import Verif.Lex.Gap
import Verif.Lex.Work
import Verif.Props.Linear
import Verif.Sem.Erase
import Verif.Sem.Looked
import Verif.Sem.Bisim
import Verif.Lex.Quote
import Verif.Props.Inject
import Verif.Sem.Parens
import Verif.Props.Parens
import Verif.Props.Renaming
import Verif.Lex.CutTok
import Verif.Sem.LeftDen
import Verif.Props.Leftover
import Verif.Sem.Reuse
import Verif.Sem.Dull
import Verif.Props.Reuse
import Verif.Api.PrintMono
import Verif.Sql.Show
import Verif.Sql.ShowOk
import Verif.Sql.ShowAll
import Verif.Sql.ShowStmt
import Verif.Props.Shown
import Verif.Api.Build
import Verif.Api.BuildRules
import Verif.Api.BuildSpec
import Verif.Api.BuildOk
import Verif.Api.BuildInv
import Verif.Props.Build
import Verif.Api.Throw
import Verif.Sem.Interrupt
import Verif.Props.Throw
import Verif.Lex.Buffer
import Verif.Lex.BufferOk
import Verif.Api.Scanner
import Verif.Props.Buffer
import Verif.Sem.Stack
import Verif.Sem.StackArr
import Verif.Sem.StackMsg
import Verif.Sem.StackOk
import Verif.Sem.StackSize
import Verif.Props.Stack
import Verif.Api.TokMem
import Verif.Props.TokMem
import Verif.Sql.Bind
import Verif.Sql.BindWords
import Verif.Sql.BindVals
import Verif.Sql.BindStmt
import Verif.Props.Bind
import Verif.LR.PlanData
import Verif.LR.Plan
import Verif.Lex.Dash
import Verif.Sql.Spellable
import Verif.Props.Incomplete
import Verif.LR.Expect
import Verif.Props.Expected
import Verif.LR.Behind
import Verif.Sem.Leak
import Verif.Sem.LeakCount
import Verif.Props.Leak
import Verif.Sql.Reformat
import Verif.Props.Reformat
import Verif.Props.Cases
import Verif.Sem.NumRel
import Verif.Sem.NumDen
import Verif.Props.Numbers
import Verif.Sql.KeptDefs
import Verif.Sql.Kept
import Verif.Sql.KeptStmt
import Verif.Props.Kept
import Verif.Sem.Texts
import Verif.Sem.Raws
import Verif.Props.Invented
import Verif.Sql.Exact
import Verif.Sql.ExactStmt
import Verif.Props.Exact
import Verif.Sem.Ints
import Verif.Props.Ints
