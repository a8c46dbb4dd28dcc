import Verif.Api
import Verif.Theorems.Lexical
import Verif.Theorems.Issues
import Verif.Theorems.Result
import Verif.Theorems.Script
import Verif.Theorems.Flags
import Verif.Theorems.Termination
import Verif.Theorems.Determined
import Verif.Theorems.Precedence
import Verif.Theorems.Identifier
import Verif.Theorems.Span
import Verif.Theorems.Cover
import Verif.Theorems.Display
import Verif.Theorems.Written
import Verif.Theorems.Grammar
import Verif.Theorems.GrammarExamples
import Verif.Theorems.Sound
import Verif.Theorems.SoundExamples
import Verif.Theorems.RoundTrip
import Verif.Theorems.Words
import Verif.Theorems.Upstream
import Verif.Theorems.Layout
import Verif.Theorems.Compose
import Verif.Theorems.Isolate
import Verif.Theorems.Truth
import Verif.Theorems.Entry
import Verif.Theorems.EntryExamples
import Verif.Theorems.Prefix
import Verif.Theorems.Attach
import Verif.Theorems.Options
import Verif.Theorems.Caps
import Verif.Theorems.Dialects
import Verif.Theorems.Recover
import Verif.Theorems.Trees
import Verif.Theorems.TreesExamples
import Verif.Theorems.Queries
import Verif.Theorems.QueriesExamples
import Verif.Theorems.Tables
import Verif.Theorems.TablesExamples
import Verif.Theorems.Changes
import Verif.Theorems.ChangesExamples
import Verif.Theorems.Disposals
import Verif.Theorems.Alterations
import Verif.Theorems.Views
