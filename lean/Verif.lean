import Verif.Props.Vector
import Verif.Props.Append
import Verif.Props.StringUtil
import Verif.Props.Filter
import Verif.Props.Sections
import Verif.Props.Accounting
import Verif.Props.Cli
import Verif.Props.Registry
import Verif.Props.Current
import Verif.Props.Print
import Verif.Props.Capture
import Verif.Props.Expression
import Verif.Props.Any
import Verif.Props.File
import Verif.Props.Xml
import Verif.Props.TeamCity
import Verif.Props.Float
import Verif.Props.Console
import Verif.Props.FloatBits
import Verif.Props.Decompose
import Verif.Props.Constexpr
import Verif.Props.Help
import Verif.Props.Reporters
import Verif.Props.Output
import Verif.Props.Threads
import Verif.Props.TypeName
import Verif.Props.Operands
import Verif.Props.Program
import Verif.Props.Destructors
import Verif.Props.Messages
import Verif.Props.Configure
import Verif.Props.Reports
import Verif.Props.Value
import Verif.Props.Macros
import Verif.Props.NoExceptions
import Verif.Props.Function
import Verif.Props.Failure
import Verif.Props.User
import Verif.Props.Colors
import Verif.Props.Events
import Verif.Props.SectionEnds
import Verif.Props.Document
import Verif.Props.Narration
import Verif.Props.Whole
import Verif.Props.Telling
import Verif.Props.Timing
import Verif.Props.Parts
import Verif.Props.Unaffected
import Verif.Props.Declared
import Verif.Props.TimeText
import Verif.Props.Pick
import Verif.Props.Quiet
import Verif.Props.Neutral
import Verif.Props.Separate
import Verif.Props.Infos
import Verif.Props.Stricter
import Verif.Props.Gather
import Verif.Props.Reorder
import Verif.Props.Setup
import Verif.Props.Extend
import Verif.Props.Listing
import Verif.Props.Readme
