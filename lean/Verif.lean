import Verif.Model.Merge
import Verif.Model.Locale
import Verif.Model.Generate
import Verif.Props.Grapheme
import Verif.Props.Width
import Verif.Props.StringWidth
import Verif.Props.Escape
import Verif.Props.Align
import Verif.Props.Table
import Verif.Props.Merge
import Verif.Props.MergeWidth
import Verif.Props.Scan
import Verif.Props.Join
import Verif.Props.Locale
import Verif.Props.Generate
import Verif.Props.Session
import Verif.Props.Literal
import Verif.Props.GenProperties
import Verif.Props.GenSource
import Verif.Props.GenRunewidth
import Verif.Checks.RepoTests
import Verif.Props.Cached
import Verif.Props.Determined
import Verif.Props.Talk
import Verif.Props.Reenter
import Verif.Props.Live
import Verif.Props.Word
import Verif.Props.GenFiles
import Verif.Props.Negative
import Verif.Props.PlainText
import Verif.Props.Conditions
import Verif.Props.TwoTables
import Verif.Props.Walk
import Verif.Props.Respell
import Verif.Props.Reorder
import Verif.Props.Layout
import Verif.Props.SharedTable
import Verif.Props.SessionLayout
import Verif.Props.Perceived
import Verif.Props.Settings
import Verif.Props.Cost
