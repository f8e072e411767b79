import Verif.Props.Versions
import Verif.Props.Targets
import Verif.Props.Texts
import Verif.Props.Rules
import Verif.Props.Config
import Verif.Props.ConfigFile
import Verif.Props.Arguments
import Verif.Props.ArgValues
import Verif.Props.Processor
import Verif.Props.Main
import Verif.Props.Formats
import Verif.Props.Detection
import Verif.Model.File
import Verif.Props.Parser
import Verif.Props.Minimum
import Verif.Props.Visit
import Verif.Props.Reach
import Verif.Props.Display
import Verif.Props.Safe
import Verif.Props.Finally
import Verif.Props.Pruned
import Verif.Props.Annotations
import Verif.Props.Imports
import Verif.Props.Keywords
import Verif.Props.Names
import Verif.Props.Report
import Verif.Props.File
import Verif.Props.Run
import Verif.Model.Program
import Verif.Props.Program
import Verif.Props.Listing
import Verif.Props.Settled
import Verif.Props.Records
import Verif.Props.Members
import Verif.Props.Places
import Verif.Props.Spelt
import Verif.Props.Written
import Verif.Props.Conflicts
import Verif.Props.Parsable
import Verif.Props.Floats
import Verif.Props.Regex
import Verif.Props.Messages
import Verif.Props.FileMessages
import Verif.Props.Help
import Verif.Props.Numbers
import Verif.Props.Skips
import Verif.Props.Console
import Verif.Props.Interrupts
import Verif.Props.EndToEnd
import Verif.Props.ArgSettings
import Verif.Props.Relaxed
import Verif.Props.Order
import Verif.Props.Append
import Verif.Props.Layout
import Verif.Props.RulesParts
import Verif.Props.Reproducible
import Verif.Props.Loosened
import Verif.Props.OldTrees
import Verif.Props.Repr
import Verif.Props.Flow
import Verif.Props.Printed
import Verif.Props.Keys
import Verif.Props.Crashes
import Verif.Props.Chosen
import Verif.Props.Strings
import Verif.Props.Unrelated
import Verif.Props.Counts
import Verif.Props.Notes
import Verif.Props.PathText
import Verif.Props.Shuffled
import Verif.Props.Harmless
import Verif.Props.Renamed
import Verif.Props.Equivalent
import Verif.Props.Configured
import Verif.Props.Contents
import Verif.Props.Beside
import Verif.Props.Parts
import Verif.Props.History
import Verif.Props.Codecs
import Verif.Props.Enclosed
import Verif.Props.Escapes
import Verif.Props.Marks
