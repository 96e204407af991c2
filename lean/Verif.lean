import Verif.Model.Read
import Verif.Model.Write
import Verif.Model.Api
import Verif.Props.Header
import Verif.Props.DefsLoop
import Verif.Props.Messages
import Verif.Props.Params
import Verif.Props.Formats
import Verif.Props.Datasets
import Verif.Props.Framing
import Verif.Props.FirstCut
import Verif.Props.Interleave
import Verif.Props.HeaderOnly
import Verif.Props.Limits
import Verif.Props.Filter
import Verif.Props.Text
import Verif.Props.Float
import Verif.Props.Appended
import Verif.Props.Writer
import Verif.Props.Api
import Verif.Props.Extract
import Verif.Props.Csv
import Verif.Props.Tools
import Verif.Props.Events
import Verif.Props.Kml
import Verif.Props.Ros2
import Verif.Props.Ros2Error
import Verif.Props.Equal
import Verif.Props.RoundTrip
import Verif.Props.FormatText
import Verif.Props.Db
import Verif.Props.DbObject
import Verif.Props.DbWrite
import Verif.Props.SaveError
import Verif.Props.LoadError
import Verif.Props.Sync
import Verif.Model.SqlScripts
import Verif.Props.Migrate
import Verif.Spec.Statements
import Verif.Props.Statements
import Verif.Props.MigrateSql
import Verif.Props.MigrateRows
import Verif.Props.MigrateFirst
import Verif.Props.Info
import Verif.Props.MsgType
import Verif.Model.Names
import Verif.Props.Names
import Verif.Model.Args
import Verif.Spec.Args
import Verif.Lemmas.Args
import Verif.Lemmas.ArgsErr
import Verif.Props.Args
import Verif.Props.Attitude
import Verif.Props.Angles
import Verif.Props.KmlDoc
import Verif.Props.WriteLeft
import Verif.Props.IntFloat
import Verif.Spec.CanWrite
import Verif.Lemmas.CanWriteNum
import Verif.Lemmas.CanWrite
import Verif.Lemmas.LoadedFits
import Verif.Lemmas.ComesBack
import Verif.Props.CanWrite
import Verif.Spec.WriteError
import Verif.Lemmas.WriteError
import Verif.Props.WriteError
import Verif.Model.NumberText
import Verif.Model.JsonText
import Verif.Spec.NumberText
import Verif.Spec.JsonText
import Verif.Lemmas.NumberText
import Verif.Lemmas.JsonText
import Verif.Props.NumberText
import Verif.Spec.Shortest
import Verif.Lemmas.Shortest
import Verif.Props.Shortest
import Verif.Spec.BytesText
import Verif.Props.BytesText
import Verif.Model.ReprText
import Verif.Spec.ReprText
import Verif.Props.ReprText
import Verif.Props.JsonText
import Verif.Model.CsvLeft
import Verif.Props.CsvLeft
import Verif.Spec.CsvError
import Verif.Lemmas.CsvError
import Verif.Props.CsvError
import Verif.Spec.ToolError
import Verif.Lemmas.ToolError
import Verif.Props.ToolError
import Verif.Spec.KmlError
import Verif.Lemmas.KmlError
import Verif.Props.KmlError
import Verif.Model.FloatFmt
import Verif.Model.Floats
import Verif.Spec.Floats
import Verif.Spec.Window
import Verif.Lemmas.FloatFmt
import Verif.Lemmas.Window
import Verif.Props.Floats
import Verif.Props.FloatSpecial
import Verif.Model.FloatAngles
import Verif.Spec.FloatAngles
import Verif.Lemmas.FloatAngles
import Verif.Props.FloatAngles
import Verif.Model.Main
import Verif.Spec.Main
import Verif.Lemmas.Main
import Verif.Lemmas.MainLeft
import Verif.Props.Main
import Verif.Props.MainEnd
import Verif.Props.MainLeft
import Verif.Model.Notices
import Verif.Spec.Notices
import Verif.Lemmas.Notices
import Verif.Props.Notices
import Verif.Model.ScriptPath
import Verif.Spec.ScriptPath
import Verif.Lemmas.ScriptPath
import Verif.Props.ScriptPath
import Verif.Model.Prints
import Verif.Spec.Prints
import Verif.Props.Prints
import Verif.Model.Verbose
import Verif.Spec.Verbose
import Verif.Props.Verbose
import Verif.Spec.BagError
import Verif.Props.BagError
import Verif.Spec.Rewritten
import Verif.Props.Rewritten
import Verif.Spec.WriteCut
import Verif.Lemmas.WriteCut
import Verif.Props.WriteCut
import Verif.Spec.CutTools
import Verif.Props.CutTools
import Verif.Spec.Damage
import Verif.Lemmas.Damage
import Verif.Props.Damage
import Verif.Spec.DamageMsg
import Verif.Lemmas.DamageMsg
import Verif.Props.DamageMsg
import Verif.Spec.Lost
import Verif.Lemmas.Lost
import Verif.Props.Lost
import Verif.Spec.DamageTools
import Verif.Lemmas.DamageTools
import Verif.Props.DamageTools
import Verif.Props.DamageReport
import Verif.Spec.LostKey
import Verif.Lemmas.LostKey
import Verif.Props.LostKey
import Verif.Spec.LostKeyTools
import Verif.Lemmas.LostKeyTools
import Verif.Props.LostKeyTools
import Verif.Spec.LostTopic
import Verif.Lemmas.LostTopic
import Verif.Props.LostTopic
import Verif.Spec.LostTopicTools
import Verif.Props.LostTopicTools
import Verif.Spec.Repeated
import Verif.Lemmas.Repeated
import Verif.Props.Repeated
import Verif.Spec.LostFormat
import Verif.Lemmas.LostFormat
import Verif.Props.LostFormat
import Verif.Props.LostFormatTools
