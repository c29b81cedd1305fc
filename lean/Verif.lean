import Verif.Lemmas.ActionCodec
import Verif.Lemmas.ActionInv
import Verif.Lemmas.Aligned
import Verif.Lemmas.AlpAdv
import Verif.Lemmas.AlpGood
import Verif.Lemmas.Basic
import Verif.Lemmas.Bridge
import Verif.Lemmas.BuiltOk
import Verif.Lemmas.CallersAlone
import Verif.Lemmas.Caught
import Verif.Lemmas.Clock
import Verif.Lemmas.Codec
import Verif.Lemmas.Codec2
import Verif.Lemmas.CommandRun
import Verif.Lemmas.ConfigLate
import Verif.Lemmas.Crc
import Verif.Lemmas.CrcWord
import Verif.Lemmas.Device
import Verif.Lemmas.DeviceBytes
import Verif.Lemmas.Dll
import Verif.Lemmas.DllParser
import Verif.Lemmas.Every
import Verif.Lemmas.EveryConnect
import Verif.Lemmas.EveryRuns
import Verif.Lemmas.EveryUpdate
import Verif.Lemmas.Examples
import Verif.Lemmas.FileProgram
import Verif.Lemmas.Gateway
import Verif.Lemmas.GatewayAsync
import Verif.Lemmas.Good
import Verif.Lemmas.HexText
import Verif.Lemmas.HexTool
import Verif.Lemmas.Interrupt
import Verif.Lemmas.Invert
import Verif.Lemmas.Json
import Verif.Lemmas.Kept
import Verif.Lemmas.Labels
import Verif.Lemmas.Late
import Verif.Lemmas.LateConnect
import Verif.Lemmas.Layout
import Verif.Lemmas.Modem
import Verif.Lemmas.ModemCallers
import Verif.Lemmas.ModemCalls
import Verif.Lemmas.ModemConnect
import Verif.Lemmas.ModemFaults
import Verif.Lemmas.ModemSinks
import Verif.Lemmas.ModemTags
import Verif.Lemmas.Mqtt
import Verif.Lemmas.Nodes
import Verif.Lemmas.ParseSegs
import Verif.Lemmas.Parsed
import Verif.Lemmas.PhyHistory
import Verif.Lemmas.Print
import Verif.Lemmas.PrintCommand
import Verif.Lemmas.PrintFiles
import Verif.Lemmas.PrintLines
import Verif.Lemmas.PrintSame
import Verif.Lemmas.PrintText
import Verif.Lemmas.Programs
import Verif.Lemmas.Pushes
import Verif.Lemmas.QueryRun
import Verif.Lemmas.Recover
import Verif.Lemmas.Retry
import Verif.Lemmas.Schema
import Verif.Lemmas.Serial
import Verif.Lemmas.SerialDeliver
import Verif.Lemmas.SerialRun
import Verif.Lemmas.SerialTrace
import Verif.Lemmas.Series
import Verif.Lemmas.Site
import Verif.Lemmas.SystemCommands
import Verif.Lemmas.SystemFiles
import Verif.Lemmas.SystemFiles2
import Verif.Lemmas.SystemFiles3
import Verif.Lemmas.Tables
import Verif.Lemmas.Tables2
import Verif.Lemmas.Tables3
import Verif.Lemmas.Tables4
import Verif.Lemmas.Tables5
import Verif.Lemmas.Tables6
import Verif.Lemmas.Throughput
import Verif.Lemmas.ThroughputEnds
import Verif.Lemmas.ThroughputOne
import Verif.Lemmas.ThroughputRun
import Verif.Lemmas.Update
import Verif.Lemmas.UpdateDevice
import Verif.Lemmas.UpdateLate
import Verif.Model.Addressee
import Verif.Model.Alp
import Verif.Model.AlpParser
import Verif.Model.CT
import Verif.Model.Clock
import Verif.Model.Crc
import Verif.Model.D7anp
import Verif.Model.D7atp
import Verif.Model.Dll
import Verif.Model.Equality
import Verif.Model.Examples
import Verif.Model.Fs
import Verif.Model.HexText
import Verif.Model.HexTool
import Verif.Model.Json
import Verif.Model.Modem
import Verif.Model.ModemCallers
import Verif.Model.ModemFaults
import Verif.Model.ModemThread
import Verif.Model.Mqtt
import Verif.Model.Operands
import Verif.Model.Phy
import Verif.Model.PhyStr
import Verif.Model.Print
import Verif.Model.Programs
import Verif.Model.QueryRun
import Verif.Model.ReceiverWait
import Verif.Model.Schema
import Verif.Model.Senders
import Verif.Model.Serial
import Verif.Model.Sp
import Verif.Model.Stats
import Verif.Model.SystemCommands
import Verif.Model.SystemFiles
import Verif.Model.SystemTable
import Verif.Model.Throughput
import Verif.Model.ThroughputOne
import Verif.Model.ThroughputRun
import Verif.Model.Update
import Verif.Props.Actions
import Verif.Props.AlpParse
import Verif.Props.CT
import Verif.Props.Cleanup
import Verif.Props.Clock
import Verif.Props.Codecs
import Verif.Props.Commands
import Verif.Props.ConfigLate
import Verif.Props.Construct
import Verif.Props.Crc
import Verif.Props.Cut
import Verif.Props.CutModem
import Verif.Props.Damage
import Verif.Props.Device
import Verif.Props.DeviceFiles
import Verif.Props.Dll
import Verif.Props.Equality
import Verif.Props.Every
import Verif.Props.Examples
import Verif.Props.Factories
import Verif.Props.FileProgram
import Verif.Props.Flips
import Verif.Props.FlipsModem
import Verif.Props.Gateway
import Verif.Props.GatewayAsync
import Verif.Props.HexText
import Verif.Props.HexTool
import Verif.Props.Interrupt
import Verif.Props.Json
import Verif.Props.Kept
import Verif.Props.Labels
import Verif.Props.Late
import Verif.Props.LateConnect
import Verif.Props.Layouts
import Verif.Props.Length
import Verif.Props.Loss
import Verif.Props.Modem
import Verif.Props.ModemCallers
import Verif.Props.ModemCalls
import Verif.Props.ModemFaults
import Verif.Props.ModemThread
import Verif.Props.ModemWrite
import Verif.Props.Mqtt
import Verif.Props.Nodes
import Verif.Props.PhyStr
import Verif.Props.Print
import Verif.Props.Programs
import Verif.Props.Pushes
import Verif.Props.QueryNodes
import Verif.Props.QueryRun
import Verif.Props.ReceiverWait
import Verif.Props.Recover
import Verif.Props.Retry
import Verif.Props.Schema
import Verif.Props.Senders
import Verif.Props.SerialFrames
import Verif.Props.SerialStream
import Verif.Props.Serialise
import Verif.Props.Series
import Verif.Props.Site
import Verif.Props.Slip
import Verif.Props.SlipModem
import Verif.Props.Stats
import Verif.Props.SystemCommands
import Verif.Props.SystemFiles
import Verif.Props.Tables
import Verif.Props.Throughput
import Verif.Props.ThroughputEnds
import Verif.Props.ThroughputOne
import Verif.Props.ThroughputRun
import Verif.Props.Unique
import Verif.Props.Update
import Verif.Props.UpdateDevice
import Verif.Props.UpdateLate
import Verif.Props.WholeProgram
import Verif.Py
import Verif.Spec.Actions
import Verif.Spec.Built
import Verif.Spec.Clock
import Verif.Spec.ConfigLate
import Verif.Spec.Cut
import Verif.Spec.Device
import Verif.Spec.DeviceFiles
import Verif.Spec.Dll
import Verif.Spec.Examples
import Verif.Spec.FileProgram
import Verif.Spec.Flips
import Verif.Spec.Gateway
import Verif.Spec.GatewayAsync
import Verif.Spec.HexTool
import Verif.Spec.Interrupt
import Verif.Spec.Json
import Verif.Spec.Labels
import Verif.Spec.Late
import Verif.Spec.LateConnect
import Verif.Spec.Layout
import Verif.Spec.Loss
import Verif.Spec.Modem
import Verif.Spec.ModemCallers
import Verif.Spec.ModemFaults
import Verif.Spec.ModemThread
import Verif.Spec.ModemWrite
import Verif.Spec.Mqtt
import Verif.Spec.Nodes
import Verif.Spec.Print
import Verif.Spec.Program
import Verif.Spec.Programs
import Verif.Spec.Pushes
import Verif.Spec.QueryRun
import Verif.Spec.Recover
import Verif.Spec.Retry
import Verif.Spec.RoundTrip
import Verif.Spec.Schema
import Verif.Spec.Serial
import Verif.Spec.Series
import Verif.Spec.Site
import Verif.Spec.Slip
import Verif.Spec.SystemFiles
import Verif.Spec.Tables
import Verif.Spec.Throughput
import Verif.Spec.ThroughputOne
import Verif.Spec.ThroughputRun
import Verif.Spec.Update
import Verif.Spec.UpdateDevice
import Verif.Spec.UpdateLate
import Verif.Audit
