import Verif.Host
import Verif.Model.Dispatch
import Verif.Model.Layouts
import Verif.Props.EntryPoint
import Verif.Props.Strings
import Verif.Props.Table
import Verif.Props.Bitfield
import Verif.Props.BitFields
import Verif.Props.Codes
import Verif.Props.EventLogCodes
import Verif.Props.FamilyCodes
import Verif.Props.Bios
import Verif.Props.System
import Verif.Props.Processor
import Verif.Props.Cache
import Verif.Props.Language
import Verif.Props.Enclosure
import Verif.Props.Memory
import Verif.Props.MemoryDevice
import Verif.Props.Accessors
import Verif.Props.Elements
import Verif.Props.Battery
import Verif.Props.Slots
import Verif.Props.EventLog
import Verif.Props.Flags
import Verif.Props.Global
import Verif.Props.Safety
import Verif.Props.Crash
import Verif.Model.Fmt
import Verif.Model.DisplayCodes
import Verif.Model.Display
import Verif.Spec.Text
import Verif.Proofs.Fmt
import Verif.Props.Labels
import Verif.Props.Labels2
import Verif.Props.Display
import Verif.Model.Compare
import Verif.Model.Default
import Verif.Model.Eq
import Verif.Props.Messages
import Verif.Props.Newer
import Verif.Props.Truth
import Verif.Props.Eq
import Verif.Model.Flat
import Verif.Model.Narrow
import Verif.Proofs.Flat
import Verif.Props.Flat
import Verif.Tests.Data
import Verif.Tests.Support
import Verif.Tests.Lib
import Verif.Tests.Bitfield
import Verif.Tests.Codes
import Verif.Tests.Decoders
import Verif.Tests.Tables
import Verif.Props.Versions
import Verif.Props.EndToEnd
import Verif.Props.Hidden
import Verif.Props.Texts
import Verif.Props.Profiles
import Verif.Props.Content
import Verif.Model.BigEndian
import Verif.Proofs.Hosts
import Verif.Props.Handles
import Verif.Props.Hosts
import Verif.Props.Widths
import Verif.Props.Narrow
import Verif.Props.WidthsShown
import Verif.Props.Usable
import Verif.Props.Fused
import Verif.Spec.Reported
import Verif.Proofs.Reported
import Verif.Props.Reported
import Verif.Props.Reported2
import Verif.Props.Reported3
import Verif.Props.Reported4
import Verif.Props.Restrung
import Verif.Props.Compare
import Verif.Props.Growth
import Verif.Props.Default
import Verif.Props.Conversions
import Verif.Props.Image
import Verif.Props.Moved
import Verif.Model.Cost
import Verif.Props.Cost
import Verif.Model.DebugTree
import Verif.Model.DebugParts
import Verif.Model.Debug
import Verif.Model.DebugBits
import Verif.Proofs.Debug
import Verif.Proofs.DebugClean
import Verif.Proofs.DebugGood
import Verif.Proofs.DebugTypes
import Verif.Props.Debug
import Verif.Model.HashParts
import Verif.Model.HashBits
import Verif.Model.Hash
import Verif.Proofs.HashGood
import Verif.Proofs.HashTypes
import Verif.Proofs.HashLists
import Verif.Props.EntryFields
import Verif.Model.CostDecode
import Verif.Proofs.CostDecode
import Verif.Props.CostDecode
import Verif.Props.CostExact
import Verif.Props.CostLanguage
import Verif.Props.Plain
import Verif.Props.Damage
import Verif.Props.Optional
import Verif.Props.Decoy
import Verif.Props.Cut
import Verif.Props.Views
import Verif.Props.Huge
import Verif.Props.Verdict
import Verif.Props.Mislead
import Verif.Props.Conform
import Verif.Props.Reading
import Verif.Props.Inside
import Verif.Props.Thresholds
import Verif.Props.EntryReported
import Verif.Props.TableErrors
import Verif.Props.ContentTables
import Verif.Props.Flawless
import Verif.Props.HashFields
import Verif.Props.DebugFlags
import Verif.Props.Hash
