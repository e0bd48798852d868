import Verif.Basic
import Verif.Bits
import Verif.BitsLemmas
import Verif.BitsLemmas2
import Verif.Events.Convert
import Verif.Events.ConvertLemmas
import Verif.Events.IterLemmas
import Verif.Events.LoopLemmas
import Verif.Events.Read
import Verif.Events.ReadLemmas
import Verif.Events.Types
import Verif.Gen.BalanceSample
import Verif.Gen.Facts
import Verif.Gen.JsonSchema
import Verif.Gen.P75689BitPacked
import Verif.Gen.P87702BitPacked
import Verif.Gen.P87702ByteAligned
import Verif.Gen.PlayerStats
import Verif.Gen.StatsRow
import Verif.Misc.ArrowKinds
import Verif.Misc.BalanceFiles
import Verif.Misc.Cache
import Verif.Misc.CacheLemmas
import Verif.Misc.Cli
import Verif.Misc.Coords
import Verif.Misc.Details
import Verif.Misc.DetailsLemmas
import Verif.Misc.Export
import Verif.Misc.F32Lemmas
import Verif.Misc.Files
import Verif.Misc.GenBitCode
import Verif.Misc.GenBytes
import Verif.Misc.GenDecls
import Verif.Misc.GenRun
import Verif.Misc.GenSelect
import Verif.Misc.GenTags
import Verif.Misc.GenText
import Verif.Misc.Generator
import Verif.Misc.Handles
import Verif.Misc.Hex
import Verif.Misc.InitData
import Verif.Misc.InitDataLemmas
import Verif.Misc.Json
import Verif.Misc.JsonDir
import Verif.Misc.JsonLemmas
import Verif.Misc.Main
import Verif.Misc.Peek
import Verif.Misc.QuickHeader
import Verif.Misc.Replay
import Verif.Misc.Rows
import Verif.Misc.Scan
import Verif.Misc.Snapshot
import Verif.Misc.Time
import Verif.Misc.Tui
import Verif.Props.Ability
import Verif.Props.ArrowKinds
import Verif.Props.Aspects
import Verif.Props.BalanceFiles
import Verif.Props.BalanceJson
import Verif.Props.BalanceOnly
import Verif.Props.BitPacked
import Verif.Props.Bits
import Verif.Props.Builds
import Verif.Props.ByteAligned
import Verif.Props.Cache
import Verif.Props.ChatExact
import Verif.Props.Cli
import Verif.Props.Commands
import Verif.Props.Coords
import Verif.Props.CutOff
import Verif.Props.Details
import Verif.Props.DetailsLayout
import Verif.Props.EventJson
import Verif.Props.Events
import Verif.Props.Exact
import Verif.Props.Exact2
import Verif.Props.Exact3
import Verif.Props.Exact4
import Verif.Props.Exact5
import Verif.Props.Export
import Verif.Props.Fields
import Verif.Props.Files
import Verif.Props.GameExact
import Verif.Props.GameFields
import Verif.Props.GameLayout
import Verif.Props.GenBitCode
import Verif.Props.GenBitLits
import Verif.Props.GenBitText
import Verif.Props.GenBytes
import Verif.Props.GenDecls
import Verif.Props.GenMembers
import Verif.Props.GenRun
import Verif.Props.GenSelect
import Verif.Props.GenTagLoop
import Verif.Props.GenTags
import Verif.Props.GenText
import Verif.Props.GenTextLits
import Verif.Props.Generator
import Verif.Props.Groups
import Verif.Props.HeaderLayout
import Verif.Props.HintUnits
import Verif.Props.Hints
import Verif.Props.Histories
import Verif.Props.InitData
import Verif.Props.InitLayout
import Verif.Props.Iter
import Verif.Props.JoinIds
import Verif.Props.JsonDir
import Verif.Props.Lists
import Verif.Props.Lobby
import Verif.Props.Looks
import Verif.Props.LoopOrder
import Verif.Props.Main
import Verif.Props.Marks
import Verif.Props.MaskNumber
import Verif.Props.Merged
import Verif.Props.MergedFilters
import Verif.Props.MergedMore
import Verif.Props.MergedPanic
import Verif.Props.Names
import Verif.Props.NonInterference
import Verif.Props.Peek
import Verif.Props.QuickHeader
import Verif.Props.Replay
import Verif.Props.RoundedOrder
import Verif.Props.Rows
import Verif.Props.RowsAny
import Verif.Props.Scan
import Verif.Props.Selection
import Verif.Props.Snapshot
import Verif.Props.Tags
import Verif.Props.Time
import Verif.Props.TrackerLayout
import Verif.Props.Tui
import Verif.Props.Units
import Verif.Props.Vlq
import Verif.Props.WholeExport
import Verif.Props.WholeGet
import Verif.Props.WholeOpen
import Verif.Props.WholeReplay
import Verif.Props.WholeTables
import Verif.ResLemmas
import Verif.Schema.BitPacked
import Verif.Schema.BitPackedLemmas
import Verif.Schema.BitPackedRoundTrip
import Verif.Schema.BitPackedSafe
import Verif.Schema.ByteAligned
import Verif.Schema.ByteAlignedLemmas
import Verif.Schema.ByteAlignedRoundTrip
import Verif.Schema.ByteAlignedSafe
import Verif.Schema.ByteAlignedSize
import Verif.Schema.ByteAlignedStruct
import Verif.Schema.NoUnsup
import Verif.Schema.Ranged
import Verif.Schema.Shape
import Verif.Schema.Val
import Verif.Spec.AbilitySpec
import Verif.Spec.BitPackedEnc
import Verif.Spec.BitPackedIdeal
import Verif.Spec.BitPackedSpec
import Verif.Spec.BitSpec
import Verif.Spec.ByteAlignedEnc
import Verif.Spec.ByteAlignedSpec
import Verif.Spec.CacheSpec
import Verif.Spec.CommandSpec
import Verif.Spec.CoordSpec
import Verif.Spec.DetailsLayout
import Verif.Spec.DetailsSpec
import Verif.Spec.EventSpec
import Verif.Spec.FieldSpec
import Verif.Spec.FilesSpec
import Verif.Spec.FilterSpec
import Verif.Spec.GameFieldSpec
import Verif.Spec.GameHeard
import Verif.Spec.GameLayout
import Verif.Spec.GenBitCodeSpec
import Verif.Spec.GenBytesSpec
import Verif.Spec.GenDeclSpec
import Verif.Spec.GenSelectSpec
import Verif.Spec.GenTagSpec
import Verif.Spec.GenTextSpec
import Verif.Spec.GeneratorSpec
import Verif.Spec.HeaderLayout
import Verif.Spec.InitDataSpec
import Verif.Spec.InitLayout
import Verif.Spec.JsonSpec
import Verif.Spec.MergeSpec
import Verif.Spec.ReplaySpec
import Verif.Spec.RowSpec
import Verif.Spec.ScanSpec
import Verif.Spec.SnapshotSpec
import Verif.Spec.StateSpec
import Verif.Spec.TrackerLayout
import Verif.Spec.ValSpec
import Verif.Spec.VlqSpec
import Verif.Spec.WholeReplay
import Verif.State.Balance
import Verif.State.F32
import Verif.State.Game
import Verif.State.GroupLemmas
import Verif.State.Lemmas
import Verif.State.MergeLemmas
import Verif.State.Merged
import Verif.State.TagLemmas
import Verif.State.TimeLemmas
import Verif.State.Tracker
import Verif.State.Types
import Verif.State.UserLemmas
import Verif.Text
import Verif.Vlq
import Verif.VlqLemmas
