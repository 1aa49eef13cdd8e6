import Verif.Model.Basic
import Verif.Model.Bitio
import Verif.Model.Box
import Verif.Model.BoxInfo
import Verif.Model.File
import Verif.Model.Types
import Verif.Model.ValEq
import Verif.Model.Marshal
import Verif.Model.Unmarshal
import Verif.Model.Cfos
import Verif.Model.Catalog
import Verif.Spec.Layout
import Verif.Spec.Typed
import Verif.Spec.Watch
import Verif.Spec.Counts
import Verif.Test.Vectors
import Verif.Test.Functions
import Verif.Lemmas.Bits
import Verif.Lemmas.Bitio
import Verif.Lemmas.BoxInfo
import Verif.Lemmas.Marshal
import Verif.Lemmas.Unmarshal
import Verif.Lemmas.Static
import Verif.Lemmas.Decode
import Verif.Props.Bitio
import Verif.Props.BoxInfo
import Verif.Lemmas.Catalog
import Verif.Lemmas.Box
import Verif.Lemmas.Counts
import Verif.Lemmas.Encode
import Verif.Lemmas.Total
import Verif.Lemmas.MarshalPanic
import Verif.Lemmas.MarshalErr
import Verif.Lemmas.Safe
import Verif.Lemmas.SafeBox
import Verif.Lemmas.SafeTop
import Verif.Lemmas.SafeUnmarshal
import Verif.Lemmas.Sim
import Verif.Lemmas.SimBox
import Verif.Props.Box
import Verif.Props.RoundTrip
import Verif.Props.Marshal
import Verif.Props.Unmarshal
import Verif.Props.Locality
import Verif.Lemmas.Sound
import Verif.Lemmas.SoundBox
import Verif.Lemmas.SoundTop
import Verif.Lemmas.Small
import Verif.Lemmas.SoundUnmarshal
import Verif.Lemmas.Lists
import Verif.Lemmas.Rows
import Verif.Props.Reencode
import Verif.Props.Lists
import Verif.Model.Registry
import Verif.Model.Read
import Verif.Lemmas.Lookup
import Verif.Lemmas.Traverse
import Verif.Props.Registry
import Verif.Lemmas.Fuel
import Verif.Lemmas.Forward
import Verif.Props.Traverse
import Verif.Props.Terminate
import Verif.Lemmas.Ftyp
import Verif.Props.Context
import Verif.Spec.Forest
import Verif.Lemmas.Forest
import Verif.Props.Forest
import Verif.Model.Extract
import Verif.Spec.Extract
import Verif.Lemmas.Extract
import Verif.Lemmas.Ctx
import Verif.Props.Extract
import Verif.Props.Values
import Verif.Model.Write
import Verif.Spec.Writer
import Verif.Lemmas.Simulate
import Verif.Lemmas.Write
import Verif.Props.Write
import Verif.Spec.WriteRead
import Verif.Lemmas.WriteRead
import Verif.Props.WriteRead
import Verif.Spec.Golden
import Verif.Lemmas.Golden
import Verif.Props.Emsg
import Verif.Props.Iso
import Verif.Props.IsoTables
import Verif.Props.IsoOptional
import Verif.Props.IsoTrun
import Verif.Props.IsoTypes
import Verif.Props.Handle
import Verif.Props.Descriptor
import Verif.Props.IsoMore
import Verif.Model.Accessors
import Verif.Props.Accessors
import Verif.Lemmas.Hdlr
import Verif.Props.Hdlr
import Verif.Props.IsoEntries
import Verif.Props.IsoCodecs
import Verif.Props.IsoRest
import Verif.Props.IsoRestTypes
import Verif.Model.Probe
import Verif.Spec.Probe
import Verif.Lemmas.Probe
import Verif.Lemmas.Bitrate
import Verif.Props.ProbeTables
import Verif.Props.Bitrate
import Verif.Props.Idr
import Verif.Props.IdrAny
import Verif.Props.Probe
import Verif.Spec.ProbeTrack
import Verif.Lemmas.ProbeAac
import Verif.Lemmas.WfCheck
import Verif.Props.ProbeAac
import Verif.Props.ProbeTrack
import Verif.Props.ProbeSegment
import Verif.Lemmas.Found
import Verif.Props.ExtractAny
import Verif.Props.ProbeSafe
import Verif.Model.Field
import Verif.Model.Tags
import Verif.Props.Field
import Verif.Model.Stringify
import Verif.Spec.Stringify
import Verif.Props.Stringify
import Verif.Model.Edit
import Verif.Spec.Edit
import Verif.Lemmas.Edit
import Verif.Lemmas.EditParts
import Verif.Lemmas.EditTree
import Verif.Props.Edit
import Verif.Model.Tool
import Verif.Spec.Tool
import Verif.Lemmas.Visit
import Verif.Props.ToolExtract
import Verif.Props.ToolPssh
import Verif.Props.StringifyTotal
import Verif.Props.ToolDump
import Verif.Props.ToolProbe
import Verif.Model.Divide
import Verif.Lemmas.Success
import Verif.Lemmas.Divide
import Verif.Spec.Divide
import Verif.Lemmas.DivideRow
import Verif.Props.ToolDivide
import Verif.Lemmas.DivideRun
import Verif.Props.ToolDivideRun
import Verif.Spec.StringifyText
import Verif.Lemmas.StringifyText
import Verif.Props.StringifyText
import Verif.Props.Cover
import Verif.Props.Playlist
import Verif.Spec.Volume
import Verif.Lemmas.Volume
import Verif.Props.Volume
import Verif.Props.ProbeVolume
import Verif.Model.Source
import Verif.Model.SourceRead
import Verif.Spec.Source
import Verif.Lemmas.Source
import Verif.Lemmas.SourceUnmarshal
import Verif.Lemmas.SourceRead
import Verif.Props.Source
import Verif.Spec.Reuse
import Verif.Lemmas.Reuse
import Verif.Lemmas.ReuseBox
import Verif.Lemmas.ReuseWrite
import Verif.Lemmas.ReuseShow
import Verif.Props.Reuse
import Verif.Spec.Custom
import Verif.Lemmas.Custom
import Verif.Props.Custom
import Verif.Lemmas.TraverseAny
import Verif.Lemmas.TraverseAnyFacts
import Verif.Props.TraverseAny
import Verif.Model.AccessorsMore
import Verif.Props.AccessorsMore
import Verif.Model.Rewrite
import Verif.Props.Rewrite
import Verif.Lemmas.SimulateUpTo
import Verif.Lemmas.WriteFaults
import Verif.Props.WriteFaults
import Verif.Lemmas.RegLocal
import Verif.Props.RegLocal
import Verif.Lemmas.Tidy
import Verif.Props.WriteSafe
import Verif.Lemmas.Shrink
import Verif.Spec.EditBoxes
import Verif.Lemmas.EditBoxes
import Verif.Props.EditBoxes
import Verif.Spec.Calls
import Verif.Lemmas.Calls
import Verif.Props.Calls
import Verif.Spec.Concat
import Verif.Spec.Summary
import Verif.Lemmas.Concat
import Verif.Lemmas.Summary
import Verif.Props.Summary
import Verif.Props.Concat
import Verif.Lemmas.Cut
import Verif.Spec.Cut
import Verif.Lemmas.CutAll
import Verif.Props.Cut
import Verif.Props.ExtractBeside
import Verif.Props.CutProbe
import Verif.Spec.DivideBoxes
import Verif.Lemmas.DivideBoxes
import Verif.Lemmas.DivideProbe
import Verif.Props.DivideBoxes
import Verif.Spec.Json
import Verif.Model.ToolJson
import Verif.Lemmas.Json
import Verif.Props.ToolJson
import Verif.Model.Main
import Verif.Spec.Main
import Verif.Lemmas.Main
import Verif.Props.Main
import Verif.Spec.EditProbe
import Verif.Props.EditProbe
import Verif.Props.BoxText
import Verif.Spec.DumpBoxes
import Verif.Props.DumpBoxes
import Verif.Spec.ExtractBoxes
import Verif.Props.ExtractBoxes
import Verif.Spec.PsshBoxes
import Verif.Props.PsshBoxes
import Verif.Model.SourceTool
import Verif.Spec.SourceTool
import Verif.Lemmas.SourceTool
import Verif.Props.SourceTool
import Verif.Model.SourceEdit
import Verif.Lemmas.SourceEdit
import Verif.Props.SourceEdit
import Verif.Model.SourceDivide
import Verif.Lemmas.SourceDivide
import Verif.Props.SourceDivide
import Verif.Model.PlaylistFile
import Verif.Spec.PlaylistFile
import Verif.Props.PlaylistFile
import Verif.Model.DivideFaults
import Verif.Props.DivideFaults
