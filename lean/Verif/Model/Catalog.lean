import Verif.Model.Cfos
import Verif.Model.Unmarshal

/-!
# The box types of the library

Generated by tools/gen_catalog.py from the struct declarations and `init` functions
of /repo/box_types_*.go.  Every definition names the declaration it was made from.
-/

namespace Mp4.Cat

open Mp4

/-- `Udta3GppString`, box_types_3gpp.go:18-24 -/
def fsUdta3GppString : Fields := Fields.ofList [
  ({ name := "FullBox", extend := true }, fullBoxTy),
  ({ name := "Pad", size := 1, hidden := true }, .bool),
  ({ name := "Language", size := 5, iso639 := true }, (.arr 3 (.uint 8))),
  ({ name := "Data", size := 8, isString := true }, (.slice (.uint 8)))
  ]

/-- `SampleEntry`, box_types_iso14496_12.go:1231-1235 -/
def fsSampleEntry : Fields := Fields.ofList [
  ({ name := "Reserved", size := 8, cnst := "0" }, (.arr 6 (.uint 8))),
  ({ name := "DataReferenceIndex", size := 16 }, (.uint 16))
  ]

/-- `SampleEntry` as the type of a field -/
def tySampleEntry : Ty := .struct (some Cfo.base) fsSampleEntry

/-- `VisualSampleEntry`, box_types_iso14496_12.go:1237-1251 -/
def fsVisualSampleEntry : Fields := Fields.ofList [
  ({ name := "SampleEntry", extend := true }, tySampleEntry),
  ({ name := "PreDefined", size := 16 }, (.uint 16)),
  ({ name := "Reserved", size := 16, cnst := "0" }, (.uint 16)),
  ({ name := "PreDefined2", size := 32 }, (.arr 3 (.uint 32))),
  ({ name := "Width", size := 16 }, (.uint 16)),
  ({ name := "Height", size := 16 }, (.uint 16)),
  ({ name := "Horizresolution", size := 32 }, (.uint 32)),
  ({ name := "Vertresolution", size := 32 }, (.uint 32)),
  ({ name := "Reserved2", size := 32, cnst := "0" }, (.uint 32)),
  ({ name := "FrameCount", size := 16 }, (.uint 16)),
  ({ name := "Compressorname", size := 8 }, (.arr 32 (.uint 8))),
  ({ name := "Depth", size := 16 }, (.uint 16)),
  ({ name := "PreDefined3", size := 16 }, (.int 16))
  ]

/-- `Av1C`, box_types_av1.go:23-40 -/
def fsAv1C : Fields := Fields.ofList [
  ({ name := "Marker", size := 1, cnst := "1" }, (.uint 8)),
  ({ name := "Version", size := 7, cnst := "1" }, (.uint 8)),
  ({ name := "SeqProfile", size := 3 }, (.uint 8)),
  ({ name := "SeqLevelIdx0", size := 5 }, (.uint 8)),
  ({ name := "SeqTier0", size := 1 }, (.uint 8)),
  ({ name := "HighBitdepth", size := 1 }, (.uint 8)),
  ({ name := "TwelveBit", size := 1 }, (.uint 8)),
  ({ name := "Monochrome", size := 1 }, (.uint 8)),
  ({ name := "ChromaSubsamplingX", size := 1 }, (.uint 8)),
  ({ name := "ChromaSubsamplingY", size := 1 }, (.uint 8)),
  ({ name := "ChromaSamplePosition", size := 2 }, (.uint 8)),
  ({ name := "Reserved", size := 3, cnst := "0" }, (.uint 8)),
  ({ name := "InitialPresentationDelayPresent", size := 1 }, (.uint 8)),
  ({ name := "InitialPresentationDelayMinusOne", size := 4 }, (.uint 8)),
  ({ name := "ConfigOBUs", size := 8 }, (.slice (.uint 8)))
  ]

/-- `AudioSampleEntry`, box_types_iso14496_12.go:1266-1276 -/
def fsAudioSampleEntry : Fields := Fields.ofList [
  ({ name := "SampleEntry", extend := true, optDyn := true }, tySampleEntry),
  ({ name := "EntryVersion", size := 16, optDyn := true }, (.uint 16)),
  ({ name := "Reserved", size := 16, optDyn := true, cnst := "0" }, (.arr 3 (.uint 16))),
  ({ name := "ChannelCount", size := 16, optDyn := true }, (.uint 16)),
  ({ name := "SampleSize", size := 16, optDyn := true }, (.uint 16)),
  ({ name := "PreDefined", size := 16, optDyn := true }, (.uint 16)),
  ({ name := "Reserved2", size := 16, optDyn := true, cnst := "0" }, (.uint 16)),
  ({ name := "SampleRate", size := 32, optDyn := true }, (.uint 32)),
  ({ name := "QuickTimeData", size := 8, optDyn := true, lenDyn := true }, (.slice (.uint 8)))
  ]

/-- `Dac3`, box_types_etsi_ts_102_366.go:23-32 -/
def fsDac3 : Fields := Fields.ofList [
  ({ name := "Fscod", size := 2 }, (.uint 8)),
  ({ name := "Bsid", size := 5 }, (.uint 8)),
  ({ name := "Bsmod", size := 3 }, (.uint 8)),
  ({ name := "Acmod", size := 3 }, (.uint 8)),
  ({ name := "LfeOn", size := 1 }, (.uint 8)),
  ({ name := "BitRateCode", size := 5 }, (.uint 8)),
  ({ name := "Reserved", size := 5, cnst := "0" }, (.uint 8))
  ]

/-- `Btrt`, box_types_iso14496_12.go:21-26 -/
def fsBtrt : Fields := Fields.ofList [
  ({ name := "BufferSizeDB", size := 32 }, (.uint 32)),
  ({ name := "MaxBitrate", size := 32 }, (.uint 32)),
  ({ name := "AvgBitrate", size := 32 }, (.uint 32))
  ]

/-- `Co64`, box_types_iso14496_12.go:41-45 -/
def fsCo64 : Fields := Fields.ofList [
  ({ name := "FullBox", extend := true }, fullBoxTy),
  ({ name := "EntryCount", size := 32 }, (.uint 32)),
  ({ name := "ChunkOffset", size := 64, lenDyn := true }, (.slice (.uint 64)))
  ]

/-- `Colr`, box_types_iso14496_12.go:69-79 -/
def fsColr : Fields := Fields.ofList [
  ({ name := "ColourType", size := 8, isString := true }, (.arr 4 (.uint 8))),
  ({ name := "ColourPrimaries", size := 16, optDyn := true }, (.uint 16)),
  ({ name := "TransferCharacteristics", size := 16, optDyn := true }, (.uint 16)),
  ({ name := "MatrixCoefficients", size := 16, optDyn := true }, (.uint 16)),
  ({ name := "FullRangeFlag", size := 1, optDyn := true }, .bool),
  ({ name := "Reserved", size := 7, optDyn := true }, (.uint 8)),
  ({ name := "Profile", size := 8, optDyn := true }, (.slice (.uint 8))),
  ({ name := "Unknown", size := 8, optDyn := true }, (.slice (.uint 8)))
  ]

/-- `Cslg`, box_types_iso14496_12.go:115-127 -/
def fsCslg : Fields := Fields.ofList [
  ({ name := "FullBox", extend := true }, fullBoxTy),
  ({ name := "CompositionToDTSShiftV0", size := 32, version := 0 }, (.int 32)),
  ({ name := "LeastDecodeToDisplayDeltaV0", size := 32, version := 0 }, (.int 32)),
  ({ name := "GreatestDecodeToDisplayDeltaV0", size := 32, version := 0 }, (.int 32)),
  ({ name := "CompositionStartTimeV0", size := 32, version := 0 }, (.int 32)),
  ({ name := "CompositionEndTimeV0", size := 32, version := 0 }, (.int 32)),
  ({ name := "CompositionToDTSShiftV1", size := 64, nVersion := 0 }, (.int 64)),
  ({ name := "LeastDecodeToDisplayDeltaV1", size := 64, nVersion := 0 }, (.int 64)),
  ({ name := "GreatestDecodeToDisplayDeltaV1", size := 64, nVersion := 0 }, (.int 64)),
  ({ name := "CompositionStartTimeV1", size := 64, nVersion := 0 }, (.int 64)),
  ({ name := "CompositionEndTimeV1", size := 64, nVersion := 0 }, (.int 64))
  ]

/-- `CttsEntry`, box_types_iso14496_12.go:203-207 -/
def fsCttsEntry : Fields := Fields.ofList [
  ({ name := "SampleCount", size := 32 }, (.uint 32)),
  ({ name := "SampleOffsetV0", size := 32, version := 0 }, (.uint 32)),
  ({ name := "SampleOffsetV1", size := 32, version := 1 }, (.int 32))
  ]

/-- `CttsEntry` as the type of a field -/
def tyCttsEntry : Ty := .struct none fsCttsEntry

/-- `Ctts`, box_types_iso14496_12.go:197-201 -/
def fsCtts : Fields := Fields.ofList [
  ({ name := "FullBox", extend := true }, fullBoxTy),
  ({ name := "EntryCount", size := 32 }, (.uint 32)),
  ({ name := "Entries", lenDyn := true, size := 64 }, (.slice tyCttsEntry))
  ]

/-- `Dinf`, box_types_iso14496_12.go:243-245 -/
def fsDinf : Fields := Fields.ofList [

  ]

/-- `Dref`, box_types_iso14496_12.go:265-268 -/
def fsDref : Fields := Fields.ofList [
  ({ name := "FullBox", extend := true }, fullBoxTy),
  ({ name := "EntryCount", size := 32 }, (.uint 32))
  ]

/-- `Url`, box_types_iso14496_12.go:275-278 -/
def fsUrl : Fields := Fields.ofList [
  ({ name := "FullBox", extend := true }, fullBoxTy),
  ({ name := "Location", isString := true, nOptFlag := 1 }, .str)
  ]

/-- `Urn`, box_types_iso14496_12.go:286-290 -/
def fsUrn : Fields := Fields.ofList [
  ({ name := "FullBox", extend := true }, fullBoxTy),
  ({ name := "Name", isString := true, nOptFlag := 1 }, .str),
  ({ name := "Location", isString := true, nOptFlag := 1 }, .str)
  ]

/-- `Edts`, box_types_iso14496_12.go:307-309 -/
def fsEdts : Fields := Fields.ofList [

  ]

/-- `ElstEntry`, box_types_iso14496_12.go:331-338 -/
def fsElstEntry : Fields := Fields.ofList [
  ({ name := "SegmentDurationV0", size := 32, version := 0 }, (.uint 32)),
  ({ name := "MediaTimeV0", size := 32, version := 0 }, (.int 32)),
  ({ name := "SegmentDurationV1", size := 64, version := 1 }, (.uint 64)),
  ({ name := "MediaTimeV1", size := 64, version := 1 }, (.int 64)),
  ({ name := "MediaRateInteger", size := 16 }, (.int 16)),
  ({ name := "MediaRateFraction", size := 16, cnst := "0" }, (.int 16))
  ]

/-- `ElstEntry` as the type of a field -/
def tyElstEntry : Ty := .struct none fsElstEntry

/-- `Elst`, box_types_iso14496_12.go:325-329 -/
def fsElst : Fields := Fields.ofList [
  ({ name := "FullBox", extend := true }, fullBoxTy),
  ({ name := "EntryCount", size := 32 }, (.uint 32)),
  ({ name := "Entries", lenDyn := true, sizeDyn := true }, (.slice tyElstEntry))
  ]

/-- `Emsg`, box_types_iso14496_12.go:407-417 -/
def fsEmsg : Fields := Fields.ofList [
  ({ name := "FullBox", extend := true }, fullBoxTy),
  ({ name := "SchemeIdUri", isString := true }, .str),
  ({ name := "Value", isString := true }, .str),
  ({ name := "Timescale", size := 32 }, (.uint 32)),
  ({ name := "PresentationTimeDelta", size := 32, version := 0 }, (.uint 32)),
  ({ name := "PresentationTime", size := 64, version := 1 }, (.uint 64)),
  ({ name := "EventDuration", size := 32 }, (.uint 32)),
  ({ name := "Id", size := 32 }, (.uint 32)),
  ({ name := "MessageData", size := 8, isString := true }, (.slice (.uint 8)))
  ]

/-- `Fiel`, box_types_iso14496_12.go:478-482 -/
def fsFiel : Fields := Fields.ofList [
  ({ name := "FieldCount", size := 8 }, (.uint 8)),
  ({ name := "FieldOrdering", size := 8 }, (.uint 8))
  ]

/-- `FreeSpace`, box_types_iso14496_12.go:498-501 -/
def fsFreeSpace : Fields := Fields.ofList [
  ({ name := "Data", size := 8 }, (.slice (.uint 8)))
  ]

/-- `Frma`, box_types_iso14496_12.go:524-527 -/
def fsFrma : Fields := Fields.ofList [
  ({ name := "DataFormat", size := 8, isString := true }, (.arr 4 (.uint 8)))
  ]

/-- `CompatibleBrandElem`, box_types_iso14496_12.go:564-566 -/
def fsCompatibleBrandElem : Fields := Fields.ofList [
  ({ name := "CompatibleBrand", size := 8, isString := true }, (.arr 4 (.uint 8)))
  ]

/-- `CompatibleBrandElem` as the type of a field -/
def tyCompatibleBrandElem : Ty := .struct none fsCompatibleBrandElem

/-- `Ftyp`, box_types_iso14496_12.go:557-562 -/
def fsFtyp : Fields := Fields.ofList [
  ({ name := "MajorBrand", size := 8, isString := true }, (.arr 4 (.uint 8))),
  ({ name := "MinorVersion", size := 32 }, (.uint 32)),
  ({ name := "CompatibleBrands", size := 32 }, (.slice tyCompatibleBrandElem))
  ]

/-- `Hdlr`, box_types_iso14496_12.go:610-619 -/
def fsHdlr : Fields := Fields.ofList [
  ({ name := "FullBox", extend := true }, fullBoxTy),
  ({ name := "PreDefined", size := 32 }, (.uint 32)),
  ({ name := "HandlerType", size := 8, isString := true }, (.arr 4 (.uint 8))),
  ({ name := "Reserved", size := 32, cnst := "0" }, (.arr 3 (.uint 32))),
  ({ name := "Name", isString := true }, .str)
  ]

/-- `HEVCNalu`, box_types_iso14496_12.go:677-681 -/
def fsHEVCNalu : Fields := Fields.ofList [
  ({ name := "Length", size := 16 }, (.uint 16)),
  ({ name := "NALUnit", size := 8, lenDyn := true }, (.slice (.uint 8)))
  ]

/-- `HEVCNalu` as the type of a field -/
def tyHEVCNalu : Ty := .struct (some cfoHEVCNalu) fsHEVCNalu

/-- `HEVCNaluArray`, box_types_iso14496_12.go:691-698 -/
def fsHEVCNaluArray : Fields := Fields.ofList [
  ({ name := "Completeness", size := 1 }, .bool),
  ({ name := "Reserved", size := 1 }, .bool),
  ({ name := "NaluType", size := 6 }, (.uint 8)),
  ({ name := "NumNalus", size := 16 }, (.uint 16)),
  ({ name := "Nalus", lenDyn := true }, (.slice tyHEVCNalu))
  ]

/-- `HEVCNaluArray` as the type of a field -/
def tyHEVCNaluArray : Ty := .struct (some cfoHEVCNaluArray) fsHEVCNaluArray

/-- `HvcC`, box_types_iso14496_12.go:708-734 -/
def fsHvcC : Fields := Fields.ofList [
  ({ name := "ConfigurationVersion", size := 8 }, (.uint 8)),
  ({ name := "GeneralProfileSpace", size := 2 }, (.uint 8)),
  ({ name := "GeneralTierFlag", size := 1 }, .bool),
  ({ name := "GeneralProfileIdc", size := 5 }, (.uint 8)),
  ({ name := "GeneralProfileCompatibility", size := 1 }, (.arr 32 .bool)),
  ({ name := "GeneralConstraintIndicator", size := 8 }, (.arr 6 (.uint 8))),
  ({ name := "GeneralLevelIdc", size := 8 }, (.uint 8)),
  ({ name := "Reserved1", size := 4, cnst := "15" }, (.uint 8)),
  ({ name := "MinSpatialSegmentationIdc", size := 12 }, (.uint 16)),
  ({ name := "Reserved2", size := 6, cnst := "63" }, (.uint 8)),
  ({ name := "ParallelismType", size := 2 }, (.uint 8)),
  ({ name := "Reserved3", size := 6, cnst := "63" }, (.uint 8)),
  ({ name := "ChromaFormatIdc", size := 2 }, (.uint 8)),
  ({ name := "Reserved4", size := 5, cnst := "31" }, (.uint 8)),
  ({ name := "BitDepthLumaMinus8", size := 3 }, (.uint 8)),
  ({ name := "Reserved5", size := 5, cnst := "31" }, (.uint 8)),
  ({ name := "BitDepthChromaMinus8", size := 3 }, (.uint 8)),
  ({ name := "AvgFrameRate", size := 16 }, (.uint 16)),
  ({ name := "ConstantFrameRate", size := 2 }, (.uint 8)),
  ({ name := "NumTemporalLayers", size := 2 }, (.uint 8)),
  ({ name := "TemporalIdNested", size := 2 }, (.uint 8)),
  ({ name := "LengthSizeMinusOne", size := 2 }, (.uint 8)),
  ({ name := "NumOfNaluArrays", size := 8 }, (.uint 8)),
  ({ name := "NaluArrays", lenDyn := true }, (.slice tyHEVCNaluArray))
  ]

/-- `Mdat`, box_types_iso14496_12.go:757-760 -/
def fsMdat : Fields := Fields.ofList [
  ({ name := "Data", size := 8 }, (.slice (.uint 8)))
  ]

/-- `Mdhd`, box_types_iso14496_12.go:776-789 -/
def fsMdhd : Fields := Fields.ofList [
  ({ name := "FullBox", extend := true }, fullBoxTy),
  ({ name := "CreationTimeV0", size := 32, version := 0 }, (.uint 32)),
  ({ name := "ModificationTimeV0", size := 32, version := 0 }, (.uint 32)),
  ({ name := "CreationTimeV1", size := 64, version := 1 }, (.uint 64)),
  ({ name := "ModificationTimeV1", size := 64, version := 1 }, (.uint 64)),
  ({ name := "Timescale", size := 32 }, (.uint 32)),
  ({ name := "DurationV0", size := 32, version := 0 }, (.uint 32)),
  ({ name := "DurationV1", size := 64, version := 1 }, (.uint 64)),
  ({ name := "Pad", size := 1, hidden := true }, .bool),
  ({ name := "Language", size := 5, iso639 := true }, (.arr 3 (.uint 8))),
  ({ name := "PreDefined", size := 16 }, (.uint 16))
  ]

/-- `Mdia`, box_types_iso14496_12.go:838-840 -/
def fsMdia : Fields := Fields.ofList [

  ]

/-- `Mehd`, box_types_iso14496_12.go:856-860 -/
def fsMehd : Fields := Fields.ofList [
  ({ name := "FullBox", extend := true }, fullBoxTy),
  ({ name := "FragmentDurationV0", size := 32, version := 0 }, (.uint 32)),
  ({ name := "FragmentDurationV1", size := 64, version := 1 }, (.uint 64))
  ]

/-- `Meta`, box_types_iso14496_12.go:887-889 -/
def fsMeta : Fields := Fields.ofList [
  ({ name := "FullBox", extend := true }, fullBoxTy)
  ]

/-- `Mfhd`, box_types_iso14496_12.go:922-925 -/
def fsMfhd : Fields := Fields.ofList [
  ({ name := "FullBox", extend := true }, fullBoxTy),
  ({ name := "SequenceNumber", size := 32 }, (.uint 32))
  ]

/-- `Mfra`, box_types_iso14496_12.go:941-943 -/
def fsMfra : Fields := Fields.ofList [

  ]

/-- `Mfro`, box_types_iso14496_12.go:959-962 -/
def fsMfro : Fields := Fields.ofList [
  ({ name := "FullBox", extend := true }, fullBoxTy),
  ({ name := "Size", size := 32 }, (.uint 32))
  ]

/-- `Minf`, box_types_iso14496_12.go:978-980 -/
def fsMinf : Fields := Fields.ofList [

  ]

/-- `Moof`, box_types_iso14496_12.go:996-998 -/
def fsMoof : Fields := Fields.ofList [

  ]

/-- `Moov`, box_types_iso14496_12.go:1014-1016 -/
def fsMoov : Fields := Fields.ofList [

  ]

/-- `Mvex`, box_types_iso14496_12.go:1032-1034 -/
def fsMvex : Fields := Fields.ofList [

  ]

/-- `Mvhd`, box_types_iso14496_12.go:1050-1066 -/
def fsMvhd : Fields := Fields.ofList [
  ({ name := "FullBox", extend := true }, fullBoxTy),
  ({ name := "CreationTimeV0", size := 32, version := 0 }, (.uint 32)),
  ({ name := "ModificationTimeV0", size := 32, version := 0 }, (.uint 32)),
  ({ name := "CreationTimeV1", size := 64, version := 1 }, (.uint 64)),
  ({ name := "ModificationTimeV1", size := 64, version := 1 }, (.uint 64)),
  ({ name := "Timescale", size := 32 }, (.uint 32)),
  ({ name := "DurationV0", size := 32, version := 0 }, (.uint 32)),
  ({ name := "DurationV1", size := 64, version := 1 }, (.uint 64)),
  ({ name := "Rate", size := 32 }, (.int 32)),
  ({ name := "Volume", size := 16 }, (.int 16)),
  ({ name := "Reserved", size := 16, cnst := "0" }, (.int 16)),
  ({ name := "Reserved2", size := 32, cnst := "0" }, (.arr 2 (.uint 32))),
  ({ name := "Matrix", size := 32, hex := true }, (.arr 9 (.int 32))),
  ({ name := "PreDefined", size := 32 }, (.arr 6 (.int 32))),
  ({ name := "NextTrackID", size := 32 }, (.uint 32))
  ]

/-- `Saio`, box_types_iso14496_12.go:1134-1141 -/
def fsSaio : Fields := Fields.ofList [
  ({ name := "FullBox", extend := true }, fullBoxTy),
  ({ name := "AuxInfoType", size := 8, optFlag := 1, isString := true }, (.arr 4 (.uint 8))),
  ({ name := "AuxInfoTypeParameter", size := 32, optFlag := 1, hex := true }, (.uint 32)),
  ({ name := "EntryCount", size := 32 }, (.uint 32)),
  ({ name := "OffsetV0", size := 32, version := 0, lenDyn := true }, (.slice (.uint 32))),
  ({ name := "OffsetV1", size := 64, nVersion := 0, lenDyn := true }, (.slice (.uint 64)))
  ]

/-- `Saiz`, box_types_iso14496_12.go:1174-1181 -/
def fsSaiz : Fields := Fields.ofList [
  ({ name := "FullBox", extend := true }, fullBoxTy),
  ({ name := "AuxInfoType", size := 8, optFlag := 1, isString := true }, (.arr 4 (.uint 8))),
  ({ name := "AuxInfoTypeParameter", size := 32, optFlag := 1, hex := true }, (.uint 32)),
  ({ name := "DefaultSampleInfoSize", size := 8, dec := true }, (.uint 8)),
  ({ name := "SampleCount", size := 32 }, (.uint 32)),
  ({ name := "SampleInfoSize", size := 8, optDyn := true, lenDyn := true, dec := true }, (.slice (.uint 8)))
  ]

/-- `AVCParameterSet`, box_types_iso14496_12.go:1405-1409 -/
def fsAVCParameterSet : Fields := Fields.ofList [
  ({ name := "Length", size := 16 }, (.uint 16)),
  ({ name := "NALUnit", size := 8, lenDyn := true }, (.slice (.uint 8)))
  ]

/-- `AVCParameterSet` as the type of a field -/
def tyAVCParameterSet : Ty := .struct (some cfoAVCParameterSet) fsAVCParameterSet

/-- `AVCDecoderConfiguration`, box_types_iso14496_12.go:1328-1350 -/
def fsAVCDecoderConfiguration : Fields := Fields.ofList [
  ({ name := "ConfigurationVersion", size := 8 }, (.uint 8)),
  ({ name := "Profile", size := 8 }, (.uint 8)),
  ({ name := "ProfileCompatibility", size := 8 }, (.uint 8)),
  ({ name := "Level", size := 8 }, (.uint 8)),
  ({ name := "Reserved", size := 6, cnst := "63" }, (.uint 8)),
  ({ name := "LengthSizeMinusOne", size := 2 }, (.uint 8)),
  ({ name := "Reserved2", size := 3, cnst := "7" }, (.uint 8)),
  ({ name := "NumOfSequenceParameterSets", size := 5 }, (.uint 8)),
  ({ name := "SequenceParameterSets", lenDyn := true }, (.slice tyAVCParameterSet)),
  ({ name := "NumOfPictureParameterSets", size := 8 }, (.uint 8)),
  ({ name := "PictureParameterSets", lenDyn := true }, (.slice tyAVCParameterSet)),
  ({ name := "HighProfileFieldsEnabled", hidden := true }, .bool),
  ({ name := "Reserved3", size := 6, optDyn := true, cnst := "63" }, (.uint 8)),
  ({ name := "ChromaFormat", size := 2, optDyn := true }, (.uint 8)),
  ({ name := "Reserved4", size := 5, optDyn := true, cnst := "31" }, (.uint 8)),
  ({ name := "BitDepthLumaMinus8", size := 3, optDyn := true }, (.uint 8)),
  ({ name := "Reserved5", size := 5, optDyn := true, cnst := "31" }, (.uint 8)),
  ({ name := "BitDepthChromaMinus8", size := 3, optDyn := true }, (.uint 8)),
  ({ name := "NumOfSequenceParameterSetExt", size := 8, optDyn := true }, (.uint 8)),
  ({ name := "SequenceParameterSetsExt", lenDyn := true, optDyn := true }, (.slice tyAVCParameterSet))
  ]

/-- `PixelAspectRatioBox`, box_types_iso14496_12.go:1419-1423 -/
def fsPixelAspectRatioBox : Fields := Fields.ofList [
  ({ name := "HSpacing", size := 32 }, (.uint 32)),
  ({ name := "VSpacing", size := 32 }, (.uint 32))
  ]

/-- `XMLSubtitleSampleEntry`, box_types_iso14496_12.go:1425-1430 -/
def fsXMLSubtitleSampleEntry : Fields := Fields.ofList [
  ({ name := "SampleEntry", extend := true }, tySampleEntry),
  ({ name := "Namespace", isString := true }, .str),
  ({ name := "SchemaLocation", isString := true }, .str),
  ({ name := "AuxiliaryMIMETypes", isString := true }, .str)
  ]

/-- `TextSubtitleSampleEntry`, box_types_iso14496_12.go:1444-1448 -/
def fsTextSubtitleSampleEntry : Fields := Fields.ofList [
  ({ name := "SampleEntry", extend := true }, tySampleEntry),
  ({ name := "ContentEncoding", isString := true }, .str),
  ({ name := "MIMEFormat", isString := true }, .str)
  ]

/-- `SbgpEntry`, box_types_iso14496_12.go:1466-1469 -/
def fsSbgpEntry : Fields := Fields.ofList [
  ({ name := "SampleCount", size := 32 }, (.uint 32)),
  ({ name := "GroupDescriptionIndex", size := 32 }, (.uint 32))
  ]

/-- `SbgpEntry` as the type of a field -/
def tySbgpEntry : Ty := .struct none fsSbgpEntry

/-- `Sbgp`, box_types_iso14496_12.go:1458-1464 -/
def fsSbgp : Fields := Fields.ofList [
  ({ name := "FullBox", extend := true }, fullBoxTy),
  ({ name := "GroupingType", size := 32 }, (.uint 32)),
  ({ name := "GroupingTypeParameter", size := 32, version := 1 }, (.uint 32)),
  ({ name := "EntryCount", size := 32 }, (.uint 32)),
  ({ name := "Entries", lenDyn := true, size := 64 }, (.slice tySbgpEntry))
  ]

/-- `Schi`, box_types_iso14496_12.go:1491-1493 -/
def fsSchi : Fields := Fields.ofList [

  ]

/-- `Schm`, box_types_iso14496_12.go:1507-1512 -/
def fsSchm : Fields := Fields.ofList [
  ({ name := "FullBox", extend := true }, fullBoxTy),
  ({ name := "SchemeType", size := 8, isString := true }, (.arr 4 (.uint 8))),
  ({ name := "SchemeVersion", size := 32, hex := true }, (.uint 32)),
  ({ name := "SchemeUri", size := 8, optFlag := 1, isString := true }, (.slice (.uint 8)))
  ]

/-- `SdtpSampleElem`, box_types_iso14496_12.go:1531-1536 -/
def fsSdtpSampleElem : Fields := Fields.ofList [
  ({ name := "IsLeading", size := 2 }, (.uint 8)),
  ({ name := "SampleDependsOn", size := 2 }, (.uint 8)),
  ({ name := "SampleIsDependedOn", size := 2 }, (.uint 8)),
  ({ name := "SampleHasRedundancy", size := 2 }, (.uint 8))
  ]

/-- `SdtpSampleElem` as the type of a field -/
def tySdtpSampleElem : Ty := .struct none fsSdtpSampleElem

/-- `Sdtp`, box_types_iso14496_12.go:1526-1529 -/
def fsSdtp : Fields := Fields.ofList [
  ({ name := "FullBox", extend := true }, fullBoxTy),
  ({ name := "Samples", size := 8 }, (.slice tySdtpSampleElem))
  ]

/-- `RollDistanceWithLength`, box_types_iso14496_12.go:1567-1570 -/
def fsRollDistanceWithLength : Fields := Fields.ofList [
  ({ name := "DescriptionLength", size := 32 }, (.uint 32)),
  ({ name := "RollDistance", size := 16 }, (.int 16))
  ]

/-- `RollDistanceWithLength` as the type of a field -/
def tyRollDistanceWithLength : Ty := .struct none fsRollDistanceWithLength

/-- `AlternativeStartupEntryOpt`, box_types_iso14496_12.go:1585-1588 -/
def fsAlternativeStartupEntryOpt : Fields := Fields.ofList [
  ({ name := "NumOutputSamples", size := 16 }, (.uint 16)),
  ({ name := "NumTotalSamples", size := 16 }, (.uint 16))
  ]

/-- `AlternativeStartupEntryOpt` as the type of a field -/
def tyAlternativeStartupEntryOpt : Ty := .struct none fsAlternativeStartupEntryOpt

/-- `AlternativeStartupEntry`, box_types_iso14496_12.go:1572-1578 -/
def fsAlternativeStartupEntry : Fields := Fields.ofList [
  ({ name := "RollCount", size := 16 }, (.uint 16)),
  ({ name := "FirstOutputSample", size := 16 }, (.uint 16)),
  ({ name := "SampleOffset", size := 32, lenDyn := true }, (.slice (.uint 32))),
  ({ name := "Opts", size := 32 }, (.slice tyAlternativeStartupEntryOpt))
  ]

/-- `AlternativeStartupEntry` as the type of a field -/
def tyAlternativeStartupEntry : Ty := .struct (some cfoAlternativeStartupEntry) fsAlternativeStartupEntry

/-- `AlternativeStartupEntryL`, box_types_iso14496_12.go:1580-1583 -/
def fsAlternativeStartupEntryL : Fields := Fields.ofList [
  ({ name := "DescriptionLength", size := 32 }, (.uint 32)),
  ({ name := "AlternativeStartupEntry", extend := true, sizeDyn := true }, tyAlternativeStartupEntry)
  ]

/-- `AlternativeStartupEntryL` as the type of a field -/
def tyAlternativeStartupEntryL : Ty := .struct (some cfoAlternativeStartupEntryL) fsAlternativeStartupEntryL

/-- `VisualRandomAccessEntry`, box_types_iso14496_12.go:1590-1593 -/
def fsVisualRandomAccessEntry : Fields := Fields.ofList [
  ({ name := "NumLeadingSamplesKnown", size := 1 }, .bool),
  ({ name := "NumLeadingSamples", size := 7 }, (.uint 8))
  ]

/-- `VisualRandomAccessEntry` as the type of a field -/
def tyVisualRandomAccessEntry : Ty := .struct none fsVisualRandomAccessEntry

/-- `VisualRandomAccessEntryL`, box_types_iso14496_12.go:1595-1598 -/
def fsVisualRandomAccessEntryL : Fields := Fields.ofList [
  ({ name := "DescriptionLength", size := 32 }, (.uint 32)),
  ({ name := "VisualRandomAccessEntry", extend := true }, tyVisualRandomAccessEntry)
  ]

/-- `VisualRandomAccessEntryL` as the type of a field -/
def tyVisualRandomAccessEntryL : Ty := .struct none fsVisualRandomAccessEntryL

/-- `TemporalLevelEntry`, box_types_iso14496_12.go:1600-1603 -/
def fsTemporalLevelEntry : Fields := Fields.ofList [
  ({ name := "LevelIndependentlyDecodable", size := 1 }, .bool),
  ({ name := "Reserved", size := 7, cnst := "0" }, (.uint 8))
  ]

/-- `TemporalLevelEntry` as the type of a field -/
def tyTemporalLevelEntry : Ty := .struct none fsTemporalLevelEntry

/-- `TemporalLevelEntryL`, box_types_iso14496_12.go:1605-1608 -/
def fsTemporalLevelEntryL : Fields := Fields.ofList [
  ({ name := "DescriptionLength", size := 32 }, (.uint 32)),
  ({ name := "TemporalLevelEntry", extend := true }, tyTemporalLevelEntry)
  ]

/-- `TemporalLevelEntryL` as the type of a field -/
def tyTemporalLevelEntryL : Ty := .struct none fsTemporalLevelEntryL

/-- `Sgpd`, box_types_iso14496_12.go:1550-1565 -/
def fsSgpd : Fields := Fields.ofList [
  ({ name := "FullBox", extend := true }, fullBoxTy),
  ({ name := "GroupingType", size := 8, isString := true }, (.arr 4 (.uint 8))),
  ({ name := "DefaultLength", size := 32, version := 1 }, (.uint 32)),
  ({ name := "DefaultSampleDescriptionIndex", size := 32, version := 2 }, (.uint 32)),
  ({ name := "EntryCount", size := 32 }, (.uint 32)),
  ({ name := "RollDistances", size := 16, optDyn := true }, (.slice (.int 16))),
  ({ name := "RollDistancesL", size := 16, optDyn := true }, (.slice tyRollDistanceWithLength)),
  ({ name := "AlternativeStartupEntries", sizeDyn := true, lenDyn := true, optDyn := true }, (.slice tyAlternativeStartupEntry)),
  ({ name := "AlternativeStartupEntriesL", lenDyn := true, optDyn := true }, (.slice tyAlternativeStartupEntryL)),
  ({ name := "VisualRandomAccessEntries", lenDyn := true, optDyn := true }, (.slice tyVisualRandomAccessEntry)),
  ({ name := "VisualRandomAccessEntriesL", lenDyn := true, optDyn := true }, (.slice tyVisualRandomAccessEntryL)),
  ({ name := "TemporalLevelEntries", lenDyn := true, optDyn := true }, (.slice tyTemporalLevelEntry)),
  ({ name := "TemporalLevelEntriesL", lenDyn := true, optDyn := true }, (.slice tyTemporalLevelEntryL)),
  ({ name := "Unsupported", size := 8, optDyn := true }, (.slice (.uint 8)))
  ]

/-- `SidxReference`, box_types_iso14496_12.go:1704-1711 -/
def fsSidxReference : Fields := Fields.ofList [
  ({ name := "ReferenceType", size := 1 }, .bool),
  ({ name := "ReferencedSize", size := 31 }, (.uint 32)),
  ({ name := "SubsegmentDuration", size := 32 }, (.uint 32)),
  ({ name := "StartsWithSAP", size := 1 }, .bool),
  ({ name := "SAPType", size := 3 }, (.uint 32)),
  ({ name := "SAPDeltaTime", size := 28 }, (.uint 32))
  ]

/-- `SidxReference` as the type of a field -/
def tySidxReference : Ty := .struct none fsSidxReference

/-- `Sidx`, box_types_iso14496_12.go:1691-1702 -/
def fsSidx : Fields := Fields.ofList [
  ({ name := "FullBox", extend := true }, fullBoxTy),
  ({ name := "ReferenceID", size := 32 }, (.uint 32)),
  ({ name := "Timescale", size := 32 }, (.uint 32)),
  ({ name := "EarliestPresentationTimeV0", size := 32, version := 0 }, (.uint 32)),
  ({ name := "FirstOffsetV0", size := 32, version := 0 }, (.uint 32)),
  ({ name := "EarliestPresentationTimeV1", size := 64, nVersion := 0 }, (.uint 64)),
  ({ name := "FirstOffsetV1", size := 64, nVersion := 0 }, (.uint 64)),
  ({ name := "Reserved", size := 16, cnst := "0" }, (.uint 16)),
  ({ name := "ReferenceCount", size := 16 }, (.uint 16)),
  ({ name := "References", size := 96, lenDyn := true }, (.slice tySidxReference))
  ]

/-- `Sinf`, box_types_iso14496_12.go:1755-1757 -/
def fsSinf : Fields := Fields.ofList [

  ]

/-- `Smhd`, box_types_iso14496_12.go:1771-1775 -/
def fsSmhd : Fields := Fields.ofList [
  ({ name := "FullBox", extend := true }, fullBoxTy),
  ({ name := "Balance", size := 16 }, (.int 16)),
  ({ name := "Reserved", size := 16, cnst := "0" }, (.uint 16))
  ]

/-- `Stbl`, box_types_iso14496_12.go:1810-1812 -/
def fsStbl : Fields := Fields.ofList [

  ]

/-- `Stco`, box_types_iso14496_12.go:1828-1832 -/
def fsStco : Fields := Fields.ofList [
  ({ name := "FullBox", extend := true }, fullBoxTy),
  ({ name := "EntryCount", size := 32 }, (.uint 32)),
  ({ name := "ChunkOffset", size := 32, lenDyn := true }, (.slice (.uint 32)))
  ]

/-- `StscEntry`, box_types_iso14496_12.go:1863-1867 -/
def fsStscEntry : Fields := Fields.ofList [
  ({ name := "FirstChunk", size := 32 }, (.uint 32)),
  ({ name := "SamplesPerChunk", size := 32 }, (.uint 32)),
  ({ name := "SampleDescriptionIndex", size := 32 }, (.uint 32))
  ]

/-- `StscEntry` as the type of a field -/
def tyStscEntry : Ty := .struct none fsStscEntry

/-- `Stsc`, box_types_iso14496_12.go:1857-1861 -/
def fsStsc : Fields := Fields.ofList [
  ({ name := "FullBox", extend := true }, fullBoxTy),
  ({ name := "EntryCount", size := 32 }, (.uint 32)),
  ({ name := "Entries", lenDyn := true, size := 96 }, (.slice tyStscEntry))
  ]

/-- `Stsd`, box_types_iso14496_12.go:1892-1895 -/
def fsStsd : Fields := Fields.ofList [
  ({ name := "FullBox", extend := true }, fullBoxTy),
  ({ name := "EntryCount", size := 32 }, (.uint 32))
  ]

/-- `Stss`, box_types_iso14496_12.go:1910-1914 -/
def fsStss : Fields := Fields.ofList [
  ({ name := "FullBox", extend := true }, fullBoxTy),
  ({ name := "EntryCount", size := 32 }, (.uint 32)),
  ({ name := "SampleNumber", lenDyn := true, size := 32 }, (.slice (.uint 32)))
  ]

/-- `Stsz`, box_types_iso14496_12.go:1939-1944 -/
def fsStsz : Fields := Fields.ofList [
  ({ name := "FullBox", extend := true }, fullBoxTy),
  ({ name := "SampleSize", size := 32 }, (.uint 32)),
  ({ name := "SampleCount", size := 32 }, (.uint 32)),
  ({ name := "EntrySize", size := 32, lenDyn := true }, (.slice (.uint 32)))
  ]

/-- `SttsEntry`, box_types_iso14496_12.go:1978-1981 -/
def fsSttsEntry : Fields := Fields.ofList [
  ({ name := "SampleCount", size := 32 }, (.uint 32)),
  ({ name := "SampleDelta", size := 32 }, (.uint 32))
  ]

/-- `SttsEntry` as the type of a field -/
def tySttsEntry : Ty := .struct none fsSttsEntry

/-- `Stts`, box_types_iso14496_12.go:1972-1976 -/
def fsStts : Fields := Fields.ofList [
  ({ name := "FullBox", extend := true }, fullBoxTy),
  ({ name := "EntryCount", size := 32 }, (.uint 32)),
  ({ name := "Entries", lenDyn := true, size := 64 }, (.slice tySttsEntry))
  ]

/-- `Styp`, box_types_iso14496_12.go:2005-2010 -/
def fsStyp : Fields := Fields.ofList [
  ({ name := "MajorBrand", size := 8, isString := true }, (.arr 4 (.uint 8))),
  ({ name := "MinorVersion", size := 32 }, (.uint 32)),
  ({ name := "CompatibleBrands", size := 32 }, (.slice tyCompatibleBrandElem))
  ]

/-- `Tfdt`, box_types_iso14496_12.go:2025-2029 -/
def fsTfdt : Fields := Fields.ofList [
  ({ name := "FullBox", extend := true }, fullBoxTy),
  ({ name := "BaseMediaDecodeTimeV0", size := 32, version := 0 }, (.uint 32)),
  ({ name := "BaseMediaDecodeTimeV1", size := 64, version := 1 }, (.uint 64))
  ]

/-- `Tfhd`, box_types_iso14496_12.go:2056-2066 -/
def fsTfhd : Fields := Fields.ofList [
  ({ name := "FullBox", extend := true }, fullBoxTy),
  ({ name := "TrackID", size := 32 }, (.uint 32)),
  ({ name := "BaseDataOffset", size := 64, optFlag := 1 }, (.uint 64)),
  ({ name := "SampleDescriptionIndex", size := 32, optFlag := 2 }, (.uint 32)),
  ({ name := "DefaultSampleDuration", size := 32, optFlag := 8 }, (.uint 32)),
  ({ name := "DefaultSampleSize", size := 32, optFlag := 16 }, (.uint 32)),
  ({ name := "DefaultSampleFlags", size := 32, optFlag := 32, hex := true }, (.uint 32))
  ]

/-- `TfraEntry`, box_types_iso14496_12.go:2103-2111 -/
def fsTfraEntry : Fields := Fields.ofList [
  ({ name := "TimeV0", size := 32, version := 0 }, (.uint 32)),
  ({ name := "MoofOffsetV0", size := 32, version := 0 }, (.uint 32)),
  ({ name := "TimeV1", size := 64, version := 1 }, (.uint 64)),
  ({ name := "MoofOffsetV1", size := 64, version := 1 }, (.uint 64)),
  ({ name := "TrafNumber", sizeDyn := true }, (.uint 32)),
  ({ name := "TrunNumber", sizeDyn := true }, (.uint 32)),
  ({ name := "SampleNumber", sizeDyn := true }, (.uint 32))
  ]

/-- `TfraEntry` as the type of a field -/
def tyTfraEntry : Ty := .struct none fsTfraEntry

/-- `Tfra`, box_types_iso14496_12.go:2092-2101 -/
def fsTfra : Fields := Fields.ofList [
  ({ name := "FullBox", extend := true }, fullBoxTy),
  ({ name := "TrackID", size := 32 }, (.uint 32)),
  ({ name := "Reserved", size := 26, cnst := "0" }, (.uint 32)),
  ({ name := "LengthSizeOfTrafNum", size := 2 }, (.uint 8)),
  ({ name := "LengthSizeOfTrunNum", size := 2 }, (.uint 8)),
  ({ name := "LengthSizeOfSampleNum", size := 2 }, (.uint 8)),
  ({ name := "NumberOfEntry", size := 32 }, (.uint 32)),
  ({ name := "Entries", lenDyn := true, sizeDyn := true }, (.slice tyTfraEntry))
  ]

/-- `Tkhd`, box_types_iso14496_12.go:2188-2207 -/
def fsTkhd : Fields := Fields.ofList [
  ({ name := "FullBox", extend := true }, fullBoxTy),
  ({ name := "CreationTimeV0", size := 32, version := 0 }, (.uint 32)),
  ({ name := "ModificationTimeV0", size := 32, version := 0 }, (.uint 32)),
  ({ name := "CreationTimeV1", size := 64, version := 1 }, (.uint 64)),
  ({ name := "ModificationTimeV1", size := 64, version := 1 }, (.uint 64)),
  ({ name := "TrackID", size := 32 }, (.uint 32)),
  ({ name := "Reserved0", size := 32, cnst := "0" }, (.uint 32)),
  ({ name := "DurationV0", size := 32, version := 0 }, (.uint 32)),
  ({ name := "DurationV1", size := 64, version := 1 }, (.uint 64)),
  ({ name := "Reserved1", size := 32, cnst := "0" }, (.arr 2 (.uint 32))),
  ({ name := "Layer", size := 16 }, (.int 16)),
  ({ name := "AlternateGroup", size := 16 }, (.int 16)),
  ({ name := "Volume", size := 16 }, (.int 16)),
  ({ name := "Reserved2", size := 16, cnst := "0" }, (.uint 16)),
  ({ name := "Matrix", size := 32, hex := true }, (.arr 9 (.int 32))),
  ({ name := "Width", size := 32 }, (.uint 32)),
  ({ name := "Height", size := 32 }, (.uint 32))
  ]

/-- `Traf`, box_types_iso14496_12.go:2288-2290 -/
def fsTraf : Fields := Fields.ofList [

  ]

/-- `Trak`, box_types_iso14496_12.go:2306-2308 -/
def fsTrak : Fields := Fields.ofList [

  ]

/-- `Trep`, box_types_iso14496_12.go:2324-2327 -/
def fsTrep : Fields := Fields.ofList [
  ({ name := "FullBox", extend := true }, fullBoxTy),
  ({ name := "TrackID", size := 32 }, (.uint 32))
  ]

/-- `Trex`, box_types_iso14496_12.go:2343-2350 -/
def fsTrex : Fields := Fields.ofList [
  ({ name := "FullBox", extend := true }, fullBoxTy),
  ({ name := "TrackID", size := 32 }, (.uint 32)),
  ({ name := "DefaultSampleDescriptionIndex", size := 32 }, (.uint 32)),
  ({ name := "DefaultSampleDuration", size := 32 }, (.uint 32)),
  ({ name := "DefaultSampleSize", size := 32 }, (.uint 32)),
  ({ name := "DefaultSampleFlags", size := 32, hex := true }, (.uint 32))
  ]

/-- `TrunEntry`, box_types_iso14496_12.go:2376-2382 -/
def fsTrunEntry : Fields := Fields.ofList [
  ({ name := "SampleDuration", size := 32, optFlag := 256 }, (.uint 32)),
  ({ name := "SampleSize", size := 32, optFlag := 512 }, (.uint 32)),
  ({ name := "SampleFlags", size := 32, optFlag := 1024, hex := true }, (.uint 32)),
  ({ name := "SampleCompositionTimeOffsetV0", size := 32, optFlag := 2048, version := 0 }, (.uint 32)),
  ({ name := "SampleCompositionTimeOffsetV1", size := 32, optFlag := 2048, nVersion := 0 }, (.int 32))
  ]

/-- `TrunEntry` as the type of a field -/
def tyTrunEntry : Ty := .struct none fsTrunEntry

/-- `Trun`, box_types_iso14496_12.go:2366-2374 -/
def fsTrun : Fields := Fields.ofList [
  ({ name := "FullBox", extend := true }, fullBoxTy),
  ({ name := "SampleCount", size := 32 }, (.uint 32)),
  ({ name := "DataOffset", size := 32, optFlag := 1 }, (.int 32)),
  ({ name := "FirstSampleFlags", size := 32, optFlag := 4, hex := true }, (.uint 32)),
  ({ name := "Entries", lenDyn := true, sizeDyn := true }, (.slice tyTrunEntry))
  ]

/-- `Udta`, box_types_iso14496_12.go:2441-2443 -/
def fsUdta : Fields := Fields.ofList [

  ]

/-- `Vmhd`, box_types_iso14496_12.go:2463-2467 -/
def fsVmhd : Fields := Fields.ofList [
  ({ name := "FullBox", extend := true }, fullBoxTy),
  ({ name := "Graphicsmode", size := 16 }, (.uint 16)),
  ({ name := "Opcolor", size := 16 }, (.arr 3 (.uint 16)))
  ]

/-- `Wave`, box_types_iso14496_12.go:2483-2485 -/
def fsWave : Fields := Fields.ofList [

  ]

/-- `ESDescriptor`, box_types_iso14496_14.go:83-94 -/
def fsESDescriptor : Fields := Fields.ofList [
  ({ name := "ESID", size := 16 }, (.uint 16)),
  ({ name := "StreamDependenceFlag", size := 1 }, .bool),
  ({ name := "UrlFlag", size := 1 }, .bool),
  ({ name := "OcrStreamFlag", size := 1 }, .bool),
  ({ name := "StreamPriority", size := 5 }, (.int 8)),
  ({ name := "DependsOnESID", size := 16, optDyn := true }, (.uint 16)),
  ({ name := "URLLength", size := 8, optDyn := true }, (.uint 8)),
  ({ name := "URLString", size := 8, lenDyn := true, optDyn := true, isString := true }, (.slice (.uint 8))),
  ({ name := "OCRESID", size := 16, optDyn := true }, (.uint 16))
  ]

/-- `ESDescriptor` as the type of a field -/
def tyESDescriptor : Ty := .struct (some cfoESDescriptor) fsESDescriptor

/-- `DecoderConfigDescriptor`, box_types_iso14496_14.go:117-126 -/
def fsDecoderConfigDescriptor : Fields := Fields.ofList [
  ({ name := "ObjectTypeIndication", size := 8 }, (.uint 8)),
  ({ name := "StreamType", size := 6 }, (.int 8)),
  ({ name := "UpStream", size := 1 }, .bool),
  ({ name := "Reserved", size := 1 }, .bool),
  ({ name := "BufferSizeDB", size := 24 }, (.uint 32)),
  ({ name := "MaxBitrate", size := 32 }, (.uint 32)),
  ({ name := "AvgBitrate", size := 32 }, (.uint 32))
  ]

/-- `DecoderConfigDescriptor` as the type of a field -/
def tyDecoderConfigDescriptor : Ty := .struct (some Cfo.base) fsDecoderConfigDescriptor

/-- `Descriptor`, box_types_iso14496_14.go:33-40 -/
def fsDescriptor : Fields := Fields.ofList [
  ({ name := "Tag", size := 8 }, (.int 8)),
  ({ name := "Size", varint := true }, (.uint 32)),
  ({ name := "ESDescriptor", extend := true, optDyn := true }, (.ptr tyESDescriptor)),
  ({ name := "DecoderConfigDescriptor", extend := true, optDyn := true }, (.ptr tyDecoderConfigDescriptor)),
  ({ name := "Data", size := 8, optDyn := true, lenDyn := true }, (.slice (.uint 8)))
  ]

/-- `Descriptor` as the type of a field -/
def tyDescriptor : Ty := .struct (some cfoDescriptor) fsDescriptor

/-- `Esds`, box_types_iso14496_14.go:23-26 -/
def fsEsds : Fields := Fields.ofList [
  ({ name := "FullBox", extend := true }, fullBoxTy),
  ({ name := "Descriptors" }, (.slice tyDescriptor))
  ]

/-- `WebVTTConfigurationBox`, box_types_iso14496_30.go:15-18 -/
def fsWebVTTConfigurationBox : Fields := Fields.ofList [
  ({ name := "Config", boxString := true }, .str)
  ]

/-- `WebVTTSourceLabelBox`, box_types_iso14496_30.go:24-27 -/
def fsWebVTTSourceLabelBox : Fields := Fields.ofList [
  ({ name := "SourceLabel", boxString := true }, .str)
  ]

/-- `WVTTSampleEntry`, box_types_iso14496_30.go:33-35 -/
def fsWVTTSampleEntry : Fields := Fields.ofList [
  ({ name := "SampleEntry", extend := true }, tySampleEntry)
  ]

/-- `VTTCueBox`, box_types_iso14496_30.go:59-61 -/
def fsVTTCueBox : Fields := Fields.ofList [

  ]

/-- `CueSourceIDBox`, box_types_iso14496_30.go:67-70 -/
def fsCueSourceIDBox : Fields := Fields.ofList [
  ({ name := "SourceId", size := 32 }, (.uint 32))
  ]

/-- `CueTimeBox`, box_types_iso14496_30.go:76-79 -/
def fsCueTimeBox : Fields := Fields.ofList [
  ({ name := "CueCurrentTime", boxString := true }, .str)
  ]

/-- `CueIDBox`, box_types_iso14496_30.go:85-88 -/
def fsCueIDBox : Fields := Fields.ofList [
  ({ name := "CueId", boxString := true }, .str)
  ]

/-- `CueSettingsBox`, box_types_iso14496_30.go:94-97 -/
def fsCueSettingsBox : Fields := Fields.ofList [
  ({ name := "Settings", boxString := true }, .str)
  ]

/-- `CuePayloadBox`, box_types_iso14496_30.go:103-106 -/
def fsCuePayloadBox : Fields := Fields.ofList [
  ({ name := "CueText", boxString := true }, .str)
  ]

/-- `VTTEmptyCueBox`, box_types_iso14496_30.go:112-114 -/
def fsVTTEmptyCueBox : Fields := Fields.ofList [

  ]

/-- `VTTAdditionalTextBox`, box_types_iso14496_30.go:120-123 -/
def fsVTTAdditionalTextBox : Fields := Fields.ofList [
  ({ name := "CueAdditionalText", boxString := true }, .str)
  ]

/-- `PcmC`, box_types_iso23001_5.go:27-31 -/
def fsPcmC : Fields := Fields.ofList [
  ({ name := "FullBox", extend := true }, fullBoxTy),
  ({ name := "FormatFlags", size := 8 }, (.uint 8)),
  ({ name := "PCMSampleSize", size := 8 }, (.uint 8))
  ]

/-- `PsshKID`, box_types_iso23001_7.go:28-30 -/
def fsPsshKID : Fields := Fields.ofList [
  ({ name := "KID", size := 8, uuid := true }, (.arr 16 (.uint 8)))
  ]

/-- `PsshKID` as the type of a field -/
def tyPsshKID : Ty := .struct none fsPsshKID

/-- `Pssh`, box_types_iso23001_7.go:19-26 -/
def fsPssh : Fields := Fields.ofList [
  ({ name := "FullBox", extend := true }, fullBoxTy),
  ({ name := "SystemID", size := 8, uuid := true }, (.arr 16 (.uint 8))),
  ({ name := "KIDCount", size := 32, nVersion := 0 }, (.uint 32)),
  ({ name := "KIDs", nVersion := 0, lenDyn := true, size := 128 }, (.slice tyPsshKID)),
  ({ name := "DataSize", size := 32 }, (.int 32)),
  ({ name := "Data", size := 8, lenDyn := true }, (.slice (.uint 8)))
  ]

/-- `Tenc`, box_types_iso23001_7.go:77-87 -/
def fsTenc : Fields := Fields.ofList [
  ({ name := "FullBox", extend := true }, fullBoxTy),
  ({ name := "Reserved", size := 8, dec := true }, (.uint 8)),
  ({ name := "DefaultCryptByteBlock", size := 4, dec := true }, (.uint 8)),
  ({ name := "DefaultSkipByteBlock", size := 4, dec := true }, (.uint 8)),
  ({ name := "DefaultIsProtected", size := 8, dec := true }, (.uint 8)),
  ({ name := "DefaultPerSampleIVSize", size := 8, dec := true }, (.uint 8)),
  ({ name := "DefaultKID", size := 8, uuid := true }, (.arr 16 (.uint 8))),
  ({ name := "DefaultConstantIVSize", size := 8, optDyn := true, dec := true }, (.uint 8)),
  ({ name := "DefaultConstantIV", size := 8, optDyn := true, lenDyn := true }, (.slice (.uint 8)))
  ]

/-- `Ilst`, box_types_metadata.go:82-84 -/
def fsIlst : Fields := Fields.ofList [

  ]

/-- `Data`, box_types_metadata.go:112-117 -/
def fsData : Fields := Fields.ofList [
  ({ name := "DataType", size := 32 }, (.uint 32)),
  ({ name := "DataLang", size := 32 }, (.uint 32)),
  ({ name := "Data", size := 8 }, (.slice (.uint 8)))
  ]

/-- `Data` as the type of a field -/
def tyData : Ty := .struct (some Cfo.base) fsData

/-- `IlstMetaContainer`, box_types_metadata.go:91-93 -/
def fsIlstMetaContainer : Fields := Fields.ofList [

  ]

/-- `StringData`, box_types_metadata.go:159-162 -/
def fsStringData : Fields := Fields.ofList [
  ({ name := "Data", size := 8 }, (.slice (.uint 8)))
  ]

/-- `Key`, box_types_metadata.go:231-236 -/
def fsKey : Fields := Fields.ofList [
  ({ name := "KeySize", size := 32 }, (.int 32)),
  ({ name := "KeyNamespace", size := 8, length := 4 }, (.slice (.uint 8))),
  ({ name := "KeyValue", size := 8, lenDyn := true }, (.slice (.uint 8)))
  ]

/-- `Key` as the type of a field -/
def tyKey : Ty := .struct (some cfoKey) fsKey

/-- `Keys`, box_types_metadata.go:207-211 -/
def fsKeys : Fields := Fields.ofList [
  ({ name := "FullBox", extend := true }, fullBoxTy),
  ({ name := "EntryCount", size := 32 }, (.int 32)),
  ({ name := "Entries", lenDyn := true }, (.slice tyKey))
  ]

/-- `DOps`, box_types_opus.go:23-34 -/
def fsDOps : Fields := Fields.ofList [
  ({ name := "Version", size := 8 }, (.uint 8)),
  ({ name := "OutputChannelCount", size := 8 }, (.uint 8)),
  ({ name := "PreSkip", size := 16 }, (.uint 16)),
  ({ name := "InputSampleRate", size := 32 }, (.uint 32)),
  ({ name := "OutputGain", size := 16 }, (.int 16)),
  ({ name := "ChannelMappingFamily", size := 8 }, (.uint 8)),
  ({ name := "StreamCount", optDyn := true, size := 8 }, (.uint 8)),
  ({ name := "CoupledCount", optDyn := true, size := 8 }, (.uint 8)),
  ({ name := "ChannelMapping", optDyn := true, size := 8, lenDyn := true }, (.slice (.uint 8)))
  ]

/-- `VpcC`, box_types_vp.go:29-41 -/
def fsVpcC : Fields := Fields.ofList [
  ({ name := "FullBox", extend := true }, fullBoxTy),
  ({ name := "Profile", size := 8 }, (.uint 8)),
  ({ name := "Level", size := 8 }, (.uint 8)),
  ({ name := "BitDepth", size := 4 }, (.uint 8)),
  ({ name := "ChromaSubsampling", size := 3 }, (.uint 8)),
  ({ name := "VideoFullRangeFlag", size := 1 }, (.uint 8)),
  ({ name := "ColourPrimaries", size := 8 }, (.uint 8)),
  ({ name := "TransferCharacteristics", size := 8 }, (.uint 8)),
  ({ name := "MatrixCoefficients", size := 8 }, (.uint 8)),
  ({ name := "CodecInitializationDataSize", size := 16 }, (.uint 16)),
  ({ name := "CodecInitializationData", size := 8, lenDyn := true }, (.slice (.uint 8)))
  ]

/-- `Item`, box_types_metadata.go:176-182 -/
def fsItem : Fields := Fields.ofList [
  ({ name := "Version", size := 8 }, (.uint 8)),
  ({ name := "Flags", size := 8 }, (.arr 3 (.uint 8))),
  ({ name := "ItemName", size := 8, length := 4 }, (.slice (.uint 8))),
  ({ name := "Data" }, tyData)
  ]

/-- `Udta3GppString`, registered at box_types_3gpp.go:14 -/
def bdUdta3GppString : BoxDef := { goName := "Udta3GppString", fields := fsUdta3GppString, versions := [0], target := some ((·.underUdta)), anyType := true }

/-- `VisualSampleEntry`, registered at box_types_av1.go:10 -/
def bdVisualSampleEntry : BoxDef := { goName := "VisualSampleEntry", fields := fsVisualSampleEntry, anyType := true }

/-- `Av1C`, registered at box_types_av1.go:20 -/
def bdAv1C : BoxDef := { goName := "Av1C", fields := fsAv1C }

/-- `AudioSampleEntry`, registered at box_types_etsi_ts_102_366.go:10 -/
def bdAudioSampleEntry : BoxDef := { goName := "AudioSampleEntry", fields := fsAudioSampleEntry, cfo := cfoAudioSampleEntry, anyType := true }

/-- `Dac3`, registered at box_types_etsi_ts_102_366.go:20 -/
def bdDac3 : BoxDef := { goName := "Dac3", fields := fsDac3 }

/-- `Btrt`, registered at box_types_iso14496_12.go:18 -/
def bdBtrt : BoxDef := { goName := "Btrt", fields := fsBtrt, versions := [0] }

/-- `Co64`, registered at box_types_iso14496_12.go:38 -/
def bdCo64 : BoxDef := { goName := "Co64", fields := fsCo64, cfo := cfoCo64, versions := [0] }

/-- `Colr`, registered at box_types_iso14496_12.go:66 -/
def bdColr : BoxDef := { goName := "Colr", fields := fsColr, cfo := cfoColr }

/-- `Cslg`, registered at box_types_iso14496_12.go:112 -/
def bdCslg : BoxDef := { goName := "Cslg", fields := fsCslg, versions := [0, 1] }

/-- `Ctts`, registered at box_types_iso14496_12.go:194 -/
def bdCtts : BoxDef := { goName := "Ctts", fields := fsCtts, cfo := cfoCtts, versions := [0, 1] }

/-- `Dinf`, registered at box_types_iso14496_12.go:239 -/
def bdDinf : BoxDef := { goName := "Dinf", fields := fsDinf }

/-- `Dref`, registered at box_types_iso14496_12.go:259 -/
def bdDref : BoxDef := { goName := "Dref", fields := fsDref, versions := [0] }

/-- `Url`, registered at box_types_iso14496_12.go:260 -/
def bdUrl : BoxDef := { goName := "Url", fields := fsUrl, versions := [0] }

/-- `Urn`, registered at box_types_iso14496_12.go:261 -/
def bdUrn : BoxDef := { goName := "Urn", fields := fsUrn, versions := [0] }

/-- `Edts`, registered at box_types_iso14496_12.go:303 -/
def bdEdts : BoxDef := { goName := "Edts", fields := fsEdts }

/-- `Elst`, registered at box_types_iso14496_12.go:321 -/
def bdElst : BoxDef := { goName := "Elst", fields := fsElst, cfo := cfoElst, versions := [0, 1] }

/-- `Emsg`, registered at box_types_iso14496_12.go:403 -/
def bdEmsg : BoxDef := { goName := "Emsg", fields := fsEmsg, hook := .emsg, versions := [0, 1] }

/-- `Fiel`, registered at box_types_iso14496_12.go:475 -/
def bdFiel : BoxDef := { goName := "Fiel", fields := fsFiel }

/-- `Free`, registered at box_types_iso14496_12.go:494 -/
def bdFree : BoxDef := { goName := "Free", fields := fsFreeSpace }

/-- `Skip`, registered at box_types_iso14496_12.go:495 -/
def bdSkip : BoxDef := { goName := "Skip", fields := fsFreeSpace }

/-- `Frma`, registered at box_types_iso14496_12.go:520 -/
def bdFrma : BoxDef := { goName := "Frma", fields := fsFrma }

/-- `Ftyp`, registered at box_types_iso14496_12.go:539 -/
def bdFtyp : BoxDef := { goName := "Ftyp", fields := fsFtyp }

/-- `Hdlr`, registered at box_types_iso14496_12.go:606 -/
def bdHdlr : BoxDef := { goName := "Hdlr", fields := fsHdlr, hook := .hdlr, versions := [0] }

/-- `HvcC`, registered at box_types_iso14496_12.go:674 -/
def bdHvcC : BoxDef := { goName := "HvcC", fields := fsHvcC, cfo := cfoHvcC }

/-- `Mdat`, registered at box_types_iso14496_12.go:753 -/
def bdMdat : BoxDef := { goName := "Mdat", fields := fsMdat }

/-- `Mdhd`, registered at box_types_iso14496_12.go:772 -/
def bdMdhd : BoxDef := { goName := "Mdhd", fields := fsMdhd, versions := [0, 1] }

/-- `Mdia`, registered at box_types_iso14496_12.go:834 -/
def bdMdia : BoxDef := { goName := "Mdia", fields := fsMdia }

/-- `Mehd`, registered at box_types_iso14496_12.go:852 -/
def bdMehd : BoxDef := { goName := "Mehd", fields := fsMehd, versions := [0, 1] }

/-- `Meta`, registered at box_types_iso14496_12.go:883 -/
def bdMeta : BoxDef := { goName := "Meta", fields := fsMeta, metaHook := true, versions := [0] }

/-- `Mfhd`, registered at box_types_iso14496_12.go:918 -/
def bdMfhd : BoxDef := { goName := "Mfhd", fields := fsMfhd, versions := [0] }

/-- `Mfra`, registered at box_types_iso14496_12.go:937 -/
def bdMfra : BoxDef := { goName := "Mfra", fields := fsMfra }

/-- `Mfro`, registered at box_types_iso14496_12.go:955 -/
def bdMfro : BoxDef := { goName := "Mfro", fields := fsMfro, versions := [0] }

/-- `Minf`, registered at box_types_iso14496_12.go:974 -/
def bdMinf : BoxDef := { goName := "Minf", fields := fsMinf }

/-- `Moof`, registered at box_types_iso14496_12.go:992 -/
def bdMoof : BoxDef := { goName := "Moof", fields := fsMoof }

/-- `Moov`, registered at box_types_iso14496_12.go:1010 -/
def bdMoov : BoxDef := { goName := "Moov", fields := fsMoov }

/-- `Mvex`, registered at box_types_iso14496_12.go:1028 -/
def bdMvex : BoxDef := { goName := "Mvex", fields := fsMvex }

/-- `Mvhd`, registered at box_types_iso14496_12.go:1046 -/
def bdMvhd : BoxDef := { goName := "Mvhd", fields := fsMvhd, versions := [0, 1] }

/-- `Saio`, registered at box_types_iso14496_12.go:1131 -/
def bdSaio : BoxDef := { goName := "Saio", fields := fsSaio, cfo := cfoSaio, versions := [0, 1] }

/-- `Saiz`, registered at box_types_iso14496_12.go:1171 -/
def bdSaiz : BoxDef := { goName := "Saiz", fields := fsSaiz, cfo := cfoSaiz, versions := [0] }

/-- `AVCDecoderConfiguration`, registered at box_types_iso14496_12.go:1225 -/
def bdAVCDecoderConfiguration : BoxDef := { goName := "AVCDecoderConfiguration", fields := fsAVCDecoderConfiguration, cfo := cfoAVCDecoderConfiguration, hook := .avcc, anyType := true }

/-- `PixelAspectRatioBox`, registered at box_types_iso14496_12.go:1226 -/
def bdPixelAspectRatioBox : BoxDef := { goName := "PixelAspectRatioBox", fields := fsPixelAspectRatioBox, anyType := true }

/-- `XMLSubtitleSampleEntry`, registered at box_types_iso14496_12.go:1227 -/
def bdXMLSubtitleSampleEntry : BoxDef := { goName := "XMLSubtitleSampleEntry", fields := fsXMLSubtitleSampleEntry, anyType := true }

/-- `TextSubtitleSampleEntry`, registered at box_types_iso14496_12.go:1228 -/
def bdTextSubtitleSampleEntry : BoxDef := { goName := "TextSubtitleSampleEntry", fields := fsTextSubtitleSampleEntry, anyType := true }

/-- `Sbgp`, registered at box_types_iso14496_12.go:1455 -/
def bdSbgp : BoxDef := { goName := "Sbgp", fields := fsSbgp, cfo := cfoSbgp, versions := [0, 1] }

/-- `Schi`, registered at box_types_iso14496_12.go:1488 -/
def bdSchi : BoxDef := { goName := "Schi", fields := fsSchi }

/-- `Schm`, registered at box_types_iso14496_12.go:1504 -/
def bdSchm : BoxDef := { goName := "Schm", fields := fsSchm, versions := [0] }

/-- `Sdtp`, registered at box_types_iso14496_12.go:1523 -/
def bdSdtp : BoxDef := { goName := "Sdtp", fields := fsSdtp, versions := [0] }

/-- `Sgpd`, registered at box_types_iso14496_12.go:1547 -/
def bdSgpd : BoxDef := { goName := "Sgpd", fields := fsSgpd, cfo := cfoSgpd, versions := [1, 2] }

/-- `Sidx`, registered at box_types_iso14496_12.go:1688 -/
def bdSidx : BoxDef := { goName := "Sidx", fields := fsSidx, cfo := cfoSidx, versions := [0, 1] }

/-- `Sinf`, registered at box_types_iso14496_12.go:1752 -/
def bdSinf : BoxDef := { goName := "Sinf", fields := fsSinf }

/-- `Smhd`, registered at box_types_iso14496_12.go:1768 -/
def bdSmhd : BoxDef := { goName := "Smhd", fields := fsSmhd, versions := [0] }

/-- `Stbl`, registered at box_types_iso14496_12.go:1806 -/
def bdStbl : BoxDef := { goName := "Stbl", fields := fsStbl }

/-- `Stco`, registered at box_types_iso14496_12.go:1824 -/
def bdStco : BoxDef := { goName := "Stco", fields := fsStco, cfo := cfoStco, versions := [0] }

/-- `Stsc`, registered at box_types_iso14496_12.go:1853 -/
def bdStsc : BoxDef := { goName := "Stsc", fields := fsStsc, cfo := cfoStsc, versions := [0] }

/-- `Stsd`, registered at box_types_iso14496_12.go:1888 -/
def bdStsd : BoxDef := { goName := "Stsd", fields := fsStsd, versions := [0] }

/-- `Stss`, registered at box_types_iso14496_12.go:1907 -/
def bdStss : BoxDef := { goName := "Stss", fields := fsStss, cfo := cfoStss, versions := [0] }

/-- `Stsz`, registered at box_types_iso14496_12.go:1935 -/
def bdStsz : BoxDef := { goName := "Stsz", fields := fsStsz, cfo := cfoStsz, versions := [0] }

/-- `Stts`, registered at box_types_iso14496_12.go:1968 -/
def bdStts : BoxDef := { goName := "Stts", fields := fsStts, cfo := cfoStts, versions := [0] }

/-- `Styp`, registered at box_types_iso14496_12.go:2002 -/
def bdStyp : BoxDef := { goName := "Styp", fields := fsStyp }

/-- `Tfdt`, registered at box_types_iso14496_12.go:2021 -/
def bdTfdt : BoxDef := { goName := "Tfdt", fields := fsTfdt, versions := [0, 1] }

/-- `Tfhd`, registered at box_types_iso14496_12.go:2052 -/
def bdTfhd : BoxDef := { goName := "Tfhd", fields := fsTfhd, versions := [0] }

/-- `Tfra`, registered at box_types_iso14496_12.go:2088 -/
def bdTfra : BoxDef := { goName := "Tfra", fields := fsTfra, cfo := cfoTfra, versions := [0, 1] }

/-- `Tkhd`, registered at box_types_iso14496_12.go:2184 -/
def bdTkhd : BoxDef := { goName := "Tkhd", fields := fsTkhd, versions := [0, 1] }

/-- `Traf`, registered at box_types_iso14496_12.go:2284 -/
def bdTraf : BoxDef := { goName := "Traf", fields := fsTraf }

/-- `Trak`, registered at box_types_iso14496_12.go:2302 -/
def bdTrak : BoxDef := { goName := "Trak", fields := fsTrak }

/-- `Trep`, registered at box_types_iso14496_12.go:2320 -/
def bdTrep : BoxDef := { goName := "Trep", fields := fsTrep, versions := [0] }

/-- `Trex`, registered at box_types_iso14496_12.go:2339 -/
def bdTrex : BoxDef := { goName := "Trex", fields := fsTrex, versions := [0] }

/-- `Trun`, registered at box_types_iso14496_12.go:2362 -/
def bdTrun : BoxDef := { goName := "Trun", fields := fsTrun, cfo := cfoTrun, versions := [0, 1] }

/-- `Udta`, registered at box_types_iso14496_12.go:2437 -/
def bdUdta : BoxDef := { goName := "Udta", fields := fsUdta }

/-- `Vmhd`, registered at box_types_iso14496_12.go:2459 -/
def bdVmhd : BoxDef := { goName := "Vmhd", fields := fsVmhd, versions := [0] }

/-- `Wave`, registered at box_types_iso14496_12.go:2479 -/
def bdWave : BoxDef := { goName := "Wave", fields := fsWave }

/-- `Esds`, registered at box_types_iso14496_14.go:12 -/
def bdEsds : BoxDef := { goName := "Esds", fields := fsEsds, versions := [0] }

/-- `WebVTTConfigurationBox`, registered at box_types_iso14496_30.go:10 -/
def bdWebVTTConfigurationBox : BoxDef := { goName := "WebVTTConfigurationBox", fields := fsWebVTTConfigurationBox }

/-- `WebVTTSourceLabelBox`, registered at box_types_iso14496_30.go:11 -/
def bdWebVTTSourceLabelBox : BoxDef := { goName := "WebVTTSourceLabelBox", fields := fsWebVTTSourceLabelBox }

/-- `WVTTSampleEntry`, registered at box_types_iso14496_30.go:12 -/
def bdWVTTSampleEntry : BoxDef := { goName := "WVTTSampleEntry", fields := fsWVTTSampleEntry, anyType := true }

/-- `VTTCueBox`, registered at box_types_iso14496_30.go:49 -/
def bdVTTCueBox : BoxDef := { goName := "VTTCueBox", fields := fsVTTCueBox }

/-- `CueSourceIDBox`, registered at box_types_iso14496_30.go:50 -/
def bdCueSourceIDBox : BoxDef := { goName := "CueSourceIDBox", fields := fsCueSourceIDBox }

/-- `CueTimeBox`, registered at box_types_iso14496_30.go:51 -/
def bdCueTimeBox : BoxDef := { goName := "CueTimeBox", fields := fsCueTimeBox }

/-- `CueIDBox`, registered at box_types_iso14496_30.go:52 -/
def bdCueIDBox : BoxDef := { goName := "CueIDBox", fields := fsCueIDBox }

/-- `CueSettingsBox`, registered at box_types_iso14496_30.go:53 -/
def bdCueSettingsBox : BoxDef := { goName := "CueSettingsBox", fields := fsCueSettingsBox }

/-- `CuePayloadBox`, registered at box_types_iso14496_30.go:54 -/
def bdCuePayloadBox : BoxDef := { goName := "CuePayloadBox", fields := fsCuePayloadBox }

/-- `VTTEmptyCueBox`, registered at box_types_iso14496_30.go:55 -/
def bdVTTEmptyCueBox : BoxDef := { goName := "VTTEmptyCueBox", fields := fsVTTEmptyCueBox }

/-- `VTTAdditionalTextBox`, registered at box_types_iso14496_30.go:56 -/
def bdVTTAdditionalTextBox : BoxDef := { goName := "VTTAdditionalTextBox", fields := fsVTTAdditionalTextBox }

/-- `PcmC`, registered at box_types_iso23001_5.go:24 -/
def bdPcmC : BoxDef := { goName := "PcmC", fields := fsPcmC, versions := [0, 1] }

/-- `Pssh`, registered at box_types_iso23001_7.go:15 -/
def bdPssh : BoxDef := { goName := "Pssh", fields := fsPssh, cfo := cfoPssh, versions := [0, 1] }

/-- `Tenc`, registered at box_types_iso23001_7.go:73 -/
def bdTenc : BoxDef := { goName := "Tenc", fields := fsTenc, cfo := cfoTenc, versions := [0, 1] }

/-- `Ilst`, registered at box_types_metadata.go:73 -/
def bdIlst : BoxDef := { goName := "Ilst", fields := fsIlst }

/-- `Data`, registered at box_types_metadata.go:74 -/
def bdData : BoxDef := { goName := "Data", fields := fsData, target := some ((·.underIlstMeta)) }

/-- `IlstMetaContainer`, registered at box_types_metadata.go:76 -/
def bdIlstMetaContainer : BoxDef := { goName := "IlstMetaContainer", fields := fsIlstMetaContainer, target := some (fun c => c.underIlst && !c.underIlstMeta), anyType := true }

/-- `StringData`, registered at box_types_metadata.go:78 -/
def bdStringData : BoxDef := { goName := "StringData", fields := fsStringData, target := some ((·.underIlstFreeMeta)), anyType := true }

/-- `Keys`, registered at box_types_metadata.go:200 -/
def bdKeys : BoxDef := { goName := "Keys", fields := fsKeys, cfo := cfoKeys }

/-- `DOps`, registered at box_types_opus.go:20 -/
def bdDOps : BoxDef := { goName := "DOps", fields := fsDOps, cfo := cfoDOps }

/-- `VpcC`, registered at box_types_vp.go:26 -/
def bdVpcC : BoxDef := { goName := "VpcC", fields := fsVpcC, cfo := cfoVpcC }

/-- the definition made for numbered items, mp4.go:102, 113-121 -/
def bdItem : BoxDef := { goName := "Item", fields := fsItem, anyType := true, target := some (fun c => c.underIlst && !c.underIlstMeta) }

/-- `boxMap` (mp4.go:67-101) after the `init` functions: all registrations in order (files in
alphabetical order, as the Go tool presents them to the compiler). -/
def registry : List (BoxType × BoxDef) := [
  (⟨0x74#8, 0x69#8, 0x74#8, 0x6c#8⟩, bdUdta3GppString),
  (⟨0x64#8, 0x73#8, 0x63#8, 0x70#8⟩, bdUdta3GppString),
  (⟨0x63#8, 0x70#8, 0x72#8, 0x74#8⟩, bdUdta3GppString),
  (⟨0x70#8, 0x65#8, 0x72#8, 0x66#8⟩, bdUdta3GppString),
  (⟨0x61#8, 0x75#8, 0x74#8, 0x68#8⟩, bdUdta3GppString),
  (⟨0x67#8, 0x6e#8, 0x72#8, 0x65#8⟩, bdUdta3GppString),
  (⟨0x61#8, 0x76#8, 0x30#8, 0x31#8⟩, bdVisualSampleEntry),
  (⟨0x61#8, 0x76#8, 0x31#8, 0x43#8⟩, bdAv1C),
  (⟨0x61#8, 0x63#8, 0x2d#8, 0x33#8⟩, bdAudioSampleEntry),
  (⟨0x64#8, 0x61#8, 0x63#8, 0x33#8⟩, bdDac3),
  (⟨0x62#8, 0x74#8, 0x72#8, 0x74#8⟩, bdBtrt),
  (⟨0x63#8, 0x6f#8, 0x36#8, 0x34#8⟩, bdCo64),
  (⟨0x63#8, 0x6f#8, 0x6c#8, 0x72#8⟩, bdColr),
  (⟨0x63#8, 0x73#8, 0x6c#8, 0x67#8⟩, bdCslg),
  (⟨0x63#8, 0x74#8, 0x74#8, 0x73#8⟩, bdCtts),
  (⟨0x64#8, 0x69#8, 0x6e#8, 0x66#8⟩, bdDinf),
  (⟨0x64#8, 0x72#8, 0x65#8, 0x66#8⟩, bdDref),
  (⟨0x75#8, 0x72#8, 0x6c#8, 0x20#8⟩, bdUrl),
  (⟨0x75#8, 0x72#8, 0x6e#8, 0x20#8⟩, bdUrn),
  (⟨0x65#8, 0x64#8, 0x74#8, 0x73#8⟩, bdEdts),
  (⟨0x65#8, 0x6c#8, 0x73#8, 0x74#8⟩, bdElst),
  (⟨0x65#8, 0x6d#8, 0x73#8, 0x67#8⟩, bdEmsg),
  (⟨0x66#8, 0x69#8, 0x65#8, 0x6c#8⟩, bdFiel),
  (⟨0x66#8, 0x72#8, 0x65#8, 0x65#8⟩, bdFree),
  (⟨0x73#8, 0x6b#8, 0x69#8, 0x70#8⟩, bdSkip),
  (⟨0x66#8, 0x72#8, 0x6d#8, 0x61#8⟩, bdFrma),
  (⟨0x66#8, 0x74#8, 0x79#8, 0x70#8⟩, bdFtyp),
  (⟨0x68#8, 0x64#8, 0x6c#8, 0x72#8⟩, bdHdlr),
  (⟨0x68#8, 0x76#8, 0x63#8, 0x43#8⟩, bdHvcC),
  (⟨0x6d#8, 0x64#8, 0x61#8, 0x74#8⟩, bdMdat),
  (⟨0x6d#8, 0x64#8, 0x68#8, 0x64#8⟩, bdMdhd),
  (⟨0x6d#8, 0x64#8, 0x69#8, 0x61#8⟩, bdMdia),
  (⟨0x6d#8, 0x65#8, 0x68#8, 0x64#8⟩, bdMehd),
  (⟨0x6d#8, 0x65#8, 0x74#8, 0x61#8⟩, bdMeta),
  (⟨0x6d#8, 0x66#8, 0x68#8, 0x64#8⟩, bdMfhd),
  (⟨0x6d#8, 0x66#8, 0x72#8, 0x61#8⟩, bdMfra),
  (⟨0x6d#8, 0x66#8, 0x72#8, 0x6f#8⟩, bdMfro),
  (⟨0x6d#8, 0x69#8, 0x6e#8, 0x66#8⟩, bdMinf),
  (⟨0x6d#8, 0x6f#8, 0x6f#8, 0x66#8⟩, bdMoof),
  (⟨0x6d#8, 0x6f#8, 0x6f#8, 0x76#8⟩, bdMoov),
  (⟨0x6d#8, 0x76#8, 0x65#8, 0x78#8⟩, bdMvex),
  (⟨0x6d#8, 0x76#8, 0x68#8, 0x64#8⟩, bdMvhd),
  (⟨0x73#8, 0x61#8, 0x69#8, 0x6f#8⟩, bdSaio),
  (⟨0x73#8, 0x61#8, 0x69#8, 0x7a#8⟩, bdSaiz),
  (⟨0x6d#8, 0x70#8, 0x34#8, 0x76#8⟩, bdVisualSampleEntry),
  (⟨0x61#8, 0x76#8, 0x63#8, 0x31#8⟩, bdVisualSampleEntry),
  (⟨0x65#8, 0x6e#8, 0x63#8, 0x76#8⟩, bdVisualSampleEntry),
  (⟨0x68#8, 0x65#8, 0x76#8, 0x31#8⟩, bdVisualSampleEntry),
  (⟨0x68#8, 0x76#8, 0x63#8, 0x31#8⟩, bdVisualSampleEntry),
  (⟨0x6d#8, 0x70#8, 0x34#8, 0x61#8⟩, bdAudioSampleEntry),
  (⟨0x65#8, 0x6e#8, 0x63#8, 0x61#8⟩, bdAudioSampleEntry),
  (⟨0x61#8, 0x76#8, 0x63#8, 0x43#8⟩, bdAVCDecoderConfiguration),
  (⟨0x70#8, 0x61#8, 0x73#8, 0x70#8⟩, bdPixelAspectRatioBox),
  (⟨0x73#8, 0x74#8, 0x70#8, 0x70#8⟩, bdXMLSubtitleSampleEntry),
  (⟨0x73#8, 0x62#8, 0x74#8, 0x74#8⟩, bdTextSubtitleSampleEntry),
  (⟨0x73#8, 0x62#8, 0x67#8, 0x70#8⟩, bdSbgp),
  (⟨0x73#8, 0x63#8, 0x68#8, 0x69#8⟩, bdSchi),
  (⟨0x73#8, 0x63#8, 0x68#8, 0x6d#8⟩, bdSchm),
  (⟨0x73#8, 0x64#8, 0x74#8, 0x70#8⟩, bdSdtp),
  (⟨0x73#8, 0x67#8, 0x70#8, 0x64#8⟩, bdSgpd),
  (⟨0x73#8, 0x69#8, 0x64#8, 0x78#8⟩, bdSidx),
  (⟨0x73#8, 0x69#8, 0x6e#8, 0x66#8⟩, bdSinf),
  (⟨0x73#8, 0x6d#8, 0x68#8, 0x64#8⟩, bdSmhd),
  (⟨0x73#8, 0x74#8, 0x62#8, 0x6c#8⟩, bdStbl),
  (⟨0x73#8, 0x74#8, 0x63#8, 0x6f#8⟩, bdStco),
  (⟨0x73#8, 0x74#8, 0x73#8, 0x63#8⟩, bdStsc),
  (⟨0x73#8, 0x74#8, 0x73#8, 0x64#8⟩, bdStsd),
  (⟨0x73#8, 0x74#8, 0x73#8, 0x73#8⟩, bdStss),
  (⟨0x73#8, 0x74#8, 0x73#8, 0x7a#8⟩, bdStsz),
  (⟨0x73#8, 0x74#8, 0x74#8, 0x73#8⟩, bdStts),
  (⟨0x73#8, 0x74#8, 0x79#8, 0x70#8⟩, bdStyp),
  (⟨0x74#8, 0x66#8, 0x64#8, 0x74#8⟩, bdTfdt),
  (⟨0x74#8, 0x66#8, 0x68#8, 0x64#8⟩, bdTfhd),
  (⟨0x74#8, 0x66#8, 0x72#8, 0x61#8⟩, bdTfra),
  (⟨0x74#8, 0x6b#8, 0x68#8, 0x64#8⟩, bdTkhd),
  (⟨0x74#8, 0x72#8, 0x61#8, 0x66#8⟩, bdTraf),
  (⟨0x74#8, 0x72#8, 0x61#8, 0x6b#8⟩, bdTrak),
  (⟨0x74#8, 0x72#8, 0x65#8, 0x70#8⟩, bdTrep),
  (⟨0x74#8, 0x72#8, 0x65#8, 0x78#8⟩, bdTrex),
  (⟨0x74#8, 0x72#8, 0x75#8, 0x6e#8⟩, bdTrun),
  (⟨0x75#8, 0x64#8, 0x74#8, 0x61#8⟩, bdUdta),
  (⟨0x76#8, 0x6d#8, 0x68#8, 0x64#8⟩, bdVmhd),
  (⟨0x77#8, 0x61#8, 0x76#8, 0x65#8⟩, bdWave),
  (⟨0x65#8, 0x73#8, 0x64#8, 0x73#8⟩, bdEsds),
  (⟨0x76#8, 0x74#8, 0x74#8, 0x43#8⟩, bdWebVTTConfigurationBox),
  (⟨0x76#8, 0x6c#8, 0x61#8, 0x62#8⟩, bdWebVTTSourceLabelBox),
  (⟨0x77#8, 0x76#8, 0x74#8, 0x74#8⟩, bdWVTTSampleEntry),
  (⟨0x76#8, 0x74#8, 0x74#8, 0x63#8⟩, bdVTTCueBox),
  (⟨0x76#8, 0x73#8, 0x69#8, 0x64#8⟩, bdCueSourceIDBox),
  (⟨0x63#8, 0x74#8, 0x69#8, 0x6d#8⟩, bdCueTimeBox),
  (⟨0x69#8, 0x64#8, 0x65#8, 0x6e#8⟩, bdCueIDBox),
  (⟨0x73#8, 0x74#8, 0x74#8, 0x67#8⟩, bdCueSettingsBox),
  (⟨0x70#8, 0x61#8, 0x79#8, 0x6c#8⟩, bdCuePayloadBox),
  (⟨0x76#8, 0x74#8, 0x74#8, 0x65#8⟩, bdVTTEmptyCueBox),
  (⟨0x76#8, 0x74#8, 0x74#8, 0x61#8⟩, bdVTTAdditionalTextBox),
  (⟨0x69#8, 0x70#8, 0x63#8, 0x6d#8⟩, bdAudioSampleEntry),
  (⟨0x66#8, 0x70#8, 0x63#8, 0x6d#8⟩, bdAudioSampleEntry),
  (⟨0x70#8, 0x63#8, 0x6d#8, 0x43#8⟩, bdPcmC),
  (⟨0x70#8, 0x73#8, 0x73#8, 0x68#8⟩, bdPssh),
  (⟨0x74#8, 0x65#8, 0x6e#8, 0x63#8⟩, bdTenc),
  (⟨0x69#8, 0x6c#8, 0x73#8, 0x74#8⟩, bdIlst),
  (⟨0x64#8, 0x61#8, 0x74#8, 0x61#8⟩, bdData),
  (⟨0x2d#8, 0x2d#8, 0x2d#8, 0x2d#8⟩, bdIlstMetaContainer),
  (⟨0x61#8, 0x41#8, 0x52#8, 0x54#8⟩, bdIlstMetaContainer),
  (⟨0x61#8, 0x6b#8, 0x49#8, 0x44#8⟩, bdIlstMetaContainer),
  (⟨0x61#8, 0x70#8, 0x49#8, 0x44#8⟩, bdIlstMetaContainer),
  (⟨0x61#8, 0x74#8, 0x49#8, 0x44#8⟩, bdIlstMetaContainer),
  (⟨0x63#8, 0x6d#8, 0x49#8, 0x44#8⟩, bdIlstMetaContainer),
  (⟨0x63#8, 0x6e#8, 0x49#8, 0x44#8⟩, bdIlstMetaContainer),
  (⟨0x63#8, 0x6f#8, 0x76#8, 0x72#8⟩, bdIlstMetaContainer),
  (⟨0x63#8, 0x70#8, 0x69#8, 0x6c#8⟩, bdIlstMetaContainer),
  (⟨0x63#8, 0x70#8, 0x72#8, 0x74#8⟩, bdIlstMetaContainer),
  (⟨0x64#8, 0x65#8, 0x73#8, 0x63#8⟩, bdIlstMetaContainer),
  (⟨0x64#8, 0x69#8, 0x73#8, 0x6b#8⟩, bdIlstMetaContainer),
  (⟨0x65#8, 0x67#8, 0x69#8, 0x64#8⟩, bdIlstMetaContainer),
  (⟨0x67#8, 0x65#8, 0x49#8, 0x44#8⟩, bdIlstMetaContainer),
  (⟨0x67#8, 0x6e#8, 0x72#8, 0x65#8⟩, bdIlstMetaContainer),
  (⟨0x70#8, 0x63#8, 0x73#8, 0x74#8⟩, bdIlstMetaContainer),
  (⟨0x70#8, 0x67#8, 0x61#8, 0x70#8⟩, bdIlstMetaContainer),
  (⟨0x70#8, 0x6c#8, 0x49#8, 0x44#8⟩, bdIlstMetaContainer),
  (⟨0x70#8, 0x75#8, 0x72#8, 0x64#8⟩, bdIlstMetaContainer),
  (⟨0x70#8, 0x75#8, 0x72#8, 0x6c#8⟩, bdIlstMetaContainer),
  (⟨0x72#8, 0x74#8, 0x6e#8, 0x67#8⟩, bdIlstMetaContainer),
  (⟨0x73#8, 0x66#8, 0x49#8, 0x44#8⟩, bdIlstMetaContainer),
  (⟨0x73#8, 0x6f#8, 0x61#8, 0x61#8⟩, bdIlstMetaContainer),
  (⟨0x73#8, 0x6f#8, 0x61#8, 0x6c#8⟩, bdIlstMetaContainer),
  (⟨0x73#8, 0x6f#8, 0x61#8, 0x72#8⟩, bdIlstMetaContainer),
  (⟨0x73#8, 0x6f#8, 0x63#8, 0x6f#8⟩, bdIlstMetaContainer),
  (⟨0x73#8, 0x6f#8, 0x6e#8, 0x6d#8⟩, bdIlstMetaContainer),
  (⟨0x73#8, 0x6f#8, 0x73#8, 0x6e#8⟩, bdIlstMetaContainer),
  (⟨0x73#8, 0x74#8, 0x69#8, 0x6b#8⟩, bdIlstMetaContainer),
  (⟨0x74#8, 0x6d#8, 0x70#8, 0x6f#8⟩, bdIlstMetaContainer),
  (⟨0x74#8, 0x72#8, 0x6b#8, 0x6e#8⟩, bdIlstMetaContainer),
  (⟨0x74#8, 0x76#8, 0x65#8, 0x6e#8⟩, bdIlstMetaContainer),
  (⟨0x74#8, 0x76#8, 0x65#8, 0x73#8⟩, bdIlstMetaContainer),
  (⟨0x74#8, 0x76#8, 0x6e#8, 0x6e#8⟩, bdIlstMetaContainer),
  (⟨0x74#8, 0x76#8, 0x73#8, 0x68#8⟩, bdIlstMetaContainer),
  (⟨0x74#8, 0x76#8, 0x73#8, 0x6e#8⟩, bdIlstMetaContainer),
  (⟨0xa9#8, 0x41#8, 0x52#8, 0x54#8⟩, bdIlstMetaContainer),
  (⟨0xa9#8, 0x61#8, 0x6c#8, 0x62#8⟩, bdIlstMetaContainer),
  (⟨0xa9#8, 0x63#8, 0x6d#8, 0x74#8⟩, bdIlstMetaContainer),
  (⟨0xa9#8, 0x63#8, 0x6f#8, 0x6d#8⟩, bdIlstMetaContainer),
  (⟨0xa9#8, 0x64#8, 0x61#8, 0x79#8⟩, bdIlstMetaContainer),
  (⟨0xa9#8, 0x67#8, 0x65#8, 0x6e#8⟩, bdIlstMetaContainer),
  (⟨0xa9#8, 0x67#8, 0x72#8, 0x70#8⟩, bdIlstMetaContainer),
  (⟨0xa9#8, 0x6e#8, 0x61#8, 0x6d#8⟩, bdIlstMetaContainer),
  (⟨0xa9#8, 0x74#8, 0x6f#8, 0x6f#8⟩, bdIlstMetaContainer),
  (⟨0xa9#8, 0x77#8, 0x72#8, 0x74#8⟩, bdIlstMetaContainer),
  (⟨0x6d#8, 0x65#8, 0x61#8, 0x6e#8⟩, bdStringData),
  (⟨0x6e#8, 0x61#8, 0x6d#8, 0x65#8⟩, bdStringData),
  (⟨0x6b#8, 0x65#8, 0x79#8, 0x73#8⟩, bdKeys),
  (⟨0x4f#8, 0x70#8, 0x75#8, 0x73#8⟩, bdAudioSampleEntry),
  (⟨0x64#8, 0x4f#8, 0x70#8, 0x73#8⟩, bdDOps),
  (⟨0x76#8, 0x70#8, 0x30#8, 0x38#8⟩, bdVisualSampleEntry),
  (⟨0x76#8, 0x70#8, 0x30#8, 0x39#8⟩, bdVisualSampleEntry),
  (⟨0x76#8, 0x70#8, 0x63#8, 0x43#8⟩, bdVpcC)
  ]

/-- all definitions -/
def allDefs : List BoxDef := [
  bdUdta3GppString,
  bdVisualSampleEntry,
  bdAv1C,
  bdAudioSampleEntry,
  bdDac3,
  bdBtrt,
  bdCo64,
  bdColr,
  bdCslg,
  bdCtts,
  bdDinf,
  bdDref,
  bdUrl,
  bdUrn,
  bdEdts,
  bdElst,
  bdEmsg,
  bdFiel,
  bdFree,
  bdSkip,
  bdFrma,
  bdFtyp,
  bdHdlr,
  bdHvcC,
  bdMdat,
  bdMdhd,
  bdMdia,
  bdMehd,
  bdMeta,
  bdMfhd,
  bdMfra,
  bdMfro,
  bdMinf,
  bdMoof,
  bdMoov,
  bdMvex,
  bdMvhd,
  bdSaio,
  bdSaiz,
  bdAVCDecoderConfiguration,
  bdPixelAspectRatioBox,
  bdXMLSubtitleSampleEntry,
  bdTextSubtitleSampleEntry,
  bdSbgp,
  bdSchi,
  bdSchm,
  bdSdtp,
  bdSgpd,
  bdSidx,
  bdSinf,
  bdSmhd,
  bdStbl,
  bdStco,
  bdStsc,
  bdStsd,
  bdStss,
  bdStsz,
  bdStts,
  bdStyp,
  bdTfdt,
  bdTfhd,
  bdTfra,
  bdTkhd,
  bdTraf,
  bdTrak,
  bdTrep,
  bdTrex,
  bdTrun,
  bdUdta,
  bdVmhd,
  bdWave,
  bdEsds,
  bdWebVTTConfigurationBox,
  bdWebVTTSourceLabelBox,
  bdWVTTSampleEntry,
  bdVTTCueBox,
  bdCueSourceIDBox,
  bdCueTimeBox,
  bdCueIDBox,
  bdCueSettingsBox,
  bdCuePayloadBox,
  bdVTTEmptyCueBox,
  bdVTTAdditionalTextBox,
  bdPcmC,
  bdPssh,
  bdTenc,
  bdIlst,
  bdData,
  bdIlstMetaContainer,
  bdStringData,
  bdKeys,
  bdDOps,
  bdVpcC,
  bdItem
  ]

end Mp4.Cat
