import Verif.Model.Catalog
import Verif.Model.Field

/-!
# The struct declarations of the box types, with their tags

Generated by tools/gen_catalog.py: name, tag and type of every tagged field, in the
order of the declaration and not interpreted.
-/

namespace Mp4.Tag

open Mp4 Mp4.Cat

/-- `FullBox`, box.go:144-148 -/
def declFullBox : Decl := [
  ("Version", "0,size=8", (.uint 8)),
  ("Flags", "1,size=8", (.arr 3 (.uint 8)))
  ]

/-- `Udta3GppString`, box_types_3gpp.go:18-24 -/
def declUdta3GppString : Decl := [
  ("FullBox", "0,extend", fullBoxTy),
  ("Pad", "1,size=1,hidden", .bool),
  ("Language", "2,size=5,iso639-2", (.arr 3 (.uint 8))),
  ("Data", "3,size=8,string", (.slice (.uint 8)))
  ]

/-- `SampleEntry`, box_types_iso14496_12.go:1231-1235 -/
def declSampleEntry : Decl := [
  ("Reserved", "0,size=8,const=0", (.arr 6 (.uint 8))),
  ("DataReferenceIndex", "1,size=16", (.uint 16))
  ]

/-- `VisualSampleEntry`, box_types_iso14496_12.go:1237-1251 -/
def declVisualSampleEntry : Decl := [
  ("SampleEntry", "0,extend", tySampleEntry),
  ("PreDefined", "1,size=16", (.uint 16)),
  ("Reserved", "2,size=16,const=0", (.uint 16)),
  ("PreDefined2", "3,size=32", (.arr 3 (.uint 32))),
  ("Width", "4,size=16", (.uint 16)),
  ("Height", "5,size=16", (.uint 16)),
  ("Horizresolution", "6,size=32", (.uint 32)),
  ("Vertresolution", "7,size=32", (.uint 32)),
  ("Reserved2", "8,size=32,const=0", (.uint 32)),
  ("FrameCount", "9,size=16", (.uint 16)),
  ("Compressorname", "10,size=8", (.arr 32 (.uint 8))),
  ("Depth", "11,size=16", (.uint 16)),
  ("PreDefined3", "12,size=16", (.int 16))
  ]

/-- `Av1C`, box_types_av1.go:23-40 -/
def declAv1C : Decl := [
  ("Marker", "0,size=1,const=1", (.uint 8)),
  ("Version", "1,size=7,const=1", (.uint 8)),
  ("SeqProfile", "2,size=3", (.uint 8)),
  ("SeqLevelIdx0", "3,size=5", (.uint 8)),
  ("SeqTier0", "4,size=1", (.uint 8)),
  ("HighBitdepth", "5,size=1", (.uint 8)),
  ("TwelveBit", "6,size=1", (.uint 8)),
  ("Monochrome", "7,size=1", (.uint 8)),
  ("ChromaSubsamplingX", "8,size=1", (.uint 8)),
  ("ChromaSubsamplingY", "9,size=1", (.uint 8)),
  ("ChromaSamplePosition", "10,size=2", (.uint 8)),
  ("Reserved", "11,size=3,const=0", (.uint 8)),
  ("InitialPresentationDelayPresent", "12,size=1", (.uint 8)),
  ("InitialPresentationDelayMinusOne", "13,size=4", (.uint 8)),
  ("ConfigOBUs", "14,size=8", (.slice (.uint 8)))
  ]

/-- `AudioSampleEntry`, box_types_iso14496_12.go:1266-1276 -/
def declAudioSampleEntry : Decl := [
  ("SampleEntry", "0,extend,opt=dynamic", tySampleEntry),
  ("EntryVersion", "1,size=16,opt=dynamic", (.uint 16)),
  ("Reserved", "2,size=16,opt=dynamic,const=0", (.arr 3 (.uint 16))),
  ("ChannelCount", "3,size=16,opt=dynamic", (.uint 16)),
  ("SampleSize", "4,size=16,opt=dynamic", (.uint 16)),
  ("PreDefined", "5,size=16,opt=dynamic", (.uint 16)),
  ("Reserved2", "6,size=16,opt=dynamic,const=0", (.uint 16)),
  ("SampleRate", "7,size=32,opt=dynamic", (.uint 32)),
  ("QuickTimeData", "8,size=8,opt=dynamic,len=dynamic", (.slice (.uint 8)))
  ]

/-- `Dac3`, box_types_etsi_ts_102_366.go:23-32 -/
def declDac3 : Decl := [
  ("Fscod", "0,size=2", (.uint 8)),
  ("Bsid", "1,size=5", (.uint 8)),
  ("Bsmod", "2,size=3", (.uint 8)),
  ("Acmod", "3,size=3", (.uint 8)),
  ("LfeOn", "4,size=1", (.uint 8)),
  ("BitRateCode", "5,size=5", (.uint 8)),
  ("Reserved", "6,size=5,const=0", (.uint 8))
  ]

/-- `Btrt`, box_types_iso14496_12.go:21-26 -/
def declBtrt : Decl := [
  ("BufferSizeDB", "0,size=32", (.uint 32)),
  ("MaxBitrate", "1,size=32", (.uint 32)),
  ("AvgBitrate", "2,size=32", (.uint 32))
  ]

/-- `Co64`, box_types_iso14496_12.go:41-45 -/
def declCo64 : Decl := [
  ("FullBox", "0,extend", fullBoxTy),
  ("EntryCount", "1,size=32", (.uint 32)),
  ("ChunkOffset", "2,size=64,len=dynamic", (.slice (.uint 64)))
  ]

/-- `Colr`, box_types_iso14496_12.go:69-79 -/
def declColr : Decl := [
  ("ColourType", "0,size=8,string", (.arr 4 (.uint 8))),
  ("ColourPrimaries", "1,size=16,opt=dynamic", (.uint 16)),
  ("TransferCharacteristics", "2,size=16,opt=dynamic", (.uint 16)),
  ("MatrixCoefficients", "3,size=16,opt=dynamic", (.uint 16)),
  ("FullRangeFlag", "4,size=1,opt=dynamic", .bool),
  ("Reserved", "5,size=7,opt=dynamic", (.uint 8)),
  ("Profile", "6,size=8,opt=dynamic", (.slice (.uint 8))),
  ("Unknown", "7,size=8,opt=dynamic", (.slice (.uint 8)))
  ]

/-- `Cslg`, box_types_iso14496_12.go:115-127 -/
def declCslg : Decl := [
  ("FullBox", "0,extend", fullBoxTy),
  ("CompositionToDTSShiftV0", "1,size=32,ver=0", (.int 32)),
  ("LeastDecodeToDisplayDeltaV0", "2,size=32,ver=0", (.int 32)),
  ("GreatestDecodeToDisplayDeltaV0", "3,size=32,ver=0", (.int 32)),
  ("CompositionStartTimeV0", "4,size=32,ver=0", (.int 32)),
  ("CompositionEndTimeV0", "5,size=32,ver=0", (.int 32)),
  ("CompositionToDTSShiftV1", "6,size=64,nver=0", (.int 64)),
  ("LeastDecodeToDisplayDeltaV1", "7,size=64,nver=0", (.int 64)),
  ("GreatestDecodeToDisplayDeltaV1", "8,size=64,nver=0", (.int 64)),
  ("CompositionStartTimeV1", "9,size=64,nver=0", (.int 64)),
  ("CompositionEndTimeV1", "10,size=64,nver=0", (.int 64))
  ]

/-- `CttsEntry`, box_types_iso14496_12.go:203-207 -/
def declCttsEntry : Decl := [
  ("SampleCount", "0,size=32", (.uint 32)),
  ("SampleOffsetV0", "1,size=32,ver=0", (.uint 32)),
  ("SampleOffsetV1", "2,size=32,ver=1", (.int 32))
  ]

/-- `Ctts`, box_types_iso14496_12.go:197-201 -/
def declCtts : Decl := [
  ("FullBox", "0,extend", fullBoxTy),
  ("EntryCount", "1,size=32", (.uint 32)),
  ("Entries", "2,len=dynamic,size=64", (.slice tyCttsEntry))
  ]

/-- `Dinf`, box_types_iso14496_12.go:243-245 -/
def declDinf : Decl := [

  ]

/-- `Dref`, box_types_iso14496_12.go:265-268 -/
def declDref : Decl := [
  ("FullBox", "0,extend", fullBoxTy),
  ("EntryCount", "1,size=32", (.uint 32))
  ]

/-- `Url`, box_types_iso14496_12.go:275-278 -/
def declUrl : Decl := [
  ("FullBox", "0,extend", fullBoxTy),
  ("Location", "1,string,nopt=0x000001", .str)
  ]

/-- `Urn`, box_types_iso14496_12.go:286-290 -/
def declUrn : Decl := [
  ("FullBox", "0,extend", fullBoxTy),
  ("Name", "1,string,nopt=0x000001", .str),
  ("Location", "2,string,nopt=0x000001", .str)
  ]

/-- `Edts`, box_types_iso14496_12.go:307-309 -/
def declEdts : Decl := [

  ]

/-- `ElstEntry`, box_types_iso14496_12.go:331-338 -/
def declElstEntry : Decl := [
  ("SegmentDurationV0", "0,size=32,ver=0", (.uint 32)),
  ("MediaTimeV0", "1,size=32,ver=0", (.int 32)),
  ("SegmentDurationV1", "2,size=64,ver=1", (.uint 64)),
  ("MediaTimeV1", "3,size=64,ver=1", (.int 64)),
  ("MediaRateInteger", "4,size=16", (.int 16)),
  ("MediaRateFraction", "5,size=16,const=0", (.int 16))
  ]

/-- `Elst`, box_types_iso14496_12.go:325-329 -/
def declElst : Decl := [
  ("FullBox", "0,extend", fullBoxTy),
  ("EntryCount", "1,size=32", (.uint 32)),
  ("Entries", "2,len=dynamic,size=dynamic", (.slice tyElstEntry))
  ]

/-- `Emsg`, box_types_iso14496_12.go:407-417 -/
def declEmsg : Decl := [
  ("FullBox", "0,extend", fullBoxTy),
  ("SchemeIdUri", "1,string", .str),
  ("Value", "2,string", .str),
  ("Timescale", "3,size=32", (.uint 32)),
  ("PresentationTimeDelta", "4,size=32,ver=0", (.uint 32)),
  ("PresentationTime", "5,size=64,ver=1", (.uint 64)),
  ("EventDuration", "6,size=32", (.uint 32)),
  ("Id", "7,size=32", (.uint 32)),
  ("MessageData", "8,size=8,string", (.slice (.uint 8)))
  ]

/-- `Fiel`, box_types_iso14496_12.go:478-482 -/
def declFiel : Decl := [
  ("FieldCount", "0,size=8", (.uint 8)),
  ("FieldOrdering", "1,size=8", (.uint 8))
  ]

/-- `FreeSpace`, box_types_iso14496_12.go:498-501 -/
def declFreeSpace : Decl := [
  ("Data", "0,size=8", (.slice (.uint 8)))
  ]

/-- `Frma`, box_types_iso14496_12.go:524-527 -/
def declFrma : Decl := [
  ("DataFormat", "0,size=8,string", (.arr 4 (.uint 8)))
  ]

/-- `CompatibleBrandElem`, box_types_iso14496_12.go:564-566 -/
def declCompatibleBrandElem : Decl := [
  ("CompatibleBrand", "0,size=8,string", (.arr 4 (.uint 8)))
  ]

/-- `Ftyp`, box_types_iso14496_12.go:557-562 -/
def declFtyp : Decl := [
  ("MajorBrand", "0,size=8,string", (.arr 4 (.uint 8))),
  ("MinorVersion", "1,size=32", (.uint 32)),
  ("CompatibleBrands", "2,size=32", (.slice tyCompatibleBrandElem))
  ]

/-- `Hdlr`, box_types_iso14496_12.go:610-619 -/
def declHdlr : Decl := [
  ("FullBox", "0,extend", fullBoxTy),
  ("PreDefined", "1,size=32", (.uint 32)),
  ("HandlerType", "2,size=8,string", (.arr 4 (.uint 8))),
  ("Reserved", "3,size=32,const=0", (.arr 3 (.uint 32))),
  ("Name", "4,string", .str)
  ]

/-- `HEVCNalu`, box_types_iso14496_12.go:677-681 -/
def declHEVCNalu : Decl := [
  ("Length", "0,size=16", (.uint 16)),
  ("NALUnit", "1,size=8,len=dynamic", (.slice (.uint 8)))
  ]

/-- `HEVCNaluArray`, box_types_iso14496_12.go:691-698 -/
def declHEVCNaluArray : Decl := [
  ("Completeness", "0,size=1", .bool),
  ("Reserved", "1,size=1", .bool),
  ("NaluType", "2,size=6", (.uint 8)),
  ("NumNalus", "3,size=16", (.uint 16)),
  ("Nalus", "4,len=dynamic", (.slice tyHEVCNalu))
  ]

/-- `HvcC`, box_types_iso14496_12.go:708-734 -/
def declHvcC : Decl := [
  ("ConfigurationVersion", "0,size=8", (.uint 8)),
  ("GeneralProfileSpace", "1,size=2", (.uint 8)),
  ("GeneralTierFlag", "2,size=1", .bool),
  ("GeneralProfileIdc", "3,size=5", (.uint 8)),
  ("GeneralProfileCompatibility", "4,size=1", (.arr 32 .bool)),
  ("GeneralConstraintIndicator", "5,size=8", (.arr 6 (.uint 8))),
  ("GeneralLevelIdc", "6,size=8", (.uint 8)),
  ("Reserved1", "7,size=4,const=15", (.uint 8)),
  ("MinSpatialSegmentationIdc", "8,size=12", (.uint 16)),
  ("Reserved2", "9,size=6,const=63", (.uint 8)),
  ("ParallelismType", "10,size=2", (.uint 8)),
  ("Reserved3", "11,size=6,const=63", (.uint 8)),
  ("ChromaFormatIdc", "12,size=2", (.uint 8)),
  ("Reserved4", "13,size=5,const=31", (.uint 8)),
  ("BitDepthLumaMinus8", "14,size=3", (.uint 8)),
  ("Reserved5", "15,size=5,const=31", (.uint 8)),
  ("BitDepthChromaMinus8", "16,size=3", (.uint 8)),
  ("AvgFrameRate", "17,size=16", (.uint 16)),
  ("ConstantFrameRate", "18,size=2", (.uint 8)),
  ("NumTemporalLayers", "19,size=2", (.uint 8)),
  ("TemporalIdNested", "20,size=2", (.uint 8)),
  ("LengthSizeMinusOne", "21,size=2", (.uint 8)),
  ("NumOfNaluArrays", "22,size=8", (.uint 8)),
  ("NaluArrays", "23,len=dynamic", (.slice tyHEVCNaluArray))
  ]

/-- `Mdat`, box_types_iso14496_12.go:757-760 -/
def declMdat : Decl := [
  ("Data", "0,size=8", (.slice (.uint 8)))
  ]

/-- `Mdhd`, box_types_iso14496_12.go:776-789 -/
def declMdhd : Decl := [
  ("FullBox", "0,extend", fullBoxTy),
  ("CreationTimeV0", "1,size=32,ver=0", (.uint 32)),
  ("ModificationTimeV0", "2,size=32,ver=0", (.uint 32)),
  ("CreationTimeV1", "3,size=64,ver=1", (.uint 64)),
  ("ModificationTimeV1", "4,size=64,ver=1", (.uint 64)),
  ("Timescale", "5,size=32", (.uint 32)),
  ("DurationV0", "6,size=32,ver=0", (.uint 32)),
  ("DurationV1", "7,size=64,ver=1", (.uint 64)),
  ("Pad", "8,size=1,hidden", .bool),
  ("Language", "9,size=5,iso639-2", (.arr 3 (.uint 8))),
  ("PreDefined", "10,size=16", (.uint 16))
  ]

/-- `Mdia`, box_types_iso14496_12.go:838-840 -/
def declMdia : Decl := [

  ]

/-- `Mehd`, box_types_iso14496_12.go:856-860 -/
def declMehd : Decl := [
  ("FullBox", "0,extend", fullBoxTy),
  ("FragmentDurationV0", "1,size=32,ver=0", (.uint 32)),
  ("FragmentDurationV1", "2,size=64,ver=1", (.uint 64))
  ]

/-- `Meta`, box_types_iso14496_12.go:887-889 -/
def declMeta : Decl := [
  ("FullBox", "0,extend", fullBoxTy)
  ]

/-- `Mfhd`, box_types_iso14496_12.go:922-925 -/
def declMfhd : Decl := [
  ("FullBox", "0,extend", fullBoxTy),
  ("SequenceNumber", "1,size=32", (.uint 32))
  ]

/-- `Mfra`, box_types_iso14496_12.go:941-943 -/
def declMfra : Decl := [

  ]

/-- `Mfro`, box_types_iso14496_12.go:959-962 -/
def declMfro : Decl := [
  ("FullBox", "0,extend", fullBoxTy),
  ("Size", "1,size=32", (.uint 32))
  ]

/-- `Minf`, box_types_iso14496_12.go:978-980 -/
def declMinf : Decl := [

  ]

/-- `Moof`, box_types_iso14496_12.go:996-998 -/
def declMoof : Decl := [

  ]

/-- `Moov`, box_types_iso14496_12.go:1014-1016 -/
def declMoov : Decl := [

  ]

/-- `Mvex`, box_types_iso14496_12.go:1032-1034 -/
def declMvex : Decl := [

  ]

/-- `Mvhd`, box_types_iso14496_12.go:1050-1066 -/
def declMvhd : Decl := [
  ("FullBox", "0,extend", fullBoxTy),
  ("CreationTimeV0", "1,size=32,ver=0", (.uint 32)),
  ("ModificationTimeV0", "2,size=32,ver=0", (.uint 32)),
  ("CreationTimeV1", "3,size=64,ver=1", (.uint 64)),
  ("ModificationTimeV1", "4,size=64,ver=1", (.uint 64)),
  ("Timescale", "5,size=32", (.uint 32)),
  ("DurationV0", "6,size=32,ver=0", (.uint 32)),
  ("DurationV1", "7,size=64,ver=1", (.uint 64)),
  ("Rate", "8,size=32", (.int 32)),
  ("Volume", "9,size=16", (.int 16)),
  ("Reserved", "10,size=16,const=0", (.int 16)),
  ("Reserved2", "11,size=32,const=0", (.arr 2 (.uint 32))),
  ("Matrix", "12,size=32,hex", (.arr 9 (.int 32))),
  ("PreDefined", "13,size=32", (.arr 6 (.int 32))),
  ("NextTrackID", "14,size=32", (.uint 32))
  ]

/-- `Saio`, box_types_iso14496_12.go:1134-1141 -/
def declSaio : Decl := [
  ("FullBox", "0,extend", fullBoxTy),
  ("AuxInfoType", "1,size=8,opt=0x000001,string", (.arr 4 (.uint 8))),
  ("AuxInfoTypeParameter", "2,size=32,opt=0x000001,hex", (.uint 32)),
  ("EntryCount", "3,size=32", (.uint 32)),
  ("OffsetV0", "4,size=32,ver=0,len=dynamic", (.slice (.uint 32))),
  ("OffsetV1", "5,size=64,nver=0,len=dynamic", (.slice (.uint 64)))
  ]

/-- `Saiz`, box_types_iso14496_12.go:1174-1181 -/
def declSaiz : Decl := [
  ("FullBox", "0,extend", fullBoxTy),
  ("AuxInfoType", "1,size=8,opt=0x000001,string", (.arr 4 (.uint 8))),
  ("AuxInfoTypeParameter", "2,size=32,opt=0x000001,hex", (.uint 32)),
  ("DefaultSampleInfoSize", "3,size=8,dec", (.uint 8)),
  ("SampleCount", "4,size=32", (.uint 32)),
  ("SampleInfoSize", "5,size=8,opt=dynamic,len=dynamic,dec", (.slice (.uint 8)))
  ]

/-- `AVCParameterSet`, box_types_iso14496_12.go:1405-1409 -/
def declAVCParameterSet : Decl := [
  ("Length", "0,size=16", (.uint 16)),
  ("NALUnit", "1,size=8,len=dynamic", (.slice (.uint 8)))
  ]

/-- `AVCDecoderConfiguration`, box_types_iso14496_12.go:1328-1350 -/
def declAVCDecoderConfiguration : Decl := [
  ("ConfigurationVersion", "0,size=8", (.uint 8)),
  ("Profile", "1,size=8", (.uint 8)),
  ("ProfileCompatibility", "2,size=8", (.uint 8)),
  ("Level", "3,size=8", (.uint 8)),
  ("Reserved", "4,size=6,const=63", (.uint 8)),
  ("LengthSizeMinusOne", "5,size=2", (.uint 8)),
  ("Reserved2", "6,size=3,const=7", (.uint 8)),
  ("NumOfSequenceParameterSets", "7,size=5", (.uint 8)),
  ("SequenceParameterSets", "8,len=dynamic", (.slice tyAVCParameterSet)),
  ("NumOfPictureParameterSets", "9,size=8", (.uint 8)),
  ("PictureParameterSets", "10,len=dynamic", (.slice tyAVCParameterSet)),
  ("HighProfileFieldsEnabled", "11,hidden", .bool),
  ("Reserved3", "12,size=6,opt=dynamic,const=63", (.uint 8)),
  ("ChromaFormat", "13,size=2,opt=dynamic", (.uint 8)),
  ("Reserved4", "14,size=5,opt=dynamic,const=31", (.uint 8)),
  ("BitDepthLumaMinus8", "15,size=3,opt=dynamic", (.uint 8)),
  ("Reserved5", "16,size=5,opt=dynamic,const=31", (.uint 8)),
  ("BitDepthChromaMinus8", "17,size=3,opt=dynamic", (.uint 8)),
  ("NumOfSequenceParameterSetExt", "18,size=8,opt=dynamic", (.uint 8)),
  ("SequenceParameterSetsExt", "19,len=dynamic,opt=dynamic", (.slice tyAVCParameterSet))
  ]

/-- `PixelAspectRatioBox`, box_types_iso14496_12.go:1419-1423 -/
def declPixelAspectRatioBox : Decl := [
  ("HSpacing", "0,size=32", (.uint 32)),
  ("VSpacing", "1,size=32", (.uint 32))
  ]

/-- `XMLSubtitleSampleEntry`, box_types_iso14496_12.go:1425-1430 -/
def declXMLSubtitleSampleEntry : Decl := [
  ("SampleEntry", "0,extend", tySampleEntry),
  ("Namespace", "1,string", .str),
  ("SchemaLocation", "2,string", .str),
  ("AuxiliaryMIMETypes", "3,string", .str)
  ]

/-- `TextSubtitleSampleEntry`, box_types_iso14496_12.go:1444-1448 -/
def declTextSubtitleSampleEntry : Decl := [
  ("SampleEntry", "0,extend", tySampleEntry),
  ("ContentEncoding", "1,string", .str),
  ("MIMEFormat", "2,string", .str)
  ]

/-- `SbgpEntry`, box_types_iso14496_12.go:1466-1469 -/
def declSbgpEntry : Decl := [
  ("SampleCount", "0,size=32", (.uint 32)),
  ("GroupDescriptionIndex", "1,size=32", (.uint 32))
  ]

/-- `Sbgp`, box_types_iso14496_12.go:1458-1464 -/
def declSbgp : Decl := [
  ("FullBox", "0,extend", fullBoxTy),
  ("GroupingType", "1,size=32", (.uint 32)),
  ("GroupingTypeParameter", "2,size=32,ver=1", (.uint 32)),
  ("EntryCount", "3,size=32", (.uint 32)),
  ("Entries", "4,len=dynamic,size=64", (.slice tySbgpEntry))
  ]

/-- `Schi`, box_types_iso14496_12.go:1491-1493 -/
def declSchi : Decl := [

  ]

/-- `Schm`, box_types_iso14496_12.go:1507-1512 -/
def declSchm : Decl := [
  ("FullBox", "0,extend", fullBoxTy),
  ("SchemeType", "1,size=8,string", (.arr 4 (.uint 8))),
  ("SchemeVersion", "2,size=32,hex", (.uint 32)),
  ("SchemeUri", "3,size=8,opt=0x000001,string", (.slice (.uint 8)))
  ]

/-- `SdtpSampleElem`, box_types_iso14496_12.go:1531-1536 -/
def declSdtpSampleElem : Decl := [
  ("IsLeading", "0,size=2", (.uint 8)),
  ("SampleDependsOn", "1,size=2", (.uint 8)),
  ("SampleIsDependedOn", "2,size=2", (.uint 8)),
  ("SampleHasRedundancy", "3,size=2", (.uint 8))
  ]

/-- `Sdtp`, box_types_iso14496_12.go:1526-1529 -/
def declSdtp : Decl := [
  ("FullBox", "0,extend", fullBoxTy),
  ("Samples", "1,size=8", (.slice tySdtpSampleElem))
  ]

/-- `RollDistanceWithLength`, box_types_iso14496_12.go:1567-1570 -/
def declRollDistanceWithLength : Decl := [
  ("DescriptionLength", "0,size=32", (.uint 32)),
  ("RollDistance", "1,size=16", (.int 16))
  ]

/-- `AlternativeStartupEntryOpt`, box_types_iso14496_12.go:1585-1588 -/
def declAlternativeStartupEntryOpt : Decl := [
  ("NumOutputSamples", "0,size=16", (.uint 16)),
  ("NumTotalSamples", "1,size=16", (.uint 16))
  ]

/-- `AlternativeStartupEntry`, box_types_iso14496_12.go:1572-1578 -/
def declAlternativeStartupEntry : Decl := [
  ("RollCount", "0,size=16", (.uint 16)),
  ("FirstOutputSample", "1,size=16", (.uint 16)),
  ("SampleOffset", "2,size=32,len=dynamic", (.slice (.uint 32))),
  ("Opts", "3,size=32", (.slice tyAlternativeStartupEntryOpt))
  ]

/-- `AlternativeStartupEntryL`, box_types_iso14496_12.go:1580-1583 -/
def declAlternativeStartupEntryL : Decl := [
  ("DescriptionLength", "0,size=32", (.uint 32)),
  ("AlternativeStartupEntry", "1,extend,size=dynamic", tyAlternativeStartupEntry)
  ]

/-- `VisualRandomAccessEntry`, box_types_iso14496_12.go:1590-1593 -/
def declVisualRandomAccessEntry : Decl := [
  ("NumLeadingSamplesKnown", "0,size=1", .bool),
  ("NumLeadingSamples", "1,size=7", (.uint 8))
  ]

/-- `VisualRandomAccessEntryL`, box_types_iso14496_12.go:1595-1598 -/
def declVisualRandomAccessEntryL : Decl := [
  ("DescriptionLength", "0,size=32", (.uint 32)),
  ("VisualRandomAccessEntry", "1,extend", tyVisualRandomAccessEntry)
  ]

/-- `TemporalLevelEntry`, box_types_iso14496_12.go:1600-1603 -/
def declTemporalLevelEntry : Decl := [
  ("LevelIndependentlyDecodable", "0,size=1", .bool),
  ("Reserved", "1,size=7,const=0", (.uint 8))
  ]

/-- `TemporalLevelEntryL`, box_types_iso14496_12.go:1605-1608 -/
def declTemporalLevelEntryL : Decl := [
  ("DescriptionLength", "0,size=32", (.uint 32)),
  ("TemporalLevelEntry", "1,extend", tyTemporalLevelEntry)
  ]

/-- `Sgpd`, box_types_iso14496_12.go:1550-1565 -/
def declSgpd : Decl := [
  ("FullBox", "0,extend", fullBoxTy),
  ("GroupingType", "1,size=8,string", (.arr 4 (.uint 8))),
  ("DefaultLength", "2,size=32,ver=1", (.uint 32)),
  ("DefaultSampleDescriptionIndex", "3,size=32,ver=2", (.uint 32)),
  ("EntryCount", "4,size=32", (.uint 32)),
  ("RollDistances", "5,size=16,opt=dynamic", (.slice (.int 16))),
  ("RollDistancesL", "6,size=16,opt=dynamic", (.slice tyRollDistanceWithLength)),
  ("AlternativeStartupEntries", "7,size=dynamic,len=dynamic,opt=dynamic", (.slice tyAlternativeStartupEntry)),
  ("AlternativeStartupEntriesL", "8,len=dynamic,opt=dynamic", (.slice tyAlternativeStartupEntryL)),
  ("VisualRandomAccessEntries", "9,len=dynamic,opt=dynamic", (.slice tyVisualRandomAccessEntry)),
  ("VisualRandomAccessEntriesL", "10,len=dynamic,opt=dynamic", (.slice tyVisualRandomAccessEntryL)),
  ("TemporalLevelEntries", "11,len=dynamic,opt=dynamic", (.slice tyTemporalLevelEntry)),
  ("TemporalLevelEntriesL", "12,len=dynamic,opt=dynamic", (.slice tyTemporalLevelEntryL)),
  ("Unsupported", "13,size=8,opt=dynamic", (.slice (.uint 8)))
  ]

/-- `SidxReference`, box_types_iso14496_12.go:1704-1711 -/
def declSidxReference : Decl := [
  ("ReferenceType", "0,size=1", .bool),
  ("ReferencedSize", "1,size=31", (.uint 32)),
  ("SubsegmentDuration", "2,size=32", (.uint 32)),
  ("StartsWithSAP", "3,size=1", .bool),
  ("SAPType", "4,size=3", (.uint 32)),
  ("SAPDeltaTime", "5,size=28", (.uint 32))
  ]

/-- `Sidx`, box_types_iso14496_12.go:1691-1702 -/
def declSidx : Decl := [
  ("FullBox", "0,extend", fullBoxTy),
  ("ReferenceID", "1,size=32", (.uint 32)),
  ("Timescale", "2,size=32", (.uint 32)),
  ("EarliestPresentationTimeV0", "3,size=32,ver=0", (.uint 32)),
  ("FirstOffsetV0", "4,size=32,ver=0", (.uint 32)),
  ("EarliestPresentationTimeV1", "5,size=64,nver=0", (.uint 64)),
  ("FirstOffsetV1", "6,size=64,nver=0", (.uint 64)),
  ("Reserved", "7,size=16,const=0", (.uint 16)),
  ("ReferenceCount", "8,size=16", (.uint 16)),
  ("References", "9,size=96,len=dynamic", (.slice tySidxReference))
  ]

/-- `Sinf`, box_types_iso14496_12.go:1755-1757 -/
def declSinf : Decl := [

  ]

/-- `Smhd`, box_types_iso14496_12.go:1771-1775 -/
def declSmhd : Decl := [
  ("FullBox", "0,extend", fullBoxTy),
  ("Balance", "1,size=16", (.int 16)),
  ("Reserved", "2,size=16,const=0", (.uint 16))
  ]

/-- `Stbl`, box_types_iso14496_12.go:1810-1812 -/
def declStbl : Decl := [

  ]

/-- `Stco`, box_types_iso14496_12.go:1828-1832 -/
def declStco : Decl := [
  ("FullBox", "0,extend", fullBoxTy),
  ("EntryCount", "1,size=32", (.uint 32)),
  ("ChunkOffset", "2,size=32,len=dynamic", (.slice (.uint 32)))
  ]

/-- `StscEntry`, box_types_iso14496_12.go:1863-1867 -/
def declStscEntry : Decl := [
  ("FirstChunk", "0,size=32", (.uint 32)),
  ("SamplesPerChunk", "1,size=32", (.uint 32)),
  ("SampleDescriptionIndex", "2,size=32", (.uint 32))
  ]

/-- `Stsc`, box_types_iso14496_12.go:1857-1861 -/
def declStsc : Decl := [
  ("FullBox", "0,extend", fullBoxTy),
  ("EntryCount", "1,size=32", (.uint 32)),
  ("Entries", "2,len=dynamic,size=96", (.slice tyStscEntry))
  ]

/-- `Stsd`, box_types_iso14496_12.go:1892-1895 -/
def declStsd : Decl := [
  ("FullBox", "0,extend", fullBoxTy),
  ("EntryCount", "1,size=32", (.uint 32))
  ]

/-- `Stss`, box_types_iso14496_12.go:1910-1914 -/
def declStss : Decl := [
  ("FullBox", "0,extend", fullBoxTy),
  ("EntryCount", "1,size=32", (.uint 32)),
  ("SampleNumber", "2,len=dynamic,size=32", (.slice (.uint 32)))
  ]

/-- `Stsz`, box_types_iso14496_12.go:1939-1944 -/
def declStsz : Decl := [
  ("FullBox", "0,extend", fullBoxTy),
  ("SampleSize", "1,size=32", (.uint 32)),
  ("SampleCount", "2,size=32", (.uint 32)),
  ("EntrySize", "3,size=32,len=dynamic", (.slice (.uint 32)))
  ]

/-- `SttsEntry`, box_types_iso14496_12.go:1978-1981 -/
def declSttsEntry : Decl := [
  ("SampleCount", "0,size=32", (.uint 32)),
  ("SampleDelta", "1,size=32", (.uint 32))
  ]

/-- `Stts`, box_types_iso14496_12.go:1972-1976 -/
def declStts : Decl := [
  ("FullBox", "0,extend", fullBoxTy),
  ("EntryCount", "1,size=32", (.uint 32)),
  ("Entries", "2,len=dynamic,size=64", (.slice tySttsEntry))
  ]

/-- `Styp`, box_types_iso14496_12.go:2005-2010 -/
def declStyp : Decl := [
  ("MajorBrand", "0,size=8,string", (.arr 4 (.uint 8))),
  ("MinorVersion", "1,size=32", (.uint 32)),
  ("CompatibleBrands", "2,size=32", (.slice tyCompatibleBrandElem))
  ]

/-- `Tfdt`, box_types_iso14496_12.go:2025-2029 -/
def declTfdt : Decl := [
  ("FullBox", "0,extend", fullBoxTy),
  ("BaseMediaDecodeTimeV0", "1,size=32,ver=0", (.uint 32)),
  ("BaseMediaDecodeTimeV1", "2,size=64,ver=1", (.uint 64))
  ]

/-- `Tfhd`, box_types_iso14496_12.go:2056-2066 -/
def declTfhd : Decl := [
  ("FullBox", "0,extend", fullBoxTy),
  ("TrackID", "1,size=32", (.uint 32)),
  ("BaseDataOffset", "2,size=64,opt=0x000001", (.uint 64)),
  ("SampleDescriptionIndex", "3,size=32,opt=0x000002", (.uint 32)),
  ("DefaultSampleDuration", "4,size=32,opt=0x000008", (.uint 32)),
  ("DefaultSampleSize", "5,size=32,opt=0x000010", (.uint 32)),
  ("DefaultSampleFlags", "6,size=32,opt=0x000020,hex", (.uint 32))
  ]

/-- `TfraEntry`, box_types_iso14496_12.go:2103-2111 -/
def declTfraEntry : Decl := [
  ("TimeV0", "0,size=32,ver=0", (.uint 32)),
  ("MoofOffsetV0", "1,size=32,ver=0", (.uint 32)),
  ("TimeV1", "2,size=64,ver=1", (.uint 64)),
  ("MoofOffsetV1", "3,size=64,ver=1", (.uint 64)),
  ("TrafNumber", "4,size=dynamic", (.uint 32)),
  ("TrunNumber", "5,size=dynamic", (.uint 32)),
  ("SampleNumber", "6,size=dynamic", (.uint 32))
  ]

/-- `Tfra`, box_types_iso14496_12.go:2092-2101 -/
def declTfra : Decl := [
  ("FullBox", "0,extend", fullBoxTy),
  ("TrackID", "1,size=32", (.uint 32)),
  ("Reserved", "2,size=26,const=0", (.uint 32)),
  ("LengthSizeOfTrafNum", "3,size=2", (.uint 8)),
  ("LengthSizeOfTrunNum", "4,size=2", (.uint 8)),
  ("LengthSizeOfSampleNum", "5,size=2", (.uint 8)),
  ("NumberOfEntry", "6,size=32", (.uint 32)),
  ("Entries", "7,len=dynamic,size=dynamic", (.slice tyTfraEntry))
  ]

/-- `Tkhd`, box_types_iso14496_12.go:2188-2207 -/
def declTkhd : Decl := [
  ("FullBox", "0,extend", fullBoxTy),
  ("CreationTimeV0", "1,size=32,ver=0", (.uint 32)),
  ("ModificationTimeV0", "2,size=32,ver=0", (.uint 32)),
  ("CreationTimeV1", "3,size=64,ver=1", (.uint 64)),
  ("ModificationTimeV1", "4,size=64,ver=1", (.uint 64)),
  ("TrackID", "5,size=32", (.uint 32)),
  ("Reserved0", "6,size=32,const=0", (.uint 32)),
  ("DurationV0", "7,size=32,ver=0", (.uint 32)),
  ("DurationV1", "8,size=64,ver=1", (.uint 64)),
  ("Reserved1", "9,size=32,const=0", (.arr 2 (.uint 32))),
  ("Layer", "10,size=16", (.int 16)),
  ("AlternateGroup", "11,size=16", (.int 16)),
  ("Volume", "12,size=16", (.int 16)),
  ("Reserved2", "13,size=16,const=0", (.uint 16)),
  ("Matrix", "14,size=32,hex", (.arr 9 (.int 32))),
  ("Width", "15,size=32", (.uint 32)),
  ("Height", "16,size=32", (.uint 32))
  ]

/-- `Traf`, box_types_iso14496_12.go:2288-2290 -/
def declTraf : Decl := [

  ]

/-- `Trak`, box_types_iso14496_12.go:2306-2308 -/
def declTrak : Decl := [

  ]

/-- `Trep`, box_types_iso14496_12.go:2324-2327 -/
def declTrep : Decl := [
  ("FullBox", "0,extend", fullBoxTy),
  ("TrackID", "1,size=32", (.uint 32))
  ]

/-- `Trex`, box_types_iso14496_12.go:2343-2350 -/
def declTrex : Decl := [
  ("FullBox", "0,extend", fullBoxTy),
  ("TrackID", "1,size=32", (.uint 32)),
  ("DefaultSampleDescriptionIndex", "2,size=32", (.uint 32)),
  ("DefaultSampleDuration", "3,size=32", (.uint 32)),
  ("DefaultSampleSize", "4,size=32", (.uint 32)),
  ("DefaultSampleFlags", "5,size=32,hex", (.uint 32))
  ]

/-- `TrunEntry`, box_types_iso14496_12.go:2376-2382 -/
def declTrunEntry : Decl := [
  ("SampleDuration", "0,size=32,opt=0x000100", (.uint 32)),
  ("SampleSize", "1,size=32,opt=0x000200", (.uint 32)),
  ("SampleFlags", "2,size=32,opt=0x000400,hex", (.uint 32)),
  ("SampleCompositionTimeOffsetV0", "3,size=32,opt=0x000800,ver=0", (.uint 32)),
  ("SampleCompositionTimeOffsetV1", "4,size=32,opt=0x000800,nver=0", (.int 32))
  ]

/-- `Trun`, box_types_iso14496_12.go:2366-2374 -/
def declTrun : Decl := [
  ("FullBox", "0,extend", fullBoxTy),
  ("SampleCount", "1,size=32", (.uint 32)),
  ("DataOffset", "2,size=32,opt=0x000001", (.int 32)),
  ("FirstSampleFlags", "3,size=32,opt=0x000004,hex", (.uint 32)),
  ("Entries", "4,len=dynamic,size=dynamic", (.slice tyTrunEntry))
  ]

/-- `Udta`, box_types_iso14496_12.go:2441-2443 -/
def declUdta : Decl := [

  ]

/-- `Vmhd`, box_types_iso14496_12.go:2463-2467 -/
def declVmhd : Decl := [
  ("FullBox", "0,extend", fullBoxTy),
  ("Graphicsmode", "1,size=16", (.uint 16)),
  ("Opcolor", "2,size=16", (.arr 3 (.uint 16)))
  ]

/-- `Wave`, box_types_iso14496_12.go:2483-2485 -/
def declWave : Decl := [

  ]

/-- `ESDescriptor`, box_types_iso14496_14.go:83-94 -/
def declESDescriptor : Decl := [
  ("ESID", "0,size=16", (.uint 16)),
  ("StreamDependenceFlag", "1,size=1", .bool),
  ("UrlFlag", "2,size=1", .bool),
  ("OcrStreamFlag", "3,size=1", .bool),
  ("StreamPriority", "4,size=5", (.int 8)),
  ("DependsOnESID", "5,size=16,opt=dynamic", (.uint 16)),
  ("URLLength", "6,size=8,opt=dynamic", (.uint 8)),
  ("URLString", "7,size=8,len=dynamic,opt=dynamic,string", (.slice (.uint 8))),
  ("OCRESID", "8,size=16,opt=dynamic", (.uint 16))
  ]

/-- `DecoderConfigDescriptor`, box_types_iso14496_14.go:117-126 -/
def declDecoderConfigDescriptor : Decl := [
  ("ObjectTypeIndication", "0,size=8", (.uint 8)),
  ("StreamType", "1,size=6", (.int 8)),
  ("UpStream", "2,size=1", .bool),
  ("Reserved", "3,size=1", .bool),
  ("BufferSizeDB", "4,size=24", (.uint 32)),
  ("MaxBitrate", "5,size=32", (.uint 32)),
  ("AvgBitrate", "6,size=32", (.uint 32))
  ]

/-- `Descriptor`, box_types_iso14496_14.go:33-40 -/
def declDescriptor : Decl := [
  ("Tag", "0,size=8", (.int 8)),
  ("Size", "1,varint", (.uint 32)),
  ("ESDescriptor", "2,extend,opt=dynamic", (.ptr tyESDescriptor)),
  ("DecoderConfigDescriptor", "3,extend,opt=dynamic", (.ptr tyDecoderConfigDescriptor)),
  ("Data", "4,size=8,opt=dynamic,len=dynamic", (.slice (.uint 8)))
  ]

/-- `Esds`, box_types_iso14496_14.go:23-26 -/
def declEsds : Decl := [
  ("FullBox", "0,extend", fullBoxTy),
  ("Descriptors", "1,array", (.slice tyDescriptor))
  ]

/-- `WebVTTConfigurationBox`, box_types_iso14496_30.go:15-18 -/
def declWebVTTConfigurationBox : Decl := [
  ("Config", "0,boxstring", .str)
  ]

/-- `WebVTTSourceLabelBox`, box_types_iso14496_30.go:24-27 -/
def declWebVTTSourceLabelBox : Decl := [
  ("SourceLabel", "0,boxstring", .str)
  ]

/-- `WVTTSampleEntry`, box_types_iso14496_30.go:33-35 -/
def declWVTTSampleEntry : Decl := [
  ("SampleEntry", "0,extend", tySampleEntry)
  ]

/-- `VTTCueBox`, box_types_iso14496_30.go:59-61 -/
def declVTTCueBox : Decl := [

  ]

/-- `CueSourceIDBox`, box_types_iso14496_30.go:67-70 -/
def declCueSourceIDBox : Decl := [
  ("SourceId", "0,size=32", (.uint 32))
  ]

/-- `CueTimeBox`, box_types_iso14496_30.go:76-79 -/
def declCueTimeBox : Decl := [
  ("CueCurrentTime", "0,boxstring", .str)
  ]

/-- `CueIDBox`, box_types_iso14496_30.go:85-88 -/
def declCueIDBox : Decl := [
  ("CueId", "0,boxstring", .str)
  ]

/-- `CueSettingsBox`, box_types_iso14496_30.go:94-97 -/
def declCueSettingsBox : Decl := [
  ("Settings", "0,boxstring", .str)
  ]

/-- `CuePayloadBox`, box_types_iso14496_30.go:103-106 -/
def declCuePayloadBox : Decl := [
  ("CueText", "0,boxstring", .str)
  ]

/-- `VTTEmptyCueBox`, box_types_iso14496_30.go:112-114 -/
def declVTTEmptyCueBox : Decl := [

  ]

/-- `VTTAdditionalTextBox`, box_types_iso14496_30.go:120-123 -/
def declVTTAdditionalTextBox : Decl := [
  ("CueAdditionalText", "0,boxstring", .str)
  ]

/-- `PcmC`, box_types_iso23001_5.go:27-31 -/
def declPcmC : Decl := [
  ("FullBox", "0,extend", fullBoxTy),
  ("FormatFlags", "1,size=8", (.uint 8)),
  ("PCMSampleSize", "1,size=8", (.uint 8))
  ]

/-- `PsshKID`, box_types_iso23001_7.go:28-30 -/
def declPsshKID : Decl := [
  ("KID", "0,size=8,uuid", (.arr 16 (.uint 8)))
  ]

/-- `Pssh`, box_types_iso23001_7.go:19-26 -/
def declPssh : Decl := [
  ("FullBox", "0,extend", fullBoxTy),
  ("SystemID", "1,size=8,uuid", (.arr 16 (.uint 8))),
  ("KIDCount", "2,size=32,nver=0", (.uint 32)),
  ("KIDs", "3,nver=0,len=dynamic,size=128", (.slice tyPsshKID)),
  ("DataSize", "4,size=32", (.int 32)),
  ("Data", "5,size=8,len=dynamic", (.slice (.uint 8)))
  ]

/-- `Tenc`, box_types_iso23001_7.go:77-87 -/
def declTenc : Decl := [
  ("FullBox", "0,extend", fullBoxTy),
  ("Reserved", "1,size=8,dec", (.uint 8)),
  ("DefaultCryptByteBlock", "2,size=4,dec", (.uint 8)),
  ("DefaultSkipByteBlock", "3,size=4,dec", (.uint 8)),
  ("DefaultIsProtected", "4,size=8,dec", (.uint 8)),
  ("DefaultPerSampleIVSize", "5,size=8,dec", (.uint 8)),
  ("DefaultKID", "6,size=8,uuid", (.arr 16 (.uint 8))),
  ("DefaultConstantIVSize", "7,size=8,opt=dynamic,dec", (.uint 8)),
  ("DefaultConstantIV", "8,size=8,opt=dynamic,len=dynamic", (.slice (.uint 8)))
  ]

/-- `Ilst`, box_types_metadata.go:82-84 -/
def declIlst : Decl := [

  ]

/-- `Data`, box_types_metadata.go:112-117 -/
def declData : Decl := [
  ("DataType", "0,size=32", (.uint 32)),
  ("DataLang", "1,size=32", (.uint 32)),
  ("Data", "2,size=8", (.slice (.uint 8)))
  ]

/-- `IlstMetaContainer`, box_types_metadata.go:91-93 -/
def declIlstMetaContainer : Decl := [

  ]

/-- `StringData`, box_types_metadata.go:159-162 -/
def declStringData : Decl := [
  ("Data", "0,size=8", (.slice (.uint 8)))
  ]

/-- `Key`, box_types_metadata.go:231-236 -/
def declKey : Decl := [
  ("KeySize", "0,size=32", (.int 32)),
  ("KeyNamespace", "1,size=8,len=4", (.slice (.uint 8))),
  ("KeyValue", "2,size=8,len=dynamic", (.slice (.uint 8)))
  ]

/-- `Keys`, box_types_metadata.go:207-211 -/
def declKeys : Decl := [
  ("FullBox", "0,extend", fullBoxTy),
  ("EntryCount", "1,size=32", (.int 32)),
  ("Entries", "2,len=dynamic", (.slice tyKey))
  ]

/-- `DOps`, box_types_opus.go:23-34 -/
def declDOps : Decl := [
  ("Version", "0,size=8", (.uint 8)),
  ("OutputChannelCount", "1,size=8", (.uint 8)),
  ("PreSkip", "2,size=16", (.uint 16)),
  ("InputSampleRate", "3,size=32", (.uint 32)),
  ("OutputGain", "4,size=16", (.int 16)),
  ("ChannelMappingFamily", "5,size=8", (.uint 8)),
  ("StreamCount", "6,opt=dynamic,size=8", (.uint 8)),
  ("CoupledCount", "7,opt=dynamic,size=8", (.uint 8)),
  ("ChannelMapping", "8,opt=dynamic,size=8,len=dynamic", (.slice (.uint 8)))
  ]

/-- `VpcC`, box_types_vp.go:29-41 -/
def declVpcC : Decl := [
  ("FullBox", "0,extend", fullBoxTy),
  ("Profile", "1,size=8", (.uint 8)),
  ("Level", "2,size=8", (.uint 8)),
  ("BitDepth", "3,size=4", (.uint 8)),
  ("ChromaSubsampling", "4,size=3", (.uint 8)),
  ("VideoFullRangeFlag", "5,size=1", (.uint 8)),
  ("ColourPrimaries", "6,size=8", (.uint 8)),
  ("TransferCharacteristics", "7,size=8", (.uint 8)),
  ("MatrixCoefficients", "8,size=8", (.uint 8)),
  ("CodecInitializationDataSize", "9,size=16", (.uint 16)),
  ("CodecInitializationData", "10,size=8,len=dynamic", (.slice (.uint 8)))
  ]

/-- `Item`, box_types_metadata.go:176-182 -/
def declItem : Decl := [
  ("Version", "0,size=8", (.uint 8)),
  ("Flags", "1,size=8", (.arr 3 (.uint 8))),
  ("ItemName", "2,size=8,len=4", (.slice (.uint 8))),
  ("Data", "3", tyData)
  ]

/-- every declaration with the layout the codec uses for it -/
def decls : List (Decl × Fields) := [
  (declUdta3GppString, fsUdta3GppString),
  (declSampleEntry, fsSampleEntry),
  (declVisualSampleEntry, fsVisualSampleEntry),
  (declAv1C, fsAv1C),
  (declAudioSampleEntry, fsAudioSampleEntry),
  (declDac3, fsDac3),
  (declBtrt, fsBtrt),
  (declCo64, fsCo64),
  (declColr, fsColr),
  (declCslg, fsCslg),
  (declCttsEntry, fsCttsEntry),
  (declCtts, fsCtts),
  (declDinf, fsDinf),
  (declDref, fsDref),
  (declUrl, fsUrl),
  (declUrn, fsUrn),
  (declEdts, fsEdts),
  (declElstEntry, fsElstEntry),
  (declElst, fsElst),
  (declEmsg, fsEmsg),
  (declFiel, fsFiel),
  (declFreeSpace, fsFreeSpace),
  (declFrma, fsFrma),
  (declCompatibleBrandElem, fsCompatibleBrandElem),
  (declFtyp, fsFtyp),
  (declHdlr, fsHdlr),
  (declHEVCNalu, fsHEVCNalu),
  (declHEVCNaluArray, fsHEVCNaluArray),
  (declHvcC, fsHvcC),
  (declMdat, fsMdat),
  (declMdhd, fsMdhd),
  (declMdia, fsMdia),
  (declMehd, fsMehd),
  (declMeta, fsMeta),
  (declMfhd, fsMfhd),
  (declMfra, fsMfra),
  (declMfro, fsMfro),
  (declMinf, fsMinf),
  (declMoof, fsMoof),
  (declMoov, fsMoov),
  (declMvex, fsMvex),
  (declMvhd, fsMvhd),
  (declSaio, fsSaio),
  (declSaiz, fsSaiz),
  (declAVCParameterSet, fsAVCParameterSet),
  (declAVCDecoderConfiguration, fsAVCDecoderConfiguration),
  (declPixelAspectRatioBox, fsPixelAspectRatioBox),
  (declXMLSubtitleSampleEntry, fsXMLSubtitleSampleEntry),
  (declTextSubtitleSampleEntry, fsTextSubtitleSampleEntry),
  (declSbgpEntry, fsSbgpEntry),
  (declSbgp, fsSbgp),
  (declSchi, fsSchi),
  (declSchm, fsSchm),
  (declSdtpSampleElem, fsSdtpSampleElem),
  (declSdtp, fsSdtp),
  (declRollDistanceWithLength, fsRollDistanceWithLength),
  (declAlternativeStartupEntryOpt, fsAlternativeStartupEntryOpt),
  (declAlternativeStartupEntry, fsAlternativeStartupEntry),
  (declAlternativeStartupEntryL, fsAlternativeStartupEntryL),
  (declVisualRandomAccessEntry, fsVisualRandomAccessEntry),
  (declVisualRandomAccessEntryL, fsVisualRandomAccessEntryL),
  (declTemporalLevelEntry, fsTemporalLevelEntry),
  (declTemporalLevelEntryL, fsTemporalLevelEntryL),
  (declSgpd, fsSgpd),
  (declSidxReference, fsSidxReference),
  (declSidx, fsSidx),
  (declSinf, fsSinf),
  (declSmhd, fsSmhd),
  (declStbl, fsStbl),
  (declStco, fsStco),
  (declStscEntry, fsStscEntry),
  (declStsc, fsStsc),
  (declStsd, fsStsd),
  (declStss, fsStss),
  (declStsz, fsStsz),
  (declSttsEntry, fsSttsEntry),
  (declStts, fsStts),
  (declStyp, fsStyp),
  (declTfdt, fsTfdt),
  (declTfhd, fsTfhd),
  (declTfraEntry, fsTfraEntry),
  (declTfra, fsTfra),
  (declTkhd, fsTkhd),
  (declTraf, fsTraf),
  (declTrak, fsTrak),
  (declTrep, fsTrep),
  (declTrex, fsTrex),
  (declTrunEntry, fsTrunEntry),
  (declTrun, fsTrun),
  (declUdta, fsUdta),
  (declVmhd, fsVmhd),
  (declWave, fsWave),
  (declESDescriptor, fsESDescriptor),
  (declDecoderConfigDescriptor, fsDecoderConfigDescriptor),
  (declDescriptor, fsDescriptor),
  (declEsds, fsEsds),
  (declWebVTTConfigurationBox, fsWebVTTConfigurationBox),
  (declWebVTTSourceLabelBox, fsWebVTTSourceLabelBox),
  (declWVTTSampleEntry, fsWVTTSampleEntry),
  (declVTTCueBox, fsVTTCueBox),
  (declCueSourceIDBox, fsCueSourceIDBox),
  (declCueTimeBox, fsCueTimeBox),
  (declCueIDBox, fsCueIDBox),
  (declCueSettingsBox, fsCueSettingsBox),
  (declCuePayloadBox, fsCuePayloadBox),
  (declVTTEmptyCueBox, fsVTTEmptyCueBox),
  (declVTTAdditionalTextBox, fsVTTAdditionalTextBox),
  (declPcmC, fsPcmC),
  (declPsshKID, fsPsshKID),
  (declPssh, fsPssh),
  (declTenc, fsTenc),
  (declIlst, fsIlst),
  (declData, fsData),
  (declIlstMetaContainer, fsIlstMetaContainer),
  (declStringData, fsStringData),
  (declKey, fsKey),
  (declKeys, fsKeys),
  (declDOps, fsDOps),
  (declVpcC, fsVpcC),
  (declItem, fsItem)
  ]

end Mp4.Tag
