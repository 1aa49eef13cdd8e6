import Verif.Model.Types

/-!
# `GetFieldSize`, `GetFieldLength` and `IsOptFieldEnabled` of the box types

`none` is a panic.  The `deps` component is not part of the code; it lists the fields an
answer depends on.
-/

namespace Mp4

/-- `uint(x)` for a signed `x`, on a 64-bit platform -/
def uintOfInt (i : Int) : Nat := (i % (2 ^ 64 : Int)).toNat

/-- A type whose only dynamic field is the list `fld`, whose length is the unsigned field `cnt`;
any other name panics. -/
def Cfo.counted (fld cnt : String) : Cfo where
  length := fun n _ sv => if n = fld then some (sv.uint cnt) else none
  deps := fun n => if n = fld then [cnt] else []

/-- As `Cfo.counted`, with 0 for any other name. -/
def Cfo.counted0 (fld cnt : String) : Cfo where
  length := fun n _ sv => if n = fld then some (sv.uint cnt) else some 0
  deps := fun n => if n = fld then [cnt] else []

/-- box_types_iso14496_12.go:53-59 -/
def cfoCo64 : Cfo := Cfo.counted "ChunkOffset" "EntryCount"
/-- box_types_iso14496_12.go:215-221 -/
def cfoCtts : Cfo := Cfo.counted "Entries" "EntryCount"
/-- box_types_iso14496_12.go:1471-1477 -/
def cfoSbgp : Cfo := Cfo.counted "Entries" "EntryCount"
/-- box_types_iso14496_12.go:1717-1723 -/
def cfoSidx : Cfo := Cfo.counted "References" "ReferenceCount"
/-- box_types_iso14496_12.go:1840-1846 -/
def cfoStco : Cfo := Cfo.counted "ChunkOffset" "EntryCount"
/-- box_types_iso14496_12.go:1875-1881 -/
def cfoStsc : Cfo := Cfo.counted "Entries" "EntryCount"
/-- box_types_iso14496_12.go:1922-1928 -/
def cfoStss : Cfo := Cfo.counted "SampleNumber" "EntryCount"
/-- box_types_iso14496_12.go:1989-1995 -/
def cfoStts : Cfo := Cfo.counted "Entries" "EntryCount"
/-- box_types_iso14496_12.go:683-689 -/
def cfoHEVCNalu : Cfo := Cfo.counted0 "NALUnit" "Length"
/-- box_types_iso14496_12.go:700-706 -/
def cfoHEVCNaluArray : Cfo := Cfo.counted0 "Nalus" "NumNalus"
/-- box_types_iso14496_12.go:740-746 -/
def cfoHvcC : Cfo := Cfo.counted0 "NaluArrays" "NumOfNaluArrays"
/-- box_types_iso14496_12.go:1411-1417 -/
def cfoAVCParameterSet : Cfo := Cfo.counted0 "NALUnit" "Length"
/-- box_types_iso14496_12.go:1667-1673 -/
def cfoAlternativeStartupEntry : Cfo := Cfo.counted0 "SampleOffset" "RollCount"
/-- box_types_vp.go:47-53 -/
def cfoVpcC : Cfo := Cfo.counted0 "CodecInitializationData" "CodecInitializationDataSize"

/-- the bytes of a Go string literal of ASCII characters -/
def ascii (s : String) : List Nat := s.toList.map (·.toNat)

/-- names of the fields of the `nclx` variant -/
def colrNclx : List String :=
  ["ColourType", "ColourPrimaries", "TransferCharacteristics", "MatrixCoefficients",
   "FullRangeFlag", "Reserved"]

/-- box_types_iso14496_12.go:81-101 -/
def cfoColr : Cfo where
  opt := fun n _ sv =>
    if sv.byteArr "ColourType" = ascii "nclx" then colrNclx.contains n
    else if sv.byteArr "ColourType" = ascii "rICC" ∨ sv.byteArr "ColourType" = ascii "prof" then
      n == "Profile"
    else n == "Unknown"
  deps := fun _ => ["ColourType"]

/-- box_types_iso14496_12.go:346-376 -/
def cfoElst : Cfo where
  size := fun n _ sv =>
    if n = "Entries" then
      if sv.version = 0 then some (32 + 32 + 16 + 16)
      else if sv.version = 1 then some (64 + 64 + 16 + 16)
      else none
    else none
  length := fun n _ sv => if n = "Entries" then some (sv.uint "EntryCount") else none
  deps := fun n => if n = "Entries" then ["FullBox", "EntryCount"] else []

/-- box_types_iso14496_12.go:1143-1149 -/
def cfoSaio : Cfo where
  length := fun n _ sv =>
    if n = "OffsetV0" ∨ n = "OffsetV1" then some (sv.uint "EntryCount") else none
  deps := fun n => if n = "OffsetV0" ∨ n = "OffsetV1" then ["EntryCount"] else []

/-- box_types_iso14496_12.go:1183-1197 -/
def cfoSaiz : Cfo where
  opt := fun n _ sv => n == "SampleInfoSize" && sv.uint "DefaultSampleInfoSize" == 0
  length := fun n _ sv => if n = "SampleInfoSize" then some (sv.uint "SampleCount") else none
  deps := fun n => if n = "SampleInfoSize" then ["DefaultSampleInfoSize", "SampleCount"] else []

/-- box_types_iso14496_12.go:1278-1300 -/
def cfoAudioSampleEntry : Cfo where
  opt := fun n ctx sv =>
    if n = "QuickTimeData" then
      ctx.isQuickTimeCompatible &&
        (ctx.underWave || sv.uint "EntryVersion" == 1 || sv.uint "EntryVersion" == 2)
    else !(ctx.isQuickTimeCompatible && ctx.underWave)
  length := fun n ctx sv =>
    if n = "QuickTimeData" ∧ ctx.isQuickTimeCompatible then
      if ctx.underWave then some lengthUnlimited
      else if sv.uint "EntryVersion" = 1 then some 16
      else if sv.uint "EntryVersion" = 2 then some 36
      else some 0
    else some 0
  deps := fun n => if n = "QuickTimeData" then ["EntryVersion"] else []

/-- names of the optional fields of `AVCDecoderConfiguration` -/
def avccOptNames : List String :=
  ["Reserved3", "ChromaFormat", "Reserved4", "BitDepthLumaMinus8", "Reserved5",
   "BitDepthChromaMinus8", "NumOfSequenceParameterSetExt", "SequenceParameterSetsExt"]

/-- box_types_iso14496_12.go:1352-1377 -/
def cfoAVCDecoderConfiguration : Cfo where
  length := fun n _ sv =>
    if n = "SequenceParameterSets" then some (sv.uint "NumOfSequenceParameterSets")
    else if n = "PictureParameterSets" then some (sv.uint "NumOfPictureParameterSets")
    else if n = "SequenceParameterSetsExt" then some (sv.uint "NumOfSequenceParameterSetExt")
    else some 0
  opt := fun n _ sv => avccOptNames.contains n && sv.bool "HighProfileFieldsEnabled"
  deps := fun n =>
    if n = "SequenceParameterSets" then ["NumOfSequenceParameterSets"]
    else if n = "PictureParameterSets" then ["NumOfPictureParameterSets"]
    else if n = "SequenceParameterSetsExt" then
      ["NumOfSequenceParameterSetExt", "HighProfileFieldsEnabled"]
    else if avccOptNames.contains n then ["HighProfileFieldsEnabled"]
    else []

/-- names of the lists of `Sgpd` -/
def sgpdLists : List String :=
  ["RollDistances", "RollDistancesL", "AlternativeStartupEntries", "AlternativeStartupEntriesL",
   "VisualRandomAccessEntries", "VisualRandomAccessEntriesL", "TemporalLevelEntries",
   "TemporalLevelEntriesL"]

/-- box_types_iso14496_12.go:1610-1661; `DefaultLength * 8` is a `uint32` -/
def cfoSgpd : Cfo where
  size := fun n _ sv =>
    if n = "AlternativeStartupEntries" then some (sv.uint "DefaultLength" * 8 % U32) else some 0
  length := fun n _ sv =>
    if sgpdLists.contains n then some (sv.uint "EntryCount") else some 0
  opt := fun n _ sv =>
    let noDefaultLength := sv.version == 1 && sv.uint "DefaultLength" == 0
    let g := sv.byteArr "GroupingType"
    let roll := g == ascii "roll" || g == ascii "prol"
    let alst := g == ascii "alst"
    let rap := g == ascii "rap "
    let tele := g == ascii "tele"
    if n = "RollDistances" then roll && !noDefaultLength
    else if n = "RollDistancesL" then roll && noDefaultLength
    else if n = "AlternativeStartupEntries" then alst && !noDefaultLength
    else if n = "AlternativeStartupEntriesL" then alst && noDefaultLength
    else if n = "VisualRandomAccessEntries" then rap && !noDefaultLength
    else if n = "VisualRandomAccessEntriesL" then rap && noDefaultLength
    else if n = "TemporalLevelEntries" then tele && !noDefaultLength
    else if n = "TemporalLevelEntriesL" then tele && noDefaultLength
    else if n = "Unsupported" then !roll && !alst && !rap && !tele
    else false
  deps := fun n =>
    if sgpdLists.contains n ∨ n = "Unsupported" then
      ["FullBox", "GroupingType", "DefaultLength", "EntryCount"]
    else []

/-- box_types_iso14496_12.go:1675-1682, with `GetFieldLength` promoted from the embedded
`AlternativeStartupEntry` (1667-1673) and never asked -/
def cfoAlternativeStartupEntryL : Cfo where
  size := fun n _ sv =>
    if n = "AlternativeStartupEntry" then some (sv.uint "DescriptionLength" * 8 % U32) else some 0
  length := fun _ _ _ => some 0
  deps := fun n => if n = "AlternativeStartupEntry" then ["DescriptionLength"] else []

/-- box_types_iso14496_12.go:1952-1961 -/
def cfoStsz : Cfo where
  length := fun n _ sv =>
    if n = "EntrySize" then
      if sv.uint "SampleSize" = 0 then some (sv.uint "SampleCount") else some 0
    else none
  deps := fun n => if n = "EntrySize" then ["SampleSize", "SampleCount"] else []

/-- box_types_iso14496_12.go:2119-2155 -/
def cfoTfra : Cfo where
  size := fun n _ sv =>
    let traf := (sv.uint "LengthSizeOfTrafNum" + 1) * 8
    let trun := (sv.uint "LengthSizeOfTrunNum" + 1) * 8
    let sample := (sv.uint "LengthSizeOfSampleNum" + 1) * 8
    if n = "TrafNumber" then some traf
    else if n = "TrunNumber" then some trun
    else if n = "SampleNumber" then some sample
    else if n = "Entries" then
      if sv.version = 0 then some (32 + 32 + traf + trun + sample)
      else if sv.version = 1 then some (64 + 64 + traf + trun + sample)
      else none
    else none
  length := fun n _ sv => if n = "Entries" then some (sv.uint "NumberOfEntry") else none
  deps := fun n =>
    if n = "TrafNumber" then ["LengthSizeOfTrafNum"]
    else if n = "TrunNumber" then ["LengthSizeOfTrunNum"]
    else if n = "SampleNumber" then ["LengthSizeOfSampleNum"]
    else if n = "Entries" then
      ["FullBox", "LengthSizeOfTrafNum", "LengthSizeOfTrunNum", "LengthSizeOfSampleNum",
       "NumberOfEntry"]
    else []

/-- box_types_iso14496_12.go:2390-2419 -/
def cfoTrun : Cfo where
  size := fun n _ sv =>
    if n = "Entries" then
      some ((if sv.flags &&& 0x100 ≠ 0 then 32 else 0) + (if sv.flags &&& 0x200 ≠ 0 then 32 else 0)
        + (if sv.flags &&& 0x400 ≠ 0 then 32 else 0) + (if sv.flags &&& 0x800 ≠ 0 then 32 else 0))
    else none
  length := fun n _ sv => if n = "Entries" then some (sv.uint "SampleCount") else none
  deps := fun n => if n = "Entries" then ["FullBox", "SampleCount"] else []

/-- box_types_iso14496_14.go:43-60 -/
def cfoDescriptor : Cfo where
  length := fun n _ sv => if n = "Data" then some (sv.uint "Size") else none
  opt := fun n _ sv =>
    if sv.int "Tag" = 3 then n == "ESDescriptor"
    else if sv.int "Tag" = 4 then n == "DecoderConfigDescriptor"
    else n == "Data"
  deps := fun _ => ["Tag", "Size"]

/-- box_types_iso14496_14.go:96-115 -/
def cfoESDescriptor : Cfo where
  length := fun n _ sv => if n = "URLString" then some (sv.uint "URLLength") else none
  opt := fun n _ sv =>
    if n = "DependsOnESID" then sv.bool "StreamDependenceFlag"
    else if n = "URLLength" ∨ n = "URLString" then sv.bool "UrlFlag"
    else if n = "OCRESID" then sv.bool "OcrStreamFlag"
    else false
  deps := fun n =>
    if n = "DependsOnESID" then ["StreamDependenceFlag"]
    else if n = "URLLength" then ["UrlFlag"]
    else if n = "URLString" then ["UrlFlag", "URLLength"]
    else if n = "OCRESID" then ["OcrStreamFlag"]
    else []

/-- box_types_iso23001_7.go:33-41 -/
def cfoPssh : Cfo where
  length := fun n _ sv =>
    if n = "KIDs" then some (sv.uint "KIDCount")
    else if n = "Data" then some (uintOfInt (sv.int "DataSize"))
    else none
  deps := fun n => if n = "KIDs" then ["KIDCount"] else if n = "Data" then ["DataSize"] else []

/-- box_types_iso23001_7.go:89-103 -/
def cfoTenc : Cfo where
  opt := fun n _ sv =>
    (n == "DefaultConstantIVSize" || n == "DefaultConstantIV") &&
      (sv.uint "DefaultIsProtected" == 1 && sv.uint "DefaultPerSampleIVSize" == 0)
  length := fun n _ sv =>
    if n = "DefaultConstantIV" then some (sv.uint "DefaultConstantIVSize") else none
  deps := fun n =>
    if n = "DefaultConstantIVSize" then ["DefaultIsProtected", "DefaultPerSampleIVSize"]
    else if n = "DefaultConstantIV" then
      ["DefaultIsProtected", "DefaultPerSampleIVSize", "DefaultConstantIVSize"]
    else []

/-- box_types_metadata.go:219-225 -/
def cfoKeys : Cfo where
  length := fun n _ sv => if n = "Entries" then some (uintOfInt (sv.int "EntryCount")) else none
  deps := fun n => if n = "Entries" then ["EntryCount"] else []

/-- box_types_metadata.go:239-246; `uint(k.KeySize) - 8` wraps around -/
def cfoKey : Cfo where
  length := fun n _ sv =>
    if n = "KeyValue" then some (sub64 (uintOfInt (sv.int "KeySize")) 8) else none
  deps := fun n => if n = "KeyValue" then ["KeySize"] else []

/-- box_types_opus.go:40-54 -/
def cfoDOps : Cfo where
  opt := fun n _ sv =>
    (n == "StreamCount" || n == "CoupledCount" || n == "ChannelMapping") &&
      sv.uint "ChannelMappingFamily" != 0
  length := fun n _ sv =>
    if n = "ChannelMapping" then some (sv.uint "OutputChannelCount") else some 0
  deps := fun n =>
    if n = "StreamCount" ∨ n = "CoupledCount" then ["ChannelMappingFamily"]
    else if n = "ChannelMapping" then ["ChannelMappingFamily", "OutputChannelCount"]
    else []

end Mp4
