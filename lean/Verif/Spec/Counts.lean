import Verif.Spec.Layout

/-!
# Lists that have exactly the announced number of elements
-/

namespace Mp4.Spec

open Mp4

mutual
/-- Every list that is part of the encoding has as many elements as the box says. -/
def countsV (e : Env) : Ty → Field → Val → Bool
  | .ptr t, fi, v => match v with | .ptr (some x) => countsV e t fi x | _ => true
  | .struct c fs, _, v => match v with | .struct sv => countsFields e c fs sv | _ => true
  | .arr _ t, fi, v => match v with | .arr l => l.all (fun x => countsV e t fi x) | _ => true
  | .slice t, fi, v =>
    match v with
    | .slice l => (fi.length == lengthUnlimited || l.length == fi.length) && l.all (fun x => countsV e t fi x)
    | _ => true
  | _, _, _ => true
/-- The same for the fields of a struct. -/
def countsFields (e : Env) (c : Option Cfo) : Fields → SV → Bool
  | .nil, _ => true
  | .cons f t fs, sv =>
    let cf := c.getD e.cfo
    let csv := if c.isSome then sv else e.root
    let fi := instField cf e.ctx csv f
    (!present cf e.ctx e.root.version e.root.flags csv fi ||
      match sv.get f.name with
      | some v => countsV e t fi v
      | none => true) && countsFields e c fs sv
end

/-! ## counts that are fields -/

/-- A list of a box whose number of elements is given by a field of the box (or of a struct in it). -/
structure CountedList where
  /-- Go type of the box -/
  box : String
  /-- fields that lead from the box to the struct that contains the list (through all elements of lists), each with the condition
  under which the field is part of the encoding -/
  path : List (String × (SV → Bool)) := []
  /-- name of the list -/
  list : String
  /-- name of the count, in the same struct -/
  count : String
  /-- how much the count is larger than the number of elements -/
  extra : Int := 0
  /-- the condition under which the list is part of the encoding -/
  only : SV → Bool := fun _ => true

/-- All structs reached by following the path, as long as the conditions hold. -/
def inside : List (String × (SV → Bool)) → SV → List SV
  | [], sv => [sv]
  | (n, cond) :: path, sv =>
    if cond sv then
      match sv.get n with
      | some (.slice l) => l.flatMap (fun v => match v with | .struct s => inside path s | _ => [])
      | some (.struct s) => inside path s
      | some (.ptr (some (.struct s))) => inside path s
      | _ => []
    else []

/-- the value of a number -/
def number (sv : SV) (n : String) : Int :=
  match sv.get n with
  | some (.uint k) => k
  | some (.int i) => i
  | _ => 0

/-- `sgpd`: the grouping type, as four characters: `alst`, `rap ` or `tele` below -/
def groupedBy (s : List Nat) (sv : SV) : Bool := sv.byteArr "GroupingType" == s

/-- `sgpd`: do the entries have lengths of their own? -/
def ownLengths (sv : SV) : Bool := sv.version == 1 && number sv "DefaultLength" == 0

/-- Every list of the library that has a count, except those of `sgpd` for roll distances
(`RollDistances`, whose count is ignored, and `RollDistancesL`, which cannot be decoded). -/
def countedLists : List CountedList := [
  { box := "Co64", list := "ChunkOffset", count := "EntryCount" },
  { box := "Ctts", list := "Entries", count := "EntryCount" },
  { box := "Elst", list := "Entries", count := "EntryCount" },
  { box := "Saio", list := "OffsetV0", count := "EntryCount", only := fun sv => sv.version == 0 },
  { box := "Saio", list := "OffsetV1", count := "EntryCount", only := fun sv => sv.version != 0 },
  { box := "Saiz", list := "SampleInfoSize", count := "SampleCount",
    only := fun sv => number sv "DefaultSampleInfoSize" == 0 },
  { box := "Sbgp", list := "Entries", count := "EntryCount" },
  { box := "Sidx", list := "References", count := "ReferenceCount" },
  { box := "Stco", list := "ChunkOffset", count := "EntryCount" },
  { box := "Stsc", list := "Entries", count := "EntryCount" },
  { box := "Stss", list := "SampleNumber", count := "EntryCount" },
  { box := "Stsz", list := "EntrySize", count := "SampleCount", only := fun sv => number sv "SampleSize" == 0 },
  { box := "Stts", list := "Entries", count := "EntryCount" },
  { box := "Tfra", list := "Entries", count := "NumberOfEntry" },
  { box := "Trun", list := "Entries", count := "SampleCount" },
  { box := "Pssh", list := "KIDs", count := "KIDCount", only := fun sv => sv.version != 0 },
  { box := "Pssh", list := "Data", count := "DataSize" },
  { box := "Tenc", list := "DefaultConstantIV", count := "DefaultConstantIVSize",
    only := fun sv => number sv "DefaultIsProtected" == 1 && number sv "DefaultPerSampleIVSize" == 0 },
  { box := "Keys", list := "Entries", count := "EntryCount" },
  { box := "Keys", path := [("Entries", fun _ => true)], list := "KeyValue", count := "KeySize", extra := 8 },
  { box := "DOps", list := "ChannelMapping", count := "OutputChannelCount",
    only := fun sv => number sv "ChannelMappingFamily" != 0 },
  { box := "VpcC", list := "CodecInitializationData", count := "CodecInitializationDataSize" },
  { box := "HvcC", list := "NaluArrays", count := "NumOfNaluArrays" },
  { box := "HvcC", path := [("NaluArrays", fun _ => true)], list := "Nalus", count := "NumNalus" },
  { box := "HvcC", path := [("NaluArrays", fun _ => true), ("Nalus", fun _ => true)], list := "NALUnit",
    count := "Length" },
  { box := "AVCDecoderConfiguration", list := "SequenceParameterSets", count := "NumOfSequenceParameterSets" },
  { box := "AVCDecoderConfiguration", list := "PictureParameterSets", count := "NumOfPictureParameterSets" },
  { box := "AVCDecoderConfiguration", list := "SequenceParameterSetsExt", count := "NumOfSequenceParameterSetExt",
    only := fun sv => sv.bool "HighProfileFieldsEnabled" },
  { box := "AVCDecoderConfiguration", path := [("SequenceParameterSets", fun _ => true)], list := "NALUnit",
    count := "Length" },
  { box := "AVCDecoderConfiguration", path := [("PictureParameterSets", fun _ => true)], list := "NALUnit",
    count := "Length" },
  { box := "AVCDecoderConfiguration", path := [("SequenceParameterSetsExt", fun sv => sv.bool "HighProfileFieldsEnabled")],
    list := "NALUnit", count := "Length" },
  { box := "Sgpd", list := "AlternativeStartupEntries", count := "EntryCount",
    only := fun sv => groupedBy [0x61, 0x6c, 0x73, 0x74] sv && !ownLengths sv },
  { box := "Sgpd", list := "AlternativeStartupEntriesL", count := "EntryCount",
    only := fun sv => groupedBy [0x61, 0x6c, 0x73, 0x74] sv && ownLengths sv },
  { box := "Sgpd", list := "VisualRandomAccessEntries", count := "EntryCount",
    only := fun sv => groupedBy [0x72, 0x61, 0x70, 0x20] sv && !ownLengths sv },
  { box := "Sgpd", list := "VisualRandomAccessEntriesL", count := "EntryCount",
    only := fun sv => groupedBy [0x72, 0x61, 0x70, 0x20] sv && ownLengths sv },
  { box := "Sgpd", list := "TemporalLevelEntries", count := "EntryCount",
    only := fun sv => groupedBy [0x74, 0x65, 0x6c, 0x65] sv && !ownLengths sv },
  { box := "Sgpd", list := "TemporalLevelEntriesL", count := "EntryCount",
    only := fun sv => groupedBy [0x74, 0x65, 0x6c, 0x65] sv && ownLengths sv },
  { box := "Sgpd", path := [("AlternativeStartupEntries", fun sv => groupedBy [0x61, 0x6c, 0x73, 0x74] sv && !ownLengths sv)],
    list := "SampleOffset", count := "RollCount" },
  { box := "Sgpd", path := [("AlternativeStartupEntriesL", fun sv => groupedBy [0x61, 0x6c, 0x73, 0x74] sv && ownLengths sv),
      ("AlternativeStartupEntry", fun _ => true)], list := "SampleOffset", count := "RollCount" },
  { box := "Esds", path := [("Descriptors", fun _ => true)], list := "Data", count := "Size",
    only := fun sv => number sv "Tag" != 3 && number sv "Tag" != 4 },
  { box := "Esds", path := [("Descriptors", fun _ => true), ("ESDescriptor", fun sv => number sv "Tag" == 3)],
    list := "URLString", count := "URLLength", only := fun sv => sv.bool "UrlFlag" }
]

end Mp4.Spec
