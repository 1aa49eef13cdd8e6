import Verif.Model.Unmarshal

/-!
# The accessor methods of the box types, box_types_iso14496_12.go

`none` is a panic (an index out of range).  Conversions to wider integers keep the value.  The fractional accessors
(`GetRate`, `GetWidth`, `GetHeight`, `GetSampleRate`, `GetBalance`) divide a 16- or 32-bit integer by a power of two in floating
point; here they are the numerator.  `Verif/Model/AccessorsMore.lean` has the division.
-/

namespace Mp4.Acc

open Mp4

/-- the element of a list of structs at an index -/
def entry (sv : SV) (name : String) (i : Int) : Option SV :=
  if i < 0 then none
  else match sv.get name with
    | some (.slice l) =>
      match l[i.toNat]? with
      | some (.struct e) => some e
      | _ => none
    | _ => none

/-- the element of a list of unsigned integers at an index -/
def elem (sv : SV) (name : String) (i : Int) : Option Nat :=
  if i < 0 then none
  else match sv.get name with
    | some (.slice l) =>
      match l[i.toNat]? with
      | some (.uint n) => some n
      | _ => none
    | _ => none

/-- `switch box.GetVersion() { case 0: return uint64(box.XV0); case 1: return box.XV1; default: return 0 }` -/
def uintOf (sv : SV) (v0 v1 : String) : Nat :=
  if sv.version = 0 then sv.uint v0 else if sv.version = 1 then sv.uint v1 else 0

/-- the same for signed fields -/
def intOf (sv : SV) (v0 v1 : String) : Int :=
  if sv.version = 0 then sv.int v0 else if sv.version = 1 then sv.int v1 else 0

/-- `Cslg.GetCompositionToDTSShift`, box_types_iso14496_12.go:134-143 -/
def cslgCompositionToDTSShift (sv : SV) : Int := intOf sv "CompositionToDTSShiftV0" "CompositionToDTSShiftV1"
/-- `Cslg.GetLeastDecodeToDisplayDelta`, box_types_iso14496_12.go:145-154 -/
def cslgLeastDecodeToDisplayDelta (sv : SV) : Int := intOf sv "LeastDecodeToDisplayDeltaV0" "LeastDecodeToDisplayDeltaV1"
/-- `Cslg.GetGreatestDecodeToDisplayDelta`, box_types_iso14496_12.go:156-165 -/
def cslgGreatestDecodeToDisplayDelta (sv : SV) : Int := intOf sv "GreatestDecodeToDisplayDeltaV0" "GreatestDecodeToDisplayDeltaV1"
/-- `Cslg.GetCompositionStartTime`, box_types_iso14496_12.go:167-176 -/
def cslgCompositionStartTime (sv : SV) : Int := intOf sv "CompositionStartTimeV0" "CompositionStartTimeV1"
/-- `Cslg.GetCompositionEndTime`, box_types_iso14496_12.go:178-187 -/
def cslgCompositionEndTime (sv : SV) : Int := intOf sv "CompositionEndTimeV0" "CompositionEndTimeV1"

/-- `Ctts.GetSampleOffset`, box_types_iso14496_12.go:223-232 -/
def cttsSampleOffset (sv : SV) (i : Int) : Option Int :=
  if sv.version = 0 then (entry sv "Entries" i).map fun e => (e.uint "SampleOffsetV0" : Int)
  else if sv.version = 1 then (entry sv "Entries" i).map fun e => e.int "SampleOffsetV1"
  else some 0

/-- `Elst.GetSegmentDuration`, box_types_iso14496_12.go:376-385 -/
def elstSegmentDuration (sv : SV) (i : Int) : Option Nat :=
  if sv.version = 0 then (entry sv "Entries" i).map fun e => e.uint "SegmentDurationV0"
  else if sv.version = 1 then (entry sv "Entries" i).map fun e => e.uint "SegmentDurationV1"
  else some 0

/-- `Elst.GetMediaTime`, box_types_iso14496_12.go:387-396 -/
def elstMediaTime (sv : SV) (i : Int) : Option Int :=
  if sv.version = 0 then (entry sv "Entries" i).map fun e => e.int "MediaTimeV0"
  else if sv.version = 1 then (entry sv "Entries" i).map fun e => e.int "MediaTimeV1"
  else some 0

/-- `Mdhd.GetCreationTime`, box_types_iso14496_12.go:796-805 -/
def mdhdCreationTime (sv : SV) : Nat := uintOf sv "CreationTimeV0" "CreationTimeV1"
/-- `Mdhd.GetModificationTime`, box_types_iso14496_12.go:807-816 -/
def mdhdModificationTime (sv : SV) : Nat := uintOf sv "ModificationTimeV0" "ModificationTimeV1"
/-- `Mdhd.GetDuration`, box_types_iso14496_12.go:818-827 -/
def mdhdDuration (sv : SV) : Nat := uintOf sv "DurationV0" "DurationV1"

/-- `Mehd.GetFragmentDuration`, box_types_iso14496_12.go:867-876 -/
def mehdFragmentDuration (sv : SV) : Nat := uintOf sv "FragmentDurationV0" "FragmentDurationV1"

/-- `Mvhd.GetCreationTime`, box_types_iso14496_12.go:1083-1092 -/
def mvhdCreationTime (sv : SV) : Nat := uintOf sv "CreationTimeV0" "CreationTimeV1"
/-- `Mvhd.GetModificationTime`, box_types_iso14496_12.go:1094-1103 -/
def mvhdModificationTime (sv : SV) : Nat := uintOf sv "ModificationTimeV0" "ModificationTimeV1"
/-- `Mvhd.GetDuration`, box_types_iso14496_12.go:1105-1114 -/
def mvhdDuration (sv : SV) : Nat := uintOf sv "DurationV0" "DurationV1"
/-- `Mvhd.GetRate` times 2^16, box_types_iso14496_12.go:1117-1119 -/
def mvhdRate16 (sv : SV) : Int := sv.int "Rate"
/-- `Mvhd.GetRateInt`, box_types_iso14496_12.go:1122-1124: an arithmetic shift, cut to 16 bits -/
def mvhdRateInt (sv : SV) : Int := toSigned 16 ((sv.int "Rate" / 65536) % 65536).toNat

/-- `Saio.GetOffset`, box_types_iso14496_12.go:1155-1164 -/
def saioOffset (sv : SV) (i : Int) : Option Nat :=
  if sv.version = 0 then elem sv "OffsetV0" i
  else if sv.version = 1 then elem sv "OffsetV1" i
  else some 0

/-- `AudioSampleEntry.GetSampleRate` times 2^16, box_types_iso14496_12.go:1311-1313 -/
def audioSampleRate16 (sv : SV) : Nat := sv.uint "SampleRate"
/-- `AudioSampleEntry.GetSampleRateInt`, box_types_iso14496_12.go:1315-1317 -/
def audioSampleRateInt (sv : SV) : Nat := sv.uint "SampleRate" / 65536 % 65536

/-- `Sidx.GetEarliestPresentationTime`, box_types_iso14496_12.go:1725-1734 -/
def sidxEarliestPresentationTime (sv : SV) : Nat := uintOf sv "EarliestPresentationTimeV0" "EarliestPresentationTimeV1"
/-- `Sidx.GetFirstOffset`, box_types_iso14496_12.go:1736-1745 -/
def sidxFirstOffset (sv : SV) : Nat := uintOf sv "FirstOffsetV0" "FirstOffsetV1"

/-- `Smhd.GetBalance` times 2^8, box_types_iso14496_12.go:1792-1794 -/
def smhdBalance8 (sv : SV) : Int := sv.int "Balance"
/-- `Smhd.GetBalanceInt`, box_types_iso14496_12.go:1797-1799 -/
def smhdBalanceInt (sv : SV) : Int := toSigned 8 ((sv.int "Balance" / 256) % 256).toNat

/-- `Tfdt.GetBaseMediaDecodeTime`, box_types_iso14496_12.go:2036-2045 -/
def tfdtBaseMediaDecodeTime (sv : SV) : Nat := uintOf sv "BaseMediaDecodeTimeV0" "BaseMediaDecodeTimeV1"

/-- `Tfra.GetTime`, box_types_iso14496_12.go:2157-2166 -/
def tfraTime (sv : SV) (i : Int) : Option Nat :=
  if sv.version = 0 then (entry sv "Entries" i).map fun e => e.uint "TimeV0"
  else if sv.version = 1 then (entry sv "Entries" i).map fun e => e.uint "TimeV1"
  else some 0

/-- `Tfra.GetMoofOffset`, box_types_iso14496_12.go:2168-2177 -/
def tfraMoofOffset (sv : SV) (i : Int) : Option Nat :=
  if sv.version = 0 then (entry sv "Entries" i).map fun e => e.uint "MoofOffsetV0"
  else if sv.version = 1 then (entry sv "Entries" i).map fun e => e.uint "MoofOffsetV1"
  else some 0

/-- `Tkhd.GetCreationTime`, box_types_iso14496_12.go:2226-2235 -/
def tkhdCreationTime (sv : SV) : Nat := uintOf sv "CreationTimeV0" "CreationTimeV1"
/-- `Tkhd.GetModificationTime`, box_types_iso14496_12.go:2237-2246 -/
def tkhdModificationTime (sv : SV) : Nat := uintOf sv "ModificationTimeV0" "ModificationTimeV1"
/-- `Tkhd.GetDuration`, box_types_iso14496_12.go:2248-2257 -/
def tkhdDuration (sv : SV) : Nat := uintOf sv "DurationV0" "DurationV1"
/-- `Tkhd.GetWidth` times 2^16, box_types_iso14496_12.go:2260-2262 -/
def tkhdWidth16 (sv : SV) : Nat := sv.uint "Width"
/-- `Tkhd.GetWidthInt`, box_types_iso14496_12.go:2265-2267 -/
def tkhdWidthInt (sv : SV) : Nat := sv.uint "Width" / 65536 % 65536
/-- `Tkhd.GetHeight` times 2^16, box_types_iso14496_12.go:2270-2272 -/
def tkhdHeight16 (sv : SV) : Nat := sv.uint "Height"
/-- `Tkhd.GetHeightInt`, box_types_iso14496_12.go:2275-2277 -/
def tkhdHeightInt (sv : SV) : Nat := sv.uint "Height" / 65536 % 65536

/-- `Trun.GetSampleCompositionTimeOffset`, box_types_iso14496_12.go:2421-2430 -/
def trunSampleCompositionTimeOffset (sv : SV) (i : Int) : Option Int :=
  if sv.version = 0 then (entry sv "Entries" i).map fun e => (e.uint "SampleCompositionTimeOffsetV0" : Int)
  else if sv.version = 1 then (entry sv "Entries" i).map fun e => e.int "SampleCompositionTimeOffsetV1"
  else some 0

end Mp4.Acc
