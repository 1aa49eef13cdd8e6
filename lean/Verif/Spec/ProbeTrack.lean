import Verif.Spec.Probe

/-!
# What the metadata of a track and a segment should say
-/

namespace Mp4.Props

open Mp4

/-- A four-character code. -/
def fourcc (s : String) : BoxType := match s.toList with
  | [a, b, c, e] => ⟨BitVec.ofNat 8 a.toNat, BitVec.ofNat 8 b.toNat, BitVec.ofNat 8 c.toNat, BitVec.ofNat 8 e.toNat⟩
  | _ => ⟨0, 0, 0, 0⟩

/-- The last box of one of the types. -/
def lastOf (l : List (BoxInfo × BoxVal)) (ts : List BoxType) : Option (BoxInfo × BoxVal) :=
  (l.filter fun x => decide (x.1.type ∈ ts)).getLast?

/-- The boxes below a `trak` box that matter for the summary. -/
def trakWanted : List (List String) := [["tkhd"], ["edts", "elst"], ["mdia", "mdhd"],
  ["mdia", "minf", "stbl", "stsd", "avc1"], ["mdia", "minf", "stbl", "stsd", "avc1", "avcC"],
  ["mdia", "minf", "stbl", "stsd", "encv"], ["mdia", "minf", "stbl", "stsd", "encv", "avcC"],
  ["mdia", "minf", "stbl", "stsd", "mp4a"], ["mdia", "minf", "stbl", "stsd", "mp4a", "esds"],
  ["mdia", "minf", "stbl", "stsd", "mp4a", "wave", "esds"],
  ["mdia", "minf", "stbl", "stsd", "enca"], ["mdia", "minf", "stbl", "stsd", "enca", "esds"],
  ["mdia", "minf", "stbl", "stco"], ["mdia", "minf", "stbl", "co64"], ["mdia", "minf", "stbl", "stts"],
  ["mdia", "minf", "stbl", "ctts"], ["mdia", "minf", "stbl", "stsc"], ["mdia", "minf", "stbl", "stsz"]]

/-- The boxes below a `moof` box that matter for the summary. -/
def moofWanted : List (List String) := [["traf", "tfhd"], ["traf", "tfdt"], ["traf", "trun"]]

/-- The edit list: media time and duration of each entry, of 32 bits in version 0, of 64 bits in version 1. -/
def elstTable (elst : SV) : List EditListEntry := (rows elst "Entries").map fun e => match elst.version with
  | 0 => ⟨e.int "MediaTimeV0", e.uint "SegmentDurationV0"⟩
  | 1 => ⟨e.int "MediaTimeV1", e.uint "SegmentDurationV1"⟩
  | _ => ⟨0, 0⟩

/-- The codec told by the type of a sample entry. -/
def codecOf : Option BoxType → Codec
  | none => .unknown
  | some t => if t = fourcc "avc1" ∨ t = fourcc "encv" then .avc1 else .mp4a

/-! ## AudioSpecificConfig (ISO/IEC 14496-3, 1.6.2.1) -/

/-- An audio object type: 5 bits, or the escape value 31 and 6 further bits. -/
def aotBits (n : Nat) : List Bool := if n < 31 then natBits 5 n else natBits 5 31 ++ natBits 6 (n - 32)

/-- A sampling frequency: an index, or the escape value 15 and the frequency itself. -/
def rateBits (index frequency : Nat) : List Bool := natBits 4 index ++ if index = 15 then natBits 24 frequency else []

/-- The start of every configuration: audio object type, sampling frequency, channel configuration. -/
structure AacStart where
  aot : Nat
  index : Nat
  frequency : Nat
  channels : Nat

/-- The numbers fit their fields (31 is the escape value, so it is not an audio object type). -/
structure AacStart.WF (c : AacStart) : Prop where
  aot : c.aot ≠ 31 ∧ c.aot < 96
  index : c.index < 16
  channels : c.channels < 16

/-- its bits -/
def AacStart.bits (c : AacStart) : List Bool := aotBits c.aot ++ rateBits c.index c.frequency ++ natBits 4 c.channels

/-- Backward compatible signalling: is there spectral band replication (then with its sampling frequency), and, if anything is said
about it, parametric stereo? -/
structure AacExt where
  sbr : Bool
  index : Nat
  frequency : Nat
  ps : Option Bool

/-- parametric stereo: sync word 0x548, flag -/
def AacExt.psBits (e : AacExt) : List Bool := match e.ps with
  | some b => natBits 11 0x548 ++ [b]
  | none => []

/-- spectral band replication: flag, sampling frequency, what follows -/
def AacExt.sbrBits (e : AacExt) : List Bool := if e.sbr then true :: (rateBits e.index e.frequency ++ e.psBits) else [false]

/-- its bits: sync word 0x2b7, audio object type 5, what follows -/
def AacExt.bits (e : AacExt) : List Bool := natBits 11 0x2b7 ++ aotBits 5 ++ e.sbrBits

/-- The audio object type of the whole: 29 with parametric stereo, 5 with spectral band replication, otherwise that of the start. -/
def AacExt.profile (e : AacExt) (aot : Nat) : Nat := if e.sbr then (if e.ps = some true then 29 else 5) else aot

/-! ## Fragments -/

/-- The durations of the samples of a run: the run has them, or all have the default duration of the fragment. -/
def runDurations (tfhd trun : SV) : List Nat :=
  if trun.flags.testBit 8 then (rows trun "Entries").map (·.uint "SampleDuration")
  else List.replicate (trun.uint "SampleCount") (tfhd.uint "DefaultSampleDuration")

/-- The sizes of the samples of a run: the run has them, or all have the default size of the fragment. -/
def runSizes (tfhd trun : SV) : List Nat :=
  if trun.flags.testBit 9 then (rows trun "Entries").map (·.uint "SampleSize")
  else List.replicate (trun.uint "SampleCount") (tfhd.uint "DefaultSampleSize")

/-- The durations of the entries of a run. -/
def entryDurations (tfhd trun : SV) : List Nat :=
  (rows trun "Entries").map fun e => if trun.flags.testBit 8 then e.uint "SampleDuration" else tfhd.uint "DefaultSampleDuration"

/-- The composition offsets of the entries of a run: unsigned in version 0, signed in version 1. -/
def runOffsets (trun : SV) : List Int := (rows trun "Entries").map fun e => match trun.version with
  | 0 => (e.uint "SampleCompositionTimeOffsetV0" : Int)
  | 1 => e.int "SampleCompositionTimeOffsetV1"
  | _ => 0

/-- The composition time of each sample, counted from the decoding time of the first: the durations of the samples before it, and its
offset. -/
def compositionTimes (durations : List Nat) (offsets : List Int) : List Int :=
  offsets.mapIdx fun i o => ((durations.take i).sum : Int) + o

end Mp4.Props
