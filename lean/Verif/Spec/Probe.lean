import Verif.Model.Probe
import Verif.Spec.Extract

/-!
# What a summary of a file should say
-/

namespace Mp4.Props

open Mp4

/-- The value of position `i` in a run-length table of counts and values. -/
def runAt {α : Type} : List (Nat × α) → Nat → Option α
  | [], _ => none
  | (n, a) :: l, i => if i < n then some a else runAt l (i - n)

/-- The number of positions of a run-length table. -/
def runTotal {α : Type} (l : List (Nat × α)) : Nat := (l.map (·.1)).sum

/-- The samples per chunk of chunk `j` (counted from 0), by a table of first chunks (counted from 1) and samples per chunk: that of the
last run whose first chunk is at or before it. -/
def lastRun (l : List (Nat × Nat)) (j : Nat) : Option Nat :=
  ((l.filter fun e => 1 ≤ e.1 ∧ e.1 ≤ j + 1).getLast?).map (·.2)

/-- The payload of the last box of the type. -/
def lastPayload (l : List (BoxInfo × BoxVal)) (t : BoxType) : Option SV :=
  ((l.filter fun x => x.1.type == t).getLast?).map (·.2.sv)

/-- The elements of a field of type `[]T` for a struct `T`. -/
def rows (sv : SV) (name : String) : List SV :=
  match sv.get name with
  | some (.slice l) => l.map fun v => match v with | .struct e => e | _ => []
  | _ => []

/-- The elements of a field that is a slice of unsigned numbers. -/
def numbers (sv : SV) (name : String) : List Nat :=
  match sv.get name with
  | some (.slice l) => l.map fun v => match v with | .uint n => n | _ => 0
  | _ => []

/-- Time-to-sample table: count and delta of each run. -/
def sttsTable (stts : SV) : List (Nat × Nat) := (rows stts "Entries").map fun e => (e.uint "SampleCount", e.uint "SampleDelta")

/-- Sample-to-chunk table: first chunk and samples per chunk of each run. -/
def stscTable (stsc : SV) : List (Nat × Nat) := (rows stsc "Entries").map fun e => (e.uint "FirstChunk", e.uint "SamplesPerChunk")

/-- Composition offsets: count and offset of each run; unsigned in version 0, signed in version 1. -/
def cttsTable (ctts : SV) : List (Nat × Int) := (rows ctts "Entries").map fun e => (e.uint "SampleCount",
  match ctts.version with
  | 0 => (e.uint "SampleOffsetV0" : Int)
  | 1 => e.int "SampleOffsetV1"
  | _ => 0)

/-- The types of the boxes at the root. -/
def rootTypes : Forest → List BoxType
  | .nil => []
  | .leaf bi rest => bi.type :: rootTypes rest
  | .node bi _ _ rest => bi.type :: rootTypes rest

/-- The boxes of the file with exactly this path, in file order. -/
def boxesAt (F : Forest) (path : List BoxType) : List BoxInfo :=
  ((F.boxes none []).filter fun x => x.2.1 = path).map (·.2.2)

/-- Two lists have the same length, and elements at the same place are related. -/
def Aligned {α β : Type} (R : α → β → Prop) (l : List α) (l' : List β) : Prop :=
  l.length = l'.length ∧ ∀ (i : Nat) a b, l[i]? = some a → l'[i]? = some b → R a b

/-- The size of a set of samples. -/
def bytesOf (l : List Sample) : Nat := (l.map (·.size)).sum

/-- The duration of a set of samples. -/
def ticksOf (l : List Sample) : Nat := (l.map (·.timeDelta)).sum

/-- The samples from `b` up to (and without) `e`. -/
def window {α : Type} (l : List α) (b e : Nat) : List α := (l.take e).drop b

/-- Bits per second of samples. -/
def bitsPerSecond (l : List Sample) (timescale : Nat) : Nat := 8 * bytesOf l * timescale / ticksOf l

/-- The windows looked at to find the maximum: the samples from `b` up to `e` have at least the duration `T` (or are the last ones),
without the last of them they are shorter, and `b` is the first sample for which that holds. -/
def Examined (l : List Sample) (T b e : Nat) : Prop :=
  b < e ∧ e ≤ l.length ∧ (T ≤ ticksOf (window l b e) ∨ e = l.length) ∧ ticksOf (window l b (e - 1)) < T ∧
    ∀ b' < b, T ≤ ticksOf (window l b' (e - 1))

/-! ## NAL units -/

/-- The NAL units `(length field, unit)` one after the other. -/
def nalBytes (units : List (Bytes × Bytes)) : Bytes := units.flatMap fun u => u.1 ++ u.2

/-- The type of a unit is in the low five bits of its first byte; 5 is an instantaneous decoder refresh. -/
def isIDR (unit : Bytes) : Bool := match unit with
  | h :: _ => h &&& 0x1f#8 == 5#8
  | [] => false

/-- The sample of `size` bytes at `offset` is in the file and consists of these NAL units, each with a length field of `lengthSize`
bytes in front; no unit is empty.  (The size of the sample must not be near 2^32.) -/
structure SampleHolds (d : Bytes) (lengthSize offset size : Nat) (units : List (Bytes × Bytes)) : Prop where
  inFile : offset + size ≤ d.length
  bytes : (d.drop offset).take size = nalBytes units
  small : size + lengthSize + 1 < 2 ^ 32
  fields : ∀ u ∈ units, u.1.length = lengthSize ∧ beNat u.1 = u.2.length ∧ u.2 ≠ []

/-- The samples lie one after the other from `offset` on, and consist of these NAL units. -/
def SamplesHold (d : Bytes) (lengthSize : Nat) : Nat → List Sample → List (List (Bytes × Bytes)) → Prop
  | _, [], [] => True
  | offset, s :: l, units :: us => SampleHolds d lengthSize offset s.size units ∧ SamplesHold d lengthSize (offset + s.size) l us
  | _, _, _ => False

/-- The chunks hold the samples, as many as each of them says (the last ones perhaps fewer), and these consist of these NAL units. -/
def ChunksHold (d : Bytes) (lengthSize : Nat) : List Chunk → List Sample → List (List (Bytes × Bytes)) → Prop
  | [], _, us => us = []
  | c :: cs, samples, us => ∃ us1 us2, us = us1 ++ us2 ∧
      SamplesHold d lengthSize c.dataOffset (samples.take c.samplesPerChunk) us1 ∧
      ChunksHold d lengthSize cs (samples.drop c.samplesPerChunk) us2

end Mp4.Props
