import Verif.Spec.EditBoxes
import Verif.Spec.Summary

/-!
# What editing does to the summary of a file
-/

namespace Mp4.EditProbe

/-- the type of four ASCII characters -/
def fourCC (s : String) : BoxType :=
  match s.toList.map Char.toNat with
  | [a, b, c, d] => ⟨a, b, c, d⟩
  | _ => ⟨0, 0, 0, 0⟩

/-- The types of box on which the answer of `Probe` depends. -/
def consulted : List BoxType := ["ftyp", "moov", "mvhd", "trak", "moof", "mdat", "tkhd", "edts", "elst", "mdia", "mdhd", "minf", "stbl", "stsd", "avc1",
  "avcC", "encv", "mp4a", "wave", "esds", "enca", "stco", "co64", "stts", "ctts", "stsc", "stsz", "traf", "tfhd", "tfdt", "trun"].map fourCC

/-- The children of the `moof` boxes at the root, in order. -/
def fragments : Boxes → List Boxes
  | .nil => []
  | .raw _ _ rest => fragments rest
  | .box start _ _ kids rest => if start.type = fourCC "moof" then kids :: fragments rest else fragments rest

/-- The last `tfdt` in a `traf` of the fragment. -/
def lastTime (kids : Boxes) : Option BoxVal :=
  (((kids.inside []).filter fun x => x.1 == [fourCC "traf", fourCC "tfdt"]).getLast?).map (·.2)

/-- The decode time of the segment after the edit: the new time, cut to 32 bits if the `tfdt` box has version 0; `old` if no time was given or there is
no `tfdt`. -/
def newTime (time : Option Nat) (kids : Boxes) (old : Nat) : Nat :=
  match time, lastTime kids with
  | some t, some v => if v.sv.version = 0 then t % 2 ^ 32 else t
  | _, _ => old

/-- The segments of the fragments before and after: they differ in the offset of the `moof` box and the decode time. -/
def Retimed (time : Option Nat) : List Boxes → List Segment → List Segment → Prop
  | [], [], [] => True
  | kids :: ks, a :: as, b :: bs =>
    b = { a with moofOffset := b.moofOffset, baseMediaDecodeTime := newTime time kids a.baseMediaDecodeTime } ∧ Retimed time ks as bs
  | _, _, _ => False

/-- Two reports that are the same apart from the segments, which are as `Retimed` says. -/
def SameReport (time : Option Nat) (ks : List Boxes) (a b : ProbeInfo) : Prop :=
  b = { a with segments := b.segments } ∧ Retimed time ks a.segments b.segments

/-- Two outcomes: reports with that relation, or the same failure. -/
def SameOutcome (time : Option Nat) (ks : List Boxes) : Out ProbeInfo → Out ProbeInfo → Prop
  | .ok a, .ok b => SameReport time ks a b
  | .err e, .err e' => e = e'
  | .panic, .panic => True
  | .hang, .hang => True
  | _, _ => False

end Mp4.EditProbe
