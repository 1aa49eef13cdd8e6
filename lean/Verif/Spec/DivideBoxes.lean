import Verif.Spec.Divide
import Verif.Spec.Summary

/-!
# What `mp4tool divide` makes of a row of boxes

As boxes, not as bytes: which boxes each output has.
-/

namespace Mp4.Boxes

open Mp4.Props

/-- The track ID in the only box at this path below. -/
def idAt (kids : Boxes) (q : List String) : Option Nat :=
  match kids.atPaths [q.map fourcc] with
  | [x] => some (x.2.sv.uint "TrackID")
  | _ => none

/-- The initialization segment of a track: the boxes of initialization segments, without the other tracks; `moov` boxes contain the same. -/
def initOf (id : Nat) : Boxes → Boxes
  | nil => nil
  | raw _ _ rest => rest.initOf id
  | box start bd sv kids rest =>
    if start.type = fourcc "moov" then box start bd sv (kids.initOf id) (rest.initOf id)
    else if start.type ∈ initNames.map fourcc ∧ (start.type = fourcc "trak" → kids.idAt ["tkhd"] = some id) then
      box start bd sv kids (rest.initOf id)
    else rest.initOf id

/-- The `mdat` boxes before the next `moof`. -/
def mdats : Boxes → Boxes
  | nil => nil
  | raw _ _ rest => rest.mdats
  | box start bd sv kids rest =>
    if start.type = fourcc "moof" then nil
    else if start.type = fourcc "mdat" then box start bd sv kids rest.mdats
    else rest.mdats

/-- The segments of a track: its `moof` boxes, each with the `mdat` boxes behind it. -/
def segmentsOf (id : Nat) : Boxes → List Boxes
  | nil => []
  | raw _ _ rest => rest.segmentsOf id
  | box start bd sv kids rest =>
    if start.type = fourcc "moof" ∧ kids.idAt ["traf", "tfhd"] = some id then box start bd sv kids rest.mdats :: rest.segmentsOf id
    else rest.segmentsOf id

end Mp4.Boxes

namespace Mp4.Props

/-- Where the parts begin if they are put behind one another, the first at `pos`. -/
def startsFrom : Nat → List Bytes → List Nat
  | _, [] => []
  | pos, b :: l => pos :: startsFrom (pos + b.length) l

/-- The segment without its offset. -/
def offsetless (s : Segment) : Segment := { s with moofOffset := 0 }

end Mp4.Props
