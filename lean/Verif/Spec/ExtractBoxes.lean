import Verif.Spec.WriteRead
import Verif.Props.ToolExtract
import Verif.Spec.Summary

/-!
# What `mp4tool extract` is to print of boxes that were written
-/

namespace Mp4.ExtractBoxes

open Mp4 Mp4.Props

/-- Large boxes of the types that the tool takes for tables contain no boxes. -/
def Bare : Boxes → Prop
  | .nil => True
  | .raw _ _ rest => Bare rest
  | .box start _ _ kids rest =>
    (start.type.bytes ∈ tableTypes.map (fun s => s.toList.map fun c => BitVec.ofNat 8 c.toNat) → kids = .nil) ∧ Bare kids ∧ Bare rest

/-- The boxes of type `t`, one after the other as they are written, wherever they are. -/
def images (t : BoxType) : Boxes → Bool → Ctx → Bytes
  | .nil, _, _ => []
  | .raw start p rest, isRoot, ctx => (if start.type = t then (Boxes.raw start p .nil).ser isRoot ctx else []) ++ images t rest isRoot ctx
  | .box start bd sv kids rest, isRoot, ctx =>
    (if start.type = t then (Boxes.box start bd sv kids .nil).ser isRoot ctx else []) ++ images t kids false (Boxes.kidsCtx isRoot ctx start sv) ++
      images t rest isRoot (Boxes.restCtx isRoot ctx start sv)

/-- No box of type `t` is in the row, at any depth. -/
def Without (t : BoxType) : Boxes → Prop
  | .nil => True
  | .raw start _ rest => start.type ≠ t ∧ Without t rest
  | .box start _ _ kids rest => start.type ≠ t ∧ Without t kids ∧ Without t rest

/-- The row at the root of a file that is not a QuickTime file, without `keys` there, and without boxes of type `t` in other boxes. -/
def TopOnly (t : BoxType) : Boxes → Prop
  | .nil => True
  | .raw _ _ rest => TopOnly t rest
  | .box start _ sv kids rest =>
    start.type ≠ tKeys ∧ ¬ (start.type = tFtyp ∧ (ftypBrands sv).has brandQT = true) ∧ Without t kids ∧ TopOnly t rest

/-- The boxes of type `t` of a row. -/
def sift (t : BoxType) : Boxes → Boxes
  | .nil => .nil
  | .raw start p rest => if start.type = t then .raw start p (sift t rest) else sift t rest
  | .box start bd sv kids rest => if start.type = t then .box start bd sv kids (sift t rest) else sift t rest

/-- Is there one? -/
def has (t : BoxType) : Boxes → Bool
  | .nil => false
  | .raw start _ rest => start.type = t || has t rest
  | .box start _ _ _ rest => start.type = t || has t rest

/-- What is said about the movie and its tracks is as in `i`, the rest as in `j`. -/
def movieOf (i j : ProbeInfo) : ProbeInfo := { j with timescale := i.timescale, duration := i.duration, tracks := i.tracks }

end Mp4.ExtractBoxes
