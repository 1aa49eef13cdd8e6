import Verif.Spec.WriteRead

/-!
# Rows of boxes behind one another, and boxes moved in a file
-/

namespace Mp4

namespace Boxes

/-- The boxes of the first row, then those of the second. -/
def append : Boxes → Boxes → Boxes
  | nil, more => more
  | raw start p rest, more => raw start p (rest.append more)
  | box start bd sv kids rest, more => box start bd sv kids (rest.append more)

/-- The context behind the row: boxes of the row itself may have made the file a QuickTime file, or said how many keys there are. -/
def endCtx : Boxes → Bool → Ctx → Ctx
  | nil, _, ctx => ctx
  | raw _ _ rest, isRoot, ctx => rest.endCtx isRoot ctx
  | box start _ sv _ rest, isRoot, ctx => rest.endCtx isRoot (restCtx isRoot ctx start sv)

/-- Nothing in the row changes how later boxes are read: it has no `ftyp` that names `qt  `, and no `keys` (outside of other boxes). -/
def Neutral : Boxes → Prop
  | nil => True
  | raw _ _ rest => rest.Neutral
  | box start _ sv _ rest =>
    ¬ (start.type = tFtyp ∧ (ftypBrands sv).has brandQT = true) ∧ start.type ≠ tKeys ∧ rest.Neutral

end Boxes

/-- The box `k` bytes later. -/
def BoxInfo.later (k : Nat) (bi : BoxInfo) : BoxInfo := { bi with offset := bi.offset + k }

/-- A call of the handler, with the box and its parent `k` bytes later. -/
def laterCall (k : Nat) (x : Option BoxInfo × List BoxType × BoxInfo) : Option BoxInfo × List BoxType × BoxInfo :=
  (x.1.map (BoxInfo.later k), x.2.1, x.2.2.later k)

end Mp4
