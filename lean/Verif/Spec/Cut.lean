import Verif.Spec.Forest

/-!
# Files of which only the beginning is there
-/

namespace Mp4.Cut

/-- The boxes whose contents the traversal itself reads before it calls the handler: `ftyp` at the root, and `keys`. -/
def NeedsAll (path : List BoxType) (bi : BoxInfo) : Prop := path = [] ∧ bi.type = tFtyp ∨ bi.type = tKeys

/-- No box of the row says that it goes on to the end of the file, and `ftyp` and `keys` have no children. -/
def _root_.Mp4.Forest.Plain (path : List BoxType) : Forest → Prop
  | .nil => True
  | .leaf bi rest => bi.extendToEOF = false ∧ rest.Plain path
  | .node bi _ kids rest => bi.extendToEOF = false ∧ (NeedsAll path bi → kids = .nil) ∧ kids.Plain (path ++ [bi.type]) ∧ rest.Plain path

end Mp4.Cut
