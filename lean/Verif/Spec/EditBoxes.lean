import Verif.Spec.WriteRead

/-!
# Editing a row of boxes
-/

namespace Mp4.Boxes

/-- The fields of a `tfdt` box with another decode time, in the field of the version of the box. -/
def setTime (t : Nat) (sv : SV) : SV :=
  if sv.version = 0 then sv.set "BaseMediaDecodeTimeV0" (.uint (t % 2 ^ 32)) else sv.set "BaseMediaDecodeTimeV1" (.uint t)

/-- The new fields of a box. -/
def newValue (time : Option Nat) (t : BoxType) (sv : SV) : SV :=
  match time with
  | some x => if t = ⟨0x74, 0x66, 0x64, 0x74⟩ then setTime x sv else sv
  | none => sv

/-- The row without the boxes of the types to be dropped, at every level, and with the new decode time in `tfdt` boxes.  `mdat` boxes are
left as they are. -/
def edit (drop : BoxType → Prop) [DecidablePred drop] (time : Option Nat) : Boxes → Boxes
  | nil => nil
  | raw start p rest => if drop start.type then rest.edit drop time else raw start p (rest.edit drop time)
  | box start bd sv kids rest =>
    if drop start.type then rest.edit drop time
    else if start.type = ⟨0x6d, 0x64, 0x61, 0x74⟩ then box start bd sv kids (rest.edit drop time)
    else box start bd (newValue time start.type sv) (kids.edit drop time) (rest.edit drop time)

/-- Boxes about whose payloads nothing is known are of unknown types, or `mdat` boxes, or are dropped. -/
def Opaque (drop : BoxType → Prop) : Boxes → Bool → Ctx → Prop
  | nil, _, _ => True
  | raw start _ rest, isRoot, ctx =>
    (¬ drop start.type → start.type = ⟨0x6d, 0x64, 0x61, 0x74⟩ ∨ BoxMap.std.isSupported start.type ctx = false) ∧ rest.Opaque drop isRoot ctx
  | box start _ sv kids rest, isRoot, ctx =>
    kids.Opaque drop false (kidsCtx isRoot ctx start sv) ∧ rest.Opaque drop isRoot (restCtx isRoot ctx start sv)

/-- number of boxes -/
def count : Boxes → Nat
  | nil => 0
  | raw _ _ rest => 1 + rest.count
  | box _ _ _ kids rest => 1 + kids.count + rest.count

/-- the types of the boxes, at every level -/
def types : Boxes → List BoxType
  | nil => []
  | raw start _ rest => start.type :: rest.types
  | box start _ _ kids rest => start.type :: (kids.types ++ rest.types)

end Mp4.Boxes
