import Verif.Spec.WriteRead
import Verif.Props.ToolPssh

/-!
# What `mp4tool psshdump` is to print of boxes that were written
-/

namespace Mp4.PsshBoxes

open Mp4 Mp4.Tool Mp4.Props

/-- The `pssh` boxes of a row at `pos`: place, bytes and fields. -/
def psshIn : Boxes → Ctx → Nat → List (BoxInfo × Bytes × SV)
  | .nil, _, _ => []
  | .raw start p rest, ctx, pos => psshIn rest ctx (pos + ((Form.of start).len + p.length))
  | .box start bd sv kids rest, ctx, pos =>
    let own := Boxes.ownCtx false ctx start.type sv
    let size := (Form.of start).len + ((bitsBytes (Spec.layout bd own sv)).length + (kids.ser false (Boxes.kidsCtx false ctx start sv)).length)
    (if start.type = tPssh then [(Boxes.info start pos size own, (Boxes.box start bd sv kids .nil).ser false ctx, sv)] else []) ++
      psshIn rest (Boxes.restCtx false ctx start sv) (pos + size)

/-- The `pssh` boxes in the `moov` and `moof` boxes of a row at the root. -/
def psshOf : Boxes → Ctx → Nat → List (BoxInfo × Bytes × SV)
  | .nil, _, _ => []
  | .raw start p rest, ctx, pos => psshOf rest ctx (pos + ((Form.of start).len + p.length))
  | .box start bd sv kids rest, ctx, pos =>
    let n := (bitsBytes (Spec.layout bd (Boxes.ownCtx true ctx start.type sv) sv)).length
    let size := (Form.of start).len + (n + (kids.ser false (Boxes.kidsCtx true ctx start sv)).length)
    (if start.type = tMoov ∨ start.type = tMoof then psshIn kids (Boxes.kidsCtx true ctx start sv) (pos + (Form.of start).len + n) else []) ++
      psshOf rest (Boxes.restCtx true ctx start sv) (pos + size)

/-- The `pssh` boxes hold nothing but fields, and these are as ISO/IEC 23001-7 says. -/
def Proper : Boxes → Prop
  | .nil => True
  | .raw _ _ rest => Proper rest
  | .box start _ sv kids rest => (start.type = tPssh → kids = .nil ∧ ∃ x : PsshBox, x.WF ∧ sv = x.sv) ∧ Proper kids ∧ Proper rest

/-- One entry for each box, numbered from `i` on: place, fields, and a text that stands for the bytes. -/
def Entries : Nat → List (BoxInfo × Bytes × SV) → List PsshEntry → Prop
  | _, [], [] => True
  | i, y :: l, e :: es => (e.index = i ∧ e.offset = y.1.offset ∧ e.size = y.1.size ∧ unbase64 e.base64 = some y.2.1 ∧
      ∃ x : PsshBox, y.2.2 = x.sv ∧ e.version = x.version ∧ e.flags = hexText [BitVec.ofNat 8 x.f0, BitVec.ofNat 8 x.f1, BitVec.ofNat 8 x.f2] ∧
        e.systemId = uuidForm x.system ∧ e.dataSize = x.data.length) ∧ Entries (i + 1) l es
  | _, _, _ => False

end Mp4.PsshBoxes
