import Verif.Spec.WriteRead
import Verif.Props.ToolDump

/-!
# What `mp4tool dump` is to print of boxes that were written
-/

namespace Mp4.DumpBoxes

open Mp4 Mp4.Tool Mp4.Str Mp4.Props

/-- Boxes of the types of which the tool does not show the contents unless asked, and which it then does not enter (`mdat`, `free`, `skip` and the tables), contain
no boxes.  (With `-a` this is about `mdat`, `free` and `skip` only.) -/
def Bare (cfg : DumpCfg) : Boxes → Prop
  | .nil => True
  | .raw _ _ rest => Bare cfg rest
  | .box start _ _ kids rest =>
    (¬ Full cfg start.type → Bulky start.type ∨ start.type.bytes ∈ tableTypes.map (fun s => s.toList.map fun c => BitVec.ofNat 8 c.toNat) → kids = .nil) ∧
    Bare cfg kids ∧ Bare cfg rest

/-- A line: two blanks for each level, the name in brackets, a remark if the type is unknown, the offset if asked for, the size, and behind that a text about
which `P` says something; it is given the length of what is before. -/
def IsLine (cfg : DumpCfg) (depth : Nat) (known : Bool) (bi : BoxInfo) (P : Nat → Text → Prop) (line : Text) : Prop :=
  ∃ off size rest, IsNumber cfg.hex bi.offset off ∧ IsNumber cfg.hex bi.size size ∧
    let first := List.replicate (2 * depth) 32 ++ lit "[" ++ bi.type.toStr.map (·.toNat) ++ lit "]" ++
      (if known then [] else lit " (unsupported box type)") ++ (if cfg.offset then lit " Offset=" ++ off else []) ++ lit " Size=" ++ size
    line = first ++ rest ∧ P first.length rest

/-- The payload of a box of unknown type, in full if asked for. -/
def SaysData (cfg : DumpCfg) (t : BoxType) (p : Bytes) (text : Text) : Prop :=
  Full cfg t ∧ text = lit " Data=[" ++ hexList p ++ lit "]" ∨ ¬ Full cfg t ∧ text = lit " Data=[...]" ++ hint t

open Classical in
/-- The fields of a box, as `Stringify` renders them, or the remark that they are not shown because the user has not asked for them and the box is one of those that
hold media data or padding, or a large table, or the line would be too long. -/
def SaysFields (cfg : DumpCfg) (bi : BoxInfo) (bd : BoxDef) (sv : SV) (used : Nat) (text : Text) : Prop :=
  if Bulky bi.type ∧ ¬ Full cfg bi.type then text = lit " Data=[...]" ++ hint bi.type
  else if BigTable bi ∧ ¬ Full cfg bi.type then text = lit " ..." ++ hint bi.type
  else ∃ str, stringify cfg.beyond bd sv [] bi.ctx = some str ∧
    if cfg.width < used + str.length + 2 ∧ ¬ Full cfg bi.type then text = lit " ..." ++ hint bi.type
    else text = if str = [] then [] else 32 :: str

/-- The lines about a row of boxes that stands at `pos`, `depth` levels below the root: each box, the boxes in it, the boxes behind it. -/
def Lists (cfg : DumpCfg) : Boxes → Bool → Ctx → (pos depth : Nat) → List Text → Prop
  | .nil, _, _, _, _, lines => lines = []
  | .raw start p rest, isRoot, ctx, pos, depth, lines =>
    let size := (Form.of start).len + p.length
    ∃ line more, lines = line :: more ∧
      IsLine cfg depth false (Boxes.info start pos size ctx) (fun _ => SaysData cfg start.type p) line ∧
      Lists cfg rest isRoot ctx (pos + size) depth more
  | .box start bd sv kids rest, isRoot, ctx, pos, depth, lines =>
    let own := Boxes.ownCtx isRoot ctx start.type sv
    let n := (bitsBytes (Spec.layout bd own sv)).length
    let size := (Form.of start).len + (n + (kids.ser false (Boxes.kidsCtx isRoot ctx start sv)).length)
    ∃ line inner more, lines = line :: (inner ++ more) ∧
      IsLine cfg depth true (Boxes.info start pos size own) (SaysFields cfg (Boxes.info start pos size own) bd sv) line ∧
      Lists cfg kids false (Boxes.kidsCtx isRoot ctx start sv) (pos + (Form.of start).len + n) (depth + 1) inner ∧
      Lists cfg rest isRoot (Boxes.restCtx isRoot ctx start sv) (pos + size) depth more

end Mp4.DumpBoxes
