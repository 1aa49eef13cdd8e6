import Verif.Spec.Forest
import Verif.Spec.Writer
import Verif.Model.Edit

/-!
# What `mp4tool edit` should write
-/

namespace Mp4

/-- The bytes of a box. -/
def boxBytes (d : Bytes) (bi : BoxInfo) : Bytes := (d.drop bi.offset).take bi.size

/-- The fields of a box, which take `n` bytes. -/
def fieldBytes (d : Bytes) (bi : BoxInfo) (n : Nat) : Bytes := (d.drop (bi.offset + bi.headerSize)).take n

/-- The fields to be written: those of the file; if a time is given, a `tfdt` box has it behind the four bytes for version and flags, in as many bytes
as there were. -/
def newFields (d : Bytes) (time : Option Nat) (bi : BoxInfo) (n : Nat) : Bytes :=
  match time with
  | none => fieldBytes d bi n
  | some t =>
    if bi.type = ⟨0x74, 0x66, 0x64, 0x74⟩ then (fieldBytes d bi n).take 4 ++ Form.bigEndian (n - 4) t else fieldBytes d bi n

namespace Forest

/-- The file without the boxes of the types to be dropped.  A leaf and an `mdat` box are taken as they are.  The other boxes
have a header of the form that they had, with the new size. -/
def edited (d : Bytes) (drop : BoxType → Prop) [DecidablePred drop] (fields : BoxInfo → Nat → Bytes) : Forest → Bytes
  | nil => []
  | leaf bi rest => (if drop bi.type then [] else boxBytes d bi) ++ rest.edited d drop fields
  | node bi n kids rest =>
    let body := fields bi n ++ kids.edited d drop fields
    (if drop bi.type then []
     else if bi.type = ⟨0x6d, 0x64, 0x61, 0x74⟩ then boxBytes d bi
     else (Form.of bi).header bi.type ((Form.of bi).len + body.length) ++ body) ++ rest.edited d drop fields

/-- The fields of the box are encoded as `Marshal` would do it: it writes what was decoded as it is in the file. -/
def Canonical (d : Bytes) (bi : BoxInfo) (n : Nat) : Prop :=
  ∀ box p, BoxMap.std.unmarshalAny d bi.type (bi.size - bi.headerSize) bi.ctx (bi.offset + bi.headerSize) = (.ok (box, n), p) →
    marshalBox box.bd memSink bi.ctx box.sv [] = (.ok n, fieldBytes d bi n)

/-- Every box that is not dropped is of an unknown type, or an `mdat` box, or its fields can be decoded and are canonical. -/
def Editable (d : Bytes) (drop : BoxType → Prop) : Forest → Prop
  | nil => True
  | leaf bi rest =>
    (¬ drop bi.type → bi.type = ⟨0x6d, 0x64, 0x61, 0x74⟩ ∨ BoxMap.std.isSupported bi.type bi.ctx = false) ∧ rest.Editable d drop
  | node bi n kids rest =>
    (¬ drop bi.type → bi.type ≠ ⟨0x6d, 0x64, 0x61, 0x74⟩ → Canonical d bi n ∧ kids.Editable d drop) ∧ rest.Editable d drop

/-- The number of bytes of the row. -/
def bytes : Forest → Nat
  | nil => 0
  | leaf bi rest => bi.size + rest.bytes
  | node bi _ _ rest => bi.size + rest.bytes

/-- No box ends with bytes that do not belong to a child. -/
def Filled : Forest → Prop
  | nil => True
  | leaf _ rest => rest.Filled
  | node bi n kids rest => bi.headerSize + n + kids.bytes = bi.size ∧ kids.Filled ∧ rest.Filled

end Forest

/-- The option `-drop`: names, with commas between them. -/
def joinComma : List Bytes → Bytes
  | [] => []
  | [a] => a
  | a :: b :: l => a ++ 0x2c#8 :: joinComma (b :: l)

end Mp4
