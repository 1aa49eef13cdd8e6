import Verif.Model.BoxInfo

/-!
# Descriptions of Go box types, and their values

A box type is described by `Fields`: the tagged fields in the order in which
`buildFieldsStruct` (field.go:64-83) sorts them, each with the tag contents (`Field`)
and the Go type (`Ty`).  Values are untyped trees (`Val`).
-/

namespace Mp4

/-- Values of Go fields. -/
inductive Val where
  | uint (n : Nat)
  | int (i : Int)
  | bool (b : Bool)
  | str (s : Bytes)
  /-- pointer, `none` = nil -/
  | ptr (v : Option Val)
  | arr (l : List Val)
  | slice (l : List Val)
  /-- struct: tagged fields by name -/
  | struct (l : List (String × Val))
  deriving Repr, Inhabited

/-- The tagged fields of a struct value, by name. -/
abbrev SV := List (String × Val)

namespace SV

/-- value of a field -/
def get (sv : SV) (name : String) : Option Val :=
  match sv with
  | [] => none
  | (n, v) :: rest => if n = name then some v else get rest name

/-- replace the value of a field -/
def set (sv : SV) (name : String) (v : Val) : SV :=
  match sv with
  | [] => []
  | (n, x) :: rest => if n = name then (n, v) :: rest else (n, x) :: set rest name v

/-- field names -/
def keys (sv : SV) : List String := sv.map (·.1)

/-- a field of an unsigned type -/
def uint (sv : SV) (name : String) : Nat :=
  match sv.get name with
  | some (.uint n) => n
  | _ => 0

/-- a field of a signed type -/
def int (sv : SV) (name : String) : Int :=
  match sv.get name with
  | some (.int n) => n
  | _ => 0

/-- a field of type bool -/
def bool (sv : SV) (name : String) : Bool :=
  match sv.get name with
  | some (.bool b) => b
  | _ => false

/-- a field of type string -/
def str (sv : SV) (name : String) : Bytes :=
  match sv.get name with
  | some (.str b) => b
  | _ => []

/-- a field of type `[n]byte` -/
def byteArr (sv : SV) (name : String) : List Nat :=
  match sv.get name with
  | some (.arr l) => l.map (fun v => match v with | .uint n => n | _ => 0)
  | _ => []

/-- the embedded `FullBox`, if the box has one -/
def full (sv : SV) : Option SV :=
  match sv.get "FullBox" with
  | some (.struct f) => some f
  | _ => none

/-- `GetVersion` of a box: `FullBox.GetVersion` (box.go:151-153) or, without a
`FullBox`, `Box.GetVersion` (box.go:113-115). -/
def version (sv : SV) : Nat :=
  match sv.full with
  | some f => f.uint "Version"
  | none => 0

/-- `GetFlags` of a box: `FullBox.GetFlags` (box.go:161-166) or `Box.GetFlags`
(box.go:122-124). -/
def flags (sv : SV) : Nat :=
  match sv.full with
  | some f =>
    match f.byteArr "Flags" with
    | [a, b, c] => ((a * 65536) ^^^ (b * 256)) ^^^ c
    | _ => 0
  | none => 0

/-- `SetVersion` of a box: `FullBox.SetVersion` (box.go:156-158) or, without a
`FullBox`, nothing (box.go:118-119). -/
def setVersion (sv : SV) (v : Nat) : SV :=
  match sv.full with
  | some f => sv.set "FullBox" (.struct (f.set "Version" (.uint v)))
  | none => sv

end SV

/-- `LengthUnlimited`, box.go:11. -/
def lengthUnlimited : Nat := 2 ^ 32 - 1

/-- `anyVersion`, marshaller.go:15. -/
def anyVersion : Nat := 255

/-- `field`, field.go:36-49, without `children` (which are part of the type) and
`order` (the fields are listed in order).  The `fieldFlag`s are booleans.  `length`
and `size` of a resolved `fieldInstance` (field.go:253-256) are stored here, too. -/
structure Field where
  name : String
  size : Nat := 0
  sizeDyn : Bool := false
  length : Nat := lengthUnlimited
  lenDyn : Bool := false
  optFlag : Nat := 0
  nOptFlag : Nat := 0
  optDyn : Bool := false
  version : Nat := anyVersion
  nVersion : Nat := anyVersion
  varint : Bool := false
  boxString : Bool := false
  /-- `stringType_C_P` (not used by any box type of the library) -/
  strCP : Bool := false
  isString : Bool := false
  extend : Bool := false
  dec : Bool := false
  hex : Bool := false
  iso639 : Bool := false
  uuid : Bool := false
  hidden : Bool := false
  cnst : String := ""
  deriving DecidableEq, Repr, Inhabited

/-- The part of `ICustomFieldObject` (box.go:13-33) that decides layout.  `none` is a
panic.  `deps` is not part of the code: it lists, for each field name, the fields on
which the answers for that name may depend (this is checked by `Cfo.Local`). -/
structure Cfo where
  /-- `GetFieldSize` -/
  size : String → Ctx → SV → Option Nat := fun _ _ _ => none
  /-- `GetFieldLength` -/
  length : String → Ctx → SV → Option Nat := fun _ _ _ => none
  /-- `IsOptFieldEnabled` -/
  opt : String → Ctx → SV → Bool := fun _ _ _ => false
  deps : String → List String := fun _ => []

/-- `BaseCustomFieldObject`, box.go:35-51: the defaults panic (sizes, lengths) or
answer false (options). -/
def Cfo.base : Cfo := {}

mutual
/-- Go types of fields.  `struct` carries the struct's own `ICustomFieldObject`
methods, if it has any (field.go:263-268), and its tagged fields. -/
inductive Ty where
  | uint (w : Nat)
  | int (w : Nat)
  | bool
  | str
  | ptr (t : Ty)
  | arr (n : Nat) (t : Ty)
  | slice (t : Ty)
  | struct (c : Option Cfo) (fs : Fields)
/-- Tagged fields in layout order. -/
inductive Fields where
  | nil
  | cons (f : Field) (t : Ty) (fs : Fields)
end

mutual
/-- The zero value of a Go type. -/
def Ty.zero : Ty → Val
  | .uint _ => .uint 0
  | .int _ => .int 0
  | .bool => .bool false
  | .str => .str []
  | .ptr _ => .ptr none
  | .arr n t => .arr (List.replicate n t.zero)
  | .slice _ => .slice []
  | .struct _ fs => .struct fs.zero
/-- The zero value of the tagged fields of a struct. -/
def Fields.zero : Fields → SV
  | .nil => []
  | .cons f t fs => (f.name, t.zero) :: fs.zero
end

/-- Field names. -/
def Fields.names : Fields → List String
  | .nil => []
  | .cons f _ fs => f.name :: fs.names

/-- Lists of fields, for writing down descriptions. -/
def Fields.ofList : List (Field × Ty) → Fields
  | [] => .nil
  | (f, t) :: fs => .cons f t (ofList fs)

/-- `FullBox` as an embedded struct, box.go:144-148; it has the `BaseCustomFieldObject`
methods. -/
def fullBoxTy : Ty :=
  .struct (some Cfo.base) (.cons { name := "Version", size := 8 } (.uint 8)
    (.cons { name := "Flags", size := 8 } (.arr 3 (.uint 8)) .nil))

/-- The hooks `OnReadField`/`OnWriteField` of box types that have them. -/
inductive Hook where
  | none
  /-- `Emsg`, box_types_iso14496_12.go:419-466 -/
  | emsg
  /-- `Hdlr`, box_types_iso14496_12.go:626-671 -/
  | hdlr
  /-- `AVCDecoderConfiguration`, box_types_iso14496_12.go:1379-1403 -/
  | avcc
  deriving DecidableEq, Repr

/-- A registered box definition (`boxDef`, mp4.go:60-65), together with the methods of
its Go type. -/
structure BoxDef where
  /-- name of the Go type -/
  goName : String
  /-- tagged fields in order -/
  fields : Fields
  /-- methods of the Go type -/
  cfo : Cfo := Cfo.base
  /-- `OnReadField`/`OnWriteField` -/
  hook : Hook := .none
  /-- has `Meta.BeforeUnmarshal` (box_types_iso14496_12.go:896-911) -/
  metaHook : Bool := false
  /-- `versions`; empty = all -/
  versions : List Nat := []
  /-- `isTarget`; `none` = always -/
  target : Option (Ctx → Bool) := none
  /-- registered with `AddAnyTypeBoxDef`/`AddAnyTypeBoxDefEx` -/
  anyType : Bool := false

end Mp4
