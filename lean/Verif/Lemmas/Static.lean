import Verif.Model.Types

/-!
# Conditions on box types under which decoding can be understood field by field

The layout of a field may depend on other fields (`Cfo.deps`), on the version and on the flags.
`okFields` checks that everything a field depends on has been decoded before it.
-/

namespace Mp4

/-- The answers for a field depend only on the fields listed in `deps`. -/
def Cfo.Local (c : Cfo) : Prop :=
  ∀ (n : String) (ctx : Ctx) (a b : SV), (∀ m ∈ c.deps n, a.get m = b.get m) →
    c.size n ctx a = c.size n ctx b ∧ c.length n ctx a = c.length n ctx b ∧
    c.opt n ctx a = c.opt n ctx b

mutual
/-- All method tables in the type answer locally. -/
def Ty.AllLocal : Ty → Prop
  | .ptr t => t.AllLocal
  | .arr _ t => t.AllLocal
  | .slice t => t.AllLocal
  | .struct c fs => (∀ c', c = some c' → c'.Local) ∧ fs.AllLocal
  | _ => True
/-- All method tables in the fields answer locally. -/
def Fields.AllLocal : Fields → Prop
  | .nil => True
  | .cons _ t fs => t.AllLocal ∧ fs.AllLocal
end

/-- Is the type `FullBox` (with whatever methods)? -/
def Ty.isFullBox : Ty → Bool
  | .struct _ (.cons f1 (.uint 8) (.cons f2 (.arr 3 (.uint 8)) .nil)) =>
    f1 == { name := "Version", size := 8 } && f2 == { name := "Flags", size := 8 }
  | _ => false

/-- Is the type `string`? -/
def Ty.isStr : Ty → Bool
  | .str => true
  | _ => false

/-- Does the presence of the field not depend on anything? -/
def Field.always (f : Field) : Bool :=
  f.version == 255 && f.nVersion == 255 && f.optFlag == 0 && f.nOptFlag == 0 && !f.optDyn

mutual
/-- `rc`: methods of the box; `rk`: fields of the box known when this type is decoded. -/
def okV (rc : Cfo) (rk : List String) : Ty → Bool
  | .ptr t => okV rc rk t
  | .arr _ t => okV rc rk t
  | .slice t => okV rc rk t
  | .struct c fs => okFields rc rk false .none c [] fs
  | _ => true
/-- `known`: fields of this struct that have been decoded. -/
def okFields (rc : Cfo) (rk : List String) (top : Bool) (hook : Hook) (c : Option Cfo)
    (known : List String) : Fields → Bool
  | .nil => true
  | .cons f t fs =>
    let rk' := if top then known else rk
    let ck := if c.isSome then known else rk'
    (!(f.sizeDyn || f.lenDyn || f.optDyn) || ((c.getD rc).deps f.name).all (fun n => ck.contains n)) &&
    ((f.version == 255 && f.nVersion == 255 && f.optFlag == 0 && f.nOptFlag == 0) ||
      rk'.contains "FullBox") &&
    !fs.names.contains f.name &&
    okV rc rk' t &&
    (!(top && f.name == "FullBox") || (f.always && f.size == 0 && !f.sizeDyn && t.isFullBox)) &&
    (!(top && hook == .emsg && (f.name == "SchemeIdUri" || f.name == "Value")) ||
      (known.contains "FullBox" && fs.names.contains "MessageData")) &&
    (!(top && hook == .emsg && f.name == "MessageData") ||
      (known.contains "FullBox" && f.always && !fs.names.contains "SchemeIdUri" &&
        !fs.names.contains "Value")) &&
    (!(top && hook == .hdlr && f.name == "Name") ||
      (known.contains "PreDefined" && !f.boxString && t.isStr)) &&
    (!(top && hook == .avcc && f.name == "HighProfileFieldsEnabled") || known.contains "Profile") &&
    okFields rc rk top hook c
      (if top && hook == .emsg && (f.name == "SchemeIdUri" || f.name == "Value") then known
       else f.name :: known) fs
end

/-- The check for a box.  A box without `FullBox` has version and flags 0 from the beginning. -/
def BoxDef.ok (bd : BoxDef) : Bool :=
  okFields bd.cfo [] true bd.hook (some bd.cfo)
    (if bd.fields.names.contains "FullBox" then [] else ["FullBox"]) bd.fields

end Mp4
