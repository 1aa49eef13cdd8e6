import Verif.Model.Catalog

/-!
# mp4.go, second half: registration and lookup of box definitions; `UnmarshalAny`
-/

namespace Mp4

/-- `boxMap`, mp4.go:67. -/
abbrev BoxMap := BoxType → List BoxDef

/-- `AddBoxDef`, `AddBoxDefEx`, `AddAnyTypeBoxDef`, `AddAnyTypeBoxDefEx`, mp4.go:69-101: `t` is
`payload.GetType()` or the type given. -/
def BoxMap.add (m : BoxMap) (t : BoxType) (bd : BoxDef) : BoxMap := fun t' =>
  if t' = t then m t' ++ [bd] else m t'

/-- `boxMap` after the given registrations. -/
def BoxMap.ofRegs (l : List (BoxType × BoxDef)) : BoxMap := l.foldl (fun m r => m.add r.1 r.2) (fun _ => [])

/-- `boxMap` after the `init` functions of the library. -/
def BoxMap.std : BoxMap := BoxMap.ofRegs Cat.registry

/-- `boxDef.isTarget == nil || boxDef.isTarget(ctx)`, mp4.go:108 -/
def BoxDef.isFor (bd : BoxDef) (ctx : Ctx) : Bool :=
  match bd.target with
  | none => true
  | some f => f ctx

/-- the loop of `getBoxDef`, mp4.go:106-111: `i` is the index plus one -/
def defLoop (defs : List BoxDef) (ctx : Ctx) : Nat → Option BoxDef
  | 0 => none
  | i + 1 =>
    match defs[i]? with
    | none => none
    | some bd => if bd.isFor ctx then some bd else defLoop defs ctx i

/-- `BoxType.getBoxDef`, mp4.go:104-124. -/
def BoxMap.getBoxDef (m : BoxMap) (t : BoxType) (ctx : Ctx) : Option BoxDef :=
  match defLoop (m t) ctx (m t).length with
  | some bd => some bd
  | none =>
    if ctx.underIlst then
      let typeID : Int := (beNat t.bytes : Nat)
      if 1 ≤ typeID ∧ typeID ≤ ctx.quickTimeKeysMetaEntryCount then some Cat.bdItem else none
    else none

/-- A box value (`IBox`): its Go type with the registered data, what `GetType` answers, and the contents. -/
structure BoxVal where
  bd : BoxDef
  type : BoxType
  sv : SV

/-- `BoxType.IsSupported`, mp4.go:126-128. -/
def BoxMap.isSupported (m : BoxMap) (t : BoxType) (ctx : Ctx) : Bool := (m.getBoxDef t ctx).isSome

/-- `BoxType.New`, mp4.go:130-147.  Every registered type implements `IBox`, because the registration
functions take an `IBox`, and `Item` does, too; so the second error cannot occur. -/
def BoxMap.new (m : BoxMap) (t : BoxType) (ctx : Ctx) : Except Err BoxVal :=
  match m.getBoxDef t ctx with
  | none => .error .boxInfoNotFound
  | some bd => .ok ⟨bd, t, bd.fields.zero⟩

/-- `BoxType.GetSupportedVersions`, mp4.go:149-155. -/
def BoxMap.getSupportedVersions (m : BoxMap) (t : BoxType) (ctx : Ctx) : Except Err (List Nat) :=
  match m.getBoxDef t ctx with
  | none => .error .boxInfoNotFound
  | some bd => .ok bd.versions

/-- `BoxType.IsSupportedVersion`, mp4.go:157-171. -/
def BoxMap.isSupportedVersion (m : BoxMap) (t : BoxType) (ver : Nat) (ctx : Ctx) : Bool :=
  match m.getBoxDef t ctx with
  | none => false
  | some bd => bd.supports ver

/-- `UnmarshalAny`, marshaller.go:277-284: `New`, then `Unmarshal`, which looks the definition up again
(with the same result) and decodes into the new value. -/
def BoxMap.unmarshalAny (m : BoxMap) (d : Bytes) (t : BoxType) (payloadSize : Nat) (ctx : Ctx) :
    PM (BoxVal × Nat) := fun pos =>
  match m.new t ctx with
  | .error e => (.err e, pos)
  | .ok box =>
    match unmarshalBox box.bd d ctx payloadSize box.sv pos with
    | (.ok (n, sv), pos') => (.ok ({ box with sv := sv }, n), pos')
    | (.err e, pos') => (.err e, pos')
    | (.panic, pos') => (.panic, pos')
    | (.hang, pos') => (.hang, pos')

end Mp4
