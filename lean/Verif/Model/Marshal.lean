import Verif.Model.Types

/-!
# marshaller.go, first half: `Marshal`
-/

namespace Mp4

/-- `resolveFieldInstance`, field.go:258-279: sizes and lengths from the custom field
object `c` looking at the struct value `csv`; `none` is a panic. -/
def resolve (c : Cfo) (ctx : Ctx) (csv : SV) (f : Field) : Option Field := do
  let size ← if f.sizeDyn then c.size f.name ctx csv else some f.size
  let length ← if f.lenDyn then c.length f.name ctx csv else some f.length
  some { f with size := size, length := length }

/-- `isTargetField`, field.go:281-305; `root` is the box. -/
def isTarget (c : Cfo) (ctx : Ctx) (root csv : SV) (fi : Field) : Bool :=
  if root.version ≠ anyVersion ∧ fi.version ≠ anyVersion ∧ root.version ≠ fi.version then false
  else if root.version ≠ anyVersion ∧ fi.nVersion ≠ anyVersion ∧ root.version = fi.nVersion then
    false
  else if fi.optFlag ≠ 0 ∧ root.flags &&& fi.optFlag = 0 then false
  else if fi.nOptFlag ≠ 0 ∧ root.flags &&& fi.nOptFlag ≠ 0 then false
  else if fi.optDyn ∧ ¬ c.opt fi.name ctx csv then false
  else true

/-- State of the marshaller (marshaller.go:39-44): the bit writer and `wbits`. -/
structure MSt (σ : Type) where
  w : WSt σ
  wbits : Nat

/-- Computations of the marshaller. -/
abbrev MM (σ : Type) := M (MSt σ)

variable {σ : Type}

/-- use the bit writer -/
def liftW {α : Type} (m : WM σ α) : MM σ α := fun s =>
  match m s.w with
  | (r, w') => (r, { s with w := w' })

/-- `m.wbits += n` -/
def addW (n : Nat) : MM σ Unit := M.modify fun s => { s with wbits := s.wbits + n }

/-- An error return value that the caller drops (marshaller.go:154, 199). -/
def dropErr (m : MM σ Unit) : MM σ Unit := fun s =>
  match m s with
  | (.err _, s') => (.ok (), s')
  | r => r

/-- Parameters of one `Marshal` call: destination, context, the box, its methods. -/
structure MEnv (σ : Type) where
  sink : Sink σ
  ctx : Ctx
  root : SV
  cfo : Cfo
  hook : Hook

/-- One pass of the loops at marshaller.go:168-190 and 203-215: the value to write
before truncation to a byte, and the number of bits. -/
def intChunk (size val i : Nat) : Nat × Nat :=
  (if size > i + 8 then val >>> (size - (i + 8)) else val,
   if size < i + 8 then size - i else 8)

/-- The loop of `marshalUint`, marshaller.go:203-215; `n` passes are left. -/
def marshalUintLoop (k : Sink σ) (size val : Nat) : Nat → Nat → MM σ Unit
  | 0, _ => pure ()
  | n + 1, i => do
    let (v, sz) := intChunk size val i
    liftW (writeBits k [BitVec.ofNat 8 v] sz)
    addW sz
    marshalUintLoop k size val n (i + 8)

/-- The loop of `marshalInt`, marshaller.go:168-190; `n` passes are left. -/
def marshalIntLoop (k : Sink σ) (size val : Nat) (sign : Bool) : Nat → Nat → MM σ Unit
  | 0, _ => pure ()
  | n + 1, i => do
    let (v, sz) := intChunk size val i
    let v := if i = 0 then
        (if sign then v ||| (1 <<< (sz - 1)) else v &&& (1 <<< (sz - 1) - 1)) else v
    liftW (writeBits k [BitVec.ofNat 8 v] sz)
    addW sz
    marshalIntLoop k size val sign n (i + 8)

/-- `writeUvarint`, marshaller.go:253-267. -/
def writeUvarint (k : Sink σ) (u : Nat) : MM σ Unit := do
  liftW (writeBits k [BitVec.ofNat 8 (u >>> 21) ||| 0x80#8] 8); addW 8
  liftW (writeBits k [BitVec.ofNat 8 (u >>> 14) ||| 0x80#8] 8); addW 8
  liftW (writeBits k [BitVec.ofNat 8 (u >>> 7) ||| 0x80#8] 8); addW 8
  liftW (writeBits k [BitVec.ofNat 8 u &&& 0x7f#8] 8); addW 8

/-- the loop of `marshalString`, marshaller.go:236-241 -/
def marshalStringLoop (k : Sink σ) : Bytes → MM σ Unit
  | [] => pure ()
  | b :: bs => do
    liftW (writeBits k [b] 8); addW 8
    marshalStringLoop k bs

/-- Run over elements, stopping at the first error (marshaller.go:126-131). -/
def forElems (f : Val → MM σ Unit) : List Val → MM σ Unit
  | [] => pure ()
  | v :: vs => do f v; forElems f vs

/-- a `[]byte` value as bytes -/
def valBytes (l : List Val) : Bytes :=
  l.map (fun v => match v with | .uint n => BitVec.ofNat 8 n | _ => 0#8)

/-- is it `uint8`? -/
def Ty.isByte : Ty → Bool
  | .uint 8 => true
  | _ => false

/-- `util.WriteString`, internal/util/io.go:23-31. -/
def writeStringZ (k : Sink σ) (s : Bytes) : WM σ Unit := do
  writeRaw k s
  writeRaw k [0#8]

/-- profiles for which the additional fields exist, box_types_iso14496_12.go:1382-1385 -/
def avccHigh (p : Nat) : Bool := p == 100 || p == 110 || p == 122 || p == 144

/-- `OnWriteField` of the box: bits written and `override`.
Emsg: box_types_iso14496_12.go:443-466; AVCDecoderConfiguration: 1391-1403; all other
types: box.go:70-72. -/
def onWrite (h : Hook) (k : Sink σ) (name : String) (sv : SV) : WM σ (Nat × Bool) :=
  match h with
  | .emsg =>
    if sv.version = 0 then pure (0, false)
    else if name = "SchemeIdUri" ∨ name = "Value" then pure (0, true)
    else if name = "MessageData" then do
      writeStringZ k (sv.str "SchemeIdUri")
      writeStringZ k (sv.str "Value")
      pure (((sv.str "SchemeIdUri").length + (sv.str "Value").length + 2) * 8, false)
    else pure (0, false)
  | .avcc =>
    if name = "HighProfileFieldsEnabled" then
      if sv.bool "HighProfileFieldsEnabled" ∧ ¬ avccHigh (sv.uint "Profile") then
        M.fail .inconsistentProfile
      else pure (0, true)
    else pure (0, false)
  | .hdlr => pure (0, false)
  | .none => pure (0, false)

/-- `io.CopyN(m.writer, bytes.NewBuffer(b), int64(len(b)))`, marshaller.go:146.
Simplification: `io.Copy` hands over at most 32 KiB per `Write` call; here it is one
call.  An empty slice results in no call. -/
def copyBytes (k : Sink σ) (b : Bytes) : WM σ Unit :=
  if b = [] then pure () else writeRaw k b

/-- `marshalSlice` after the check of the length, marshaller.go:145-157: bytes are copied,
other elements are written one after the other by `f`. -/
def marshalElems (k : Sink σ) (isByte : Bool) (fi : Field) (f : Val → MM σ Unit) (l : List Val) :
    MM σ Unit := do
  let s ← M.get
  if isByte ∧ fi.size = 8 ∧ s.wbits % 8 = 0 then do
    liftW (copyBytes k (valBytes l))
    addW (l.length * 8)
  else forElems (fun x => dropErr (f x)) l

mutual
/-- `marshal`, marshaller.go:71-92, and the functions it dispatches to.  A value that
does not have the described type is a panic (it cannot occur in Go). -/
def marshalV (e : MEnv σ) : Ty → Field → Val → MM σ Unit
  -- marshalPtr, 94-96: `Elem` of a nil pointer is the invalid value, whose `Type()` panics
  | .ptr t, fi, v =>
    match v with
    | .ptr (some x) => marshalV e t fi x
    | _ => M.panic
  -- marshalStruct, 98-122
  | .struct c fs, _, v =>
    match v with
    | .struct sv => marshalFields e false c fs sv
    | _ => M.panic
  -- marshalArray, 124-133
  | .arr _ t, fi, v =>
    match v with
    | .arr l => forElems (fun x => marshalV e t fi x) l
    | _ => M.panic
  -- marshalSlice, 135-157
  | .slice t, fi, v =>
    match v with
    | .slice l =>
      if fi.length ≠ lengthUnlimited ∧ l.length < fi.length then M.fail .tooFewElements
      else marshalElems e.sink t.isByte fi (fun x => marshalV e t fi x)
        (if fi.length ≠ lengthUnlimited then l.take fi.length else l)
    | _ => M.panic
  -- marshalInt, 159-193; `uint64(signed)` is the two's complement
  | .int _, fi, v =>
    match v with
    | .int i =>
      if fi.varint then M.fail .signedVarint
      else marshalIntLoop e.sink fi.size ((i % (2 ^ 64 : Int)).toNat) (decide (i < 0))
        ((fi.size + 7) / 8) 0
    | _ => M.panic
  -- marshalUint, 195-218
  | .uint _, fi, v =>
    match v with
    | .uint n =>
      if fi.varint then dropErr (writeUvarint e.sink n)
      else marshalUintLoop e.sink fi.size n ((fi.size + 7) / 8) 0
    | _ => M.panic
  -- marshalBool, 220-232
  | .bool, fi, v =>
    match v with
    | .bool b => do
      liftW (writeBits e.sink [if b then 0xff#8 else 0x00#8] fi.size)
      addW fi.size
    | _ => M.panic
  -- marshalString, 234-251
  | .str, fi, v =>
    match v with
    | .str b => do
      marshalStringLoop e.sink b
      if fi.boxString then pure ()
      else do
        liftW (writeBits e.sink [0x00#8] 8)
        addW 8
    | _ => M.panic

/-- `marshalStruct`, marshaller.go:98-122.  `top`: this struct is the box itself (only
boxes have `OnWriteField` hooks).  `c`: the methods of the struct, `none` = use
those of the box. -/
def marshalFields (e : MEnv σ) (top : Bool) (c : Option Cfo) : Fields → SV → MM σ Unit
  | .nil, _ => pure ()
  | .cons f t fs, sv =>
    let cf := c.getD e.cfo
    let csv := if c.isSome then sv else e.root
    match resolve cf e.ctx csv f with
    | none => M.panic
    | some fi =>
      if ¬ isTarget cf e.ctx e.root csv fi then marshalFields e top c fs sv
      else do
        let (wbits, override) ← if top then liftW (onWrite e.hook e.sink f.name sv) else pure (0, false)
        addW wbits
        if override then marshalFields e top c fs sv
        else
          match sv.get f.name with
          | none => M.panic
          | some v => do
            marshalV e t fi v
            marshalFields e top c fs sv
end

/-- Environment of `Marshal` for a box with definition `bd` and value `sv`. -/
def BoxDef.menv (bd : BoxDef) (k : Sink σ) (ctx : Ctx) (sv : SV) : MEnv σ :=
  ⟨k, ctx, sv, bd.cfo, bd.hook⟩

/-- `Marshal`, marshaller.go:46-69, for a box whose definition has been looked up:
the number of bytes reported, and the destination afterwards. -/
def marshalBox (bd : BoxDef) (k : Sink σ) (ctx : Ctx) (sv : SV) (s : σ) : Out Nat × σ :=
  match marshalFields (bd.menv k ctx sv) true (some bd.cfo) bd.fields sv ⟨WSt.fresh s, 0⟩ with
  | (.ok _, st) =>
    if st.wbits % 8 ≠ 0 then (.err .notMultipleOf8, st.w.sink)
    else (.ok (st.wbits / 8), st.w.sink)
  | (.err e, st) => (.err e, st.w.sink)
  | (.panic, st) => (.panic, st.w.sink)
  | (.hang, st) => (.hang, st.w.sink)

end Mp4
