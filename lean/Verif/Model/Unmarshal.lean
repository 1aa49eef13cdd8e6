import Verif.Model.Marshal

/-!
# marshaller.go, second half: `Unmarshal`
-/

namespace Mp4

/-- State of the unmarshaller (marshaller.go:269-275): bit reader and `rbits`.
Simplification: `rbits` is not reduced modulo 2^64; it counts bits that have actually
been read, so it stays below 8 times the length of the data. -/
structure USt where
  r : RSt
  rbits : Nat
  deriving DecidableEq, Repr

/-- Computations of the unmarshaller. -/
abbrev UM := M USt

/-- use the bit reader -/
def liftR {α : Type} (m : RM α) : UM α := fun s =>
  match m s.r with
  | (x, r') => (x, { s with r := r' })

/-- `u.rbits += n` -/
def addR (n : Nat) : UM Unit := M.modify fun s => { s with rbits := s.rbits + n }

/-- `make([]byte, n)` panics (or the process dies) above this many bytes: the address
space of the platforms Go supports is at most 2^48 bytes. -/
def maxAlloc : Nat := 2 ^ 48

/-- `make([]byte, n)` or `make([]byte, 0, n)` -/
def alloc (n : Nat) : UM Unit := if n ≤ maxAlloc then pure () else M.panic

/-- Parameters of one `Unmarshal` call.  `size8` is `u.size*8` as a `uint64`; `root` is
the box as far as it has been decoded; for structs below the box it is the box as it was
when the decoding of the enclosing field of the box began (see `unmarshalFields`). -/
structure UEnv where
  d : Bytes
  ctx : Ctx
  size8 : Nat
  root : SV
  cfo : Cfo
  hook : Hook
  supported : Nat → Bool

/-- number of bits left: `u.size*8 - u.rbits` -/
def left (size8 rbits : Nat) : Nat := sub64 size8 rbits

/-- `reader.ReadBits(size)` for an integer field: `make` included -/
def readBitsA (d : Bytes) (size : Nat) : UM Bytes := do
  alloc ((size + 7) / 8)
  liftR (readBits d size)

/-- `val <<= 8; val |= uint64(b)` over all bytes, marshaller.go:505-508, 533-537 -/
def accBytes (init : Nat) (data : Bytes) : Nat :=
  data.foldl (fun v b => (v * 256 + b.toNat) % U64) init

/-- conversion of a 64-bit pattern to a signed number of width `w` (`SetInt`) -/
def toSigned (w n : Nat) : Int :=
  let m := n % 2 ^ w
  if m < 2 ^ (w - 1) then (m : Int) else (m : Int) - (2 ^ w : Nat)

/-- `unmarshalInt`, marshaller.go:477-511 -/
def unmarshalInt (d : Bytes) (w : Nat) (fi : Field) : UM Val :=
  if fi.varint then M.fail .signedVarint
  else if fi.size = 0 then M.fail .sizeZero
  else do
    let data ← readBitsA d fi.size
    addR fi.size
    let mask : Byte := 1#8 <<< ((fi.size - 1) % 8)
    let sign := (data.headD 0#8 &&& mask) != 0#8
    let data' := if sign then data.modify 0 (fun b => b ||| ~~~(mask - 1#8)) else data
    pure (.int (toSigned w (accBytes (if sign then U64 - 1 else 0) data')))

/-- `readUvarint`, marshaller.go:645-660; every pass reads a byte, so `fuel` passes with
`fuel` larger than the number of bytes suffice. -/
def readUvarint (d : Bytes) : Nat → Nat → UM Nat
  | 0, _ => M.hang
  | fuel + 1, val => do
    let octet ← liftR (readBits d 8)
    addR 8
    let o := octet.headD 0#8
    let val := (val * 128 + (o &&& 0x7f#8).toNat) % U64
    if o &&& 0x80#8 = 0#8 then pure val else readUvarint d fuel val

/-- `unmarshalUint`, marshaller.go:513-541 -/
def unmarshalUint (d : Bytes) (w : Nat) (fi : Field) : UM Val :=
  if fi.varint then do
    let v ← readUvarint d (d.length + 2) 0
    pure (.uint (v % 2 ^ w))
  else if fi.size = 0 then M.fail .sizeZero
  else do
    let data ← readBitsA d fi.size
    addR fi.size
    pure (.uint (accBytes 0 data % 2 ^ w))

/-- `unmarshalBool`, marshaller.go:543-561 -/
def unmarshalBool (d : Bytes) (fi : Field) : UM Val :=
  if fi.size = 0 then M.fail .sizeZero
  else do
    let data ← readBitsA d fi.size
    addR fi.size
    pure (.bool (data.any (fun b => b != 0#8)))

/-- the loop of `unmarshalStringC`, marshaller.go:576-592; every pass reads a byte and the
loop ends when `size8` bits have been read, so `size8 + 2` passes suffice -/
def stringCLoop (d : Bytes) (size8 : Nat) : Nat → UM Bytes
  | 0 => M.hang
  | fuel + 1 => do
    let s ← M.get
    if size8 ≤ s.rbits then pure []
    else do
      let c ← liftR (readBits d 8)
      addR 8
      let b := c.headD 0#8
      if b = 0#8 then pure []
      else do
        let rest ← stringCLoop d size8 fuel
        pure (b :: rest)

/-- `unmarshalStringC`, marshaller.go:574-596 -/
def unmarshalStringC (d : Bytes) (size8 : Nat) : UM Val := do
  let b ← stringCLoop d size8 (size8 + 2)
  pure (.str b)

/-- `tryReadPString`, marshaller.go:607-643; `none` = not a Pascal string.  No box type
overrides `IsPString`, which answers true (box.go:58-60). -/
def tryReadPString (d : Bytes) (size8 : Nat) : UM (Option Val) := do
  let s ← M.get
  let remaining := left size8 s.rbits / 8
  if remaining < 2 then pure none
  else do
    let offset ← liftR seekCurrent
    let buf0 ← liftR (readFull d 1)
    let plen := (buf0.headD 0#8).toNat
    if plen > remaining - 1 then do
      liftR (seekStart offset)
      pure none
    else do
      let buf ← liftR (readFull d plen)
      addR ((buf.length + 1) * 8)
      pure (some (.str buf))

/-- `unmarshalString`, marshaller.go:563-572, 598-605 -/
def unmarshalString (d : Bytes) (size8 : Nat) (fi : Field) : UM Val :=
  if fi.strCP then do
    match ← tryReadPString d size8 with
    | some v => pure v
    | none => unmarshalStringC d size8
  else unmarshalStringC d size8

/-- `util.ReadString`, internal/util/io.go:8-21, on the bit reader -/
def readStringZ (d : Bytes) : Nat → RM Bytes
  | 0 => M.hang
  | fuel + 1 => do
    let b ← readSome d 1
    let c := b.headD 0#8
    if c = 0#8 then pure []
    else do
      let rest ← readStringZ d fuel
      pure (c :: rest)

/-- `Hdlr.OnReadName`, box_types_iso14496_12.go:635-671 -/
def hdlrOnReadName (d : Bytes) (leftBits : Nat) (sv : SV) : RM (Nat × Bool × SV) :=
  let size := leftBits / 8
  if size = 0 then pure (0, true, sv.set "Name" (.str []))
  else do
    let ok ← readerHasSize d size
    if ¬ ok then M.fail .notEnoughBits
    else if maxAlloc < size then M.panic
    else do
      let buf ← readFull d size
      let plen := (buf.headD 0#8).toNat
      if sv.uint "PreDefined" ≠ 0 ∧ 2 ≤ size ∧ size = (plen + 1) % 256 then
        pure (leftBits, true, sv.set "Name" (.str ((buf.drop 1).take plen)))
      else
        pure (leftBits, true, sv.set "Name" (.str (buf.takeWhile (fun c => c != 0#8))))

/-- `OnReadField` of the box: bits read, `override`, the changed box.
Emsg: box_types_iso14496_12.go:419-441; Hdlr: 626-633; AVCDecoderConfiguration:
1379-1389; all other types: box.go:66-68. -/
def onRead (h : Hook) (d : Bytes) (name : String) (leftBits : Nat) (sv : SV) :
    RM (Nat × Bool × SV) :=
  match h with
  | .emsg =>
    if sv.version = 0 then pure (0, false, sv)
    else if name = "SchemeIdUri" ∨ name = "Value" then pure (0, true, sv)
    else if name = "MessageData" then do
      let a ← readStringZ d (d.length + 2)
      let b ← readStringZ d (d.length + 2)
      pure ((a.length + b.length + 2) * 8, false,
        (sv.set "SchemeIdUri" (.str a)).set "Value" (.str b))
    else pure (0, false, sv)
  | .hdlr =>
    if name = "Name" then hdlrOnReadName d leftBits sv else pure (0, false, sv)
  | .avcc =>
    if name = "HighProfileFieldsEnabled" then
      pure (0, true, sv.set "HighProfileFieldsEnabled"
        (.bool (decide (32 ≤ leftBits) && avccHigh (sv.uint "Profile"))))
    else pure (0, false, sv)
  | .none => pure (0, false, sv)

/-- elements of an array, decoded in place (marshaller.go:412-421) -/
def arrLoop (f : Val → UM Val) : List Val → UM (List Val)
  | [] => pure []
  | c :: cs => do
    let v ← f c
    let vs ← arrLoop f cs
    pure (v :: vs)

/-- one element of a slice, with the check that follows (marshaller.go:463-469) -/
def sliceElem (size8 : Nat) (f : UM Val) : UM Val := do
  let v ← f
  let s ← M.get
  if size8 < s.rbits then M.fail .arrayIncomplete else pure v

/-- the loop of `unmarshalSlice` for a given number of elements, marshaller.go:456-470 -/
def countLoop (size8 : Nat) (f : UM Val) : Nat → UM (List Val)
  | 0 => pure []
  | n + 1 => do
    let v ← sliceElem size8 f
    let vs ← countLoop size8 f n
    pure (v :: vs)

/-- the same loop for `LengthUnlimited`.  A pass that reads no bits changes nothing, so
it is repeated for ever; otherwise at least one bit is read, and the loop ends when `size8`
bits have been read.  Hence running out of `fuel = size8 + 2` means that the loop never ends. -/
def greedyLoop (size8 : Nat) (f : UM Val) : Nat → UM (List Val)
  | 0 => M.hang
  | fuel + 1 => do
    let s ← M.get
    if size8 ≤ s.rbits then pure []
    else do
      let v ← sliceElem size8 f
      let vs ← greedyLoop size8 f fuel
      pure (v :: vs)

/-- The fast path of `unmarshalSlice`, marshaller.go:441-452; `length*8/8` wraps around. -/
def byteSlice (d : Bytes) (length : Nat) : UM Val := do
  let totalSize := length * 8 % U64 / 8
  let ok ← liftR (readerHasSize d totalSize)
  if ¬ ok then M.fail .notEnoughBits
  else do
    alloc totalSize
    let buf ← liftR (copyN d totalSize)
    addR (totalSize * 8)
    pure (.slice (buf.map (fun b => .uint b.toNat)))

/-- `unmarshalSlice`, marshaller.go:423-475, for elements decoded by `f` -/
def unmarshalSlice (d : Bytes) (size8 : Nat) (isByte : Bool) (fi : Field) (f : UM Val) : UM Val := do
  let s ← M.get
  let lft := left size8 s.rbits
  if fi.length = lengthUnlimited ∧ fi.size ≠ 0 ∧ lft % fi.size ≠ 0 then M.fail .invalidAlignment
  else
    let length :=
      if fi.length = lengthUnlimited then (if fi.size ≠ 0 then lft / fi.size else 0) else fi.length
    if s.rbits % 8 = 0 ∧ isByte ∧ fi.size = 8 then byteSlice d length
    else do
      let l ← if fi.length = lengthUnlimited then greedyLoop size8 f (size8 + 2)
        else countLoop size8 f fi.length
      pure (.slice l)

/-- `unmarshalStructInternal` for a struct with a size, marshaller.go:365-377: `m` decodes the
fields, counting from 0. -/
def sizedStruct {α : Type} (fi : Field) (m : UM α) : UM α := fun s =>
  match m { s with rbits := 0 } with
  | (.ok a, s') =>
    if s'.rbits ≠ fi.size then (.err .invalidAlignment, { s' with rbits := s.rbits + s'.rbits })
    else (.ok a, { s' with rbits := s.rbits + s'.rbits })
  | (.err e, s') => (.err e, { s' with rbits := s.rbits })
  | (.panic, s') => (.panic, s')
  | (.hang, s') => (.hang, s')

/-- `unmarshalStructInternal`, marshaller.go:364-380: `m size8` decodes the fields -/
def structInternal {α : Type} (size8 : Nat) (fi : Field) (m : Nat → UM α) : UM α :=
  if fi.size ≠ 0 ∧ fi.size % 8 = 0 then sizedStruct fi (m (fi.size % U64)) else m size8

mutual
/-- `unmarshal`, marshaller.go:334-357: the new value of a field whose value is `cur`.
A value that does not have the described type is a panic (it cannot occur in Go). -/
def unmarshalV (e : UEnv) : Ty → Field → Val → UM Val
  -- unmarshalPtr, 359-362
  | .ptr t, fi, _ => do
    let v ← unmarshalV e t fi t.zero
    pure (.ptr (some v))
  | .struct c fs, fi, cur =>
    match cur with
    | .struct sv =>
      structInternal e.size8 fi fun size8 => do
        let sv' ← unmarshalFields { e with size8 := size8 } false c fs sv
        pure (.struct sv')
    | _ => M.panic
  -- unmarshalArray, 412-421
  | .arr _ t, fi, cur =>
    match cur with
    | .arr l => do
      let l' ← arrLoop (fun x => unmarshalV e t fi x) l
      pure (.arr l')
    | _ => M.panic
  | .slice t, fi, _ => unmarshalSlice e.d e.size8 t.isByte fi (unmarshalV e t fi t.zero)
  | .int w, fi, _ => unmarshalInt e.d w fi
  | .uint w, fi, _ => unmarshalUint e.d w fi
  | .bool, fi, _ => unmarshalBool e.d fi
  | .str, fi, _ => unmarshalString e.d e.size8 fi

/-- `unmarshalStruct`, marshaller.go:382-410: the struct value after decoding.
`top`: this struct is the box itself.  `c`: the methods of the struct, `none` = use
those of the box.  In Go the box is changed in place while it is being decoded; structs below the
box that use the methods of the box see here the box as it was when the decoding of the enclosing
field began. For slices this is exact, because a slice is stored only when it is
complete; no box type has a non-slice struct field without methods of its own whose layout depends on itself.
On an error the partly decoded box is not represented. -/
def unmarshalFields (e : UEnv) (top : Bool) (c : Option Cfo) : Fields → SV → UM SV
  | .nil, cur => pure cur
  | .cons f t fs, cur =>
    let root := if top then cur else e.root
    let cf := c.getD e.cfo
    let csv := if c.isSome then cur else root
    match resolve cf e.ctx csv f with
    | none => M.panic
    | some fi =>
      if ¬ isTarget cf e.ctx root csv fi then unmarshalFields e top c fs cur
      else do
        let s ← M.get
        let (rbits, override, cur) ←
          if top then liftR (onRead e.hook e.d f.name (left e.size8 s.rbits) cur)
          else pure (0, false, cur)
        addR rbits
        if override then unmarshalFields e top c fs cur
        else
          match cur.get f.name with
          | none => M.panic
          | some x => do
            let v ← unmarshalV { e with root := if top then cur else e.root } t fi x
            let cur := cur.set f.name v
            if top ∧ f.name = "FullBox" ∧ ¬ e.supported cur.version then M.fail .unsupportedVersion
            else unmarshalFields e top c fs cur
end

/-- `BoxType.IsSupportedVersion` for a definition that has been found, mp4.go:162-170. -/
def BoxDef.supports (bd : BoxDef) (ver : Nat) : Bool :=
  bd.versions.isEmpty || bd.versions.any (fun v => ver == v)

/-- `Meta.BeforeUnmarshal`, box_types_iso14496_12.go:896-911: peek at four bytes; if they
are not all zero this is a QuickTime `meta` without version and flags. -/
def metaBefore (d : Bytes) (sv : SV) : PM (Bool × SV) := fun pos =>
  let got := (d.drop pos).take 4
  if got.length = 0 then (.err .eof, pos)
  else if got.length < 4 then (.err .unexpectedEOF, pos + got.length)
  else if got.any (fun b => b != 0#8) then
    (.ok (true, sv.set "FullBox" (.struct [("Version", .uint 0),
      ("Flags", .arr [.uint 0, .uint 0, .uint 0])])), pos)
  else (.ok (false, sv), pos)

/-- Environment of `Unmarshal`. -/
def BoxDef.uenv (bd : BoxDef) (d : Bytes) (ctx : Ctx) (payloadSize : Nat) : UEnv :=
  ⟨d, ctx, payloadSize * 8 % U64, [], bd.cfo, bd.hook, bd.supports⟩

/-- `Unmarshal` after `BeforeUnmarshal`, marshaller.go:311-331; `sn` is the start. -/
def unmarshalBody (bd : BoxDef) (d : Bytes) (ctx : Ctx) (payloadSize : Nat) (sv : SV) :
    PM (Nat × SV) := fun sn =>
  match unmarshalFields (bd.uenv d ctx payloadSize) true (some bd.cfo) bd.fields sv
      ⟨RSt.fresh sn, 0⟩ with
  | (.ok sv', st) =>
    if st.rbits % 8 ≠ 0 then (.err .notMultipleOf8, st.r.pos)
    else if payloadSize * 8 % U64 < st.rbits then (.err .overrun, st.r.pos)
    else (.ok (st.rbits / 8, sv'), st.r.pos)
  | (.err .unsupportedVersion, _) => (.err .unsupportedVersion, sn)
  | (.err e, st) => (.err e, st.r.pos)
  | (.panic, st) => (.panic, st.r.pos)
  | (.hang, st) => (.hang, st.r.pos)

/-- `Unmarshal`, marshaller.go:286-332, for a box whose definition has been looked up
and whose current contents are `dst`: the number of bytes reported and the new
contents; the state is the position of the stream. -/
def unmarshalBox (bd : BoxDef) (d : Bytes) (ctx : Ctx) (payloadSize : Nat) (dst : SV) :
    PM (Nat × SV) := do
  let sv := dst.setVersion anyVersion
  if bd.metaHook then do
    let (override, sv') ← metaBefore d sv
    if override then pure (0, sv') else unmarshalBody bd d ctx payloadSize sv'
  else unmarshalBody bd d ctx payloadSize sv

end Mp4
