import Verif.Model.Registry

/-!
# Reading from any `io.ReadSeeker`

`Model/Bitio`, `Model/BoxInfo` and `Model/Unmarshal` read from a byte string, as from a `bytes.Reader`.  Here the same functions of
the library are modelled once more, with a source that may do whatever it likes: deliver less than it is asked for, deliver nothing,
report the end together with the last bytes, fail.  The functions of the standard library in between (`io.ReadFull`, `io.CopyN` with
`bytes.Buffer.ReadFrom` and `io.LimitReader`) are written out.
-/

namespace Mp4.Src

open Mp4

/-- An `io.ReadSeeker`: any state, any behaviour. -/
structure Source (σ : Type) where
  /-- `Read(p)` for a buffer of so many bytes: the bytes delivered and the error -/
  read : Nat → σ → (Bytes × Option Err) × σ
  /-- `Seek(0, io.SeekCurrent)` -/
  tell : σ → Except Err Nat × σ
  /-- `Seek(0, io.SeekEnd)` -/
  toEnd : σ → Except Err Nat × σ
  /-- `Seek(p, io.SeekStart)` -/
  seek : Nat → σ → Except Err Nat × σ
  /-- `Seek(-n, io.SeekCurrent)` -/
  back : Nat → σ → Except Err Nat × σ

/-- A source and what the model leaves open: how much `bytes.Buffer.ReadFrom` asks for when so many bytes are missing, and how many rounds a
loop may make in addition to the number of bytes wanted before it is said to go on for ever. -/
structure Rdr (σ : Type) where
  src : Source σ
  ask : Nat → Nat
  fuel : Nat

variable {σ α : Type}

/-- the result of a seek -/
def seeking (f : σ → Except Err Nat × σ) : M σ Nat := fun t =>
  match f t with
  | (.ok n, t) => (.ok n, t)
  | (.error e, t) => (.err e, t)

/-- the loop of `io.ReadAtLeast` (io/io.go of the standard library), called by `io.ReadFull`; `need` bytes are missing -/
def fillLoop (k : Source σ) : Nat → Nat → Bytes → M σ Bytes
  | fuel, need, got => fun t =>
    if need = 0 then (.ok got, t)
    else
      match fuel with
      | 0 => (.hang, t)
      | fuel + 1 =>
        match k.read need t with
        | ((b, none), t) => fillLoop k fuel (need - b.length) (got ++ b) t
        | ((b, some e), t) =>
          if need ≤ b.length then (.ok (got ++ b), t)
          else (.err (if got ++ b ≠ [] ∧ e = .eof then .unexpectedEOF else e), t)

/-- `io.ReadFull(r, buf)` for a buffer of `n` bytes -/
def readFullS (k : Rdr σ) (n : Nat) : M σ Bytes := fillLoop k.src (n + k.fuel) n []

/-- the loop of `bytes.Buffer.ReadFrom` on an `io.LimitReader` with `need` bytes left, and the end of `io.CopyN` -/
def copyLoop (k : Source σ) (ask : Nat → Nat) : Nat → Nat → Bytes → M σ Bytes
  | fuel, need, got => fun t =>
    if need = 0 then (.ok got, t)
    else
      match fuel with
      | 0 => (.hang, t)
      | fuel + 1 =>
        match k.read (ask need) t with
        | ((b, none), t) => copyLoop k ask fuel (need - b.length) (got ++ b) t
        | ((b, some e), t) => if need ≤ b.length then (.ok (got ++ b), t) else (.err e, t)

/-- `io.CopyN(buf, r, int64(n))`; nothing is copied if the conversion is negative -/
def copyNS (k : Rdr σ) (n : Nat) : M σ Bytes :=
  if n = 0 ∨ 2 ^ 63 ≤ n then pure [] else copyLoop k.src k.ask (n + k.fuel) n []

/-! ## internal/bitio -/

/-- `bitio.readSeeker`, internal/bitio/read.go:21-25, 75-78 -/
structure RS (σ : Type) where
  src : σ
  octet : Byte
  width : Nat

/-- use the source -/
def liftS (m : M σ α) : M (RS σ) α := fun s =>
  match m s.src with
  | (x, t) => (x, { s with src := t })

/-- `reader.ReadBit`, internal/bitio/read.go:59-73 -/
def readBit (k : Source σ) : M (RS σ) Bool := fun s =>
  if s.width = 0 then
    match k.read 1 s.src with
    | ((_, some e), t) => (.err e, { s with src := t })
    | ((b, none), t) =>
      if b.length ≠ 1 then (.err (.msg "discouraged reader implementation"), { s with src := t })
      else (.ok ((b.headD 0#8).getLsbD 7), ⟨t, b.headD 0#8, 7⟩)
  else
    (.ok (s.octet.getLsbD (s.width - 1)), { s with width := s.width - 1 })

/-- The loop of `reader.ReadBits`, internal/bitio/read.go:43-54 -/
def readBitsLoop (k : Source σ) : Nat → Nat → Bytes → M (RS σ) Bytes
  | 0, _, data => pure data
  | n + 1, idx, data => do
    let bit ← readBit k
    let data' := if bit then
        data.modify (idx / 8) (fun x => x ||| (1#8 <<< (7 - idx % 8))) else data
    readBitsLoop k n (idx + 1) data'

/-- `reader.ReadBits`, internal/bitio/read.go:38-57 -/
def readBits (k : Source σ) (size : Nat) : M (RS σ) Bytes :=
  let nbytes := (size + 7) / 8
  readBitsLoop k size (nbytes * 8 - size) (List.replicate nbytes 0#8)

/-- `reader.Read`, internal/bitio/read.go:31-36: there is an error instead of what `m` reads if the reader is not at a byte boundary -/
def aligned (m : M σ α) : M (RS σ) α := fun s =>
  if s.width ≠ 0 then (.err .bitAlignment, s) else liftS m s

/-- one `Read` for `n` bytes; an error counts more than bytes -/
def readOnce (k : Source σ) (n : Nat) : M σ Bytes := fun t =>
  match k.read n t with
  | ((_, some e), t) => (.err e, t)
  | ((b, none), t) => (.ok b, t)

/-- `io.ReadFull` on the bit reader -/
def readFull (k : Rdr σ) (n : Nat) : M (RS σ) Bytes := if n = 0 then pure [] else aligned (readFullS k n)

/-- `io.CopyN` from the bit reader into a buffer -/
def copyN (k : Rdr σ) (n : Nat) : M (RS σ) Bytes := if n = 0 ∨ 2 ^ 63 ≤ n then pure [] else aligned (copyNS k n)

/-- `readSeeker.Seek(0, io.SeekCurrent)`, internal/bitio/read.go:87-97 -/
def seekCurrent (k : Source σ) : M (RS σ) Nat := aligned (seeking k.tell)

/-- `readSeeker.Seek` otherwise, internal/bitio/read.go:87-97 -/
def seekReset (f : σ → Except Err Nat × σ) : M (RS σ) Nat := fun s =>
  match f s.src with
  | (.ok n, t) => (.ok n, { s with src := t, width := 0 })
  | (.error e, t) => (.err e, { s with src := t })

/-- `readerHasSize`, marshaller.go:20-37 -/
def readerHasSize (k : Source σ) (size : Nat) : M (RS σ) Bool := fun s =>
  match seekCurrent k s with
  | (.ok pre, s1) =>
    match seekReset k.toEnd s1 with
    | (.ok e, s2) =>
      if sub64 e pre < size then (.ok false, s2)
      else
        match seekReset (k.seek pre) s2 with
        | (.ok _, s3) => (.ok true, s3)
        | (_, s3) => (.ok false, s3)
    | (_, s2) => (.ok false, s2)
  | (_, s1) => (.ok false, s1)

/-! ## marshaller.go: `Unmarshal` -/

/-- State of the unmarshaller, marshaller.go:269-275 -/
structure US (σ : Type) where
  r : RS σ
  rbits : Nat

/-- use the bit reader -/
def liftR (m : M (RS σ) α) : M (US σ) α := fun s =>
  match m s.r with
  | (x, r') => (x, { s with r := r' })

/-- `u.rbits += n` -/
def addR (n : Nat) : M (US σ) Unit := M.modify fun s => { s with rbits := s.rbits + n }

/-- `make([]byte, n)` -/
def alloc (n : Nat) : M (US σ) Unit := if n ≤ maxAlloc then pure () else M.panic

/-- Parameters of one `Unmarshal` call, as `UEnv`. -/
structure Env where
  ctx : Ctx
  size8 : Nat
  root : SV
  cfo : Cfo
  hook : Hook
  supported : Nat → Bool

/-- `reader.ReadBits(size)` for an integer field: `make` included -/
def readBitsA (k : Source σ) (size : Nat) : M (US σ) Bytes := do
  alloc ((size + 7) / 8)
  liftR (readBits k size)

/-- `unmarshalInt`, marshaller.go:477-511 -/
def unmarshalInt (k : Rdr σ) (w : Nat) (fi : Field) : M (US σ) Val :=
  if fi.varint then M.fail .signedVarint
  else if fi.size = 0 then M.fail .sizeZero
  else do
    let data ← readBitsA k.src fi.size
    addR fi.size
    let mask : Byte := 1#8 <<< ((fi.size - 1) % 8)
    let sign := (data.headD 0#8 &&& mask) != 0#8
    let data' := if sign then data.modify 0 (fun b => b ||| ~~~(mask - 1#8)) else data
    pure (.int (toSigned w (accBytes (if sign then U64 - 1 else 0) data')))

/-- `readUvarint`, marshaller.go:645-660 -/
def readUvarint (k : Source σ) : Nat → Nat → M (US σ) Nat
  | 0, _ => M.hang
  | fuel + 1, val => do
    let octet ← liftR (readBits k 8)
    addR 8
    let o := octet.headD 0#8
    let val := (val * 128 + (o &&& 0x7f#8).toNat) % U64
    if o &&& 0x80#8 = 0#8 then pure val else readUvarint k fuel val

/-- `unmarshalUint`, marshaller.go:513-541 -/
def unmarshalUint (k : Rdr σ) (w : Nat) (fi : Field) : M (US σ) Val :=
  if fi.varint then do
    let v ← readUvarint k.src k.fuel 0
    pure (.uint (v % 2 ^ w))
  else if fi.size = 0 then M.fail .sizeZero
  else do
    let data ← readBitsA k.src fi.size
    addR fi.size
    pure (.uint (accBytes 0 data % 2 ^ w))

/-- `unmarshalBool`, marshaller.go:543-561 -/
def unmarshalBool (k : Rdr σ) (fi : Field) : M (US σ) Val :=
  if fi.size = 0 then M.fail .sizeZero
  else do
    let data ← readBitsA k.src fi.size
    addR fi.size
    pure (.bool (data.any (fun b => b != 0#8)))

/-- the loop of `unmarshalStringC`, marshaller.go:576-592 -/
def stringCLoop (k : Source σ) (size8 : Nat) : Nat → M (US σ) Bytes
  | 0 => M.hang
  | fuel + 1 => do
    let s ← M.get
    if size8 ≤ s.rbits then pure []
    else do
      let c ← liftR (readBits k 8)
      addR 8
      let b := c.headD 0#8
      if b = 0#8 then pure []
      else do
        let rest ← stringCLoop k size8 fuel
        pure (b :: rest)

/-- `unmarshalStringC`, marshaller.go:574-596 -/
def unmarshalStringC (k : Rdr σ) (size8 : Nat) : M (US σ) Val := do
  let b ← stringCLoop k.src size8 (size8 + 2)
  pure (.str b)

/-- `tryReadPString`, marshaller.go:607-643 -/
def tryReadPString (k : Rdr σ) (size8 : Nat) : M (US σ) (Option Val) := do
  let s ← M.get
  let remaining := left size8 s.rbits / 8
  if remaining < 2 then pure none
  else do
    let offset ← liftR (seekCurrent k.src)
    let buf0 ← liftR (readFull k 1)
    let plen := (buf0.headD 0#8).toNat
    if plen > remaining - 1 then do
      let _ ← liftR (seekReset (k.src.seek offset))
      pure none
    else do
      let buf ← liftR (readFull k plen)
      addR ((buf.length + 1) * 8)
      pure (some (.str buf))

/-- `unmarshalString`, marshaller.go:563-572, 598-605 -/
def unmarshalString (k : Rdr σ) (size8 : Nat) (fi : Field) : M (US σ) Val :=
  if fi.strCP then do
    match ← tryReadPString k size8 with
    | some v => pure v
    | none => unmarshalStringC k size8
  else unmarshalStringC k size8

/-- the loop of `util.ReadString`, internal/util/io.go:8-21, on the bit reader.  `old` is what the buffer contains: if nothing is delivered, it
is taken for the next byte. -/
def readStringZ (k : Source σ) : Nat → Byte → M (RS σ) Bytes
  | 0, _ => M.hang
  | fuel + 1, old => do
    let b ← aligned (readOnce k 1)
    let c := b.headD old
    if c = 0#8 then pure []
    else do
      let rest ← readStringZ k fuel c
      pure (c :: rest)

/-- `Hdlr.OnReadName`, box_types_iso14496_12.go:635-671 -/
def hdlrOnReadName (k : Rdr σ) (leftBits : Nat) (sv : SV) : M (RS σ) (Nat × Bool × SV) :=
  let size := leftBits / 8
  if size = 0 then pure (0, true, sv.set "Name" (.str []))
  else do
    let ok ← readerHasSize k.src size
    if ¬ ok then M.fail .notEnoughBits
    else if maxAlloc < size then M.panic
    else do
      let buf ← readFull k size
      let plen := (buf.headD 0#8).toNat
      if sv.uint "PreDefined" ≠ 0 ∧ 2 ≤ size ∧ size = (plen + 1) % 256 then
        pure (leftBits, true, sv.set "Name" (.str ((buf.drop 1).take plen)))
      else
        pure (leftBits, true, sv.set "Name" (.str (buf.takeWhile (fun c => c != 0#8))))

/-- `OnReadField` of the box, as `Mp4.onRead` -/
def onRead (h : Hook) (k : Rdr σ) (name : String) (leftBits : Nat) (sv : SV) :
    M (RS σ) (Nat × Bool × SV) :=
  match h with
  | .emsg =>
    if sv.version = 0 then pure (0, false, sv)
    else if name = "SchemeIdUri" ∨ name = "Value" then pure (0, true, sv)
    else if name = "MessageData" then do
      let a ← readStringZ k.src k.fuel 0#8
      let b ← readStringZ k.src k.fuel 0#8
      pure ((a.length + b.length + 2) * 8, false,
        (sv.set "SchemeIdUri" (.str a)).set "Value" (.str b))
    else pure (0, false, sv)
  | .hdlr =>
    if name = "Name" then hdlrOnReadName k leftBits sv else pure (0, false, sv)
  | .avcc =>
    if name = "HighProfileFieldsEnabled" then
      pure (0, true, sv.set "HighProfileFieldsEnabled"
        (.bool (decide (32 ≤ leftBits) && avccHigh (sv.uint "Profile"))))
    else pure (0, false, sv)
  | .none => pure (0, false, sv)

/-- elements of an array, decoded in place (marshaller.go:412-421) -/
def arrLoop (f : Val → M (US σ) Val) : List Val → M (US σ) (List Val)
  | [] => pure []
  | c :: cs => do
    let v ← f c
    let vs ← arrLoop f cs
    pure (v :: vs)

/-- one element of a slice, with the check that follows (marshaller.go:463-469) -/
def sliceElem (size8 : Nat) (f : M (US σ) Val) : M (US σ) Val := do
  let v ← f
  let s ← M.get
  if size8 < s.rbits then M.fail .arrayIncomplete else pure v

/-- the loop of `unmarshalSlice` for a given number of elements, marshaller.go:456-470 -/
def countLoop (size8 : Nat) (f : M (US σ) Val) : Nat → M (US σ) (List Val)
  | 0 => pure []
  | n + 1 => do
    let v ← sliceElem size8 f
    let vs ← countLoop size8 f n
    pure (v :: vs)

/-- the same loop for `LengthUnlimited`; see `Mp4.greedyLoop` -/
def greedyLoop (size8 : Nat) (f : M (US σ) Val) : Nat → M (US σ) (List Val)
  | 0 => M.hang
  | fuel + 1 => do
    let s ← M.get
    if size8 ≤ s.rbits then pure []
    else do
      let v ← sliceElem size8 f
      let vs ← greedyLoop size8 f fuel
      pure (v :: vs)

/-- The fast path of `unmarshalSlice`, marshaller.go:441-452 -/
def byteSlice (k : Rdr σ) (length : Nat) : M (US σ) Val := do
  let totalSize := length * 8 % U64 / 8
  let ok ← liftR (readerHasSize k.src totalSize)
  if ¬ ok then M.fail .notEnoughBits
  else do
    alloc totalSize
    let buf ← liftR (copyN k totalSize)
    addR (totalSize * 8)
    pure (.slice (buf.map (fun b => .uint b.toNat)))

/-- `unmarshalSlice`, marshaller.go:423-475, for elements decoded by `f` -/
def unmarshalSlice (k : Rdr σ) (size8 : Nat) (isByte : Bool) (fi : Field) (f : M (US σ) Val) : M (US σ) Val := do
  let s ← M.get
  let lft := left size8 s.rbits
  if fi.length = lengthUnlimited ∧ fi.size ≠ 0 ∧ lft % fi.size ≠ 0 then M.fail .invalidAlignment
  else
    let length :=
      if fi.length = lengthUnlimited then (if fi.size ≠ 0 then lft / fi.size else 0) else fi.length
    if s.rbits % 8 = 0 ∧ isByte ∧ fi.size = 8 then byteSlice k length
    else do
      let l ← if fi.length = lengthUnlimited then greedyLoop size8 f (size8 + 2)
        else countLoop size8 f fi.length
      pure (.slice l)

/-- `unmarshalStructInternal` for a struct with a size, marshaller.go:365-377 -/
def sizedStruct (fi : Field) (m : M (US σ) α) : M (US σ) α := fun s =>
  match m { s with rbits := 0 } with
  | (.ok a, s') =>
    if s'.rbits ≠ fi.size then (.err .invalidAlignment, { s' with rbits := s.rbits + s'.rbits })
    else (.ok a, { s' with rbits := s.rbits + s'.rbits })
  | (.err e, s') => (.err e, { s' with rbits := s.rbits })
  | (.panic, s') => (.panic, s')
  | (.hang, s') => (.hang, s')

/-- `unmarshalStructInternal`, marshaller.go:364-380 -/
def structInternal (size8 : Nat) (fi : Field) (m : Nat → M (US σ) α) : M (US σ) α :=
  if fi.size ≠ 0 ∧ fi.size % 8 = 0 then sizedStruct fi (m (fi.size % U64)) else m size8

mutual
/-- `unmarshal`, marshaller.go:334-357 -/
def unmarshalV (k : Rdr σ) (e : Env) : Ty → Field → Val → M (US σ) Val
  | .ptr t, fi, _ => do
    let v ← unmarshalV k e t fi t.zero
    pure (.ptr (some v))
  | .struct c fs, fi, cur =>
    match cur with
    | .struct sv =>
      structInternal e.size8 fi fun size8 => do
        let sv' ← unmarshalFields k { e with size8 := size8 } false c fs sv
        pure (.struct sv')
    | _ => M.panic
  | .arr _ t, fi, cur =>
    match cur with
    | .arr l => do
      let l' ← arrLoop (fun x => unmarshalV k e t fi x) l
      pure (.arr l')
    | _ => M.panic
  | .slice t, fi, _ => unmarshalSlice k e.size8 t.isByte fi (unmarshalV k e t fi t.zero)
  | .int w, fi, _ => unmarshalInt k w fi
  | .uint w, fi, _ => unmarshalUint k w fi
  | .bool, fi, _ => unmarshalBool k fi
  | .str, fi, _ => unmarshalString k e.size8 fi

/-- `unmarshalStruct`, marshaller.go:382-410; see `Mp4.unmarshalFields` -/
def unmarshalFields (k : Rdr σ) (e : Env) (top : Bool) (c : Option Cfo) : Fields → SV → M (US σ) SV
  | .nil, cur => pure cur
  | .cons f t fs, cur =>
    let root := if top then cur else e.root
    let cf := c.getD e.cfo
    let csv := if c.isSome then cur else root
    match resolve cf e.ctx csv f with
    | none => M.panic
    | some fi =>
      if ¬ isTarget cf e.ctx root csv fi then unmarshalFields k e top c fs cur
      else do
        let s ← M.get
        let (rbits, override, cur) ←
          if top then liftR (onRead e.hook k f.name (left e.size8 s.rbits) cur)
          else pure (0, false, cur)
        addR rbits
        if override then unmarshalFields k e top c fs cur
        else
          match cur.get f.name with
          | none => M.panic
          | some x => do
            let v ← unmarshalV k { e with root := if top then cur else e.root } t fi x
            let cur := cur.set f.name v
            if top ∧ f.name = "FullBox" ∧ ¬ e.supported cur.version then M.fail .unsupportedVersion
            else unmarshalFields k e top c fs cur
end

/-- `Meta.BeforeUnmarshal`, box_types_iso14496_12.go:896-911 -/
def metaBefore (k : Rdr σ) (sv : SV) : M σ (Bool × SV) := do
  let got ← readFullS k 4
  let _ ← seeking (k.src.back 4)
  if got.any (fun b => b != 0#8) then
    pure (true, sv.set "FullBox" (.struct [("Version", .uint 0),
      ("Flags", .arr [.uint 0, .uint 0, .uint 0])]))
  else pure (false, sv)

/-- Environment of `Unmarshal` -/
def env (bd : BoxDef) (ctx : Ctx) (payloadSize : Nat) : Env :=
  ⟨ctx, payloadSize * 8 % U64, [], bd.cfo, bd.hook, bd.supports⟩

/-- `Unmarshal` after `BeforeUnmarshal`, marshaller.go:311-331 -/
def unmarshalBody (k : Rdr σ) (bd : BoxDef) (ctx : Ctx) (payloadSize : Nat) (sv : SV) : M σ (Nat × SV) := fun t =>
  match seeking k.src.tell t with
  | (.ok sn, t) =>
    match unmarshalFields k (env bd ctx payloadSize) true (some bd.cfo) bd.fields sv ⟨⟨t, 0#8, 0⟩, 0⟩ with
    | (.ok sv', st) =>
      if st.rbits % 8 ≠ 0 then (.err .notMultipleOf8, st.r.src)
      else if payloadSize * 8 % U64 < st.rbits then (.err .overrun, st.r.src)
      else (.ok (st.rbits / 8, sv'), st.r.src)
    | (.err e, st) =>
      if e = .unsupportedVersion then (.err .unsupportedVersion, (k.src.seek sn st.r.src).2)
      else (.err e, st.r.src)
    | (.panic, st) => (.panic, st.r.src)
    | (.hang, st) => (.hang, st.r.src)
  | (.err e, t) => (.err e, t)
  | (.panic, t) => (.panic, t)
  | (.hang, t) => (.hang, t)

/-- `Unmarshal`, marshaller.go:286-332 -/
def unmarshalBox (k : Rdr σ) (bd : BoxDef) (ctx : Ctx) (payloadSize : Nat) (dst : SV) : M σ (Nat × SV) := do
  let sv := dst.setVersion anyVersion
  if bd.metaHook then do
    let (override, sv') ← metaBefore k sv
    if override then pure (0, sv') else unmarshalBody k bd ctx payloadSize sv'
  else unmarshalBody k bd ctx payloadSize sv

/-- `UnmarshalAny`, marshaller.go:277-284 -/
def unmarshalAny (k : Rdr σ) (m : BoxMap) (t : BoxType) (payloadSize : Nat) (ctx : Ctx) : M σ (BoxVal × Nat) :=
  match m.new t ctx with
  | .error e => M.fail e
  | .ok box => do
    let (n, sv) ← unmarshalBox k box.bd ctx payloadSize box.sv
    pure ({ box with sv := sv }, n)

/-! ## box_info.go -/

/-- `s.Seek(int64(off), io.SeekStart)`; a position before the beginning is refused -/
def seekStart (k : Source σ) (off : Nat) : M σ Nat :=
  if 2 ^ 63 ≤ off % U64 then M.fail .negativeSeek else seeking (k.seek (off % U64))

/-- `ReadBoxInfo`, box_info.go:102-150 -/
def readBoxInfo (k : Rdr σ) : M σ BoxInfo := do
  let offset ← seeking k.src.tell
  let data ← copyNS k smallHeaderSize
  let bi : BoxInfo := {
    offset := offset
    headerSize := smallHeaderSize
    size := beNat (data.take 4)
    type := ⟨data.getD 4 0, data.getD 5 0, data.getD 6 0, data.getD 7 0⟩ }
  let bi ←
    if bi.size = 0 then do
      let offsetEOF ← seeking k.src.toEnd
      let bi := { bi with size := sub64 offsetEOF bi.offset, extendToEOF := true }
      let _ ← seekStart k.src (add64 bi.offset bi.headerSize)
      pure bi
    else if bi.size = 1 then do
      let data ← copyNS k (largeHeaderSize - smallHeaderSize)
      pure { bi with
        headerSize := bi.headerSize + (largeHeaderSize - smallHeaderSize)
        size := beNat data }
    else pure bi
  if bi.size = 0 then M.fail .invalidSize
  else pure bi

end Mp4.Src
