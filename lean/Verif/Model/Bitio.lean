import Verif.Model.Basic

/-!
# internal/bitio: the bit reader and writer
-/

namespace Mp4

/-- State of `bitio.readSeeker` on top of a `bytes.Reader`
(internal/bitio/read.go:21-25, 75-78).  `pos` is the position of the underlying
stream, `octet`/`width` the partly consumed byte. -/
structure RSt where
  pos : Nat
  octet : Byte
  width : Nat
  deriving DecidableEq, Repr

/-- A fresh bit reader on a stream at `pos` (internal/bitio/read.go:80-85). -/
def RSt.fresh (pos : Nat) : RSt := ⟨pos, 0#8, 0⟩

/-- Computations on a bit reader. -/
abbrev RM := M RSt

/-- `reader.ReadBit`, internal/bitio/read.go:59-73.  A `bytes.Reader` never
returns `(0, nil)` for a one-byte buffer, so `ErrDiscouragedReader` cannot occur. -/
def readBit (d : Bytes) : RM Bool := fun s =>
  if s.width = 0 then
    match d[s.pos]? with
    | none => (.err .eof, s)
    | some b => (.ok (b.getLsbD 7), ⟨s.pos + 1, b, 7⟩)
  else
    (.ok (s.octet.getLsbD (s.width - 1)), { s with width := s.width - 1 })

/-- The loop of `reader.ReadBits`, internal/bitio/read.go:43-54: `k` bits are
still to be read, `idx` is `offset+i`. -/
def readBitsLoop (d : Bytes) : Nat → Nat → Bytes → RM Bytes
  | 0, _, data => pure data
  | k + 1, idx, data => do
    let bit ← readBit d
    let data' := if bit then
        data.modify (idx / 8) (fun x => x ||| (1#8 <<< (7 - idx % 8))) else data
    readBitsLoop d k (idx + 1) data'

/-- `reader.ReadBits`, internal/bitio/read.go:38-57. -/
def readBits (d : Bytes) (size : Nat) : RM Bytes :=
  let nbytes := (size + 7) / 8
  readBitsLoop d size (nbytes * 8 - size) (List.replicate nbytes 0#8)

/-- `reader.Read`, internal/bitio/read.go:31-36, on a buffer of `n ≥ 1` bytes over a
`bytes.Reader`: returns at most `n` bytes, `io.EOF` if none is left. -/
def readSome (d : Bytes) (n : Nat) : RM Bytes := fun s =>
  if s.width ≠ 0 then (.err .bitAlignment, s)
  else
    let got := (d.drop s.pos).take n
    if d.length ≤ s.pos then (.err .eof, s)
    else (.ok got, { s with pos := s.pos + got.length })

/-- `io.ReadFull(r, buf)` on the bit reader with a buffer of `n` bytes: `io.EOF` if
nothing was read, `io.ErrUnexpectedEOF` if less than `n` was read. -/
def readFull (d : Bytes) (n : Nat) : RM Bytes := fun s =>
  if n = 0 then (.ok [], s)
  else if s.width ≠ 0 then (.err .bitAlignment, s)
  else
    let got := (d.drop s.pos).take n
    if got.length = 0 then (.err .eof, s)
    else if got.length < n then (.err .unexpectedEOF, { s with pos := s.pos + got.length })
    else (.ok got, { s with pos := s.pos + got.length })

/-- `io.CopyN(buf, r, n)` from the bit reader into a buffer, for `n` given as the
unsigned number that Go converts with `int64(n)`.  For `n ≥ 2^63` the
conversion is negative and `io.CopyN` copies nothing and returns no error. -/
def copyN (d : Bytes) (n : Nat) : RM Bytes := fun s =>
  if n = 0 ∨ 2 ^ 63 ≤ n then (.ok [], s)
  else if s.width ≠ 0 then (.err .bitAlignment, s)
  else
    let got := (d.drop s.pos).take n
    if got.length < n then (.err .eof, { s with pos := s.pos + got.length })
    else (.ok got, { s with pos := s.pos + got.length })

/-- `readSeeker.Seek(0, io.SeekCurrent)`, internal/bitio/read.go:87-97. -/
def seekCurrent : RM Nat := fun s =>
  if s.width ≠ 0 then (.err .bitAlignment, s) else (.ok s.pos, s)

/-- `readSeeker.Seek(0, io.SeekEnd)`, internal/bitio/read.go:87-97. -/
def seekEnd (d : Bytes) : RM Nat := fun s =>
  (.ok d.length, { s with pos := d.length, width := 0 })

/-- `readSeeker.Seek(p, io.SeekStart)` for a position obtained from the stream
(hence not negative), internal/bitio/read.go:87-97. -/
def seekStart (p : Nat) : RM Unit := fun s =>
  (.ok (), { s with pos := p, width := 0 })

/-- `readerHasSize`, marshaller.go:20-37.  `uint64(end-pre)` wraps around when the
position is past the end.  Errors of `Seek` make it return false. -/
def readerHasSize (d : Bytes) (size : Nat) : RM Bool := fun s =>
  match seekCurrent s with
  | (.ok pre, s1) =>
    match seekEnd d s1 with
    | (.ok e, s2) =>
      if sub64 e pre < size then (.ok false, s2)
      else
        match seekStart pre s2 with
        | (.ok _, s3) => (.ok true, s3)
        | (_, s3) => (.ok false, s3)
    | (_, s2) => (.ok false, s2)
  | (_, s1) => (.ok false, s1)

/-! ## Writer -/

/-- A destination `io.Writer`: any state and any behaviour.  `write p s` returns
whether the call succeeded (`true`) and the new state. -/
structure Sink (σ : Type) where
  write : Bytes → σ → Bool × σ

/-- The in-memory destination (`bytes.Buffer`): never fails, appends. -/
def memSink : Sink Bytes := ⟨fun p s => (true, s ++ p)⟩

/-- State of `bitio.writer` (internal/bitio/write.go:18-22) and of its destination. -/
structure WSt (σ : Type) where
  sink : σ
  octet : Byte
  width : Nat

/-- A fresh bit writer (internal/bitio/write.go:24-26). -/
def WSt.fresh {σ : Type} (s : σ) : WSt σ := ⟨s, 0#8, 0⟩

/-- Computations on a bit writer. -/
abbrev WM (σ : Type) := M (WSt σ)

variable {σ : Type}

/-- `writer.WriteBit`, internal/bitio/write.go:47-61.  When the destination fails,
`octet` and `width` keep their values (the byte is lost and `width` stays 8).
For `width ≥ 8` (only after such a failure) the Go shift `0x1 << (7 - width)` has
a huge unsigned count and yields 0. -/
def writeBit (k : Sink σ) (bit : Bool) : WM σ Unit := fun s =>
  let octet := if bit ∧ s.width ≤ 7 then s.octet ||| (1#8 <<< (7 - s.width)) else s.octet
  let width := s.width + 1
  if width = 8 then
    match k.write [octet] s.sink with
    | (true, t) => (.ok (), ⟨t, 0#8, 0⟩)
    | (false, t) => (.err .sink, ⟨t, octet, width⟩)
  else (.ok (), ⟨s.sink, octet, width⟩)

/-- The loop of `writer.WriteBits` over the bits `i`, `i+1`, ... (`n` of them) of
`data`, internal/bitio/write.go:38-43. -/
def writeBitsLoop (k : Sink σ) (data : Bytes) : Nat → Nat → WM σ Unit
  | 0, _ => pure ()
  | n + 1, i => do
    writeBit k ((data.getD (i / 8) 0#8).getLsbD (7 - i % 8))
    writeBitsLoop k data n (i + 1)

/-- `writer.WriteBits`, internal/bitio/write.go:35-45.  For `width > 8*len(data)` the
start index `length - width` wraps around and the loop body is never executed. -/
def writeBits (k : Sink σ) (data : Bytes) (width : Nat) : WM σ Unit :=
  if width ≤ data.length * 8 then writeBitsLoop k data width (data.length * 8 - width)
  else pure ()

/-- `writer.Write`, internal/bitio/write.go:28-33. -/
def writeRaw (k : Sink σ) (p : Bytes) : WM σ Unit := fun s =>
  if s.width ≠ 0 then (.err .bitAlignment, s)
  else
    match k.write p s.sink with
    | (true, t) => (.ok (), { s with sink := t })
    | (false, t) => (.err .sink, { s with sink := t })

end Mp4
