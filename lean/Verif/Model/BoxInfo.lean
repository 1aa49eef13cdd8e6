import Verif.Model.Box

/-!
# box_info.go: reading and writing box headers

A plain `io.ReadSeeker` over a byte string `d` (`bytes.Reader`) is represented by
its position only; `d` is a parameter.
-/

namespace Mp4

/-- `Context`, box_info.go:11-32. -/
structure Ctx where
  isQuickTimeCompatible : Bool := false
  quickTimeKeysMetaEntryCount : Int := 0
  underWave : Bool := false
  underIlst : Bool := false
  underIlstMeta : Bool := false
  underIlstFreeMeta : Bool := false
  underUdta : Bool := false
  deriving DecidableEq, Repr

/-- `BoxInfo`, box_info.go:35-53.  The `uint64` fields are natural numbers below 2^64. -/
structure BoxInfo where
  offset : Nat := 0
  size : Nat := 0
  headerSize : Nat := 0
  type : BoxType
  extendToEOF : Bool := false
  ctx : Ctx := {}
  deriving DecidableEq, Repr

/-- `SmallHeaderSize`, box_info.go:60. -/
def smallHeaderSize : Nat := 8
/-- `LargeHeaderSize`, box_info.go:61. -/
def largeHeaderSize : Nat := 16

/-- Computations on a `bytes.Reader`; the state is the position. -/
abbrev PM := M Nat

/-- `io.CopyN(buf, r, n)` from a `bytes.Reader` at a position; see `copyN`. -/
def copyNP (d : Bytes) (n : Nat) : PM Bytes := fun pos =>
  if n = 0 ∨ 2 ^ 63 ≤ n then (.ok [], pos)
  else
    let got := (d.drop pos).take n
    if got.length < n then (.err .eof, pos + got.length)
    else (.ok got, pos + got.length)

/-- `r.Seek(int64(off), io.SeekStart)` on a `bytes.Reader`, for an unsigned `off`: the
conversion is negative from 2^63 on, which the reader refuses. -/
def seekStartP (off : Nat) : PM Nat := fun pos =>
  if 2 ^ 63 ≤ off % U64 then (.err .negativeSeek, pos) else (.ok (off % U64), off % U64)

/-- `r.Seek(0, io.SeekEnd)`. -/
def seekEndP (d : Bytes) : PM Nat := fun _ => (.ok d.length, d.length)

/-- big-endian number of a byte string (`binary.BigEndian.Uint32`/`Uint64`) -/
def beNat (b : Bytes) : Nat := b.foldl (fun v x => v * 256 + x.toNat) 0

/-- `n` bytes of `v`, big endian (`binary.BigEndian.PutUint32`/`PutUint64`) -/
def beBytes : Nat → Nat → Bytes
  | 0, _ => []
  | n + 1, v => BitVec.ofNat 8 (v / 256 ^ n) :: beBytes n v

/-- `BoxInfo.SeekToStart`, box_info.go:152-154. -/
def BoxInfo.seekToStart (bi : BoxInfo) : PM Nat := seekStartP bi.offset
/-- `BoxInfo.SeekToPayload`, box_info.go:156-158. -/
def BoxInfo.seekToPayload (bi : BoxInfo) : PM Nat := seekStartP (add64 bi.offset bi.headerSize)
/-- `BoxInfo.SeekToEnd`, box_info.go:160-162. -/
def BoxInfo.seekToEnd (bi : BoxInfo) : PM Nat := seekStartP (add64 bi.offset bi.size)

/-- `ReadBoxInfo`, box_info.go:102-150. -/
def readBoxInfo (d : Bytes) : PM BoxInfo := do
  let offset ← M.get
  let data ← copyNP d smallHeaderSize
  let bi : BoxInfo := {
    offset := offset
    headerSize := smallHeaderSize
    size := beNat (data.take 4)
    type := ⟨data.getD 4 0, data.getD 5 0, data.getD 6 0, data.getD 7 0⟩ }
  let bi ←
    if bi.size = 0 then do
      let offsetEOF ← seekEndP d
      let bi := { bi with size := sub64 offsetEOF bi.offset, extendToEOF := true }
      let _ ← bi.seekToPayload
      pure bi
    else if bi.size = 1 then do
      let data ← copyNP d (largeHeaderSize - smallHeaderSize)
      pure { bi with
        headerSize := bi.headerSize + (largeHeaderSize - smallHeaderSize)
        size := beNat data }
    else pure bi
  if bi.size = 0 then M.fail .invalidSize
  else pure bi

/-- The header bytes and the resulting header length of `WriteBoxInfo`,
box_info.go:72-87. -/
def boxInfoBytes (bi : BoxInfo) : Bytes :=
  let ty := bi.type.bytes
  if bi.extendToEOF then beBytes 4 0 ++ ty
  else if bi.size ≤ 2 ^ 32 - 1 ∧ bi.headerSize ≠ largeHeaderSize then beBytes 4 bi.size ++ ty
  else beBytes 4 1 ++ ty ++ beBytes 8 bi.size

/-- The `BoxInfo` returned by `WriteBoxInfo` at offset `offset`, box_info.go:93-99. -/
def boxInfoWritten (bi : BoxInfo) (offset : Nat) : BoxInfo where
  offset := offset
  size := add64 (sub64 bi.size bi.headerSize) (boxInfoBytes bi).length
  headerSize := (boxInfoBytes bi).length
  type := bi.type
  extendToEOF := bi.extendToEOF

end Mp4
