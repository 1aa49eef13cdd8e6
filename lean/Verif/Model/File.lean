import Verif.Model.BoxInfo

/-!
# A seekable file in memory, with faults

The `io.WriteSeeker` given to `NewWriter`/`WriteBoxInfo`.  A fault schedule says,
for the n-th call, whether it fails; a failing `Write` may have written a prefix.
-/

namespace Mp4

/-- State of the destination: contents, position, number of calls made so far. -/
structure FSt where
  data : Bytes
  pos : Nat
  calls : Nat
  deriving DecidableEq, Repr

/-- Fault schedule: `write n = some k` — call `n`, a `Write`, fails after having
written `k` bytes; `seek n` — call `n`, a `Seek`, fails. -/
structure Faults where
  write : Nat → Option Nat
  seek : Nat → Bool

/-- No call fails. -/
def noFaults : Faults := ⟨fun _ => none, fun _ => false⟩

/-- Computations on the file. -/
abbrev FM := M FSt

/-- Contents after writing `p` at `pos`; a gap past the end is filled with zeros.  Writing nothing does not change the file. -/
def writeAt (data : Bytes) (pos : Nat) (p : Bytes) : Bytes :=
  if p = [] then data
  else data.take pos ++ List.replicate (pos - data.length) 0#8 ++ p ++ data.drop (pos + p.length)

/-- `Write(p)` -/
def fWrite (F : Faults) (p : Bytes) : FM Unit := fun s =>
  match F.write s.calls with
  | none => (.ok (), ⟨writeAt s.data s.pos p, s.pos + p.length, s.calls + 1⟩)
  | some k =>
    (.err .sink, ⟨writeAt s.data s.pos (p.take k), s.pos + (p.take k).length, s.calls + 1⟩)

/-- `Seek(0, io.SeekCurrent)` -/
def fSeekCur (F : Faults) : FM Nat := fun s =>
  if F.seek s.calls then (.err .sink, { s with calls := s.calls + 1 })
  else (.ok s.pos, { s with calls := s.calls + 1 })

/-- `Seek(int64(off), io.SeekStart)` for an unsigned `off` -/
def fSeekStart (F : Faults) (off : Nat) : FM Nat := fun s =>
  if F.seek s.calls then (.err .sink, { s with calls := s.calls + 1 })
  else if 2 ^ 63 ≤ off % U64 then (.err .negativeSeek, { s with calls := s.calls + 1 })
  else (.ok (off % U64), ⟨s.data, off % U64, s.calls + 1⟩)

/-- `Seek(0, io.SeekEnd)` -/
def fSeekEnd (F : Faults) : FM Nat := fun s =>
  if F.seek s.calls then (.err .sink, { s with calls := s.calls + 1 })
  else (.ok s.data.length, ⟨s.data, s.data.length, s.calls + 1⟩)

/-- `WriteBoxInfo`, box_info.go:66-100. -/
def writeBoxInfo (F : Faults) (bi : BoxInfo) : FM BoxInfo := do
  let offset ← fSeekCur F
  fWrite F (boxInfoBytes bi)
  pure (boxInfoWritten bi offset)

end Mp4
