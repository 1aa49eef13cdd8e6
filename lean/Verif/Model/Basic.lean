/-!
# Bytes, bits, outcomes

Basic vocabulary shared by all parts of the model.
-/

namespace Mp4

/-- A Go `byte`. -/
abbrev Byte := BitVec 8

/-- A Go string or byte slice. -/
abbrev Bytes := List Byte

/-- The errors the modelled functions can return.  Go error values that carry a
formatted message are represented by one constructor per message. -/
inductive Err where
  /-- `io.EOF` -/
  | eof
  /-- `io.ErrUnexpectedEOF` (from `io.ReadFull`) -/
  | unexpectedEOF
  /-- `bitio.ErrInvalidAlignment`, internal/bitio/bitio.go:6 -/
  | bitAlignment
  /-- any error of a seek to a negative position (`bytes.Reader.Seek: negative position`) -/
  | negativeSeek
  /-- `ErrUnsupportedBoxVersion`, marshaller.go:18 -/
  | unsupportedVersion
  /-- `ErrBoxInfoNotFound`, mp4.go:11 -/
  | boxInfoNotFound
  /-- "not enough bits", marshaller.go:444, box_types_iso14496_12.go:643 -/
  | notEnoughBits
  /-- "invalid alignment", marshaller.go:374, 432 -/
  | invalidAlignment
  /-- "failed to read array completely", marshaller.go:468 -/
  | arrayIncomplete
  /-- "box size is not multiple of 8 bits", marshaller.go:65, 324 -/
  | notMultipleOf8
  /-- "overrun error", marshaller.go:328 -/
  | overrun
  /-- "size must not be zero", marshaller.go:483, 524, 545 -/
  | sizeZero
  /-- "signed varint is unsupported", marshaller.go:163, 479 -/
  | signedVarint
  /-- "the slice has too few elements", marshaller.go:139 -/
  | tooFewElements
  /-- "each values of Profile and HighProfileFieldsEnabled are inconsistent",
  box_types_iso14496_12.go:1398 -/
  | inconsistentProfile
  /-- "invalid size", box_info.go:147 -/
  | invalidSize
  /-- "too large box size", read.go:172 -/
  | tooLargeBoxSize
  /-- "unexpected EOF", read.go:195 -/
  | unexpectedEndOfBox
  /-- "box path must not be empty", extract.go:56 -/
  | emptyPath
  /-- "header size changed", write.go:50 -/
  | headerSizeChanged
  /-- "failed to copy box", write.go:65 -/
  | copyFailed
  /-- an error of the destination writer -/
  | sink
  /-- an error produced by user code (handlers, callbacks) -/
  | user (n : Nat)
  /-- an error with a fixed text -/
  | msg (s : String)
  deriving DecidableEq, Repr

/-- Outcome of running a piece of Go code: normal return, returned error, run-time
panic, or no return at all (the loop fuel is used up). -/
inductive Out (α : Type) where
  | ok (a : α)
  | err (e : Err)
  | panic
  | hang
  deriving DecidableEq, Repr

namespace Out
/-- Did the call return normally? -/
def isOk {α : Type} : Out α → Bool
  | ok _ => true
  | _ => false
end Out

/-- Stateful computations; the state survives errors, as it does in Go. -/
def M (σ α : Type) := σ → Out α × σ

namespace M
variable {σ α β : Type}

/-- return a value -/
@[inline] def pure (a : α) : M σ α := fun s => (.ok a, s)
/-- sequencing: errors, panics and non-termination stop the computation -/
@[inline] def bind (m : M σ α) (f : α → M σ β) : M σ β := fun s =>
  match m s with
  | (.ok a, s') => f a s'
  | (.err e, s') => (.err e, s')
  | (.panic, s') => (.panic, s')
  | (.hang, s') => (.hang, s')
instance : Monad (M σ) where
  pure := M.pure
  bind := M.bind
/-- return an error -/
@[inline] def fail (e : Err) : M σ α := fun s => (.err e, s)
/-- run-time panic -/
@[inline] def panic : M σ α := fun s => (.panic, s)
/-- no return -/
@[inline] def hang : M σ α := fun s => (.hang, s)
/-- read the state -/
@[inline] def get : M σ σ := fun s => (.ok s, s)
/-- change the state -/
@[inline] def modify (f : σ → σ) : M σ Unit := fun s => (.ok (), f s)

@[simp] theorem pure_run (a : α) (s : σ) : (Pure.pure a : M σ α) s = (.ok a, s) := (rfl)
@[simp] theorem fail_run (e : Err) (s : σ) : (fail e : M σ α) s = (.err e, s) := (rfl)
@[simp] theorem panic_run (s : σ) : (panic : M σ α) s = (.panic, s) := (rfl)
@[simp] theorem hang_run (s : σ) : (hang : M σ α) s = (.hang, s) := (rfl)
@[simp] theorem get_run (s : σ) : (get : M σ σ) s = (.ok s, s) := (rfl)
@[simp] theorem modify_run (f : σ → σ) (s : σ) : (modify f : M σ Unit) s = (.ok (), f s) := (rfl)
theorem bind_run (m : M σ α) (f : α → M σ β) (s : σ) :
    (m >>= f) s = match m s with
      | (.ok a, s') => f a s'
      | (.err e, s') => (.err e, s')
      | (.panic, s') => (.panic, s')
      | (.hang, s') => (.hang, s') := (rfl)
theorem bind_ok {m : M σ α} {f : α → M σ β} {s s' : σ} {a : α} (h : m s = (.ok a, s')) :
    (m >>= f) s = f a s' := by rw [bind_run, h]
theorem bind_err {m : M σ α} {f : α → M σ β} {s s' : σ} {e : Err} (h : m s = (.err e, s')) :
    (m >>= f) s = (.err e, s') := by rw [bind_run, h]
theorem bind_panic {m : M σ α} {f : α → M σ β} {s s' : σ} (h : m s = (.panic, s')) :
    (m >>= f) s = (.panic, s') := by rw [bind_run, h]
theorem bind_hang {m : M σ α} {f : α → M σ β} {s s' : σ} (h : m s = (.hang, s')) :
    (m >>= f) s = (.hang, s') := by rw [bind_run, h]
end M

/-- 2^64, the modulus of Go's `uint64`. -/
abbrev U64 : Nat := 2 ^ 64
/-- 2^32, the modulus of Go's `uint32`. -/
abbrev U32 : Nat := 2 ^ 32

/-- `a - b` on `uint64`. -/
def sub64 (a b : Nat) : Nat := (a + (U64 - b % U64)) % U64
/-- `a + b` on `uint64`. -/
def add64 (a b : Nat) : Nat := (a + b) % U64
/-- `a - b` on `uint32`. -/
def sub32 (a b : Nat) : Nat := (a + (U32 - b % U32)) % U32
/-- `a + b` on `uint32`. -/
def add32 (a b : Nat) : Nat := (a + b) % U32

/-- The bits of a byte, most significant first. -/
def byteBits (b : Byte) : List Bool :=
  [b.getLsbD 7, b.getLsbD 6, b.getLsbD 5, b.getLsbD 4,
   b.getLsbD 3, b.getLsbD 2, b.getLsbD 1, b.getLsbD 0]

/-- The bits of a byte string, most significant first. -/
def bytesBits : Bytes → List Bool
  | [] => []
  | b :: bs => byteBits b ++ bytesBits bs

/-- The `w` low bits of `n`, most significant first. -/
def natBits : Nat → Nat → List Bool
  | 0, _ => []
  | w + 1, n => n.testBit w :: natBits w n

/-- The number with the given binary digits, most significant first. -/
def bitsNat (bs : List Bool) : Nat :=
  bs.foldl (fun acc b => 2 * acc + b.toNat) 0

/-- The byte whose bits are the first eight of the list (missing ones are 0). -/
def bitsByte (bs : List Bool) : Byte := BitVec.ofNat 8 (bitsNat (bs ++ List.replicate (8 - bs.length) false))

end Mp4
