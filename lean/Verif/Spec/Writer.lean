import Verif.Model.Write

/-!
# What a sequence of calls of a `Writer` should produce
-/

namespace Mp4

/-- The three forms of a box header: 32-bit size, 64-bit size, "up to the end of the file". -/
inductive Form where
  | small | large | toEnd
  deriving DecidableEq, Repr

namespace Form

/-- length of the header -/
def len : Form → Nat
  | small => 8
  | large => 16
  | toEnd => 8

/-- `n` in `k` bytes, most significant first -/
def bigEndian (k n : Nat) : Bytes := (List.range k).map fun i => BitVec.ofNat 8 (n / 256 ^ (k - 1 - i))

/-- The header of a box of this type and size. -/
def header (f : Form) (t : BoxType) (size : Nat) : Bytes :=
  match f with
  | small => bigEndian 4 size ++ [t.b0, t.b1, t.b2, t.b3]
  | large => bigEndian 4 1 ++ [t.b0, t.b1, t.b2, t.b3] ++ bigEndian 8 size
  | toEnd => bigEndian 4 0 ++ [t.b0, t.b1, t.b2, t.b3]

/-- The form that the argument of `StartBox` asks for: a box can be made to have a 64-bit size by giving it a header size of 16 or a
size that needs it. -/
def of (bi : BoxInfo) : Form :=
  if bi.extendToEOF then toEnd else if bi.headerSize = 16 ∨ 2 ^ 32 ≤ bi.size then large else small

end Form

/-- What is written, one after the other: plain bytes, a copy of the box `bi` of another file,
the fields of a box (by `Marshal`), or a box; `start` is the argument of `StartBox`. -/
inductive WTree where
  | nil
  | bytes (p : Bytes) (rest : WTree)
  | copy (src : Bytes) (bi : BoxInfo) (rest : WTree)
  | fields (bd : BoxDef) (ctx : Ctx) (sv : SV) (rest : WTree)
  | box (start : BoxInfo) (body rest : WTree)

namespace WTree

/-- The calls. -/
def ops : WTree → List WOp
  | nil => []
  | bytes p rest => .write p :: rest.ops
  | copy src bi rest => .copy src bi :: rest.ops
  | fields bd ctx sv rest => .marshal bd ctx sv :: rest.ops
  | box start body rest => .start start :: (body.ops ++ .close :: rest.ops)

/-- The bytes.  `Marshal` writes into the writer what it appends to an empty buffer (see C05 and C06 for what that is). -/
def ser : WTree → Bytes
  | nil => []
  | bytes p rest => p ++ rest.ser
  | copy src bi rest => (src.drop bi.offset).take bi.size ++ rest.ser
  | fields bd ctx sv rest => (marshalBox bd memSink ctx sv []).2 ++ rest.ser
  | box start body rest =>
    (Form.of start).header start.type ((Form.of start).len + body.ser.length) ++ body.ser ++ rest.ser

/-- The sizes fit the headers, the boxes copied are inside their files, and the fields can be marshalled. -/
def Fits : WTree → Prop
  | nil => True
  | bytes _ rest => rest.Fits
  | copy src bi rest => bi.offset + bi.size ≤ src.length ∧ src.length < 2 ^ 63 ∧ rest.Fits
  | fields bd ctx sv rest => (∃ n, (marshalBox bd memSink ctx sv []).1 = .ok n) ∧ rest.Fits
  | box start body rest =>
    (Form.of start = .small → 8 + body.ser.length < 2 ^ 32) ∧ body.Fits ∧ rest.Fits

/-- The boxes that the calls return when the first byte is written at `pos`.  The size reported by `StartBox` is the size given,
corrected for the new header size. -/
def results : WTree → Nat → List (Option BoxInfo)
  | nil, _ => []
  | bytes p rest, pos => none :: rest.results (pos + p.length)
  | copy _ bi rest, pos => none :: rest.results (pos + bi.size)
  | fields bd ctx sv rest, pos => none :: rest.results (pos + (marshalBox bd memSink ctx sv []).2.length)
  | box start body rest, pos =>
    let f := Form.of start
    let size := f.len + body.ser.length
    some { offset := pos, size := ((start.size - start.headerSize + f.len : Int) % 2 ^ 64).toNat, headerSize := f.len,
           type := start.type, extendToEOF := start.extendToEOF } ::
    (body.results (pos + f.len) ++
      some { offset := pos, size := size, headerSize := f.len, type := start.type, extendToEOF := start.extendToEOF } ::
      rest.results (pos + size))

end WTree

/-- The calls are well nested: no `EndBox` without an open box (`depth` are open at the beginning), none left open at the end. -/
def WellNested : List WOp → Nat → Prop
  | [], depth => depth = 0
  | .start _ :: os, depth => WellNested os (depth + 1)
  | .close :: os, depth => 0 < depth ∧ WellNested os (depth - 1)
  | .write _ :: os, depth => WellNested os depth
  | .copy _ _ :: os, depth => WellNested os depth
  | .marshal _ _ _ :: os, depth => WellNested os depth

end Mp4
