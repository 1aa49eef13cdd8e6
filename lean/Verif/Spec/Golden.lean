import Verif.Spec.Layout
import Verif.Model.Marshal
import Verif.Model.Unmarshal

/-!
# Encodings of particular boxes

What it means that a Go value of a box type is the decoded form of a given string of bits, and shorthands for parts of Go
values.
-/

namespace Mp4.Spec

open Mp4

/-- The embedded `FullBox` with this version and these three bytes of flags. -/
def fullBox (version f0 f1 f2 : Nat) : String × Val :=
  ("FullBox", .struct [("Version", .uint version), ("Flags", .arr [.uint f0, .uint f1, .uint f2])])

/-- A byte string as the elements of a `[]byte`. -/
def goBytes (b : Bytes) : List Val := b.map fun x => .uint x.toNat

/-- The box type `bd` has this encoding of the value `sv` in the context `ctx`: `Marshal` appends exactly these bits, and
`Unmarshal` of them, anywhere in a stream, gives the value back. -/
def Encodes (bd : BoxDef) (ctx : Ctx) (sv : SV) (bits : List Bool) : Prop :=
  ∃ p : Bytes, bytesBits p = bits ∧
    (∀ out, marshalBox bd memSink ctx sv out = (.ok p.length, out ++ p)) ∧
    ∀ pre rest : Bytes, (pre ++ p ++ rest).length < 2 ^ 64 →
      unmarshalBox bd (pre ++ p ++ rest) ctx p.length bd.fields.zero pre.length = (.ok (p.length, sv), pre.length + p.length)

/-- Unsigned integers of the given widths, most significant bit first. -/
def ints : List (Nat × Nat) → List Bool
  | [] => []
  | (w, n) :: l => natBits w n ++ ints l

/-- A signed integer in two's complement. -/
def sint (w : Nat) (i : Int) : List Bool := natBits w (i % (2 ^ w : Nat)).toNat

/-- Version and flags of a full box. -/
def verFlags (version f0 f1 f2 : Nat) : List Bool := ints [(8, version), (8, f0), (8, f1), (8, f2)]

/-- A signed integer of `w` bits. -/
def IsInt (w : Nat) (i : Int) : Prop := -(2 ^ (w - 1) : Nat) ≤ i ∧ i < (2 ^ (w - 1) : Nat)

instance (w : Nat) (i : Int) : Decidable (IsInt w i) := inferInstanceAs (Decidable (_ ∧ _))

end Mp4.Spec
