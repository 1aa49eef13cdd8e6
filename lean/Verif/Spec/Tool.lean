import Verif.Model.Basic
import Verif.Spec.Golden

/-!
# What the output of `mp4tool` means
-/

namespace Mp4.Props

open Mp4 Mp4.Spec

/-! ## RFC 4648, section 4: Base 64 encoding -/

/-- the value of a character of the alphabet (table 1); characters are given by their codes -/
def sextet (c : Nat) : Option Nat :=
  if 65 ≤ c ∧ c ≤ 90 then some (c - 65)
  else if 97 ≤ c ∧ c ≤ 122 then some (c - 97 + 26)
  else if 48 ≤ c ∧ c ≤ 57 then some (c - 48 + 52)
  else if c = 43 then some 62
  else if c = 47 then some 63
  else none

/-- Decode a text; four characters stand for three bytes, and the last group is filled up with `=`, the bits that remain being zero. -/
def unbase64 : List Nat → Option Bytes
  | [] => some []
  | a :: b :: c :: e :: l =>
    match sextet a, sextet b with
    | some x, some y =>
      if c = 61 then
        if e = 61 ∧ l = [] ∧ y % 16 = 0 then some [BitVec.ofNat 8 (x * 4 + y / 16)] else none
      else
        match sextet c with
        | none => none
        | some z =>
          if e = 61 then
            if l = [] ∧ z % 4 = 0 then some [BitVec.ofNat 8 (x * 4 + y / 16), BitVec.ofNat 8 (y % 16 * 16 + z / 4)] else none
          else
            match sextet e with
            | none => none
            | some w => (unbase64 l).map fun r =>
                BitVec.ofNat 8 (x * 4 + y / 16) :: BitVec.ofNat 8 (y % 16 * 16 + z / 4) :: BitVec.ofNat 8 (z % 4 * 64 + w) :: r
    | _, _ => none
  | _ => none

/-! ## Hexadecimal -/

/-- a digit -/
def hexChar (n : Nat) : Nat := if n < 10 then 48 + n else 87 + n

/-- two digits per byte -/
def hexText (b : Bytes) : List Nat := b.flatMap fun x => [hexChar (x.toNat / 16), hexChar (x.toNat % 16)]

/-- a UUID (RFC 4122): 8-4-4-4-12 digits -/
def uuidForm (b : Bytes) : List Nat :=
  hexText (b.take 4) ++ 45 :: hexText ((b.drop 4).take 2) ++ 45 :: hexText ((b.drop 6).take 2) ++ 45 :: hexText ((b.drop 8).take 2) ++
    45 :: hexText (b.drop 10)

/-! ## Protection system specific header, ISO/IEC 23001-7, 8.1 -/

/-- the contents of a `pssh` box -/
structure PsshBox where
  version : Nat
  f0 : Nat
  f1 : Nat
  f2 : Nat
  system : Bytes
  kids : List Bytes
  data : Bytes

/-- possible contents -/
structure PsshBox.WF (x : PsshBox) : Prop where
  version : x.version = 0 ∨ x.version = 1
  flags : x.f0 < 256 ∧ x.f1 < 256 ∧ x.f2 < 256
  system : x.system.length = 16
  none : x.version = 0 → x.kids = []
  kids : ∀ k ∈ x.kids, k.length = 16
  many : x.kids.length < 2 ^ 32 - 1
  data : x.data.length < 2 ^ 31

/-- Their layout; the identifiers of the keys are there from version 1 on. -/
def PsshBox.bits (x : PsshBox) : List Bool :=
  verFlags x.version x.f0 x.f1 x.f2 ++ bytesBits x.system ++
    (if x.version = 0 then [] else ints [(32, x.kids.length)] ++ x.kids.flatMap bytesBits) ++
    ints [(32, x.data.length)] ++ bytesBits x.data

end Mp4.Props
