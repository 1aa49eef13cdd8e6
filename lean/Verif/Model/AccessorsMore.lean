import Verif.Model.Accessors
import Verif.Model.Playlist

/-!
# box_types_iso14496_12.go: the accessors that return floating point numbers or lists of strings

`strings.Fields` follows its description in the Go standard library.
-/

namespace Mp4.Acc

open Mp4 Mp4.Str Mp4.Tool

/-- `float64(n) / (1 << 16)` of an unsigned integer: a conversion and a division, each rounded -/
def fixed16 (n : Nat) : F64 := (F64.ofNat n).div (F64.ofNat (2 ^ 16))

/-- `Tkhd.GetWidth`, box_types_iso14496_12.go:2260-2262 -/
def tkhdWidth (sv : SV) : F64 := fixed16 (sv.uint "Width")
/-- `Tkhd.GetHeight`, box_types_iso14496_12.go:2270-2272 -/
def tkhdHeight (sv : SV) : F64 := fixed16 (sv.uint "Height")
/-- `AudioSampleEntry.GetSampleRate`, box_types_iso14496_12.go:1311-1313 -/
def audioSampleRate (sv : SV) : F64 := fixed16 (sv.uint "SampleRate")

/-- A `float64` with its sign. -/
structure SF64 where
  neg : Bool
  mag : F64
  deriving DecidableEq, Repr

/-- `Mvhd.GetRate`, box_types_iso14496_12.go:1117-1119.  (Rounding to the nearest number is symmetric; zero is positive.) -/
def mvhdRate (sv : SV) : SF64 := ⟨decide (sv.int "Rate" < 0), fixed16 (sv.int "Rate").natAbs⟩

/-! ## float32 -/

/-- A `float32` that is not negative; `fin n` is the number n / 2^149. -/
inductive F32 where
  | fin (n : Nat)
  | inf
  deriving DecidableEq, Repr

/-- 2^149, the number one -/
def f32One : Nat := 2 ^ 149

/-- the distance of the numbers next to `q`: 24 binary digits, but no less than the unit -/
def ulp32 (q : Nat) : Nat := 2 ^ (Nat.log2 q - 23)

/-- `x / den` rounded to the nearest number, halves to even -/
def round32 (x den : Nat) : Nat :=
  let w := den * ulp32 (x / den)
  let c := x / w
  let r := x % w
  (if 2 * r < w ∨ (2 * r = w ∧ c % 2 = 0) then c else c + 1) * ulp32 (x / den)

/-- numbers from 2^128 on are infinite -/
def pack32 (n : Nat) : F32 := if n < 2 ^ 128 * f32One then .fin n else .inf

/-- `float32(n)` -/
def F32.ofNat (n : Nat) : F32 := pack32 (round32 (n * f32One) 1)

/-- `a / (1 << k)` -/
def F32.divPow (k : Nat) : F32 → F32
  | .fin a => pack32 (round32 (a * f32One) (2 ^ k * f32One))
  | .inf => .inf

/-- A `float32` with its sign. -/
structure SF32 where
  neg : Bool
  mag : F32
  deriving DecidableEq, Repr

/-- `Smhd.GetBalance`, box_types_iso14496_12.go:1792-1794 -/
def smhdBalance (sv : SV) : SF32 := ⟨decide (sv.int "Balance" < 0), (F32.ofNat (sv.int "Balance").natAbs).divPow 8⟩

/-! ## Lists of strings -/

/-- `unicode.IsSpace` -/
def isSpace (r : Nat) : Bool :=
  (9 ≤ r && r ≤ 13) || r == 32 || r == 0x85 || r == 0xa0 || r == 0x1680 || (0x2000 ≤ r && r ≤ 0x200a) || r == 0x2028 || r == 0x2029 ||
  r == 0x202f || r == 0x205f || r == 0x3000

/-- what has been collected, if anything -/
def flush (cur : Text) : List Text := if cur = [] then [] else [cur]

/-- `strings.Fields`, at most `n` runes; `cur` is the word that has begun -/
def fieldsN : Nat → Text → Text → List Text
  | 0, _, cur => flush cur
  | _ + 1, [], cur => flush cur
  | n + 1, b :: rest, cur =>
    let (r, k) := decodeRune b rest
    if isSpace r then flush cur ++ fieldsN n (rest.drop k) []
    else fieldsN n (rest.drop k) (cur ++ b :: rest.take k)

/-- `strings.Fields` -/
def fields (s : Text) : List Text := fieldsN s.length s []

/-- the bytes of a string field -/
def strText (sv : SV) (name : String) : Text := (sv.str name).map BitVec.toNat

/-- `XMLSubtitleSampleEntry.GetNamespaceList`, box_types_iso14496_12.go:1432-1434 -/
def namespaceList (sv : SV) : List Text := fields (strText sv "Namespace")
/-- `XMLSubtitleSampleEntry.GetSchemaLocationList`, box_types_iso14496_12.go:1436-1438 -/
def schemaLocationList (sv : SV) : List Text := fields (strText sv "SchemaLocation")
/-- `XMLSubtitleSampleEntry.GetAuxiliaryMIMETypesList`, box_types_iso14496_12.go:1440-1442 -/
def auxiliaryMIMETypesList (sv : SV) : List Text := fields (strText sv "AuxiliaryMIMETypes")

end Mp4.Acc
