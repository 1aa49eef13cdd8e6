import Verif.Model.Bitio

/-!
# box.go, mp4.go, Ftyp brand operations: flags, box types, brands
-/

namespace Mp4

/-- A Go `uint32`. -/
abbrev W32 := BitVec 32

/-- `FullBox`, box.go:144-148. -/
structure FullBox where
  version : Byte
  flags0 : Byte
  flags1 : Byte
  flags2 : Byte
  deriving DecidableEq, Repr

namespace FullBox

/-- `FullBox.GetVersion`, box.go:151-153. -/
def getVersion (b : FullBox) : Byte := b.version

/-- `FullBox.SetVersion`, box.go:156-158. -/
def setVersion (b : FullBox) (v : Byte) : FullBox := { b with version := v }

/-- `FullBox.GetFlags`, box.go:161-166. -/
def getFlags (b : FullBox) : W32 :=
  let flag := (b.flags0.setWidth 32) <<< 16
  let flag := flag ^^^ ((b.flags1.setWidth 32) <<< 8)
  flag ^^^ (b.flags2.setWidth 32)

/-- `FullBox.CheckFlag`, box.go:169-171. -/
def checkFlag (b : FullBox) (flag : W32) : Bool := (b.getFlags &&& flag) != 0#32

/-- `FullBox.SetFlags`, box.go:174-178. -/
def setFlags (b : FullBox) (flags : W32) : FullBox :=
  { b with
    flags0 := (flags >>> 16).setWidth 8
    flags1 := (flags >>> 8).setWidth 8
    flags2 := flags.setWidth 8 }

/-- `FullBox.AddFlag`, box.go:181-183. -/
def addFlag (b : FullBox) (flag : W32) : FullBox := b.setFlags (b.getFlags ||| flag)

/-- `FullBox.RemoveFlag`, box.go:186-188. -/
def removeFlag (b : FullBox) (flag : W32) : FullBox := b.setFlags (b.getFlags &&& ~~~flag)

end FullBox

/-- `BoxType`, mp4.go:14. -/
structure BoxType where
  b0 : Byte
  b1 : Byte
  b2 : Byte
  b3 : Byte
  deriving DecidableEq, Repr

namespace BoxType

/-- the four bytes -/
def bytes (t : BoxType) : Bytes := [t.b0, t.b1, t.b2, t.b3]

/-- `StrToBoxType`, mp4.go:16-21; `none` is the panic. -/
def ofStr (code : Bytes) : Option BoxType :=
  match code with
  | [a, b, c, d] => some ⟨a, b, c, d⟩
  | _ => none

/-- `Uint32ToBoxType`, mp4.go:24-28. -/
def ofUint32 (i : W32) : BoxType :=
  ⟨(i >>> 24).setWidth 8, (i >>> 16).setWidth 8, (i >>> 8).setWidth 8, i.setWidth 8⟩

/-- `isASCII`, mp4.go:39-41. -/
def isASCII (c : Byte) : Bool := 0x20#8 ≤ c && c ≤ 0x7e#8

/-- `isPrintable`, mp4.go:43-45. -/
def isPrintable (c : Byte) : Bool := isASCII c || c == 0xa9#8

/-- a lower-case hexadecimal digit (verb `%02x`) -/
def hexDigit (n : Nat) : Byte := if n < 10 then BitVec.ofNat 8 (48 + n) else BitVec.ofNat 8 (87 + n)

/-- `fmt.Sprintf("%02x", b)` -/
def hex2 (b : Byte) : Bytes := [hexDigit (b.toNat / 16), hexDigit (b.toNat % 16)]

/-- `BoxType.String`, mp4.go:30-37.  `strings.ReplaceAll` of the single byte 0xa9 is a
byte-wise replacement. -/
def toStr (t : BoxType) : Bytes :=
  if isPrintable t.b0 && isPrintable t.b1 && isPrintable t.b2 && isPrintable t.b3 then
    t.bytes.flatMap (fun c => if c = 0xa9#8 then [0x28#8, 0x63#8, 0x29#8] else [c])
  else
    [0x30#8, 0x78#8] ++ hex2 t.b0 ++ hex2 t.b1 ++ hex2 t.b2 ++ hex2 t.b3

/-- `boxTypeAny`, mp4.go:54. -/
def any : BoxType := ⟨0, 0, 0, 0⟩

/-- `BoxType.MatchWith`, mp4.go:47-52. -/
def matchWith (l r : BoxType) : Bool :=
  if l = any ∨ r = any then true else decide (l = r)

end BoxType

/-- Brand lists of `Ftyp`, box_types_iso14496_12.go:558-566; a brand is four bytes. -/
abbrev Brands := List BoxType

namespace Brands

/-- `Ftyp.HasCompatibleBrand`, box_types_iso14496_12.go:587-594. -/
def has (l : Brands) (cb : BoxType) : Bool :=
  match l with
  | [] => false
  | b :: bs => if b = cb then true else has bs cb

/-- `Ftyp.AddCompatibleBrand`, box_types_iso14496_12.go:568-574. -/
def add (l : Brands) (cb : BoxType) : Brands :=
  if ¬ l.has cb then l ++ [cb] else l

/-- The loop of `Ftyp.RemoveCompatibleBrand`, box_types_iso14496_12.go:577-584, at index
`i`; `fuel` bounds the number of iterations (`none` = not finished). Out-of-range
accesses do not occur because `i < len` (the last element exists). -/
def removeLoop (cb : BoxType) : Nat → Nat → Brands → Option Brands
  | 0, _, _ => none
  | fuel + 1, i, l =>
    if h : i < l.length then
      if l[i] ≠ cb then removeLoop cb fuel (i + 1) l
      else
        removeLoop cb fuel i ((l.set i (l.getD (l.length - 1) BoxType.any)).take (l.length - 1))
    else some l

/-- `Ftyp.RemoveCompatibleBrand`, box_types_iso14496_12.go:576-585; every iteration
decreases `len - i`, so `len + 1` iterations are provided. -/
def remove (l : Brands) (cb : BoxType) : Option Brands := removeLoop cb (l.length + 1) 0 l

end Brands

end Mp4
