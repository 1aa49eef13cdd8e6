import Verif.Model.Catalog

/-!
# internal/util/string.go and string.go: `Stringify`

Text is a list of bytes, as Go strings are.  Decoding and encoding of UTF-8 follow
the Go standard library (unicode/utf8, strings.Map).  `unicode.IsGraphic` is written
out for Latin-1 and is a parameter beyond.
-/

namespace Mp4.Str

open Mp4

/-- bytes of a string -/
abbrev Text := List Nat

/-- the bytes of a literal -/
def lit (s : String) : Text := s.toList.map Char.toNat

/-! ## UTF-8 -/

/-- `utf8.RuneError` -/
def runeError : Nat := 0xfffd

/-- is it a continuation byte? -/
def cont (b : Nat) : Bool := 0x80 ≤ b && b ≤ 0xbf

/-- `utf8.DecodeRuneInString`: the rune that starts with byte `b`, and how many further bytes it takes.  Anything that is not
well-formed is one byte wide and decodes to the error rune. -/
def decodeRune (b : Nat) (rest : Text) : Nat × Nat :=
  if b < 0x80 then (b, 0)
  else if b < 0xc2 then (runeError, 0)
  else if b < 0xe0 then
    match rest with
    | b1 :: _ => if cont b1 then ((b - 0xc0) * 64 + (b1 - 0x80), 1) else (runeError, 0)
    | _ => (runeError, 0)
  else if b < 0xf0 then
    match rest with
    | b1 :: b2 :: _ =>
      if cont b1 && cont b2 && (b != 0xe0 || 0xa0 ≤ b1) && (b != 0xed || b1 ≤ 0x9f) then
        ((b - 0xe0) * 4096 + (b1 - 0x80) * 64 + (b2 - 0x80), 2)
      else (runeError, 0)
    | _ => (runeError, 0)
  else if b < 0xf5 then
    match rest with
    | b1 :: b2 :: b3 :: _ =>
      if cont b1 && cont b2 && cont b3 && (b != 0xf0 || 0x90 ≤ b1) && (b != 0xf4 || b1 ≤ 0x8f) then
        ((b - 0xf0) * 262144 + (b1 - 0x80) * 4096 + (b2 - 0x80) * 64 + (b3 - 0x80), 3)
      else (runeError, 0)
    | _ => (runeError, 0)
  else (runeError, 0)

/-- the runes of a string, at most `n` -/
def runesN : Nat → Text → List Nat
  | 0, _ => []
  | _ + 1, [] => []
  | n + 1, b :: rest => (decodeRune b rest).1 :: runesN n (rest.drop (decodeRune b rest).2)

/-- the runes of a string (`for _, r := range s`) -/
def runes (s : Text) : List Nat := runesN s.length s

/-- `utf8.AppendRune` -/
def encodeRune (r : Nat) : Text :=
  if r < 0x80 then [r]
  else if r < 0x800 then [0xc0 + r / 64, 0x80 + r % 64]
  else if (0xd800 ≤ r ∧ r < 0xe000) ∨ 0x110000 ≤ r then [0xef, 0xbf, 0xbd]
  else if r < 0x10000 then [0xe0 + r / 4096, 0x80 + r / 64 % 64, 0x80 + r % 64]
  else [0xf0 + r / 262144, 0x80 + r / 4096 % 64, 0x80 + r / 64 % 64, 0x80 + r % 64]

/-- `unicode.IsGraphic`: `beyond` decides for runes from 256 on. -/
def isGraphic (beyond : Nat → Bool) (r : Nat) : Bool :=
  if r < 256 then (0x20 ≤ r && r ≤ 0x7e) || (0xa0 ≤ r && r != 0xad) else beyond r

/-- `EscapeUnprintable`, internal/util/string.go:33-38 -/
def escapeRune (beyond : Nat → Bool) (r : Nat) : Nat := if isGraphic beyond r then r else 46

/-- `EscapeUnprintables`, internal/util/string.go:40-42.  (`strings.Map` copies runes that are not changed, and encodes the others; a
byte that is not well-formed and mapped to the error rune becomes the encoding of the error rune.  That is the encoding of all mapped
runes.) -/
def escape (beyond : Nat → Bool) (s : Text) : Text := ((runes s).map (escapeRune beyond)).flatMap encodeRune

/-! ## Numbers -/

/-- a digit -/
def digitText (d : Nat) : Nat := if d < 10 then 48 + d else 87 + d

/-- the digits of a number, in front of `acc`; `fuel` digits suffice -/
def numLoop (base : Nat) : Nat → Nat → Text → Text
  | 0, _, acc => acc
  | fuel + 1, n, acc =>
    if n / base = 0 then digitText (n % base) :: acc else numLoop base fuel (n / base) (digitText (n % base) :: acc)

/-- `strconv.FormatUint` -/
def num (base n : Nat) : Text := numLoop base (n + 1) n []

/-- `%0<w>x` -/
def hexPad (w n : Nat) : Text := List.replicate (w - (num 16 n).length) 48 ++ num 16 n

/-- `strconv.FormatInt` -/
def inum (base : Nat) (i : Int) : Text := if i < 0 then 45 :: num base i.natAbs else num base i.natAbs

/-- `strconv.FormatFloat(float64(val)/(1<<bits), 'f', prec, _)` for a number that is not a multiple of `1<<bits`: the exact value
rounded to `prec` places, halves to even; a negative value keeps its sign even if it is rounded to zero. -/
def fixedText (bits prec : Nat) (i : Int) : Text :=
  let n := i.natAbs * 10 ^ prec
  let q := n / 2 ^ bits
  let r := n % 2 ^ bits
  let q := if 2 * r < 2 ^ bits then q else if 2 * r > 2 ^ bits then q + 1 else q + q % 2
  let frac := num 10 (q % 10 ^ prec)
  (if i < 0 then [45] else []) ++ num 10 (q / 10 ^ prec) ++ 46 :: (List.replicate (prec - frac.length) 48 ++ frac)

/-- `FormatSignedFixedFloat1616`, `FormatUnsignedFixedFloat1616`, `FormatSignedFixedFloat88`, internal/util/string.go:9-31 -/
def fixed (bits prec : Nat) (i : Int) : Text := if i % 2 ^ bits = 0 then inum 10 (i / 2 ^ bits) else fixedText bits prec i

/-! ## `StringifyField` of the types that have it -/

/-- between quotation marks -/
def quoted (t : Text) : Text := 34 :: (t ++ [34])

/-- `uuid.UUID.String` -/
def uuidText (l : List Nat) : Text :=
  let hex := l.map (hexPad 2)
  (hex.take 4).flatten ++ 45 :: ((hex.drop 4).take 2).flatten ++ 45 :: ((hex.drop 6).take 2).flatten ++
    45 :: ((hex.drop 8).take 2).flatten ++ 45 :: (hex.drop 10).flatten

/-- a field of type `[]byte` -/
def byteSlice (sv : SV) (name : String) : List Nat :=
  match sv.get name with
  | some (.slice l) => l.map (fun v => match v with | .uint n => n | _ => 0)
  | _ => []

/-- texts with a separator -/
def join (sep : Text) : List Text → Text
  | [] => []
  | [t] => t
  | t :: ts => t ++ sep ++ join sep ts

/-- `Data.StringifyField`, box_types_metadata.go:129-157 -/
def strData (beyond : Nat → Bool) (name : String) (sv : SV) : Option Text :=
  if name = "DataType" then
    match sv.uint "DataType" with
    | 0 => some (lit "BINARY")
    | 1 => some (lit "UTF8")
    | 2 => some (lit "UTF16")
    | 3 => some (lit "MAC_STR")
    | 14 => some (lit "JPEG")
    | 21 => some (lit "INT")
    | 22 => some (lit "FLOAT32")
    | 23 => some (lit "FLOAT64")
    | _ => none
  else if name = "Data" ∧ sv.uint "DataType" = 1 then some (quoted (escape beyond (byteSlice sv "Data")))
  else none

/-- `Descriptor.StringifyField`, box_types_iso14496_14.go:63-82 -/
def strDescriptor (name : String) (sv : SV) : Option Text :=
  if name = "Tag" then
    match sv.int "Tag" with
    | 3 => some (lit "ESDescr")
    | 4 => some (lit "DecoderConfigDescr")
    | 5 => some (lit "DecSpecificInfo")
    | 6 => some (lit "SLConfigDescr")
    | _ => none
  else none

/-- `StringifyField` of the box: `Mvhd` (box_types_iso14496_12.go:1074-1081), `VisualSampleEntry` (:1254-1264), `AudioSampleEntry`
(:1302-1309), `Smhd` (:1782-1789), `Tkhd` (:2215-2224), `Pssh` (box_types_iso23001_7.go:44-61), `Data`, `StringData`
(box_types_metadata.go:165-170), `Item` (:185-191); of all others `BaseCustomFieldObject` (box.go:54-56). -/
def strRoot (beyond : Nat → Bool) (goName name : String) (sv : SV) : Option Text :=
  if goName = "Mvhd" ∧ name = "Rate" then some (fixed 16 5 (sv.int "Rate"))
  else if goName = "VisualSampleEntry" ∧ name = "Compressorname" then
    let l := sv.byteArr "Compressorname"
    if l.headD 0 ≤ 31 then some (quoted (escape beyond ((l.drop 1).take (l.headD 0)))) else none
  else if goName = "AudioSampleEntry" ∧ name = "SampleRate" then some (fixed 16 5 (sv.uint "SampleRate"))
  else if goName = "Smhd" ∧ name = "Balance" then some (fixed 8 3 (sv.int "Balance"))
  else if goName = "Tkhd" ∧ (name = "Width" ∨ name = "Height") then some (fixed 16 5 (sv.uint name))
  else if goName = "Pssh" ∧ name = "KIDs" then
    match sv.get "KIDs" with
    | some (.slice l) => some (91 :: (join [44, 32] (l.map fun v => match v with
        | .struct e => uuidText (SV.byteArr e "KID")
        | _ => []) ++ [93]))
    | _ => some [91, 93]
  else if goName = "Data" then strData beyond name sv
  else if goName = "StringData" ∧ name = "Data" then some (quoted (escape beyond (byteSlice sv "Data")))
  else if goName = "Item" ∧ name = "ItemName" then some (quoted (escape beyond (byteSlice sv "ItemName")))
  else none

/-- `StringifyField` of a struct that has its own methods and is the type of the field `field` of a box: `Key`
(box_types_metadata.go:249-257) in `Keys.Entries`, `Descriptor` in `Esds.Descriptors`, `Data` in `Item.Data`.  (The methods are looked
up by the place of the struct, since types carry no names here; no other struct with methods of its own redefines this one.) -/
def strNested (beyond : Nat → Bool) (goName field name : String) (sv : SV) : Option Text :=
  if goName = "Keys" ∧ field = "Entries" ∧ name = "KeyNamespace" then some (quoted (escape beyond (byteSlice sv "KeyNamespace")))
  else if goName = "Keys" ∧ field = "Entries" ∧ name = "KeyValue" then some (quoted (escape beyond (byteSlice sv "KeyValue")))
  else if goName = "Esds" ∧ field = "Descriptors" then strDescriptor name sv
  else if goName = "Item" ∧ field = "Data" then strData beyond name sv
  else none

/-! ## string.go -/

/-- One call: the box with its definition, and the parameters. -/
structure SEnv where
  beyond : Nat → Bool
  bd : BoxDef
  root : SV
  ctx : Ctx
  indent : Text

/-- `writeIndent`, string.go:257-261 -/
def indentText (e : SEnv) (depth : Nat) : Text := (List.replicate depth e.indent).flatten

/-- the loops of `stringifyArray` and `stringifySlice` (string.go:151-164, 189-201); `dash` says after which elements a dash is
written -/
def strLoop (f : Val → Text → Option Text) (sep : Text) (dash : Nat → Bool) : Nat → List Val → Text → Option Text
  | _, [], buf => some buf
  | i, v :: vs, buf =>
    (f v (if i = 0 then buf else buf ++ sep)).bind fun buf =>
      strLoop f sep dash (i + 1) vs (if dash i then buf ++ [45] else buf)

/-- `stringifyInt`, string.go:211-225 -/
def strInt (fi : Field) (i : Int) : Text :=
  if fi.hex then
    if 0 ≤ i then lit "0x" ++ num 16 i.natAbs
    else lit "-0x" ++ inum 16 (if i = -(2 ^ 63) then i else -i)
  else inum 10 i

/-- `stringifyUint`, string.go:227-241; `w` is the width of the type -/
def strUint (fi : Field) (w n : Nat) : Text :=
  if fi.iso639 then [(n + 0x60) % 256]
  else if fi.uuid then hexPad 2 n
  else if fi.isString then [n % 256]
  else if fi.hex || (!fi.dec && w == 8) then lit "0x" ++ num 16 n
  else num 10 n

mutual
/-- `stringify`, string.go:48-71, writing to the end of `buf`; `none` is a panic.  `field` is the name of the field that is being
shown. -/
def strV (e : SEnv) (field : String) : Ty → Field → Nat → Val → Text → Option Text
  | .uint w, fi, _, v, buf => match v with | .uint n => some (buf ++ strUint fi w n) | _ => none
  | .int _, fi, _, v, buf => match v with | .int i => some (buf ++ strInt fi i) | _ => none
  | .bool, _, _, v, buf => match v with | .bool b => some (buf ++ lit (if b then "true" else "false")) | _ => none
  | .str, _, _, v, buf => match v with | .str s => some (buf ++ quoted (escape e.beyond (s.map (·.toNat)))) | _ => none
  | .ptr t, fi, depth, v, buf => match v with | .ptr (some x) => strV e field t fi depth x buf | _ => none
  | .struct c fs, fi, depth, v, buf =>
    match v with
    | .struct sv =>
      if fi.extend then strFields e field c fs depth sv sv buf
      else
        (strFields e field c fs (depth + 1) sv sv (buf ++ 123 :: (if e.indent = [] then [] else [10]))).map fun buf =>
          buf ++ (if e.indent = [] then [] else indentText e (depth + 1)) ++ [125]
    | _ => none
  | .arr _ t, fi, depth, v, buf =>
    match v with
    | .arr l =>
      let dash := fun i => fi.uuid && (i == 3 || i == 5 || i == 7 || i == 9)
      if fi.isString then
        (strLoop (fun v b => strV e field t fi (depth + 1) v b) [] dash 0 l []).map fun b => buf ++ quoted (escape e.beyond b)
      else if fi.iso639 then
        (strLoop (fun v b => strV e field t fi (depth + 1) v b) [] dash 0 l (buf ++ [34])).map fun b => b ++ [34]
      else if fi.uuid then strLoop (fun v b => strV e field t fi (depth + 1) v b) [] dash 0 l buf
      else (strLoop (fun v b => strV e field t fi (depth + 1) v b) [44, 32] dash 0 l (buf ++ [91])).map fun b => b ++ [93]
    | _ => none
  | .slice t, fi, depth, v, buf =>
    match v with
    | .slice l =>
      let l := if fi.length = lengthUnlimited then l else l.take fi.length
      if fi.isString then
        (strLoop (fun v b => strV e field t fi (depth + 1) v b) [] (fun _ => false) 0 l []).map fun b => buf ++ quoted (escape e.beyond b)
      else if fi.iso639 then
        (strLoop (fun v b => strV e field t fi (depth + 1) v b) [] (fun _ => false) 0 l (buf ++ [34])).map fun b => b ++ [34]
      else
        (strLoop (fun v b => strV e field t fi (depth + 1) v b) [44, 32] (fun _ => false) 0 l (buf ++ [91])).map fun b => b ++ [93]
    | _ => none
/-- the loop of `stringifyStruct`, string.go:86-126; `sv` is the struct, `rest` the values of the fields that remain -/
def strFields (e : SEnv) (field : String) (c : Option Cfo) : Fields → Nat → SV → SV → Text → Option Text
  | .nil, _, _, _, buf => some buf
  | .cons f t fs, depth, sv, rest, buf =>
    let cf := c.getD e.bd.cfo
    let csv := if c.isSome then sv else e.root
    match resolve cf e.ctx csv f, rest with
    | some fi, (_, v) :: rest =>
      if ¬ isTarget cf e.ctx e.root csv fi ∨ f.cnst ≠ "" ∨ f.hidden then strFields e field c fs depth sv rest buf
      else
        let buf :=
          if f.extend then buf
          else (if e.indent ≠ [] then buf ++ indentText e (depth + 1)
            else if buf ≠ [] ∧ buf.getLast? ≠ some 123 then buf ++ [32] else buf) ++ (lit f.name ++ [61])
        let custom := if c.isSome then strNested e.beyond e.bd.goName field f.name csv
          else strRoot e.beyond e.bd.goName f.name csv
        let shown :=
          match custom with
          | some t => some (buf ++ t)
          | none =>
            if f.name = "Version" then some (buf ++ num 10 e.root.version)
            else if f.name = "Flags" then some (buf ++ lit "0x" ++ hexPad 6 e.root.flags)
            else strV e f.name t fi depth v buf
        shown.bind fun buf =>
          strFields e field c fs depth sv rest (if !f.extend && e.indent ≠ [] then buf ++ [10] else buf)
    | _, _ => none
end

/-- `StringifyWithIndent`, string.go:24-46, for a registered box; `none` is a panic. -/
def stringify (beyond : Nat → Bool) (bd : BoxDef) (sv : SV) (indent : Text) (ctx : Ctx) : Option Text :=
  strFields ⟨beyond, bd, sv, ctx, indent⟩ "" none bd.fields 0 sv sv []

end Mp4.Str
