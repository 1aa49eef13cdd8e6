import Verif.Model.Tool

/-!
# cmd/mp4tool/internal/probe/probe.go: the report as JSON

`json.NewEncoder(os.Stdout)`, `enc.SetIndent("", "  ")`, `enc.Encode(rep)` (probe.go:43-45).  Package `encoding/json` is written out as far as it is used:
structs, slices that are not nil, strings, booleans, numbers without sign.  The text of the numbers of type `float32` (`DurationSeconds`) is a parameter.
-/

namespace Mp4.Tool

open Mp4

mutual
/-- A Go value as `encoding/json` sees it; `float` holds the text of a number. -/
inductive GoVal where
  | bool (b : Bool)
  | uint (n : Nat)
  | float (t : Str.Text)
  | str (s : Str.Text)
  | arr (l : GoVals)
  | obj (l : GoFields)
/-- the elements of a slice -/
inductive GoVals where
  | nil
  | cons (v : GoVal) (l : GoVals)
/-- the fields of a struct that are written, with their names -/
inductive GoFields where
  | nil
  | cons (name : Str.Text) (v : GoVal) (l : GoFields)
end

/-- `\u00XX` -/
def u00 (b : Nat) : Str.Text := Str.lit "\\u00" ++ Str.hexPad 2 b

/-- A byte below 0x80 in a string (`encodeState.string` with `escapeHTML`).  `short`: does this version of the package write `\b` and `\f` (Go 1.22 and later)? -/
def jsonByte (short : Bool) (b : Nat) : Str.Text :=
  if b = 34 ∨ b = 92 then [92, b]
  else if b = 10 then Str.lit "\\n" else if b = 13 then Str.lit "\\r" else if b = 9 then Str.lit "\\t"
  else if short ∧ b = 8 then Str.lit "\\b" else if short ∧ b = 12 then Str.lit "\\f"
  else if b < 32 ∨ b = 38 ∨ b = 60 ∨ b = 62 then u00 b
  else [b]

/-- A string between quotation marks, `n` characters at most: bytes that are not UTF-8 become `\ufffd`, U+2028 and U+2029 are escaped. -/
def jsonCharsN (short : Bool) : Nat → Str.Text → Str.Text
  | 0, _ => []
  | _ + 1, [] => []
  | n + 1, b :: rest =>
    let (r, k) := Str.decodeRune b rest
    (if b < 0x80 then jsonByte short b
      else if r = Str.runeError ∧ k = 0 then Str.lit "\\ufffd"
      else if r = 0x2028 ∨ r = 0x2029 then Str.lit "\\u202" ++ Str.num 16 (r % 16)
      else b :: rest.take k) ++ jsonCharsN short n (rest.drop k)

/-- the inside of a string -/
def jsonChars (short : Bool) (s : Str.Text) : Str.Text := jsonCharsN short s.length s

/-- a new line, `depth` times two spaces -/
def newLine (depth : Nat) : Str.Text := 10 :: List.replicate (2 * depth) 32

mutual
/-- A value as `json.Indent` lays it out; `q` gives the inside of strings. -/
def GoVal.text (q : Str.Text → Str.Text) : Nat → GoVal → Str.Text
  | _, .bool b => if b then Str.lit "true" else Str.lit "false"
  | _, .uint n => Str.num 10 n
  | _, .float t => t
  | _, .str s => Str.quoted (q s)
  | _, .arr .nil => Str.lit "[]"
  | depth, .arr (.cons v l) => 91 :: (newLine (depth + 1) ++ v.text q (depth + 1) ++ l.text q (depth + 1) ++ newLine depth ++ [93])
  | _, .obj .nil => Str.lit "{}"
  | depth, .obj (.cons k v l) =>
    123 :: (newLine (depth + 1) ++ Str.quoted (q k) ++ Str.lit ": " ++ v.text q (depth + 1) ++ l.text q (depth + 1) ++ newLine depth ++ [125])
/-- the further elements -/
def GoVals.text (q : Str.Text → Str.Text) : Nat → GoVals → Str.Text
  | _, .nil => []
  | depth, .cons v l => 44 :: (newLine depth ++ v.text q depth ++ l.text q depth)
/-- the further fields -/
def GoFields.text (q : Str.Text → Str.Text) : Nat → GoFields → Str.Text
  | _, .nil => []
  | depth, .cons k v l => 44 :: (newLine depth ++ Str.quoted (q k) ++ Str.lit ": " ++ v.text q depth ++ l.text q depth)
end

/-- fields in front of others -/
def GoFields.of : List (String × GoVal) → GoFields
  | [] => .nil
  | (k, v) :: l => .cons (Str.lit k) v (GoFields.of l)

/-- elements of a slice -/
def GoVals.of : List GoVal → GoVals
  | [] => .nil
  | v :: l => .cons v (GoVals.of l)

/-- a field with `omitempty` -/
def omitZero (k : String) (n : Nat) : List (String × GoVal) := if n = 0 then [] else [(k, .uint n)]

/-- `track`, probe.go:68-82; `secs` is the text of `float32(duration) / float32(timescale)` -/
def TrackReport.val (secs : Nat → Nat → Str.Text) (t : TrackReport) : GoVal := .obj (.of ([
  ("TrackID", .uint t.trackID), ("Timescale", .uint t.timescale), ("Duration", .uint t.duration), ("DurationSeconds", .float (secs t.duration t.timescale)),
  ("Codec", .str t.codec), ("Encrypted", .bool t.encrypted)] ++ omitZero "Width" t.width ++ omitZero "Height" t.height ++ omitZero "SampleNum" t.sampleNum ++
  omitZero "ChunkNum" t.chunkNum ++ omitZero "IDRFrameNum" t.idrFrameNum ++ omitZero "Bitrate" t.bitrate ++ omitZero "MaxBitrate" t.maxBitrate))

/-- `report`, probe.go:57-66 -/
def Report.val (secs : Nat → Nat → Str.Text) (r : Report) : GoVal := .obj (.of [
  ("MajorBrand", .str r.majorBrand), ("MinorVersion", .uint r.minorVersion), ("CompatibleBrands", .arr (.of (r.compatibleBrands.map .str))),
  ("FastStart", .bool r.fastStart), ("Timescale", .uint r.timescale), ("Duration", .uint r.duration), ("DurationSeconds", .float (secs r.duration r.timescale)),
  ("Tracks", .arr (.of (r.tracks.map (·.val secs))))])

/-- what `enc.Encode(rep)` writes, probe.go:45: the value and a new line -/
def Report.json (short : Bool) (secs : Nat → Nat → Str.Text) (r : Report) : Str.Text := (r.val secs).text (jsonChars short) 0 ++ [10]

/-- `Main` with `-format json`, probe.go:36-54: the text written to standard output -/
def probeText (m : BoxMap) (d : Bytes) (fuel : Nat) (short : Bool) (secs : Nat → Nat → Str.Text) : PM Str.Text := do
  let r ← probeJson m d fuel
  pure (r.json short secs)

end Mp4.Tool
