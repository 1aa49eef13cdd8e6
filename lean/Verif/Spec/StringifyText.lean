import Verif.Model.Stringify

/-!
# The text of a box, as a user reads it

What the text that `Stringify` gives for a box has to look like: for each visible field `Name=value`, in order, with values in the
notation of their type.  There is no output buffer here: a value has a text of its own, and the text of a struct is put together from
those of its fields.  Only the questions which fields there are (`resolve`, `isTarget`), how runes are escaped (`escape`) and which
fields have a notation of their own (`strRoot`, `strNested`) are left to the model.
-/

namespace Mp4.Text

open Mp4.Str

/-- the decimal digits of a number -/
def dec (n : Nat) : Str.Text := (Nat.toDigits 10 n).map Char.toNat

/-- the hexadecimal digits of a number, in lower case -/
def hex (n : Nat) : Str.Text := (Nat.toDigits 16 n).map Char.toNat

/-- at least `w` hexadecimal digits -/
def hexW (w n : Nat) : Str.Text := List.replicate (w - (hex n).length) 48 ++ hex n

/-- a signed number: in decimal, with a minus in front if it is negative; or, if so tagged, in hexadecimal after `0x`, and with the minus in front
of that.  (The least 64 bit number has two of them.) -/
def signed (fi : Field) (i : Int) : Str.Text :=
  if fi.hex = true then
    if i = -(2 ^ 63) then lit "-0x-8000000000000000" else (if i < 0 then lit "-" else []) ++ lit "0x" ++ hex i.natAbs
  else (if i < 0 then lit "-" else []) ++ dec i.natAbs

/-- an unsigned number of `w` bits: in hexadecimal after `0x` if so tagged, or if it is a byte that is not tagged as decimal; in decimal otherwise -/
def unsigned (fi : Field) (w n : Nat) : Str.Text :=
  if fi.hex = true ∨ (w = 8 ∧ fi.dec = false) then lit "0x" ++ hex n else dec n

/-- numbers one after the other -/
def numbers (l : List Val) : Option (List Nat) := l.mapM fun v => match v with | .uint n => some n | _ => none

/-- bytes as in a UUID: two digits each, with a dash after the fourth, sixth, eighth and tenth -/
def dashed (l : List Nat) : Str.Text := (l.mapIdx fun i n => hexW 2 n ++ if i = 3 ∨ i = 5 ∨ i = 7 ∨ i = 9 then lit "-" else []).flatten

/-- The visible fields of one struct, put together: separated by blanks; or each on a line of its own, behind `depth` indentations. -/
def arrange (indent : Str.Text) (depth : Nat) (items : List Str.Text) : Str.Text :=
  if indent = [] then join (lit " ") items
  else (items.map fun t => (List.replicate depth indent).flatten ++ t ++ lit "\n").flatten

mutual
/-- The text of a value; `depth` is the number of indentations of the struct that contains it, `fi` its tag.  There is none if the value is not of the
type, or has a nil pointer in it. -/
def shown (e : SEnv) (field : String) : Ty → Field → Nat → Val → Option Str.Text
  | .uint w, fi, _, .uint n => some (unsigned fi w n)
  | .int _, fi, _, .int i => some (signed fi i)
  | .bool, _, _, .bool b => some (lit (if b then "true" else "false"))
  | .str, _, _, .str s => some (quoted (escape e.beyond (s.map (·.toNat))))
  | .ptr t, fi, depth, .ptr (some x) => shown e field t fi depth x
  | .struct c fs, _, depth, .struct sv =>
    (fields e field c fs (depth + 1) sv sv).map fun items =>
      lit "{" ++ (if e.indent = [] then [] else lit "\n") ++ arrange e.indent (depth + 2) items ++
        (if e.indent = [] then [] else (List.replicate (depth + 1) e.indent).flatten) ++ lit "}"
  | .arr _ t, fi, depth, .arr l =>
    if fi.isString = true then (numbers l).map fun b => quoted (escape e.beyond (b.map (· % 256)))
    else if fi.iso639 = true then (numbers l).map fun b => quoted (b.map fun n => (n + 0x60) % 256)
    else if fi.uuid = true then (numbers l).map dashed
    else (l.mapM fun v => shown e field t fi (depth + 1) v).map fun ts => lit "[" ++ join (lit ", ") ts ++ lit "]"
  | .slice t, fi, depth, .slice l =>
    let l := if fi.length = lengthUnlimited then l else l.take fi.length
    if fi.isString = true then (numbers l).map fun b => quoted (escape e.beyond (b.map (· % 256)))
    else if fi.iso639 = true then (numbers l).map fun b => quoted (b.map fun n => (n + 0x60) % 256)
    else (l.mapM fun v => shown e field t fi (depth + 1) v).map fun ts => lit "[" ++ join (lit ", ") ts ++ lit "]"
  | _, _, _, _ => none
/-- The texts of the visible fields of a struct, in order: those that are in the file and neither constant nor hidden.  An embedded struct
contributes its own fields, any other field its name and value.  Fields called `Version` and `Flags` show those of the box. -/
def fields (e : SEnv) (field : String) (c : Option Cfo) : Fields → Nat → SV → SV → Option (List Str.Text)
  | .nil, _, _, _ => some []
  | .cons f t fs, depth, sv, rest =>
    let cf := c.getD e.bd.cfo
    let csv := if c.isSome then sv else e.root
    match resolve cf e.ctx csv f, rest with
    | some fi, (_, v) :: rest =>
      if isTarget cf e.ctx e.root csv fi ∧ f.cnst = "" ∧ f.hidden = false then
        (if f.extend = true then
          match t, v with
          | .struct c' fs', .struct sv' => fields e f.name c' fs' depth sv' sv'
          | .ptr (.struct c' fs'), .ptr (some (.struct sv')) => fields e f.name c' fs' depth sv' sv'
          | _, _ => none
        else
          (match (if c.isSome then strNested e.beyond e.bd.goName field f.name csv else strRoot e.beyond e.bd.goName f.name csv) with
            | some own => some own
            | none =>
              if f.name = "Version" then some (dec e.root.version)
              else if f.name = "Flags" then some (lit "0x" ++ hexW 6 e.root.flags)
              else shown e f.name t fi depth v).map fun value => [lit f.name ++ lit "=" ++ value]).bind fun first =>
          (fields e field c fs depth sv rest).map fun others => first ++ others
      else fields e field c fs depth sv rest
    | _, _ => none
end

/-- The text of a box. -/
def box (beyond : Nat → Bool) (bd : BoxDef) (sv : SV) (indent : Str.Text) (ctx : Ctx) : Option Str.Text :=
  (fields ⟨beyond, bd, sv, ctx, indent⟩ "" none bd.fields 0 sv sv).map (arrange indent 1)

/-! ## What is assumed of the types -/

/-- the names of fields that a type may show in a way of its own, and `Version` and `Flags` -/
def ownNames : List String := ["Version", "Flags", "Rate", "Compressorname", "SampleRate", "Balance", "Width", "Height", "KIDs", "Data", "DataType",
  "ItemName", "KeyNamespace", "KeyValue", "Tag"]

/-- at most one of these tags -/
def oneTag (fi : Field) : Bool := !(fi.isString && fi.iso639) && !(fi.isString && fi.uuid) && !(fi.iso639 && fi.uuid)

mutual
/-- Tags for text, languages and UUIDs stand at arrays of numbers (UUIDs: not at slices); embedded fields are structs, or pointers to them,
and have names that are not shown in a special way. -/
def tidy : Ty → Field → Bool
  | .uint _, fi => !fi.isString && !fi.iso639 && !fi.uuid
  | .arr _ t, fi => oneTag fi && if fi.isString || fi.iso639 || fi.uuid then (match t with | .uint _ => true | _ => false) else tidy t fi
  | .slice t, fi => oneTag fi && !fi.uuid && if fi.isString || fi.iso639 then (match t with | .uint _ => true | _ => false) else tidy t fi
  | .ptr t, fi => tidy t fi
  | .struct _ fs, fi => !fi.extend && tidyFields fs
  | _, _ => true
/-- the same for the fields of a struct -/
def tidyFields : Fields → Bool
  | .nil => true
  | .cons f t fs =>
    (if f.extend then !ownNames.contains f.name && (match t with
        | .struct _ fs' => tidyFields fs'
        | .ptr (.struct _ fs') => tidyFields fs'
        | _ => false)
      else tidy t f) && tidyFields fs
end

end Mp4.Text
