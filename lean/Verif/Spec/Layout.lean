import Verif.Model.Types

/-!
# What the bytes of a box should be

A specification of the wire layout of a box value (`layout`), and of the values that a
box type can represent (`fits`).  Nothing here refers to the marshaller: bits are
produced directly from numbers, strings and lists.
-/

namespace Mp4.Spec

open Mp4

/-- Everything the layout of a box depends on besides the field values of the struct at
hand: the context, the methods of the box type and the whole box. -/
structure Env where
  ctx : Ctx
  cfo : Cfo
  hook : Hook
  root : SV

/-- The size and the number of elements of a field, when they are not given by the tag, are
those the type's methods give. -/
def instField (c : Cfo) (ctx : Ctx) (sv : SV) (f : Field) : Field :=
  { f with
    size := if f.sizeDyn then (c.size f.name ctx sv).getD 0 else f.size
    length := if f.lenDyn then (c.length f.name ctx sv).getD 0 else f.length }

/-- Is the field part of the encoding?  It is, unless its tag restricts it to another
version, excludes this version, or its option is off.  Version 255 stands for "any". -/
def present (c : Cfo) (ctx : Ctx) (version flags : Nat) (sv : SV) (f : Field) : Bool :=
  (f.version == 255 || version == 255 || f.version == version) &&
  (f.nVersion == 255 || version == 255 || f.nVersion != version) &&
  (f.optFlag == 0 || flags &&& f.optFlag != 0) &&
  (f.nOptFlag == 0 || flags &&& f.nOptFlag == 0) &&
  (!f.optDyn || c.opt f.name ctx sv)

/-- A C string: the bytes and a NUL. -/
def cstring (b : Bytes) : List Bool := bytesBits b ++ List.replicate 8 false

/-- The four-byte form of a variable-length integer: groups of seven bits, the first
three with a leading 1, the last with a leading 0. -/
def uvarint (n : Nat) : List Bool :=
  (true :: natBits 7 (n >>> 21)) ++ (true :: natBits 7 (n >>> 14)) ++
  (true :: natBits 7 (n >>> 7)) ++ (false :: natBits 7 n)

/-- profiles of `avcC` that have the additional fields -/
def highProfile (p : Nat) : Bool := [100, 110, 122, 144].contains p

/-- Bits in front of a field of the box that do not come from the field itself: `emsg` of
a version other than 0 has its two strings in front of the message data. -/
def before (h : Hook) (name : String) (sv : SV) : List Bool :=
  if h = .emsg ∧ sv.version ≠ 0 ∧ name = "MessageData" then
    cstring (sv.str "SchemeIdUri") ++ cstring (sv.str "Value")
  else []

/-- Fields of the box that have no bits of their own: the strings of `emsg` (except in
version 0) and the flag of `avcC` that says whether the additional fields exist. -/
def silent (h : Hook) (name : String) (sv : SV) : Bool :=
  (h == .emsg && sv.version != 0 && (name == "SchemeIdUri" || name == "Value")) ||
  (h == .avcc && name == "HighProfileFieldsEnabled")

/-- The elements of a list that are part of the encoding: as many as the count says, or all of
them if there is no count. -/
def counted (fi : Field) (l : List Val) : List Val :=
  if fi.length = lengthUnlimited then l else l.take fi.length

mutual
/-- The bits of a value of type `t` in a field described by `fi`. -/
def layoutV (e : Env) : Ty → Field → Val → List Bool
  | .ptr t, fi, v =>
    match v with
    | .ptr (some x) => layoutV e t fi x
    | _ => []
  | .struct c fs, _, v =>
    match v with
    | .struct sv => layoutFields e false c fs sv
    | _ => []
  | .arr _ t, fi, v =>
    match v with
    | .arr l => l.flatMap (fun x => layoutV e t fi x)
    | _ => []
  | .slice t, fi, v =>
    match v with
    | .slice l => (counted fi l).flatMap (fun x => layoutV e t fi x)
    | _ => []
  | .uint _, fi, v =>
    match v with
    | .uint n => if fi.varint then uvarint n else natBits fi.size n
    | _ => []
  | .int _, fi, v =>
    match v with
    | .int i => natBits fi.size (i % (2 ^ fi.size : Nat)).toNat
    | _ => []
  | .bool, fi, v =>
    match v with
    | .bool b => List.replicate fi.size b
    | _ => []
  | .str, fi, v =>
    match v with
    | .str b => if fi.boxString then bytesBits b else cstring b
    | _ => []

/-- The bits of the fields of a struct, in order.  `top`: the struct is the box. -/
def layoutFields (e : Env) (top : Bool) (c : Option Cfo) : Fields → SV → List Bool
  | .nil, _ => []
  | .cons f t fs, sv =>
    let cf := c.getD e.cfo
    let csv := if c.isSome then sv else e.root
    let fi := instField cf e.ctx csv f
    (if present cf e.ctx e.root.version e.root.flags csv fi then
      (if top then before e.hook f.name sv else []) ++
      (if top && silent e.hook f.name sv then []
       else match sv.get f.name with
        | some v => layoutV e t fi v
        | none => [])
     else []) ++ layoutFields e top c fs sv
end

mutual
/-- Is it the zero value of the type? -/
def isZero : Ty → Val → Bool
  | .uint _, v => match v with | .uint n => n == 0 | _ => false
  | .int _, v => match v with | .int n => n == 0 | _ => false
  | .bool, v => match v with | .bool b => !b | _ => false
  | .str, v => match v with | .str b => b.isEmpty | _ => false
  | .ptr _, v => match v with | .ptr o => o.isNone | _ => false
  | .slice _, v => match v with | .slice l => l.isEmpty | _ => false
  | .arr n t, v => match v with | .arr l => l.length == n && l.all (fun x => isZero t x) | _ => false
  | .struct _ fs, v => match v with | .struct sv => isZeroFields fs sv | _ => false
/-- Are all fields zero? -/
def isZeroFields : Fields → SV → Bool
  | .nil, sv => sv.isEmpty
  | .cons f t fs, sv =>
    match sv with
    | [] => false
    | (n, v) :: rest => n == f.name && isZero t v && isZeroFields fs rest
end

/-- Every element satisfies `ok` given the number of bits left in front of it. -/
def fitsList (ok : Val → Nat → Bool) (bits : Val → List Bool) : List Val → Nat → Bool
  | [], _ => true
  | v :: vs, left =>
    ok v left && decide ((bits v).length ≤ left) && fitsList ok bits vs (left - (bits v).length)

/-- no NUL byte -/
def noNul (b : Bytes) : Bool := b.all (fun c => c != 0#8)

/-- the field is a string without NUL -/
def isText (sv : SV) (name : String) : Bool :=
  match sv.get name with
  | some (.str b) => noNul b
  | _ => false

/-- the value is this truth value -/
def isBool (v : Val) (b : Bool) : Bool :=
  match v with
  | .bool x => x == b
  | _ => false

/-- A handler name that is not mistaken for a Pascal string. -/
def notPascal (predefined : Nat) (b : Bytes) : Bool :=
  predefined == 0 || b.isEmpty || ((b.headD 0#8).toNat + 1) % 256 != b.length + 1

mutual
/-- Can the value be represented?  `left` is the number of bits from the beginning of the
field to the end of the enclosing payload. -/
def fitsV (e : Env) : Ty → Field → Val → Nat → Bool
  | .ptr t, fi, v, left =>
    match v with
    | .ptr (some x) => fitsV e t fi x left
    | _ => false
  | .struct c fs, fi, v, left =>
    match v with
    | .struct sv =>
      SV.keys sv == fs.names &&
      (if fi.size ≠ 0 ∧ fi.size % 8 = 0 then
        -- a struct with a size of its own
        left % 8 == 0 && (layoutFields e false c fs sv).length == fi.size &&
          decide (fi.size ≤ left) && fitsFields e false c fs sv fi.size
       else fitsFields e false c fs sv left)
    | _ => false
  | .arr n t, fi, v, left =>
    match v with
    | .arr l => l.length == n && fitsList (fun x k => fitsV e t fi x k) (fun x => layoutV e t fi x) l left
    | _ => false
  | .slice t, fi, v, left =>
    match v with
    | .slice l =>
      fitsList (fun x k => fitsV e t fi x k) (fun x => layoutV e t fi x) l left &&
      (if fi.length = lengthUnlimited then
        -- up to the end of the payload
        (l.flatMap (fun x => layoutV e t fi x)).length == left &&
          l.all (fun x => !(layoutV e t fi x).isEmpty) && (fi.size == 0 || left % fi.size == 0)
       else l.length == fi.length)
    | _ => false
  | .uint w, fi, v, left =>
    match v with
    | .uint n =>
      if fi.varint then decide (fi.size = 0 ∧ n < 2 ^ 28 ∧ n < 2 ^ w ∧ 32 ≤ left)
      else decide (0 < fi.size ∧ fi.size ≤ left ∧ n < 2 ^ fi.size ∧ n < 2 ^ w ∧ w ≤ 64)
    | _ => false
  | .int w, fi, v, left =>
    match v with
    | .int i =>
      !fi.varint && decide (0 < fi.size ∧ fi.size ≤ left ∧ fi.size ≤ w ∧ w ≤ 64 ∧
        -(2 ^ (fi.size - 1) : Nat) ≤ i ∧ i < (2 ^ (fi.size - 1) : Nat))
    | _ => false
  | .bool, fi, v, left =>
    match v with
    | .bool _ => decide (0 < fi.size ∧ fi.size ≤ 8 ∧ fi.size ≤ left)
    | _ => false
  | .str, fi, v, left =>
    match v with
    | .str b => noNul b && !fi.strCP &&
      (if fi.boxString then left == 8 * b.length else decide (8 * (b.length + 1) ≤ left))
    | _ => false

/-- Can the fields of a struct be represented?  Absent fields must be zero. -/
def fitsFields (e : Env) (top : Bool) (c : Option Cfo) : Fields → SV → Nat → Bool
  | .nil, _, _ => true
  | .cons f t fs, sv, left =>
    let cf := c.getD e.cfo
    let csv := if c.isSome then sv else e.root
    let fi := instField cf e.ctx csv f
    -- the methods of the type must have an answer (they panic otherwise)
    (!f.sizeDyn || (cf.size f.name e.ctx csv).isSome) &&
    (!f.lenDyn || (cf.length f.name e.ctx csv).isSome) &&
    (match sv.get f.name with
     | none => false
     | some v =>
      if present cf e.ctx e.root.version e.root.flags csv fi then
        if top && silent e.hook f.name sv then
          (e.hook != .avcc || isBool v (decide (32 ≤ left) && highProfile (sv.uint "Profile"))) &&
          fitsFields e top c fs sv left
        else
          let pre := if top then before e.hook f.name sv else []
          let left' := left - pre.length
          let n := (layoutV e t fi v).length
          (pre.isEmpty || (left % 8 == 0 && isText sv "SchemeIdUri" && isText sv "Value")) &&
          decide (pre.length ≤ left) &&
          fitsV e t fi v left' && decide (n ≤ left') &&
          -- `Name` of hdlr takes the rest of the payload
          (!(top && e.hook == .hdlr && f.name == "Name") ||
            (left == n && left % 8 == 0 && notPascal (sv.uint "PreDefined") (sv.str "Name"))) &&
          fitsFields e top c fs sv (left' - n)
      else isZero t v && fitsFields e top c fs sv left)
end

mutual
/-- Can `Marshal` write the value?  No list is shorter than its count, no pointer is nil and
signed numbers are in the range of their field.  Unlike in `fitsV`, lists may be too long, strings
may contain NULs and unsigned numbers may be too large: then only the first elements, or only the low bits,
are written. -/
def writableV (e : Env) : Ty → Field → Val → Bool
  | .ptr t, fi, v =>
    match v with
    | .ptr (some x) => writableV e t fi x
    | _ => false
  | .struct c fs, _, v =>
    match v with
    | .struct sv => writableFields e false c fs sv
    | _ => false
  | .arr _ t, fi, v =>
    match v with
    | .arr l => l.all (fun x => writableV e t fi x)
    | _ => false
  | .slice t, fi, v =>
    match v with
    | .slice l =>
      (fi.length == lengthUnlimited || decide (fi.length ≤ l.length)) &&
      (counted fi l).all (fun x => writableV e t fi x)
    | _ => false
  | .uint _, fi, v =>
    match v with
    | .uint _ => !fi.varint || fi.size == 0
    | _ => false
  | .int _, fi, v =>
    match v with
    | .int i =>
      !fi.varint && decide (0 < fi.size ∧ fi.size ≤ 64 ∧
        -(2 ^ (fi.size - 1) : Nat) ≤ i ∧ i < (2 ^ (fi.size - 1) : Nat))
    | _ => false
  | .bool, fi, v =>
    match v with
    | .bool _ => decide (fi.size ≤ 8)
    | _ => false
  | .str, _, v =>
    match v with
    | .str _ => true
    | _ => false

/-- Can `Marshal` write the fields of a struct?  Only those that are part of the encoding
matter. -/
def writableFields (e : Env) (top : Bool) (c : Option Cfo) : Fields → SV → Bool
  | .nil, _ => true
  | .cons f t fs, sv =>
    let cf := c.getD e.cfo
    let csv := if c.isSome then sv else e.root
    let fi := instField cf e.ctx csv f
    (!f.sizeDyn || (cf.size f.name e.ctx csv).isSome) &&
    (!f.lenDyn || (cf.length f.name e.ctx csv).isSome) &&
    (!present cf e.ctx e.root.version e.root.flags csv fi ||
      (if top && silent e.hook f.name sv then
        -- `avcC` must not claim to have the additional fields for another profile
        e.hook != .avcc || !sv.bool "HighProfileFieldsEnabled" || highProfile (sv.uint "Profile")
       else
        match sv.get f.name with
        | none => false
        | some v => writableV e t fi v)) &&
    writableFields e top c fs sv
end

/-- The environment of a box. -/
def env (bd : BoxDef) (ctx : Ctx) (sv : SV) : Env := ⟨ctx, bd.cfo, bd.hook, sv⟩

/-- The bits of the payload of a box. -/
def layout (bd : BoxDef) (ctx : Ctx) (sv : SV) : List Bool :=
  layoutFields (env bd ctx sv) true (some bd.cfo) bd.fields sv

/-- Can `Marshal` write the box? -/
def writable (bd : BoxDef) (ctx : Ctx) (sv : SV) : Bool :=
  writableFields (env bd ctx sv) true (some bd.cfo) bd.fields sv

/-- Can the box be represented?  It has exactly the fields of its type, they can be
represented in a payload of exactly the size of the layout, the payload is a whole
number of bytes (and no longer than a Go slice can be), the version is one of the registered ones,
and a `meta` box has version and flags 0 (otherwise it looks like a QuickTime `meta`). -/
def fits (bd : BoxDef) (ctx : Ctx) (sv : SV) : Bool :=
  sv.keys == bd.fields.names &&
  (layout bd ctx sv).length % 8 == 0 &&
  decide ((layout bd ctx sv).length ≤ 8 * 2 ^ 48) &&
  fitsFields (env bd ctx sv) true (some bd.cfo) bd.fields sv (layout bd ctx sv).length &&
  (!bd.fields.names.contains "FullBox" || bd.versions.isEmpty || bd.versions.contains sv.version) &&
  (!bd.metaHook || layout bd ctx sv == List.replicate 32 false)

/-- Can the box be represented at the beginning of a payload of `size` bytes, with something else (the children of the
box) behind it? -/
def fitsIn (bd : BoxDef) (ctx : Ctx) (sv : SV) (size : Nat) : Bool :=
  sv.keys == bd.fields.names &&
  (layout bd ctx sv).length % 8 == 0 &&
  decide ((layout bd ctx sv).length ≤ 8 * size) &&
  decide (size ≤ 2 ^ 48) &&
  fitsFields (env bd ctx sv) true (some bd.cfo) bd.fields sv (8 * size) &&
  (!bd.fields.names.contains "FullBox" || bd.versions.isEmpty || bd.versions.contains sv.version) &&
  (!bd.metaHook || layout bd ctx sv == List.replicate 32 false)

end Mp4.Spec
