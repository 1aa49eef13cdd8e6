import Verif.Model.Types

/-!
# field.go: interpretation of struct tags

Tags are lists of characters (all tags of the library are ASCII, where bytes and
characters agree).  A Go map is a list of pairs with distinct keys; `range` over it
presents the pairs in an order that Go does not fix, so that order is a parameter.
The warnings written to standard error are left out.
-/

namespace Mp4.Tag

open Mp4

abbrev Txt := List Char

/-- `strings.Split` with a separator of one character. -/
def split (c : Char) : Txt → List Txt
  | [] => [[]]
  | x :: xs =>
    if x = c then [] :: split c xs
    else match split c xs with
      | [] => [[x]]
      | w :: ws => (x :: w) :: ws

/-- `strings.SplitN(e, "=", 2)`: the part before the first `=`, and the part after it if there is one. -/
def cut : Txt → Txt × Option Txt
  | [] => ([], none)
  | x :: xs => if x = '=' then ([], some xs) else (x :: (cut xs).1, (cut xs).2)

/-- `strings.Trim(s, " ")` -/
def trim (s : Txt) : Txt := ((s.dropWhile (· = ' ')).reverse.dropWhile (· = ' ')).reverse

/-- key and value of one element of a tag, field.go:236-241 -/
def pairOf (e : Txt) : Txt × Txt :=
  match cut e with
  | (k, some v) => (trim k, trim v)
  | (k, none) => (trim k, [])

abbrev TagMap := List (Txt × Txt)

/-- `tag[k] = v` -/
def TagMap.set : TagMap → Txt → Txt → TagMap
  | [], k, v => [(k, v)]
  | (k', v') :: m, k, v => if k' = k then (k, v) :: m else (k', v') :: TagMap.set m k v

/-- `val, contained := tag[k]` -/
def TagMap.get : TagMap → Txt → Option Txt
  | [], _ => none
  | (k', v) :: m, k => if k' = k then some v else TagMap.get m k

/-- `parseFieldTag`, field.go:231-245 -/
def parseFieldTag (str : Txt) : TagMap := (split ',' str).foldl (fun m e => m.set (pairOf e).1 (pairOf e).2) []

/-- the value of a digit -/
def digit (base : Nat) (c : Char) : Option Nat :=
  let n := c.toNat
  let v := if 48 ≤ n ∧ n ≤ 57 then n - 48 else if 97 ≤ n ∧ n ≤ 122 then n - 87 else if 65 ≤ n ∧ n ≤ 90 then n - 55 else base
  if v < base then some v else none

/-- the number with these digits -/
def digits (base : Nat) : Nat → Txt → Option Nat
  | acc, [] => some acc
  | acc, c :: cs => (digit base c).bind fun v => digits base (acc * base + v) cs

/-- `strconv.ParseUint(s, base, 32)` for a base from 2 to 36; `none` is the error. -/
def parseUint (base : Nat) (s : Txt) : Option Nat :=
  if s = [] then none
  else (digits base 0 s).bind fun n => if n < 2 ^ 32 then some n else none

/-- `strconv.Atoi` on a 64-bit platform; `none` is the error. -/
def atoi (s : Txt) : Option Int :=
  let neg := s.head? = some '-'
  let body := if neg ∨ s.head? = some '+' then s.tail else s
  if body = [] then none
  else (digits 10 0 body).bind fun n =>
    if neg then (if n ≤ 2 ^ 63 then some (-(n : Int)) else none)
    else if n < 2 ^ 63 then some (n : Int) else none

/-- is this pair an order key? (field.go:102-105) -/
def orderKey (p : Txt × Txt) : Option Int := if p.2 ≠ [] then none else atoi p.1

/-- the loop of field.go:101-109 over the map, in the order `it`; 0 if there is no order key -/
def orderOf (it : TagMap) : Int := (it.findSome? orderKey).getD 0

/-- a flag value of `opt` and `nopt`, field.go:131-140, 144-153 -/
def flagNumber (val : Txt) : Option Nat :=
  match val with
  | '0' :: 'x' :: rest => parseUint 16 rest
  | _ => parseUint 10 val

/-- a version, field.go:184-193, 196-206: `uint8(ver)` of a number up to 255 -/
def versionNumber (val : Txt) : Option Nat :=
  (atoi val).bind fun v => if v > 255 then none else some (v % 256).toNat

/-- an optional number: absent, `dynamic` or a number; `none` is a panic -/
def dynNumber (m : TagMap) (key : Txt) (dflt : Nat) (parse : Txt → Option Nat) : Option (Bool × Nat) :=
  match m.get key with
  | none => some (false, dflt)
  | some v => if v = "dynamic".toList then some (true, dflt) else (parse v).map fun n => (false, n)

/-- an optional number; `none` is a panic -/
def optNumber (m : TagMap) (key : Txt) (dflt : Nat) (parse : Txt → Option Nat) : Option Nat :=
  match m.get key with
  | none => some dflt
  | some v => parse v

/-- `buildField`, field.go:96-229, without the order; `none` is a panic -/
def fieldOf (name : String) (m : TagMap) : Option Field :=
  (dynNumber m "opt".toList 0 flagNumber).bind fun opt =>
  (optNumber m "nopt".toList 0 flagNumber).bind fun nopt =>
  (optNumber m "ver".toList anyVersion versionNumber).bind fun ver =>
  (optNumber m "nver".toList anyVersion versionNumber).bind fun nver =>
  (dynNumber m "size".toList 0 (parseUint 10)).bind fun size =>
  (dynNumber m "len".toList lengthUnlimited (parseUint 10)).bind fun len =>
  some {
    name := name
    size := size.2, sizeDyn := size.1
    length := len.2, lenDyn := len.1
    optFlag := opt.2, optDyn := opt.1
    nOptFlag := nopt, version := ver, nVersion := nver
    varint := (m.get "varint".toList).isSome
    boxString := (m.get "boxstring".toList).isSome
    isString := (m.get "string".toList).isSome
    strCP := m.get "string".toList == some "c_p".toList
    extend := (m.get "extend".toList).isSome
    dec := (m.get "dec".toList).isSome
    hex := (m.get "hex".toList).isSome
    iso639 := (m.get "iso639-2".toList).isSome
    uuid := (m.get "uuid".toList).isSome
    hidden := (m.get "hidden".toList).isSome
    cnst := String.ofList ((m.get "const".toList).getD []) }

/-- `buildField`, field.go:96-229, where `range` presents the map in the order `it` -/
def buildField (it : TagMap) (name : String) (tag : Txt) : Option (Int × Field) :=
  (fieldOf name (parseFieldTag tag)).map fun f => (orderOf it, f)

/-- insertion before the first element of a greater order -/
def insertBy {α : Type} (x : Int × α) : List (Int × α) → List (Int × α)
  | [] => [x]
  | y :: l => if x.1 < y.1 then x :: y :: l else y :: insertBy x l

/-- `sort.SliceStable` by order, field.go:78-80 (its result is determined by being sorted and stable) -/
def sortBy {α : Type} (l : List (Int × α)) : List (Int × α) := l.foldl (fun acc x => insertBy x acc) []

/-- A struct declaration: name, tag and type of each tagged field. -/
abbrev Decl := List (String × String × Ty)

/-- the fields of a struct in order of declaration -/
def buildAll (it : String → Txt → TagMap) : Decl → Option (List (Int × Field × Ty))
  | [] => some []
  | (name, tag, ty) :: ds =>
    (buildField (it name tag.toList) name tag.toList).bind fun f => (buildAll it ds).map fun l => (f.1, f.2, ty) :: l

/-- `buildFieldsStruct`, field.go:62-82 (the children of a field are part of its type) -/
def buildFieldsStruct (it : String → Txt → TagMap) (ds : Decl) : Option (List (Field × Ty)) :=
  (buildAll it ds).map fun l => (sortBy l).map (·.2)

end Mp4.Tag
