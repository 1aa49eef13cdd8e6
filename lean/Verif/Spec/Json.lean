import Verif.Model.Basic

/-!
# JSON texts, RFC 8259

A text is a list of code points.  The reader is strict: it refuses what the RFC does not allow, and escapes for surrogates as well.
-/

namespace Mp4.Spec

/-- JSON values; a number is kept as it is written, a string is a list of code points. -/
inductive Json where
  | null
  | bool (b : Bool)
  | num (t : List Nat)
  | str (s : List Nat)
  | arr (l : List Json)
  | obj (l : List (List Nat × Json))

namespace Json

/-- RFC 8259 §2: `ws` -/
def blank (c : Nat) : Bool := c == 32 || c == 9 || c == 10 || c == 13

def skip : List Nat → List Nat
  | c :: cs => if blank c then skip cs else c :: cs
  | [] => []

def digit (c : Nat) : Bool := 48 ≤ c && c ≤ 57

/-! ## Numbers, §6: what is behind the number at the beginning of a text -/

def behindInt : List Nat → Option (List Nat)
  | [] => none
  | c :: cs => if c = 48 then some cs else if digit c then some (cs.dropWhile digit) else none

def behindDigits : List Nat → Option (List Nat)
  | [] => none
  | c :: cs => if digit c then some (cs.dropWhile digit) else none

def behindFrac : List Nat → Option (List Nat)
  | [] => some []
  | c :: cs => if c = 46 then behindDigits cs else some (c :: cs)

def dropSign : List Nat → List Nat
  | [] => []
  | c :: cs => if c = 43 ∨ c = 45 then cs else c :: cs

def behindExp : List Nat → Option (List Nat)
  | [] => some []
  | c :: cs => if c = 101 ∨ c = 69 then behindDigits (dropSign cs) else some (c :: cs)

def dropMinus : List Nat → List Nat
  | [] => []
  | c :: cs => if c = 45 then cs else c :: cs

/-- `number = [ minus ] int [ frac ] [ exp ]` -/
def behindNumber (cs : List Nat) : Option (List Nat) := ((behindInt (dropMinus cs)).bind behindFrac).bind behindExp

/-- The text is a number and nothing else. -/
def IsNumber (t : List Nat) : Prop := behindNumber t = some []

/-! ## Strings, §7 -/

def hexDigit (c : Nat) : Option Nat :=
  if digit c then some (c - 48) else if 97 ≤ c ∧ c ≤ 102 then some (c - 87) else if 65 ≤ c ∧ c ≤ 70 then some (c - 55) else none

/-- `\uXXXX` -/
def hex4 (a b c d : Nat) : Option Nat := do
  let a ← hexDigit a
  let b ← hexDigit b
  let c ← hexDigit c
  let d ← hexDigit d
  let r := a * 4096 + b * 256 + c * 16 + d
  if 0xd800 ≤ r ∧ r < 0xe000 then none else some r

/-- the character behind `\` -/
def escaped (c : Nat) : Option Nat :=
  if c = 34 ∨ c = 92 ∨ c = 47 then some c else if c = 98 then some 8 else if c = 102 then some 12 else if c = 110 then some 10
  else if c = 114 then some 13 else if c = 116 then some 9 else none

/-- the characters up to the closing quotation mark, and what is behind it -/
def string : List Nat → Option (List Nat × List Nat)
  | [] => none
  | [c] => if c = 34 then some ([], []) else none
  | c :: e :: cs =>
    if c = 34 then some ([], e :: cs)
    else if c = 92 then
      if e = 117 then
        match cs with
        | h1 :: h2 :: h3 :: h4 :: cs => (hex4 h1 h2 h3 h4).bind fun r => (string cs).map fun x => (r :: x.1, x.2)
        | _ => none
      else (escaped e).bind fun r => (string cs).map fun x => (r :: x.1, x.2)
    else if c < 32 then none
    else (string (e :: cs)).map fun x => (c :: x.1, x.2)

/-! ## Values, §3 to §5 -/

/-- the literal names, a number or a string -/
def scalar : List Nat → Option (Json × List Nat)
  | 34 :: cs => (string cs).map fun x => (.str x.1, x.2)
  | 116 :: 114 :: 117 :: 101 :: cs => some (.bool true, cs)
  | 102 :: 97 :: 108 :: 115 :: 101 :: cs => some (.bool false, cs)
  | 110 :: 117 :: 108 :: 108 :: cs => some (.null, cs)
  | cs => (behindNumber cs).map fun r => (.num (cs.take (cs.length - r.length)), r)

mutual
/-- a value, and what is behind it; every call reads at least one character, `fuel` bounds the depth of calls -/
def value : Nat → List Nat → Option (Json × List Nat)
  | 0, _ => none
  | fuel + 1, cs =>
    match skip cs with
    | [] => none
    | c :: cs =>
      if c = 123 then
        match skip cs with
        | 125 :: cs => some (.obj [], cs)
        | cs => (members fuel cs).map fun x => (.obj x.1, x.2)
      else if c = 91 then
        match skip cs with
        | 93 :: cs => some (.arr [], cs)
        | cs => (elements fuel cs).map fun x => (.arr x.1, x.2)
      else scalar (c :: cs)

/-- `member *( "," member )` and the closing brace -/
def members : Nat → List Nat → Option (List (List Nat × Json) × List Nat)
  | 0, _ => none
  | fuel + 1, cs =>
    match skip cs with
    | 34 :: cs => (string cs).bind fun k =>
      match skip k.2 with
      | 58 :: cs => (value fuel cs).bind fun v =>
        match skip v.2 with
        | 44 :: cs => (members fuel cs).map fun x => ((k.1, v.1) :: x.1, x.2)
        | 125 :: cs => some ([(k.1, v.1)], cs)
        | _ => none
      | _ => none
    | _ => none

/-- `value *( "," value )` and the closing bracket -/
def elements : Nat → List Nat → Option (List Json × List Nat)
  | 0, _ => none
  | fuel + 1, cs => (value fuel cs).bind fun v =>
    match skip v.2 with
    | 44 :: cs => (elements fuel cs).map fun x => (v.1 :: x.1, x.2)
    | 93 :: cs => some ([v.1], cs)
    | _ => none
end

/-- The value that a JSON text stands for. -/
def parse (cs : List Nat) : Option Json :=
  match value cs.length cs with
  | some (v, rest) => if skip rest = [] then some v else none
  | none => none

/-- the member of an object with this name (the first one) -/
def get (v : Json) (name : String) : Option Json :=
  match v with
  | .obj l => (l.find? fun m => m.1 == name.toList.map Char.toNat).map (·.2)
  | _ => none

/-- the names of the members of an object -/
def names : Json → List (List Nat)
  | .obj l => l.map (·.1)
  | _ => []

/-- the value of a number without sign, fraction and exponent -/
def nat? : Json → Option Nat
  | .num t => if t.all digit then some (t.foldl (fun n c => n * 10 + (c - 48)) 0) else none
  | _ => none

end Json

end Mp4.Spec
