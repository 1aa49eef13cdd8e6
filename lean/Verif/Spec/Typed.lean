import Verif.Spec.Layout

/-!
# Values of Go types

Which value trees are values of a Go type, and which pointers `Marshal` would follow.
-/

namespace Mp4.Spec

open Mp4

mutual
/-- Is it a value of the Go type? -/
def typedV : Ty → Val → Bool
  | .uint w, v => match v with | .uint n => decide (n < 2 ^ w) | _ => false
  | .int w, v =>
    match v with
    | .int i => decide (-(2 ^ (w - 1) : Nat) ≤ i ∧ i < (2 ^ (w - 1) : Nat))
    | _ => false
  | .bool, v => match v with | .bool _ => true | _ => false
  | .str, v => match v with | .str _ => true | _ => false
  | .ptr t, v =>
    match v with
    | .ptr none => true
    | .ptr (some x) => typedV t x
    | _ => false
  | .slice t, v => match v with | .slice l => l.all (fun x => typedV t x) | _ => false
  | .arr n t, v => match v with | .arr l => l.length == n && l.all (fun x => typedV t x) | _ => false
  | .struct _ fs, v => match v with | .struct sv => typedFields fs sv | _ => false
/-- Are they the values of the tagged fields of a struct? -/
def typedFields : Fields → SV → Bool
  | .nil, sv => sv.isEmpty
  | .cons f t fs, sv =>
    match sv with
    | [] => false
    | (n, v) :: rest => n == f.name && typedV t v && typedFields fs rest
end

mutual
/-- No pointer that is part of the encoding is nil. -/
def noNilV (e : Env) : Ty → Field → Val → Bool
  | .ptr t, fi, v => match v with | .ptr (some x) => noNilV e t fi x | _ => false
  | .struct c fs, _, v => match v with | .struct sv => noNilFields e c fs sv | _ => true
  | .arr _ t, fi, v => match v with | .arr l => l.all (fun x => noNilV e t fi x) | _ => true
  | .slice t, fi, v => match v with | .slice l => l.all (fun x => noNilV e t fi x) | _ => true
  | _, _, _ => true
/-- No pointer in fields that are part of the encoding is nil. -/
def noNilFields (e : Env) (c : Option Cfo) : Fields → SV → Bool
  | .nil, _ => true
  | .cons f t fs, sv =>
    let cf := c.getD e.cfo
    let csv := if c.isSome then sv else e.root
    let fi := instField cf e.ctx csv f
    (!present cf e.ctx e.root.version e.root.flags csv fi ||
      match sv.get f.name with
      | some v => noNilV e t fi v
      | none => true) && noNilFields e c fs sv
end

mutual
/-- Is there a string in the type? -/
def _root_.Mp4.Ty.hasStr : Ty → Bool
  | .str => true
  | .ptr t => t.hasStr
  | .arr _ t => t.hasStr
  | .slice t => t.hasStr
  | .struct _ fs => fs.hasStr
  | _ => false
/-- Is there a string in one of the fields? -/
def _root_.Mp4.Fields.hasStr : Fields → Bool
  | .nil => false
  | .cons _ t fs => t.hasStr || fs.hasStr
end

end Mp4.Spec
