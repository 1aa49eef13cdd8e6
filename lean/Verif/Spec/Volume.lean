import Verif.Model.Types

/-!
# How much a value holds

(for C66: what a box takes in memory)
-/

namespace Mp4.Spec

open Mp4

mutual
/-- The number of list elements and string bytes in a value, at all depths.  (Everything else in a value takes room that is
fixed by its Go type.) -/
def vol : Val → Nat
  | .uint _ => 0
  | .int _ => 0
  | .bool _ => 0
  | .str s => s.length
  | .ptr none => 0
  | .ptr (some v) => vol v
  | .arr l => volList l
  | .slice l => l.length + volList l
  | .struct sv => volFields sv
/-- the sum over a list -/
def volList : List Val → Nat
  | [] => 0
  | v :: l => vol v + volList l
/-- the sum over the fields of a struct -/
def volFields : List (String × Val) → Nat
  | [] => 0
  | (_, v) :: l => vol v + volFields l
end

end Mp4.Spec
