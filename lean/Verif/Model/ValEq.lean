import Verif.Model.Types

/-!
# Equality of values is decidable

(so that closed facts about values can be checked by evaluation)
-/

namespace Mp4

mutual
/-- equality of values -/
def Val.decEq : (a b : Val) → Decidable (a = b)
  | .uint a, .uint b => if h : a = b then isTrue (by rw [h]) else isFalse (by simpa using h)
  | .int a, .int b => if h : a = b then isTrue (by rw [h]) else isFalse (by simpa using h)
  | .bool a, .bool b => if h : a = b then isTrue (by rw [h]) else isFalse (by simpa using h)
  | .str a, .str b => if h : a = b then isTrue (by rw [h]) else isFalse (by simpa using h)
  | .ptr none, .ptr none => isTrue rfl
  | .ptr (some a), .ptr (some b) =>
    match Val.decEq a b with
    | isTrue h => isTrue (by rw [h])
    | isFalse h => isFalse (by simpa using h)
  | .arr a, .arr b =>
    match Val.decEqList a b with
    | isTrue h => isTrue (by rw [h])
    | isFalse h => isFalse (by simpa using h)
  | .slice a, .slice b =>
    match Val.decEqList a b with
    | isTrue h => isTrue (by rw [h])
    | isFalse h => isFalse (by simpa using h)
  | .struct a, .struct b =>
    match Val.decEqSV a b with
    | isTrue h => isTrue (by rw [h])
    | isFalse h => isFalse (by simpa using h)
  | .ptr none, .ptr (some _) => isFalse (by simp)
  | .ptr (some _), .ptr none => isFalse (by simp)
  | .uint _, .int _ => isFalse (by simp)
  | .uint _, .bool _ => isFalse (by simp)
  | .uint _, .str _ => isFalse (by simp)
  | .uint _, .ptr _ => isFalse (by simp)
  | .uint _, .arr _ => isFalse (by simp)
  | .uint _, .slice _ => isFalse (by simp)
  | .uint _, .struct _ => isFalse (by simp)
  | .int _, .uint _ => isFalse (by simp)
  | .int _, .bool _ => isFalse (by simp)
  | .int _, .str _ => isFalse (by simp)
  | .int _, .ptr _ => isFalse (by simp)
  | .int _, .arr _ => isFalse (by simp)
  | .int _, .slice _ => isFalse (by simp)
  | .int _, .struct _ => isFalse (by simp)
  | .bool _, .uint _ => isFalse (by simp)
  | .bool _, .int _ => isFalse (by simp)
  | .bool _, .str _ => isFalse (by simp)
  | .bool _, .ptr _ => isFalse (by simp)
  | .bool _, .arr _ => isFalse (by simp)
  | .bool _, .slice _ => isFalse (by simp)
  | .bool _, .struct _ => isFalse (by simp)
  | .str _, .uint _ => isFalse (by simp)
  | .str _, .int _ => isFalse (by simp)
  | .str _, .bool _ => isFalse (by simp)
  | .str _, .ptr _ => isFalse (by simp)
  | .str _, .arr _ => isFalse (by simp)
  | .str _, .slice _ => isFalse (by simp)
  | .str _, .struct _ => isFalse (by simp)
  | .ptr _, .uint _ => isFalse (by simp)
  | .ptr _, .int _ => isFalse (by simp)
  | .ptr _, .bool _ => isFalse (by simp)
  | .ptr _, .str _ => isFalse (by simp)
  | .ptr _, .arr _ => isFalse (by simp)
  | .ptr _, .slice _ => isFalse (by simp)
  | .ptr _, .struct _ => isFalse (by simp)
  | .arr _, .uint _ => isFalse (by simp)
  | .arr _, .int _ => isFalse (by simp)
  | .arr _, .bool _ => isFalse (by simp)
  | .arr _, .str _ => isFalse (by simp)
  | .arr _, .ptr _ => isFalse (by simp)
  | .arr _, .slice _ => isFalse (by simp)
  | .arr _, .struct _ => isFalse (by simp)
  | .slice _, .uint _ => isFalse (by simp)
  | .slice _, .int _ => isFalse (by simp)
  | .slice _, .bool _ => isFalse (by simp)
  | .slice _, .str _ => isFalse (by simp)
  | .slice _, .ptr _ => isFalse (by simp)
  | .slice _, .arr _ => isFalse (by simp)
  | .slice _, .struct _ => isFalse (by simp)
  | .struct _, .uint _ => isFalse (by simp)
  | .struct _, .int _ => isFalse (by simp)
  | .struct _, .bool _ => isFalse (by simp)
  | .struct _, .str _ => isFalse (by simp)
  | .struct _, .ptr _ => isFalse (by simp)
  | .struct _, .arr _ => isFalse (by simp)
  | .struct _, .slice _ => isFalse (by simp)
/-- equality of lists of values -/
def Val.decEqList : (a b : List Val) → Decidable (a = b)
  | [], [] => isTrue rfl
  | [], _ :: _ => isFalse (by simp)
  | _ :: _, [] => isFalse (by simp)
  | a :: as, b :: bs =>
    match Val.decEq a b, Val.decEqList as bs with
    | isTrue h, isTrue h' => isTrue (by rw [h, h'])
    | isFalse h, _ => isFalse (by intro hh; injection hh; contradiction)
    | _, isFalse h => isFalse (by intro hh; injection hh; contradiction)
/-- equality of structs -/
def Val.decEqSV : (a b : List (String × Val)) → Decidable (a = b)
  | [], [] => isTrue rfl
  | [], _ :: _ => isFalse (by simp)
  | _ :: _, [] => isFalse (by simp)
  | (n, a) :: as, (m, b) :: bs =>
    match instDecidableEqString n m, Val.decEq a b, Val.decEqSV as bs with
    | isTrue h, isTrue h', isTrue h'' => isTrue (by rw [h, h', h''])
    | isFalse h, _, _ => isFalse (by simp [h])
    | _, isFalse h, _ => isFalse (by simp [h])
    | _, _, isFalse h => isFalse (by simp [h])
end

instance : DecidableEq Val := Val.decEq

end Mp4
