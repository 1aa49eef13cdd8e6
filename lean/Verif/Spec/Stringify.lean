import Verif.Model.Stringify

/-!
# What printable text is
-/

namespace Mp4.Spec

open Mp4 Mp4.Str

/-- a Unicode scalar value -/
def scalar (r : Nat) : Prop := r < 0xd800 ∨ (0xe000 ≤ r ∧ r < 0x110000)

/-- The Latin-1 characters that are not graphic: the two ranges of control characters, and the soft hyphen. -/
def latinControl (r : Nat) : Prop := r < 32 ∨ (127 ≤ r ∧ r < 160) ∨ r = 173

/-- The text is well-formed UTF-8 of graphic characters only. -/
def Printable (beyond : Nat → Bool) (t : Text) : Prop :=
  ∃ rs : List Nat, (∀ r ∈ rs, scalar r ∧ isGraphic beyond r = true) ∧ t = rs.flatMap encodeRune

mutual
/-- Each letter of a language code is below 31 (so that adding 0x60 makes it one of the printable characters 0x60 to 0x7e), and bytes of
text occur in arrays and slices only. -/
def langOK : Ty → Field → Val → Bool
  | .uint _, fi, v => match v with | .uint n => !fi.isString && (!fi.iso639 || decide (n < 31)) | _ => true
  | .ptr t, fi, v => match v with | .ptr (some x) => langOK t fi x | _ => true
  | .arr _ t, fi, v => match v with | .arr l => fi.isString || l.all (fun x => langOK t fi x) | _ => true
  | .slice t, fi, v => match v with | .slice l => fi.isString || l.all (fun x => langOK t fi x) | _ => true
  | .struct _ fs, _, v => match v with | .struct sv => langFields fs sv | _ => true
  | _, _, _ => true
/-- The same for the fields of a struct, whose names are of printable ASCII characters. -/
def langFields : Fields → SV → Bool
  | .nil, _ => true
  | .cons f t fs, sv =>
    match sv with
    | [] => true
    | (_, v) :: rest => (lit f.name).all (fun b => decide (32 ≤ b ∧ b ≤ 126)) && langOK t f v && langFields fs rest
end

mutual
/-- The type has no language codes (and is otherwise as required by `langOK`). -/
def noLang : Ty → Field → Bool
  | .uint _, fi => !fi.isString && !fi.iso639
  | .ptr t, fi => noLang t fi
  | .arr _ t, fi => fi.isString || noLang t fi
  | .slice t, fi => fi.isString || noLang t fi
  | .struct _ fs, _ => noLangFields fs
  | _, _ => true
/-- The same for the fields of a struct. -/
def noLangFields : Fields → Bool
  | .nil => true
  | .cons f t fs => (lit f.name).all (fun b => decide (32 ≤ b ∧ b ≤ 126)) && noLang t f && noLangFields fs
end

end Mp4.Spec
