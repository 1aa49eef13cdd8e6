import Verif.Spec.Typed

/-!
# Boxes that say the same

Two values of a box type that differ only in fields that are not part of the encoding.
-/

namespace Mp4.Spec

open Mp4

/-- Every field has the same value in both, or is absent from both. -/
def agreeFields (c : Cfo) (ctx : Ctx) (a b : SV) : Fields → Prop
  | .nil => True
  | .cons f _ fs =>
    (a.get f.name = b.get f.name ∨
      (present c ctx a.version a.flags a f = false ∧ present c ctx b.version b.flags b f = false)) ∧
    agreeFields c ctx a b fs

/-- The two boxes differ only in fields that are absent from both. -/
def agree (bd : BoxDef) (ctx : Ctx) (a b : SV) : Prop := agreeFields bd.cfo ctx a b bd.fields

/-- Two calls of `Unmarshal` end in the same way: the same position of the stream, and the same error, or the same number of bytes
and boxes that differ only in absent fields. -/
def sameDecoding (bd : BoxDef) (ctx : Ctx) (x y : Out (Nat × SV) × Nat) : Prop :=
  x.2 = y.2 ∧
  match x.1, y.1 with
  | .ok (n, sv), .ok (n', sv') => n = n' ∧ agree bd ctx sv sv'
  | .err e, .err e' => e = e'
  | .panic, .panic => True
  | .hang, .hang => True
  | _, _ => False

/-- No field of the box is optional. -/
def allPresent : Fields → Bool
  | .nil => true
  | .cons f _ fs => f.version == 255 && f.nVersion == 255 && f.optFlag == 0 && f.nOptFlag == 0 && !f.optDyn && allPresent fs

end Mp4.Spec
