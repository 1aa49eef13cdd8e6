import Verif.Spec.Writer
import Verif.Spec.Layout
import Verif.Spec.Forest

/-!
# Rows of boxes to be written and read back
-/

namespace Mp4

/-- A row of boxes.  `start` is the argument of `StartBox`.  A box of a known type has fields `sv` (`bd` is its type) and
children; a `raw` box has a payload about which nothing is known. -/
inductive Boxes where
  | nil
  | raw (start : BoxInfo) (payload : Bytes) (rest : Boxes)
  | box (start : BoxInfo) (bd : BoxDef) (sv : SV) (kids rest : Boxes)

namespace Boxes

/-- The context of a box of type `t` with fields `sv`, when `ctx` is the context of its row: an `ftyp` at the root that names the
brand `qt  ` makes the file a QuickTime file; `keys` says how many keys there are. -/
def ownCtx (isRoot : Bool) (ctx : Ctx) (t : BoxType) (sv : SV) : Ctx :=
  if isRoot ∧ t = tFtyp ∧ (ftypBrands sv).has brandQT then { ctx with isQuickTimeCompatible := true }
  else if t = tKeys then { ctx with quickTimeKeysMetaEntryCount := sv.int "EntryCount" }
  else ctx

/-- The box as it will be found. -/
def info (start : BoxInfo) (pos size : Nat) (ctx : Ctx) : BoxInfo :=
  ⟨pos, size, (Form.of start).len, start.type, start.extendToEOF, ctx⟩

/-- The context of the children. -/
def kidsCtx (isRoot : Bool) (ctx : Ctx) (start : BoxInfo) (sv : SV) : Ctx :=
  childCtx (info start 0 0 (ownCtx isRoot ctx start.type sv))

/-- The context of the boxes behind. -/
def restCtx (isRoot : Bool) (ctx : Ctx) (start : BoxInfo) (sv : SV) : Ctx :=
  nextCtx ctx (info start 0 0 (ownCtx isRoot ctx start.type sv))

/-- The calls: for each box `StartBox`, `Marshal` of the fields, the children, `EndBox`. -/
def tree : Boxes → Bool → Ctx → WTree
  | nil, _, _ => .nil
  | raw start p rest, isRoot, ctx => .box start (.bytes p .nil) (rest.tree isRoot ctx)
  | box start bd sv kids rest, isRoot, ctx =>
    .box start (.fields bd (ownCtx isRoot ctx start.type sv) sv (kids.tree false (kidsCtx isRoot ctx start sv)))
      (rest.tree isRoot (restCtx isRoot ctx start sv))

/-- The bytes. -/
def ser : Boxes → Bool → Ctx → Bytes
  | nil, _, _ => []
  | raw start p rest, isRoot, ctx =>
    (Form.of start).header start.type ((Form.of start).len + p.length) ++ p ++ rest.ser isRoot ctx
  | box start bd sv kids rest, isRoot, ctx =>
    let fields := bitsBytes (Spec.layout bd (ownCtx isRoot ctx start.type sv) sv)
    let body := kids.ser false (kidsCtx isRoot ctx start sv)
    (Form.of start).header start.type ((Form.of start).len + (fields ++ body).length) ++ (fields ++ body) ++
      rest.ser isRoot (restCtx isRoot ctx start sv)

/-- The row at `pos`. -/
def forest : Boxes → Bool → Ctx → Nat → Forest
  | nil, _, _, _ => .nil
  | raw start p rest, isRoot, ctx, pos =>
    let size := (Form.of start).len + p.length
    .leaf (info start pos size ctx) (rest.forest isRoot ctx (pos + size))
  | box start bd sv kids rest, isRoot, ctx, pos =>
    let own := ownCtx isRoot ctx start.type sv
    let n := (bitsBytes (Spec.layout bd own sv)).length
    let body := kids.ser false (kidsCtx isRoot ctx start sv)
    let size := (Form.of start).len + (n + body.length)
    .node (info start pos size own) n (kids.forest false (kidsCtx isRoot ctx start sv) (pos + (Form.of start).len + n))
      (rest.forest isRoot (restCtx isRoot ctx start sv) (pos + size))

/-- The fields of the boxes of known types. -/
def fields : Boxes → Bool → Ctx → Nat → List (BoxInfo × BoxDef × SV)
  | nil, _, _, _ => []
  | raw start p rest, isRoot, ctx, pos => rest.fields isRoot ctx (pos + ((Form.of start).len + p.length))
  | box start bd sv kids rest, isRoot, ctx, pos =>
    let own := ownCtx isRoot ctx start.type sv
    let n := (bitsBytes (Spec.layout bd own sv)).length
    let body := kids.ser false (kidsCtx isRoot ctx start sv)
    let size := (Form.of start).len + (n + body.length)
    (info start pos size own, bd, sv) ::
      (kids.fields false (kidsCtx isRoot ctx start sv) (pos + (Form.of start).len + n) ++
        rest.fields isRoot (restCtx isRoot ctx start sv) (pos + size))

/-- The payloads of the other boxes. -/
def payloads : Boxes → Bool → Ctx → Nat → List (BoxInfo × Bytes)
  | nil, _, _, _ => []
  | raw start p rest, isRoot, ctx, pos =>
    let size := (Form.of start).len + p.length
    (info start pos size ctx, p) :: rest.payloads isRoot ctx (pos + size)
  | box start bd sv kids rest, isRoot, ctx, pos =>
    let own := ownCtx isRoot ctx start.type sv
    let n := (bitsBytes (Spec.layout bd own sv)).length
    let body := kids.ser false (kidsCtx isRoot ctx start sv)
    let size := (Form.of start).len + (n + body.length)
    kids.payloads false (kidsCtx isRoot ctx start sv) (pos + (Form.of start).len + n) ++
      rest.payloads isRoot (restCtx isRoot ctx start sv) (pos + size)

/-- Raw boxes are of unknown types. -/
def Unknown : Boxes → Bool → Ctx → Prop
  | nil, _, _ => True
  | raw start _ rest, isRoot, ctx => BoxMap.std.isSupported start.type ctx = false ∧ rest.Unknown isRoot ctx
  | box start _ sv kids rest, isRoot, ctx =>
    kids.Unknown false (kidsCtx isRoot ctx start sv) ∧ rest.Unknown isRoot (restCtx isRoot ctx start sv)

/-- no box -/
def isNil : Boxes → Bool
  | nil => true
  | _ => false

/-- The row can be written and read.  `last`: the row ends with the file.
The size of a box has to fit the header asked for, and only a box that ends with the file can have a header that says so.  The fields can be represented;
`bd` is what the library takes boxes of this type to be in this context.  An `ftyp` at the root and a `keys` may not be raw. -/
def Ok : Boxes → Bool → Bool → Ctx → Prop
  | nil, _, _, _ => True
  | raw start p rest, isRoot, last, ctx =>
    (Form.of start = .small → 8 + p.length < 2 ^ 32) ∧
    (Form.of start = .toEnd → last = true ∧ rest.isNil = true) ∧
    ¬ (isRoot = true ∧ start.type = tFtyp) ∧ start.type ≠ tKeys ∧ rest.Ok isRoot last ctx
  | box start bd sv kids rest, isRoot, last, ctx =>
    let own := ownCtx isRoot ctx start.type sv
    let n := (bitsBytes (Spec.layout bd own sv)).length
    let body := kids.ser false (kidsCtx isRoot ctx start sv)
    (Form.of start = .small → 8 + (n + body.length) < 2 ^ 32) ∧
    (Form.of start = .toEnd → last = true ∧ rest.isNil = true) ∧
    BoxMap.std.getBoxDef start.type own = some bd ∧ Spec.fitsIn bd own sv (n + body.length) = true ∧
    kids.Ok false (last && rest.isNil) (kidsCtx isRoot ctx start sv) ∧
    rest.Ok isRoot last (restCtx isRoot ctx start sv)

end Boxes

end Mp4
