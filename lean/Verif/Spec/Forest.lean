import Verif.Lemmas.Traverse

/-!
# Well-formed files

A file is well formed if it is a row of boxes up to its end, where boxes may contain a row of boxes that begins right behind the fields
of the box and fills it.
-/

namespace Mp4

/-- A row of boxes.  Nothing is said about the contents of a `leaf`; a `node` has fields of `n` bytes, and then children. -/
inductive Forest where
  | nil
  | leaf (bi : BoxInfo) (rest : Forest)
  | node (bi : BoxInfo) (n : Nat) (kids rest : Forest)

namespace Forest

/-- number of boxes -/
def count : Forest → Nat
  | nil => 0
  | leaf _ rest => 1 + rest.count
  | node _ _ kids rest => 1 + kids.count + rest.count

/-- The box `bi` is in the file at `pos`, with `total` bytes left in its parent (if it is not at the root).
Its header says so, it ends inside the file and inside its parent, and its context follows from `ctx` (see
`OwnCtx`, and C27 for what the contexts say). -/
structure Placed (d : Bytes) (isRoot : Bool) (path : List BoxType) (ctx : Ctx) (pos total : Nat) (bi : BoxInfo) : Prop where
  offset : bi.offset = pos
  header : Props.isoHeader (d.drop pos) = .box bi.size bi.headerSize bi.type bi.extendToEOF
  whole : bi.headerSize ≤ bi.size
  inFile : pos + bi.size ≤ d.length
  inParent : isRoot = true ∨ bi.size ≤ total
  own : OwnCtx d path ctx bi

/-- The file `d` has this row of boxes at `pos`; `path` is the path of the parent, `total` the number of bytes up to its end.
At the root the row ends with the file.  Inside a box it ends where the box ends (in QuickTime files a few bytes may follow). -/
def WF (d : Bytes) : Forest → Bool → List BoxType → Ctx → Nat → Nat → Prop
  | nil, isRoot, _, ctx, pos, total =>
    if isRoot then pos = d.length else total = 0 ∨ (total < 8 ∧ ctx.isQuickTimeCompatible = true)
  | leaf bi rest, isRoot, path, ctx, pos, total =>
    Placed d isRoot path ctx pos total bi ∧ rest.WF d isRoot path (nextCtx ctx bi) (pos + bi.size) (total - bi.size)
  | node bi n kids rest, isRoot, path, ctx, pos, total =>
    Placed d isRoot path ctx pos total bi ∧ PayloadN d bi n ∧
    kids.WF d false (path ++ [bi.type]) (childCtx bi) (pos + bi.headerSize + n) (bi.size - bi.headerSize - n) ∧
    rest.WF d isRoot path (nextCtx ctx bi) (pos + bi.size) (total - bi.size)

/-- All boxes of the row, each before its children: parent, path and box. -/
def boxes (parent : Option BoxInfo) (path : List BoxType) : Forest → List (Option BoxInfo × List BoxType × BoxInfo)
  | nil => []
  | leaf bi rest => (parent, path ++ [bi.type], bi) :: rest.boxes parent path
  | node bi _ kids rest =>
    (parent, path ++ [bi.type], bi) :: (kids.boxes (some bi) (path ++ [bi.type]) ++ rest.boxes parent path)

variable {P : Type}

/-- The boxes that are visited when only those are expanded that are wanted. -/
def visited (want : Handle P → Bool) (sub : Handle P → P) (parent : Option BoxInfo) (path : List BoxType) (p : P) :
    Forest → List (Option BoxInfo × Handle P)
  | nil => []
  | leaf bi rest => (parent, ⟨p, bi, path ++ [bi.type]⟩) :: rest.visited want sub parent path p
  | node bi _ kids rest =>
    (parent, ⟨p, bi, path ++ [bi.type]⟩) ::
      ((if want ⟨p, bi, path ++ [bi.type]⟩ then
          kids.visited want sub (some bi) (path ++ [bi.type]) (sub ⟨p, bi, path ++ [bi.type]⟩)
        else []) ++ rest.visited want sub parent path p)

/-- No leaf is wanted. -/
def Expandable (want : Handle P → Bool) (sub : Handle P → P) (path : List BoxType) (p : P) : Forest → Prop
  | nil => True
  | leaf bi rest => want ⟨p, bi, path ++ [bi.type]⟩ = false ∧ rest.Expandable want sub path p
  | node bi _ kids rest =>
    (want ⟨p, bi, path ++ [bi.type]⟩ = true →
      kids.Expandable want sub (path ++ [bi.type]) (sub ⟨p, bi, path ++ [bi.type]⟩)) ∧
    rest.Expandable want sub path p

/-- The values that the handler `walker` returns for the row. -/
def values {V : Type} (want : Handle P → Bool) (sub : Handle P → P) (val : Handle P → List V → V) (path : List BoxType) (p : P) :
    Forest → List V
  | nil => []
  | leaf bi rest => val ⟨p, bi, path ++ [bi.type]⟩ [] :: rest.values want sub val path p
  | node bi _ kids rest =>
    val ⟨p, bi, path ++ [bi.type]⟩ (if want ⟨p, bi, path ++ [bi.type]⟩ then
        kids.values want sub val (path ++ [bi.type]) (sub ⟨p, bi, path ++ [bi.type]⟩)
      else []) :: rest.values want sub val path p

end Forest

variable {S P V : Type}

/-- return what the children returned, or the error -/
def finish (val : List V → V) : Except Err (List V) → Prog S P V
  | .ok vs => .ret (val vs)
  | .error e => .err e

/-- A handler that notes the box in its variables, and expands it if it is wanted. -/
def walker (note : Handle P → S → S) (want : Handle P → Bool) (sub : Handle P → P) (val : Handle P → List V → V) :
    Handler S P V := fun h =>
  .get fun s => .set (note h s) (if want h then .expand (sub h) (finish (val h)) else .ret (val h []))

/-- The calls of the handler. -/
def enters : List (Ev V) → List (Option BoxInfo × List BoxType × BoxInfo)
  | [] => []
  | .enter parent path bi :: l => (parent, path, bi) :: enters l
  | _ :: l => enters l

/-- The leaves of a row of boxes. -/
def Props.leaves (path : List BoxType) : Forest → List (List BoxType × BoxInfo)
  | .nil => []
  | .leaf bi rest => (path ++ [bi.type], bi) :: leaves path rest
  | .node bi _ kids rest => leaves (path ++ [bi.type]) kids ++ leaves path rest

end Mp4
