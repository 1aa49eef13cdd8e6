import Verif.Model.Read

/-!
# extract.go: extraction of boxes by path
-/

namespace Mp4

/-- The loop of `BoxPath.compareWith`, read.go:15-19: do the elements match as far as the left path goes?  The right path is not
shorter. -/
def prefixMatches : List BoxType → List BoxType → Bool
  | [], _ => true
  | l :: ls, r :: rs => if ¬ l.matchWith r then false else prefixMatches ls rs
  | _ :: _, [] => false

/-- `BoxPath.compareWith`, read.go:11-24: `(forwardMatch, match)` -/
def compareWith (lhs rhs : List BoxType) : Bool × Bool :=
  if rhs.length < lhs.length then (false, false)
  else if ¬ prefixMatches lhs rhs then (false, false)
  else if lhs.length < rhs.length then (true, false)
  else (false, true)

/-- `matchPath`, extract.go:91-98 -/
def matchPath (paths : List (List BoxType)) (path : List BoxType) : Bool × Bool :=
  paths.foldl (fun acc q => (acc.1 || (compareWith path q).1, acc.2 || (compareWith path q).2)) (false, false)

/-- extract.go:77-81: after `Expand` -/
def extractDone : Except Err (List Unit) → Prog (List BoxInfo) Unit Unit
  | .ok _ => .ret ()
  | .error e => .err e

/-- The handler in `ExtractBoxes`, extract.go:62-83; its variable is `boxes`.  `below`: a parent has been given. -/
def extractHandler (below : Bool) (paths : List (List BoxType)) : Handler (List BoxInfo) Unit Unit := fun h =>
  let path := if below then h.path.drop 1 else h.path
  if h.info.type = BoxType.any then .ret ()
  else .get fun boxes =>
    .set (if (matchPath paths path).2 then boxes ++ [h.info] else boxes)
      (if (matchPath paths path).1 then .expand () extractDone else .ret ())

/-- `ExtractBoxes`, extract.go:49-89.  The boxes, and the parent, whose context the traversal may change through the pointer.  (Go
returns the boxes found so far beside an error; see `extractBoxesBeside`.) -/
def extractBoxes (m : BoxMap) (d : Bytes) (fuel : Nat) (parent : Option BoxInfo) (paths : List (List BoxType)) :
    PM (List BoxInfo × Option BoxInfo) := fun pos =>
  if paths = [] then (.ok ([], parent), pos)
  else if paths.any (fun q => q.length == 0) then (.err .emptyPath, pos)
  else
    match parent with
    | some bi =>
      match readBoxStructureFrom m d (extractHandler true paths) fuel bi () ⟨pos, [], []⟩ with
      | (.ok (_, bi'), st) => (.ok (st.user, some bi'), st.pos)
      | (.err e, st) => (.err e, st.pos)
      | (.panic, st) => (.panic, st.pos)
      | (.hang, st) => (.hang, st.pos)
    | none =>
      match readBoxStructure m d (extractHandler false paths) fuel () ⟨pos, [], []⟩ with
      | (.ok _, st) => (.ok (st.user, none), st.pos)
      | (.err e, st) => (.err e, st.pos)
      | (.panic, st) => (.panic, st.pos)
      | (.hang, st) => (.hang, st.pos)

/-- `ExtractBoxes`, extract.go:49-89, with both values that Go returns: the boxes, which are there beside an error too (`return boxes, err`,
84-88), and the outcome, with the parent. -/
def extractBoxesBeside (m : BoxMap) (d : Bytes) (fuel : Nat) (parent : Option BoxInfo) (paths : List (List BoxType)) (pos : Nat) :
    List BoxInfo × Out (Option BoxInfo) :=
  if paths = [] then ([], .ok parent)
  else if paths.any (fun q => q.length == 0) then ([], .err .emptyPath)
  else
    match parent with
    | some bi =>
      match readBoxStructureFrom m d (extractHandler true paths) fuel bi () ⟨pos, [], []⟩ with
      | (.ok (_, bi'), st) => (st.user, .ok (some bi'))
      | (.err e, st) => (st.user, .err e)
      | (.panic, st) => (st.user, .panic)
      | (.hang, st) => (st.user, .hang)
    | none =>
      match readBoxStructure m d (extractHandler false paths) fuel () ⟨pos, [], []⟩ with
      | (.ok _, st) => (st.user, .ok none)
      | (.err e, st) => (st.user, .err e)
      | (.panic, st) => (st.user, .panic)
      | (.hang, st) => (st.user, .hang)

/-- `ExtractBox`, extract.go:45-47 -/
def extractBox (m : BoxMap) (d : Bytes) (fuel : Nat) (parent : Option BoxInfo) (path : List BoxType) :
    PM (List BoxInfo × Option BoxInfo) := extractBoxes m d fuel parent [path]

/-- The loop of `ExtractBoxesWithPayload`, extract.go:24-41: every payload is decoded in the same context. -/
def decodeAll (m : BoxMap) (d : Bytes) (ctx : Ctx) : List BoxInfo → PM (List (BoxInfo × BoxVal))
  | [] => pure []
  | bi :: bis => do
    let _ ← bi.seekToPayload
    let (box, _) ← m.unmarshalAny d bi.type (sub64 bi.size bi.headerSize) ctx
    let rest ← decodeAll m d ctx bis
    pure ((bi, box) :: rest)

/-- `ExtractBoxesWithPayload`, extract.go:17-43 -/
def extractBoxesWithPayload (m : BoxMap) (d : Bytes) (fuel : Nat) (parent : Option BoxInfo) (paths : List (List BoxType)) :
    PM (List (BoxInfo × BoxVal)) := do
  let (bis, parent) ← extractBoxes m d fuel parent paths
  decodeAll m d (match parent with | some bi => bi.ctx | none => {}) bis

/-- `ExtractBoxWithPayload`, extract.go:13-15 -/
def extractBoxWithPayload (m : BoxMap) (d : Bytes) (fuel : Nat) (parent : Option BoxInfo) (path : List BoxType) :
    PM (List (BoxInfo × BoxVal)) := extractBoxesWithPayload m d fuel parent [path]

end Mp4
