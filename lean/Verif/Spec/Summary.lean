import Verif.Spec.Concat
import Verif.Model.Probe

/-!
# The summary of a row of boxes

What `Probe` should say about a file that consists of these boxes, by recursion over the boxes: no bytes, no paths to match, no contexts.  What
is said about a track, given its boxes, is the subject of C52, C53 and C54.
-/

namespace Mp4.Boxes

/-- All boxes with fields in the row, each before its children: path (`path` is the path of the row) and contents. -/
def inside : Boxes → List BoxType → List (List BoxType × BoxVal)
  | nil, _ => []
  | raw _ _ rest, path => rest.inside path
  | box start bd sv kids rest, path =>
    (path ++ [start.type], ⟨bd, start.type, sv⟩) :: (kids.inside (path ++ [start.type]) ++ rest.inside path)

/-- The boxes with one of the paths, in order. -/
def atPaths (kids : Boxes) (paths : List (List BoxType)) : List (BoxInfo × BoxVal) :=
  ((kids.inside []).filter fun x => paths.contains x.1).map fun x => ({ type := x.2.type }, x.2)

/-- The track whose `trak` box has these children. -/
def track (kids : Boxes) : Out Track :=
  match collect {} (kids.atPaths trakPaths) with
  | some f => trackOf f
  | none => .panic

/-- The segment whose `moof` box, at `offset`, has these children. -/
def segment (kids : Boxes) (offset : Nat) : Out Segment :=
  match collectFrag {} (kids.atPaths moofPaths) with
  | some f => segmentOf offset f
  | none => .panic

/-- `k` of the result, if there is one -/
def andThen {α β : Type} (x : Out α) (k : α → Out β) : Out β :=
  match x with
  | .ok a => k a
  | .err e => .err e
  | .panic => .panic
  | .hang => .hang

/-- The children of `moov`. -/
def movie : Boxes → ProbeInfo → Out ProbeInfo
  | nil, info => .ok info
  | raw _ _ rest, info => rest.movie info
  | box start _ sv kids rest, info =>
    andThen
      (if start.type = tMvhd then .ok { info with
          timescale := sv.uint "Timescale"
          duration := if sv.version = 0 then sv.uint "DurationV0" else sv.uint "DurationV1" }
        else if start.type = tTrak then andThen kids.track fun t => .ok { info with tracks := info.tracks ++ [t] }
        else .ok info)
      rest.movie

/-- A box at the root, at `offset`; the flag says whether media data has been seen. -/
def summaryOne (t : BoxType) (sv : SV) (kids : Boxes) (offset : Nat) (s : Bool × ProbeInfo) : Out (Bool × ProbeInfo) :=
  if t = tFtyp then .ok (s.1, { s.2 with
    majorBrand := sv.byteArr "MajorBrand"
    minorVersion := sv.uint "MinorVersion"
    compatibleBrands := (sv.structs "CompatibleBrands").map (·.byteArr "CompatibleBrand") })
  else if t = tMoov then andThen (kids.movie { s.2 with fastStart := !s.1 }) fun info => .ok (s.1, info)
  else if t = tMoof then andThen (kids.segment offset) fun x => .ok (s.1, { s.2 with segments := s.2.segments ++ [x] })
  else if t = tMdat then .ok (true, s.2)
  else .ok s

/-- The boxes at the root, from `pos` on. -/
def summaryFrom : Boxes → Ctx → Nat → Bool × ProbeInfo → Out (Bool × ProbeInfo)
  | nil, _, _, s => .ok s
  | raw start p rest, ctx, pos, s => rest.summaryFrom ctx (pos + ((Form.of start).len + p.length)) s
  | box start bd sv kids rest, ctx, pos, s =>
    let n := (bitsBytes (Spec.layout bd (ownCtx true ctx start.type sv) sv)).length
    let body := kids.ser false (kidsCtx true ctx start sv)
    andThen (summaryOne start.type sv kids pos s)
      (rest.summaryFrom (restCtx true ctx start sv) (pos + ((Form.of start).len + (n + body.length))))

/-- The summary of the file. -/
def summary (B : Boxes) : Out ProbeInfo := andThen (B.summaryFrom {} 0 (false, {})) fun s => .ok s.2

end Mp4.Boxes
