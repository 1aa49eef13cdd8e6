import Verif.Lemmas.Divide
import Verif.Spec.ProbeTrack
import Verif.Props.ToolExtract

/-!
# What `mp4tool divide` is to write

A file is a row of boxes, and only `moov` boxes are opened.  For each track there is an initialization segment, and one segment for each
fragment (`moof` with the `mdat`s behind it) of that track.
-/

namespace Mp4.Props

open Mp4.Tool

/-- A box of the row at `pos`, with `total` bytes left in its parent (if it is not at the root). -/
structure Seen (d : Bytes) (isRoot : Bool) (path : List BoxType) (ctx : Ctx) (pos total : Nat) (bi : BoxInfo) : Prop where
  offset : bi.offset = pos
  header : isoHeader (d.drop pos) = .box bi.size bi.headerSize bi.type bi.extendToEOF
  inParent : isRoot = true ∨ (8 ≤ total ∧ bi.size ≤ total)
  own : OwnCtx d path ctx bi

/-- The row of boxes of `d` at `pos` if only `moov` boxes are opened. -/
def Laid (d : Bytes) : Forest → Bool → List BoxType → Ctx → Nat → Nat → Prop
  | .nil, isRoot, _, ctx, pos, total => RowEnds d isRoot ctx pos total
  | .leaf bi rest, isRoot, path, ctx, pos, total =>
    Seen d isRoot path ctx pos total bi ∧ bi.type ≠ fourcc "moov" ∧
    Laid d rest isRoot path (nextCtx ctx bi) (endOf bi) (total - bi.size)
  | .node bi n kids rest, isRoot, path, ctx, pos, total =>
    Seen d isRoot path ctx pos total bi ∧ bi.type = fourcc "moov" ∧ n = 0 ∧
    Laid d kids false (path ++ [bi.type]) (childCtx bi) (bi.offset + bi.headerSize) (room bi (bi.offset + bi.headerSize)) ∧
    Laid d rest isRoot path (nextCtx ctx bi) (endOf bi) (total - bi.size)

/-- The boxes of the row. -/
def row : Forest → List BoxInfo
  | .nil => []
  | .leaf bi rest => bi :: row rest
  | .node bi _ _ rest => bi :: row rest

/-- No box is shorter than its header, or has 2^63 bytes or more. -/
def SaneSizes : Forest → Prop
  | .nil => True
  | .leaf bi rest => (bi.headerSize ≤ bi.size ∧ bi.size < 2 ^ 63) ∧ SaneSizes rest
  | .node bi _ kids rest => (bi.headerSize ≤ bi.size ∧ bi.size < 2 ^ 63) ∧ SaneSizes kids ∧ SaneSizes rest

/-- What `ExtractBoxWithPayload` finds below the box. -/
def below (d : Bytes) (fuel : Nat) (q : List String) (bi : BoxInfo) : List SV :=
  match (extractBoxWithPayload BoxMap.std d fuel (some bi) (q.map fourcc) 0).1 with
  | .ok l => l.map (·.2.sv)
  | _ => []

/-- The track ID of the only box that is found below. -/
def trackIn (d : Bytes) (fuel : Nat) (q : List String) (bi : BoxInfo) : Option Nat :=
  match below d fuel q bi with
  | [x] => some (x.uint "TrackID")
  | _ => none

/-- the boxes of initialization segments -/
def initNames : List String := ["moov", "ftyp", "pssh", "mvhd", "trak", "mvex", "udta", "sidx"]

def Named (l : List String) (bi : BoxInfo) : Prop := bi.type ∈ l.map fourcc

instance (l : List String) (bi : BoxInfo) : Decidable (Named l bi) := by unfold Named; infer_instance

/-- The box goes into the initialization segment of the track. -/
def Belongs (d : Bytes) (fuel : Nat) (t : DTrack) (bi : BoxInfo) : Prop :=
  Named initNames bi ∧ (Named ["trak"] bi → trackIn d fuel ["tkhd"] bi = some t.id)

instance (d : Bytes) (fuel : Nat) (t : DTrack) (bi : BoxInfo) : Decidable (Belongs d fuel t bi) := by unfold Belongs; infer_instance

/-- The initialization segment: a copy of these boxes, without the other tracks, where the sizes of `moov` boxes are those of what they
now contain. -/
def initSegment (d : Bytes) (fuel : Nat) (t : DTrack) : Forest → Bytes
  | .nil => []
  | .leaf bi rest => (if Belongs d fuel t bi then rawBytes d bi else []) ++ initSegment d fuel t rest
  | .node bi _ kids rest =>
    (Form.of bi).header bi.type (bi.headerSize + (initSegment d fuel t kids).length) ++ initSegment d fuel t kids ++ initSegment d fuel t rest

/-- The fragments of a row of boxes: each `moof` with the `mdat`s up to the next one. -/
def fragments : List BoxInfo → List (BoxInfo × List BoxInfo)
  | [] => []
  | bi :: l =>
    if Named ["moof"] bi then (bi, (l.takeWhile fun b => ¬ Named ["moof"] b).filter fun b => Named ["mdat"] b) :: fragments l
    else fragments l

/-- The number of ticks of a fragment: the sum of the durations in the first `trun`, which are there if the flag 0x100 is set; otherwise each
of its samples has the default duration of `tfhd` (flag 8), or none. -/
def fragTicks (d : Bytes) (fuel : Nat) (bi : BoxInfo) : Nat :=
  match below d fuel ["traf", "tfhd"] bi, below d fuel ["traf", "trun"] bi with
  | tfhd :: _, trun :: _ =>
    (if trun.checkFlag 0x100 then ((trun.structs "Entries").map fun e => e.uint "SampleDuration").sum
    else (trun.structs "Entries").length * (if tfhd.checkFlag 8 then tfhd.uint "DefaultSampleDuration" else 0)) % 2 ^ 32
  | _, _ => 0

/-- The segments of a track: their durations and contents. -/
def segments (d : Bytes) (fuel : Nat) (t : DTrack) (l : List BoxInfo) : List (Nat × Bytes) :=
  ((fragments l).filter fun x => trackIn d fuel ["traf", "tfhd"] x.1 = some t.id).map fun x =>
    (fragTicks d fuel x.1, rawBytes d x.1 ++ (x.2.map (rawBytes d)).flatten)

/-- The `mdat` boxes of a track: their sizes, and the durations of the fragments they are in. -/
def mdatRates (d : Bytes) (fuel : Nat) (t : DTrack) (l : List BoxInfo) : List (Nat × Nat) :=
  ((fragments l).filter fun x => trackIn d fuel ["traf", "tfhd"] x.1 = some t.id).flatMap fun x => x.2.map fun b => (b.size, fragTicks d fuel x.1)

/-- There are no other boxes in the file, inside `moov` only those of initialization segments; every `trak` has one `tkhd`, every `moof` has
one `tfhd`. -/
def Expected (d : Bytes) (fuel : Nat) : Forest → Prop
  | .nil => True
  | .leaf bi rest => (Named initNames bi ∨ Named ["moof", "mdat", "mfra"] bi) ∧
    (Named ["trak"] bi → trackIn d fuel ["tkhd"] bi ≠ none) ∧ (Named ["moof"] bi → trackIn d fuel ["traf", "tfhd"] bi ≠ none) ∧
    Expected d fuel rest
  | .node _ _ kids rest => (∀ b ∈ row kids, Named initNames b) ∧ Expected d fuel kids ∧ Expected d fuel rest

/-- Exactly the `moov` boxes are opened. -/
def MoovOnly : Forest → Prop
  | .nil => True
  | .leaf bi rest => bi.type ≠ fourcc "moov" ∧ MoovOnly rest
  | .node bi _ kids rest => bi.type = fourcc "moov" ∧ MoovOnly kids ∧ MoovOnly rest

/-- Every fragment of the track with this ID has a `trun`. -/
def HasRuns (d : Bytes) (fuel : Nat) (id : Nat) (F : Forest) : Prop :=
  ∀ b ∈ row F, Named ["moof"] b → trackIn d fuel ["traf", "tfhd"] b = some id → below d fuel ["traf", "trun"] b ≠ []

instance decExpected (d : Bytes) (fuel : Nat) : ∀ F, Decidable (Expected d fuel F)
  | .nil => .isTrue trivial
  | .leaf _ rest => have := decExpected d fuel rest; by unfold Expected; infer_instance
  | .node _ _ kids rest => have := decExpected d fuel kids; have := decExpected d fuel rest; by unfold Expected; infer_instance

instance decMoovOnly : ∀ F, Decidable (MoovOnly F)
  | .nil => .isTrue trivial
  | .leaf _ rest => have := decMoovOnly rest; by unfold MoovOnly; infer_instance
  | .node _ _ kids rest => have := decMoovOnly kids; have := decMoovOnly rest; by unfold MoovOnly; infer_instance

end Mp4.Props
