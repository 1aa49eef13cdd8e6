import Verif.Model.Probe
import Verif.Model.Write

/-!
# cmd/mp4tool: the command `divide`

The input is an `*os.File`, which behaves as a `bytes.Reader` does.  Directories can be made, files can be created, and they take everything
that is written.  A file is named by its directory and, for a segment, by its number; two tracks of the same kind have the same directory, so
that their `*os.File`s are different handles on the same files.  `range` over the map of tracks presents them in an order that Go does not
fix; here it is that of the list of tracks.  (Theorems hold for every such list.)  The playlists are in Model/Playlist.  The warning about other
kinds of tracks is not modelled.
-/

namespace Mp4.Tool

open Mp4

/-- `trackType`, cmd/mp4tool/internal/divide/divide.go:45-52, which determines the name of the directory, divide.go:14-17 -/
inductive Kind where
  | video
  | audio
  | encVideo
  | encAudio
  deriving DecidableEq, Repr

/-- `track`, divide.go:54-65, without the files, the segments and the bandwidth -/
structure DTrack where
  id : Nat
  kind : Kind
  timescale : Nat
  width : Nat := 0
  height : Nat := 0
  deriving DecidableEq, Repr

/-! ## The tracks, divide.go:74-154 -/

/-- "sidx" -/
def tSidx : BoxType := ⟨0x73, 0x69, 0x64, 0x78⟩
/-- "mvex" -/
def tMvex : BoxType := ⟨0x6d, 0x76, 0x65, 0x78⟩
/-- "mfra" -/
def tMfra : BoxType := ⟨0x6d, 0x66, 0x72, 0x61⟩
/-- "pssh" -/
def tPsshBox : BoxType := ⟨0x70, 0x73, 0x73, 0x68⟩

/-- the path of a sample entry -/
def entryPath (t : BoxType) : List BoxType := [tMdia, tMinf, tStbl, tStsd, t]

/-- a video sample entry of one of these types, divide.go:103-115, 128-140 -/
def videoEntry (d : Bytes) (fuel : Nat) (bi : BoxInfo) (t : BoxType) (tr : DTrack) : PM (Option DTrack) := do
  let bs ← extractBoxWithPayload BoxMap.std d fuel (some bi) (entryPath t)
  match bs with
  | [] => pure none
  | (_, v) :: _ =>
    match v.assert "VisualSampleEntry" with
    | none => M.panic
    | some e => pure (some { tr with width := e.uint "Width", height := e.uint "Height" })

/-- an audio sample entry of one of these types, divide.go:117-126, 142-151 -/
def audioEntry (d : Bytes) (fuel : Nat) (bi : BoxInfo) (t : BoxType) (tr : DTrack) : PM (Option DTrack) := do
  let (bis, _) ← extractBoxes BoxMap.std d fuel (some bi) [entryPath t]
  match bis with
  | [] => pure none
  | _ :: _ => pure (some tr)

/-- the kind of a track, divide.go:103-151 -/
def kindOf (d : Bytes) (fuel : Nat) (bi : BoxInfo) (id timescale : Nat) : PM (Option DTrack) := do
  match ← videoEntry d fuel bi tAvc1 ⟨id, .video, timescale, 0, 0⟩ with
  | some t => pure (some t)
  | none =>
    match ← audioEntry d fuel bi tMp4a ⟨id, .audio, timescale, 0, 0⟩ with
    | some t => pure (some t)
    | none =>
      match ← videoEntry d fuel bi tEncv ⟨id, .encVideo, timescale, 0, 0⟩ with
      | some t => pure (some t)
      | none => audioEntry d fuel bi tEnca ⟨id, .encAudio, timescale, 0, 0⟩

/-- one round of the loop over the `trak` boxes, divide.go:81-153; `none`: a track of another kind -/
def divTrack (d : Bytes) (fuel : Nat) (bi : BoxInfo) : PM (Option DTrack) := do
  let bs ← extractBoxWithPayload BoxMap.std d fuel (some bi) [tTkhd]
  match bs with
  | [(_, v)] =>
    match v.assert "Tkhd" with
    | none => M.panic
    | some tkhd => do
      let bs ← extractBoxWithPayload BoxMap.std d fuel (some bi) [tMdia, tMdhd]
      match bs with
      | [(_, v)] =>
        match v.assert "Mdhd" with
        | none => M.panic
        | some mdhd => kindOf d fuel bi (tkhd.uint "TrackID") (mdhd.uint "Timescale")
      | _ => M.fail (.msg "trak box must have one mdhd box")
  | _ => M.fail (.msg "trak box must have one tkhd box")

/-- `tracks[t.id] = t` -/
def setTrack : List DTrack → DTrack → List DTrack
  | [], t => [t]
  | u :: l, t => if u.id = t.id then t :: l else u :: setTrack l t

/-- the loop, divide.go:80-154 -/
def divLoop (d : Bytes) (fuel : Nat) : List BoxInfo → List DTrack → PM (List DTrack)
  | [], ts => pure ts
  | bi :: l, ts => do
    match ← divTrack d fuel bi with
    | some t => divLoop d fuel l (setTrack ts t)
    | none => divLoop d fuel l ts

/-- the map of tracks, divide.go:74-154 -/
def divTracks (d : Bytes) (fuel : Nat) : PM (List DTrack) := do
  let (bis, _) ← extractBoxes BoxMap.std d fuel none [[tMoov, tTrak]]
  divLoop d fuel bis []

/-! ## Files -/

/-- How the program can end by itself: a panic, or a loop without end. -/
inductive Abort where
  | panic
  | hang
  deriving DecidableEq, Repr

/-- The variables of the handler, and the files. -/
structure DivSt where
  /-- `currTrackID` -/
  curr : Nat
  abort : Option Abort
  /-- the contents of `init.mp4` -/
  inits : Kind → Bytes
  /-- the position of the handle `initFile` of a track -/
  initPos : Nat → Nat
  /-- the contents of the segments -/
  segs : Kind → Nat → Bytes
  /-- `segmentFile` of a track: the number of the segment, and the position -/
  segAt : Nat → Nat × Nat
  /-- `segments` of a track: the durations in ticks of its timescale -/
  durs : Nat → List Nat
  /-- the sizes of the `mdat` boxes of a track, each with the duration of its segment: what `bandwidth` is the maximum of -/
  rates : Nat → List (Nat × Nat)

/-- After the files have been created, divide.go:156-170 -/
def DivSt.created : DivSt := ⟨2 ^ 32 - 1, none, fun _ => [], fun _ => 0, fun _ _ => [], fun _ => (0, 0), fun _ => [], fun _ => []⟩

/-- a function with another value at one place -/
def upd {α β : Type} [DecidableEq α] (f : α → β) (a : α) (b : β) : α → β := fun x => if x = a then b else f x

/-- `t.initFile.Seek(offset, ...)` -/
def initSeek (t : DTrack) (offset : Nat) (s : DivSt) : DivSt := { s with initPos := upd s.initPos t.id offset }

/-- `t.initFile.Write(b)` -/
def initWrite (t : DTrack) (b : Bytes) (s : DivSt) : DivSt := { s with
  inits := upd s.inits t.kind (writeAt (s.inits t.kind) (s.initPos t.id) b)
  initPos := upd s.initPos t.id (s.initPos t.id + b.length) }

/-- `t.segmentFile.Write(b)` -/
def segWrite (t : DTrack) (b : Bytes) (s : DivSt) : DivSt := { s with
  segs := upd s.segs t.kind (upd (s.segs t.kind) (s.segAt t.id).1 (writeAt (s.segs t.kind (s.segAt t.id).1) (s.segAt t.id).2 b))
  segAt := upd s.segAt t.id ((s.segAt t.id).1, (s.segAt t.id).2 + b.length) }

/-- the next segment, divide.go:298-306 -/
def nextSegment (t : DTrack) (duration : Nat) (s : DivSt) : DivSt := { s with
  segs := upd s.segs t.kind (upd (s.segs t.kind) (s.durs t.id).length [])
  segAt := upd s.segAt t.id ((s.durs t.id).length, 0)
  durs := upd s.durs t.id (s.durs t.id ++ [duration]) }

/-! ## The handler, divide.go:171-337 -/

/-- `childInfo`, divide.go:39: sizes by track ID -/
abbrev Sizes := List (Nat × Nat)

/-- What the handler does; it returns `childInfo` or nil. -/
abbrev VProg := Prog DivSt Unit (Option Sizes)

/-- The program ends by itself; handed on as an error, since every caller returns the errors it gets. -/
def aborts (a : Abort) : VProg := .get fun s => .set { s with abort := some a } (.err .eof)

/-- `mp4.ExtractBoxWithPayload(inputFile, &h.BoxInfo, path)`; errors are returned -/
def extracting (d : Bytes) (fuel : Nat) (bi : BoxInfo) (path : List BoxType) (k : List (BoxInfo × BoxVal) → VProg) : VProg :=
  .stream (fun pos => (extractBoxWithPayload BoxMap.std d fuel (some bi) path pos).2) fun pos =>
    match (extractBoxWithPayload BoxMap.std d fuel (some bi) path pos).1 with
    | .ok l => k l
    | .err e => .err e
    | .panic => aborts .panic
    | .hang => aborts .hang

/-- A row of `offsetMap` and `biMap`, divide.go:199-200 -/
structure Row where
  track : DTrack
  offset : Nat
  info : BoxInfo

/-- divide.go:201-211 -/
def startHeaders (bi : BoxInfo) : List DTrack → DivSt → List Row × DivSt
  | [], s => ([], s)
  | t :: l, s =>
    let offset := (s.inits t.kind).length
    let w := boxInfoWritten bi offset
    let r := startHeaders bi l (initWrite t (boxInfoBytes bi) (initSeek t offset s))
    (⟨t, offset, { w with size := w.headerSize }⟩ :: r.1, r.2)

/-- `ci[t.id]` -/
def Sizes.of (ci : Sizes) (id : Nat) : Nat := ((ci.find? fun x => x.1 == id).map (·.2)).getD 0

/-- divide.go:218-224; `none`: the type assertion fails -/
def addSizes : List (Option Sizes) → List Row → Option (List Row)
  | [], rows => some rows
  | none :: _, _ => none
  | some ci :: l, rows => addSizes l (rows.map fun r => { r with info := { r.info with size := add64 r.info.size (ci.of r.track.id) } })

/-- divide.go:227-236: the payload is read for every track; `k` gets the rows -/
def copyPayload : List Row → List Row → (List Row → VProg) → VProg
  | [], rows, k => k rows
  | r :: l, rows, k => .readData ⟨none, 0⟩ fun n b => .get fun s => .set (initWrite r.track b s)
      (match n with
      | .error e => .err e
      | .ok n => copyPayload l (rows ++ [{ r with info := { r.info with size := add64 r.info.size n } }]) k)

/-- divide.go:239-254: the headers are written again -/
def finishHeaders : List Row → DivSt → Sizes × DivSt
  | [], s => ([], s)
  | r :: l, s =>
    let q := finishHeaders l (initWrite r.track (boxInfoBytes r.info) (initSeek r.track r.offset s))
    ((r.track.id, (boxInfoWritten r.info r.offset).size) :: q.1, q.2)

/-- divide.go:239-255 -/
def finish (rows : List Row) : VProg := .get fun s => .set (finishHeaders rows s).2 (.ret (some (finishHeaders rows s).1))

/-- divide.go:214-224, after `Expand` -/
def moovDone (rows : List Row) : Except Err (List (Option Sizes)) → VProg
  | .error e => .err e
  | .ok vals =>
    match addSizes vals rows with
    | none => aborts .panic
    | some rows => finish rows

/-- divide.go:199-255 for the tracks `sel` -/
def initBox (bi : BoxInfo) (sel : List DTrack) : VProg := .get fun s =>
  .set (startHeaders bi sel s).2
    (if bi.type = tMoov then .expand () (moovDone (startHeaders bi sel s).1) else copyPayload (startHeaders bi sel s).1 [] finish)

/-- divide.go:187-193, 202, after `ExtractBoxWithPayload` -/
def initTrak (ts : List DTrack) (bi : BoxInfo) : List (BoxInfo × BoxVal) → VProg
  | [(_, v)] =>
    match v.assert "Tkhd" with
    | none => aborts .panic
    | some tkhd => initBox bi (ts.filter fun t => t.id == tkhd.uint "TrackID")
  | _ => .err (.msg "trak box must have one tkhd box")

/-- divide.go:320-328 -/
def copyMedia (t : DTrack) (bi : BoxInfo) : VProg :=
  .get fun s => .set (segWrite t (boxInfoBytes bi) s) (.readData ⟨none, 0⟩ fun n b => .get fun s => .set (segWrite t b s)
    (match n with
    | .error e => .err e
    | .ok _ => .ret none))

/-- the duration of a fragment, divide.go:277-280, 289-296 -/
def fragDuration (tfhd trun : SV) : Nat :=
  sum32 ((trun.structs "Entries").map fun e => if trun.checkFlag 0x100 then e.uint "SampleDuration"
    else if tfhd.checkFlag 8 then tfhd.uint "DefaultSampleDuration" else 0)

/-- `tracks[id]` -/
def trackBy (ts : List DTrack) (id : Nat) : Option DTrack := ts.find? fun t => t.id == id

/-- divide.go:284-306, after `ExtractBoxWithPayload` -/
def moofRun (t : DTrack) (bi : BoxInfo) (tfhd : SV) : List (BoxInfo × BoxVal) → VProg
  | [] => aborts .panic
  | (_, v) :: _ =>
    match v.assert "Trun" with
    | none => aborts .panic
    | some trun => .get fun s => .set (nextSegment t (fragDuration tfhd trun) s) (copyMedia t bi)

/-- divide.go:265-287, after `ExtractBoxWithPayload` -/
def moofHead (ts : List DTrack) (d : Bytes) (fuel : Nat) (bi : BoxInfo) : List (BoxInfo × BoxVal) → VProg
  | [(_, v)] =>
    match v.assert "Tfhd" with
    | none => aborts .panic
    | some tfhd => .get fun s => .set { s with curr := tfhd.uint "TrackID" }
      (match trackBy ts (tfhd.uint "TrackID") with
      | none => .ret none
      | some t => extracting d fuel bi [tTraf, tTrun] (moofRun t bi tfhd))
  | _ => .err (.msg "trak box must have one tkhd box")

/-- divide.go:314-317: the rate of a `mdat` box -/
def noteRate (t : DTrack) (bi : BoxInfo) (s : DivSt) : DivSt :=
  { s with rates := upd s.rates t.id (s.rates t.id ++ [(bi.size, (s.durs t.id).getLastD 0)]) }

/-- divide.go:308-318: `mdat` -/
def mdatBox (ts : List DTrack) (bi : BoxInfo) : VProg := .get fun s =>
  match trackBy ts s.curr with
  | none => .ret none
  | some t => if s.durs t.id = [] then aborts .panic else .set (noteRate t bi s) (copyMedia t bi)

/-- the boxes of the initialization segment, divide.go:173-180 -/
def initTypes : List BoxType := [tMoov, tFtyp, tPsshBox, tMvhd, tTrak, tMvex, tUdta, tSidx]

/-- The handler, divide.go:171-337 -/
def divideTool (ts : List DTrack) (d : Bytes) (fuel : Nat) : Handler DivSt Unit (Option Sizes) := fun h =>
  if initTypes.any (fun t => decide (h.info.type = t)) then
    if h.info.type = tTrak then extracting d fuel h.info [tTkhd] (initTrak ts h.info) else initBox h.info ts
  else if h.info.type = tMoof then extracting d fuel h.info [tTraf, tTfhd] (moofHead ts d fuel h.info)
  else if h.info.type = tMdat then mdatBox ts h.info
  else if h.info.type = tMfra then .ret none
  else .err (.msg "unexpected box type")

/-- The traversal, divide.go:170-339: the outcome, and the files -/
def divideRun (ts : List DTrack) (d : Bytes) (fuel pos : Nat) : Out Unit × DivSt :=
  match readBoxStructure BoxMap.std d (divideTool ts d fuel) fuel () ⟨pos, .created, []⟩ with
  | (.ok _, s) => (.ok (), s.user)
  | (.err e, s) => (match s.user.abort with | none => .err e | some .panic => .panic | some .hang => .hang, s.user)
  | (.panic, s) => (.panic, s.user)
  | (.hang, s) => (.hang, s.user)

/-- `divide`, divide.go:67-339, 356-357 (for the playlists see `playlists`): the outcome, the tracks, and the files -/
def divide (d : Bytes) (fuel : Nat) : Out Unit × List DTrack × DivSt :=
  match divTracks d fuel 0 with
  | (.ok ts, pos) => let r := divideRun ts d fuel pos; (r.1, ts, r.2)
  | (.err e, _) => (.err e, [], .created)
  | (.panic, _) => (.panic, [], .created)
  | (.hang, _) => (.hang, [], .created)

end Mp4.Tool
