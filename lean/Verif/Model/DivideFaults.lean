import Verif.Model.Divide

/-!
# `mp4tool divide` with output files that may fail

As `Model/Divide`, but every call on an output file may fail, except `Close` (whose error is dropped) and `os.MkdirAll` (whose error is dropped, but then `os.Create` fails).
Whether a call fails is a function of the call and of everything that has been written so far, so this covers any schedule of failures: the files only grow between two calls of the
same kind on the same file.
-/

namespace Mp4.Tool

open Mp4

/-- The calls on files, by the ID of the track. -/
inductive FileOp where
  /-- `os.Create` of `init.mp4` and of the first segment, divide.go:159-164 -/
  | createInit (id : Nat)
  | createFirst (id : Nat)
  /-- `os.Create` of a segment -/
  | create (id : Nat)
  /-- `Seek` on `init.mp4` -/
  | seekEnd (id : Nat)
  | tell (id : Nat)
  | seek (id offset : Nat)
  /-- `Write` to `init.mp4`, and `io.CopyN` to it -/
  | write (id : Nat) (b : Bytes)
  | copy (id : Nat)
  /-- the same on a segment -/
  | segTell (id : Nat)
  | segWrite (id : Nat) (b : Bytes)
  | segCopy (id : Nat)

/-- `fails s o = some n`: the call `o` fails, after having written `n` bytes; for `io.CopyN`, if there are more than `n` bytes, and `stops` is the position of the input afterwards. -/
structure DivFaults where
  fails : DivSt → FileOp → Option Nat
  stops : DivSt → FileOp → Nat

/-- a call that writes nothing; its error is returned -/
def trying (F : DivFaults) (o : FileOp) (g : VProg) : VProg := .get fun s =>
  match F.fails s o with
  | none => g
  | some _ => .err .sink

/-- a call that writes `b`; its error is returned -/
def writingTo (F : DivFaults) (o : FileOp) (wr : Bytes → DivSt → DivSt) (b : Bytes) (g : VProg) : VProg := .get fun s =>
  match F.fails s o with
  | none => .set (wr b s) g
  | some n => .set (wr (b.take n) s) (.err .sink)

/-- `h.ReadData(file)`; its error is returned -/
def copyingTo (F : DivFaults) (o : FileOp) (wr : Bytes → DivSt → DivSt) (g : Nat → VProg) : VProg := .get fun s =>
  .readData ⟨F.fails s o, F.stops s o⟩ fun n b => .get fun s => .set (wr b s)
    (match n with
    | .error e => .err e
    | .ok n => g n)

/-- divide.go:201-211; `WriteBoxInfo` asks for the position first, box_info.go:67 -/
def startHeadersF (F : DivFaults) (bi : BoxInfo) : List DTrack → List Row → (List Row → VProg) → VProg
  | [], rows, g => g rows
  | t :: l, rows, g => trying F (.seekEnd t.id) (.get fun s => .set (initSeek t (s.inits t.kind).length s)
      (trying F (.tell t.id) (writingTo F (.write t.id (boxInfoBytes bi)) (initWrite t) (boxInfoBytes bi)
        (startHeadersF F bi l (rows ++ [⟨t, (s.inits t.kind).length,
          { boxInfoWritten bi (s.inits t.kind).length with size := (boxInfoWritten bi (s.inits t.kind).length).headerSize }⟩]) g))))

/-- divide.go:227-236 -/
def copyPayloadF (F : DivFaults) : List Row → List Row → (List Row → VProg) → VProg
  | [], rows, g => g rows
  | r :: l, rows, g => copyingTo F (.copy r.track.id) (initWrite r.track) fun n =>
      copyPayloadF F l (rows ++ [{ r with info := { r.info with size := add64 r.info.size n } }]) g

/-- divide.go:239-255 -/
def finishF (F : DivFaults) : List Row → Sizes → VProg
  | [], ci => .ret (some ci)
  | r :: l, ci => trying F (.seek r.track.id r.offset) (.get fun s => .set (initSeek r.track r.offset s)
      (trying F (.tell r.track.id) (writingTo F (.write r.track.id (boxInfoBytes r.info)) (initWrite r.track) (boxInfoBytes r.info)
        (finishF F l (ci ++ [(r.track.id, (boxInfoWritten r.info r.offset).size)])))))

/-- divide.go:214-224, after `Expand` -/
def moovDoneF (F : DivFaults) (rows : List Row) : Except Err (List (Option Sizes)) → VProg
  | .error e => .err e
  | .ok vals =>
    match addSizes vals rows with
    | none => aborts .panic
    | some rows => finishF F rows []

/-- divide.go:199-255 for the tracks `sel` -/
def initBoxF (F : DivFaults) (bi : BoxInfo) (sel : List DTrack) : VProg :=
  startHeadersF F bi sel [] fun rows => if bi.type = tMoov then .expand () (moovDoneF F rows) else copyPayloadF F rows [] fun rows => finishF F rows []

/-- divide.go:187-193, 202 -/
def initTrakF (F : DivFaults) (ts : List DTrack) (bi : BoxInfo) : List (BoxInfo × BoxVal) → VProg
  | [(_, v)] =>
    match v.assert "Tkhd" with
    | none => aborts .panic
    | some tkhd => initBoxF F bi (ts.filter fun t => t.id == tkhd.uint "TrackID")
  | _ => .err (.msg "trak box must have one tkhd box")

/-- divide.go:320-328 -/
def copyMediaF (F : DivFaults) (t : DTrack) (bi : BoxInfo) : VProg :=
  trying F (.segTell t.id) (writingTo F (.segWrite t.id (boxInfoBytes bi)) (segWrite t) (boxInfoBytes bi) (copyingTo F (.segCopy t.id) (segWrite t) fun _ => .ret none))

/-- divide.go:284-306 -/
def moofRunF (F : DivFaults) (t : DTrack) (bi : BoxInfo) (tfhd : SV) : List (BoxInfo × BoxVal) → VProg
  | [] => aborts .panic
  | (_, v) :: _ =>
    match v.assert "Trun" with
    | none => aborts .panic
    | some trun => trying F (.create t.id) (.get fun s => .set (nextSegment t (fragDuration tfhd trun) s) (copyMediaF F t bi))

/-- divide.go:265-287 -/
def moofHeadF (F : DivFaults) (ts : List DTrack) (d : Bytes) (fuel : Nat) (bi : BoxInfo) : List (BoxInfo × BoxVal) → VProg
  | [(_, v)] =>
    match v.assert "Tfhd" with
    | none => aborts .panic
    | some tfhd => .get fun s => .set { s with curr := tfhd.uint "TrackID" }
      (match trackBy ts (tfhd.uint "TrackID") with
      | none => .ret none
      | some t => extracting d fuel bi [tTraf, tTrun] (moofRunF F t bi tfhd))
  | _ => .err (.msg "trak box must have one tkhd box")

/-- divide.go:308-318 -/
def mdatBoxF (F : DivFaults) (ts : List DTrack) (bi : BoxInfo) : VProg := .get fun s =>
  match trackBy ts s.curr with
  | none => .ret none
  | some t => if s.durs t.id = [] then aborts .panic else .set (noteRate t bi s) (copyMediaF F t bi)

/-- The handler, divide.go:171-337 -/
def divideToolF (F : DivFaults) (ts : List DTrack) (d : Bytes) (fuel : Nat) : Handler DivSt Unit (Option Sizes) := fun h =>
  if initTypes.any (fun t => decide (h.info.type = t)) then
    if h.info.type = tTrak then extracting d fuel h.info [tTkhd] (initTrakF F ts h.info) else initBoxF F h.info ts
  else if h.info.type = tMoof then extracting d fuel h.info [tTraf, tTfhd] (moofHeadF F ts d fuel h.info)
  else if h.info.type = tMdat then mdatBoxF F ts h.info
  else if h.info.type = tMfra then .ret none
  else .err (.msg "unexpected box type")

/-- The traversal, divide.go:170-339 -/
def divideRunF (F : DivFaults) (ts : List DTrack) (d : Bytes) (fuel pos : Nat) : Out Unit × DivSt :=
  match readBoxStructure BoxMap.std d (divideToolF F ts d fuel) fuel () ⟨pos, .created, []⟩ with
  | (.ok _, s) => (.ok (), s.user)
  | (.err e, s) => (match s.user.abort with | none => .err e | some .panic => .panic | some .hang => .hang, s.user)
  | (.panic, s) => (.panic, s.user)
  | (.hang, s) => (.hang, s.user)

/-- `divide`, divide.go:67-339.  Which files exist after a failure of `os.Create` in divide.go:159-164 is not represented. -/
def divideF (F : DivFaults) (d : Bytes) (fuel : Nat) : Out Unit × List DTrack × DivSt :=
  match divTracks d fuel 0 with
  | (.ok ts, pos) =>
    if ts.any fun t => (F.fails .created (.createInit t.id)).isSome || (F.fails .created (.createFirst t.id)).isSome then (.err .sink, ts, .created)
    else let r := divideRunF F ts d fuel pos; (r.1, ts, r.2)
  | (.err e, _) => (.err e, [], .created)
  | (.panic, _) => (.panic, [], .created)
  | (.hang, _) => (.hang, [], .created)

end Mp4.Tool
