import Verif.Model.SourceTool
import Verif.Model.Divide

/-!
# `mp4tool divide` on any `io.ReadSeeker`

In `Model/Divide` the input is in memory; here it is an arbitrary source.  The output files take everything, as there.
-/

namespace Mp4.Src

open Mp4 Mp4.Tool

variable {σ : Type}

/-! ## The tracks, cmd/mp4tool/internal/divide/divide.go:74-154 -/

/-- divide.go:103-115, 128-140 -/
def videoEntry (k : Rdr σ) (fuel : Nat) (bi : BoxInfo) (t : BoxType) (tr : DTrack) : M σ (Option DTrack) := do
  let bs ← extractBoxesWithPayload k BoxMap.std fuel (some bi) [entryPath t]
  match bs with
  | [] => pure none
  | (_, v) :: _ =>
    match v.assert "VisualSampleEntry" with
    | none => M.panic
    | some e => pure (some { tr with width := e.uint "Width", height := e.uint "Height" })

/-- divide.go:117-126, 142-151 -/
def audioEntry (k : Rdr σ) (fuel : Nat) (bi : BoxInfo) (t : BoxType) (tr : DTrack) : M σ (Option DTrack) := do
  let (bis, _) ← extractBoxes k BoxMap.std fuel (some bi) [entryPath t]
  match bis with
  | [] => pure none
  | _ :: _ => pure (some tr)

/-- divide.go:103-151 -/
def kindOf (k : Rdr σ) (fuel : Nat) (bi : BoxInfo) (id timescale : Nat) : M σ (Option DTrack) := do
  match ← videoEntry k fuel bi tAvc1 ⟨id, .video, timescale, 0, 0⟩ with
  | some t => pure (some t)
  | none =>
    match ← audioEntry k fuel bi tMp4a ⟨id, .audio, timescale, 0, 0⟩ with
    | some t => pure (some t)
    | none =>
      match ← videoEntry k fuel bi tEncv ⟨id, .encVideo, timescale, 0, 0⟩ with
      | some t => pure (some t)
      | none => audioEntry k fuel bi tEnca ⟨id, .encAudio, timescale, 0, 0⟩

/-- divide.go:81-153 -/
def divTrack (k : Rdr σ) (fuel : Nat) (bi : BoxInfo) : M σ (Option DTrack) := do
  let bs ← extractBoxesWithPayload k BoxMap.std fuel (some bi) [[tTkhd]]
  match bs with
  | [(_, v)] =>
    match v.assert "Tkhd" with
    | none => M.panic
    | some tkhd => do
      let bs ← extractBoxesWithPayload k BoxMap.std fuel (some bi) [[tMdia, tMdhd]]
      match bs with
      | [(_, v)] =>
        match v.assert "Mdhd" with
        | none => M.panic
        | some mdhd => kindOf k fuel bi (tkhd.uint "TrackID") (mdhd.uint "Timescale")
      | _ => M.fail (.msg "trak box must have one mdhd box")
  | _ => M.fail (.msg "trak box must have one tkhd box")

/-- divide.go:80-154 -/
def divLoop (k : Rdr σ) (fuel : Nat) : List BoxInfo → List DTrack → M σ (List DTrack)
  | [], ts => pure ts
  | bi :: l, ts => do
    match ← divTrack k fuel bi with
    | some t => divLoop k fuel l (setTrack ts t)
    | none => divLoop k fuel l ts

/-- divide.go:74-154 -/
def divTracks (k : Rdr σ) (fuel : Nat) : M σ (List DTrack) := do
  let (bis, _) ← extractBoxes k BoxMap.std fuel none [[tMoov, tTrak]]
  divLoop k fuel bis []

/-! ## The handler, divide.go:171-337 -/

/-- What the handler does. -/
abbrev VM (σ : Type) := M (TS σ DivSt (Option Sizes))

/-- The program ends by itself; noted as in `Model/Divide`. -/
def abortsS (a : Abort) : VM σ (Option Sizes) := do
  M.modify fun s => { s with user := { s.user with abort := some a } }
  M.fail .eof

/-- `mp4.ExtractBoxWithPayload(inputFile, &h.BoxInfo, path)`; errors are returned -/
def extractingS (k : Rdr σ) (fuel : Nat) (bi : BoxInfo) (path : List BoxType) (g : List (BoxInfo × BoxVal) → VM σ (Option Sizes)) : VM σ (Option Sizes) := fun s =>
  match extractBoxesWithPayload k BoxMap.std fuel (some bi) [path] s.src with
  | (.ok l, t) => g l { s with src := t }
  | (.err e, t) => (.err e, { s with src := t })
  | (.panic, t) => abortsS .panic { s with src := t }
  | (.hang, t) => abortsS .hang { s with src := t }

/-- `h.ReadData(w)`, read.go:115-125, into a file: the number, or the error, and what the file has received -/
def readDataOut (k : Rdr σ) (bi : BoxInfo) : M σ (Except Err Nat × Bytes) := fun s =>
  match seekToPayload k bi s with
  | (.err e, t) => (.ok (.error e, []), t)
  | (.panic, t) => (.panic, t)
  | (.hang, t) => (.hang, t)
  | (.ok _, t) =>
    let n := sub64 bi.size bi.headerSize
    if n = 0 ∨ 2 ^ 63 ≤ n then (.ok (.ok n, []), t)
    else
      match copyOut k.src k.ask (n + k.fuel) n [] t with
      | (.ok (b, none), t) => (.ok (.ok n, b), t)
      | (.ok (b, some e), t) => (.ok (.error e, b), t)
      | (.err e, t) => (.err e, t)
      | (.panic, t) => (.panic, t)
      | (.hang, t) => (.hang, t)

/-- `h.ReadData(file)`, where `wr` is `file.Write`; the error is returned -/
def receiving (k : Rdr σ) (bi : BoxInfo) (wr : Bytes → DivSt → DivSt) (g : Nat → VM σ (Option Sizes)) : VM σ (Option Sizes) := do
  let (r, b) ← liftT (readDataOut k bi)
  M.modify fun s => { s with user := wr b s.user }
  match r with
  | .error e => M.fail e
  | .ok n => g n

/-- divide.go:239-255 -/
def finishS (rows : List Row) : VM σ (Option Sizes) := do
  let s ← M.get
  M.modify fun s' => { s' with user := (finishHeaders rows s.user).2 }
  pure (some (finishHeaders rows s.user).1)

/-- divide.go:227-236 -/
def copyPayloadS (k : Rdr σ) (bi : BoxInfo) : List Row → List Row → VM σ (Option Sizes)
  | [], rows => finishS rows
  | r :: l, rows => receiving k bi (initWrite r.track) fun n => copyPayloadS k bi l (rows ++ [{ r with info := { r.info with size := add64 r.info.size n } }])

/-- divide.go:199-255 for the tracks `sel` -/
def initBoxS (k : Rdr σ) (path : List BoxType) (bi : BoxInfo) (children : Nat → Unit → VM σ (List (Option Sizes))) (sel : List DTrack) : VM σ (Option Sizes) := do
  let s ← M.get
  M.modify fun s' => { s' with user := (startHeaders bi sel s.user).2 }
  if bi.type = tMoov then runProg k BoxMap.std path bi children (.expand () (moovDone (startHeaders bi sel s.user).1)) 0
  else copyPayloadS k bi (startHeaders bi sel s.user).1 []

/-- divide.go:187-193, 202 -/
def initTrakS (k : Rdr σ) (ts : List DTrack) (path : List BoxType) (bi : BoxInfo) (children : Nat → Unit → VM σ (List (Option Sizes))) :
    List (BoxInfo × BoxVal) → VM σ (Option Sizes)
  | [(_, v)] =>
    match v.assert "Tkhd" with
    | none => abortsS .panic
    | some tkhd => initBoxS k path bi children (ts.filter fun t => t.id == tkhd.uint "TrackID")
  | _ => M.fail (.msg "trak box must have one tkhd box")

/-- divide.go:320-328 -/
def copyMediaS (k : Rdr σ) (t : DTrack) (bi : BoxInfo) : VM σ (Option Sizes) := do
  M.modify fun s => { s with user := segWrite t (boxInfoBytes bi) s.user }
  receiving k bi (segWrite t) fun _ => pure none

/-- divide.go:284-306 -/
def moofRunS (k : Rdr σ) (t : DTrack) (bi : BoxInfo) (tfhd : SV) : List (BoxInfo × BoxVal) → VM σ (Option Sizes)
  | [] => abortsS .panic
  | (_, v) :: _ =>
    match v.assert "Trun" with
    | none => abortsS .panic
    | some trun => do
      M.modify fun s => { s with user := nextSegment t (fragDuration tfhd trun) s.user }
      copyMediaS k t bi

/-- divide.go:265-287 -/
def moofHeadS (k : Rdr σ) (ts : List DTrack) (fuel : Nat) (bi : BoxInfo) : List (BoxInfo × BoxVal) → VM σ (Option Sizes)
  | [(_, v)] =>
    match v.assert "Tfhd" with
    | none => abortsS .panic
    | some tfhd => do
      M.modify fun s => { s with user := { s.user with curr := tfhd.uint "TrackID" } }
      match trackBy ts (tfhd.uint "TrackID") with
      | none => pure none
      | some t => extractingS k fuel bi [tTraf, tTrun] (moofRunS k t bi tfhd)
  | _ => M.fail (.msg "trak box must have one tkhd box")

/-- divide.go:308-318 -/
def mdatBoxS (k : Rdr σ) (ts : List DTrack) (bi : BoxInfo) : VM σ (Option Sizes) := do
  let s ← M.get
  match trackBy ts s.user.curr with
  | none => pure none
  | some t =>
    if s.user.durs t.id = [] then abortsS .panic
    else do
      M.modify fun s => { s with user := noteRate t bi s.user }
      copyMediaS k t bi

/-- The handler, divide.go:171-337 -/
def divideAct (k : Rdr σ) (ts : List DTrack) (fuel : Nat) : Act σ DivSt Unit (Option Sizes) := fun bi path _ children =>
  if initTypes.any (fun t => decide (bi.type = t)) then
    if bi.type = tTrak then extractingS k fuel bi [tTkhd] (initTrakS k ts path bi children) else initBoxS k path bi children ts
  else if bi.type = tMoof then extractingS k fuel bi [tTraf, tTfhd] (moofHeadS k ts fuel bi)
  else if bi.type = tMdat then mdatBoxS k ts bi
  else if bi.type = tMfra then pure none
  else M.fail (.msg "unexpected box type")

/-- The traversal, divide.go:170-339: the outcome, the files, the source afterwards -/
def divideRun (k : Rdr σ) (ts : List DTrack) (fuel : Nat) (t : σ) : Out Unit × DivSt × σ :=
  match (do let _ ← liftT (seekStart k.src 0); readStructureAct k BoxMap.std (divideAct k ts fuel) fuel none 0 true [] {} () : VM σ (List (Option Sizes)))
      ⟨t, .created, []⟩ with
  | (.ok _, s) => (.ok (), s.user, s.src)
  | (.err e, s) => (match s.user.abort with | none => .err e | some .panic => .panic | some .hang => .hang, s.user, s.src)
  | (.panic, s) => (.panic, s.user, s.src)
  | (.hang, s) => (.hang, s.user, s.src)

/-- `divide`, divide.go:67-339, 356-357: the outcome, the tracks, the files, the source afterwards -/
def divide (k : Rdr σ) (fuel : Nat) (t : σ) : Out Unit × List DTrack × DivSt × σ :=
  match divTracks k fuel t with
  | (.ok ts, t) => let r := divideRun k ts fuel t; (r.1, ts, r.2)
  | (.err e, t) => (.err e, [], .created, t)
  | (.panic, t) => (.panic, [], .created, t)
  | (.hang, t) => (.hang, [], .created, t)

end Mp4.Src
