import Verif.Model.Probe
import Verif.Model.Stringify
import Verif.Model.Write

/-!
# cmd/mp4tool: the commands `extract`, `dump`, `psshdump` and `probe`

The input is a `bytes.Reader` (the commands use a buffered reader over a file).  Standard output takes everything that is written; opening
files and the parsing of options by package `flag` are not modelled.
-/

namespace Mp4.Tool

open Mp4

/-- `ShouldHasNoChildren`, cmd/mp4tool/internal/util/util.go:5-22 -/
def noChildren (t : BoxType) : Bool := [
  ⟨0x65, 0x6d, 0x73, 0x67⟩, tEsds, tFtyp, ⟨0x70, 0x73, 0x73, 0x68⟩, tCtts, tCo64, tElst, ⟨0x73, 0x62, 0x67, 0x70⟩,
  ⟨0x73, 0x64, 0x74, 0x70⟩, tStco, tStsc, tStts, ⟨0x73, 0x74, 0x73, 0x73⟩, tStsz, ⟨0x74, 0x66, 0x72, 0x61⟩, tTrun].any
  (fun x => decide (t = x))

/-! ## `mp4tool extract`, cmd/mp4tool/internal/extract/extract.go -/

/-- What `io.CopyN(os.Stdout, r, int64(bi.Size))` writes, extract.go:60; the reader is at the start of the box. -/
def copied (d : Bytes) (bi : BoxInfo) : Bytes := (d.drop bi.offset).take (int64 bi.size).toNat

/-- extract.go:71-74: after `Expand` -/
def expanded : Except Err (List Unit) → Prog Bytes Unit Unit
  | .ok _ => .ret ()
  | .error e => if e = .unsupportedVersion then .ret () else .err e

/-- extract.go:64-74 -/
def descend (bi : BoxInfo) : Prog Bytes Unit Unit :=
  if !BoxMap.std.isSupported bi.type bi.ctx then .ret ()
  else if 256 ≤ bi.size ∧ noChildren bi.type then .ret ()
  else .expand () expanded

/-- The handler of `extract`, extract.go:57-75; its variable is what has been written to standard output.  (The result of `SeekToStart` is
not looked at; offsets come from the reader and are not negative, so it cannot fail.) -/
def extractTool (d : Bytes) (t : BoxType) : Handler Bytes Unit Unit := fun h =>
  if h.info.type = t then
    .stream (fun _ => h.info.offset + (copied d h.info).length) fun _ =>
      .get fun out => .set (out ++ copied d h.info)
        (if ((copied d h.info).length : Int) < int64 h.info.size then .err .eof else descend h.info)
  else descend h.info

/-- `extract`, extract.go:56-77: the outcome, and what has been written to standard output. -/
def extract (d : Bytes) (t : BoxType) (fuel : Nat) : Out Unit × Bytes :=
  match readBoxStructure BoxMap.std d (extractTool d t) fuel () ⟨0, [], []⟩ with
  | (.ok _, s) => (.ok (), s.user)
  | (.err e, s) => (.err e, s.user)
  | (.panic, s) => (.panic, s.user)
  | (.hang, s) => (.hang, s.user)

/-! ## `mp4tool dump`, cmd/mp4tool/internal/dump/dump.go -/

/-- `mp4dump`, dump.go:78-83, and the width of the terminal, dump.go:23-29.  `beyond` is `unicode.IsGraphic` from 256 on. -/
structure DumpCfg where
  full : List Bytes
  showAll : Bool
  offset : Bool
  hex : Bool
  width : Nat
  beyond : Nat → Bool

/-- The variables of the handler: the lines printed; `stop` is set when the program ends by a panic. -/
structure DumpSt where
  lines : List Str.Text
  stop : Bool

/-- What the handler of `dump` does. -/
abbrev DProg := Prog DumpSt Unit Unit

/-- `fmt.Println(line.String())` -/
def println (line : Str.Text) (k : DProg) : DProg := .get fun s => .set { s with lines := s.lines ++ [line] } k

/-- A panic.  `Prog` has none: it is noted, and handed on as an error, which ends the program, too, because every caller returns the errors that
it gets (dump.go:150-151). -/
def panics : DProg := .get fun s => .set { s with stop := true } (.err .eof)

/-- the name of a box type, as `%s` shows it -/
def nameText (t : BoxType) : Str.Text := t.toStr.map (·.toNat)

/-- `"%d"` or `"0x%x"`, dump.go:105-108 -/
def numText (cfg : DumpCfg) (n : Nat) : Str.Text := if cfg.hex then Str.lit "0x" ++ Str.num 16 n else Str.num 10 n

/-- The beginning of the line, dump.go:97-112; `printIndent`, dump.go:180-184 -/
def lineStart (cfg : DumpCfg) (h : Handle Unit) : Str.Text :=
  List.replicate ((h.path.length - 1) * 2) 32 ++ 91 :: nameText h.info.type ++ [93] ++
    (if BoxMap.std.isSupported h.info.type h.info.ctx then [] else Str.lit " (unsupported box type)") ++
    (if cfg.offset then Str.lit " Offset=" ++ numText cfg h.info.offset else []) ++
    Str.lit " Size=" ++ numText cfg h.info.size

/-- `(use "-full xxxx" to show all)` -/
def useFull (t : BoxType) : Str.Text := Str.lit " (use \"-full " ++ nameText t ++ Str.lit "\" to show all)"

/-- bytes in hexadecimal, dump.go:164-169 -/
def hexBytes (b : Bytes) : Str.Text := Str.join [32] (b.map fun x => Str.lit "0x" ++ Str.hexPad 2 x.toNat)

/-- dump.go:160-174, after `ReadData` -/
def dumpData (line : Str.Text) : Except Err Nat → Bytes → DProg
  | .error e, _ => .err e
  | .ok _, b => println (line ++ Str.lit " Data=[" ++ hexBytes b ++ [93]) (.ret ())

/-- dump.go:157-175: a box that is not decoded -/
def dumpRaw (bi : BoxInfo) (full : Bool) (line : Str.Text) : DProg :=
  if full then
    if maxAlloc < sub64 bi.size bi.headerSize then panics else .readData ⟨none, 0⟩ (dumpData line)
  else println (line ++ Str.lit " Data=[...]" ++ useFull bi.type) (.ret ())

/-- dump.go:150-151 -/
def dumpDone : Except Err (List Unit) → DProg
  | .ok _ => .ret ()
  | .error e => .err e

/-- dump.go:134-154, after `ReadPayload` -/
def dumpPayload (cfg : DumpCfg) (bi : BoxInfo) (full : Bool) (line : Str.Text) : Except Err (BoxVal × Nat) → DProg
  | .error e => if e = .unsupportedVersion then dumpRaw bi full (line ++ Str.lit " (unsupported box version)") else .err e
  | .ok (box, _) =>
    match Str.stringify cfg.beyond box.bd box.sv [] bi.ctx with
    | none => panics
    | some str =>
      println (if !full && cfg.width < line.length + str.length + 2 then line ++ Str.lit " ..." ++ useFull bi.type
        else if str ≠ [] then line ++ 32 :: str else line) (.expand () dumpDone)

/-- `BoxTypeMdat()`, `BoxTypeFree()`, `BoxTypeSkip()`, dump.go:116-118 -/
def bulky (t : BoxType) : Bool := t = tMdat || t = ⟨0x66, 0x72, 0x65, 0x65⟩ || t = ⟨0x73, 0x6b, 0x69, 0x70⟩

/-- The handler, dump.go:96-176. -/
def dumpTool (cfg : DumpCfg) : Handler DumpSt Unit Unit := fun h =>
  let line := lineStart cfg h
  let named := cfg.full.any (fun s => decide (s = h.info.type.toStr))
  if !named && bulky h.info.type then println (line ++ Str.lit " Data=[...]" ++ useFull h.info.type) (.ret ())
  else
    let full := named || cfg.showAll
    if BoxMap.std.isSupported h.info.type h.info.ctx then
      if !full && 64 ≤ sub64 h.info.size h.info.headerSize && noChildren h.info.type then
        println (line ++ Str.lit " ..." ++ useFull h.info.type) (.ret ())
      else .readPayload (dumpPayload cfg h.info full line)
    else dumpRaw h.info full line

/-- `dump`, dump.go:95-178: the outcome, and the lines printed. -/
def dump (d : Bytes) (cfg : DumpCfg) (fuel : Nat) : Out Unit × List Str.Text :=
  match readBoxStructure BoxMap.std d (dumpTool cfg) fuel () ⟨0, ⟨[], false⟩, []⟩ with
  | (.ok _, s) => (.ok (), s.user.lines)
  | (.err e, s) => (if s.user.stop then .panic else .err e, s.user.lines)
  | (.panic, s) => (.panic, s.user.lines)
  | (.hang, s) => (.hang, s.user.lines)

/-! ## `mp4tool psshdump`, cmd/mp4tool/internal/psshdump/psshdump.go -/

/-- "pssh" -/
def tPssh : BoxType := ⟨0x70, 0x73, 0x73, 0x68⟩

/-- the paths, psshdump.go:35-38 -/
def psshPaths : List (List BoxType) := [[tMoov, tPssh], [tMoof, tPssh]]

/-- the alphabet of `base64.StdEncoding` -/
def base64Char (n : Nat) : Nat :=
  if n < 26 then 65 + n else if n < 52 then 71 + n else if n < 62 then n - 4 else if n = 62 then 43 else 47

/-- `base64.StdEncoding.EncodeToString` -/
def base64 : Bytes → Str.Text
  | [] => []
  | [a] => [base64Char (a.toNat / 4), base64Char (a.toNat % 4 * 16), 61, 61]
  | [a, b] => [base64Char (a.toNat / 4), base64Char (a.toNat % 4 * 16 + b.toNat / 16), base64Char (b.toNat % 16 * 4), 61]
  | a :: b :: c :: l => base64Char (a.toNat / 4) :: base64Char (a.toNat % 4 * 16 + b.toNat / 16) ::
      base64Char (b.toNat % 16 * 4 + c.toNat / 64) :: base64Char (c.toNat % 64) :: base64 l

/-- What is printed about one box, psshdump.go:61-69.  `pssh.Flags` is an array of three bytes, which the verb `%x` shows as six digits. -/
structure PsshEntry where
  index : Nat
  offset : Nat
  size : Nat
  version : Nat
  flags : Str.Text
  systemId : Str.Text
  dataSize : Int
  base64 : Str.Text
  deriving DecidableEq, Repr

/-- the loop over the system ID, psshdump.go:46-52 -/
def sysidText : Nat → List Nat → Str.Text
  | _, [] => []
  | i, v :: l => Str.hexPad 2 v ++ (if i == 3 || i == 5 || i == 7 || i == 9 then [45] else []) ++ sysidText (i + 1) l

/-- `pssh.Flags` -/
def flagBytes (sv : SV) : List Nat :=
  match sv.full with
  | some f => f.byteArr "Flags"
  | none => []

/-- one round of the loop, psshdump.go:43-70; the entry is printed when everything has succeeded -/
def psshOne (d : Bytes) (i : Nat) (bi : BoxInfo) (v : BoxVal) : PM PsshEntry :=
  match v.assert "Pssh" with
  | none => M.panic
  | some sv => do
    let _ ← seekStartP bi.offset
    if maxAlloc < bi.size then M.panic
    else do
      let raw ← readFullP d bi.size
      pure ⟨i, bi.offset, bi.size, sv.version, (flagBytes sv).flatMap (Str.hexPad 2), sysidText 0 (sv.byteArr "SystemID"),
        sv.int "DataSize", base64 raw⟩

/-- the loop, psshdump.go:43-70 -/
def psshLoop (d : Bytes) : Nat → List (BoxInfo × BoxVal) → PM (List PsshEntry)
  | _, [] => pure []
  | i, (bi, v) :: l => do
    let e ← psshOne d i bi v
    let es ← psshLoop d (i + 1) l
    pure (e :: es)

/-- `dump`, psshdump.go:26-73: the entries printed (when it fails, those printed before are not represented) -/
def psshdump (m : BoxMap) (d : Bytes) (fuel : Nat) : PM (List PsshEntry) := do
  let bs ← extractBoxesWithPayload m d fuel none psshPaths
  psshLoop d 0 bs

/-! ## `mp4tool probe`, cmd/mp4tool/internal/probe/probe.go -/

/-- `track`, cmd/mp4tool/internal/probe/probe.go:68-82, without the seconds -/
structure TrackReport where
  trackID : Nat
  timescale : Nat
  duration : Nat
  codec : Str.Text
  encrypted : Bool
  width : Nat := 0
  height : Nat := 0
  sampleNum : Nat
  chunkNum : Nat
  idrFrameNum : Nat := 0
  bitrate : Nat
  maxBitrate : Nat
  deriving DecidableEq, Repr

/-- `report`, probe.go:57-66 -/
structure Report where
  majorBrand : List Nat
  minorVersion : Nat
  compatibleBrands : List (List Nat)
  fastStart : Bool
  timescale : Nat
  duration : Nat
  tracks : List TrackReport
  deriving DecidableEq, Repr

/-- upper case -/
def upper (t : Str.Text) : Str.Text := t.map fun c => if 97 ≤ c && c ≤ 122 then c - 32 else c

/-- `fmt.Sprintf("avc1.%02X%02X%02X", ...)`, probe.go:125-129 -/
def avcText (a : AvcInfo) : Str.Text :=
  Str.lit "avc1." ++ upper (Str.hexPad 2 a.profile) ++ upper (Str.hexPad 2 a.profileCompatibility) ++ upper (Str.hexPad 2 a.level)

/-- the name of an audio codec, probe.go:141-147 -/
def mp4aText : Option Mp4aInfo → Str.Text
  | none => Str.lit "mp4a"
  | some a =>
    if a.oti = 0 then Str.lit "mp4a"
    else if a.audOTI = 0 then Str.lit "mp4a." ++ upper (Str.num 16 a.oti)
    else Str.lit "mp4a." ++ upper (Str.num 16 a.oti) ++ 46 :: Str.num 10 a.audOTI

/-- the two bit rates, probe.go:105-110 -/
def bitrates (info : ProbeInfo) (tr : Track) (fuel : Nat) : Out (Nat × Nat) :=
  match samplesMaxBitrate tr.samples tr.timescale tr.timescale fuel with
  | .ok mx =>
    if samplesBitrate tr.samples tr.timescale = 0 ∨ mx = 0 then
      .ok (segmentsBitrate info.segments tr.trackID tr.timescale, segmentsMaxBitrate tr.trackID tr.timescale info.segments 0)
    else .ok (samplesBitrate tr.samples tr.timescale, mx)
  | .err e => .err e
  | .panic => .panic
  | .hang => .hang

/-- the fields that do not depend on the codec, probe.go:111-121 -/
def baseReport (tr : Track) (rates : Nat × Nat) : TrackReport where
  trackID := tr.trackID
  timescale := tr.timescale
  duration := tr.duration
  codec := Str.lit "unknown"
  encrypted := tr.encrypted
  sampleNum := tr.samples.length
  chunkNum := tr.chunks.length
  bitrate := rates.1
  maxBitrate := rates.2

/-- an AVC track, probe.go:124-139 -/
def avcReport (r : TrackReport) (idrs : Nat) : Option AvcInfo → TrackReport
  | some a => { r with codec := avcText a, width := a.width, height := a.height, idrFrameNum := idrs }
  | none => { r with codec := Str.lit "avc1", idrFrameNum := idrs }

/-- one round of the loop over the tracks, probe.go:104-152 -/
def trackReport (d : Bytes) (fuel : Nat) (info : ProbeInfo) (tr : Track) : PM TrackReport := do
  let rates ← ofOut (bitrates info tr fuel)
  match tr.codec with
  | .avc1 => do
    let idxs ← findIDRFrames d fuel tr
    pure (avcReport (baseReport tr rates) (idxs.getD []).length tr.avc)
  | .mp4a => pure { baseReport tr rates with codec := mp4aText tr.mp4a }
  | .unknown => pure (baseReport tr rates)

/-- the loop over the tracks, probe.go:104-152 -/
def trackReports (d : Bytes) (fuel : Nat) (info : ProbeInfo) : List Track → PM (List TrackReport)
  | [] => pure []
  | tr :: l => do
    let r ← trackReport d fuel info tr
    let rs ← trackReports d fuel info l
    pure (r :: rs)

/-- `buildReport`, probe.go:85-154 -/
def buildReport (m : BoxMap) (d : Bytes) (fuel : Nat) : PM Report := do
  let info ← probe m d fuel
  let tracks ← trackReports d fuel info info.tracks
  pure ⟨info.majorBrand, info.minorVersion, info.compatibleBrands, info.fastStart, info.timescale, info.duration, tracks⟩

/-- Can the report be written as JSON?  `DurationSeconds` is `float32(Duration) / float32(Timescale)`, which is infinite or not a number when
the timescale is zero; package `encoding/json` refuses to encode such values. -/
def Report.finite (r : Report) : Bool := r.timescale != 0 && r.tracks.all (fun t => t.timescale != 0)

/-- `Main` with `-format json` (the default), probe.go:36-54: the report printed -/
def probeJson (m : BoxMap) (d : Bytes) (fuel : Nat) : PM Report := do
  let r ← buildReport m d fuel
  if r.finite then pure r else M.fail (.msg "json: unsupported value")

end Mp4.Tool
