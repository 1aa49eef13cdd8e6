import Verif.Model.Extract
import Verif.Model.Accessors

/-!
# probe.go: a summary of a file

Slices of pointers to structs (`Samples`, `Chunks`, ...) are lists; the library never shares the pointers.
-/

namespace Mp4

/-- `a * b` on `uint64`. -/
def mul64 (a b : Nat) : Nat := a * b % U64
/-- `a * b` on `uint32`. -/
def mul32 (a b : Nat) : Nat := a * b % U32
/-- `int32(i)` for an integer of any type. -/
def toInt32 (i : Int) : Int := toSigned 32 (i % (2 ^ 32 : Nat)).toNat

/-- `Sample`, probe.go:60-64 -/
structure Sample where
  size : Nat := 0
  timeDelta : Nat
  offset : Int := 0
  deriving DecidableEq, Repr

/-- `Chunk`, probe.go:68-71 -/
structure Chunk where
  dataOffset : Nat
  samplesPerChunk : Nat := 0
  deriving DecidableEq, Repr

/-- `EditListEntry`, probe.go:53-56 -/
structure EditListEntry where
  mediaTime : Int
  segmentDuration : Nat
  deriving DecidableEq, Repr

/-- `AVCDecConfigInfo`, probe.go:73-81 -/
structure AvcInfo where
  configurationVersion : Nat
  profile : Nat
  profileCompatibility : Nat
  level : Nat
  lengthSize : Nat
  width : Nat
  height : Nat
  deriving DecidableEq, Repr

/-- `MP4AInfo`, probe.go:83-87 -/
structure Mp4aInfo where
  oti : Nat
  audOTI : Nat
  channelCount : Nat
  deriving DecidableEq, Repr

/-- `Codec`, probe.go:43-49 -/
inductive Codec where
  | unknown
  | avc1
  | mp4a
  deriving DecidableEq, Repr

/-- `Track`, probe.go:30-41 -/
structure Track where
  trackID : Nat
  timescale : Nat
  duration : Nat
  codec : Codec
  encrypted : Bool
  editList : List EditListEntry
  samples : List Sample
  chunks : List Chunk
  avc : Option AvcInfo
  mp4a : Option Mp4aInfo
  deriving DecidableEq, Repr

/-- `Segment`, probe.go:94-103 -/
structure Segment where
  trackID : Nat
  moofOffset : Nat
  baseMediaDecodeTime : Nat := 0
  defaultSampleDuration : Nat
  sampleCount : Nat := 0
  duration : Nat := 0
  compositionTimeOffset : Int := 0
  size : Nat := 0
  deriving DecidableEq, Repr

/-- `ProbeInfo`, probe.go:11-20 -/
structure ProbeInfo where
  majorBrand : List Nat := [0, 0, 0, 0]
  minorVersion : Nat := 0
  compatibleBrands : List (List Nat) := []
  fastStart : Bool := false
  timescale : Nat := 0
  duration : Nat := 0
  tracks : List Track := []
  segments : List Segment := []
  deriving DecidableEq, Repr

/-! ## Access to decoded boxes -/

/-- a field of type `[]T` for a struct `T` -/
def SV.structs (sv : SV) (name : String) : List SV :=
  match sv.get name with
  | some (.slice l) => l.map fun v => match v with | .struct e => e | _ => []
  | _ => []

/-- a field of type `[]uint32`, `[]uint64` or `[]byte` -/
def SV.uints (sv : SV) (name : String) : List Nat :=
  match sv.get name with
  | some (.slice l) => l.map fun v => match v with | .uint n => n | _ => 0
  | _ => []

/-! ## Sample tables, probe.go:306-367 -/

/-- the loop over the chunk offsets, probe.go:308-312, 314-318 -/
def chunksOf (offsets : List Nat) : List Chunk := offsets.map fun o => { dataOffset := o }

/-- the loops over `stts.Entries`, probe.go:327-333: counts and deltas -/
def samplesOf : List (Nat × Nat) → List Sample
  | [] => []
  | (n, delta) :: l => List.replicate n { timeDelta := delta } ++ samplesOf l

/-- the inner loop over the chunks of a run, probe.go:343-345, with at most `fuel` rounds; `none`: index out of range -/
def runLoop (stop spc : Nat) : Nat → Nat → List Chunk → Option (List Chunk)
  | 0, _, chunks => some chunks
  | fuel + 1, ci, chunks =>
    if ci < stop then
      match chunks[ci]? with
      | none => none
      | some c => runLoop stop spc fuel (add32 ci 1) (chunks.set ci { c with samplesPerChunk := spc })
    else some chunks

/-- the end of a run of chunks, probe.go:339-342; `rest` are the entries behind it -/
def runEnd (rest : List (Nat × Nat)) (chunks : Nat) : Nat :=
  match rest with
  | [] => chunks
  | (next, _) :: _ => if sub32 next 1 < chunks then sub32 next 1 else chunks

/-- the loop over `stsc.Entries` (first chunk, samples per chunk), probe.go:338-346.  The inner loop makes at most `end`
rounds. -/
def stscLoop : List (Nat × Nat) → List Chunk → Option (List Chunk)
  | [], chunks => some chunks
  | (first, spc) :: rest, chunks =>
    match runLoop (runEnd rest (chunks.length % U32)) spc (runEnd rest (chunks.length % U32)) (sub32 first 1) chunks with
    | none => none
    | some chunks => stscLoop rest chunks

/-- the inner loop over a run of `ctts`, probe.go:351-357: `si` and the samples afterwards -/
def offsetLoop (offset : Int) : Nat → Nat → List Sample → Option (Nat × List Sample)
  | 0, si, samples => some (si, samples)
  | n + 1, si, samples =>
    if samples.length % U32 ≤ si then some (si, samples)
    else
      match samples[si]? with
      | none => none
      | some s => offsetLoop offset n (add32 si 1) (samples.set si { s with offset := offset })

/-- the loop over `ctts.Entries` (counts and offsets), probe.go:350-358 -/
def cttsLoop : List (Nat × Int) → Nat → List Sample → Option (List Sample)
  | [], _, samples => some samples
  | (n, offset) :: rest, si, samples =>
    match offsetLoop offset n si samples with
    | none => none
    | some (si, samples) => cttsLoop rest si samples

/-- the loop over `stsz.EntrySize`, probe.go:362-364 -/
def stszLoop : List Nat → List Sample → List Sample
  | n :: sizes, s :: samples => { s with size := n } :: stszLoop sizes samples
  | _, samples => samples

/-- the entries of `stts` -/
def sttsEntries (sv : SV) : List (Nat × Nat) := (sv.structs "Entries").map fun e => (e.uint "SampleCount", e.uint "SampleDelta")
/-- the entries of `stsc` -/
def stscEntries (sv : SV) : List (Nat × Nat) := (sv.structs "Entries").map fun e => (e.uint "FirstChunk", e.uint "SamplesPerChunk")
/-- the entries of `ctts` with the result of `GetSampleOffset`, box_types_iso14496_12.go:223-232 -/
def cttsEntries (sv : SV) : List (Nat × Int) := (sv.structs "Entries").map fun e => (e.uint "SampleCount",
  if sv.version = 0 then (e.uint "SampleOffsetV0" : Int) else if sv.version = 1 then e.int "SampleOffsetV1" else 0)
/-- the entries of `elst` with the results of `GetMediaTime` and `GetSegmentDuration`, box_types_iso14496_12.go:376-397 -/
def elstEntries (sv : SV) : List EditListEntry := (sv.structs "Entries").map fun e =>
  if sv.version = 0 then ⟨e.int "MediaTimeV0", e.uint "SegmentDurationV0"⟩
  else if sv.version = 1 then ⟨e.int "MediaTimeV1", e.uint "SegmentDurationV1"⟩ else ⟨0, 0⟩

/-! ## AAC profile, probe.go:370-487 -/

/-- `findDescriptorByTag`, probe.go:465-472 -/
def findDescriptor (dscrs : List SV) (tag : Int) : Option SV := dscrs.find? fun x => x.int "Tag" == tag

/-- byte `i` of the result of `ReadBits` -/
def byteAt (b : Bytes) (i : Nat) : Nat := (b.getD i 0#8).toNat

/-- `getAudioObjectType`, probe.go:474-487: the type and the number of bits read.  The sum is one of bytes. -/
def audioObjectType (d : Bytes) : RM (Nat × Nat) := do
  let b ← readBits d 5
  if byteAt b 0 ≠ 0x1f then pure (byteAt b 0, 5)
  else do
    let b ← readBits d 6
    pure ((byteAt b 0 + 32) % 256, 11)

/-- probe.go:441-457: parametric stereo -/
def detectPS (d : Bytes) (remaining : Int) : RM (Nat × Nat) :=
  if 12 ≤ remaining then do
    let sync ← readBits d 11
    if byteAt sync 0 = 0x5 ∧ byteAt sync 1 = 0x48 then do
      let ps ← readBits d 1
      if byteAt ps 0 ≠ 0 then pure (0x40, 29) else pure (0x40, 5)
    else pure (0x40, 5)
  else pure (0x40, 5)

/-- probe.go:422-460: spectral band replication.  The bits of the second audio object type are not subtracted. -/
def detectSBR (d : Bytes) (aot ext : Nat) (remaining : Int) : RM (Nat × Nat) :=
  if ext = 5 ∨ ext = 22 then do
    let sbr ← readBits d 1
    if byteAt sbr 0 ≠ 0 then
      if ext = 5 then do
        let sfi ← readBits d 4
        if byteAt sfi 0 = 0xf then do
          let _ ← readBits d 24
          detectPS d (remaining - 1 - 4 - 24)
        else detectPS d (remaining - 1 - 4)
      else pure (0x40, 5)
    else pure (0x40, aot)
  else pure (0x40, aot)

/-- probe.go:407-462: extension -/
def detectExt (d : Bytes) (aot : Nat) (remaining : Int) : RM (Nat × Nat) :=
  if aot = 2 ∧ 20 ≤ remaining then do
    let _ ← readBits d 4
    let sync ← readBits d 11
    if byteAt sync 0 = 0x2 ∧ byteAt sync 1 = 0xb7 then do
      let (ext, _) ← audioObjectType d
      detectSBR d aot ext (remaining - 4 - 11)
    else pure (0x40, aot)
  else pure (0x40, aot)

/-- probe.go:384-462: the decoder specific information (`AudioSpecificConfig`) -/
def detectConfig (d : Bytes) : RM (Nat × Nat) := do
  let (aot, n) ← audioObjectType d
  let sfi ← readBits d 4
  let remaining : Int := 8 * d.length - n - 4
  if byteAt sfi 0 = 0x0f then do
    let _ ← readBits d 24
    detectExt d aot (remaining - 24)
  else detectExt d aot remaining

/-- `detectAACProfile`, probe.go:370-463.  The descriptors are found by value. -/
def detectAACProfile (esds : SV) : Out (Nat × Nat) :=
  match findDescriptor (esds.structs "Descriptors") 4 with
  | none => .ok (0, 0)
  | some dscr =>
    match dscr.get "DecoderConfigDescriptor" with
    | some (.ptr (some (.struct conf))) =>
      if SV.uint conf "ObjectTypeIndication" ≠ 0x40 then .ok (SV.uint conf "ObjectTypeIndication", 0)
      else
        match findDescriptor (esds.structs "Descriptors") 5 with
        | none => .err (.msg "DecoderSpecificationInfoDescriptor not found")
        | some info => (detectConfig ((info.uints "Data").map (BitVec.ofNat 8)) (.fresh 0)).1
    | _ => .ok (0, 0)

/-! ## Tracks -/

/-- The boxes of a track, probe.go:207-219 -/
structure Found where
  tkhd : Option SV := none
  elst : Option SV := none
  mdhd : Option SV := none
  avc1 : Option SV := none
  avcC : Option SV := none
  audio : Option SV := none
  esds : Option SV := none
  stco : Option SV := none
  stts : Option SV := none
  stsc : Option SV := none
  ctts : Option SV := none
  stsz : Option SV := none
  co64 : Option SV := none
  codec : Codec := .unknown
  encrypted : Bool := false

/-- four-character codes, `BoxTypeTkhd()` etc. -/
def tTkhd : BoxType := ⟨0x74, 0x6b, 0x68, 0x64⟩
/-- "edts" -/
def tEdts : BoxType := ⟨0x65, 0x64, 0x74, 0x73⟩
/-- "elst" -/
def tElst : BoxType := ⟨0x65, 0x6c, 0x73, 0x74⟩
/-- "mdia" -/
def tMdia : BoxType := ⟨0x6d, 0x64, 0x69, 0x61⟩
/-- "mdhd" -/
def tMdhd : BoxType := ⟨0x6d, 0x64, 0x68, 0x64⟩
/-- "minf" -/
def tMinf : BoxType := ⟨0x6d, 0x69, 0x6e, 0x66⟩
/-- "stbl" -/
def tStbl : BoxType := ⟨0x73, 0x74, 0x62, 0x6c⟩
/-- "stsd" -/
def tStsd : BoxType := ⟨0x73, 0x74, 0x73, 0x64⟩
/-- "avc1" -/
def tAvc1 : BoxType := ⟨0x61, 0x76, 0x63, 0x31⟩
/-- "avcC" -/
def tAvcC : BoxType := ⟨0x61, 0x76, 0x63, 0x43⟩
/-- "encv" -/
def tEncv : BoxType := ⟨0x65, 0x6e, 0x63, 0x76⟩
/-- "mp4a" -/
def tMp4a : BoxType := ⟨0x6d, 0x70, 0x34, 0x61⟩
/-- "enca" -/
def tEnca : BoxType := ⟨0x65, 0x6e, 0x63, 0x61⟩
/-- "esds" -/
def tEsds : BoxType := ⟨0x65, 0x73, 0x64, 0x73⟩
/-- "stco" -/
def tStco : BoxType := ⟨0x73, 0x74, 0x63, 0x6f⟩
/-- "co64" -/
def tCo64 : BoxType := ⟨0x63, 0x6f, 0x36, 0x34⟩
/-- "stts" -/
def tStts : BoxType := ⟨0x73, 0x74, 0x74, 0x73⟩
/-- "ctts" -/
def tCtts : BoxType := ⟨0x63, 0x74, 0x74, 0x73⟩
/-- "stsc" -/
def tStsc : BoxType := ⟨0x73, 0x74, 0x73, 0x63⟩
/-- "stsz" -/
def tStsz : BoxType := ⟨0x73, 0x74, 0x73, 0x7a⟩
/-- "moov" -/
def tMoov : BoxType := ⟨0x6d, 0x6f, 0x6f, 0x76⟩
/-- "mvhd" -/
def tMvhd : BoxType := ⟨0x6d, 0x76, 0x68, 0x64⟩
/-- "trak" -/
def tTrak : BoxType := ⟨0x74, 0x72, 0x61, 0x6b⟩
/-- "moof" -/
def tMoof : BoxType := ⟨0x6d, 0x6f, 0x6f, 0x66⟩
/-- "mdat" -/
def tMdat : BoxType := ⟨0x6d, 0x64, 0x61, 0x74⟩
/-- "traf" -/
def tTraf : BoxType := ⟨0x74, 0x72, 0x61, 0x66⟩
/-- "tfhd" -/
def tTfhd : BoxType := ⟨0x74, 0x66, 0x68, 0x64⟩
/-- "tfdt" -/
def tTfdt : BoxType := ⟨0x74, 0x66, 0x64, 0x74⟩
/-- "trun" -/
def tTrun : BoxType := ⟨0x74, 0x72, 0x75, 0x6e⟩

/-- The paths asked for below a `trak` box, probe.go:184-203 -/
def trakPaths : List (List BoxType) :=
  let stbl := [tMdia, tMinf, tStbl]
  let stsd := stbl ++ [tStsd]
  [[tTkhd], [tEdts, tElst], [tMdia, tMdhd], stsd ++ [tAvc1], stsd ++ [tAvc1, tAvcC], stsd ++ [tEncv], stsd ++ [tEncv, tAvcC],
   stsd ++ [tMp4a], stsd ++ [tMp4a, tEsds], stsd ++ [tMp4a, tWave, tEsds], stsd ++ [tEnca], stsd ++ [tEnca, tEsds], stbl ++ [tStco],
   stbl ++ [tCo64], stbl ++ [tStts], stbl ++ [tCtts], stbl ++ [tStsc], stbl ++ [tStsz]]

/-- A type assertion, `v.(*T)`; `none`: panic -/
def BoxVal.assert (v : BoxVal) (name : String) : Option SV := if v.bd.goName = name then some v.sv else none

/-- one round of the loop over the boxes of a track, probe.go:221-257 -/
def collectOne (f : Found) (t : BoxType) (v : BoxVal) : Option Found :=
  if t = tTkhd then (v.assert "Tkhd").map fun s => { f with tkhd := some s }
  else if t = tElst then (v.assert "Elst").map fun s => { f with elst := some s }
  else if t = tMdhd then (v.assert "Mdhd").map fun s => { f with mdhd := some s }
  else if t = tAvc1 then (v.assert "VisualSampleEntry").map fun s => { f with codec := .avc1, avc1 := some s }
  else if t = tAvcC then (v.assert "AVCDecoderConfiguration").map fun s => { f with avcC := some s }
  else if t = tEncv then some { f with codec := .avc1, encrypted := true }
  else if t = tMp4a then (v.assert "AudioSampleEntry").map fun s => { f with codec := .mp4a, audio := some s }
  else if t = tEnca then (v.assert "AudioSampleEntry").map fun s => { f with codec := .mp4a, encrypted := true, audio := some s }
  else if t = tEsds then (v.assert "Esds").map fun s => { f with esds := some s }
  else if t = tStco then (v.assert "Stco").map fun s => { f with stco := some s }
  else if t = tStts then (v.assert "Stts").map fun s => { f with stts := some s }
  else if t = tStsc then (v.assert "Stsc").map fun s => { f with stsc := some s }
  else if t = tCtts then (v.assert "Ctts").map fun s => { f with ctts := some s }
  else if t = tStsz then (v.assert "Stsz").map fun s => { f with stsz := some s }
  else if t = tCo64 then (v.assert "Co64").map fun s => { f with co64 := some s }
  else some f

/-- the loop over the boxes of a track, probe.go:220-258 -/
def collect : Found → List (BoxInfo × BoxVal) → Option Found
  | f, [] => some f
  | f, (bi, v) :: l =>
    match collectOne f bi.type v with
    | none => none
    | some f => collect f l

/-- probe.go:306-321: the chunks without their numbers of samples -/
def chunkTable (f : Found) : Option (List Chunk) :=
  match f.stco, f.co64 with
  | some s, _ => some (chunksOf (s.uints "ChunkOffset"))
  | none, some s => some (chunksOf (s.uints "ChunkOffset"))
  | none, none => none

/-- probe.go:282-292 -/
def avcInfo (f : Found) : Option AvcInfo :=
  match f.avc1, f.avcC with
  | some e, some c => some ⟨c.uint "ConfigurationVersion", c.uint "Profile", c.uint "ProfileCompatibility", c.uint "Level",
      (c.uint "LengthSizeMinusOne" + 1) % 65536, e.uint "Width", e.uint "Height"⟩
  | _, _ => none

/-- probe.go:294-304 -/
def mp4aInfo (f : Found) : Out (Option Mp4aInfo) :=
  match f.audio, f.esds with
  | some e, some s =>
    match detectAACProfile s with
    | .ok (oti, aud) => .ok (some ⟨oti, aud, e.uint "ChannelCount"⟩)
    | .err e => .err e
    | .panic => .panic
    | .hang => .hang
  | _, _ => .ok none

/-- probe.go:348-365: composition offsets and sizes -/
def fillSamples (f : Found) (samples : List Sample) : Option (List Sample) :=
  match (match f.ctts with | some s => cttsLoop (cttsEntries s) 0 samples | none => some samples) with
  | none => none
  | some samples => some (match f.stsz with | some s => stszLoop (s.uints "EntrySize") samples | none => samples)

/-- probe.go:260-367: the track of the boxes found -/
def trackOf (f : Found) : Out Track :=
  match f.tkhd with
  | none => .err (.msg "tkhd box not found")
  | some tkhd =>
    match f.mdhd with
    | none => .err (.msg "mdhd box not found")
    | some mdhd =>
      match mp4aInfo f with
      | .err e => .err e
      | .panic => .panic
      | .hang => .hang
      | .ok mp4a =>
        match chunkTable f with
        | none => .err (.msg "stco/co64 box not found")
        | some chunks =>
          match f.stts with
          | none => .err (.msg "stts box not found")
          | some stts =>
            match f.stsc with
            | none => .err (.msg "stsc box not found")
            | some stsc =>
              match stscLoop (stscEntries stsc) chunks with
              | none => .panic
              | some chunks =>
                match fillSamples f (samplesOf (sttsEntries stts)) with
                | none => .panic
                | some samples => .ok {
                    trackID := tkhd.uint "TrackID"
                    timescale := mdhd.uint "Timescale"
                    duration := Acc.mdhdDuration mdhd
                    codec := f.codec
                    encrypted := f.encrypted
                    editList := match f.elst with | some s => elstEntries s | none => []
                    samples := samples
                    chunks := chunks
                    avc := avcInfo f
                    mp4a := mp4a }

/-- an outcome as a computation -/
def ofOut {σ α : Type} (x : Out α) : M σ α := fun s => (x, s)

/-- an option as a computation, `none` is a panic -/
def orPanic {σ α : Type} : Option α → M σ α
  | some a => pure a
  | none => M.panic

/-- `probeTrak`, probe.go:181-368 -/
def probeTrak (m : BoxMap) (d : Bytes) (fuel : Nat) (bi : BoxInfo) : PM Track := do
  let bips ← extractBoxesWithPayload m d fuel (some bi) trakPaths
  let f ← orPanic (collect {} bips)
  ofOut (trackOf f)

/-! ## Segments, probe.go:489-567 -/

/-- the paths asked for below a `moof` box, probe.go:490-494 -/
def moofPaths : List (List BoxType) := [[tTraf, tTfhd], [tTraf, tTfdt], [tTraf, tTrun]]

/-- the boxes of a fragment, probe.go:499-501 -/
structure FoundFrag where
  tfhd : Option SV := none
  tfdt : Option SV := none
  trun : Option SV := none

/-- the loop over the boxes of a fragment, probe.go:506-515 -/
def collectFrag : FoundFrag → List (BoxInfo × BoxVal) → Option FoundFrag
  | f, [] => some f
  | f, (bi, v) :: l =>
    match (if bi.type = tTfhd then (v.assert "Tfhd").map fun s => { f with tfhd := some s }
      else if bi.type = tTfdt then (v.assert "Tfdt").map fun s => { f with tfdt := some s }
      else if bi.type = tTrun then (v.assert "Trun").map fun s => { f with trun := some s }
      else some f) with
    | none => none
    | some f => collectFrag f l

/-- `CheckFlag`, box.go:168-171 -/
def SV.checkFlag (sv : SV) (flag : Nat) : Bool := sv.flags &&& flag != 0

/-- the result of `Trun.GetSampleCompositionTimeOffset` for an entry, box_types_iso14496_12.go:2421-2430 -/
def trunOffset (trun e : SV) : Int :=
  if trun.version = 0 then (e.uint "SampleCompositionTimeOffsetV0" : Int)
  else if trun.version = 1 then e.int "SampleCompositionTimeOffsetV1" else 0

/-- the duration of a sample, probe.go:558-562 -/
def sampleDuration (tfhd trun e : SV) : Nat :=
  if trun.checkFlag 0x100 then e.uint "SampleDuration" else tfhd.uint "DefaultSampleDuration"

/-- the loop for the composition time, probe.go:553-563; `none` stands for `ei == 0` -/
def offsetScan (tfhd trun : SV) : Nat → Option Int → List SV → Int
  | _, least, [] => least.getD 0
  | duration, least, e :: l =>
    let offset := toInt32 (toInt32 duration + toInt32 (trunOffset trun e))
    let least := match least with
      | none => offset
      | some x => if offset < x then offset else x
    offsetScan tfhd trun (add32 duration (sampleDuration tfhd trun e)) (some least) l

/-- a sum on `uint32` -/
def sum32 (l : List Nat) : Nat := l.foldl add32 0

/-- probe.go:517-566: the segment of the boxes found -/
def segmentOf (offset : Nat) (f : FoundFrag) : Out Segment :=
  match f.tfhd with
  | none => .err (.msg "tfhd not found")
  | some tfhd =>
    let segment : Segment := {
      trackID := tfhd.uint "TrackID"
      moofOffset := offset
      defaultSampleDuration := tfhd.uint "DefaultSampleDuration"
      baseMediaDecodeTime := match f.tfdt with
        | some s => if s.version = 0 then s.uint "BaseMediaDecodeTimeV0" else s.uint "BaseMediaDecodeTimeV1"
        | none => 0 }
    match f.trun with
    | none => .ok segment
    | some trun =>
      let count := trun.uint "SampleCount"
      let entries := trun.structs "Entries"
      .ok { segment with
        sampleCount := count
        duration := if trun.checkFlag 0x100 then sum32 (entries.map (·.uint "SampleDuration"))
          else mul32 (tfhd.uint "DefaultSampleDuration") count
        size := if trun.checkFlag 0x200 then sum32 (entries.map (·.uint "SampleSize"))
          else mul32 (tfhd.uint "DefaultSampleSize") count
        compositionTimeOffset := offsetScan tfhd trun 0 none entries }

/-- `probeMoof`, probe.go:489-567 -/
def probeMoof (m : BoxMap) (d : Bytes) (fuel : Nat) (bi : BoxInfo) : PM Segment := do
  let bips ← extractBoxesWithPayload m d fuel (some bi) moofPaths
  let f ← orPanic (collectFrag {} bips)
  ofOut (segmentOf bi.offset f)

/-! ## Probe -/

/-- the paths asked for by `Probe`, probe.go:111-118 -/
def probePaths : List (List BoxType) := [[tFtyp], [tMoov], [tMoov, tMvhd], [tMoov, tTrak], [tMoof], [tMdat]]

/-- `bi.SeekToPayload(r)`, then `Unmarshal(r, bi.Size-bi.HeaderSize, &box, bi.Context)`, probe.go:127-132, 143-148 -/
def unmarshalAt (d : Bytes) (bd : BoxDef) (bi : BoxInfo) : PM SV := do
  let _ ← bi.seekToPayload
  let (_, sv) ← unmarshalBox bd d bi.ctx (sub64 bi.size bi.headerSize) bd.fields.zero
  pure sv

/-- one round of the loop of `Probe`, probe.go:124-170; `seen` is `mdatAppeared` -/
def probeOne (m : BoxMap) (d : Bytes) (fuel : Nat) (bi : BoxInfo) (seen : Bool) (info : ProbeInfo) : PM (Bool × ProbeInfo) :=
  if bi.type = tFtyp then do
    let ftyp ← unmarshalAt d Cat.bdFtyp bi
    pure (seen, { info with
      majorBrand := ftyp.byteArr "MajorBrand"
      minorVersion := ftyp.uint "MinorVersion"
      compatibleBrands := (ftyp.structs "CompatibleBrands").map (·.byteArr "CompatibleBrand") })
  else if bi.type = tMoov then pure (seen, { info with fastStart := !seen })
  else if bi.type = tMvhd then do
    let mvhd ← unmarshalAt d Cat.bdMvhd bi
    pure (seen, { info with
      timescale := mvhd.uint "Timescale"
      duration := if mvhd.version = 0 then mvhd.uint "DurationV0" else mvhd.uint "DurationV1" })
  else if bi.type = tTrak then do
    let t ← probeTrak m d fuel bi
    pure (seen, { info with tracks := info.tracks ++ [t] })
  else if bi.type = tMoof then do
    let s ← probeMoof m d fuel bi
    pure (seen, { info with segments := info.segments ++ [s] })
  else if bi.type = tMdat then pure (true, info)
  else pure (seen, info)

/-- the loop of `Probe`, probe.go:123-171 -/
def probeLoop (m : BoxMap) (d : Bytes) (fuel : Nat) : List BoxInfo → Bool → ProbeInfo → PM ProbeInfo
  | [], _, info => pure info
  | bi :: bis, seen, info => do
    let (seen, info) ← probeOne m d fuel bi seen info
    probeLoop m d fuel bis seen info

/-- `Probe`, probe.go:106-172; also `ProbeFra`, probe.go:176-179 -/
def probe (m : BoxMap) (d : Bytes) (fuel : Nat) : PM ProbeInfo := do
  let (bis, _) ← extractBoxes m d fuel none probePaths
  probeLoop m d fuel bis false {}

/-! ## Instantaneous decoder refresh frames, probe.go:569-609 -/

/-- `io.ReadFull(r, data)` on a `bytes.Reader`, for a buffer of `n` bytes -/
def readFullP (d : Bytes) (n : Nat) : PM Bytes := fun pos =>
  let got := (d.drop pos).take n
  if got.length = n then (.ok got, pos + n)
  else (.err (if got.length = 0 then .eof else .unexpectedEOF), pos + got.length)

/-- the loop over the NAL units of a sample, probe.go:585-605; is there an IDR unit? -/
def nalLoop (d : Bytes) (lengthSize size dataOffset : Nat) : Nat → Nat → PM Bool
  | 0, _ => M.hang
  | fuel + 1, nalOffset =>
    if add32 (add32 nalOffset lengthSize) 1 ≤ size then do
      let _ ← seekStartP (add64 dataOffset nalOffset)
      let data ← readFullP d (lengthSize + 1)
      let length := beNat (data.take lengthSize) % U32
      if byteAt data lengthSize % 32 = 5 then pure true
      else nalLoop d lengthSize size dataOffset fuel (add32 nalOffset (add32 lengthSize length))
    else pure false

/-- the loop over the samples of a chunk, probe.go:580-607: `si` and the indices found; the samples from `si` on are given -/
def chunkLoop (d : Bytes) (fuel lengthSize stop : Nat) : List Sample → Nat → Nat → List Nat → PM (Nat × List Nat)
  | [], si, _, idxs => pure (si, idxs)
  | s :: l, si, dataOffset, idxs =>
    if si < stop then
      if s.size = 0 then chunkLoop d fuel lengthSize stop l (si + 1) dataOffset idxs
      else do
        let idr ← nalLoop d lengthSize s.size dataOffset fuel 0
        chunkLoop d fuel lengthSize stop l (si + 1) (add64 dataOffset s.size) (if idr then idxs ++ [si] else idxs)
    else pure (si, idxs)

/-- the loop over the chunks, probe.go:577-608 -/
def chunksLoop (d : Bytes) (fuel lengthSize : Nat) (samples : List Sample) : List Chunk → Nat → List Nat → PM (List Nat)
  | [], _, idxs => pure idxs
  | c :: l, si, idxs => do
    let (si, idxs) ← chunkLoop d fuel lengthSize (si + c.samplesPerChunk) (samples.drop si) si c.dataOffset idxs
    chunksLoop d fuel lengthSize samples l si idxs

/-- `FindIDRFrames`, probe.go:569-609.  `none`: the nil slice.  `fuel` bounds the rounds of the loop over the NAL units of one
sample; when it is used up the outcome is `hang`. -/
def findIDRFrames (d : Bytes) (fuel : Nat) (t : Track) : PM (Option (List Nat)) :=
  match t.avc with
  | none => pure none
  | some avc => do
    let idxs ← chunksLoop d fuel avc.lengthSize t.samples t.chunks 0 []
    pure (some idxs)

/-! ## Bit rates, probe.go:611-684 -/

/-- `8 * size * uint64(timescale) / duration`; `none`: division by zero -/
def rate (size timescale duration : Nat) : Option Nat :=
  if duration = 0 then none else some (mul64 (mul64 8 size) timescale / duration)

/-- a sum on `uint64` -/
def sum64 (l : List Nat) : Nat := l.foldl add64 0

/-- `Samples.GetBitrate`, probe.go:611-622 -/
def samplesBitrate (samples : List Sample) (timescale : Nat) : Nat :=
  let size := sum64 (samples.map (·.size))
  let duration := sum64 (samples.map (·.timeDelta))
  if duration = 0 then 0 else mul64 (mul64 8 size) timescale / duration

/-- the first inner loop of `Samples.GetMaxBitrate`, probe.go:634-641, with at most `fuel` rounds: size, duration, end -/
def growLoop (samples : List Sample) (timeDelta : Nat) : Nat → Nat → Nat → Nat → Out (Nat × Nat × Nat)
  | 0, _, _, _ => .hang
  | fuel + 1, size, duration, stop =>
    match samples[stop]? with
    | none => .panic
    | some s =>
      let size := add64 size s.size
      let duration := add64 duration s.timeDelta
      if timeDelta ≤ duration ∨ stop + 1 = samples.length then .ok (size, duration, stop + 1)
      else growLoop samples timeDelta fuel size duration (stop + 1)

/-- the second inner loop, probe.go:646-653: size, duration, begin -/
def shrinkLoop (samples : List Sample) (timeDelta : Nat) : Nat → Nat → Nat → Nat → Out (Nat × Nat × Nat)
  | 0, _, _, _ => .hang
  | fuel + 1, size, duration, start =>
    match samples[start]? with
    | none => .panic
    | some s =>
      let size := sub64 size s.size
      let duration := sub64 duration s.timeDelta
      if duration < timeDelta then .ok (size, duration, start + 1)
      else shrinkLoop samples timeDelta fuel size duration (start + 1)

/-- the outer loop of `Samples.GetMaxBitrate`, probe.go:633-654 -/
def maxLoop (samples : List Sample) (timescale timeDelta inner : Nat) : Nat → Nat → Nat → Nat → Nat → Nat → Out Nat
  | 0, _, _, _, _, _ => .hang
  | fuel + 1, best, size, duration, start, stop =>
    if stop < samples.length then
      match growLoop samples timeDelta inner size duration stop with
      | .ok (size, duration, stop) =>
        match rate size timescale duration with
        | none => .panic
        | some r =>
          let best := if best < r then r else best
          match shrinkLoop samples timeDelta inner size duration start with
          | .ok (size, duration, start) => maxLoop samples timescale timeDelta inner fuel best size duration start stop
          | .err e => .err e
          | .panic => .panic
          | .hang => .hang
      | .err e => .err e
      | .panic => .panic
      | .hang => .hang
    else .ok best

/-- `Samples.GetMaxBitrate`, probe.go:624-656; `fuel` bounds the rounds of each of the loops -/
def samplesMaxBitrate (samples : List Sample) (timescale timeDelta fuel : Nat) : Out Nat :=
  if timeDelta = 0 then .ok 0 else maxLoop samples timescale timeDelta fuel fuel 0 0 0 0 0

/-- `Segments.GetBitrate`, probe.go:658-671 -/
def segmentsBitrate (segments : List Segment) (trackID timescale : Nat) : Nat :=
  let l := segments.filter fun s => s.trackID == trackID
  let size := sum64 (l.map (·.size))
  let duration := sum64 (l.map (·.duration))
  if duration = 0 then 0 else mul64 (mul64 8 size) timescale / duration

/-- `Segments.GetMaxBitrate`, probe.go:673-684 -/
def segmentsMaxBitrate (trackID timescale : Nat) : List Segment → Nat → Nat
  | [], best => best
  | s :: l, best =>
    if s.trackID = trackID ∧ s.duration ≠ 0 then
      let r := mul64 (mul64 8 s.size) timescale / s.duration
      segmentsMaxBitrate trackID timescale l (if best < r then r else best)
    else segmentsMaxBitrate trackID timescale l best

end Mp4
