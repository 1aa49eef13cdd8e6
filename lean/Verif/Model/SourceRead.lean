import Verif.Model.Source
import Verif.Model.Probe

/-!
# Traversal, extraction and `Probe` of a file behind an `io.ReadSeeker`

The functions of `Model/Read`, `Model/Extract` and `Model/Probe` once more, on a source instead of a slice of bytes in memory.
-/

namespace Mp4.Src

open Mp4

variable {σ S P V : Type}

/-! ## read.go -/

/-- State of a traversal: the source, the variables of the handler, the record (newest last). -/
structure TS (σ S V : Type) where
  src : σ
  user : S
  log : List (Ev V)

/-- use the source -/
def liftT {α : Type} (m : M σ α) : M (TS σ S V) α := fun s =>
  match m s.src with
  | (x, t) => (x, { s with src := t })

/-- record an event -/
def emit (e : Ev V) : M (TS σ S V) Unit := M.modify fun s => { s with log := s.log ++ [e] }

/-- `BoxInfo.SeekToPayload`, box_info.go:156-158 -/
def seekToPayload (k : Rdr σ) (bi : BoxInfo) : M σ Nat := seekStart k.src (add64 bi.offset bi.headerSize)
/-- `BoxInfo.SeekToEnd`, box_info.go:160-162 -/
def seekToEnd (k : Rdr σ) (bi : BoxInfo) : M σ Nat := seekStart k.src (add64 bi.offset bi.size)

/-- `bi.SeekToPayload(r)`, then `UnmarshalAny(r, bi.Type, bi.Size-bi.HeaderSize, bi.Context)`, read.go:103-107,
130-134 -/
def readPayload (k : Rdr σ) (m : BoxMap) (bi : BoxInfo) : M σ (BoxVal × Nat) := do
  let _ ← seekToPayload k bi
  unmarshalAny k m bi.type (sub64 bi.size bi.headerSize) bi.ctx

/-- read.go:52-64 -/
def checkFtyp (k : Rdr σ) (m : BoxMap) (path : List BoxType) (bi : BoxInfo) : M σ BoxInfo :=
  if path.length = 0 ∧ bi.type = tFtyp then do
    let (box, _) ← unmarshalAny k m tFtyp (sub64 bi.size bi.headerSize) bi.ctx
    let bi' := if (ftypBrands box.sv).has brandQT then
      { bi with ctx := { bi.ctx with isQuickTimeCompatible := true } } else bi
    let _ ← seekToPayload k bi'
    pure bi'
  else pure bi

/-- read.go:66-76 -/
def checkKeys (k : Rdr σ) (m : BoxMap) (bi : BoxInfo) : M σ BoxInfo :=
  if bi.type = tKeys then do
    let (box, _) ← unmarshalAny k m tKeys (sub64 bi.size bi.headerSize) bi.ctx
    let bi' := { bi with ctx := { bi.ctx with quickTimeKeysMetaEntryCount := box.sv.int "EntryCount" } }
    let _ ← seekToPayload k bi'
    pure bi'
  else pure bi

/-- `h.ReadData(w)`, read.go:115-125, for a destination that takes everything.  The bytes that it received when copying fails are
not represented. -/
def readData (k : Rdr σ) (bi : BoxInfo) : M σ (Nat × Bytes) := do
  let _ ← seekToPayload k bi
  let b ← copyNS k (sub64 bi.size bi.headerSize)
  pure (sub64 bi.size bi.headerSize, b)

/-- the beginning of `Expand`, read.go:128-144 -/
def expandStart (k : Rdr σ) (m : BoxMap) (bi : BoxInfo) (co : Nat) : M σ Nat :=
  if co = 0 then do
    let (_, n) ← readPayload k m bi
    pure (add64 (add64 bi.offset bi.headerSize) n)
  else do
    let _ ← seekStart k.src co
    pure co

/-- Run the program of a handler, read.go:93-151.  A handler that moves the stream itself asks for the position and seeks, and returns the
error if that fails. -/
def runProg (k : Rdr σ) (m : BoxMap) (path : List BoxType) (bi : BoxInfo)
    (children : Nat → P → M (TS σ S V) (List V)) : Prog S P V → Nat → M (TS σ S V) V
  | .ret v, _ => pure v
  | .err e, _ => M.fail e
  | .get g, co => do
    let s ← M.get
    runProg k m path bi children (g s.user) co
  | .set s g, co => do
    M.modify fun st => { st with user := s }
    runProg k m path bi children g co
  | .stream mv g, co => do
    let p ← liftT (seeking k.src.tell)
    let _ ← liftT (seeking (k.src.seek (mv p)))
    runProg k m path bi children (g p) co
  | .readPayload g, co => do
    match ← tryM (liftT (readPayload k m bi)) with
    | .ok (box, n) => runProg k m path bi children (g (.ok (box, n))) (add64 (add64 bi.offset bi.headerSize) n)
    | .error e => runProg k m path bi children (g (.error e)) co
  | .readData _ g, co => do
    match ← tryM (liftT (readData k bi)) with
    | .ok (n, b) => runProg k m path bi children (g (.ok n) b) co
    | .error e => runProg k m path bi children (g (.error e) []) co
  | .expand p g, co => do
    match ← tryM (liftT (expandStart k m bi co)) with
    | .error e => runProg k m path bi children (g (.error e)) co
    | .ok co' => do
      emit (.openBox path bi co')
      let r ← tryM (children co' p)
      emit (.closeBox path bi r)
      runProg k m path bi children (g r) co'

/-- `readBoxStructureFromInternal`, read.go:48-155 -/
def fromInternal (k : Rdr σ) (m : BoxMap) (h : Handler S P V)
    (rec : BoxInfo → Nat → List BoxType → Ctx → P → M (TS σ S V) (List V))
    (parent : Option BoxInfo) (bi : BoxInfo) (path : List BoxType) (p : P) : M (TS σ S V) (V × BoxInfo) := do
  let _ ← liftT (seekToPayload k bi)
  let bi ← liftT (checkFtyp k m path bi)
  let bi ← liftT (checkKeys k m bi)
  let newPath := path ++ [bi.type]
  emit (.enter parent newPath bi)
  let r ← tryM (runProg k m newPath bi
    (fun co p => rec bi (sub64 (add64 bi.offset bi.size) co) newPath (childCtx bi) p)
    (h ⟨p, bi, newPath⟩) 0)
  emit (.leave parent newPath bi r)
  let v ← ofExcept r
  let _ ← liftT (seekToEnd k bi)
  pure (v, bi)

/-- `readBoxStructure`, read.go:157-199 -/
def readStructure (k : Rdr σ) (m : BoxMap) (h : Handler S P V) :
    Nat → Option BoxInfo → Nat → Bool → List BoxType → Ctx → P → M (TS σ S V) (List V)
  | 0, _, _, _, _, _, _ => M.hang
  | fuel + 1, parent, total, isRoot, path, ctx, p =>
    if isRoot ∨ smallHeaderSize ≤ total then do
      match ← tryM (liftT (readBoxInfo k)) with
      | .error e => if isRoot ∧ e = .eof then pure [] else M.fail e
      | .ok bi =>
        if ¬ isRoot ∧ total < bi.size then M.fail .tooLargeBoxSize
        else do
          let (v, bi) ← fromInternal k m h
            (fun par total path ctx p => readStructure k m h fuel (some par) total false path ctx p)
            parent { bi with ctx := ctx } path p
          let vs ← readStructure k m h fuel parent (sub64 total bi.size) isRoot path (nextCtx ctx bi) p
          pure (v :: vs)
    else if total ≠ 0 ∧ ¬ ctx.isQuickTimeCompatible then M.fail .unexpectedEndOfBox
    else pure []

/-- `ReadBoxStructure`, read.go:37-42 -/
def readBoxStructure (k : Rdr σ) (m : BoxMap) (h : Handler S P V) (fuel : Nat) (p : P) : M (TS σ S V) (List V) := do
  let _ ← liftT (seekStart k.src 0)
  readStructure k m h fuel none 0 true [] {} p

/-- `ReadBoxStructureFromInternal`, read.go:44-46 -/
def readBoxStructureFrom (k : Rdr σ) (m : BoxMap) (h : Handler S P V) (fuel : Nat) (bi : BoxInfo) (p : P) :
    M (TS σ S V) (V × BoxInfo) :=
  fromInternal k m h (fun par total path ctx p => readStructure k m h fuel (some par) total false path ctx p)
    none bi [] p

/-! ## extract.go -/

/-- `ExtractBoxes`, extract.go:49-89 -/
def extractBoxes (k : Rdr σ) (m : BoxMap) (fuel : Nat) (parent : Option BoxInfo) (paths : List (List BoxType)) :
    M σ (List BoxInfo × Option BoxInfo) := fun t =>
  if paths = [] then (.ok ([], parent), t)
  else if paths.any (fun q => q.length == 0) then (.err .emptyPath, t)
  else
    match parent with
    | some bi =>
      match readBoxStructureFrom k m (extractHandler true paths) fuel bi () ⟨t, [], []⟩ with
      | (.ok (_, bi'), st) => (.ok (st.user, some bi'), st.src)
      | (.err e, st) => (.err e, st.src)
      | (.panic, st) => (.panic, st.src)
      | (.hang, st) => (.hang, st.src)
    | none =>
      match readBoxStructure k m (extractHandler false paths) fuel () ⟨t, [], []⟩ with
      | (.ok _, st) => (.ok (st.user, none), st.src)
      | (.err e, st) => (.err e, st.src)
      | (.panic, st) => (.panic, st.src)
      | (.hang, st) => (.hang, st.src)

/-- the loop of `ExtractBoxesWithPayload`, extract.go:24-41 -/
def decodeAll (k : Rdr σ) (m : BoxMap) (ctx : Ctx) : List BoxInfo → M σ (List (BoxInfo × BoxVal))
  | [] => pure []
  | bi :: bis => do
    let _ ← seekToPayload k bi
    let (box, _) ← unmarshalAny k m bi.type (sub64 bi.size bi.headerSize) ctx
    let rest ← decodeAll k m ctx bis
    pure ((bi, box) :: rest)

/-- `ExtractBoxesWithPayload`, extract.go:17-43 -/
def extractBoxesWithPayload (k : Rdr σ) (m : BoxMap) (fuel : Nat) (parent : Option BoxInfo) (paths : List (List BoxType)) :
    M σ (List (BoxInfo × BoxVal)) := do
  let (bis, parent) ← extractBoxes k m fuel parent paths
  decodeAll k m (match parent with | some bi => bi.ctx | none => {}) bis

/-! ## probe.go -/

/-- `probeTrak`, probe.go:181-368 -/
def probeTrak (k : Rdr σ) (m : BoxMap) (fuel : Nat) (bi : BoxInfo) : M σ Track := do
  let bips ← extractBoxesWithPayload k m fuel (some bi) trakPaths
  let f ← orPanic (collect {} bips)
  ofOut (trackOf f)

/-- `probeMoof`, probe.go:489-567 -/
def probeMoof (k : Rdr σ) (m : BoxMap) (fuel : Nat) (bi : BoxInfo) : M σ Segment := do
  let bips ← extractBoxesWithPayload k m fuel (some bi) moofPaths
  let f ← orPanic (collectFrag {} bips)
  ofOut (segmentOf bi.offset f)

/-- `bi.SeekToPayload(r)`, then `Unmarshal(r, bi.Size-bi.HeaderSize, &box, bi.Context)`, probe.go:127-132, 143-148 -/
def unmarshalAt (k : Rdr σ) (bd : BoxDef) (bi : BoxInfo) : M σ SV := do
  let _ ← seekToPayload k bi
  let (_, sv) ← unmarshalBox k bd bi.ctx (sub64 bi.size bi.headerSize) bd.fields.zero
  pure sv

/-- one round of the loop of `Probe`, probe.go:124-170 -/
def probeOne (k : Rdr σ) (m : BoxMap) (fuel : Nat) (bi : BoxInfo) (seen : Bool) (info : ProbeInfo) : M σ (Bool × ProbeInfo) :=
  if bi.type = tFtyp then do
    let ftyp ← unmarshalAt k Cat.bdFtyp bi
    pure (seen, { info with
      majorBrand := ftyp.byteArr "MajorBrand"
      minorVersion := ftyp.uint "MinorVersion"
      compatibleBrands := (ftyp.structs "CompatibleBrands").map (·.byteArr "CompatibleBrand") })
  else if bi.type = tMoov then pure (seen, { info with fastStart := !seen })
  else if bi.type = tMvhd then do
    let mvhd ← unmarshalAt k Cat.bdMvhd bi
    pure (seen, { info with
      timescale := mvhd.uint "Timescale"
      duration := if mvhd.version = 0 then mvhd.uint "DurationV0" else mvhd.uint "DurationV1" })
  else if bi.type = tTrak then do
    let t ← probeTrak k m fuel bi
    pure (seen, { info with tracks := info.tracks ++ [t] })
  else if bi.type = tMoof then do
    let s ← probeMoof k m fuel bi
    pure (seen, { info with segments := info.segments ++ [s] })
  else if bi.type = tMdat then pure (true, info)
  else pure (seen, info)

/-- the loop of `Probe`, probe.go:123-171 -/
def probeLoop (k : Rdr σ) (m : BoxMap) (fuel : Nat) : List BoxInfo → Bool → ProbeInfo → M σ ProbeInfo
  | [], _, info => pure info
  | bi :: bis, seen, info => do
    let (seen, info) ← probeOne k m fuel bi seen info
    probeLoop k m fuel bis seen info

/-- `Probe`, probe.go:106-172 -/
def probe (k : Rdr σ) (m : BoxMap) (fuel : Nat) : M σ ProbeInfo := do
  let (bis, _) ← extractBoxes k m fuel none probePaths
  probeLoop k m fuel bis false {}

/-- the loop over the NAL units of a sample, probe.go:585-605 -/
def nalLoop (k : Rdr σ) (lengthSize size dataOffset : Nat) : Nat → Nat → M σ Bool
  | 0, _ => M.hang
  | fuel + 1, nalOffset =>
    if add32 (add32 nalOffset lengthSize) 1 ≤ size then do
      let _ ← seekStart k.src (add64 dataOffset nalOffset)
      let data ← readFullS k (lengthSize + 1)
      let length := beNat (data.take lengthSize) % U32
      if byteAt data lengthSize % 32 = 5 then pure true
      else nalLoop k lengthSize size dataOffset fuel (add32 nalOffset (add32 lengthSize length))
    else pure false

/-- the loop over the samples of a chunk, probe.go:580-607 -/
def chunkLoop (k : Rdr σ) (fuel lengthSize stop : Nat) : List Sample → Nat → Nat → List Nat → M σ (Nat × List Nat)
  | [], si, _, idxs => pure (si, idxs)
  | s :: l, si, dataOffset, idxs =>
    if si < stop then
      if s.size = 0 then chunkLoop k fuel lengthSize stop l (si + 1) dataOffset idxs
      else do
        let idr ← nalLoop k lengthSize s.size dataOffset fuel 0
        chunkLoop k fuel lengthSize stop l (si + 1) (add64 dataOffset s.size) (if idr then idxs ++ [si] else idxs)
    else pure (si, idxs)

/-- the loop over the chunks, probe.go:577-608 -/
def chunksLoop (k : Rdr σ) (fuel lengthSize : Nat) (samples : List Sample) : List Chunk → Nat → List Nat → M σ (List Nat)
  | [], _, idxs => pure idxs
  | c :: l, si, idxs => do
    let (si, idxs) ← chunkLoop k fuel lengthSize (si + c.samplesPerChunk) (samples.drop si) si c.dataOffset idxs
    chunksLoop k fuel lengthSize samples l si idxs

/-- `FindIDRFrames`, probe.go:569-609 -/
def findIDRFrames (k : Rdr σ) (fuel : Nat) (t : Track) : M σ (Option (List Nat)) :=
  match t.avc with
  | none => pure none
  | some avc => do
    let idxs ← chunksLoop k fuel avc.lengthSize t.samples t.chunks 0 []
    pure (some idxs)

end Mp4.Src
