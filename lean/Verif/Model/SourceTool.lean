import Verif.Model.SourceRead
import Verif.Model.Tool

/-!
# `mp4tool dump`, `psshdump`, `probe` and `extract` on any `io.ReadSeeker`

The commands hand the file to package `bufseekio` (not part of the repository), which delivers its bytes in blocks.  In
`Model/Tool` they read from memory; here the source is arbitrary.
-/

namespace Mp4.Src

open Mp4 Mp4.Tool

variable {σ : Type}

/-- `dump`, cmd/mp4tool/internal/dump/dump.go:95-178: the outcome, and the lines printed -/
def dump (k : Rdr σ) (cfg : DumpCfg) (fuel : Nat) (t : σ) : Out Unit × List Str.Text :=
  match readBoxStructure k BoxMap.std (dumpTool cfg) fuel () ⟨t, ⟨[], false⟩, []⟩ with
  | (.ok _, s) => (.ok (), s.user.lines)
  | (.err e, s) => (if s.user.stop then .panic else .err e, s.user.lines)
  | (.panic, s) => (.panic, s.user.lines)
  | (.hang, s) => (.hang, s.user.lines)

/-- one round of the loop, cmd/mp4tool/internal/psshdump/psshdump.go:43-70 -/
def psshOne (k : Rdr σ) (i : Nat) (bi : BoxInfo) (v : BoxVal) : M σ PsshEntry :=
  match v.assert "Pssh" with
  | none => M.panic
  | some sv => do
    let _ ← seekStart k.src bi.offset
    if maxAlloc < bi.size then M.panic
    else do
      let raw ← readFullS k bi.size
      pure ⟨i, bi.offset, bi.size, sv.version, (flagBytes sv).flatMap (Str.hexPad 2), sysidText 0 (sv.byteArr "SystemID"),
        sv.int "DataSize", base64 raw⟩

/-- the loop, psshdump.go:43-70 -/
def psshLoop (k : Rdr σ) : Nat → List (BoxInfo × BoxVal) → M σ (List PsshEntry)
  | _, [] => pure []
  | i, (bi, v) :: l => do
    let e ← psshOne k i bi v
    let es ← psshLoop k (i + 1) l
    pure (e :: es)

/-- `dump`, psshdump.go:26-73 -/
def psshdump (k : Rdr σ) (m : BoxMap) (fuel : Nat) : M σ (List PsshEntry) := do
  let bs ← extractBoxesWithPayload k m fuel none psshPaths
  psshLoop k 0 bs

/-- one round of the loop over the tracks, cmd/mp4tool/internal/probe/probe.go:104-152 -/
def trackReport (k : Rdr σ) (fuel : Nat) (info : ProbeInfo) (tr : Track) : M σ TrackReport := do
  let rates ← ofOut (bitrates info tr fuel)
  match tr.codec with
  | .avc1 => do
    let idxs ← findIDRFrames k fuel tr
    pure (avcReport (baseReport tr rates) (idxs.getD []).length tr.avc)
  | .mp4a => pure { baseReport tr rates with codec := mp4aText tr.mp4a }
  | .unknown => pure (baseReport tr rates)

/-- the loop over the tracks, probe.go:104-152 -/
def trackReports (k : Rdr σ) (fuel : Nat) (info : ProbeInfo) : List Track → M σ (List TrackReport)
  | [] => pure []
  | tr :: l => do
    let r ← trackReport k fuel info tr
    let rs ← trackReports k fuel info l
    pure (r :: rs)

/-- `buildReport`, probe.go:85-154 -/
def buildReport (k : Rdr σ) (m : BoxMap) (fuel : Nat) : M σ Report := do
  let info ← probe k m fuel
  let tracks ← trackReports k fuel info info.tracks
  pure ⟨info.majorBrand, info.minorVersion, info.compatibleBrands, info.fastStart, info.timescale, info.duration, tracks⟩

/-- `Main` with `-format json`, probe.go:36-54: the report printed -/
def probeJson (k : Rdr σ) (m : BoxMap) (fuel : Nat) : M σ Report := do
  let r ← buildReport k m fuel
  if r.finite then pure r else M.fail (.msg "json: unsupported value")

/-! ## extract.go -/

variable {S P V : Type}

/-- the loop of `io.CopyN(os.Stdout, r, n)` with `need` bytes missing: what has been written, and the error -/
def copyOut (k : Source σ) (ask : Nat → Nat) : Nat → Nat → Bytes → M σ (Bytes × Option Err)
  | fuel, need, got => fun t =>
    if need = 0 then (.ok (got, none), t)
    else
      match fuel with
      | 0 => (.hang, t)
      | fuel + 1 =>
        match k.read (ask need) t with
        | ((b, none), t) => copyOut k ask fuel (need - b.length) (got ++ b) t
        | ((b, some e), t) => (.ok (got ++ b, if need ≤ b.length then none else some e), t)

/-- What a handler does with its box, its path and its parameter, given what `Expand` does with the children; it may use the source itself. -/
abbrev Act (σ S P V : Type) := BoxInfo → List BoxType → P → (Nat → P → M (TS σ S V) (List V)) → M (TS σ S V) V

/-- `readBoxStructureFromInternal`, read.go:48-155, for such a handler -/
def fromInternalAct (k : Rdr σ) (m : BoxMap) (act : Act σ S P V)
    (rec : BoxInfo → Nat → List BoxType → Ctx → P → M (TS σ S V) (List V))
    (parent : Option BoxInfo) (bi : BoxInfo) (path : List BoxType) (p : P) : M (TS σ S V) (V × BoxInfo) := do
  let _ ← liftT (seekToPayload k bi)
  let bi ← liftT (checkFtyp k m path bi)
  let bi ← liftT (checkKeys k m bi)
  let newPath := path ++ [bi.type]
  emit (.enter parent newPath bi)
  let r ← tryM (act bi newPath p fun co p => rec bi (sub64 (add64 bi.offset bi.size) co) newPath (childCtx bi) p)
  emit (.leave parent newPath bi r)
  let v ← ofExcept r
  let _ ← liftT (seekToEnd k bi)
  pure (v, bi)

/-- `readBoxStructure`, read.go:157-199, for such a handler -/
def readStructureAct (k : Rdr σ) (m : BoxMap) (act : Act σ S P V) :
    Nat → Option BoxInfo → Nat → Bool → List BoxType → Ctx → P → M (TS σ S V) (List V)
  | 0, _, _, _, _, _, _ => M.hang
  | fuel + 1, parent, total, isRoot, path, ctx, p =>
    if isRoot ∨ smallHeaderSize ≤ total then do
      match ← tryM (liftT (readBoxInfo k)) with
      | .error e => if isRoot ∧ e = .eof then pure [] else M.fail e
      | .ok bi =>
        if ¬ isRoot ∧ total < bi.size then M.fail .tooLargeBoxSize
        else do
          let (v, bi) ← fromInternalAct k m act
            (fun par total path ctx p => readStructureAct k m act fuel (some par) total false path ctx p)
            parent { bi with ctx := ctx } path p
          let vs ← readStructureAct k m act fuel parent (sub64 total bi.size) isRoot path (nextCtx ctx bi) p
          pure (v :: vs)
    else if total ≠ 0 ∧ ¬ ctx.isQuickTimeCompatible then M.fail .unexpectedEndOfBox
    else pure []

/-- The handler of `extract`, cmd/mp4tool/internal/extract/extract.go:57-75; its variable is what has been written to standard output.  (As in
`Model/Tool`, offsets are not negative.) -/
def extractAct (k : Rdr σ) (t : BoxType) : Act σ Bytes Unit Unit := fun bi path _ children =>
  if bi.type = t then do
    let _ ← liftT (seeking (k.src.seek bi.offset))
    let (b, e) ← liftT (copyOut k.src k.ask ((int64 bi.size).toNat + k.fuel) (int64 bi.size).toNat [])
    M.modify fun st => { st with user := st.user ++ b }
    match e with
    | some e => M.fail e
    | none => runProg k BoxMap.std path bi children (descend bi) 0
  else runProg k BoxMap.std path bi children (descend bi) 0

/-- `extract`, extract.go:56-77: the outcome, and what has been written to standard output -/
def extract (k : Rdr σ) (t : BoxType) (fuel : Nat) (st : σ) : Out Unit × Bytes :=
  match (do let _ ← liftT (seekStart k.src 0); readStructureAct k BoxMap.std (extractAct k t) fuel none 0 true [] {} () : M (TS σ Bytes Unit) (List Unit))
      ⟨st, [], []⟩ with
  | (.ok _, s) => (.ok (), s.user)
  | (.err e, s) => (.err e, s.user)
  | (.panic, s) => (.panic, s.user)
  | (.hang, s) => (.hang, s.user)

end Mp4.Src
