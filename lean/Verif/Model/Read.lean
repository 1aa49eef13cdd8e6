import Verif.Model.Registry

/-!
# read.go: traversal of the box structure

The reader is a `bytes.Reader` over `d`; its state is the position.  Handlers are user code.
A handler is a function from its handle to a *program* (`Prog`): a finite tree of the things a handler can do
before it returns.  What it does may depend on everything it has seen so far and on variables shared by all calls of the
handler (`S`).  Since theorems quantify over all handlers for a given `d`, handlers may also
depend on the contents of the file in any way.
-/

namespace Mp4

/-- `ReadHandle`, read.go:26-33, without the three functions, which are the operations of `Prog`. -/
structure Handle (P : Type) where
  params : P
  info : BoxInfo
  path : List BoxType

/-- The destination of `ReadData`: how many bytes it takes before it fails (`none`: any number), and
how far the reader is when it fails. -/
structure Dest where
  cap : Option Nat
  pos : Nat

/-- What a handler does.  `S`: variables of the handler; `P`: parameters; `V`: values returned. -/
inductive Prog (S P V : Type) where
  /-- `return v, nil` -/
  | ret (v : V)
  /-- `return nil, e` -/
  | err (e : Err)
  /-- look at the variables -/
  | get (k : S → Prog S P V)
  /-- change the variables -/
  | set (s : S) (k : Prog S P V)
  /-- read or seek the stream directly: the new position is any function of the old one -/
  | stream (move : Nat → Nat) (k : Nat → Prog S P V)
  /-- `h.ReadPayload()` -/
  | readPayload (k : Except Err (BoxVal × Nat) → Prog S P V)
  /-- `h.ReadData(w)`: the continuation sees the result and the bytes that `w` received -/
  | readData (w : Dest) (k : Except Err Nat → Bytes → Prog S P V)
  /-- `h.Expand(p)` -/
  | expand (p : P) (k : Except Err (List V) → Prog S P V)

/-- `ReadHandler`, read.go:35 -/
abbrev Handler (S P V : Type) := Handle P → Prog S P V

/-- What happens during a traversal.  Not part of the code: the record lets theorems speak about the calls
of the handler and what they returned. -/
inductive Ev (V : Type) where
  /-- the handler is called for a box; `parent` is the box being expanded -/
  | enter (parent : Option BoxInfo) (path : List BoxType) (bi : BoxInfo)
  /-- the handler has returned -/
  | leave (parent : Option BoxInfo) (path : List BoxType) (bi : BoxInfo) (r : Except Err V)
  /-- `Expand` begins to read children at `start` -/
  | openBox (path : List BoxType) (bi : BoxInfo) (start : Nat)
  /-- `Expand` returns -/
  | closeBox (path : List BoxType) (bi : BoxInfo) (r : Except Err (List V))

/-- State of a traversal: position of the stream, variables of the handler, record (newest last). -/
structure TSt (S V : Type) where
  pos : Nat
  user : S
  log : List (Ev V)

/-- Computations during a traversal. -/
abbrev TM (S V : Type) := M (TSt S V)

variable {S P V : Type}

/-- use the stream -/
def liftP {α : Type} (m : PM α) : TM S V α := fun s =>
  match m s.pos with
  | (x, p) => (x, { s with pos := p })

/-- record an event -/
def emit (e : Ev V) : TM S V Unit := M.modify fun s => { s with log := s.log ++ [e] }

/-- run and hand an error to the caller as a value -/
def tryM {σ α : Type} (m : M σ α) : M σ (Except Err α) := fun s =>
  match m s with
  | (.ok a, s') => (.ok (.ok a), s')
  | (.err e, s') => (.ok (.error e), s')
  | (.panic, s') => (.panic, s')
  | (.hang, s') => (.hang, s')

/-- An `Except` as the result of a function. -/
def ofExcept {σ α : Type} : Except Err α → M σ α
  | .ok a => pure a
  | .error e => M.fail e

/-- `BoxTypeFtyp()` etc. -/
def tFtyp : BoxType := ⟨0x66, 0x74, 0x79, 0x70⟩
/-- "keys" -/
def tKeys : BoxType := ⟨0x6b, 0x65, 0x79, 0x73⟩
/-- "wave" -/
def tWave : BoxType := ⟨0x77, 0x61, 0x76, 0x65⟩
/-- "ilst" -/
def tIlst : BoxType := ⟨0x69, 0x6c, 0x73, 0x74⟩
/-- "udta" -/
def tUdta : BoxType := ⟨0x75, 0x64, 0x74, 0x61⟩
/-- "----" -/
def tFree : BoxType := ⟨0x2d, 0x2d, 0x2d, 0x2d⟩
/-- `BrandQT()`, box_types_iso14496_12.go:543 -/
def brandQT : BoxType := ⟨0x71, 0x74, 0x20, 0x20⟩

/-- `ilstMetaBoxTypes`, box_types_metadata.go:14-61: the types registered for `IlstMetaContainer` (75-77) -/
def ilstMetaTypes : List BoxType :=
  (Cat.registry.filter (fun r => r.2.goName == "IlstMetaContainer")).map (·.1)

/-- `IsIlstMetaBoxType`, box_types_metadata.go:63-70 -/
def isIlstMetaType (t : BoxType) : Bool := ilstMetaTypes.any (fun x => decide (t = x))

/-- `bi.SeekToPayload(r)`, then `UnmarshalAny(r, bi.Type, bi.Size-bi.HeaderSize, bi.Context)`, read.go:103-107,
130-134 -/
def readPayloadP (m : BoxMap) (d : Bytes) (bi : BoxInfo) : PM (BoxVal × Nat) := do
  let _ ← bi.seekToPayload
  m.unmarshalAny d bi.type (sub64 bi.size bi.headerSize) bi.ctx

/-- The brands of a decoded `ftyp` (`CompatibleBrands`, an array of four bytes each). -/
def ftypBrands (sv : SV) : Brands :=
  match sv.get "CompatibleBrands" with
  | some (.slice l) => l.map fun v =>
      match v with
      | .struct e =>
        match SV.byteArr e "CompatibleBrand" with
        | [a, b, c, x] => ⟨BitVec.ofNat 8 a, BitVec.ofNat 8 b, BitVec.ofNat 8 c, BitVec.ofNat 8 x⟩
        | _ => BoxType.any
      | _ => BoxType.any
  | _ => []

/-- read.go:52-64: a root `ftyp` box may switch on QuickTime compatibility -/
def checkFtyp (m : BoxMap) (d : Bytes) (path : List BoxType) (bi : BoxInfo) : PM BoxInfo :=
  if path.length = 0 ∧ bi.type = tFtyp then do
    let (box, _) ← m.unmarshalAny d tFtyp (sub64 bi.size bi.headerSize) bi.ctx
    let bi' := if (ftypBrands box.sv).has brandQT then
      { bi with ctx := { bi.ctx with isQuickTimeCompatible := true } } else bi
    let _ ← bi'.seekToPayload
    pure bi'
  else pure bi

/-- read.go:66-76: the number of keys -/
def checkKeys (m : BoxMap) (d : Bytes) (bi : BoxInfo) : PM BoxInfo :=
  if bi.type = tKeys then do
    let (box, _) ← m.unmarshalAny d tKeys (sub64 bi.size bi.headerSize) bi.ctx
    let bi' := { bi with ctx := { bi.ctx with quickTimeKeysMetaEntryCount := box.sv.int "EntryCount" } }
    let _ ← bi'.seekToPayload
    pure bi'
  else pure bi

/-- The context of the children, read.go:78-90. -/
def childCtx (bi : BoxInfo) : Ctx :=
  if bi.type = tWave then { bi.ctx with underWave := true }
  else if bi.type = tIlst then { bi.ctx with underIlst := true }
  else if bi.ctx.underIlst ∧ ¬ bi.ctx.underIlstMeta ∧ isIlstMetaType bi.type then
    if bi.type = tFree then { bi.ctx with underIlstMeta := true, underIlstFreeMeta := true }
    else { bi.ctx with underIlstMeta := true }
  else if bi.type = tUdta then { bi.ctx with underUdta := true }
  else bi.ctx

/-- `h.ReadData(w)`, read.go:115-125; the bytes that `w` received are returned beside the result.  When `w` fails, the
position of the reader depends on the buffering of `io.Copy`; it is given by the destination. -/
def readDataP (d : Bytes) (bi : BoxInfo) (w : Dest) : PM (Except Err Nat × Bytes) := fun pos =>
  match bi.seekToPayload pos with
  | (.err e, p) => (.ok (.error e, []), p)
  | (.panic, p) => (.panic, p)
  | (.hang, p) => (.hang, p)
  | (.ok _, p) =>
    let size := sub64 bi.size bi.headerSize
    let avail := (d.drop p).take size
    match w.cap with
    | some c =>
      if size < 2 ^ 63 ∧ c < avail.length then (.ok (.error .sink, avail.take c), w.pos)
      else
        match copyNP d size p with
        | (.ok b, p') => (.ok (.ok size, b), p')
        | (.err e, p') => (.ok (.error e, avail), p')
        | (.panic, p') => (.panic, p')
        | (.hang, p') => (.hang, p')
    | none =>
      match copyNP d size p with
      | (.ok b, p') => (.ok (.ok size, b), p')
      | (.err e, p') => (.ok (.error e, avail), p')
      | (.panic, p') => (.panic, p')
      | (.hang, p') => (.hang, p')

/-- The beginning of `Expand`, read.go:128-144: the stream is moved to the children; the new value of `childrenOffset`
is returned. -/
def expandStart (m : BoxMap) (d : Bytes) (bi : BoxInfo) (co : Nat) : PM Nat :=
  if co = 0 then do
    let (_, n) ← readPayloadP m d bi
    pure (add64 (add64 bi.offset bi.headerSize) n)
  else do
    let _ ← seekStartP co
    pure co

/-- Run the program of a handler.  `children start p` reads the children of the box from the current position;
`co` is the variable `childrenOffset`, read.go:101. -/
def runProg (m : BoxMap) (d : Bytes) (path : List BoxType) (bi : BoxInfo)
    (children : Nat → P → TM S V (List V)) : Prog S P V → Nat → TM S V V
  | .ret v, _ => pure v
  | .err e, _ => M.fail e
  | .get k, co => do
    let s ← M.get
    runProg m d path bi children (k s.user) co
  | .set s k, co => do
    M.modify fun st => { st with user := s }
    runProg m d path bi children k co
  | .stream mv k, co => do
    let s ← M.get
    M.modify fun st => { st with pos := mv st.pos }
    runProg m d path bi children (k s.pos) co
  | .readPayload k, co => do
    match ← tryM (liftP (readPayloadP m d bi)) with
    | .ok (box, n) => runProg m d path bi children (k (.ok (box, n))) (add64 (add64 bi.offset bi.headerSize) n)
    | .error e => runProg m d path bi children (k (.error e)) co
  | .readData w k, co => do
    let (r, b) ← liftP (readDataP d bi w)
    runProg m d path bi children (k r b) co
  | .expand p k, co => do
    match ← tryM (liftP (expandStart m d bi co)) with
    | .error e => runProg m d path bi children (k (.error e)) co
    | .ok co' => do
      emit (.openBox path bi co')
      let r ← tryM (children co' p)
      emit (.closeBox path bi r)
      runProg m d path bi children (k r) co'

/-- `readBoxStructureFromInternal`, read.go:48-155; `rec total path ctx p` is `readBoxStructure` for the children (not
root).  The box info is returned, too, because the function changes it through its pointer. -/
def fromInternal (m : BoxMap) (d : Bytes) (h : Handler S P V)
    (rec : BoxInfo → Nat → List BoxType → Ctx → P → TM S V (List V))
    (parent : Option BoxInfo) (bi : BoxInfo) (path : List BoxType) (p : P) : TM S V (V × BoxInfo) := do
  let _ ← liftP bi.seekToPayload
  let bi ← liftP (checkFtyp m d path bi)
  let bi ← liftP (checkKeys m d bi)
  let newPath := path ++ [bi.type]
  emit (.enter parent newPath bi)
  let r ← tryM (runProg m d newPath bi
    (fun co p => rec bi (sub64 (add64 bi.offset bi.size) co) newPath (childCtx bi) p)
    (h ⟨p, bi, newPath⟩) 0)
  emit (.leave parent newPath bi r)
  let v ← ofExcept r
  let _ ← liftP bi.seekToEnd
  pure (v, bi)

/-- The context of the following boxes, read.go:184-191. -/
def nextCtx (ctx : Ctx) (bi : BoxInfo) : Ctx :=
  let ctx := if bi.ctx.isQuickTimeCompatible then { ctx with isQuickTimeCompatible := true } else ctx
  if bi.type = tKeys then { ctx with quickTimeKeysMetaEntryCount := bi.ctx.quickTimeKeysMetaEntryCount } else ctx

/-- `readBoxStructure`, read.go:157-199.  `fuel` bounds nesting plus number of boxes in a row; when it is
used up the outcome is `hang`. -/
def readStructure (m : BoxMap) (d : Bytes) (h : Handler S P V) :
    Nat → Option BoxInfo → Nat → Bool → List BoxType → Ctx → P → TM S V (List V)
  | 0, _, _, _, _, _, _ => M.hang
  | fuel + 1, parent, total, isRoot, path, ctx, p =>
    if isRoot ∨ smallHeaderSize ≤ total then do
      match ← tryM (liftP (readBoxInfo d)) with
      | .error e => if isRoot ∧ e = .eof then pure [] else M.fail e
      | .ok bi =>
        if ¬ isRoot ∧ total < bi.size then M.fail .tooLargeBoxSize
        else do
          let (v, bi) ← fromInternal m d h
            (fun par total path ctx p => readStructure m d h fuel (some par) total false path ctx p)
            parent { bi with ctx := ctx } path p
          let vs ← readStructure m d h fuel parent (sub64 total bi.size) isRoot path (nextCtx ctx bi) p
          pure (v :: vs)
    else if total ≠ 0 ∧ ¬ ctx.isQuickTimeCompatible then M.fail .unexpectedEndOfBox
    else pure []

/-- `ReadBoxStructure`, read.go:37-42. -/
def readBoxStructure (m : BoxMap) (d : Bytes) (h : Handler S P V) (fuel : Nat) (p : P) : TM S V (List V) := do
  let _ ← liftP (seekStartP 0)
  readStructure m d h fuel none 0 true [] {} p

/-- `ReadBoxStructureFromInternal`, read.go:44-46. -/
def readBoxStructureFrom (m : BoxMap) (d : Bytes) (h : Handler S P V) (fuel : Nat) (bi : BoxInfo) (p : P) :
    TM S V (V × BoxInfo) :=
  fromInternal m d h (fun par total path ctx p => readStructure m d h fuel (some par) total false path ctx p)
    none bi [] p

end Mp4
