import Verif.Model.Read
import Verif.Model.Write
import Verif.Model.Probe

/-!
# cmd/mp4tool/internal/edit/edit.go: `mp4tool edit`

The input is read through a `bytes.Reader` (the command uses a buffered reader over a file), the output is another file, with a fault
schedule.  Opening and creating the files and the parsing of flags by package `flag` are not modelled.
-/

namespace Mp4.Edit

open Mp4

/-- `UNoValue`, edit.go:14 -/
def uNoValue : Nat := 2 ^ 64 - 1

/-- `strings.Split(s, ",")` -/
def splitComma : Bytes → List Bytes
  | [] => [[]]
  | x :: xs =>
    if x = 0x2c#8 then [] :: splitComma xs
    else match splitComma xs with
      | [] => [[x]]
      | w :: ws => (x :: w) :: ws

/-- `Config`, edit.go:31-34, with `Values`, edit.go:16-18 -/
structure Config where
  baseMediaDecodeTime : Nat
  dropBoxes : List Bytes

/-- The configuration for the options `-base_media_decode_time` and `-drop`, edit.go:40-41, 53. -/
def Config.ofOptions (time : Option Nat) (drop : Bytes) : Config := ⟨time.getD uNoValue, splitComma drop⟩

/-- `Boxes.Exists`, edit.go:22-29 -/
def exists_ (l : List Bytes) (s : Bytes) : Bool := l.any (fun t => decide (t = s))

/-- How a program ends other than by returning. -/
inductive Stop where
  | panic
  | hang
  deriving DecidableEq, Repr

/-- as an outcome -/
def Stop.out : Stop → Out Unit
  | .panic => .panic
  | .hang => .hang

/-- The variables of the handler: the writer; `stop` is set when the program ends by a panic (or does not end) inside
a call of the writer. -/
structure St where
  w : WrSt
  stop : Option Stop

/-- What a handler of `mp4tool edit` does. -/
abbrev EProg := Prog St Unit Unit

/-- Make a call of the writer; return its error if it fails.  `Prog` has no panics: a panic is noted and then handed on as an
error, which ends the program, too, because every caller returns the errors that it gets (edit.go:89-124). -/
def call (F : Faults) (o : WOp) (k : EProg) : EProg :=
  .get fun s =>
    match o.run F s.w with
    | (.ok _, w) => .set { s with w := w } k
    | (.err e, w) => .set { s with w := w } (.err e)
    | (.panic, w) => .set ⟨w, some .panic⟩ (.err .eof)
    | (.hang, w) => .set ⟨w, some .hang⟩ (.err .eof)

/-- edit.go:103-113; `none`: the panic of the type assertion -/
def editFields (cfg : Config) (t : BoxType) (box : BoxVal) : Option SV :=
  if t = tTfdt then
    (box.assert "Tfdt").map fun sv =>
      if cfg.baseMediaDecodeTime ≠ uNoValue then
        if sv.version = 0 then sv.set "BaseMediaDecodeTimeV0" (.uint (cfg.baseMediaDecodeTime % 2 ^ 32))
        else sv.set "BaseMediaDecodeTimeV1" (.uint cfg.baseMediaDecodeTime)
      else sv
  else some box.sv

/-- edit.go:114-124: write the payload, expand, rewrite the size.  The box definition that `Marshal` looks up is the one that `ReadPayload` used. -/
def finish (F : Faults) (ctx : Ctx) (bd : BoxDef) (sv : SV) : EProg :=
  call F (.marshal bd ctx sv) (.expand () fun r =>
    match r with
    | .error e => .err e
    | .ok _ => call F .close (.ret ()))

/-- edit.go:98-113: what was read -/
def withPayload (F : Faults) (cfg : Config) (bi : BoxInfo) : Except Err (BoxVal × Nat) → EProg
  | .error e => .err e
  | .ok (box, _) =>
    match editFields cfg bi.type box with
    | none => .get fun s => .set { s with stop := some .panic } (.err .eof)
    | some sv => finish F bi.ctx box.bd sv

/-- The handler, edit.go:81-125. -/
def handler (F : Faults) (d : Bytes) (cfg : Config) : Handler St Unit Unit := fun h =>
  if exists_ cfg.dropBoxes h.info.type.toStr then .ret ()
  else if !BoxMap.std.isSupported h.info.type h.info.ctx || h.info.type = tMdat then
    call F (.copy d h.info) (.stream (fun _ => h.info.offset + h.info.size) fun _ => .ret ())
  else call F (.start h.info) (.readPayload (withPayload F cfg h.info))

/-- `editFile`, edit.go:79-126: the outcome, and the contents of the output file. -/
def editFile (F : Faults) (d : Bytes) (cfg : Config) (fuel : Nat) : Out Unit × Bytes :=
  match readBoxStructure BoxMap.std d (handler F d cfg) fuel () ⟨0, ⟨WrSt.new ⟨[], 0, 0⟩, none⟩, []⟩ with
  | (.ok _, s) => (.ok (), s.user.w.file.data)
  | (.err e, s) => (((s.user.stop).map Stop.out).getD (.err e), s.user.w.file.data)
  | (.panic, s) => (.panic, s.user.w.file.data)
  | (.hang, s) => (.hang, s.user.w.file.data)

end Mp4.Edit
