import Verif.Model.Edit

/-!
# README.md: rewriting a file

The program of README.md:82-111, "edits emsg box and writes to another file": boxes of one type are decoded, changed and encoded again, all
other boxes are copied.  The type and the change are parameters; `readme` is the program as printed.
The input is a `bytes.Reader`, the output a file with a fault schedule (as for `mp4tool edit`).
-/

namespace Mp4.Rewrite

open Mp4 Mp4.Edit

/-- README.md:93-106, after `StartBox`: what to do with the payload; the type assertion `box.(*mp4.Emsg)` panics for any other Go type. -/
def withPayload (F : Faults) (go : String) (f : SV → SV) (bi : BoxInfo) : Except Err (BoxVal × Nat) → EProg
  | .error e => .err e
  | .ok (box, _) =>
    match box.assert go with
    | none => .get fun s => .set { s with stop := some .panic } (.err .eof)
    | some sv => call F (.marshal box.bd bi.ctx (f sv)) (call F .close (.ret ()))

/-- The handler, README.md:84-111. -/
def handler (F : Faults) (d : Bytes) (t : BoxType) (go : String) (f : SV → SV) : Handler St Unit Unit := fun h =>
  if h.info.type = t then call F (.start h.info) (.readPayload (withPayload F go f h.info))
  else call F (.copy d h.info) (.stream (fun _ => h.info.offset + h.info.size) fun _ => .ret ())

/-- The program: its outcome, and the contents of the output file. -/
def rewriteFile (F : Faults) (d : Bytes) (t : BoxType) (go : String) (f : SV → SV) (fuel : Nat) : Out Unit × Bytes :=
  match readBoxStructure BoxMap.std d (handler F d t go f) fuel () ⟨0, ⟨WrSt.new ⟨[], 0, 0⟩, none⟩, []⟩ with
  | (.ok _, s) => (.ok (), s.user.w.file.data)
  | (.err e, s) => (((s.user.stop).map Stop.out).getD (.err e), s.user.w.file.data)
  | (.panic, s) => (.panic, s.user.w.file.data)
  | (.hang, s) => (.hang, s.user.w.file.data)

/-- `emsg` -/
def tEmsg : BoxType := ⟨0x65, 0x6d, 0x73, 0x67⟩

/-- README.md:99: `emsg.MessageData = ...` -/
def setMessage (data : Bytes) (sv : SV) : SV := sv.set "MessageData" (.slice (data.map fun b => .uint b.toNat))

/-- `hello world` -/
def hello : Bytes := [0x68, 0x65, 0x6c, 0x6c, 0x6f, 0x20, 0x77, 0x6f, 0x72, 0x6c, 0x64]

/-- The program of the README. -/
def readme (F : Faults) (d : Bytes) (fuel : Nat) : Out Unit × Bytes := rewriteFile F d tEmsg "Emsg" (setMessage hello) fuel

end Mp4.Rewrite
