import Verif.Model.SourceTool
import Verif.Model.Rewrite

/-!
# `mp4tool edit` and the README's program on any `io.ReadSeeker`

In `Model/Edit` and `Model/Rewrite` the input is in memory; here it is an arbitrary source.  The output is a file that does not fail.
What a copied box is divided into when it is handed to the output is not represented: the source delivers it in portions of any size, and
what has been delivered is written in portions of 32 KiB.
-/

namespace Mp4.Src

open Mp4 Mp4.Edit

variable {σ : Type}

/-- `Writer.CopyBox`, write.go:58-67: `bi.SeekToStart(r)`, `io.CopyN(w, r, int64(bi.Size))`, the comparison of the number -/
def copyBoxTo (k : Rdr σ) (bi : BoxInfo) : M (TS σ St Unit) Unit := do
  let _ ← liftT (seekStart k.src bi.offset)
  let (b, e) ← liftT (copyOut k.src k.ask ((int64 bi.size).toNat + k.fuel) (int64 bi.size).toNat [])
  let s ← M.get
  match Mp4.copyLoop noFaults b 0 s.user.w with
  | (.ok _, w) => do
    M.modify fun s => { s with user := { s.user with w := w } }
    match e with
    | some e => M.fail e
    | none => if (b.length : Int) ≠ int64 bi.size then M.fail .copyFailed else pure ()
  | (.err e, w) => do
    M.modify fun s => { s with user := { s.user with w := w } }
    M.fail e
  | (.panic, _) => M.panic
  | (.hang, _) => M.hang

/-- What the handler of `mp4tool edit` does, cmd/mp4tool/internal/edit/edit.go:81-125. -/
def editAct (k : Rdr σ) (cfg : Config) : Act σ St Unit Unit := fun bi path _ children =>
  if exists_ cfg.dropBoxes bi.type.toStr then pure ()
  else if !BoxMap.std.isSupported bi.type bi.ctx || bi.type = tMdat then copyBoxTo k bi
  else runProg k BoxMap.std path bi children (call noFaults (.start bi) (.readPayload (Edit.withPayload noFaults cfg bi))) 0

/-- What the handler of README.md:84-111 does. -/
def rewriteAct (k : Rdr σ) (t : BoxType) (go : String) (f : SV → SV) : Act σ St Unit Unit := fun bi path _ children =>
  if bi.type = t then runProg k BoxMap.std path bi children (call noFaults (.start bi) (.readPayload (Rewrite.withPayload noFaults go f bi))) 0
  else copyBoxTo k bi

/-- A traversal that writes a file: the outcome, the contents of the output file, the source afterwards. -/
def writing (k : Rdr σ) (act : Act σ St Unit Unit) (fuel : Nat) (t : σ) : Out Unit × Bytes × σ :=
  match (do let _ ← liftT (seekStart k.src 0); readStructureAct k BoxMap.std act fuel none 0 true [] {} () : M (TS σ St Unit) (List Unit))
      ⟨t, ⟨WrSt.new ⟨[], 0, 0⟩, none⟩, []⟩ with
  | (.ok _, s) => (.ok (), s.user.w.file.data, s.src)
  | (.err e, s) => (((s.user.stop).map Stop.out).getD (.err e), s.user.w.file.data, s.src)
  | (.panic, s) => (.panic, s.user.w.file.data, s.src)
  | (.hang, s) => (.hang, s.user.w.file.data, s.src)

/-- `editFile`, edit.go:79-126 -/
def editFile (k : Rdr σ) (cfg : Config) (fuel : Nat) (t : σ) : Out Unit × Bytes × σ := writing k (editAct k cfg) fuel t

/-- The program of README.md:82-111. -/
def rewriteFile (k : Rdr σ) (ty : BoxType) (go : String) (f : SV → SV) (fuel : Nat) (t : σ) : Out Unit × Bytes × σ :=
  writing k (rewriteAct k ty go f) fuel t

end Mp4.Src
