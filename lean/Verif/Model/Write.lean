import Verif.Model.File
import Verif.Model.Marshal

/-!
# write.go: `Writer`

The destination is a file in memory with a fault schedule (`Model/File.lean`).  The source of `CopyBox` is a `bytes.Reader`
that is not the destination.  `StartBox` returns a pointer to the entry of the stack; it is assumed that the caller does
not write through that pointer.
-/

namespace Mp4

/-- `Writer`, write.go:8-11: the destination, and the stack of open boxes, innermost first. -/
structure WrSt where
  file : FSt
  stack : List BoxInfo
  deriving DecidableEq, Repr

/-- Computations on a writer. -/
abbrev WrM := M WrSt

/-- use the destination -/
def liftF {α : Type} (m : FM α) : WrM α := fun s =>
  match m s.file with
  | (x, f) => (x, { s with file := f })

/-- `NewWriter`, write.go:13-17. -/
def WrSt.new (f : FSt) : WrSt := ⟨f, []⟩

/-- `Writer.Write`, write.go:19-21. -/
def Writer.write (F : Faults) (p : Bytes) : WrM Unit := liftF (fWrite F p)

/-- `w.biStack = append(w.biStack, bi)`, write.go:32 -/
def Writer.push (bi : BoxInfo) : WrM Unit := M.modify fun s => { s with stack := bi :: s.stack }

/-- `w.biStack[len(w.biStack)-1]` and `w.biStack = w.biStack[:len(w.biStack)-1]`, write.go:37-38 -/
def Writer.pop : WrM BoxInfo := fun s =>
  match s.stack with
  | [] => (.panic, s)
  | bi :: rest => (.ok bi, { s with stack := rest })

/-- `Writer.StartBox`, write.go:27-34. -/
def Writer.startBox (F : Faults) (bi : BoxInfo) : WrM BoxInfo := do
  let bi ← liftF (writeBoxInfo F bi)
  Writer.push bi
  pure bi

/-- `Writer.EndBox`, write.go:36-56. -/
def Writer.endBox (F : Faults) : WrM BoxInfo := do
  let bi ← Writer.pop
  let last ← liftF (fSeekCur F)
  let bi := { bi with size := sub64 last bi.offset }
  let _ ← liftF (fSeekStart F bi.offset)
  let bi2 ← liftF (writeBoxInfo F bi)
  if bi.headerSize ≠ bi2.headerSize then M.fail .headerSizeChanged
  else do
    let _ ← liftF (fSeekStart F last)
    pure bi

/-- length of the buffer of `io.Copy` -/
def copyBuffer : Nat := 32 * 1024

/-- The loop of `io.Copy`: `data` is what the source still gives, `written` counts. -/
def copyLoop (F : Faults) (data : Bytes) (written : Nat) : WrM Nat :=
  if h : data = [] then pure written
  else do
    Writer.write F (data.take copyBuffer)
    copyLoop F (data.drop copyBuffer) (written + (data.take copyBuffer).length)
termination_by data.length
decreasing_by
  have : 0 < data.length := List.length_pos_iff.mpr h
  simp only [List.length_drop, copyBuffer]
  omega

/-- `io.CopyN(w, r, n)` where `r` is at `pos` of `src`: `io.Copy` from `io.LimitReader(r, n)`, which gives nothing if
`n` is negative. -/
def copyNW (F : Faults) (src : Bytes) (pos : Nat) (n : Int) : WrM Int := do
  let written ← copyLoop F ((src.drop pos).take n.toNat) 0
  if (written : Int) = n then pure n
  else if (written : Int) < n then M.fail .eof
  else pure written

/-- `int64(x)` for an unsigned `x` -/
def int64 (x : Nat) : Int := if x % U64 < 2 ^ 63 then (x % U64 : Nat) else (x % U64 : Nat) - (U64 : Int)

/-- `Writer.CopyBox`, write.go:58-67. -/
def Writer.copyBox (F : Faults) (src : Bytes) (bi : BoxInfo) : WrM Unit := fun s =>
  match seekStartP bi.offset 0 with
  | (.err e, _) => (.err e, s)
  | (.panic, _) => (.panic, s)
  | (.hang, _) => (.hang, s)
  | (.ok _, pos) =>
    (do
      let n ← copyNW F src pos (int64 bi.size)
      if n ≠ int64 bi.size then M.fail .copyFailed else pure ()) s

/-- The writer as a destination of `Marshal`. -/
def writerSink (F : Faults) : Sink WrSt := ⟨fun p s =>
  match Writer.write F p s with
  | (.ok _, s') => (true, s')
  | (_, s') => (false, s')⟩

/-- A call of a method of the writer, or of `Marshal` with the writer as destination. -/
inductive WOp where
  | start (bi : BoxInfo)
  | write (p : Bytes)
  | close
  | copy (src : Bytes) (bi : BoxInfo)
  | marshal (bd : BoxDef) (ctx : Ctx) (sv : SV)

/-- Make the call; `StartBox` and `EndBox` return a box. -/
def WOp.run (F : Faults) : WOp → WrM (Option BoxInfo)
  | .start bi => do
    let bi ← Writer.startBox F bi
    pure (some bi)
  | .write p => do
    Writer.write F p
    pure none
  | .close => do
    let bi ← Writer.endBox F
    pure (some bi)
  | .copy src bi => do
    Writer.copyBox F src bi
    pure none
  | .marshal bd ctx sv => fun s =>
    match marshalBox bd (writerSink F) ctx sv s with
    | (.ok _, s') => (.ok none, s')
    | (.err e, s') => (.err e, s')
    | (.panic, s') => (.panic, s')
    | (.hang, s') => (.hang, s')

/-- Make the calls one after the other, until one fails; what they returned. -/
def runOps (F : Faults) : List WOp → WrM (List (Option BoxInfo))
  | [] => pure []
  | o :: os => do
    let r ← o.run F
    let rs ← runOps F os
    pure (r :: rs)

end Mp4
