import Verif.Lemmas.Traverse
import Verif.Model.ValEq

/-!
# C49: what the operations of a handle return

The theorems compare a handler that calls an operation with the rest of the handler, given the right result: whatever
the handler did before (the state `st` and the position of the stream are arbitrary) and whatever it does with the result
(the continuation `k` is arbitrary), the operation is worth its specification.
-/

namespace Mp4.Props

open Mp4 Mp4.Spec

variable {S P V : Type} {d : Bytes}

/-- **C49**, `ReadPayload` — The handler receives the box, the number of bytes and the error of `UnmarshalAny` of the payload of the box,
wherever the stream stood. -/
theorem handle_readPayload (hd : d.length ≤ 2 ^ 48) (path : List BoxType) (bi : BoxInfo)
    (hin : bi.offset + bi.headerSize ≤ d.length) (hs : bi.headerSize ≤ bi.size) (hu : bi.size < 2 ^ 64)
    (children : Nat → P → TM S V (List V)) (k : Except Err (BoxVal × Nat) → Prog S P V) (co : Nat) (st : TSt S V) :
    runProg BoxMap.std d path bi children (.readPayload k) co st =
      match BoxMap.std.unmarshalAny d bi.type (bi.size - bi.headerSize) bi.ctx (bi.offset + bi.headerSize) with
      | (.ok (box, n), p) =>
          runProg BoxMap.std d path bi children (k (.ok (box, n))) (bi.offset + bi.headerSize + n) { st with pos := p }
      | (.err e, p) => runProg BoxMap.std d path bi children (k (.error e)) co { st with pos := p }
      | (.panic, p) => (.panic, { st with pos := p })
      | (.hang, p) => (.hang, { st with pos := p }) := by
  have e0 : sub64 bi.size bi.headerSize = bi.size - bi.headerSize := by
    simp only [sub64, U64]; omega
  have he := readPayloadP_ok (d := d) (bi := bi) hd hin st.pos
  rw [e0] at he
  obtain ⟨o, p, h1, h2⟩ := any_post (d := d) hd hin bi.type bi.ctx (bi.size - bi.headerSize)
  rw [h1]
  rw [h1] at he
  simp only [runProg]
  cases o with
  | ok a =>
    obtain ⟨box, n⟩ := a
    have e1 : (tryM (liftP (readPayloadP BoxMap.std d bi)) : TM S V _) st = (.ok (.ok (box, n)), { st with pos := p }) := by
      simp only [tryM, liftP, he]
    have e2 : add64 (add64 bi.offset bi.headerSize) n = bi.offset + bi.headerSize + n := by
      have := h2.1
      have := h2.2.2.1
      have := h2.2.1
      simp only [add64, U64]; omega
    rw [M.bind_ok e1]
    simp only [e2]
  | err e =>
    have e1 : (tryM (liftP (readPayloadP BoxMap.std d bi)) : TM S V _) st = (.ok (.error e), { st with pos := p }) := by
      simp only [tryM, liftP, he]
    rw [M.bind_ok e1]
  | panic => exact absurd h2 (by simp [AnyPost])
  | hang =>
    have e1 : (tryM (liftP (readPayloadP BoxMap.std d bi)) : TM S V _) st = (.hang, { st with pos := p }) := by
      simp only [tryM, liftP, he]
    rw [M.bind_hang e1]

/-- The destination takes `n` bytes. -/
def _root_.Mp4.Dest.takes (w : Dest) (n : Nat) : Bool :=
  match w.cap with
  | none => true
  | some c => decide (n ≤ c)

/-- **C49**, `ReadData`, partial — The destination receives the payload of the box.  If the file ends within the box, it receives what there
is of the payload, and the error is that of an unexpected end; if the destination fails, its error is returned.
(Missing: payloads of 2^63 bytes or more, see `readData_huge`.) -/
theorem handle_readData_partial (hd : d.length ≤ 2 ^ 48) (path : List BoxType) (bi : BoxInfo)
    (hin : bi.offset + bi.headerSize ≤ d.length) (hs : bi.headerSize ≤ bi.size) (hu : bi.size - bi.headerSize < 2 ^ 63)
    (children : Nat → P → TM S V (List V)) (w : Dest) (k : Except Err Nat → Bytes → Prog S P V) (co : Nat) (st : TSt S V) :
    let payload := (d.drop (bi.offset + bi.headerSize)).take (bi.size - bi.headerSize)
    (w.takes payload.length = true → bi.offset + bi.size ≤ d.length →
      runProg BoxMap.std d path bi children (.readData w k) co st =
        runProg BoxMap.std d path bi children (k (.ok (bi.size - bi.headerSize)) payload) co { st with pos := bi.offset + bi.size }) ∧
    (w.takes payload.length = true → d.length < bi.offset + bi.size →
      runProg BoxMap.std d path bi children (.readData w k) co st =
        runProg BoxMap.std d path bi children (k (.error .eof) payload) co { st with pos := d.length }) ∧
    (w.takes payload.length = false → ∃ c, w.cap = some c ∧ c < payload.length ∧
      runProg BoxMap.std d path bi children (.readData w k) co st =
        runProg BoxMap.std d path bi children (k (.error .sink) (payload.take c)) co { st with pos := w.pos }) := by
  intro payload
  have e0 : sub64 bi.size bi.headerSize = bi.size - bi.headerSize := by
    simp only [sub64, U64]; omega
  have hlen : payload.length = min (bi.size - bi.headerSize) (d.length - (bi.offset + bi.headerSize)) := by
    simp only [payload, List.length_take, List.length_drop]
  have key : ∀ r b p, readDataP d bi w st.pos = (.ok (r, b), p) →
      runProg BoxMap.std d path bi children (.readData w k) co st = runProg BoxMap.std d path bi children (k r b) co { st with pos := p } := by
    intro r b p h
    simp only [runProg]
    have e1 : (liftP (readDataP d bi w) : TM S V _) st = (.ok (r, b), { st with pos := p }) := by
      simp only [liftP, h]
    rw [M.bind_ok e1]
  have hr : readDataP d bi w st.pos =
      match w.cap with
      | some c =>
        if bi.size - bi.headerSize < 2 ^ 63 ∧ c < payload.length then (.ok (.error .sink, payload.take c), w.pos)
        else match copyNP d (bi.size - bi.headerSize) (bi.offset + bi.headerSize) with
          | (.ok b, p') => (.ok (.ok (bi.size - bi.headerSize), b), p')
          | (.err e, p') => (.ok (.error e, payload), p')
          | (.panic, p') => (.panic, p')
          | (.hang, p') => (.hang, p')
      | none => match copyNP d (bi.size - bi.headerSize) (bi.offset + bi.headerSize) with
          | (.ok b, p') => (.ok (.ok (bi.size - bi.headerSize), b), p')
          | (.err e, p') => (.ok (.error e, payload), p')
          | (.panic, p') => (.panic, p')
          | (.hang, p') => (.hang, p') := by
    unfold readDataP
    rw [seekToPayload_ok hd hin]
    simp only [e0]
    rfl
  have hok : bi.offset + bi.size ≤ d.length →
      copyNP d (bi.size - bi.headerSize) (bi.offset + bi.headerSize) = (.ok payload, bi.offset + bi.size) := by
    intro h
    unfold copyNP
    split
    · have : bi.size - bi.headerSize = 0 := by omega
      simp only [payload, this, List.take_zero]
      congr 1; omega
    · simp only
      change (if payload.length < _ then _ else _) = _
      rw [if_neg (by omega)]
      congr 1
      change _ + payload.length = _
      omega
  have herr : d.length < bi.offset + bi.size →
      copyNP d (bi.size - bi.headerSize) (bi.offset + bi.headerSize) = (.err .eof, d.length) := by
    intro h
    unfold copyNP
    rw [if_neg (by omega)]
    simp only
    change (if payload.length < _ then _ else _) = _
    rw [if_pos (by omega)]
    congr 1
    change _ + payload.length = _
    omega
  refine ⟨fun hw h => key _ _ _ ?_, fun hw h => key _ _ _ ?_, fun hw => ?_⟩
  · rw [hr, hok h]
    simp only [Dest.takes] at hw
    split
    · next c hc =>
      rw [hc] at hw
      rw [if_neg (by simp at hw; omega)]
    · rfl
  · rw [hr, herr h]
    simp only [Dest.takes] at hw
    split
    · next c hc =>
      rw [hc] at hw
      rw [if_neg (by simp at hw; omega)]
    · rfl
  · simp only [Dest.takes] at hw
    cases hc : w.cap with
    | none => rw [hc] at hw; cases hw
    | some c =>
      rw [hc] at hw
      simp only [decide_eq_false_iff_not, Nat.not_le] at hw
      refine ⟨c, rfl, hw, key _ _ _ ?_⟩
      rw [hr, hc]
      simp only
      rw [if_pos ⟨hu, hw⟩]

/-- the handler that calls `ReadData` and keeps what it gets -/
def keepData : Handler (List (Except Err Nat × Bytes)) Unit Unit :=
  fun _ => .readData ⟨none, 0⟩ fun r b => .get fun l => .set (l ++ [(r, b)]) (.ret ())

/-- what `keepData` got from `ReadData` during a traversal of a file; `none` for an error -/
def dataOf (d : Bytes) : List (Option Nat × Bytes) :=
  (readBoxStructure BoxMap.std d keepData 10 () { pos := 0, user := [], log := [] }).2.user.map fun x =>
    (match x.1 with | .ok n => some n | .error _ => none, x.2)

/-- a file of two boxes, and what `ReadData` gives: the hypotheses of `handle_readData_partial` are met -/
example : dataOf [0, 0, 0, 11, 0x6d, 0x64, 0x61, 0x74, 1, 2, 3, 0, 0, 0, 8, 0x66, 0x72, 0x65, 0x65] = [(some 3, [1, 2, 3]), (some 0, [])] ∧
    dataOf [0, 0, 0, 11, 0x6d, 0x64, 0x61, 0x74, 1, 2] = [(none, [1, 2])] := by
  decide +kernel

/-- the handler that calls `ReadPayload` and keeps the number of bytes -/
def keepPayload : Handler (List (Option Nat)) Unit Unit :=
  fun _ => .readPayload fun r => .get fun l => .set (l ++ [match r with | .ok x => some x.2 | .error _ => none]) (.ret ())

/-- the same for `handle_readPayload`, with a box that can be decoded and one that cannot -/
example : (readBoxStructure BoxMap.std [0, 0, 0, 16, 0x6d, 0x66, 0x68, 0x64, 0, 0, 0, 0, 0, 0, 0, 7, 0, 0, 0, 9, 0x6d, 0x66, 0x68, 0x64, 0]
    keepPayload 10 () { pos := 0, user := [], log := [] }).2.user = [some 8, none] := by
  decide +kernel

/-- The file consists of the header of an `mdat` box with a payload of 2^63 bytes.  `ReadData` copies nothing, but reports
success and 2^63 bytes. -/
theorem readData_huge : dataOf [0, 0, 0, 1, 0x6d, 0x64, 0x61, 0x74, 0x80, 0, 0, 0, 0, 0, 0, 16] = [(some (2 ^ 63), [])] := by
  decide +kernel

end Mp4.Props
