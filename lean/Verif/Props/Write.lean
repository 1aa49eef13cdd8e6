import Verif.Lemmas.Write

/-!
# C28, C30, C31: `Writer`
-/

namespace Mp4.Props

open Mp4

/-! ## C28 -/

private theorem nested_aux : ∀ (k : Nat) (l : List WOp) (depth : Nat), l.length ≤ k → WellNested l depth →
    ∃ t : WTree, (depth = 0 ∧ l = t.ops) ∨
      ∃ l', 0 < depth ∧ l = t.ops ++ .close :: l' ∧ WellNested l' (depth - 1)
  | _, [], depth, _, h => ⟨.nil, .inl ⟨h, rfl⟩⟩
  | 0, _ :: _, _, hk, _ => by simp at hk
  | k + 1, .write p :: os, depth, hk, h => by
    obtain ⟨t, ⟨h0, ht⟩ | ⟨l', h0, ht, hn⟩⟩ := nested_aux k os depth (by simpa using hk) h
    · exact ⟨.bytes p t, .inl ⟨h0, by rw [ht]; rfl⟩⟩
    · exact ⟨.bytes p t, .inr ⟨l', h0, by rw [ht]; rfl, hn⟩⟩
  | k + 1, .copy src bi :: os, depth, hk, h => by
    obtain ⟨t, ⟨h0, ht⟩ | ⟨l', h0, ht, hn⟩⟩ := nested_aux k os depth (by simpa using hk) h
    · exact ⟨.copy src bi t, .inl ⟨h0, by rw [ht]; rfl⟩⟩
    · exact ⟨.copy src bi t, .inr ⟨l', h0, by rw [ht]; rfl, hn⟩⟩
  | k + 1, .marshal bd ctx sv :: os, depth, hk, h => by
    obtain ⟨t, ⟨h0, ht⟩ | ⟨l', h0, ht, hn⟩⟩ := nested_aux k os depth (by simpa using hk) h
    · exact ⟨.fields bd ctx sv t, .inl ⟨h0, by rw [ht]; rfl⟩⟩
    · exact ⟨.fields bd ctx sv t, .inr ⟨l', h0, by rw [ht]; rfl, hn⟩⟩
  | k + 1, .close :: os, depth, hk, h => ⟨.nil, .inr ⟨os, h.1, rfl, h.2⟩⟩
  | k + 1, .start bi :: os, depth, hk, h => by
    obtain ⟨t1, ⟨h0, _⟩ | ⟨l', _, ht, hn⟩⟩ := nested_aux k os (depth + 1) (by simpa using hk) h
    · omega
    · have hl : l'.length ≤ k := by
        have := congrArg List.length ht
        simp only [List.length_append, List.length_cons] at this hk
        omega
      obtain ⟨t2, ⟨h0, ht2⟩ | ⟨l'', h0, ht2, hn2⟩⟩ := nested_aux k l' (depth + 1 - 1) hl hn
      · exact ⟨.box bi t1 t2, .inl ⟨by simpa using h0, by rw [ht, ht2]; rfl⟩⟩
      · refine ⟨.box bi t1 t2, .inr ⟨l'', by simpa using h0, ?_, by simpa using hn2⟩⟩
        rw [ht, ht2]
        simp [WTree.ops]

/-- Every well-nested sequence of calls writes a tree. -/
theorem wellNested_tree (l : List WOp) (h : WellNested l 0) : ∃ t : WTree, l = t.ops := by
  obtain ⟨t, ⟨_, ht⟩ | ⟨_, h0, _⟩⟩ := nested_aux _ l 0 (Nat.le_refl _) h
  · exact ⟨t, ht⟩
  · omega

private theorem ops_nested : ∀ (t : WTree) (l : List WOp) (depth : Nat), WellNested (t.ops ++ l) depth ↔ WellNested l depth
  | .nil, _, _ => Iff.rfl
  | .bytes _ rest, l, depth => ops_nested rest l depth
  | .copy _ _ rest, l, depth => ops_nested rest l depth
  | .fields _ _ _ rest, l, depth => ops_nested rest l depth
  | .box bi body rest, l, depth => by
    show WellNested ((body.ops ++ .close :: rest.ops) ++ l) (depth + 1) ↔ _
    rw [List.append_assoc, ops_nested body]
    show 0 < depth + 1 ∧ WellNested (rest.ops ++ l) (depth + 1 - 1) ↔ _
    rw [ops_nested rest]
    simp

/-- **C28** — Every well-nested sequence of `StartBox`, `Write`, `CopyBox`, `EndBox` and `Marshal` into the writer is the sequence of
calls of a tree of boxes, bytes, copies and fields, and vice versa.  For every such tree whose sizes fit the headers asked for, on a destination that does not fail,
with any contents and at any position: all calls succeed; the destination then has the serialisation of the tree at that position, where
every header carries the true size of its box and payload bytes are unchanged, and is unchanged elsewhere; its position is at the end of what was written; the
boxes returned by `EndBox` have the true offsets, sizes and header sizes; boxes that were open before are still open. -/
theorem writer_serialises :
    (∀ l, WellNested l 0 ↔ ∃ t : WTree, l = t.ops) ∧
    ∀ (t : WTree) (s : WrSt), t.Fits → s.file.pos + t.ser.length < 2 ^ 63 →
      ∃ s', runOps noFaults t.ops s = (.ok (t.results s.file.pos), s') ∧
        s'.file.data = writeAt s.file.data s.file.pos t.ser ∧ s'.file.pos = s.file.pos + t.ser.length ∧
        s'.stack = s.stack := by
  refine ⟨fun l => ⟨wellNested_tree l, ?_⟩, fun t s hf hl => ?_⟩
  · rintro ⟨t, rfl⟩
    have := (ops_nested t [] 0).2 rfl
    simpa using this
  · obtain ⟨c, e⟩ := tree_ok t s hf hl
    exact ⟨_, e, rfl, rfl, rfl⟩

/-- `moov` { `trak` { 1 2 3 } , 4 } with a 64-bit header for `moov` -/
def exTree : WTree :=
  .box { type := ⟨0x6d, 0x6f, 0x6f, 0x76⟩, headerSize := 16 }
    (.box { type := ⟨0x74, 0x72, 0x61, 0x6b⟩ } (.bytes [1, 2, 3] .nil) (.bytes [4] .nil)) .nil

example : exTree.Fits ∧ 0 + exTree.ser.length < 2 ^ 63 := ⟨⟨by decide, ⟨by decide, trivial, trivial⟩, trivial⟩, by decide⟩

/-- its bytes -/
example : exTree.ser = [0, 0, 0, 1, 0x6d, 0x6f, 0x6f, 0x76, 0, 0, 0, 0, 0, 0, 0, 28,
    0, 0, 0, 11, 0x74, 0x72, 0x61, 0x6b, 1, 2, 3, 4] := by decide

/-- the boxes returned by `StartBox` (16-byte and 8-byte header, sizes not yet known) and `EndBox` -/
example : (exTree.results 0).map (·.map fun b => (b.offset, b.size, b.headerSize)) =
    [some (0, 0, 16), some (16, 8, 8), none, some (16, 11, 8), none, some (0, 28, 16)] := by decide

/-! ## C30 -/

private theorem copyLoop_faults (F : Faults) : ∀ (k : Nat) (data : Bytes) (n : Nat) (s : WrSt), data.length ≤ k →
    ∃ j calls r, copyLoop F data n s = (r, ⟨⟨writeAt s.file.data s.file.pos (data.take j), s.file.pos + j, calls⟩, s.stack⟩) ∧
      j ≤ data.length ∧ ((r = .ok (n + data.length) ∧ j = data.length) ∨ r = .err .sink)
  | k, data, n, s, hk => by
    rw [copyLoop]
    by_cases h : data = []
    · rw [dif_pos h]
      subst h
      exact ⟨0, s.file.calls, _, by simp; rfl, by simp, .inl (by simp)⟩
    · rw [dif_neg h]
      have h0 : 0 < data.length := List.length_pos_iff.mpr h
      match k with
      | 0 => omega
      | k + 1 =>
        cases hw : F.write s.file.calls with
        | some m =>
          have e : Writer.write F (data.take copyBuffer) s = (.err .sink,
              ⟨⟨writeAt s.file.data s.file.pos ((data.take copyBuffer).take m),
                s.file.pos + ((data.take copyBuffer).take m).length, s.file.calls + 1⟩, s.stack⟩) := by
            simp only [Writer.write, liftF, fWrite, hw]
          rw [M.bind_err e]
          refine ⟨((data.take copyBuffer).take m).length, s.file.calls + 1, _, ?_, ?_, .inr rfl⟩
          · have : data.take ((data.take copyBuffer).take m).length = (data.take copyBuffer).take m := by
              rw [List.take_take, List.length_take, ← List.take_eq_take_min]
            rw [this]
          · simp only [List.length_take]
            omega
        | none =>
          have e : Writer.write F (data.take copyBuffer) s = (.ok (),
              ⟨⟨writeAt s.file.data s.file.pos (data.take copyBuffer),
                s.file.pos + (data.take copyBuffer).length, s.file.calls + 1⟩, s.stack⟩) := by
            simp only [Writer.write, liftF, fWrite, hw]
          rw [M.bind_ok e]
          obtain ⟨j, c, r, e2, hj, hr⟩ := copyLoop_faults F k (data.drop copyBuffer) (n + (data.take copyBuffer).length)
            ⟨⟨writeAt s.file.data s.file.pos (data.take copyBuffer), s.file.pos + (data.take copyBuffer).length,
              s.file.calls + 1⟩, s.stack⟩ (by simp only [List.length_drop, copyBuffer]; omega)
          have hsum : (data.take copyBuffer).length + (data.drop copyBuffer).length = data.length := by
            simp only [List.length_take, List.length_drop]
            omega
          refine ⟨(data.take copyBuffer).length + j, c, r, ?_, by omega, ?_⟩
          · rw [e2]
            simp only [writeAt_append, Nat.add_assoc]
            have : data.take ((data.take copyBuffer).length + j) = data.take copyBuffer ++ (data.drop copyBuffer).take j := by
              conv => lhs; arg 2; rw [← List.take_append_drop copyBuffer data]
              rw [List.take_length_add_append]
            rw [this]
          · rcases hr with ⟨h1, h2⟩ | h
            · exact .inl ⟨by rw [h1, Nat.add_assoc, hsum], by omega⟩
            · exact .inr h

/-- How `CopyBox` may end, having written `k` bytes, when the source has `avail` bytes from the beginning of the box to its end (fewer than
its size if the source ends before). -/
inductive CopyEnd (bi : BoxInfo) (avail k : Nat) : Out Unit → Prop where
  | done (h : bi.offset < 2 ^ 63 ∧ bi.size < 2 ^ 63) (ha : avail = bi.size) (hk : k = bi.size) : CopyEnd bi avail k (.ok ())
  | short (h : bi.offset < 2 ^ 63 ∧ bi.size < 2 ^ 63) (ha : avail < bi.size) (hk : k = avail) : CopyEnd bi avail k (.err .eof)
  | offset (h : 2 ^ 63 ≤ bi.offset) (hk : k = 0) : CopyEnd bi avail k (.err .negativeSeek)
  | size (h : 2 ^ 63 ≤ bi.size) (hk : k = 0) : CopyEnd bi avail k (.err .copyFailed)
  | sink (hk : k ≤ avail) : CopyEnd bi avail k (.err .sink)

/-- **C30** — For every source, `BoxInfo` and destination, whatever calls of the destination fail: `CopyBox` writes a prefix of the bytes
`[offset, offset+size)` of the source at the position of the writer, and nothing else.  It succeeds only if the source has the whole box,
and then it has written all of it; otherwise it returns an error.  If no call of the destination fails, it succeeds if the source has the whole box (and is
shorter than 2^63 bytes, like every file). -/
theorem copyBox_exact (F : Faults) (src : Bytes) (bi : BoxInfo) (ho : bi.offset < 2 ^ 64) (hz : bi.size < 2 ^ 64) (s : WrSt) :
    (∃ k r s', Writer.copyBox F src bi s = (r, s') ∧
      s'.file.data = writeAt s.file.data s.file.pos (((src.drop bi.offset).take bi.size).take k) ∧
      s'.file.pos = s.file.pos + k ∧ s'.stack = s.stack ∧
      CopyEnd bi ((src.drop bi.offset).take bi.size).length k r) ∧
    (src.length < 2 ^ 63 → bi.offset + bi.size ≤ src.length → (Writer.copyBox noFaults src bi s).1 = .ok ()) := by
  refine ⟨?_, fun hs h => ?_⟩
  · by_cases h1 : 2 ^ 63 ≤ bi.offset
    · refine ⟨0, .err .negativeSeek, s, ?_, by simp, rfl, rfl, .offset h1 rfl⟩
      have : bi.offset % U64 = bi.offset := Nat.mod_eq_of_lt ho
      unfold Writer.copyBox seekStartP
      rw [this, if_pos h1]
    · have h1 : bi.offset < 2 ^ 63 := by omega
      by_cases h2 : 2 ^ 63 ≤ bi.size
      · refine ⟨0, .err .copyFailed, s, ?_, by simp, rfl, rfl, .size h2 rfl⟩
        have hi : int64 bi.size = (bi.size : Int) - (U64 : Int) := by
          unfold int64
          have : bi.size % U64 = bi.size := Nat.mod_eq_of_lt hz
          rw [this, if_neg (by omega)]
        have hneg : int64 bi.size < 0 := by rw [hi]; simp only [U64]; omega
        have ht : (int64 bi.size).toNat = 0 := by omega
        have e : copyNW F src bi.offset (int64 bi.size) s = (.ok 0, s) := by
          unfold copyNW
          rw [ht, List.take_zero, copyLoop, dif_pos rfl]
          rw [M.bind_ok (show (pure 0 : WrM Nat) s = (.ok 0, s) from rfl), if_neg (by simp; omega), if_neg (by simp; omega)]
          rfl
        unfold Writer.copyBox
        rw [seekStartP_ok h1]
        simp only
        rw [M.bind_ok e, if_pos (by omega)]
        rfl
      · have h2 : bi.size < 2 ^ 63 := by omega
        obtain ⟨j, c, r, e, hj, hr⟩ := copyLoop_faults F _ ((src.drop bi.offset).take bi.size) 0 s (Nat.le_refl _)
        have hle : ((src.drop bi.offset).take bi.size).length ≤ bi.size := List.length_take_le _ _
        have hcopy : ∀ (r' : Out Int) (s' : WrSt), copyNW F src bi.offset (bi.size : Int) s = (r', s') →
            Writer.copyBox F src bi s = ((match r' with
              | .ok n => if n ≠ (bi.size : Int) then .err .copyFailed else .ok ()
              | .err e => .err e
              | .panic => .panic
              | .hang => .hang), s') := by
          intro r' s' e'
          unfold Writer.copyBox
          rw [seekStartP_ok h1, int64_small h2]
          simp only
          match r', e' with
          | .ok n, e' =>
            rw [M.bind_ok e']
            by_cases hn : n ≠ (bi.size : Int)
            · simp only [if_pos hn]; rfl
            · simp only [if_neg hn]; rfl
          | .err e, e' => rw [M.bind_err e']
          | .panic, e' => rw [M.bind_panic e']
          | .hang, e' => rw [M.bind_hang e']
        rcases hr with ⟨hr, hjl⟩ | hr
        · subst hr
          by_cases hsz : ((src.drop bi.offset).take bi.size).length = bi.size
          · refine ⟨j, .ok (), ⟨⟨writeAt s.file.data s.file.pos (((src.drop bi.offset).take bi.size).take j), s.file.pos + j, c⟩, s.stack⟩, ?_, rfl, rfl, rfl, .done ⟨h1, h2⟩ hsz (by omega)⟩
            have := hcopy (.ok bi.size) _ (by
              unfold copyNW
              rw [Int.toNat_natCast, M.bind_ok e, if_pos (by rw [hsz]; simp)]
              rfl)
            rw [this]
            simp
          · refine ⟨j, .err .eof, ⟨⟨writeAt s.file.data s.file.pos (((src.drop bi.offset).take bi.size).take j), s.file.pos + j, c⟩, s.stack⟩, ?_, rfl, rfl, rfl, .short ⟨h1, h2⟩ (by omega) hjl⟩
            exact hcopy (.err .eof) _ (by
              unfold copyNW
              rw [Int.toNat_natCast, M.bind_ok e, if_neg (by omega), if_pos (by omega)]
              rfl)
        · subst hr
          refine ⟨j, .err .sink, ⟨⟨writeAt s.file.data s.file.pos (((src.drop bi.offset).take bi.size).take j), s.file.pos + j, c⟩, s.stack⟩, ?_, rfl, rfl, rfl, .sink hj⟩
          exact hcopy (.err .sink) _ (by
            unfold copyNW
            rw [Int.toNat_natCast, M.bind_err e])
  · obtain ⟨c, e⟩ := copyBox_ok h hs s
    rw [e]

/-- a box of 9 bytes at offset 1 of a source of 12 bytes, copied to the end of a file of 2 bytes -/
example : Writer.copyBox noFaults [7, 0, 0, 0, 9, 0x78, 0x78, 0x78, 0x78, 5, 6, 6]
    { offset := 1, size := 9, headerSize := 8, type := ⟨0x78, 0x78, 0x78, 0x78⟩ } ⟨⟨[1, 2], 2, 0⟩, []⟩ =
    (.ok (), ⟨⟨[1, 2, 0, 0, 0, 9, 0x78, 0x78, 0x78, 0x78, 5], 11, 1⟩, []⟩) := by
  decide +kernel

/-! ## C31 -/

/-- `EndBox` without an open box panics. -/
theorem endBox_panics (F : Faults) (f : FSt) : Writer.endBox F ⟨f, []⟩ = (.panic, ⟨f, []⟩) := rfl

private theorem writeAt_outside (data : Bytes) (pos n : Nat) (p : Bytes) (hp : p.length ≤ n) (h : pos + n ≤ data.length) :
    (writeAt data pos p).length = data.length ∧
    ∀ i : Nat, (i < pos ∨ pos + n ≤ i) → (writeAt data pos p)[i]? = data[i]? := by
  by_cases h0 : p = []
  · simp [h0]
  · refine ⟨by rw [writeAt_length h0]; omega, fun i hi => ?_⟩
    rw [writeAt_get h0]
    rcases hi with hi | hi
    · rw [if_pos hi, if_pos (by omega)]
    · rw [if_neg (by omega), if_neg (by omega)]

/-- What `EndBox` does to the box that was begun with `start` at `off`: the state before, the result, the state after. -/
structure Ended (start : BoxInfo) (off : Nat) (s : WrSt) (r : Out BoxInfo) (s' : WrSt) : Prop where
  /-- the box is no longer open, the others are -/
  closed : s.stack = boxInfoWritten start off :: s'.stack
  /-- the file has the same length -/
  length : s'.file.data.length = s.file.data.length
  /-- and the same bytes, except for the header -/
  payload : ∀ i : Nat, i < off ∨ off + (Form.of start).len ≤ i → s'.file.data[i]? = s.file.data[i]?
  /-- if it succeeds, the header is the right one, the right box is returned, and the position is the same as before -/
  ok : ∀ bi, r = .ok bi →
    s'.file.data = writeAt s.file.data off ((Form.of start).header start.type (s.file.pos - off)) ∧
    s'.file.pos = s.file.pos ∧ bi = ⟨off, s.file.pos - off, (Form.of start).len, start.type, start.extendToEOF, {}⟩
  /-- otherwise a call of the destination has failed -/
  err : (∀ bi, r ≠ .ok bi) → r = .err .sink

/-- **C31**, without boxes that outgrow their header — For every box that was begun with `StartBox` and whose size fits the
header that was written then, whatever calls of the destination fail: `EndBox` either writes the correct header and returns to the end
of the box, or returns the error of the destination; in both cases no byte outside the header has changed.

Missing for the full statement: boxes with an 8-byte header that have grown to 4 GiB or more.  It is false for them, see
`endBox_damages`. -/
theorem endBox_partial (F : Faults) (start : BoxInfo) (off : Nat) (f : FSt) (stack : List BoxInfo)
    (hfit : Form.of start = .small → f.pos - off < 2 ^ 32) (ho : off + (Form.of start).len ≤ f.pos)
    (hp : f.pos ≤ f.data.length) (hl : f.data.length < 2 ^ 63) :
    ∃ r s', Writer.endBox F ⟨f, boxInfoWritten start off :: stack⟩ = (r, s') ∧
      Ended start off ⟨f, boxInfoWritten start off :: stack⟩ r s' := by
  have hform := form_of_written (bi := start) (off := off) (n := f.pos - off) hfit
  obtain ⟨sz, hw⟩ : ∃ sz, boxInfoWritten start off = ⟨off, sz, (Form.of start).len, start.type, start.extendToEOF, {}⟩ :=
    ⟨_, written_eq start off⟩
  rw [hw] at hform ⊢
  have hs : sub64 f.pos off = f.pos - off := by
    unfold sub64
    simp only [U64]
    omega
  have hbytes : boxInfoBytes ⟨off, f.pos - off, (Form.of start).len, start.type, start.extendToEOF, {}⟩ =
      (Form.of start).header start.type (f.pos - off) := by
    rw [boxInfoBytes_form]
    exact congrArg (fun x => Form.header x start.type (f.pos - off)) hform
  have hlen : (Form.of start).len ≤ (Form.of start).len := Nat.le_refl _
  have keep : ∀ p : Bytes, p.length ≤ (Form.of start).len → _ := fun p hp' =>
    writeAt_outside f.data off (Form.of start).len p hp' (by omega)
  unfold Writer.endBox
  rw [M.bind_ok (show Writer.pop ⟨f, ⟨off, sz, (Form.of start).len, start.type, start.extendToEOF, {}⟩ :: stack⟩ = (.ok (⟨off, sz, (Form.of start).len, start.type, start.extendToEOF, {}⟩), ⟨f, stack⟩) from rfl)]
  cases h1 : F.seek f.calls with
  | true =>
    have e1 : liftF (fSeekCur F) ⟨f, stack⟩ = (.err .sink, ⟨⟨f.data, f.pos, f.calls + 1⟩, stack⟩) := by
      simp only [liftF, fSeekCur, h1, if_true]
    rw [M.bind_err e1]
    exact ⟨_, _, rfl, hw ▸ rfl, rfl, fun _ _ => rfl, by simp, by simp⟩
  | false =>
    have e1 : liftF (fSeekCur F) ⟨f, stack⟩ = (.ok f.pos, ⟨⟨f.data, f.pos, f.calls + 1⟩, stack⟩) := by
      simp only [liftF, fSeekCur, h1, Bool.false_eq_true, if_false]
    rw [M.bind_ok e1]
    simp only [hs]
    have hmod : off % U64 = off := Nat.mod_eq_of_lt (by simp only [U64]; omega)
    cases h2 : F.seek (f.calls + 1) with
    | true =>
      have e2 : liftF (fSeekStart F off) ⟨⟨f.data, f.pos, f.calls + 1⟩, stack⟩ =
          (.err .sink, ⟨⟨f.data, f.pos, f.calls + 1 + 1⟩, stack⟩) := by
        simp only [liftF, fSeekStart, h2, if_true]
      rw [M.bind_err e2]
      exact ⟨_, _, rfl, hw ▸ rfl, rfl, fun _ _ => rfl, by simp, by simp⟩
    | false =>
      have e2 : liftF (fSeekStart F off) ⟨⟨f.data, f.pos, f.calls + 1⟩, stack⟩ =
          (.ok off, ⟨⟨f.data, off, f.calls + 1 + 1⟩, stack⟩) := by
        simp only [liftF, fSeekStart, h2, Bool.false_eq_true, if_false, hmod]
        rw [if_neg (by omega)]
      rw [M.bind_ok e2]
      cases h3 : F.seek (f.calls + 1 + 1) with
      | true =>
        have e3 : liftF (writeBoxInfo F ⟨off, f.pos - off, (Form.of start).len, start.type, start.extendToEOF, {}⟩)
            ⟨⟨f.data, off, f.calls + 1 + 1⟩, stack⟩ = (.err .sink, ⟨⟨f.data, off, f.calls + 1 + 1 + 1⟩, stack⟩) := by
          unfold liftF writeBoxInfo
          rw [M.bind_err (show fSeekCur F ⟨f.data, off, f.calls + 1 + 1⟩ = (.err .sink, ⟨f.data, off, f.calls + 1 + 1 + 1⟩) by
            simp only [fSeekCur, h3, if_true])]
        rw [M.bind_err e3]
        exact ⟨_, _, rfl, hw ▸ rfl, rfl, fun _ _ => rfl, by simp, by simp⟩
      | false =>
        have e3a : fSeekCur F ⟨f.data, off, f.calls + 1 + 1⟩ = (.ok off, ⟨f.data, off, f.calls + 1 + 1 + 1⟩) := by
          simp only [fSeekCur, h3, Bool.false_eq_true, if_false]
        cases h4 : F.write (f.calls + 1 + 1 + 1) with
        | some k =>
          have hlk : (((Form.of start).header start.type (f.pos - off)).take k).length ≤ (Form.of start).len := by
            simp only [List.length_take, Form.header_length]
            omega
          have e3 : liftF (writeBoxInfo F ⟨off, f.pos - off, (Form.of start).len, start.type, start.extendToEOF, {}⟩)
              ⟨⟨f.data, off, f.calls + 1 + 1⟩, stack⟩ = (.err .sink,
                ⟨⟨writeAt f.data off (((Form.of start).header start.type (f.pos - off)).take k),
                  off + (((Form.of start).header start.type (f.pos - off)).take k).length, f.calls + 1 + 1 + 1 + 1⟩, stack⟩) := by
            unfold liftF writeBoxInfo
            rw [hbytes, M.bind_ok e3a]
            rw [M.bind_err (show fWrite F ((Form.of start).header start.type (f.pos - off))
              ⟨f.data, off, f.calls + 1 + 1 + 1⟩ = (.err .sink,
                ⟨writeAt f.data off (((Form.of start).header start.type (f.pos - off)).take k),
                  off + (((Form.of start).header start.type (f.pos - off)).take k).length, f.calls + 1 + 1 + 1 + 1⟩) by
                simp only [fWrite, h4])]
          rw [M.bind_err e3]
          obtain ⟨k1, k2⟩ := keep _ hlk
          exact ⟨_, _, rfl, hw ▸ rfl, k1, k2, by simp, by simp⟩
        | none =>
          have e3 : liftF (writeBoxInfo F ⟨off, f.pos - off, (Form.of start).len, start.type, start.extendToEOF, {}⟩)
              ⟨⟨f.data, off, f.calls + 1 + 1⟩, stack⟩ =
              (.ok (boxInfoWritten ⟨off, f.pos - off, (Form.of start).len, start.type, start.extendToEOF, {}⟩ off),
                ⟨⟨writeAt f.data off ((Form.of start).header start.type (f.pos - off)),
                  off + ((Form.of start).header start.type (f.pos - off)).length, f.calls + 1 + 1 + 1 + 1⟩, stack⟩) := by
            unfold liftF writeBoxInfo
            rw [hbytes, M.bind_ok e3a]
            rw [M.bind_ok (show fWrite F ((Form.of start).header start.type (f.pos - off))
              ⟨f.data, off, f.calls + 1 + 1 + 1⟩ = (.ok (),
                ⟨writeAt f.data off ((Form.of start).header start.type (f.pos - off)),
                  off + ((Form.of start).header start.type (f.pos - off)).length, f.calls + 1 + 1 + 1 + 1⟩) by
                simp only [fWrite, h4])]
            rfl
          rw [M.bind_ok e3]
          have hsz2 : (boxInfoWritten ⟨off, f.pos - off, (Form.of start).len, start.type, start.extendToEOF, {}⟩ off).headerSize =
              (Form.of start).len := by
            show (boxInfoBytes ⟨off, f.pos - off, (Form.of start).len, start.type, start.extendToEOF, {}⟩).length = _
            rw [hbytes, Form.header_length]
          rw [if_neg (by rw [hsz2]; simp)]
          obtain ⟨k1, k2⟩ := keep ((Form.of start).header start.type (f.pos - off)) (by simp)
          have hmod2 : f.pos % U64 = f.pos := Nat.mod_eq_of_lt (by simp only [U64]; omega)
          cases h5 : F.seek (f.calls + 1 + 1 + 1 + 1) with
          | true =>
            have e4 : ∀ data pos, liftF (fSeekStart F f.pos) ⟨⟨data, pos, f.calls + 1 + 1 + 1 + 1⟩, stack⟩ =
                (.err .sink, ⟨⟨data, pos, f.calls + 1 + 1 + 1 + 1 + 1⟩, stack⟩) := by
              intro data pos
              simp only [liftF, fSeekStart, h5, if_true]
            rw [M.bind_err (e4 _ _)]
            exact ⟨_, _, rfl, hw ▸ rfl, k1, k2, by simp, by simp⟩
          | false =>
            have e4 : ∀ data pos, liftF (fSeekStart F f.pos) ⟨⟨data, pos, f.calls + 1 + 1 + 1 + 1⟩, stack⟩ =
                (.ok f.pos, ⟨⟨data, f.pos, f.calls + 1 + 1 + 1 + 1 + 1⟩, stack⟩) := by
              intro data pos
              simp only [liftF, fSeekStart, h5, Bool.false_eq_true, if_false, hmod2]
              rw [if_neg (by omega)]
            rw [M.bind_ok (e4 _ _)]
            refine ⟨_, _, rfl, hw ▸ rfl, k1, k2, ?_, fun h => absurd rfl (h _)⟩
            intro bi hbi
            cases hbi
            exact ⟨rfl, rfl, rfl⟩

/-- The hypotheses are met by a `free` box of 12 bytes. -/
example : ∃ (start : BoxInfo) (off : Nat) (f : FSt), (Form.of start = .small → f.pos - off < 2 ^ 32) ∧ off + (Form.of start).len ≤ f.pos ∧
    f.pos ≤ f.data.length ∧ f.data.length < 2 ^ 63 :=
  ⟨{ type := ⟨0x66, 0x72, 0x65, 0x65⟩ }, 0, ⟨[0, 0, 0, 0, 0x66, 0x72, 0x65, 0x65, 1, 2, 3, 4], 12, 3⟩,
    by decide, by decide, by decide, by decide⟩

/-- **C31** is false for boxes that outgrow their header: a box with an ordinary header into which `p`, of at least 2^32 − 8 bytes, is written.  `EndBox`
returns an error, but it has written a longer header over the first eight bytes of the payload. -/
theorem endBox_damages (t : BoxType) (p : Bytes) (h1 : 2 ^ 32 ≤ 8 + p.length) (h2 : p.length < 2 ^ 62) :
    ∃ s r1, runOps noFaults [.start { type := t }, .write p] (WrSt.new ⟨[], 0, 0⟩) = (.ok r1, s) ∧
      s.file.data.drop 8 = p ∧
      ∃ s', Writer.endBox noFaults s = (.err .headerSizeChanged, s') ∧
        s'.file.data.drop 8 = Form.bigEndian 8 (8 + p.length) ++ p.drop 8 := by
  have e1 := startBox_ok { type := t } (WrSt.new ⟨[], 0, 0⟩)
  have hf : Form.of { type := t } = .small := rfl
  have hw : writeAt [] 0 (Form.small.header t 0) = Form.small.header t 0 := by
    have := writeAt_end [] (Form.small.header t 0)
    simpa using this
  simp only [WrSt.new, hf] at e1
  rw [hw] at e1
  have hl8 : (Form.small.header t 0).length = 8 := by simp [Form.len]
  have hwe : writeAt (Form.small.header t 0) (0 + Form.small.len) p = Form.small.header t 0 ++ p := by
    have := writeAt_end (Form.small.header t 0) p
    rw [hl8] at this
    exact this
  have e2 := write_ok p ⟨⟨Form.small.header t 0, 0 + Form.small.len, 0 + 1 + 1⟩,
    [boxInfoWritten { type := t } 0]⟩
  simp only [hwe] at e2
  refine ⟨_, _, runOps_cons (o := .start { type := t }) (M.bind_ok e1)
    (runOps_cons (o := .write p) (M.bind_ok e2) rfl), ?_, ?_⟩
  · show (Form.small.header t 0 ++ p).drop 8 = p
    conv => lhs; arg 1; rw [← hl8]
    rw [List.drop_left]
  · have hs : sub64 (0 + Form.small.len + p.length) 0 = 8 + p.length := by
      unfold sub64
      simp only [U64, Form.len]
      omega
    have hform : Form.of { boxInfoWritten { type := t } 0 with size := 8 + p.length } = .large := by
      unfold Form.of
      change (if false = true then _ else _) = _
      simp only [Bool.false_eq_true, if_false]
      rw [if_pos (.inr h1)]
    have hb : boxInfoBytes { boxInfoWritten { type := t } 0 with size := 8 + p.length } =
        Form.large.header t (8 + p.length) := by
      rw [boxInfoBytes_form, hform]
      rfl
    have hh : (boxInfoWritten { boxInfoWritten { type := t } 0 with size := 8 + p.length } 0).headerSize = 16 := by
      show (boxInfoBytes { boxInfoWritten { type := t } 0 with size := 8 + p.length }).length = 16
      rw [hb]
      simp [Form.len]
    refine ⟨⟨⟨writeAt (Form.small.header t 0 ++ p) 0 (Form.large.header t (8 + p.length)), 0 + 16, 7⟩, []⟩, ?_, ?_⟩
    · unfold Writer.endBox
      refine (M.bind_ok (show Writer.pop _ = (.ok (boxInfoWritten { type := t } 0), _) from rfl)).trans ?_
      refine (M.bind_ok (show liftF (fSeekCur noFaults) _ = (.ok (0 + Form.small.len + p.length), _) from rfl)).trans ?_
      simp only [show (boxInfoWritten { type := t } 0).offset = 0 from rfl]
      rw [hs]
      refine (M.bind_ok (show liftF (fSeekStart noFaults 0) _ = (.ok 0, _) from rfl)).trans ?_
      refine (M.bind_ok (show liftF (writeBoxInfo noFaults { boxInfoWritten { type := t } 0 with size := 8 + p.length }) _ =
        (.ok (boxInfoWritten { boxInfoWritten { type := t } 0 with size := 8 + p.length } 0), _) from rfl)).trans ?_
      rw [hb, if_pos (by rw [hh]; exact (by decide : (8 : Nat) ≠ 16))]
      rfl
    · have hlen : (Form.large.header t (8 + p.length)).length = 16 := by simp [Form.len]
      have hne : Form.large.header t (8 + p.length) ≠ [] := by
        intro h; rw [h] at hlen; simp at hlen
      show (writeAt (Form.small.header t 0 ++ p) 0 (Form.large.header t (8 + p.length))).drop 8 = _
      rw [writeAt_cons hne]
      simp only [List.take_zero, Nat.zero_sub, List.replicate_zero, List.nil_append, Nat.zero_add, hlen]
      have hd : (Form.small.header t 0 ++ p).drop 16 = p.drop 8 := by
        rw [List.drop_append, hl8, List.drop_eq_nil_of_le (by rw [hl8]; omega), List.nil_append]
      rw [hd]
      rfl

/-- Such a payload, for which this is damage. -/
example : ∃ p : Bytes, 2 ^ 32 ≤ 8 + p.length ∧ p.length < 2 ^ 62 ∧ Form.bigEndian 8 (8 + p.length) ++ p.drop 8 ≠ p := by
  obtain ⟨n, h1, h2⟩ : ∃ n : Nat, 2 ^ 32 ≤ n ∧ n < 2 ^ 33 := ⟨2 ^ 32, by decide, by decide⟩
  refine ⟨List.replicate n 0xff, by rw [List.length_replicate]; omega, by rw [List.length_replicate]; omega, ?_⟩
  intro h
  have h0 := congrArg (·[0]?) h
  simp only [List.length_replicate, Form.bigEndian, List.range_succ_eq_map, List.map_cons, List.cons_append,
    List.getElem?_cons_zero, List.getElem?_replicate] at h0
  rw [if_pos (by omega)] at h0
  have h3 := congrArg BitVec.toNat (Option.some.inj h0)
  rw [BitVec.toNat_ofNat, Nat.div_eq_of_lt (show 8 + n < 256 ^ (8 - 1 - 0) by omega)] at h3
  exact absurd h3 (by decide)

end Mp4.Props
