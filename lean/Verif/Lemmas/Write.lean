import Verif.Lemmas.BoxInfo
import Verif.Lemmas.MarshalErr
import Verif.Lemmas.Simulate
import Verif.Spec.Writer

namespace Mp4

theorem bigEndian_eq (k n : Nat) : Form.bigEndian k n = beBytes k n := by
  unfold Form.bigEndian
  induction k with
  | zero => rfl
  | succ k ih =>
    rw [List.range_succ_eq_map, List.map_cons, List.map_map, beBytes, ← ih]
    simp only [Nat.sub_zero, Nat.add_sub_cancel, List.cons.injEq, true_and]
    apply List.map_congr_left
    intro i hi
    simp only [Function.comp]
    congr 3
    omega

@[simp] theorem bigEndian_length (k n : Nat) : (Form.bigEndian k n).length = k := by simp [Form.bigEndian]

@[simp] theorem Form.header_length (f : Form) (t : BoxType) (n : Nat) : (f.header t n).length = f.len := by
  cases f <;> simp [Form.header, Form.len]

/-- `StartBox` uses the form asked for. -/
theorem boxInfoBytes_form (bi : BoxInfo) : boxInfoBytes bi = (Form.of bi).header bi.type bi.size := by
  unfold boxInfoBytes Form.of
  cases bi.extendToEOF with
  | true => simp [Form.header, bigEndian_eq, BoxType.bytes]
  | false =>
    simp only [Bool.false_eq_true, if_false]
    by_cases h : bi.headerSize = 16 ∨ 2 ^ 32 ≤ bi.size
    · rw [if_neg (by simp only [largeHeaderSize]; omega), if_pos h]
      simp [Form.header, bigEndian_eq, BoxType.bytes]
    · rw [if_pos (by simp only [largeHeaderSize]; omega), if_neg h]
      simp [Form.header, bigEndian_eq, BoxType.bytes]

theorem form_of_written {bi : BoxInfo} {off : Nat} {n : Nat} (h : Form.of bi = .small → n < 2 ^ 32) :
    Form.of { boxInfoWritten bi off with size := n } = Form.of bi := by
  have hl : (boxInfoBytes bi).length = (Form.of bi).len := by rw [boxInfoBytes_form]; simp
  unfold Form.of at h hl ⊢
  change (if bi.extendToEOF = true then Form.toEnd
    else if (boxInfoBytes bi).length = 16 ∨ 2 ^ 32 ≤ n then Form.large else Form.small) = _
  by_cases he : bi.extendToEOF = true
  · simp only [if_pos he]
  · simp only [if_neg he] at h hl ⊢
    by_cases hb : bi.headerSize = 16 ∨ 2 ^ 32 ≤ bi.size
    · rw [if_pos hb] at hl h ⊢
      rw [if_pos (.inl (by rw [hl]; rfl))]
    · rw [if_neg hb] at hl h ⊢
      rw [if_neg (by rw [hl]; simp only [Form.len]; have := h rfl; omega)]

/-! ## Single calls -/

theorem write_ok (p : Bytes) (s : WrSt) : Writer.write noFaults p s =
    (.ok (), ⟨⟨writeAt s.file.data s.file.pos p, s.file.pos + p.length, s.file.calls + 1⟩, s.stack⟩) := rfl

theorem startBox_ok (bi : BoxInfo) (s : WrSt) : Writer.startBox noFaults bi s =
    (.ok (boxInfoWritten bi s.file.pos),
      ⟨⟨writeAt s.file.data s.file.pos ((Form.of bi).header bi.type bi.size), s.file.pos + (Form.of bi).len,
        s.file.calls + 1 + 1⟩, boxInfoWritten bi s.file.pos :: s.stack⟩) := by
  have h := boxInfoBytes_form bi
  rw [← h, ← Form.header_length (Form.of bi) bi.type bi.size, ← h]
  rfl

theorem fSeekStart_ok {off : Nat} (h : off < 2 ^ 63) (f : FSt) :
    fSeekStart noFaults off f = (.ok off, ⟨f.data, off, f.calls + 1⟩) := by
  have : off % U64 = off := Nat.mod_eq_of_lt (by simp only [U64]; omega)
  simp only [fSeekStart, noFaults, this]
  rw [if_neg (by simp), if_neg (by omega)]

theorem endBox_ok {bi : BoxInfo} {stack : List BoxInfo} {f : FSt} (hp : f.pos < 2 ^ 63) (ho : bi.offset ≤ f.pos)
    (hh : bi.headerSize = (Form.of { bi with size := f.pos - bi.offset }).len) :
    Writer.endBox noFaults ⟨f, bi :: stack⟩ =
      (.ok { bi with size := f.pos - bi.offset },
        ⟨⟨writeAt f.data bi.offset ((Form.of { bi with size := f.pos - bi.offset }).header bi.type (f.pos - bi.offset)),
          f.pos, f.calls + 5⟩, stack⟩) := by
  have hs : sub64 f.pos bi.offset = f.pos - bi.offset := by
    unfold sub64
    simp only [U64]
    omega
  have hb := boxInfoBytes_form { bi with size := f.pos - bi.offset }
  have hl : (boxInfoBytes { bi with size := f.pos - bi.offset }).length = bi.headerSize := by
    rw [hb, Form.header_length, ← hh]
  have e0 : Writer.pop ⟨f, bi :: stack⟩ = (.ok bi, ⟨f, stack⟩) := rfl
  have e1 : liftF (fSeekCur noFaults) ⟨f, stack⟩ = (.ok f.pos, ⟨⟨f.data, f.pos, f.calls + 1⟩, stack⟩) := rfl
  have e2 : liftF (fSeekStart noFaults bi.offset) ⟨⟨f.data, f.pos, f.calls + 1⟩, stack⟩ =
      (.ok bi.offset, ⟨⟨f.data, bi.offset, f.calls + 1 + 1⟩, stack⟩) := by
    simp only [liftF, fSeekStart_ok (show bi.offset < 2 ^ 63 by omega)]
  have e3 : liftF (writeBoxInfo noFaults { bi with size := f.pos - bi.offset })
      ⟨⟨f.data, bi.offset, f.calls + 1 + 1⟩, stack⟩ =
      (.ok (boxInfoWritten { bi with size := f.pos - bi.offset } bi.offset),
        ⟨⟨writeAt f.data bi.offset (boxInfoBytes { bi with size := f.pos - bi.offset }),
          bi.offset + (boxInfoBytes { bi with size := f.pos - bi.offset }).length, f.calls + 1 + 1 + 1 + 1⟩, stack⟩) := rfl
  unfold Writer.endBox
  rw [M.bind_ok e0, M.bind_ok e1]
  simp only [hs]
  rw [M.bind_ok e2, M.bind_ok e3, if_neg (by simp only [boxInfoWritten, hl]; simp)]
  rw [hb]
  have e4 : ∀ data pos calls, liftF (fSeekStart noFaults f.pos) ⟨⟨data, pos, calls⟩, stack⟩ =
      (.ok f.pos, ⟨⟨data, f.pos, calls + 1⟩, stack⟩) := by
    intro data pos calls
    simp only [liftF, fSeekStart_ok hp]
  rw [M.bind_ok (e4 _ _ _)]
  rfl

/-! ## Copying -/

/-- The loop of `io.Copy`, without faults. -/
theorem copyLoop_ok : ∀ (k : Nat) (data : Bytes) (n : Nat) (s : WrSt), data.length ≤ k → ∃ calls,
    copyLoop noFaults data n s = (.ok (n + data.length),
      ⟨⟨writeAt s.file.data s.file.pos data, s.file.pos + data.length, calls⟩, s.stack⟩)
  | k, data, n, s, hk => by
    rw [copyLoop]
    by_cases h : data = []
    · rw [dif_pos h]
      subst h
      exact ⟨s.file.calls, by simp [writeAt_nil]⟩
    · rw [dif_neg h]
      have h0 : 0 < data.length := List.length_pos_iff.mpr h
      match k with
      | 0 => omega
      | k + 1 =>
        rw [M.bind_ok (write_ok _ s)]
        obtain ⟨c, e⟩ := copyLoop_ok k (data.drop copyBuffer) (n + (data.take copyBuffer).length)
          ⟨⟨writeAt s.file.data s.file.pos (data.take copyBuffer), s.file.pos + (data.take copyBuffer).length,
            s.file.calls + 1⟩, s.stack⟩ (by simp only [List.length_drop, copyBuffer]; omega)
        refine ⟨c, e.trans ?_⟩
        simp only [writeAt_append, List.take_append_drop]
        have : (data.take copyBuffer).length + (data.drop copyBuffer).length = data.length := by
          simp only [List.length_take, List.length_drop]
          omega
        simp only [Nat.add_assoc, this]

theorem int64_small {n : Nat} (h : n < 2 ^ 63) : int64 n = n := by
  unfold int64
  have : n % U64 = n := Nat.mod_eq_of_lt (by simp only [U64]; omega)
  rw [this, if_pos h]

theorem seekStartP_ok {off : Nat} (h : off < 2 ^ 63) (pos : Nat) : seekStartP off pos = (.ok off, off) := by
  have : off % U64 = off := Nat.mod_eq_of_lt (by simp only [U64]; omega)
  unfold seekStartP
  rw [this, if_neg (by omega)]

theorem copyBox_ok {src : Bytes} {bi : BoxInfo} (h : bi.offset + bi.size ≤ src.length) (hs : src.length < 2 ^ 63)
    (s : WrSt) : ∃ calls, Writer.copyBox noFaults src bi s = (.ok (),
      ⟨⟨writeAt s.file.data s.file.pos ((src.drop bi.offset).take bi.size), s.file.pos + bi.size, calls⟩, s.stack⟩) := by
  have hl : ((src.drop bi.offset).take bi.size).length = bi.size := by
    simp only [List.length_take, List.length_drop]; omega
  obtain ⟨c, e⟩ := copyLoop_ok _ ((src.drop bi.offset).take bi.size) 0 s (Nat.le_refl _)
  refine ⟨c, ?_⟩
  unfold Writer.copyBox
  rw [seekStartP_ok (by omega), int64_small (by omega)]
  simp only
  have e2 : copyNW noFaults src bi.offset (bi.size : Int) s = (.ok (bi.size : Int),
      ⟨⟨writeAt s.file.data s.file.pos ((src.drop bi.offset).take bi.size), s.file.pos + bi.size, c⟩, s.stack⟩) := by
    unfold copyNW
    rw [Int.toNat_natCast, M.bind_ok e, if_pos (by rw [hl]; simp), hl]
    rfl
  rw [M.bind_ok e2, if_neg (by simp)]
  rfl

/-! ## `Marshal` into the writer -/

/-- `Marshal` writes into the writer what it appends to a buffer. -/
theorem marshal_writer (bd : BoxDef) (ctx : Ctx) (sv : SV) (s : WrSt) : ∃ calls,
    marshalBox bd (writerSink noFaults) ctx sv s = ((marshalBox bd memSink ctx sv []).1,
      ⟨⟨writeAt s.file.data s.file.pos (marshalBox bd memSink ctx sv []).2,
        s.file.pos + (marshalBox bd memSink ctx sv []).2.length, calls⟩, s.stack⟩) := by
  have := alike_box (R := fun (s' : WrSt) (t : Bytes) => ∃ calls,
      s' = ⟨⟨writeAt s.file.data s.file.pos t, s.file.pos + t.length, calls⟩, s.stack⟩)
    (k := writerSink noFaults) (l := memSink) (by
      rintro p s' t ⟨c, rfl⟩
      refine ⟨rfl, c + 1, ?_⟩
      simp only [writerSink, write_ok, memSink, writeAt_append, List.length_append, Nat.add_assoc])
    bd ctx sv (s := s) (t := []) ⟨s.file.calls, by simp⟩
  obtain ⟨h1, c, h2⟩ := this
  exact ⟨c, Prod.ext h1 h2⟩

/-! ## Sequences of calls -/

theorem runOps_append {F : Faults} {a b : List WOp} {s s1 s2 : WrSt} {r1 r2 : List (Option BoxInfo)}
    (h1 : runOps F a s = (.ok r1, s1)) (h2 : runOps F b s1 = (.ok r2, s2)) :
    runOps F (a ++ b) s = (.ok (r1 ++ r2), s2) := by
  induction a generalizing s r1 with
  | nil =>
    cases h1
    simpa using h2
  | cons o a ih =>
    obtain ⟨x, s', e1, e2⟩ := bind_ok_inv h1
    obtain ⟨y, s'', e3, e4⟩ := bind_ok_inv e2
    cases e4
    simp only [List.cons_append, runOps]
    rw [M.bind_ok e1, M.bind_ok (ih e3)]
    rfl

theorem runOps_cons {F : Faults} {o : WOp} {os : List WOp} {s s1 s2 : WrSt} {r : Option BoxInfo}
    {rs : List (Option BoxInfo)} (h1 : o.run F s = (.ok r, s1)) (h2 : runOps F os s1 = (.ok rs, s2)) :
    runOps F (o :: os) s = (.ok (r :: rs), s2) := by
  simp only [runOps]
  rw [M.bind_ok h1, M.bind_ok h2]
  rfl

theorem written_eq (bi : BoxInfo) (off : Nat) : boxInfoWritten bi off =
    { offset := off, size := ((bi.size - bi.headerSize + (Form.of bi).len : Int) % 2 ^ 64).toNat,
      headerSize := (Form.of bi).len, type := bi.type, extendToEOF := bi.extendToEOF } := by
  have hl : (boxInfoBytes bi).length = (Form.of bi).len := by rw [boxInfoBytes_form]; simp
  unfold boxInfoWritten
  rw [hl]
  congr 1
  unfold add64 sub64
  simp only [U64]
  omega

theorem tree_ok : ∀ (t : WTree) (s : WrSt), t.Fits → s.file.pos + t.ser.length < 2 ^ 63 → ∃ calls,
    runOps noFaults t.ops s = (.ok (t.results s.file.pos),
      ⟨⟨writeAt s.file.data s.file.pos t.ser, s.file.pos + t.ser.length, calls⟩, s.stack⟩)
  | .nil, s, _, _ => ⟨s.file.calls, by simp [WTree.ser]; rfl⟩
  | .bytes p rest, s, hf, hl => by
    simp only [WTree.ser, List.length_append] at hl
    obtain ⟨c, e⟩ := tree_ok rest ⟨⟨writeAt s.file.data s.file.pos p, s.file.pos + p.length, s.file.calls + 1⟩, s.stack⟩ hf
      (by simp only; omega)
    refine ⟨c, ?_⟩
    rw [writeAt_append] at e
    refine (runOps_cons (o := .write p) (r := none) (M.bind_ok (write_ok p s)) e).trans ?_
    simp only [WTree.ser, WTree.results, List.length_append, Nat.add_assoc]
  | .copy src bi rest, s, hf, hl => by
    obtain ⟨h1, h2, hf⟩ := hf
    have hln : ((src.drop bi.offset).take bi.size).length = bi.size := by
      simp only [List.length_take, List.length_drop]; omega
    simp only [WTree.ser, List.length_append, hln] at hl
    obtain ⟨c0, e0⟩ := copyBox_ok h1 h2 s
    obtain ⟨c, e⟩ := tree_ok rest ⟨⟨writeAt s.file.data s.file.pos ((src.drop bi.offset).take bi.size),
      s.file.pos + bi.size, c0⟩, s.stack⟩ hf (by simp only; omega)
    refine ⟨c, ?_⟩
    have ha := writeAt_append s.file.data s.file.pos ((src.drop bi.offset).take bi.size) rest.ser
    rw [hln] at ha
    rw [ha] at e
    refine (runOps_cons (o := .copy src bi) (r := none) (M.bind_ok e0) e).trans ?_
    simp only [WTree.ser, WTree.results, List.length_append, Nat.add_assoc, hln]
  | .fields bd ctx sv rest, s, hf, hl => by
    obtain ⟨⟨n, hn⟩, hf⟩ := hf
    obtain ⟨c0, e0⟩ := marshal_writer bd ctx sv s
    simp only [WTree.ser, List.length_append] at hl
    simp only [WTree.ser, WTree.results, List.length_append, ← Nat.add_assoc]
    rw [hn] at e0
    generalize (marshalBox bd memSink ctx sv []).2 = p at *
    obtain ⟨c, e⟩ := tree_ok rest ⟨⟨writeAt s.file.data s.file.pos p, s.file.pos + p.length, c0⟩, s.stack⟩ hf
      (by simp only; omega)
    refine ⟨c, ?_⟩
    rw [writeAt_append] at e
    exact runOps_cons (o := .marshal bd ctx sv) (r := none) (by simp only [WOp.run, e0]) e
  | .box start body rest, s, hf, hl => by
    obtain ⟨hsm, hfb, hfr⟩ := hf
    simp only [WTree.ser, List.length_append, Form.header_length] at hl
    -- `StartBox`
    have e1 := startBox_ok start s
    -- the body
    obtain ⟨c2, e2⟩ := tree_ok body ⟨⟨writeAt s.file.data s.file.pos ((Form.of start).header start.type start.size),
      s.file.pos + (Form.of start).len, s.file.calls + 1 + 1⟩, boxInfoWritten start s.file.pos :: s.stack⟩ hfb
      (by simp only; omega)
    have ha := writeAt_append s.file.data s.file.pos ((Form.of start).header start.type start.size) body.ser
    rw [Form.header_length] at ha
    simp only [ha] at e2
    -- `EndBox`
    have hform : Form.of { boxInfoWritten start s.file.pos with
        size := s.file.pos + (Form.of start).len + body.ser.length - (boxInfoWritten start s.file.pos).offset } =
        Form.of start := by
      apply form_of_written
      intro h
      have := hsm h
      rw [h]
      simp only [boxInfoWritten, Form.len]
      omega
    have e3 := endBox_ok (bi := boxInfoWritten start s.file.pos) (stack := s.stack)
      (f := ⟨writeAt s.file.data s.file.pos ((Form.of start).header start.type start.size ++ body.ser),
        s.file.pos + (Form.of start).len + body.ser.length, c2⟩) (by simp only; omega)
      (by simp only [boxInfoWritten]; omega)
      (by simp only [hform]; rw [written_eq])
    simp only [hform] at e3
    have ho : (boxInfoWritten start s.file.pos).offset = s.file.pos := rfl
    have ht : (boxInfoWritten start s.file.pos).type = start.type := rfl
    have hsub : s.file.pos + (Form.of start).len + body.ser.length - s.file.pos = (Form.of start).len + body.ser.length := by
      omega
    rw [ho, ht, hsub, writeAt_patch _ _ _ _ _ (by simp)] at e3
    -- the rest
    obtain ⟨c4, e4⟩ := tree_ok rest ⟨⟨writeAt s.file.data s.file.pos
        ((Form.of start).header start.type ((Form.of start).len + body.ser.length) ++ body.ser),
      s.file.pos + (Form.of start).len + body.ser.length, c2 + 5⟩, s.stack⟩ hfr (by simp only; omega)
    have hb := writeAt_append s.file.data s.file.pos
      ((Form.of start).header start.type ((Form.of start).len + body.ser.length) ++ body.ser) rest.ser
    simp only [List.length_append, Form.header_length, ← Nat.add_assoc] at hb
    simp only [hb] at e4
    refine ⟨c4, ?_⟩
    refine (runOps_cons (o := .start start) (M.bind_ok e1)
      (runOps_append e2 (runOps_cons (o := .close) (M.bind_ok e3) e4))).trans ?_
    rw [written_eq]
    simp only [WTree.ser, WTree.results, List.length_append, Form.header_length, ← Nat.add_assoc]

end Mp4
