import Verif.Lemmas.Bits

/-! # Lemmas about the bit reader and writer -/

namespace Mp4

theorem byteBits_or_bit (x : Byte) (j : Nat) (h : j < 8) :
    byteBits (x ||| (1#8 <<< (7 - j))) = (byteBits x).set j true := by
  match j, h with
  | 0, _ => simp [byteBits]
  | 1, _ => simp [byteBits]
  | 2, _ => simp [byteBits]
  | 3, _ => simp [byteBits]
  | 4, _ => simp [byteBits]
  | 5, _ => simp [byteBits]
  | 6, _ => simp [byteBits]
  | 7, _ => simp [byteBits]

theorem bytesBits_modify (data : Bytes) (i : Nat) (h : i < 8 * data.length) :
    bytesBits (data.modify (i / 8) (fun x => x ||| (1#8 <<< (7 - i % 8)))) =
      (bytesBits data).set i true := by
  induction data generalizing i with
  | nil => simp at h
  | cons x xs ih =>
    by_cases hi : i < 8
    · have h0 : i / 8 = 0 := by omega
      have h1 : i % 8 = i := by omega
      rw [h0, h1, List.modify_zero_cons, bytesBits_cons, bytesBits_cons, byteBits_or_bit x i hi,
        List.set_append_left _ _ (by simpa using hi)]
    · obtain ⟨j, rfl⟩ : ∃ j, i = j + 8 := ⟨i - 8, by omega⟩
      have h0 : (j + 8) / 8 = j / 8 + 1 := by omega
      have h1 : (j + 8) % 8 = j % 8 := by omega
      rw [h0, h1, List.modify_succ_cons, bytesBits_cons, bytesBits_cons, ih j (by simp at h; omega),
        List.set_append_right _ _ (by simp)]
      simp

theorem getD_getLsbD (data : Bytes) (i : Nat) (h : i < 8 * data.length) :
    (data.getD (i / 8) 0#8).getLsbD (7 - i % 8) = (bytesBits data)[i]'(by simpa using h) := by
  induction data generalizing i with
  | nil => simp at h
  | cons x xs ih =>
    by_cases hi : i < 8
    · have h0 : i / 8 = 0 := by omega
      have h1 : i % 8 = i := by omega
      simp only [h0, h1, List.getD_cons_zero, bytesBits_cons]
      rw [List.getElem_append_left (by simpa using hi)]
      match i, hi with
      | 0, _ => rfl
      | 1, _ => rfl
      | 2, _ => rfl
      | 3, _ => rfl
      | 4, _ => rfl
      | 5, _ => rfl
      | 6, _ => rfl
      | 7, _ => rfl
    · obtain ⟨j, rfl⟩ : ∃ j, i = j + 8 := ⟨i - 8, by omega⟩
      have h0 : (j + 8) / 8 = j / 8 + 1 := by omega
      have h1 : (j + 8) % 8 = j % 8 := by omega
      simp only [h0, h1, List.getD_cons_succ, bytesBits_cons]
      rw [List.getElem_append_right (by simp), ih j (by simp at h; omega)]
      simp

/-! ## Reader -/

/-- The bits the reader has not delivered yet. -/
def RSt.rem (d : Bytes) (s : RSt) : List Bool :=
  natBits s.width s.octet.toNat ++ bytesBits (d.drop s.pos)

/-- Reachable reader states. -/
structure RSt.WF (d : Bytes) (s : RSt) : Prop where
  width : s.width < 8
  pos : s.pos ≤ d.length

theorem RSt.rem_length {d : Bytes} {s : RSt} :
    (s.rem d).length = s.width + 8 * (d.length - s.pos) := by
  simp [RSt.rem]

theorem RSt.fresh_wf {d : Bytes} {p : Nat} (h : p ≤ d.length) : (RSt.fresh p).WF d :=
  ⟨by simp [RSt.fresh], h⟩

theorem RSt.fresh_rem (d : Bytes) (p : Nat) : (RSt.fresh p).rem d = bytesBits (d.drop p) := by
  simp [RSt.fresh, RSt.rem, natBits]

/-- Position and width are determined by the number of bits left. -/
theorem RSt.WF.pos_eq {d : Bytes} {s : RSt} (h : s.WF d) :
    s.pos = d.length - (s.rem d).length / 8 ∧ s.width = (s.rem d).length % 8 := by
  have := h.width; have := h.pos
  rw [RSt.rem_length]; omega

theorem readBit_cons {d : Bytes} {s : RSt} {b : Bool} {t : List Bool} (hw : s.WF d)
    (h : s.rem d = b :: t) : ∃ s', readBit d s = (.ok b, s') ∧ s'.rem d = t ∧ s'.WF d := by
  unfold readBit
  by_cases h0 : s.width = 0
  · simp only [h0, if_pos]
    have hl := congrArg List.length h
    rw [RSt.rem_length, h0] at hl
    simp only [List.length_cons, Nat.zero_add] at hl
    have hlt : s.pos < d.length := by omega
    rw [List.getElem?_eq_getElem hlt]
    refine ⟨⟨s.pos + 1, d[s.pos], 7⟩, ?_, ?_, ?_⟩
    · rw [RSt.rem, h0, List.drop_eq_getElem_cons hlt] at h
      simp only [natBits, List.nil_append, bytesBits_cons, byteBits, List.cons_append,
        List.cons.injEq] at h
      rw [← h.1]
    · rw [RSt.rem, h0, List.drop_eq_getElem_cons hlt, bytesBits_cons, byteBits_eq_natBits] at h
      rw [natBits.eq_2] at h
      simp only [natBits.eq_1, List.nil_append, List.cons_append, List.cons.injEq] at h
      exact h.2
    · exact ⟨by simp, hlt⟩
  · rw [if_neg h0]
    obtain ⟨w, hw'⟩ : ∃ w, s.width = w + 1 := ⟨s.width - 1, by omega⟩
    refine ⟨{ s with width := s.width - 1 }, ?_, ?_, ?_⟩
    · rw [RSt.rem, hw', natBits] at h
      simp only [List.cons_append, List.cons.injEq] at h
      simp [hw', ← h.1, BitVec.testBit_toNat]
    · rw [RSt.rem, hw', natBits] at h
      simp only [List.cons_append, List.cons.injEq] at h
      simp [RSt.rem, hw', h.2]
    · have := hw.width; have := hw.pos
      exact ⟨by simp; omega, by simpa using hw.pos⟩


theorem readBit_nil {d : Bytes} {s : RSt} (h : s.rem d = []) :
    readBit d s = (.err .eof, s) := by
  have hl := congrArg List.length h
  rw [RSt.rem_length] at hl
  simp only [List.length_nil] at hl
  unfold readBit
  rw [if_pos (by omega), List.getElem?_eq_none (by omega)]

theorem readBitsLoop_ok {d : Bytes} (k : Nat) :
    ∀ {idx : Nat} {data : Bytes} {s : RSt} {pre bs t : List Bool}, s.WF d →
      s.rem d = bs ++ t → bs.length = k → idx + k = 8 * data.length → pre.length = idx →
      bytesBits data = pre ++ List.replicate k false →
      ∃ out s', readBitsLoop d k idx data s = (.ok out, s') ∧ s'.rem d = t ∧ s'.WF d ∧
        bytesBits out = pre ++ bs := by
  induction k with
  | zero =>
    intro idx data s pre bs t hw hr hl _ _ hd
    have : bs = [] := List.eq_nil_of_length_eq_zero hl
    subst this
    exact ⟨data, s, rfl, hr, hw, by simpa using hd⟩
  | succ k ih =>
    intro idx data s pre bs t hw hr hl hidx hp hd
    obtain ⟨b, bs', rfl⟩ : ∃ b bs', bs = b :: bs' := by
      cases bs with
      | nil => simp at hl
      | cons b bs' => exact ⟨b, bs', rfl⟩
    obtain ⟨s1, h1, hr1, hw1⟩ := readBit_cons hw hr
    have key : bytesBits (if b then data.modify (idx / 8) (fun x => x ||| (1#8 <<< (7 - idx % 8)))
        else data) = (pre ++ [b]) ++ List.replicate k false := by
      cases b with
      | false => simpa [List.replicate_succ] using hd
      | true =>
        simp only [if_pos]
        rw [bytesBits_modify _ _ (by omega), hd, List.set_append_right _ _ (by omega)]
        simp [hp, List.replicate_succ]
    have hlen : (if b then data.modify (idx / 8) (fun x => x ||| (1#8 <<< (7 - idx % 8)))
        else data).length = data.length := by
      split <;> simp
    obtain ⟨out, s2, h2, hr2, hw2, ho⟩ := ih (idx := idx + 1) hw1 hr1 (by simpa using hl)
      (by rw [hlen]; omega) (by simp [hp]) key
    refine ⟨out, s2, ?_, hr2, hw2, by simpa using ho⟩
    rw [readBitsLoop, M.bind_ok h1]
    exact h2

theorem readBitsLoop_eof {d : Bytes} (k : Nat) :
    ∀ {idx : Nat} {data : Bytes} {s : RSt}, s.WF d → (s.rem d).length < k →
      ∃ s', readBitsLoop d k idx data s = (.err .eof, s') ∧ s'.rem d = [] ∧ s'.WF d := by
  induction k with
  | zero => intro idx data s _ h; exact absurd h (Nat.not_lt_zero _)
  | succ k ih =>
    intro idx data s hw h
    cases hr : s.rem d with
    | nil => exact ⟨s, by rw [readBitsLoop, M.bind_err (readBit_nil hr)], hr, hw⟩
    | cons b t =>
      obtain ⟨s1, h1, hr1, hw1⟩ := readBit_cons hw hr
      rw [readBitsLoop, M.bind_ok h1]
      exact ih hw1 (by rw [hr1]; rw [hr] at h; simpa using h)

/-- `ReadBits` delivers exactly the next `size` bits, right aligned. -/
theorem readBits_ok {d : Bytes} {s : RSt} {bs t : List Bool} {size : Nat} (hw : s.WF d)
    (hr : s.rem d = bs ++ t) (hl : bs.length = size) :
    ∃ out s', readBits d size s = (.ok out, s') ∧ s'.rem d = t ∧ s'.WF d ∧
      bytesBits out = List.replicate ((size + 7) / 8 * 8 - size) false ++ bs := by
  unfold readBits
  apply readBitsLoop_ok size hw hr hl
  · simp; omega
  · simp
  · have hz : bytesBits (List.replicate ((size + 7) / 8) 0#8) =
        List.replicate (8 * ((size + 7) / 8)) false := by
      generalize (size + 7) / 8 = n
      induction n with
      | zero => rfl
      | succ n ih =>
        rw [List.replicate_succ, bytesBits_cons, ih, Nat.mul_succ, Nat.add_comm,
          ← List.replicate_append_replicate]
        rfl
    rw [hz, List.replicate_append_replicate]
    congr 1
    omega

theorem readBits_eof {d : Bytes} {s : RSt} {size : Nat} (hw : s.WF d)
    (h : (s.rem d).length < size) :
    ∃ s', readBits d size s = (.err .eof, s') ∧ s'.rem d = [] ∧ s'.WF d :=
  readBitsLoop_eof size hw h

theorem RSt.rem_aligned {d : Bytes} {s : RSt} (h : s.width = 0) :
    s.rem d = bytesBits (d.drop s.pos) := by
  simp [RSt.rem, h, natBits]

/-! ## Writer -/

/-- The bits a writer on an in-memory destination has been given. -/
def WSt.bits (s : WSt Bytes) : List Bool :=
  bytesBits s.sink ++ (byteBits s.octet).take s.width

/-- Reachable writer states (in-memory destination). -/
structure WSt.WF (s : WSt Bytes) : Prop where
  width : s.width < 8
  zero : (byteBits s.octet).drop s.width = List.replicate (8 - s.width) false

theorem WSt.fresh_wf (o : Bytes) : (WSt.fresh o).WF := ⟨by simp [WSt.fresh], by simp [WSt.fresh, byteBits, List.replicate]⟩

theorem WSt.fresh_bits (o : Bytes) : (WSt.fresh o).bits = bytesBits o := by
  simp [WSt.fresh, WSt.bits]

theorem WSt.bits_length (s : WSt Bytes) (h : s.WF) :
    s.bits.length = 8 * s.sink.length + s.width := by
  have := h.width
  simp [WSt.bits]; omega

theorem WSt.WF.eq_of_bits {s t : WSt Bytes} (hs : s.WF) (ht : t.WF) (h : s.bits = t.bits) :
    s = t := by
  have hl := congrArg List.length h
  rw [WSt.bits_length s hs, WSt.bits_length t ht] at hl
  have h1 := hs.width; have h2 := ht.width
  have hw : s.width = t.width := by omega
  have hk : s.sink.length = t.sink.length := by omega
  unfold WSt.bits at h
  have h3 := List.append_inj h (by simp [hk])
  have h4 : byteBits s.octet = byteBits t.octet := by
    rw [← List.take_append_drop s.width (byteBits s.octet), h3.2, hs.zero, hw, ← ht.zero,
      List.take_append_drop]
  cases s; cases t
  simp only at h3 h4 hw
  rw [bytesBits_inj h3.1, byteBits_inj h4, hw]

theorem writeBit_mem {s : WSt Bytes} (hw : s.WF) (b : Bool) :
    ∃ s', writeBit memSink b s = (.ok (), s') ∧ s'.bits = s.bits ++ [b] ∧ s'.WF := by
  obtain ⟨sk, oc, wd⟩ := s
  have h1 := hw.width
  have h2 := hw.zero
  simp only at h1 h2
  have hoct : byteBits (if b = true ∧ wd ≤ 7 then oc ||| (1#8 <<< (7 - wd)) else oc) =
      (byteBits oc).take wd ++ [b] ++ List.replicate (8 - (wd + 1)) false := by
    have e : byteBits oc = (byteBits oc).take wd ++ List.replicate (8 - wd) false := by
      rw [← h2, List.take_append_drop]
    have hr : List.replicate (8 - wd) false = false :: List.replicate (8 - (wd + 1)) false := by
      rw [← List.replicate_succ]; congr 1; omega
    cases b with
    | false =>
      simp only [Bool.false_eq_true, false_and, if_false]
      rw [List.append_assoc, List.singleton_append, ← hr, ← e]
    | true =>
      rw [if_pos ⟨rfl, by omega⟩, byteBits_or_bit _ _ h1]
      conv => lhs; rw [e]
      rw [List.set_append_right _ _ (by simp; omega), hr]
      have : wd - (List.take wd (byteBits oc)).length = 0 := by simp; omega
      rw [this]
      simp
  unfold writeBit
  simp only
  generalize (if b = true ∧ wd ≤ 7 then oc ||| (1#8 <<< (7 - wd)) else oc) = oc' at hoct
  by_cases h8 : wd + 1 = 8
  · rw [if_pos h8]
    simp only [memSink]
    refine ⟨_, rfl, ?_, ⟨by simp, by simp [byteBits, List.replicate]⟩⟩
    have : wd = 7 := by omega
    subst this
    simp [WSt.bits, bytesBits_append, hoct]
  · rw [if_neg h8]
    have hlen : (List.take wd (byteBits oc) ++ [b]).length = wd + 1 := by simp; omega
    refine ⟨_, rfl, ?_, ⟨by simp; omega, ?_⟩⟩
    · simp only [WSt.bits]
      rw [hoct, List.append_assoc (bytesBits sk)]
      congr 1
      rw [List.take_append_of_le_length (by omega), List.take_of_length_le (by omega)]
    · simp only
      rw [hoct, List.drop_append_of_le_length (by omega), List.drop_eq_nil_of_le (by omega),
        List.nil_append]

theorem writeBitsLoop_mem {data : Bytes} (n : Nat) : ∀ {i : Nat} {s : WSt Bytes}, s.WF →
    i + n = 8 * data.length →
    ∃ s', writeBitsLoop memSink data n i s = (.ok (), s') ∧
      s'.bits = s.bits ++ (bytesBits data).drop i ∧ s'.WF := by
  induction n with
  | zero =>
    intro i s hw hi
    refine ⟨s, rfl, ?_, hw⟩
    rw [List.drop_eq_nil_of_le (by simp; omega)]
    simp
  | succ n ih =>
    intro i s hw hi
    obtain ⟨s1, h1, hb1, hw1⟩ := writeBit_mem hw ((data.getD (i / 8) 0#8).getLsbD (7 - i % 8))
    obtain ⟨s2, h2, hb2, hw2⟩ := ih (i := i + 1) hw1 (by omega)
    refine ⟨s2, ?_, ?_, hw2⟩
    · rw [writeBitsLoop, M.bind_ok h1, h2]
    · rw [hb2, hb1, getD_getLsbD _ _ (by omega), List.append_assoc]
      congr 1
      rw [List.singleton_append, ← List.drop_eq_getElem_cons]

/-- `WriteBits(data, width)` appends the `width` low bits of `data`. -/
theorem writeBits_mem {data : Bytes} {width : Nat} {s : WSt Bytes} (hw : s.WF)
    (h : width ≤ 8 * data.length) :
    ∃ s', writeBits memSink data width s = (.ok (), s') ∧
      s'.bits = s.bits ++ (bytesBits data).drop (8 * data.length - width) ∧ s'.WF := by
  unfold writeBits
  rw [Nat.mul_comm, if_pos h]
  exact writeBitsLoop_mem width hw (by omega)

theorem writeRaw_mem {p : Bytes} {s : WSt Bytes} (hw : s.WF) (h : s.width = 0) :
    ∃ s', writeRaw memSink p s = (.ok (), s') ∧ s'.bits = s.bits ++ bytesBits p ∧ s'.WF := by
  refine ⟨{ s with sink := s.sink ++ p }, ?_, ?_, ⟨hw.width, hw.zero⟩⟩
  · simp [writeRaw, h, memSink]
  · simp [WSt.bits, h, bytesBits_append]

end Mp4
