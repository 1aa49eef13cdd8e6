import Verif.Lemmas.Bitio

/-!
# C01, C02: the bit reader and writer
-/

namespace Mp4.Props

/-- Write a sequence of bit fields `(data, width)` with `WriteBits`. -/
def writeFields {σ : Type} (k : Sink σ) : List (Bytes × Nat) → WM σ Unit
  | [] => pure ()
  | (data, w) :: fs => do writeBits k data w; writeFields k fs

/-- Read fields of the given widths with `ReadBits`. -/
def readFields (d : Bytes) : List Nat → RM (List Bytes)
  | [] => pure []
  | w :: ws => do
    let x ← readBits d w
    let xs ← readFields d ws
    pure (x :: xs)

/-- Number denoted by a byte string, big endian. -/
def num (b : Bytes) : Nat := b.foldl (fun v x => v * 256 + x.toNat) 0

/-- Specification: the bits of a field, most significant first. -/
def fieldBits (f : Bytes × Nat) : List Bool := natBits f.2 (num f.1)

/-- Specification: the fields concatenated. -/
def fieldsBits (fs : List (Bytes × Nat)) : List Bool := (fs.map fieldBits).flatten

private theorem num_eq (b : Bytes) : num b = bitsNat (bytesBits b) := by
  have := bitsNat_bytesBits_foldl b 0
  simpa [num] using this

private theorem drop_eq_natBits (data : Bytes) (w : Nat) (h : w ≤ 8 * data.length) :
    (bytesBits data).drop (8 * data.length - w) = fieldBits (data, w) := by
  unfold fieldBits
  simp only
  rw [num_eq]
  have e := natBits_bitsNat (bytesBits data)
  rw [bytesBits_length] at e
  conv => lhs; rw [← e]
  have : 8 * data.length = (8 * data.length - w) + w := by omega
  conv => lhs; arg 2; rw [this]
  rw [natBits_add, List.drop_append_of_le_length (by simp), List.drop_eq_nil_of_le (by simp),
    List.nil_append]

theorem writeFields_mem (fs : List (Bytes × Nat)) : ∀ {s : WSt Bytes}, s.WF →
    (∀ f ∈ fs, f.2 ≤ 8 * f.1.length) →
    ∃ s', writeFields memSink fs s = (.ok (), s') ∧ s'.bits = s.bits ++ fieldsBits fs ∧ s'.WF := by
  induction fs with
  | nil => intro s hw _; exact ⟨s, rfl, by simp [fieldsBits], hw⟩
  | cons f fs ih =>
    intro s hw h
    obtain ⟨data, w⟩ := f
    have h0 := h (data, w) (by simp)
    obtain ⟨s1, h1, hb1, hw1⟩ := writeBits_mem hw h0
    obtain ⟨s2, h2, hb2, hw2⟩ := ih hw1 (fun f hf => h f (by simp [hf]))
    refine ⟨s2, ?_, ?_, hw2⟩
    · rw [writeFields, M.bind_ok h1, h2]
    · rw [hb2, hb1, drop_eq_natBits _ _ h0]
      simp [fieldsBits]

theorem readFields_ok {d : Bytes} (fs : List (Bytes × Nat)) : ∀ {s : RSt} {t : List Bool}, s.WF d →
    s.rem d = fieldsBits fs ++ t →
    ∃ out s', readFields d (fs.map (·.2)) s = (.ok out, s') ∧ s'.rem d = t ∧ s'.WF d ∧
      out.map num = fs.map (fun f => num f.1 % 2 ^ f.2) ∧
      out.map List.length = fs.map (fun f => (f.2 + 7) / 8) := by
  induction fs with
  | nil => intro s t hw hr; exact ⟨[], s, rfl, by simpa [fieldsBits] using hr, hw, rfl, rfl⟩
  | cons f fs ih =>
    intro s t hw hr
    obtain ⟨data, w⟩ := f
    have hr' : s.rem d = fieldBits (data, w) ++ (fieldsBits fs ++ t) := by
      rw [hr]; simp [fieldsBits]
    obtain ⟨x, s1, h1, hr1, hw1, hx⟩ := readBits_ok (size := w) hw hr' (by simp [fieldBits])
    obtain ⟨xs, s2, h2, hr2, hw2, hn, hl⟩ := ih hw1 hr1
    refine ⟨x :: xs, s2, ?_, hr2, hw2, ?_, ?_⟩
    · rw [List.map_cons, readFields, M.bind_ok h1, M.bind_ok h2]; rfl
    · simp only [List.map_cons, hn, List.cons.injEq, and_true]
      rw [num_eq x, hx, bitsNat_pad, fieldBits, bitsNat_natBits]
    · simp only [List.map_cons, hl, List.cons.injEq, and_true]
      have := congrArg List.length hx
      simp [fieldBits] at this
      omega

/-- **C01** — Writing any list of bit fields whose total width is a multiple of eight
emits exactly the fields concatenated most-significant-bit first, and reading the
result back with the same widths, wherever it is placed in a stream, returns the same
values in the same order. -/
theorem bit_round_trip (fs : List (Bytes × Nat)) (pre rest : Bytes)
    (hfit : ∀ f ∈ fs, f.2 ≤ 8 * f.1.length)
    (htot : ((fs.map (·.2)).sum) % 8 = 0) :
    ∃ w, writeFields memSink fs (WSt.fresh []) = (.ok (), w) ∧ w.width = 0 ∧
      bytesBits w.sink = fieldsBits fs ∧
      ∃ out s', readFields (pre ++ w.sink ++ rest) (fs.map (·.2)) (RSt.fresh pre.length) =
          (.ok out, s') ∧
        out.map num = fs.map (fun f => num f.1 % 2 ^ f.2) ∧
        out.map List.length = fs.map (fun f => (f.2 + 7) / 8) ∧
        s'.pos = pre.length + w.sink.length ∧ s'.width = 0 := by
  obtain ⟨w, h1, hb, hw⟩ := writeFields_mem fs (WSt.fresh_wf []) hfit
  have hlen : (fieldsBits fs).length = (fs.map (·.2)).sum := by
    clear hfit htot h1 hb
    induction fs with
    | nil => rfl
    | cons f fs ih => simp_all [fieldsBits, fieldBits]
  rw [WSt.fresh_bits, bytesBits_nil, List.nil_append] at hb
  have hbl := congrArg List.length hb
  rw [WSt.bits_length w hw, hlen] at hbl
  have := hw.width
  have hw0 : w.width = 0 := by omega
  have hsink : bytesBits w.sink = fieldsBits fs := by
    rw [← hb]; simp [WSt.bits, hw0]
  refine ⟨w, h1, hw0, hsink, ?_⟩
  have hwf : (RSt.fresh pre.length).WF (pre ++ w.sink ++ rest) := RSt.fresh_wf (by simp)
  have hrem : (RSt.fresh pre.length).rem (pre ++ w.sink ++ rest) =
      fieldsBits fs ++ bytesBits rest := by
    rw [RSt.fresh_rem, List.append_assoc, List.drop_left, bytesBits_append, hsink]
  obtain ⟨out, s', h2, hr, hw2, hn, hl⟩ := readFields_ok fs hwf hrem
  have hp := hw2.pos_eq
  rw [hr, bytesBits_length] at hp
  refine ⟨out, s', h2, hn, hl, ?_, by omega⟩
  rw [hp.1]
  simp; omega

/-- the hypotheses of `bit_round_trip` are met by a 3-bit, a 1-bit and a 12-bit field -/
example : (∀ f ∈ [([0x05#8], 3), ([0x01#8], 1), ([0x0a#8, 0xbc#8], 12)],
      f.2 ≤ 8 * f.1.length) ∧
    (([([0x05#8], 3), ([0x01#8], 1), ([0x0a#8, 0xbc#8], 12)].map
      (fun f : Bytes × Nat => f.2)).sum) % 8 = 0 := by decide

/-! ## C02 -/

/-- Operations of the bit reader available to callers. -/
inductive ROp where
  | readBits (n : Nat)
  | readBit
  | read (n : Nat)
  | seekStart (p : Nat)
  | seekCurrent
  | seekEnd

/-- Run one operation, keeping only the state. -/
def ROp.run (d : Bytes) : ROp → RSt → RSt
  | .readBits n, s => (Mp4.readBits d n s).2
  | .readBit, s => (Mp4.readBit d s).2
  | .read n, s => (readSome d n s).2
  | .seekStart p, s => (Mp4.seekStart p s).2
  | .seekCurrent, s => (Mp4.seekCurrent s).2
  | .seekEnd, s => (Mp4.seekEnd d s).2

/-- Run a sequence of operations. -/
def runOps (d : Bytes) (ops : List ROp) (s : RSt) : RSt := ops.foldl (fun s o => o.run d s) s

/-- A state is usable if fewer than 8 bits are buffered, and none when the position is
past the end of the data. -/
def Usable (d : Bytes) (s : RSt) : Prop := s.width < 8 ∧ (s.pos ≤ d.length ∨ s.width = 0)

private theorem usable_of_wf {d : Bytes} {s : RSt} (h : s.WF d) : Usable d s :=
  ⟨h.width, .inl h.pos⟩

private theorem readBits_nil {d : Bytes} {s : RSt} {n : Nat} (h : s.rem d = []) (hn : 0 < n) :
    readBits d n s = (.err .eof, s) := by
  obtain ⟨n, rfl⟩ : ∃ m, n = m + 1 := ⟨n - 1, by omega⟩
  unfold readBits
  simp only [readBitsLoop]
  rw [M.bind_err (readBit_nil h)]

private theorem usable_cases {d : Bytes} {s : RSt} (h : Usable d s) :
    s.WF d ∨ s.rem d = [] := by
  rcases h.2 with hp | hw
  · exact .inl ⟨h.1, hp⟩
  · by_cases hp : s.pos ≤ d.length
    · exact .inl ⟨h.1, hp⟩
    · right
      rw [RSt.rem_aligned hw, List.drop_eq_nil_of_le (by omega)]
      rfl

theorem usable_run {d : Bytes} {s : RSt} (o : ROp) (h : Usable d s) : Usable d (o.run d s) := by
  cases o with
  | readBits n =>
    rcases usable_cases h with hw | hr
    · by_cases hn : n ≤ (s.rem d).length
      · obtain ⟨out, s', e, _, hw', _⟩ := readBits_ok (size := n) hw
          (List.take_append_drop n (s.rem d)).symm (by simp; omega)
        rw [ROp.run, e]; exact usable_of_wf hw'
      · obtain ⟨s', e, _, hw'⟩ := readBits_eof (size := n) hw (by omega)
        rw [ROp.run, e]; exact usable_of_wf hw'
    · by_cases hn : n = 0
      · subst hn; exact h
      · rw [ROp.run, readBits_nil hr (by omega)]; exact h
  | readBit =>
    rcases usable_cases h with hw | hr
    · cases hr : s.rem d with
      | nil => rw [ROp.run, readBit_nil hr]; exact h
      | cons b t =>
        obtain ⟨s', e, _, hw'⟩ := readBit_cons hw hr
        rw [ROp.run, e]; exact usable_of_wf hw'
    · rw [ROp.run, readBit_nil hr]; exact h
  | read n =>
    simp only [ROp.run, readSome]
    split
    · exact h
    · rename_i h0
      split
      · exact h
      · exact ⟨h.1, .inr (by simpa using h0)⟩
  | seekStart p => exact ⟨by simp [ROp.run, Mp4.seekStart], .inr rfl⟩
  | seekCurrent =>
    simp only [ROp.run, Mp4.seekCurrent]
    split <;> exact h
  | seekEnd => exact ⟨by simp [ROp.run, Mp4.seekEnd], .inr rfl⟩

theorem usable_runOps {d : Bytes} (ops : List ROp) {s : RSt} (h : Usable d s) :
    Usable d (runOps d ops s) := by
  induction ops generalizing s with
  | nil => exact h
  | cons o ops ih => exact ih (usable_run o h)

/-- The unread bits of a reader state: what is left of the buffered byte, then the bytes
from the position on. -/
def unread (d : Bytes) (s : RSt) : List Bool :=
  (byteBits s.octet).drop (8 - s.width) ++ bytesBits (d.drop s.pos)

private theorem unread_eq {d : Bytes} {s : RSt} (h : s.width ≤ 8) : unread d s = s.rem d := by
  unfold unread RSt.rem
  congr 1
  rw [byteBits_eq_natBits]
  have : 8 = (8 - s.width) + s.width := by omega
  generalize s.octet.toNat = o
  conv => lhs; arg 2; rw [this]
  rw [natBits_add, List.drop_append_of_le_length (by simp), List.drop_eq_nil_of_le (by simp),
    List.nil_append]

/-- **C02** — In every state reachable from a fresh reader by any sequence of
operations: `ReadBits(n)` succeeds iff at least `n` unread bits remain; it then returns
precisely the next `n` bits, right aligned in `⌈n/8⌉` bytes, and leaves precisely the
rest unread; otherwise it returns `io.EOF`.  `Read` and `Seek` relative to the current
position return `ErrInvalidAlignment`, without moving, in the middle of a byte; on a
byte boundary they behave as on the underlying stream. -/
theorem bit_reader_exact (d : Bytes) (start : Nat) (ops : List ROp) (n : Nat) :
    let s := runOps d ops (RSt.fresh start)
    (n ≤ (unread d s).length →
      ∃ out s', readBits d n s = (.ok out, s') ∧ out.length = (n + 7) / 8 ∧
        num out = bitsNat ((unread d s).take n) ∧ unread d s' = (unread d s).drop n) ∧
    ((unread d s).length < n → ∃ s', readBits d n s = (.err .eof, s')) ∧
    (s.width ≠ 0 → readSome d n s = (.err .bitAlignment, s) ∧
      seekCurrent s = (.err .bitAlignment, s)) ∧
    (s.width = 0 → seekCurrent s = (.ok s.pos, s) ∧
      (d.length ≤ s.pos → readSome d n s = (.err .eof, s)) ∧
      (s.pos < d.length → readSome d n s =
        (.ok ((d.drop s.pos).take n), { s with pos := s.pos + min n (d.length - s.pos) }))) := by
  intro s
  have hu : Usable d s := usable_runOps ops ⟨by simp [RSt.fresh], .inr rfl⟩
  have he : unread d s = s.rem d := unread_eq (by have := hu.1; omega)
  rw [he]
  refine ⟨?_, ?_, ?_, ?_⟩
  · intro hn
    rcases usable_cases hu with hw | hr
    · obtain ⟨out, s', e, hr', hw', ho⟩ := readBits_ok (size := n) hw
        (List.take_append_drop n (s.rem d)).symm (by simp; omega)
      refine ⟨out, s', e, ?_, ?_, ?_⟩
      · have := congrArg List.length ho
        simp at this
        omega
      · rw [num_eq, ho, bitsNat_pad]
      · rw [unread_eq (by have := hw'.width; omega), hr']
    · rw [hr] at hn
      simp only [List.length_nil, Nat.le_zero] at hn
      subst hn
      refine ⟨[], s, rfl, rfl, rfl, ?_⟩
      rw [he, hr]; rfl
  · intro hn
    rcases usable_cases hu with hw | hr
    · obtain ⟨s', e, _⟩ := readBits_eof hw hn
      exact ⟨s', e⟩
    · exact ⟨s, readBits_nil hr (by omega)⟩
  · intro h
    simp [readSome, seekCurrent, h]
  · intro h
    refine ⟨by simp [seekCurrent, h], ?_, ?_⟩
    · intro hp; simp [readSome, h, hp]
    · intro hp
      have : ¬ d.length ≤ s.pos := by omega
      simp [readSome, h, this]

/-- both a state in the middle of a byte and an aligned one with data left are reachable -/
example : (runOps [0xab#8, 0xcd#8] [.readBits 3] (RSt.fresh 0)).width = 5 ∧
    (runOps [0xab#8, 0xcd#8] [.readBits 3, .readBits 5] (RSt.fresh 0)).width = 0 ∧
    (runOps [0xab#8, 0xcd#8] [.readBits 3, .readBits 5] (RSt.fresh 0)).pos = 1 := by decide

end Mp4.Props
