import Verif.Model.File
import Verif.Lemmas.Bitio

/-! # Lemmas about box headers and files -/

namespace Mp4

theorem beNat_eq (b : Bytes) : beNat b = bitsNat (bytesBits b) := by
  have := bitsNat_bytesBits_foldl b 0
  simpa [beNat] using this

theorem beNat_cons (x : Byte) (b : Bytes) : beNat (x :: b) = x.toNat * 256 ^ b.length + beNat b := by
  rw [beNat_eq, beNat_eq, bytesBits_cons, bitsNat_append, bitsNat_byteBits, bytesBits_length,
    show (256 : Nat) = 2 ^ 8 by decide, Nat.pow_mul]

@[simp] theorem beBytes_length (n v : Nat) : (beBytes n v).length = n := by
  induction n with
  | zero => rfl
  | succ n ih => simp [beBytes, ih]

theorem beNat_lt (b : Bytes) : beNat b < 256 ^ b.length := by
  rw [beNat_eq]
  have := bitsNat_lt (bytesBits b)
  rw [bytesBits_length, Nat.pow_mul] at this
  simpa using this

theorem beNat_beBytes (n v : Nat) : beNat (beBytes n v) = v % 256 ^ n := by
  induction n with
  | zero => simp [beBytes, beNat, Nat.mod_one]
  | succ n ih =>
    rw [beBytes, beNat_cons, ih, beBytes_length, BitVec.toNat_ofNat,
      Nat.mod_pow_succ (b := 256), Nat.mul_comm, Nat.add_comm]

theorem beNat_inj {a b : Bytes} (hl : a.length = b.length) (h : beNat a = beNat b) : a = b := by
  rw [beNat_eq, beNat_eq] at h
  exact bytesBits_inj (bitsNat_inj (by simp [hl]) h)

theorem beBytes_beNat (b : Bytes) : beBytes b.length (beNat b) = b := by
  apply beNat_inj
  · simp
  · rw [beNat_beBytes, Nat.mod_eq_of_lt (beNat_lt b)]

@[simp] theorem writeAt_nil (data : Bytes) (pos : Nat) : writeAt data pos [] = data := by simp [writeAt]

theorem writeAt_cons {p : Bytes} (h : p ≠ []) (data : Bytes) (pos : Nat) : writeAt data pos p =
    data.take pos ++ List.replicate (pos - data.length) 0#8 ++ p ++ data.drop (pos + p.length) := by
  simp [writeAt, h]

theorem writeAt_drop (data : Bytes) (pos : Nat) (p : Bytes) :
    (writeAt data pos p).drop pos = p ++ data.drop (pos + p.length) := by
  by_cases hp : p = []
  · simp [hp]
  rw [writeAt_cons hp]
  have hl : (data.take pos ++ List.replicate (pos - data.length) 0#8).length = pos := by
    simp; omega
  rw [List.append_assoc]
  conv => lhs; arg 1; rw [← hl]
  rw [List.drop_left]

theorem writeAt_take (data : Bytes) (pos : Nat) (p : Bytes) (h : pos ≤ data.length) :
    (writeAt data pos p).take pos = data.take pos := by
  by_cases hp : p = []
  · simp [hp]
  rw [writeAt_cons hp]
  have : pos - data.length = 0 := by omega
  rw [this]
  simp [h]

theorem writeAt_length {p : Bytes} (hp : p ≠ []) (data : Bytes) (pos : Nat) :
    (writeAt data pos p).length = max data.length (pos + p.length) := by
  rw [writeAt_cons hp]
  simp only [List.length_append, List.length_take, List.length_replicate, List.length_drop]
  omega

theorem writeAt_end (data : Bytes) (p : Bytes) : writeAt data data.length p = data ++ p := by
  by_cases hp : p = [] <;> simp [writeAt, hp]

/-- Two byte strings are equal if they have the same bytes at every place. -/
theorem bytes_ext {a b : Bytes} (h : ∀ i : Nat, a[i]? = b[i]?) : a = b := List.ext_getElem? h

/-- The bytes of the file after a write. -/
theorem writeAt_get {p : Bytes} (hp : p ≠ []) (data : Bytes) (pos i : Nat) : (writeAt data pos p)[i]? =
    if i < pos then (if i < data.length then data[i]? else some 0#8)
    else if i < pos + p.length then p[i - pos]? else data[i]? := by
  rw [writeAt_cons hp]
  have hl : (data.take pos ++ List.replicate (pos - data.length) 0#8).length = pos := by
    simp; omega
  by_cases h1 : i < pos
  · rw [if_pos h1, List.append_assoc, List.getElem?_append_left (by omega)]
    by_cases h2 : i < data.length
    · rw [if_pos h2, List.getElem?_append_left (by simp; omega), List.getElem?_take, if_pos h1]
    · rw [if_neg h2, List.getElem?_append_right (by simp; omega), List.getElem?_replicate, if_pos (by simp; omega)]
  · rw [if_neg h1, List.append_assoc, List.getElem?_append_right (by omega), hl]
    by_cases h2 : i < pos + p.length
    · rw [if_pos h2, List.getElem?_append_left (by omega)]
    · rw [if_neg h2, List.getElem?_append_right (by omega), List.getElem?_drop]
      congr 1
      omega

/-- Writing on where the last write ended. -/
theorem writeAt_append (data : Bytes) (pos : Nat) (a b : Bytes) :
    writeAt (writeAt data pos a) (pos + a.length) b = writeAt data pos (a ++ b) := by
  by_cases ha : a = []
  · simp [ha]
  by_cases hb : b = []
  · simp [hb]
  have hab : a ++ b ≠ [] := by simp [ha]
  apply bytes_ext
  intro i
  have hla : 0 < a.length := List.length_pos_iff.mpr ha
  rw [writeAt_get hb, writeAt_get ha, writeAt_get hab, writeAt_length ha]
  simp only [List.length_append]
  by_cases h1 : i < pos
  · simp only [if_pos h1, if_pos (show i < pos + a.length by omega),
      if_pos (show i < max data.length (pos + a.length) by omega)]
  · by_cases h2 : i < pos + a.length
    · simp only [if_neg h1, if_pos h2, if_pos (show i < max data.length (pos + a.length) by omega),
        if_pos (show i < pos + (a.length + b.length) by omega)]
      rw [List.getElem?_append_left (by omega)]
    · simp only [if_neg h1, if_neg h2]
      by_cases h3 : i < pos + a.length + b.length
      · rw [if_pos h3, if_pos (by omega), List.getElem?_append_right (by omega)]
        congr 1
        omega
      · rw [if_neg h3, if_neg (by omega)]

/-- Writing over the beginning of what was written. -/
theorem writeAt_patch (data : Bytes) (pos : Nat) (a a' b : Bytes) (h : a'.length = a.length) :
    writeAt (writeAt data pos (a ++ b)) pos a' = writeAt data pos (a' ++ b) := by
  by_cases ha : a' = []
  · have : a = [] := by
      rw [ha] at h
      exact List.eq_nil_of_length_eq_zero h.symm
    simp [ha, this]
  have ha0 : 0 < a'.length := List.length_pos_iff.mpr ha
  have hab : a ++ b ≠ [] := by
    intro e
    have := congrArg List.length e
    simp at this
    simp [this.1] at h
    exact ha h
  have hab' : a' ++ b ≠ [] := by simp [ha]
  apply bytes_ext
  intro i
  rw [writeAt_get ha, writeAt_get hab, writeAt_get hab', writeAt_length hab]
  simp only [List.length_append]
  by_cases h1 : i < pos
  · simp only [if_pos h1, if_pos (show i < max data.length (pos + (a.length + b.length)) by omega)]
  · simp only [if_neg h1]
    by_cases h2 : i < pos + a'.length
    · rw [if_pos h2, if_pos (by omega), List.getElem?_append_left (by omega)]
    · rw [if_neg h2, h]
      by_cases h3 : i < pos + (a.length + b.length)
      · rw [if_pos h3, if_pos h3, List.getElem?_append_right (by omega), List.getElem?_append_right (by omega), h]
      · rw [if_neg h3, if_neg h3]

theorem copyNP_ok {d : Bytes} {n pos : Nat} (h0 : n ≠ 0) (h1 : n < 2 ^ 63)
    (h : pos + n ≤ d.length) : copyNP d n pos = (.ok ((d.drop pos).take n), pos + n) := by
  unfold copyNP
  rw [if_neg (by omega)]
  have : ((d.drop pos).take n).length = n := by simp; omega
  simp only [this, Nat.lt_irrefl, if_false]

theorem copyNP_eof {d : Bytes} {n pos : Nat} (h0 : n ≠ 0) (h1 : n < 2 ^ 63)
    (h : d.length < pos + n) : ∃ p, copyNP d n pos = (.err .eof, p) := by
  unfold copyNP
  rw [if_neg (by omega)]
  have : ((d.drop pos).take n).length < n := by simp; omega
  simp only [this, if_true]
  exact ⟨_, rfl⟩

theorem boxInfoBytes_length (bi : BoxInfo) :
    (boxInfoBytes bi).length =
      if bi.extendToEOF then 8
      else if bi.size ≤ 2 ^ 32 - 1 ∧ bi.headerSize ≠ largeHeaderSize then 8 else 16 := by
  unfold boxInfoBytes
  split
  · simp [BoxType.bytes]
  · by_cases h : bi.size ≤ 2 ^ 32 - 1 ∧ bi.headerSize ≠ largeHeaderSize
    · rw [if_pos h, if_pos h]; simp [BoxType.bytes]
    · rw [if_neg h, if_neg h]; simp [BoxType.bytes]

end Mp4
