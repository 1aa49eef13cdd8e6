import Verif.Model.Bitio

/-! # Lemmas about bit lists -/

namespace Mp4

@[simp] theorem natBits_length (w n : Nat) : (natBits w n).length = w := by
  induction w with
  | zero => rfl
  | succ w ih => simp [natBits, ih]

@[simp] theorem byteBits_length (b : Byte) : (byteBits b).length = 8 := rfl

@[simp] theorem bytesBits_nil : bytesBits [] = [] := rfl

@[simp] theorem bytesBits_cons (b : Byte) (bs : Bytes) :
    bytesBits (b :: bs) = byteBits b ++ bytesBits bs := rfl

theorem bytesBits_append (a b : Bytes) : bytesBits (a ++ b) = bytesBits a ++ bytesBits b := by
  induction a with
  | nil => rfl
  | cons x xs ih => simp [ih]

@[simp] theorem bytesBits_length (bs : Bytes) : (bytesBits bs).length = 8 * bs.length := by
  induction bs with
  | nil => rfl
  | cons x xs ih => simp [ih]; omega

theorem byteBits_eq_natBits (b : Byte) : byteBits b = natBits 8 b.toNat := by
  simp only [byteBits, natBits, BitVec.testBit_toNat]

theorem byteBits_inj {a b : Byte} (h : byteBits a = byteBits b) : a = b := by
  simp only [byteBits, List.cons.injEq, and_true] at h
  apply BitVec.eq_of_getLsbD_eq
  intro i hi
  obtain ⟨h7, h6, h5, h4, h3, h2, h1, h0⟩ := h
  match i, hi with
  | 0, _ => exact h0
  | 1, _ => exact h1
  | 2, _ => exact h2
  | 3, _ => exact h3
  | 4, _ => exact h4
  | 5, _ => exact h5
  | 6, _ => exact h6
  | 7, _ => exact h7

theorem bytesBits_inj {a b : Bytes} (h : bytesBits a = bytesBits b) : a = b := by
  induction a generalizing b with
  | nil =>
    cases b with
    | nil => rfl
    | cons y ys => have := congrArg List.length h; simp at this; omega
  | cons x xs ih =>
    cases b with
    | nil => have := congrArg List.length h; simp at this
    | cons y ys =>
      simp only [bytesBits_cons] at h
      have h' := List.append_inj h (by simp)
      rw [byteBits_inj h'.1, ih h'.2]

theorem bitsNat_foldl (bs : List Bool) (a : Nat) :
    bs.foldl (fun acc b => 2 * acc + b.toNat) a = a * 2 ^ bs.length + bitsNat bs := by
  unfold bitsNat
  induction bs generalizing a with
  | nil => simp
  | cons b bs ih =>
    simp only [List.foldl_cons, List.length_cons]
    rw [ih, ih (2 * 0 + b.toNat)]
    simp only [Nat.pow_succ, Nat.mul_zero, Nat.zero_add, Nat.add_mul]
    have : 2 * a * 2 ^ bs.length = a * (2 ^ bs.length * 2) := by
      rw [Nat.mul_comm 2 a, Nat.mul_assoc, Nat.mul_comm 2]
    omega

@[simp] theorem bitsNat_nil : bitsNat [] = 0 := rfl

theorem bitsNat_cons (b : Bool) (bs : List Bool) :
    bitsNat (b :: bs) = b.toNat * 2 ^ bs.length + bitsNat bs := by
  have h := bitsNat_foldl bs b.toNat
  simpa [bitsNat] using h

theorem bitsNat_append (a b : List Bool) :
    bitsNat (a ++ b) = bitsNat a * 2 ^ b.length + bitsNat b := by
  have := bitsNat_foldl b (bitsNat a)
  rw [← this]
  simp [bitsNat, List.foldl_append]

theorem bitsNat_lt (bs : List Bool) : bitsNat bs < 2 ^ bs.length := by
  induction bs with
  | nil => simp
  | cons b bs ih =>
    rw [bitsNat_cons, List.length_cons, Nat.pow_succ]
    have : b.toNat ≤ 1 := by cases b <;> simp
    have h2 : b.toNat * 2 ^ bs.length ≤ 1 * 2 ^ bs.length := Nat.mul_le_mul_right _ this
    omega

@[simp] theorem bitsNat_replicate_false (k : Nat) : bitsNat (List.replicate k false) = 0 := by
  induction k with
  | zero => rfl
  | succ k ih => simp [List.replicate_succ, bitsNat_cons, ih]

@[simp] theorem bitsNat_pad (k : Nat) (bs : List Bool) :
    bitsNat (List.replicate k false ++ bs) = bitsNat bs := by
  rw [bitsNat_append]; simp

theorem bitsNat_natBits (w n : Nat) : bitsNat (natBits w n) = n % 2 ^ w := by
  induction w with
  | zero => simp [natBits, Nat.mod_one]
  | succ w ih =>
    rw [natBits, bitsNat_cons, ih, natBits_length, Nat.mod_pow_succ, Nat.mul_comm, Nat.add_comm,
      Nat.testBit_eq_decide_div_mod_eq]
    congr 2
    rcases Nat.mod_two_eq_zero_or_one (n / 2 ^ w) with h | h <;> simp [h]

theorem natBits_congr (w : Nat) {n m : Nat} (h : n % 2 ^ w = m % 2 ^ w) :
    natBits w n = natBits w m := by
  induction w with
  | zero => rfl
  | succ w ih =>
    have hw : n.testBit w = m.testBit w := by
      have := congrArg (fun x => x.testBit w) h
      simpa [Nat.testBit_mod_two_pow] using this
    have hm : n % 2 ^ w = m % 2 ^ w := by
      have := congrArg (fun x => x % 2 ^ w) h
      simpa [Nat.mod_mod_of_dvd, Nat.pow_dvd_pow] using this
    rw [natBits, natBits, hw, ih hm]

theorem natBits_mod (w n : Nat) : natBits w (n % 2 ^ w) = natBits w n :=
  natBits_congr w (by simp)

theorem natBits_bitsNat (bs : List Bool) : natBits bs.length (bitsNat bs) = bs := by
  induction bs with
  | nil => rfl
  | cons b bs ih =>
    rw [List.length_cons, natBits, bitsNat_cons]
    congr 1
    · have h := bitsNat_lt bs
      rw [Nat.mul_comm, Nat.testBit_two_pow_mul_add _ h]
      cases b <;> simp
    · rw [natBits_congr (m := bitsNat bs)]
      · exact ih
      · rw [Nat.mul_comm, Nat.mul_add_mod]

theorem bitsNat_inj {a b : List Bool} (hl : a.length = b.length) (h : bitsNat a = bitsNat b) :
    a = b := by
  rw [← natBits_bitsNat a, ← natBits_bitsNat b, h, hl]

theorem natBits_add (a b n : Nat) : natBits (a + b) n = natBits a (n >>> b) ++ natBits b n := by
  induction a with
  | zero => simp [natBits]
  | succ a ih =>
    rw [show a + 1 + b = (a + b) + 1 by omega, natBits, natBits, ih, Nat.testBit_shiftRight]
    simp [Nat.add_comm]

theorem natBits_zero (w : Nat) : natBits w 0 = List.replicate w false := by
  induction w with
  | zero => rfl
  | succ w ih => simp [natBits, ih, List.replicate_succ]

theorem bitsNat_byteBits (b : Byte) : bitsNat (byteBits b) = b.toNat := by
  rw [byteBits_eq_natBits, bitsNat_natBits]
  exact Nat.mod_eq_of_lt b.isLt

/-- big-endian value of a byte string -/
theorem bitsNat_bytesBits_foldl (bs : Bytes) (a : Nat) :
    bs.foldl (fun v b => v * 256 + b.toNat) a = a * 2 ^ (8 * bs.length) + bitsNat (bytesBits bs) := by
  induction bs generalizing a with
  | nil => simp
  | cons b bs ih =>
    rw [List.foldl_cons, ih, bytesBits_cons, bitsNat_append, bitsNat_byteBits, bytesBits_length,
      List.length_cons, Nat.mul_add, Nat.pow_add, Nat.add_mul]
    have : (2 : Nat) ^ (8 * 1) = 256 := by decide
    rw [this]
    have : a * 256 * 2 ^ (8 * bs.length) = a * (2 ^ (8 * bs.length) * 256) := by
      rw [Nat.mul_assoc, Nat.mul_comm 256]
    omega

theorem bitsByte_byteBits (b : Byte) : bitsByte (byteBits b) = b := by
  simp [bitsByte, bitsNat_byteBits]

theorem byteBits_bitsByte {bs : List Bool} (h : bs.length = 8) : byteBits (bitsByte bs) = bs := by
  apply bitsNat_inj
  · simp [h]
  · rw [bitsNat_byteBits]
    have := bitsNat_lt bs
    simp only [bitsByte, h, Nat.sub_self, List.replicate_zero, List.append_nil, BitVec.toNat_ofNat]
    rw [h] at this
    exact Nat.mod_eq_of_lt this

/-- Cut a bit list into bytes (a trailing incomplete byte is dropped). -/
def bitsBytes : List Bool → Bytes
  | a :: b :: c :: d :: e :: f :: g :: h :: t => bitsByte [a, b, c, d, e, f, g, h] :: bitsBytes t
  | _ => []

theorem bitsBytes_bytesBits (bs : Bytes) : bitsBytes (bytesBits bs) = bs := by
  induction bs with
  | nil => rfl
  | cons b bs ih =>
    have := bitsByte_byteBits b
    simp only [byteBits] at this
    simp only [bytesBits_cons, byteBits, bitsBytes, List.cons_append, List.nil_append, ih, this]

theorem bytesBits_bitsBytes (bs : List Bool) (h : bs.length % 8 = 0) :
    bytesBits (bitsBytes bs) = bs := by
  induction bs using bitsBytes.induct with
  | case1 a b c d e f g h' t ih =>
    simp only [bitsBytes, bytesBits_cons]
    rw [byteBits_bitsByte rfl, ih]
    · rfl
    · simp only [List.length_cons] at h; omega
  | case2 t ht =>
    match t, ht, h with
    | [], _, _ => rfl
    | [_], _, h => simp at h
    | [_, _], _, h => simp at h
    | [_, _, _], _, h => simp at h
    | [_, _, _, _], _, h => simp at h
    | [_, _, _, _, _], _, h => simp at h
    | [_, _, _, _, _, _], _, h => simp at h
    | [_, _, _, _, _, _, _], _, h => simp at h
    | a :: b :: c :: d :: e :: f :: g :: h' :: t, ht, _ => exact absurd rfl (ht a b c d e f g h' t)

theorem bitsBytes_length (bs : List Bool) (h : bs.length % 8 = 0) :
    8 * (bitsBytes bs).length = bs.length := by
  rw [← bytesBits_length, bytesBits_bitsBytes bs h]

end Mp4
