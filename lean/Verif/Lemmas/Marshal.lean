import Verif.Spec.Layout
import Verif.Model.Marshal
import Verif.Lemmas.Bitio

/-! # The marshaller writes the specified layout -/

namespace Mp4

open Spec

theorem natBits_ext (w : Nat) {n m : Nat} (h : ∀ j, j < w → n.testBit j = m.testBit j) :
    natBits w n = natBits w m := by
  induction w with
  | zero => rfl
  | succ w ih =>
    rw [natBits, natBits, h w (Nat.lt_succ_self w), ih (fun j hj => h j (Nat.lt_succ_of_lt hj))]

theorem natBits_drop (a b n : Nat) : (natBits (a + b) n).drop a = natBits b n := by
  rw [natBits_add, List.drop_left' (by simp)]

theorem byteBits_ofNat (n : Nat) : byteBits (BitVec.ofNat 8 n) = natBits 8 n := by
  rw [byteBits_eq_natBits, BitVec.toNat_ofNat]
  exact natBits_mod 8 n

/-- States of the marshaller that occur: the bit writer is consistent and `wbits` counts
the bits modulo 8. -/
structure MInv (s : MSt Bytes) : Prop where
  wf : s.w.WF
  al : s.wbits % 8 = s.w.width

/-- The computation succeeds, writes exactly `bs` and counts it. -/
def Emits (m : MM Bytes Unit) (bs : List Bool) : Prop :=
  ∀ s, MInv s → ∃ s', m s = (.ok (), s') ∧ s'.w.bits = s.w.bits ++ bs ∧
    s'.wbits = s.wbits + bs.length ∧ MInv s'

theorem Emits.pure : Emits (Pure.pure ()) [] := fun s hs =>
  ⟨s, by simp, by simp, by simp, hs⟩

theorem Emits.bind {m : MM Bytes Unit} {k : Unit → MM Bytes Unit} {a b : List Bool}
    (h1 : Emits m a) (h2 : Emits (k ()) b) : Emits (m >>= k) (a ++ b) := by
  intro s hs
  obtain ⟨s1, e1, b1, w1, i1⟩ := h1 s hs
  obtain ⟨s2, e2, b2, w2, i2⟩ := h2 s1 i1
  refine ⟨s2, ?_, ?_, ?_, i2⟩
  · rw [M.bind_ok e1, e2]
  · rw [b2, b1, List.append_assoc]
  · rw [w2, w1, List.length_append]; omega

/-- A write by the bit writer followed by counting it. -/
theorem emits_count {m : WM Bytes Unit} {k : MM Bytes Unit} {a b : List Bool} {n : Nat}
    (hm : ∀ w : WSt Bytes, w.WF → ∃ w', m w = (.ok (), w') ∧ w'.bits = w.bits ++ a ∧ w'.WF)
    (hn : n = a.length) (h2 : Emits k b) :
    Emits (do liftW m; addW n; k) (a ++ b) := by
  intro s hs
  obtain ⟨w', e1, b1, f1⟩ := hm s.w hs.wf
  have hl := congrArg List.length b1
  rw [List.length_append, WSt.bits_length _ f1, WSt.bits_length _ hs.wf] at hl
  have hw := f1.width
  have hw0 := hs.wf.width
  have hal := hs.al
  obtain ⟨s2, e2, b2, w2, i2⟩ := h2 ⟨w', s.wbits + n⟩ ⟨f1, by simp only; omega⟩
  refine ⟨s2, ?_, ?_, ?_, i2⟩
  · rw [M.bind_ok (s' := ⟨w', s.wbits⟩) (a := ()) (by simp [liftW, e1])]
    rw [M.bind_ok (s' := ⟨w', s.wbits + n⟩) (a := ()) (by simp [addW])]
    exact e2
  · rw [b2]; simp only; rw [b1, List.append_assoc]
  · rw [w2]; simp only [List.length_append]; omega

theorem emits_bits {v sz : Nat} {k : MM Bytes Unit} {b : List Bool} (h : sz ≤ 8)
    (h2 : Emits k b) :
    Emits (do liftW (writeBits memSink [BitVec.ofNat 8 v] sz); addW sz; k)
      (natBits sz v ++ b) := by
  apply emits_count _ (by simp) h2
  intro w hw
  obtain ⟨w', e, hb, f⟩ := writeBits_mem (data := [BitVec.ofNat 8 v]) (width := sz) hw (by simpa using h)
  refine ⟨w', e, ?_, f⟩
  rw [hb]
  simp only [bytesBits_cons, bytesBits_nil, List.append_nil, List.length_cons, List.length_nil]
  rw [byteBits_ofNat]
  have := natBits_drop (8 - sz) sz v
  rw [show 8 - sz + sz = 8 by omega] at this
  simp only [Nat.zero_add, Nat.mul_one]
  rw [this]

theorem emits_byte {x : Byte} {k : MM Bytes Unit} {b : List Bool}
    (h2 : Emits k b) :
    Emits (do liftW (writeBits memSink [x] 8); addW 8; k) (byteBits x ++ b) := by
  have := emits_bits (v := x.toNat) (sz := 8) (by omega) h2
  rw [← byteBits_eq_natBits] at this
  simpa using this

theorem emits_byte1 (x : Byte) :
    Emits (do liftW (writeBits memSink [x] 8); addW 8) (byteBits x) := by
  have := emits_byte (x := x) (k := Pure.pure ()) Emits.pure
  rw [List.append_nil] at this
  exact this

theorem intChunk_big {size val i : Nat} (h : i + 8 < size) :
    intChunk size val i = (val >>> (size - i - 8), 8) := by
  simp only [intChunk]
  rw [if_pos (by omega), if_neg (by omega)]
  congr 2

theorem intChunk_small {size val i : Nat} (h : size ≤ i + 8) (h2 : i ≤ size) :
    intChunk size val i = (val, size - i) := by
  simp only [intChunk]
  rw [if_neg (by omega)]
  congr 1
  split <;> omega

theorem emits_uintLoop (size val : Nat) : ∀ n i, i ≤ size → n = (size - i + 7) / 8 →
    Emits (marshalUintLoop memSink size val n i) (natBits (size - i) val) := by
  intro n
  induction n with
  | zero =>
    intro i hi hn
    rw [show size - i = 0 by omega]
    exact Emits.pure
  | succ n ih =>
    intro i hi hn
    unfold marshalUintLoop
    by_cases hb : i + 8 < size
    · rw [intChunk_big hb]
      have := emits_bits (v := val >>> (size - i - 8)) (sz := 8) (by omega)
        (k := marshalUintLoop memSink size val n (i + 8)) (ih (i + 8) (by omega) (by omega))
      rw [show size - (i + 8) = size - i - 8 by omega, ← natBits_add,
        show 8 + (size - i - 8) = size - i by omega] at this
      exact this
    · rw [intChunk_small (by omega) hi]
      have hn0 : n = 0 := by omega
      subst hn0
      have := emits_bits (v := val) (sz := size - i) (by omega)
        (k := marshalUintLoop memSink size val 0 (i + 8)) (by
          unfold marshalUintLoop; exact Emits.pure)
      rw [List.append_nil] at this
      exact this

/-- the loop of `marshalInt` after the first chunk is that of `marshalUint` -/
theorem marshalIntLoop_tail (k : Sink Bytes) (size val : Nat) (sign : Bool) : ∀ n i, i ≠ 0 →
    marshalIntLoop k size val sign n i = marshalUintLoop k size val n i := by
  intro n
  induction n with
  | zero => intros; rfl
  | succ n ih =>
    intro i hi
    unfold marshalIntLoop marshalUintLoop
    simp only [hi, if_false]
    rw [ih (i + 8) (by omega)]

theorem natBits_sign (sz v : Nat) (sign : Bool) (h : 0 < sz) (hs : v.testBit (sz - 1) = sign) :
    natBits sz (if sign then v ||| (1 <<< (sz - 1)) else v &&& (1 <<< (sz - 1) - 1)) =
      natBits sz v := by
  apply natBits_ext
  intro j hj
  cases sign with
  | true =>
    simp only [if_true, Nat.testBit_or, Nat.one_shiftLeft, Nat.testBit_two_pow]
    by_cases hjs : sz - 1 = j
    · rw [← hjs, hs]; simp
    · simp [hjs]
  | false =>
    simp only [Bool.false_eq_true, if_false, Nat.testBit_and, Nat.one_shiftLeft,
      Nat.testBit_two_pow_sub_one]
    by_cases hjs : j = sz - 1
    · rw [hjs, hs]; simp
    · have : j < sz - 1 := by omega
      simp [this]

theorem int_testBit {size : Nat} {i : Int} (h0 : 0 < size) (h64 : size ≤ 64)
    (hlo : -(2 ^ (size - 1) : Nat) ≤ i) (hhi : i < (2 ^ (size - 1) : Nat)) :
    (i % (2 ^ 64 : Int)).toNat.testBit (size - 1) = decide (i < 0) := by
  have hp : (2 : Nat) ^ (size - 1) ≤ 2 ^ 63 := Nat.pow_le_pow_right (by omega) (by omega)
  by_cases hneg : i < 0
  · simp only [hneg, decide_true]
    have hm : i % (2 ^ 64 : Int) = i + 2 ^ 64 := by
      rw [← Int.add_emod_right]
      apply Int.emod_eq_of_lt <;> omega
    rw [hm]
    obtain ⟨k, hk⟩ : ∃ k : Nat, i = -(k : Int) := ⟨(-i).toNat, by omega⟩
    subst hk
    have hk0 : 0 < k := by omega
    have hk1 : k ≤ 2 ^ (size - 1) := by omega
    have : (-(k : Int) + 2 ^ 64).toNat = 2 ^ 64 - ((k - 1) + 1) := by omega
    rw [this, Nat.testBit_two_pow_sub_succ (by omega)]
    have : (k - 1).testBit (size - 1) = false := Nat.testBit_lt_two_pow (by omega)
    rw [this]
    simp; omega
  · simp only [hneg, decide_false]
    have hm : i % (2 ^ 64 : Int) = i := by
      apply Int.emod_eq_of_lt <;> omega
    rw [hm]
    exact Nat.testBit_lt_two_pow (by omega)

theorem int_mod {size : Nat} {i : Int} (h64 : size ≤ 64) :
    natBits size (i % (2 ^ 64 : Int)).toNat = natBits size (i % (2 ^ size : Nat)).toNat := by
  apply natBits_congr
  have h1 : (0 : Int) ≤ i % (2 ^ 64 : Int) := Int.emod_nonneg _ (by decide)
  have hp : (0 : Int) < ((2 ^ size : Nat) : Int) := by
    have := Nat.two_pow_pos size
    omega
  have h2 : (0 : Int) ≤ i % ((2 ^ size : Nat) : Int) := Int.emod_nonneg _ (by omega)
  have key : (i % (2 ^ 64 : Int)) % ((2 ^ size : Nat) : Int) = (i % ((2 ^ size : Nat) : Int)) % ((2 ^ size : Nat) : Int) := by
    rw [Int.emod_emod_of_dvd _ (show ((2 ^ size : Nat) : Int) ∣ 2 ^ 64 by
      have := Nat.pow_dvd_pow 2 h64
      exact_mod_cast this), Int.emod_emod]
  have := congrArg Int.toNat key
  rw [Int.toNat_emod h1 (by omega), Int.toNat_emod h2 (by omega), Int.toNat_natCast] at this
  exact this

theorem emits_int {size : Nat} {i : Int} (h0 : 0 < size) (h64 : size ≤ 64)
    (hlo : -(2 ^ (size - 1) : Nat) ≤ i) (hhi : i < (2 ^ (size - 1) : Nat)) :
    Emits (marshalIntLoop memSink size ((i % (2 ^ 64 : Int)).toNat) (decide (i < 0))
        ((size + 7) / 8) 0) (natBits size (i % (2 ^ size : Nat)).toNat) := by
  rw [← int_mod h64]
  have hb := int_testBit h0 h64 hlo hhi
  generalize (i % (2 ^ 64 : Int)).toNat = val at *
  generalize decide (i < 0) = sign at *
  obtain ⟨n, hn⟩ : ∃ n, (size + 7) / 8 = n + 1 := ⟨(size + 7) / 8 - 1, by omega⟩
  rw [hn]
  unfold marshalIntLoop
  rw [marshalIntLoop_tail _ _ _ _ _ _ (by omega)]
  simp only [if_true]
  by_cases hbig : 0 + 8 < size
  · rw [intChunk_big hbig]
    have h8 := natBits_sign 8 (val >>> (size - 0 - 8)) sign (by omega) (by
      rw [Nat.testBit_shiftRight, show size - 0 - 8 + (8 - 1) = size - 1 by omega, hb])
    have := emits_bits (sz := 8) (v := if sign then (val >>> (size - 0 - 8)) ||| (1 <<< (8 - 1))
        else (val >>> (size - 0 - 8)) &&& (1 <<< (8 - 1) - 1)) (by omega)
      (k := marshalUintLoop memSink size val n (0 + 8))
      (emits_uintLoop size val n (0 + 8) (by omega) (by omega))
    rw [h8, show size - (0 + 8) = size - 0 - 8 by omega, ← natBits_add,
      show 8 + (size - 0 - 8) = size by omega] at this
    exact this
  · rw [intChunk_small (by omega) (by omega)]
    have hn0 : n = 0 := by omega
    subst hn0
    have h8 := natBits_sign (size - 0) val sign (by omega) (by simpa using hb)
    have := emits_bits (sz := size - 0) (v := if sign then val ||| (1 <<< (size - 0 - 1))
        else val &&& (1 <<< (size - 0 - 1) - 1)) (by omega)
      (k := marshalUintLoop memSink size val 0 (0 + 8)) (by
          unfold marshalUintLoop; exact Emits.pure)
    rw [h8, List.append_nil] at this
    exact this

theorem byteBits_or80 (n : Nat) :
    byteBits (BitVec.ofNat 8 n ||| 0x80#8) = true :: natBits 7 n := by
  rw [show byteBits (BitVec.ofNat 8 n ||| 0x80#8) =
    true :: (byteBits (BitVec.ofNat 8 n)).drop 1 by simp [byteBits], byteBits_ofNat]
  rfl

theorem byteBits_and7f (n : Nat) :
    byteBits (BitVec.ofNat 8 n &&& 0x7f#8) = false :: natBits 7 n := by
  rw [show byteBits (BitVec.ofNat 8 n &&& 0x7f#8) =
    false :: (byteBits (BitVec.ofNat 8 n)).drop 1 by simp [byteBits], byteBits_ofNat]
  rfl

theorem emits_uvarint (n : Nat) : Emits (writeUvarint memSink n) (uvarint n) := by
  unfold writeUvarint uvarint
  rw [← byteBits_or80, ← byteBits_or80, ← byteBits_or80, ← byteBits_and7f]
  rw [List.append_assoc, List.append_assoc]
  apply emits_byte
  apply emits_byte
  apply emits_byte
  exact emits_byte1 _

theorem Emits.dropErr {m : MM Bytes Unit} {b : List Bool} (h : Emits m b) : Emits (dropErr m) b := by
  intro s hs
  obtain ⟨s', e, r⟩ := h s hs
  exact ⟨s', by simp [Mp4.dropErr, e], r⟩

theorem emits_string (b : Bytes) : Emits (marshalStringLoop memSink b) (bytesBits b) := by
  induction b with
  | nil => exact Emits.pure
  | cons x xs ih => exact emits_byte ih

theorem emits_forElems {f : Val → MM Bytes Unit} {g : Val → List Bool} (l : List Val)
    (h : ∀ v ∈ l, Emits (f v) (g v)) : Emits (forElems f l) (l.flatMap g) := by
  induction l with
  | nil => exact Emits.pure
  | cons v vs ih =>
    exact Emits.bind (h v (by simp)) (ih (fun x hx => h x (by simp [hx])))

theorem MInv.aligned {s : MSt Bytes} (h : MInv s) (h8 : s.wbits % 8 = 0) : s.w.width = 0 := by
  have := h.al; omega

/-- aligned raw writes -/
theorem writeRaw_run {p : Bytes} {w : WSt Bytes} (hw : w.WF) (h : w.width = 0) :
    ∃ w', writeRaw memSink p w = (.ok (), w') ∧ w'.bits = w.bits ++ bytesBits p ∧ w'.WF ∧ w'.width = 0 := by
  obtain ⟨w', e, b, f⟩ := writeRaw_mem (p := p) hw h
  refine ⟨w', e, b, f, ?_⟩
  have hl := congrArg List.length b
  rw [List.length_append, WSt.bits_length _ f, WSt.bits_length _ hw, bytesBits_length] at hl
  have := f.width
  omega

theorem copyBytes_run {p : Bytes} {w : WSt Bytes} (hw : w.WF) (h : w.width = 0) :
    ∃ w', copyBytes memSink p w = (.ok (), w') ∧ w'.bits = w.bits ++ bytesBits p ∧ w'.WF ∧ w'.width = 0 := by
  unfold copyBytes
  split
  · next hp => subst hp; exact ⟨w, by simp, by simp, hw, h⟩
  · exact writeRaw_run hw h

/-- As `Emits`, from states in which `left` bits bring the writer to a byte boundary. -/
def EmitsL (left : Nat) (m : MM Bytes Unit) (bs : List Bool) : Prop :=
  ∀ s, MInv s → (s.wbits + left) % 8 = 0 → ∃ s', m s = (.ok (), s') ∧
    s'.w.bits = s.w.bits ++ bs ∧ s'.wbits = s.wbits + bs.length ∧ MInv s'

theorem Emits.toL {left : Nat} {m : MM Bytes Unit} {bs : List Bool} (h : Emits m bs) :
    EmitsL left m bs := fun s hs _ => h s hs

theorem EmitsL.bind {left : Nat} {m k : MM Bytes Unit} {a b : List Bool}
    (h1 : EmitsL left m a) (hl : a.length ≤ left) (h2 : EmitsL (left - a.length) k b) :
    EmitsL left (do m; k) (a ++ b) := by
  intro s hs ha
  obtain ⟨s1, e1, b1, w1, i1⟩ := h1 s hs ha
  obtain ⟨s2, e2, b2, w2, i2⟩ := h2 s1 i1 (by omega)
  refine ⟨s2, ?_, ?_, ?_, i2⟩
  · rw [M.bind_ok e1, e2]
  · rw [b2, b1, List.append_assoc]
  · rw [w2, w1, List.length_append]; omega

theorem EmitsL.dropErr {left : Nat} {m : MM Bytes Unit} {b : List Bool} (h : EmitsL left m b) :
    EmitsL left (dropErr m) b := by
  intro s hs ha
  obtain ⟨s', e, r⟩ := h s hs ha
  exact ⟨s', by simp [Mp4.dropErr, e], r⟩

theorem emitsL_forElems {f : Val → MM Bytes Unit} {g : Val → List Bool} {ok : Val → Nat → Bool}
    (h : ∀ v left, ok v left = true → EmitsL left (f v) (g v)) :
    ∀ (l : List Val) (left : Nat), fitsList ok g l left = true →
      EmitsL left (forElems f l) (l.flatMap g) := by
  intro l
  induction l with
  | nil => intro left _; exact Emits.pure.toL
  | cons v vs ih =>
    intro left hf
    simp only [fitsList, Bool.and_eq_true, decide_eq_true_eq] at hf
    rw [List.flatMap_cons]
    exact EmitsL.bind (h v left hf.1.1) hf.1.2 (ih _ hf.2)

theorem resolve_eq {c : Cfo} {ctx : Ctx} {csv : SV} {f : Field}
    (h1 : (!f.sizeDyn || (c.size f.name ctx csv).isSome) = true)
    (h2 : (!f.lenDyn || (c.length f.name ctx csv).isSome) = true) :
    resolve c ctx csv f = some (instField c ctx csv f) := by
  unfold resolve instField
  cases hs : f.sizeDyn <;> cases hl : f.lenDyn <;> simp only [hs, hl] at h1 h2 ⊢
  · rfl
  · simp at h2
    obtain ⟨n, hn⟩ := Option.isSome_iff_exists.mp h2
    simp [hn]
  · simp at h1
    obtain ⟨n, hn⟩ := Option.isSome_iff_exists.mp h1
    simp [hn]
  · simp at h1 h2
    obtain ⟨n, hn⟩ := Option.isSome_iff_exists.mp h1
    obtain ⟨m, hm⟩ := Option.isSome_iff_exists.mp h2
    simp [hn, hm]

private theorem ite_false_eq (p : Prop) [Decidable p] (x : Bool) :
    (if p then false else x) = (decide (¬ p) && x) := by
  by_cases h : p <;> simp [h]

theorem isTarget_eq (c : Cfo) (ctx : Ctx) (root csv : SV) (fi : Field) :
    isTarget c ctx root csv fi = present c ctx root.version root.flags csv fi := by
  unfold isTarget present
  generalize root.version = v
  generalize root.flags = fl
  generalize c.opt fi.name ctx csv = o
  simp only [anyVersion, ite_false_eq, Bool.and_true, Bool.and_assoc]
  congr 1
  · rw [Bool.eq_iff_iff]; simp; omega
  congr 1
  · rw [Bool.eq_iff_iff]; simp; omega
  congr 1
  · rw [Bool.eq_iff_iff]; simp
  congr 1
  · rw [Bool.eq_iff_iff]; simp
  · cases fi.optDyn <;> cases o <;> simp


/-- the marshaller's view of a specification environment -/
def menvOf (e : Env) : MEnv Bytes := ⟨memSink, e.ctx, e.root, e.cfo, e.hook⟩

theorem emits_bool {b : Bool} {sz : Nat} (h : sz ≤ 8) :
    Emits (do liftW (writeBits memSink [if b then 0xff#8 else 0x00#8] sz); addW sz)
      (List.replicate sz b) := by
  have h1 : (if b then 0xff#8 else 0x00#8) = BitVec.ofNat 8 (if b then 255 else 0) := by
    cases b <;> rfl
  have h2 : natBits sz (if b then 255 else 0) = List.replicate sz b := by
    have h8 : ∀ k, k ≤ 8 → natBits k (if b then 255 else 0) = List.replicate k b := by
      intro k hk
      have : k = 0 ∨ k = 1 ∨ k = 2 ∨ k = 3 ∨ k = 4 ∨ k = 5 ∨ k = 6 ∨ k = 7 ∨ k = 8 := by omega
      rcases this with h | h | h | h | h | h | h | h | h <;> subst h <;> cases b <;> rfl
    exact h8 sz h
  have := emits_bits (v := if b then 255 else 0) (sz := sz) (k := Pure.pure ()) h Emits.pure
  rw [← h1, h2, List.append_nil] at this
  exact this

theorem bytesBits_valBytes {e : Env} {fi : Field} {t : Ty} (ht : t.isByte = true) (hs : fi.size = 8) :
    ∀ (l : List Val) (left : Nat),
      fitsList (fun x k => fitsV e t fi x k) (fun x => layoutV e t fi x) l left = true →
      bytesBits (valBytes l) = l.flatMap (fun x => layoutV e t fi x) := by
  have htt : t = .uint 8 := by
    unfold Ty.isByte at ht
    split at ht
    · rfl
    · simp at ht
  subst htt
  intro l
  induction l with
  | nil => intros; rfl
  | cons v vs ih =>
    intro left hf
    simp only [fitsList, Bool.and_eq_true] at hf
    rw [List.flatMap_cons, ← ih _ hf.2]
    have hv := hf.1.1
    cases v <;> simp only [fitsV] at hv
    case uint n =>
      have hvar : fi.varint = false := by
        cases hh : fi.varint with
        | false => rfl
        | true => rw [hh] at hv; simp [hs] at hv
      simp only [valBytes, List.map_cons, bytesBits_cons, byteBits_ofNat, layoutV, hvar, hs]
      rfl
    all_goals simp at hv

theorem before_of_silent {h : Hook} {n : String} {sv : SV} (hs : silent h n sv = true) :
    before h n sv = [] := by
  unfold before
  rw [if_neg]
  rintro ⟨rfl, _, rfl⟩
  simp [silent] at hs

theorem onWrite_silent {h : Hook} {k : Sink Bytes} {n : String} {sv : SV} {left : Nat} {v : Val} {s : MSt Bytes}
    (hs : silent h n sv = true)
    (hav : h = .avcc → isBool v (decide (32 ≤ left) && highProfile (sv.uint "Profile")) = true)
    (hget : sv.get n = some v) :
    (liftW (onWrite h k n sv) : MM Bytes (Nat × Bool)) s = (.ok ((0 : Nat), true), s) := by
  unfold silent at hs
  cases h <;> simp at hs
  · obtain ⟨hv, hn⟩ := hs
    simp only [liftW, onWrite, hv, if_false, hn, if_true]
    rfl
  · subst hs
    have := hav rfl
    have hb : sv.bool "HighProfileFieldsEnabled" =
        (decide (32 ≤ left) && highProfile (sv.uint "Profile")) := by
      cases v <;> simp [isBool] at this
      rw [SV.bool, hget]; simpa using this
    have hh : ¬ (sv.bool "HighProfileFieldsEnabled" = true ∧ ¬ avccHigh (sv.uint "Profile") = true) := by
      rintro ⟨h1, h2⟩
      rw [hb, Bool.and_eq_true] at h1
      apply h2
      have := h1.2
      simp [highProfile] at this
      simp [avccHigh]
      omega
    simp only [liftW, onWrite, if_true, hh, if_false]
    rfl

theorem writeStringZ_run {p : Bytes} {w : WSt Bytes} (hw : w.WF) (h : w.width = 0) :
    ∃ w', writeStringZ memSink p w = (.ok (), w') ∧ w'.bits = w.bits ++ cstring p ∧ w'.WF ∧
      w'.width = 0 := by
  obtain ⟨w1, e1, b1, f1, h1⟩ := writeRaw_run (p := p) hw h
  obtain ⟨w2, e2, b2, f2, h2⟩ := writeRaw_run (p := [0#8]) f1 h1
  refine ⟨w2, ?_, ?_, f2, h2⟩
  · rw [writeStringZ, M.bind_ok e1, e2]
  · rw [b2, b1, cstring, List.append_assoc]; rfl

theorem onWrite_before {h : Hook} {n : String} {sv : SV} {s : MSt Bytes}
    (hs : silent h n sv = false) (hi : MInv s)
    (hal : before h n sv ≠ [] → s.wbits % 8 = 0) :
    ∃ w', (liftW (onWrite h memSink n sv) : MM Bytes (Nat × Bool)) s =
        (.ok ((before h n sv).length, false), ⟨w', s.wbits⟩) ∧
      w'.bits = s.w.bits ++ before h n sv ∧ w'.WF := by
  have trivial_case : ∀ (_ : onWrite h memSink n sv = Pure.pure (0, false)) (_ : before h n sv = []),
      ∃ w', (liftW (onWrite h memSink n sv) : MM Bytes (Nat × Bool)) s =
        (.ok ((before h n sv).length, false), ⟨w', s.wbits⟩) ∧
      w'.bits = s.w.bits ++ before h n sv ∧ w'.WF := by
    intro h1 h2
    refine ⟨s.w, ?_, by simp [h2], hi.wf⟩
    rw [h1, h2]; rfl
  cases h with
  | none => exact trivial_case rfl (by simp [before])
  | hdlr => exact trivial_case rfl (by simp [before])
  | avcc =>
    simp [silent] at hs
    exact trivial_case (by simp [onWrite, hs]) (by simp [before])
  | emsg =>
    by_cases hv : sv.version = 0
    · exact trivial_case (by simp [onWrite, hv]) (by simp [before, hv])
    · simp [silent, hv] at hs
      by_cases hm : n = "MessageData"
      · have hb : before .emsg n sv = cstring (sv.str "SchemeIdUri") ++ cstring (sv.str "Value") := by
          simp [before, hv, hm]
        have h0 := hi.aligned (hal (by rw [hb]; simp [cstring]))
        obtain ⟨w1, e1, b1, f1, h1⟩ := writeStringZ_run (p := sv.str "SchemeIdUri") hi.wf h0
        obtain ⟨w2, e2, b2, f2, h2⟩ := writeStringZ_run (p := sv.str "Value") f1 h1
        refine ⟨w2, ?_, ?_, f2⟩
        · have : onWrite .emsg memSink n sv s.w =
              (.ok ((before .emsg n sv).length, false), w2) := by
            simp only [onWrite, hv, if_false, hm, if_true]
            simp only [show ("MessageData" = "SchemeIdUri") = False by decide,
              show ("MessageData" = "Value") = False by decide, or_self, if_false]
            rw [M.bind_ok e1, M.bind_ok e2]
            rw [← hm, hb]
            simp only [cstring, List.length_append, bytesBits_length, List.length_replicate]
            rw [M.pure_run]
            congr 3; omega
          simp [liftW, this]
        · rw [b2, b1, hb, List.append_assoc]
      · exact trivial_case (by simp [onWrite, hv, hs, hm]) (by simp [before, hm])

mutual
/-- Values that can be represented are written as specified. -/
theorem emits_layoutV (e : Env) : ∀ (t : Ty) (fi : Field) (v : Val) (left : Nat),
    fitsV e t fi v left = true → EmitsL left (marshalV (menvOf e) t fi v) (layoutV e t fi v)
  | .ptr t, fi, v, left, h => by
    cases v <;> simp only [fitsV] at h <;> try contradiction
    case ptr o =>
      cases o with
      | none => simp at h
      | some x =>
        simp only [marshalV, layoutV]
        exact emits_layoutV e t fi x left h
  | .struct c fs, fi, v, left, h => by
    cases v <;> simp only [fitsV] at h <;> try contradiction
    case struct sv =>
      simp only [marshalV, layoutV]
      simp only [Bool.and_eq_true] at h
      have h2 := h.2
      split at h2
      · next hsz =>
        simp only [Bool.and_eq_true, beq_iff_eq, decide_eq_true_eq] at h2
        have := emits_layoutFields e false c fs sv fi.size h2.2
        intro s hs ha
        exact this s hs (by omega)
      · exact emits_layoutFields e false c fs sv left h2
  | .arr n t, fi, v, left, h => by
    cases v <;> simp only [fitsV] at h <;> try contradiction
    case arr l =>
      simp only [Bool.and_eq_true] at h
      simp only [marshalV, layoutV]
      exact emitsL_forElems (fun v left hv => emits_layoutV e t fi v left hv) l left h.2
  | .slice t, fi, v, left, h => by
    cases v <;> simp only [fitsV] at h <;> try contradiction
    case slice l =>
      simp only [Bool.and_eq_true] at h
      obtain ⟨hf, hlen⟩ := h
      simp only [marshalV, layoutV]
      have hlen' : ¬ (fi.length ≠ lengthUnlimited ∧ l.length < fi.length) := by
        split at hlen
        · next hh => simp [hh]
        · simp at hlen; omega
      have htake : (if fi.length ≠ lengthUnlimited then l.take fi.length else l) = l := by
        split at hlen
        · next hh => simp [hh]
        · simp at hlen; simp [← hlen]
      have hcnt : counted fi l = l := by
        unfold counted
        by_cases hh : fi.length = lengthUnlimited
        · rw [if_pos hh]
        · rw [if_pos hh] at htake; rw [if_neg hh]; exact htake
      rw [if_neg hlen', htake, hcnt]
      have gen := emitsL_forElems (f := fun x => dropErr (marshalV (menvOf e) t fi x))
        (fun v left hv => (emits_layoutV e t fi v left hv).dropErr) l left hf
      intro s hs ha
      rw [marshalElems, M.bind_ok (M.get_run s)]
      split
      · next hb =>
        obtain ⟨hb1, hb2, hb3⟩ := hb
        have hw := hs.aligned hb3
        obtain ⟨w', e1, b1, f1, hw'⟩ := copyBytes_run (p := valBytes l) hs.wf hw
        have hbits := bytesBits_valBytes hb1 hb2 l left hf
        have hll : (l.flatMap (fun x => layoutV e t fi x)).length = l.length * 8 := by
          rw [← hbits, bytesBits_length]; simp [valBytes, Nat.mul_comm]
        refine ⟨⟨w', s.wbits + l.length * 8⟩, ?_, ?_, ?_, ⟨f1, ?_⟩⟩
        · rw [M.bind_ok (s' := ⟨w', s.wbits⟩) (a := ()) (by simp [liftW, menvOf, e1])]
          simp [addW]
        · rw [← hbits]; exact b1
        · simp only; rw [hll]
        · simp only; omega
      · exact gen s hs ha
  | .uint w, fi, v, left, h => by
    cases v <;> simp only [fitsV] at h <;> try contradiction
    case uint n =>
      simp only [marshalV, layoutV]
      split
      · exact (emits_uvarint n).dropErr.toL
      · have := emits_uintLoop fi.size n ((fi.size + 7) / 8) 0 (by omega) (by simp)
        exact this.toL
  | .int w, fi, v, left, h => by
    cases v <;> simp only [fitsV] at h <;> try contradiction
    case int i =>
      simp only [Bool.and_eq_true, Bool.not_eq_true', decide_eq_true_eq] at h
      simp only [marshalV, layoutV, h.1]
      obtain ⟨_, h0, hl, hw, h64, hlo, hhi⟩ := h
      exact (emits_int h0 (by omega) hlo hhi).toL
  | .bool, fi, v, left, h => by
    cases v <;> simp only [fitsV] at h <;> try contradiction
    case bool b =>
      simp only [decide_eq_true_eq] at h
      simp only [marshalV, layoutV]
      exact (emits_bool h.2.1).toL
  | .str, fi, v, left, h => by
    cases v <;> simp only [fitsV] at h <;> try contradiction
    case str b =>
      simp only [marshalV, layoutV]
      split
      · have := Emits.bind (k := fun _ => Pure.pure ()) (emits_string b) Emits.pure
        rw [List.append_nil] at this
        exact this.toL
      · exact (Emits.bind (emits_string b) (emits_byte1 0x00#8)).toL

theorem emits_layoutFields (e : Env) (top : Bool) (c : Option Cfo) :
    ∀ (fs : Fields) (sv : SV) (left : Nat), fitsFields e top c fs sv left = true →
      EmitsL left (marshalFields (menvOf e) top c fs sv) (layoutFields e top c fs sv)
  | .nil, sv, left, h => by
    simp only [marshalFields, layoutFields]
    exact Emits.pure.toL
  | .cons f t fs, sv, left, h => by
    simp only [fitsFields] at h
    rw [Bool.and_eq_true, Bool.and_eq_true] at h
    obtain ⟨⟨hsz, hln⟩, h⟩ := h
    simp only [marshalFields, layoutFields]
    have hres := resolve_eq hsz hln
    simp only [show (menvOf e).cfo = e.cfo from rfl, show (menvOf e).ctx = e.ctx from rfl,
      show (menvOf e).root = e.root from rfl, show (menvOf e).hook = e.hook from rfl,
      show (menvOf e).sink = memSink from rfl]
    rw [hres]
    simp only [isTarget_eq]
    generalize instField (c.getD e.cfo) e.ctx (if c.isSome then sv else e.root) f = fi at *
    cases hget : sv.get f.name with
    | none => rw [hget] at h; simp at h
    | some v =>
      rw [hget] at h
      simp only at h ⊢
      generalize hpres : present (c.getD e.cfo) e.ctx e.root.version e.root.flags
        (if c.isSome then sv else e.root) fi = pres at *
      cases pres with
      | false =>
        simp only [Bool.false_eq_true, if_false, Bool.and_eq_true] at h
        simp only [Bool.false_eq_true, not_false_eq_true, if_true, if_false, List.nil_append]
        exact emits_layoutFields e top c fs sv left h.2
      | true =>
        simp only [if_true] at h
        simp only [not_true_eq_false, if_false, if_true]
        cases top with
        | false =>
          simp only [Bool.false_and, Bool.false_eq_true, if_false, List.length_nil, Nat.sub_zero,
            List.isEmpty_nil, Bool.true_or, Bool.not_false] at h
          simp only [Bool.and_eq_true, decide_eq_true_eq] at h
          simp only [Bool.false_and, Bool.false_eq_true, if_false, List.nil_append]
          have ih := emits_layoutFields e false c fs sv _ h.2
          have hv := emits_layoutV e t fi v left h.1.1.1.2
          have := EmitsL.bind hv h.1.1.2 ih
          intro s hs ha
          obtain ⟨s', e', r⟩ := this s hs ha
          exact ⟨s', by
            rw [M.bind_ok (s' := s) (a := ((0 : Nat), false)) (by simp)]
            simp only
            rw [M.bind_ok (s' := s) (a := ()) (by simp [addW])]
            simpa using e', r⟩
        | true =>
          simp only [Bool.true_and, if_true] at h ⊢
          cases hsil : silent e.hook f.name sv with
          | true =>
            simp only [hsil, if_true, Bool.and_eq_true] at h
            have ih := emits_layoutFields e true c fs sv left h.2
            have hpre : before e.hook f.name sv = [] := before_of_silent hsil
            simp only [hpre, if_true, List.nil_append]
            intro s hs ha
            obtain ⟨s', e', r⟩ := ih s hs ha
            refine ⟨s', ?_, r⟩
            rw [M.bind_ok (s' := s) (a := ((0 : Nat), true))
              (onWrite_silent (k := memSink) hsil (by
                intro hav
                have := h.1
                simpa [hav] using this) hget)]
            simp only
            rw [M.bind_ok (s' := s) (a := ()) (by simp [addW])]
            simpa using e'
          | false =>
            simp only [hsil, Bool.false_eq_true, if_false, Bool.and_eq_true, decide_eq_true_eq] at h
            simp only [Bool.false_eq_true, if_false]
            obtain ⟨⟨⟨⟨⟨hpre, hprel⟩, hv⟩, hvl⟩, _⟩, hfs⟩ := h
            have ih := emits_layoutFields e true c fs sv _ hfs
            have hv' := emits_layoutV e t fi v _ hv
            have := EmitsL.bind hv' hvl ih
            intro s hs ha
            obtain ⟨w', ew, bw, fw⟩ := onWrite_before (s := s) hsil hs (by
              intro hne
              have : (before e.hook f.name sv).isEmpty = false := by simpa using hne
              simp [this] at hpre
              omega)
            have hal' : (s.wbits + (before e.hook f.name sv).length) % 8 = w'.width := by
              have hl := congrArg List.length bw
              rw [List.length_append, WSt.bits_length _ fw, WSt.bits_length _ hs.wf] at hl
              have hw := fw.width
              have hw0 := hs.wf.width
              have hal := hs.al
              omega
            obtain ⟨s', e', b', w'', i'⟩ := this ⟨w', s.wbits + (before e.hook f.name sv).length⟩
              ⟨fw, hal'⟩ (by simp only; omega)
            refine ⟨s', ?_, ?_, ?_, i'⟩
            · rw [M.bind_ok ew]
              simp only
              rw [M.bind_ok (s' := ⟨w', s.wbits + (before e.hook f.name sv).length⟩) (a := ())
                (by simp [addW])]
              simpa using e'
            · rw [b']; simp only; rw [bw]; simp [List.append_assoc]
            · rw [w'']; simp only [List.length_append]; omega
end

end Mp4
