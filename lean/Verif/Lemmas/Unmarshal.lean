import Verif.Spec.Layout
import Verif.Model.Unmarshal
import Verif.Lemmas.Marshal

/-! # The unmarshaller reads the specified layout -/

namespace Mp4

open Spec

/-- Started `left` bits before the end of the payload (`size8` bits) on input that begins with
`bs`, the computation returns `v`, having consumed and counted exactly `bs`. -/
def Decodes {α : Type} (d : Bytes) (size8 left : Nat) (m : UM α) (bs : List Bool) (v : α) : Prop :=
  ∀ s tl, s.r.WF d → s.rbits + left = size8 → s.r.width = left % 8 → s.r.rem d = bs ++ tl →
    bs.length ≤ left → ∃ s', m s = (.ok v, s') ∧ s'.r.rem d = tl ∧ s'.r.WF d ∧
      s'.rbits = s.rbits + bs.length

section
variable {α β : Type} {d : Bytes} {size8 left : Nat}

theorem Decodes.pure (v : α) : Decodes d size8 left (Pure.pure v) [] v := by
  intro s tl hw hl ha hr _
  exact ⟨s, by simp, by simpa using hr, hw, by simp⟩

theorem width_after {s s' : USt} {a tl : List Bool} (hw : s.r.WF d) (hw' : s'.r.WF d)
    (ha : s.r.width = left % 8) (hr : s.r.rem d = a ++ tl) (hr' : s'.r.rem d = tl)
    (hl : a.length ≤ left) : s'.r.width = (left - a.length) % 8 := by
  have h1 := hw.pos_eq.2
  have h2 := hw'.pos_eq.2
  have hw1 := hw.width
  rw [hr, List.length_append] at h1
  rw [hr'] at h2
  omega

theorem Decodes.bind {m : UM α} {k : α → UM β} {a b : List Bool} {x : α} {y : β}
    (h1 : Decodes d size8 left m a x)
    (h2 : a.length ≤ left → Decodes d size8 (left - a.length) (k x) b y) :
    Decodes d size8 left (m >>= k) (a ++ b) y := by
  intro s tl hw hl ha hr hlen
  rw [List.length_append] at hlen
  rw [List.append_assoc] at hr
  obtain ⟨s1, e1, r1, w1, c1⟩ := h1 s _ hw hl ha hr (by omega)
  have hwid := width_after hw w1 ha hr r1 (by omega)
  obtain ⟨s2, e2, r2, w2, c2⟩ := h2 (by omega) s1 tl w1 (by omega) hwid r1 (by omega)
  refine ⟨s2, ?_, r2, w2, ?_⟩
  · rw [M.bind_ok e1, e2]
  · rw [c2, c1, List.length_append]; omega

/-- sequencing with a result computed from the first -/
theorem Decodes.map {m : UM α} {k : α → β} {a : List Bool} {x : α}
    (h1 : Decodes d size8 left m a x) :
    Decodes d size8 left (do let v ← m; Pure.pure (k v)) a (k x) := by
  have := Decodes.bind (k := fun v => Pure.pure (k v)) h1 (fun _ => Decodes.pure (k x))
  rw [List.append_nil] at this
  exact this

/-- reading `size` bits and counting them -/
theorem decodes_bits {k : Bytes → UM α} {bs b : List Bool} {y : α}
    (hsize : size8 ≤ 8 * maxAlloc) (_h0 : 0 < bs.length)
    (h2 : ∀ out, bytesBits out = List.replicate ((bs.length + 7) / 8 * 8 - bs.length) false ++ bs →
      bs.length ≤ left → Decodes d size8 (left - bs.length) (k out) b y) :
    Decodes d size8 left (do let data ← readBitsA d bs.length; addR bs.length; k data) (bs ++ b) y := by
  intro s tl hw hl ha hr hlen
  rw [List.length_append] at hlen
  rw [List.append_assoc] at hr
  obtain ⟨out, r', e, hr', hw', ho⟩ := readBits_ok hw hr rfl
  have hwid := width_after (s' := ⟨r', s.rbits + bs.length⟩) hw hw' ha hr hr' (by omega)
  obtain ⟨s2, e2, r2, w2, c2⟩ := h2 out ho (by omega) ⟨r', s.rbits + bs.length⟩ tl hw'
    (by simp only; omega) hwid hr' (by omega)
  refine ⟨s2, ?_, r2, w2, ?_⟩
  · rw [M.bind_ok (s' := ⟨r', s.rbits⟩) (a := out)]
    · rw [M.bind_ok (s' := ⟨r', s.rbits + bs.length⟩) (a := ()) (by simp [addR]), e2]
    · rw [readBitsA, M.bind_ok (s' := s) (a := ())]
      · simp [liftR, e]
      · rw [alloc, if_pos (by omega)]; simp
  · rw [c2]; simp only [List.length_append]; omega

/-- the same without `make` -/
theorem decodes_octet {k : Bytes → UM α} {x : Byte} {b : List Bool} {y : α}
    (h2 : 8 ≤ left → Decodes d size8 (left - 8) (k [x]) b y) :
    Decodes d size8 left (do let data ← liftR (readBits d 8); addR 8; k data)
      (byteBits x ++ b) y := by
  intro s tl hw hl ha hr hlen
  rw [List.length_append, byteBits_length] at hlen
  rw [List.append_assoc] at hr
  obtain ⟨out, r', e, hr', hw', ho⟩ := readBits_ok hw hr (byteBits_length x)
  have hx : out = [x] := bytesBits_inj (by simpa using ho)
  subst hx
  have hwid := width_after (s' := ⟨r', s.rbits + 8⟩) hw hw' ha hr hr' (by rw [byteBits_length]; omega)
  rw [byteBits_length] at hwid
  obtain ⟨s2, e2, r2, w2, c2⟩ := h2 (by omega) ⟨r', s.rbits + 8⟩ tl hw'
    (by simp only; omega) hwid hr' (by omega)
  refine ⟨s2, ?_, r2, w2, ?_⟩
  · rw [M.bind_ok (s' := ⟨r', s.rbits⟩) (a := [x]) (by simp [liftR, e])]
    rw [M.bind_ok (s' := ⟨r', s.rbits + 8⟩) (a := ()) (by simp [addR]), e2]
  · rw [c2]; simp only [List.length_append, byteBits_length]; omega

end

theorem accBytes_eq (init : Nat) (data : Bytes) (h : init < U64) :
    accBytes init data = (init * 2 ^ (8 * data.length) + bitsNat (bytesBits data)) % U64 := by
  rw [← bitsNat_bytesBits_foldl]
  unfold accBytes
  suffices ∀ (data : Bytes) (a b : Nat), a % U64 = b % U64 →
      (data.foldl (fun v b => (v * 256 + b.toNat) % U64) a) % U64 =
      (data.foldl (fun v b => v * 256 + b.toNat) b) % U64 by
    have h1 := this data init init rfl
    rw [← h1]
    symm
    apply Nat.mod_eq_of_lt
    cases data with
    | nil => exact h
    | cons x xs =>
      have : ∀ (l : Bytes) (a : Nat), a < U64 →
          l.foldl (fun v b => (v * 256 + b.toNat) % U64) a < U64 := by
        intro l
        induction l with
        | nil => intro a ha; exact ha
        | cons y ys ih => intro a _; exact ih _ (Nat.mod_lt _ (by decide))
      exact this _ _ h
  intro data
  induction data with
  | nil => intro a b hab; exact hab
  | cons x xs ih =>
    intro a b hab
    rw [List.foldl_cons, List.foldl_cons]
    apply ih
    simp only [U64] at *
    omega

theorem bitsNat_replicate_true (k : Nat) : bitsNat (List.replicate k true) = 2 ^ k - 1 := by
  induction k with
  | zero => rfl
  | succ k ih =>
    rw [List.replicate_succ, bitsNat_cons, ih, List.length_replicate, Nat.pow_succ]
    have := Nat.two_pow_pos k
    simp only [Bool.toNat_true]; omega

section
variable {d : Bytes} {size8 left : Nat}

theorem decodes_uint {w : Nat} {fi : Field} {n : Nat} (hsize : size8 ≤ 8 * maxAlloc)
    (hv : fi.varint = false) (h0 : 0 < fi.size) (h1 : n < 2 ^ fi.size) (h2 : n < 2 ^ w)
    (hw : w ≤ 64) :
    Decodes d size8 left (unmarshalUint d w fi) (natBits fi.size n) (.uint n) := by
  unfold unmarshalUint
  simp only [hv, Bool.false_eq_true, if_false, show ¬ fi.size = 0 by omega]
  have key := decodes_bits (d := d) (left := left) (bs := natBits fi.size n) (b := []) (y := Val.uint n)
    (k := fun data => Pure.pure (.uint (accBytes 0 data % 2 ^ w))) hsize (by simpa using h0) (by
      intro out ho _
      have : accBytes 0 out % 2 ^ w = n := by
        rw [accBytes_eq _ _ (by decide), ho, bitsNat_pad, bitsNat_natBits, Nat.zero_mul,
          Nat.zero_add, Nat.mod_eq_of_lt h1, Nat.mod_eq_of_lt (a := n) (b := U64),
          Nat.mod_eq_of_lt h2]
        exact Nat.lt_of_lt_of_le h2 (Nat.pow_le_pow_right (by omega) hw)
      rw [this]
      exact Decodes.pure _)
  rw [natBits_length, List.append_nil] at key
  exact key

theorem decodes_bool {fi : Field} {b : Bool} (hsize : size8 ≤ 8 * maxAlloc) (h0 : 0 < fi.size) :
    Decodes d size8 left (unmarshalBool d fi) (List.replicate fi.size b) (.bool b) := by
  unfold unmarshalBool
  simp only [show ¬ fi.size = 0 by omega, if_false]
  have key := decodes_bits (d := d) (left := left) (bs := List.replicate fi.size b) (b := [])
    (y := Val.bool b) (k := fun data => Pure.pure (.bool (data.any (fun b => b != 0#8)))) hsize
    (by simpa using h0) (by
      intro out ho _
      have : out.any (fun b => b != 0#8) = b := by
        cases b with
        | true =>
          rw [Bool.eq_iff_iff]
          simp only [List.any_eq_true, iff_true]
          apply Classical.byContradiction
          intro hcon
          have hz : ∀ x ∈ out, x = 0#8 := by
            intro x hx
            apply Classical.byContradiction
            intro hne
            exact hcon ⟨x, hx, by simpa using hne⟩
          have : out = List.replicate out.length 0#8 := List.eq_replicate_iff.mpr ⟨rfl, hz⟩
          have hb : bitsNat (bytesBits out) = 0 := by
            rw [this]
            generalize out.length = k
            induction k with
            | zero => rfl
            | succ k ih =>
              rw [List.replicate_succ, bytesBits_cons, bitsNat_append, ih, bitsNat_byteBits]; simp
          rw [ho, bitsNat_pad, bitsNat_replicate_true] at hb
          have := Nat.pow_le_pow_right (n := 2) (by omega) h0
          omega
        | false =>
          rw [Bool.eq_false_iff]
          intro hany
          simp only [List.any_eq_true] at hany
          obtain ⟨x, hx, hne⟩ := hany
          have hall : ∀ b ∈ bytesBits out, b = false := by
            rw [ho]
            intro b hb
            rw [List.mem_append] at hb
            rcases hb with hb | hb <;> exact List.eq_of_mem_replicate hb
          have hsub : ∀ b ∈ byteBits x, b = false := by
            intro b hb
            apply hall
            obtain ⟨l1, l2, rfl⟩ := List.append_of_mem hx
            rw [bytesBits_append, bytesBits_cons]
            simp [hb]
          have : byteBits x = byteBits 0#8 := by
            rw [show byteBits 0#8 = List.replicate 8 false by decide]
            exact List.eq_replicate_iff.mpr ⟨byteBits_length x, hsub⟩
          rw [byteBits_inj this] at hne
          simp at hne
      rw [this]
      exact Decodes.pure _)
  rw [List.length_replicate, List.append_nil] at key
  exact key

theorem two_pow_split {a b : Nat} (h : a ≤ b) : 2 ^ b = 2 ^ (b - a) * 2 ^ a := by
  rw [← Nat.pow_add]; congr 1; omega

/-- the byte after sign extension -/
theorem byteBits_signExt (x : Byte) (j : Nat) (hj : j < 8)
    (hs : (x &&& (1#8 <<< j)) ≠ 0#8) :
    byteBits (x ||| ~~~((1#8 <<< j) - 1#8)) =
      List.replicate (7 - j) true ++ (byteBits x).drop (7 - j) := by
  have hx : x.getLsbD j = true := by
    match j, hj with
    | 0, _ => revert x; decide
    | 1, _ => revert x; decide
    | 2, _ => revert x; decide
    | 3, _ => revert x; decide
    | 4, _ => revert x; decide
    | 5, _ => revert x; decide
    | 6, _ => revert x; decide
    | 7, _ => revert x; decide
  match j, hj with
  | 0, _ => revert x; decide
  | 1, _ => revert x; decide
  | 2, _ => revert x; decide
  | 3, _ => revert x; decide
  | 4, _ => revert x; decide
  | 5, _ => revert x; decide
  | 6, _ => revert x; decide
  | 7, _ => revert x; decide

theorem and_mask_iff (x : Byte) (j : Nat) (hj : j < 8) :
    ((x &&& (1#8 <<< j)) != 0#8) = (byteBits x).getD (7 - j) false := by
  match j, hj with
  | 0, _ => revert x; decide
  | 1, _ => revert x; decide
  | 2, _ => revert x; decide
  | 3, _ => revert x; decide
  | 4, _ => revert x; decide
  | 5, _ => revert x; decide
  | 6, _ => revert x; decide
  | 7, _ => revert x; decide

/-- value of the pattern of a signed number -/
theorem toSigned_of {w size : Nat} {i : Int} {m : Nat} (h0 : 0 < size) (hsw : size ≤ w)
    (hlo : -(2 ^ (size - 1) : Nat) ≤ i) (hhi : i < (2 ^ (size - 1) : Nat))
    (hm : (m : Int) % (2 ^ w : Nat) = i % (2 ^ w : Nat)) : toSigned w m = i := by
  have hp : (2 : Nat) ^ (size - 1) ≤ 2 ^ (w - 1) := Nat.pow_le_pow_right (by omega) (by omega)
  have hw : (2 : Nat) ^ w = 2 * 2 ^ (w - 1) := by
    rw [two_pow_split (a := w - 1) (b := w) (by omega), show w - (w - 1) = 1 by omega]
  unfold toSigned
  have hmn : ((m % 2 ^ w : Nat) : Int) = i % (2 ^ w : Nat) := by
    rw [Int.natCast_emod]; exact hm
  simp only
  generalize (2 : Nat) ^ (w - 1) = P at *
  generalize (2 : Nat) ^ (size - 1) = Q at *
  generalize (2 : Nat) ^ w = R at *
  by_cases hneg : i < 0
  · have : i % (R : Int) = i + R := by
      rw [← Int.add_emod_right]
      apply Int.emod_eq_of_lt <;> omega
    rw [this] at hmn
    rw [if_neg (by omega)]
    omega
  · have : i % (R : Int) = i := by
      apply Int.emod_eq_of_lt <;> omega
    rw [this] at hmn
    rw [if_pos (by omega)]
    omega


theorem decodes_int {w : Nat} {fi : Field} {i : Int} (hsize : size8 ≤ 8 * maxAlloc)
    (hv : fi.varint = false) (h0 : 0 < fi.size) (hsw : fi.size ≤ w) (hw : w ≤ 64)
    (hlo : -(2 ^ (fi.size - 1) : Nat) ≤ i) (hhi : i < (2 ^ (fi.size - 1) : Nat)) :
    Decodes d size8 left (unmarshalInt d w fi)
      (natBits fi.size (i % (2 ^ fi.size : Nat)).toNat) (.int i) := by
  unfold unmarshalInt
  simp only [hv, Bool.false_eq_true, if_false, show ¬ fi.size = 0 by omega]
  have hbit := int_testBit h0 (by omega) hlo hhi
  have hmod := int_mod (size := fi.size) (i := i) (by omega)
  have key := decodes_bits (d := d) (left := left)
    (bs := natBits fi.size (i % (2 ^ fi.size : Nat)).toNat) (b := []) (y := Val.int i)
    (k := fun data =>
      let mask : Byte := 1#8 <<< ((fi.size - 1) % 8)
      let sign := (data.headD 0#8 &&& mask) != 0#8
      let data' := if sign then data.modify 0 (fun b => b ||| ~~~(mask - 1#8)) else data
      Pure.pure (.int (toSigned w (accBytes (if sign then U64 - 1 else 0) data'))))
    hsize (by simpa using h0) (by
      intro out ho _
      rw [natBits_length] at ho
      suffices hsuff : toSigned w (accBytes
          (if (out.headD 0#8 &&& (1#8 <<< ((fi.size - 1) % 8))) != 0#8 then U64 - 1 else 0)
          (if (out.headD 0#8 &&& (1#8 <<< ((fi.size - 1) % 8))) != 0#8 then
            out.modify 0 (fun b => b ||| ~~~((1#8 <<< ((fi.size - 1) % 8)) - 1#8)) else out)) = i by
        simp only [hsuff]
        exact Decodes.pure _
      have hN : bitsNat (natBits fi.size (i % (2 ^ fi.size : Nat)).toNat) =
          (i % (2 ^ fi.size : Nat)).toNat := by
        rw [bitsNat_natBits]
        apply Nat.mod_eq_of_lt
        have hp := Nat.two_pow_pos fi.size
        have := Int.emod_lt_of_pos i (b := ((2 ^ fi.size : Nat) : Int)) (by omega)
        have := Int.emod_nonneg i (b := ((2 ^ fi.size : Nat) : Int)) (by omega)
        omega
      have hhead : (natBits fi.size (i % (2 ^ fi.size : Nat)).toNat).getD 0 false = decide (i < 0) := by
        rw [← hmod]
        obtain ⟨k, hk⟩ : ∃ k, fi.size = k + 1 := ⟨fi.size - 1, by omega⟩
        rw [hk] at hbit ⊢
        simpa [natBits] using hbit
      have hlenbs : (natBits fi.size (i % (2 ^ fi.size : Nat)).toNat).length = fi.size := natBits_length _ _
      generalize natBits fi.size (i % (2 ^ fi.size : Nat)).toNat = bs at *
      have hpad : (fi.size + 7) / 8 * 8 - fi.size = 7 - (fi.size - 1) % 8 := by omega
      have hlen := congrArg List.length ho
      rw [bytesBits_length, List.length_append, List.length_replicate, hlenbs] at hlen
      obtain ⟨x, xs, rfl⟩ : ∃ x xs, out = x :: xs := by
        cases out with
        | nil => simp at hlen; omega
        | cons x xs => exact ⟨x, xs, rfl⟩
      simp only [List.headD_cons, List.modify_zero_cons]
      generalize hj : (fi.size - 1) % 8 = j at *
      have hj8 : j < 8 := by omega
      rw [hpad] at ho
      rw [bytesBits_cons] at ho
      have hsign : ((x &&& (1#8 <<< j)) != 0#8) = decide (i < 0) := by
        rw [and_mask_iff x j hj8]
        have h1 : (byteBits x).getD (7 - j) false = (byteBits x ++ bytesBits xs).getD (7 - j) false := by
          rw [List.getD_eq_getElem?_getD, List.getD_eq_getElem?_getD,
            List.getElem?_append_left (by rw [byteBits_length]; omega)]
        rw [h1, ho, List.getD_eq_getElem?_getD, List.getElem?_append_right (by simp),
          List.length_replicate, Nat.sub_self, ← List.getD_eq_getElem?_getD, hhead]
      have hx : (2 : Nat) ^ (8 * (x :: xs).length) = 2 ^ (7 - j) * 2 ^ fi.size := by
        rw [← Nat.pow_add]; congr 1; omega
      have hP := Nat.two_pow_pos fi.size
      have hQ := Nat.two_pow_pos (7 - j)
      apply toSigned_of h0 hsw hlo hhi
      have hdvd : ((2 ^ w : Nat) : Int) ∣ ((U64 : Nat) : Int) := by
        have := Nat.pow_dvd_pow 2 hw
        exact_mod_cast this
      by_cases hneg : i < 0
      · have hsign' : ((x &&& (1#8 <<< j)) != 0#8) = true := by rw [hsign]; simpa using hneg
        simp only [hsign', if_true]
        have hne : (x &&& (1#8 <<< j)) ≠ 0#8 := by simpa using hsign'
        have hbits : bytesBits ((x ||| ~~~((1#8 <<< j) - 1#8)) :: xs) =
            List.replicate (7 - j) true ++ bs := by
          rw [bytesBits_cons, byteBits_signExt x j hj8 hne, List.append_assoc]
          congr 1
          have := congrArg (List.drop (7 - j)) ho
          rw [List.drop_append_of_le_length (by rw [byteBits_length]; omega),
            List.drop_left' (by simp)] at this
          exact this
        have hi : ((bitsNat bs : Nat) : Int) = i + (2 ^ fi.size : Nat) := by
          rw [hN]
          have e1 : i % ((2 ^ fi.size : Nat) : Int) = i + (2 ^ fi.size : Nat) := by
            rw [← Int.add_emod_right]
            have hs2 : (2 : Nat) ^ fi.size = 2 * 2 ^ (fi.size - 1) := by
              rw [two_pow_split (a := fi.size - 1) (b := fi.size) (by omega),
                show fi.size - (fi.size - 1) = 1 by omega]
            apply Int.emod_eq_of_lt <;> omega
          rw [e1]
          have hs2 : (2 : Nat) ^ fi.size = 2 * 2 ^ (fi.size - 1) := by
            rw [two_pow_split (a := fi.size - 1) (b := fi.size) (by omega),
              show fi.size - (fi.size - 1) = 1 by omega]
          omega
        rw [accBytes_eq _ _ (by decide), hbits, bitsNat_append, bitsNat_replicate_true, hlenbs]
        rw [List.length_cons] at hx
        rw [List.length_cons, hx, Int.natCast_emod, Int.emod_emod_of_dvd _ hdvd]
        have hcalc : (((U64 - 1) * (2 ^ (7 - j) * 2 ^ fi.size) + ((2 ^ (7 - j) - 1) * 2 ^ fi.size + bitsNat bs) : Nat) : Int)
            = (U64 : Nat) * ((2 ^ (7 - j) * 2 ^ fi.size : Nat) : Int) + i := by
          generalize (2 : Nat) ^ (7 - j) = A at *
          generalize (2 : Nat) ^ fi.size = B at *
          have h1 : (A - 1) * B + B = A * B := by
            rw [← Nat.succ_mul]; congr 1; omega
          have h2 : (U64 - 1) * (A * B) + A * B = U64 * (A * B) := by
            rw [← Nat.succ_mul]; congr 1
          have h3 := congrArg (fun n : Nat => (n : Int)) h1
          have h4 := congrArg (fun n : Nat => (n : Int)) h2
          simp only [Int.natCast_add] at h3 h4
          have h5 : ((U64 * (A * B) : Nat) : Int) = (U64 : Nat) * ((A * B : Nat) : Int) := Int.natCast_mul _ _
          rw [Int.natCast_add, Int.natCast_add, hi]
          omega
        rw [hcalc]
        obtain ⟨c, hc⟩ := hdvd
        rw [hc, Int.mul_assoc, Int.add_comm, Int.add_mul_emod_self_left]
      · have hsign' : ((x &&& (1#8 <<< j)) != 0#8) = false := by rw [hsign]; simpa using hneg
        simp only [hsign', Bool.false_eq_true, if_false]
        have hi : ((bitsNat bs : Nat) : Int) = i := by
          rw [hN]
          have hs2 : (2 : Nat) ^ fi.size = 2 * 2 ^ (fi.size - 1) := by
            rw [two_pow_split (a := fi.size - 1) (b := fi.size) (by omega),
              show fi.size - (fi.size - 1) = 1 by omega]
          have e1 : i % ((2 ^ fi.size : Nat) : Int) = i := by
            apply Int.emod_eq_of_lt <;> omega
          rw [e1]; omega
        rw [accBytes_eq _ _ (by decide), bytesBits_cons, ho, bitsNat_pad, Nat.zero_mul, Nat.zero_add,
          Int.natCast_emod, Int.emod_emod_of_dvd _ hdvd, hi])
  rw [natBits_length, List.append_nil] at key
  exact key


theorem or80_and7f (m : Nat) : ((BitVec.ofNat 8 m ||| 0x80#8) &&& 0x7f#8).toNat = m % 128 := by
  have h : ∀ x : Byte, ((x ||| 0x80#8) &&& 0x7f#8).toNat = x.toNat % 128 := by decide
  rw [h, BitVec.toNat_ofNat]; omega

theorem or80_and80 (m : Nat) : ¬ ((BitVec.ofNat 8 m ||| 0x80#8) &&& 0x80#8 = 0#8) := by
  have h : ∀ x : Byte, ¬ ((x ||| 0x80#8) &&& 0x80#8 = 0#8) := by decide
  exact h _

theorem and7f_and7f (m : Nat) : ((BitVec.ofNat 8 m &&& 0x7f#8) &&& 0x7f#8).toNat = m % 128 := by
  have h : ∀ x : Byte, ((x &&& 0x7f#8) &&& 0x7f#8).toNat = x.toNat % 128 := by decide
  rw [h, BitVec.toNat_ofNat]; omega

theorem and7f_and80 (m : Nat) : (BitVec.ofNat 8 m &&& 0x7f#8) &&& 0x80#8 = 0#8 := by
  have h : ∀ x : Byte, (x &&& 0x7f#8) &&& 0x80#8 = 0#8 := by decide
  exact h _

theorem decodes_uvarint_more {fuel val m : Nat} {b : List Bool} {y : Nat}
    (h : 8 ≤ left → Decodes d size8 (left - 8) (readUvarint d fuel ((val * 128 + m % 128) % U64)) b y) :
    Decodes d size8 left (readUvarint d (fuel + 1) val) ((true :: natBits 7 m) ++ b) y := by
  rw [← byteBits_or80]
  exact decodes_octet (fun h8 => by
    simp only [List.headD_cons, or80_and7f, or80_and80, if_false]
    exact h h8)

theorem decodes_uvarint_last {fuel val m : Nat} :
    Decodes d size8 left (readUvarint d (fuel + 1) val) (false :: natBits 7 m)
      ((val * 128 + m % 128) % U64) := by
  have := decodes_octet (d := d) (size8 := size8) (left := left) (x := BitVec.ofNat 8 m &&& 0x7f#8) (b := [])
    (y := (val * 128 + m % 128) % U64)
    (k := fun octet =>
      let o := octet.headD 0#8
      let val := (val * 128 + (o &&& 0x7f#8).toNat) % U64
      if o &&& 0x80#8 = 0#8 then Pure.pure val else readUvarint d fuel val) (fun h8 => by
    simp only [List.headD_cons, and7f_and7f, and7f_and80, if_true]
    exact Decodes.pure _)
  rw [List.append_nil, byteBits_and7f] at this
  exact this

theorem decodes_varint {w : Nat} {fi : Field} {n : Nat} (hv : fi.varint = true) (h1 : n < 2 ^ 28)
    (h2 : n < 2 ^ w) : Decodes d size8 left (unmarshalUint d w fi) (uvarint n) (.uint n) := by
  unfold unmarshalUint
  simp only [hv, if_true]
  have key : ∀ fuel, Decodes d size8 left (readUvarint d (fuel + 4) 0) (uvarint n) n := by
    intro fuel
    unfold uvarint
    rw [List.append_assoc, List.append_assoc]
    apply decodes_uvarint_more
    intro _
    apply decodes_uvarint_more
    intro _
    apply decodes_uvarint_more
    intro _
    have hval : (((((0 * 128 + n >>> 21 % 128) % U64) * 128 + n >>> 14 % 128) % U64 * 128 +
        n >>> 7 % 128) % U64 * 128 + n % 128) % U64 = n := by
      simp only [Nat.shiftRight_eq_div_pow, U64]
      omega
    have := decodes_uvarint_last (d := d) (size8 := size8) (left := left - 8 - 8 - 8) (fuel := fuel)
      (val := ((((0 * 128 + n >>> 21 % 128) % U64) * 128 + n >>> 14 % 128) % U64 * 128 +
        n >>> 7 % 128) % U64) (m := n)
    rw [hval] at this
    exact this
  intro s tl hw hl ha hr hlen
  have hrl := congrArg List.length hr
  rw [RSt.rem_length, List.length_append] at hrl
  have hul : (uvarint n).length = 32 := by simp [uvarint]
  have hwid := hw.width
  obtain ⟨k, hk⟩ : ∃ k, d.length + 2 = k + 4 := ⟨d.length - 2, by omega⟩
  rw [hk]
  have := (key k).map (k := fun v => Val.uint (v % 2 ^ w)) s tl hw hl ha hr hlen
  rw [Nat.mod_eq_of_lt h2] at this
  exact this

theorem decodes_cstr : ∀ (b : Bytes) (fuel left : Nat), noNul b = true → b.length < fuel →
    Decodes d size8 left (stringCLoop d size8 fuel) (cstring b) b := by
  intro b
  induction b with
  | nil =>
    intro fuel left _ hf
    obtain ⟨fuel, rfl⟩ : ∃ k, fuel = k + 1 := ⟨fuel - 1, by simp at hf; omega⟩
    intro s tl hw hl ha hr hlen
    have h8 : (cstring []).length = 8 := rfl
    rw [stringCLoop, M.bind_ok (M.get_run s), if_neg (by omega)]
    have key := decodes_octet (d := d) (size8 := size8) (left := left) (x := 0#8) (b := []) (y := ([] : Bytes))
      (k := fun c => if c.headD 0#8 = 0#8 then Pure.pure []
        else do let rest ← stringCLoop d size8 fuel; Pure.pure (c.headD 0#8 :: rest)) (fun _ => by
          simp only [List.headD_cons, if_true]; exact Decodes.pure _)
    exact key s tl hw hl ha hr hlen
  | cons x xs ih =>
    intro fuel left hn hf
    obtain ⟨fuel, rfl⟩ : ∃ k, fuel = k + 1 := ⟨fuel - 1, by simp at hf; omega⟩
    simp only [noNul, List.all_cons, Bool.and_eq_true, bne_iff_ne] at hn
    intro s tl hw hl ha hr hlen
    have h8 : (cstring (x :: xs)).length = 8 * (xs.length + 2) := by simp [cstring]; omega
    rw [stringCLoop, M.bind_ok (M.get_run s), if_neg (by omega)]
    have key := decodes_octet (d := d) (size8 := size8) (left := left) (x := x) (b := cstring xs) (y := x :: xs)
      (k := fun c => if c.headD 0#8 = 0#8 then Pure.pure []
        else do let rest ← stringCLoop d size8 fuel; Pure.pure (c.headD 0#8 :: rest)) (fun _ => by
          simp only [List.headD_cons, hn.1, if_false]
          exact (ih fuel (left - 8) hn.2 (by simp at hf; omega)).map)
    rw [show byteBits x ++ cstring xs = cstring (x :: xs) by simp [cstring]] at key
    exact key s tl hw hl ha hr hlen

theorem decodes_boxstr : ∀ (b : Bytes) (fuel left : Nat), noNul b = true → b.length < fuel →
    left = 8 * b.length → Decodes d size8 left (stringCLoop d size8 fuel) (bytesBits b) b := by
  intro b
  induction b with
  | nil =>
    intro fuel left _ hf hleft
    obtain ⟨fuel, rfl⟩ : ∃ k, fuel = k + 1 := ⟨fuel - 1, by simp at hf; omega⟩
    intro s tl hw hl ha hr hlen
    simp at hleft
    rw [stringCLoop, M.bind_ok (M.get_run s), if_pos (by omega)]
    exact Decodes.pure _ s tl hw hl ha hr hlen
  | cons x xs ih =>
    intro fuel left hn hf hleft
    obtain ⟨fuel, rfl⟩ : ∃ k, fuel = k + 1 := ⟨fuel - 1, by simp at hf; omega⟩
    simp only [noNul, List.all_cons, Bool.and_eq_true, bne_iff_ne] at hn
    rw [List.length_cons] at hleft
    intro s tl hw hl ha hr hlen
    rw [stringCLoop, M.bind_ok (M.get_run s), if_neg (by omega)]
    have key := decodes_octet (d := d) (size8 := size8) (left := left) (x := x) (b := bytesBits xs) (y := x :: xs)
      (k := fun c => if c.headD 0#8 = 0#8 then Pure.pure []
        else do let rest ← stringCLoop d size8 fuel; Pure.pure (c.headD 0#8 :: rest)) (fun _ => by
          simp only [List.headD_cons, hn.1, if_false]
          exact (ih fuel (left - 8) hn.2 (by simp at hf; omega) (by omega)).map)
    exact key s tl hw hl ha hr hlen

theorem decodes_string {fi : Field} {b : Bytes} (hn : noNul b = true) (hcp : fi.strCP = false)
    (hl : if fi.boxString then left = 8 * b.length else 8 * (b.length + 1) ≤ left) (hls : left ≤ size8) :
    Decodes d size8 left (unmarshalString d size8 fi) (if fi.boxString then bytesBits b else cstring b)
      (.str b) := by
  unfold unmarshalString unmarshalStringC
  simp only [hcp, Bool.false_eq_true, if_false]
  split at hl
  · next h =>
    simp only [h, if_true]
    exact (decodes_boxstr b (size8 + 2) left hn (by omega) hl).map
  · next h =>
    simp only [h]
    exact (decodes_cstr b (size8 + 2) left hn (by omega)).map

theorem decodes_arrLoop {f : Val → UM Val} {z : Val} {g : Val → List Bool} {ok : Val → Nat → Bool}
    (h : ∀ v left, left ≤ size8 → ok v left = true → Decodes d size8 left (f z) (g v) v) :
    ∀ (l : List Val) (left : Nat), left ≤ size8 → fitsList ok g l left = true →
      Decodes d size8 left (arrLoop f (List.replicate l.length z)) (l.flatMap g) l := by
  intro l
  induction l with
  | nil => intro left _ _; exact Decodes.pure _
  | cons v vs ih =>
    intro left hls hf
    simp only [fitsList, Bool.and_eq_true, decide_eq_true_eq] at hf
    rw [List.flatMap_cons, List.length_cons, List.replicate_succ]
    exact Decodes.bind (h v left hls hf.1.1) (fun _ => (ih _ (by omega) hf.2).map)

theorem decodes_sliceElem {m : UM Val} {bs : List Bool} {v : Val}
    (h : Decodes d size8 left m bs v) : Decodes d size8 left (sliceElem size8 m) bs v := by
  intro s tl hw hl ha hr hlen
  obtain ⟨s', e, r, w, c⟩ := h s tl hw hl ha hr hlen
  refine ⟨s', ?_, r, w, c⟩
  rw [sliceElem, M.bind_ok e, M.bind_ok (M.get_run s'), if_neg (by omega)]
  rfl

theorem decodes_countLoop {m : UM Val} {g : Val → List Bool} {ok : Val → Nat → Bool}
    (h : ∀ v left, left ≤ size8 → ok v left = true → Decodes d size8 left m (g v) v) :
    ∀ (l : List Val) (left : Nat), left ≤ size8 → fitsList ok g l left = true →
      Decodes d size8 left (countLoop size8 m l.length) (l.flatMap g) l := by
  intro l
  induction l with
  | nil => intro left _ _; exact Decodes.pure _
  | cons v vs ih =>
    intro left hls hf
    simp only [fitsList, Bool.and_eq_true, decide_eq_true_eq] at hf
    rw [List.flatMap_cons, List.length_cons]
    exact Decodes.bind (decodes_sliceElem (h v left hls hf.1.1)) (fun _ => (ih _ (by omega) hf.2).map)

theorem decodes_greedyLoop {m : UM Val} {g : Val → List Bool} {ok : Val → Nat → Bool}
    (h : ∀ v left, left ≤ size8 → ok v left = true → Decodes d size8 left m (g v) v) :
    ∀ (l : List Val) (left fuel : Nat), left ≤ size8 → fitsList ok g l left = true →
      l.all (fun x => !(g x).isEmpty) = true → (l.flatMap g).length = left → left < fuel →
      Decodes d size8 left (greedyLoop size8 m fuel) (l.flatMap g) l := by
  intro l
  induction l with
  | nil =>
    intro left fuel _ _ _ hleft hf
    obtain ⟨fuel, rfl⟩ : ∃ k, fuel = k + 1 := ⟨fuel - 1, by omega⟩
    intro s tl hw hl ha hr hlen
    simp at hleft
    rw [greedyLoop, M.bind_ok (M.get_run s), if_pos (by omega)]
    exact Decodes.pure _ s tl hw hl ha hr hlen
  | cons v vs ih =>
    intro left fuel hls hf hne hleft hfuel
    obtain ⟨fuel, rfl⟩ : ∃ k, fuel = k + 1 := ⟨fuel - 1, by omega⟩
    simp only [fitsList, Bool.and_eq_true, decide_eq_true_eq] at hf
    simp only [List.all_cons, Bool.and_eq_true] at hne
    rw [List.flatMap_cons, List.length_append] at hleft
    have hpos : 0 < (g v).length := by
      have := hne.1
      cases hgv : g v with
      | nil => simp [hgv] at this
      | cons _ _ => simp
    intro s tl hw hl ha hr hlen
    rw [greedyLoop, M.bind_ok (M.get_run s), if_neg (by omega)]
    rw [List.flatMap_cons] at hr hlen ⊢
    exact Decodes.bind (decodes_sliceElem (h v left hls hf.1.1))
      (fun _ => (ih _ fuel (by omega) hf.2 hne.2 (by omega) (by omega)).map) s tl hw hl ha hr hlen

theorem left_eq {rbits : Nat} (h : rbits + left = size8) (hs : size8 < U64) :
    Mp4.left size8 rbits = left := by
  unfold Mp4.left sub64
  simp only [U64] at *
  omega

theorem rem_bytes {r : RSt} {p : Bytes} {tl : List Bool} (hw : r.WF d) (h0 : r.width = 0)
    (hr : r.rem d = bytesBits p ++ tl) :
    (d.drop r.pos).take p.length = p ∧ r.pos + p.length ≤ d.length ∧
      bytesBits (d.drop (r.pos + p.length)) = tl := by
  rw [RSt.rem_aligned h0] at hr
  have hl := congrArg List.length hr
  rw [bytesBits_length, List.length_append, bytesBits_length, List.length_drop] at hl
  have hp := hw.pos
  have h1 : r.pos + p.length ≤ d.length := by omega
  rw [← List.take_append_drop p.length (d.drop r.pos), bytesBits_append] at hr
  have := List.append_inj hr (by
    rw [bytesBits_length, bytesBits_length, List.length_take, List.length_drop]; omega)
  refine ⟨bytesBits_inj this.1, h1, ?_⟩
  rw [← this.2, List.drop_drop]

theorem readerHasSize_ok {r : RSt} {n : Nat} (h0 : r.width = 0) (hn : r.pos + n ≤ d.length)
    (hd : d.length < U64) : readerHasSize d n r = (.ok true, r) := by
  unfold readerHasSize seekCurrent
  simp only [h0, ne_eq, not_true_eq_false, if_false, seekEnd, seekStart]
  have : ¬ sub64 d.length r.pos < n := by
    unfold sub64
    simp only [U64] at *
    omega
  simp only [this, if_false]
  obtain ⟨a, b, c⟩ := r
  simp at h0
  simp [h0]

theorem decodes_byteSlice {p : Bytes} {n : Nat} (hn : n = p.length) (hd : d.length < U64)
    (hsize : size8 ≤ 8 * maxAlloc) (hal : left % 8 = 0) :
    Decodes d size8 left (byteSlice d n) (bytesBits p) (.slice (p.map (fun b => .uint b.toNat))) := by
  subst hn
  intro s tl hw hl ha hr hlen
  rw [bytesBits_length] at hlen
  have h0 : s.r.width = 0 := by omega
  obtain ⟨h1, h2, h3⟩ := rem_bytes hw h0 hr
  have hmax : p.length ≤ maxAlloc := by omega
  have htot : p.length * 8 % U64 / 8 = p.length := by
    simp only [U64, maxAlloc] at *
    omega
  unfold byteSlice
  simp only [htot]
  have hcopy : copyN d p.length s.r = (.ok p, { s.r with pos := s.r.pos + p.length }) := by
    unfold copyN
    by_cases hp : p.length = 0
    · have : p = [] := List.length_eq_zero_iff.mp hp
      subst this
      simp
    · simp only [hp, false_or]
      rw [if_neg (by simp only [maxAlloc] at hmax; omega), if_neg (by simp [h0])]
      simp only [h1]
      simp
  refine ⟨⟨{ s.r with pos := s.r.pos + p.length }, s.rbits + p.length * 8⟩, ?_, ?_, ?_, ?_⟩
  · rw [M.bind_ok (s' := s) (a := true) (by simp [liftR, readerHasSize_ok h0 h2 hd])]
    simp only [not_true_eq_false, if_false]
    rw [M.bind_ok (s' := s) (a := ()) (by simp [alloc, hmax])]
    rw [M.bind_ok (s' := ⟨{ s.r with pos := s.r.pos + p.length }, s.rbits⟩) (a := p)
      (by simp [liftR, hcopy])]
    rw [M.bind_ok (s' := ⟨{ s.r with pos := s.r.pos + p.length }, s.rbits + p.length * 8⟩) (a := ())
      (by simp [addR])]
    rfl
  · rw [RSt.rem_aligned (by simpa using h0)]
    exact h3
  · exact ⟨hw.width, h2⟩
  · simp [Nat.mul_comm]

end

end Mp4
