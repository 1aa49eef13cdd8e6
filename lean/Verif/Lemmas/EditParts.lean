import Verif.Lemmas.Edit
import Verif.Lemmas.Golden
import Verif.Lemmas.SoundUnmarshal
import Verif.Props.Unmarshal

/-!
# Lemmas about `mp4tool edit`: headers and `tfdt`
-/

namespace Mp4

open Spec

/-! ## headers -/

theorem isoHeader_four (s0 s1 s2 s3 t0 t1 t2 t3 : Byte) (rest : Bytes) :
    Props.isoHeader (s0 :: s1 :: s2 :: s3 :: t0 :: t1 :: t2 :: t3 :: rest) =
    if Props.be [s0, s1, s2, s3] = 0 then .box (8 + rest.length) 8 ⟨t0, t1, t2, t3⟩ true
    else if Props.be [s0, s1, s2, s3] = 1 then Props.isoLarge ⟨t0, t1, t2, t3⟩ rest
    else .box (Props.be [s0, s1, s2, s3]) 8 ⟨t0, t1, t2, t3⟩ false := (rfl)

theorem isoLarge_eight (t : BoxType) (l0 l1 l2 l3 l4 l5 l6 l7 : Byte) (rest : Bytes) :
    Props.isoLarge t (l0 :: l1 :: l2 :: l3 :: l4 :: l5 :: l6 :: l7 :: rest) =
    if Props.be [l0, l1, l2, l3, l4, l5, l6, l7] = 0 then .zeroSize
    else .box (Props.be [l0, l1, l2, l3, l4, l5, l6, l7]) 16 t false := (rfl)

theorem be_beNat (b : Bytes) : Props.be b = beNat b := by
  induction b with
  | nil => rfl
  | cons x b ih => rw [beNat_cons, ← ih, Props.be]

theorem big_be (b : Bytes) : Form.bigEndian b.length (Props.be b) = b := by
  rw [bigEndian_eq, be_beNat, beBytes_beNat]

theorem be_lt (b : Bytes) : Props.be b < 256 ^ b.length := by
  rw [be_beNat]; exact beNat_lt b

/-- A header that can be read is what `StartBox` writes for the box. -/
theorem header_written {l : Bytes} {bi : BoxInfo} (h : Props.isoHeader l = .box bi.size bi.headerSize bi.type bi.extendToEOF) :
    (Form.of bi).len = bi.headerSize ∧ l.take bi.headerSize = (Form.of bi).header bi.type bi.size := by
  have hsplit : ∀ l : Bytes, 8 ≤ l.length → ∃ a b c d e f g h r, l = a :: b :: c :: d :: e :: f :: g :: h :: r := by
    intro l h
    match l with
    | [] => simp at h
    | [_] => simp at h
    | [_, _] => simp at h
    | [_, _, _] => simp at h
    | [_, _, _, _] => simp at h
    | [_, _, _, _, _] => simp at h
    | [_, _, _, _, _, _] => simp at h
    | [_, _, _, _, _, _, _] => simp at h
    | a :: b :: c :: d :: e :: f :: g :: h :: t => exact ⟨a, b, c, d, e, f, g, h, t, rfl⟩
  by_cases hl : 8 ≤ l.length
  · obtain ⟨s0, s1, s2, s3, t0, t1, t2, t3, rest, rfl⟩ := hsplit l hl
    rw [isoHeader_four] at h
    have e4 := big_be [s0, s1, s2, s3]
    have l4 := be_lt [s0, s1, s2, s3]
    simp only [List.length_cons, List.length_nil] at e4 l4
    generalize Props.be [s0, s1, s2, s3] = n at *
    unfold Form.of
    by_cases h0 : n = 0
    · rw [if_pos h0] at h
      injection h with h1 h2 h3 h4
      rw [← h4, ← h2, ← h3, if_pos rfl]
      refine ⟨rfl, ?_⟩
      rw [h0] at e4
      simp only [Form.header]
      rw [show (4 : Nat) = 0 + 1 + 1 + 1 + 1 from rfl, e4]
      rfl
    · rw [if_neg h0] at h
      by_cases h1 : n = 1
      · rw [if_pos h1] at h
        by_cases hr : 8 ≤ rest.length
        · obtain ⟨l0, l1, l2, l3, l4', l5, l6, l7, rest, rfl⟩ := hsplit rest hr
          rw [isoLarge_eight] at h
          have e8 := big_be [l0, l1, l2, l3, l4', l5, l6, l7]
          simp only [List.length_cons, List.length_nil] at e8
          generalize Props.be [l0, l1, l2, l3, l4', l5, l6, l7] = m at *
          by_cases hm : m = 0
          · rw [if_pos hm] at h
            cases h
          · rw [if_neg hm] at h
            injection h with g1 g2 g3 g4
            rw [← g4, ← g2, ← g3, ← g1, if_neg (by decide), if_pos (.inl rfl)]
            refine ⟨rfl, ?_⟩
            simp only [Form.header]
            rw [show Form.bigEndian 8 m = _ from e8]
            rw [h1] at e4
            rw [show Form.bigEndian 4 1 = _ from e4]
            rfl
        · have : Props.isoLarge ⟨t0, t1, t2, t3⟩ rest = .truncated := by
            match rest with
            | [] => rfl
            | [_] => rfl
            | [_, _] => rfl
            | [_, _, _] => rfl
            | [_, _, _, _] => rfl
            | [_, _, _, _, _] => rfl
            | [_, _, _, _, _, _] => rfl
            | [_, _, _, _, _, _, _] => rfl
            | a :: b :: c :: d :: e :: f :: g :: h :: t => exact absurd (by simp) hr
          rw [this] at h
          cases h
      · rw [if_neg h1] at h
        injection h with g1 g2 g3 g4
        rw [← g4, ← g2, ← g3, ← g1, if_neg (by decide), if_neg (by omega)]
        refine ⟨rfl, ?_⟩
        simp only [Form.header]
        rw [show Form.bigEndian 4 n = _ from e4]
        rfl
  · have : Props.isoHeader l = .truncated := by
      match l with
      | [] => rfl
      | [_] => rfl
      | [_, _] => rfl
      | [_, _, _] => rfl
      | [_, _, _, _] => rfl
      | [_, _, _, _, _] => rfl
      | [_, _, _, _, _, _] => rfl
      | [_, _, _, _, _, _, _] => rfl
      | a :: b :: c :: d :: e :: f :: g :: h :: t => exact absurd (by simp) hl
    rw [this] at h
    cases h
/-! ## `tfdt` -/

/-- a `tfdt` box in Go -/
def tfdtSV (v a b c x y : Nat) : SV := [fullBox v a b c, ("BaseMediaDecodeTimeV0", .uint x), ("BaseMediaDecodeTimeV1", .uint y)]

/-- a value of the right type -/
theorem tfdt_typed {sv : SV} (h : typedFields Cat.bdTfdt.fields sv = true) : ∃ v a b c x y, v < 256 ∧ sv = tfdtSV v a b c x y := by
  simp only [Cat.bdTfdt, Cat.fsTfdt, Fields.ofList, typedFields] at h
  match sv with
  | [] => simp at h
  | [(n1, v1)] => simp at h
  | [(n1, v1), (n2, v2)] => simp at h
  | (n1, v1) :: (n2, v2) :: (n3, v3) :: _ :: _ => simp at h
  | [(n1, v1), (n2, v2), (n3, v3)] =>
    simp only [fullBoxTy, Bool.and_eq_true, beq_iff_eq] at h
    obtain ⟨⟨rfl, h2⟩, ⟨rfl, h4⟩, ⟨rfl, h6⟩, h7⟩ := h
    simp only [typedV] at h4 h6
    match v2, v3, h4, h6 with
    | .uint x, .uint y, _, _ =>
    match v1, h2 with
    | .struct [(m1, .uint v), (m2, .arr [.uint a, .uint b, .uint c])], h2 =>
      simp [typedV, typedFields, Fields.ofList] at h2
      obtain ⟨⟨rfl, h3⟩, rfl, -⟩ := h2
      exact ⟨v, a, b, c, x, y, h3, rfl⟩
    | .struct sv, h2 =>
      simp only [typedV] at h2
      match sv with
      | [] => simp [typedFields, Fields.ofList] at h2
      | [(m1, v1)] => simp [typedFields, Fields.ofList] at h2
      | (m1, v1) :: (m2, v2) :: _ :: _ => simp [typedFields, Fields.ofList] at h2
      | [(m1, v1), (m2, v2)] =>
        simp only [typedFields, Fields.ofList, Bool.and_eq_true, beq_iff_eq] at h2
        obtain ⟨⟨rfl, h3⟩, ⟨rfl, h4⟩, -⟩ := h2
        simp only [typedV] at h3 h4
        match v1, v2, h3, h4 with
        | .uint v, .arr [p, q, r], h3, h4 =>
          simp only [List.length_cons, List.length_nil, List.all_cons, List.all_nil, Bool.and_true, Bool.and_eq_true] at h4
          obtain ⟨-, h5, h6, h7⟩ := h4
          match p, q, r, h5, h6, h7 with
          | .uint a, .uint b, .uint c, _, _, _ => exact ⟨v, a, b, c, x, y, by simpa using h3, rfl⟩
        | .uint v, .arr [], _, h4 => simp at h4
        | .uint v, .arr [_], _, h4 => simp at h4
        | .uint v, .arr [_, _], _, h4 => simp at h4
        | .uint v, .arr (_ :: _ :: _ :: _ :: _), _, h4 => simp at h4

/-- its encoding -/
theorem tfdt_layout (v a b c x y : Nat) (ctx : Ctx) (hv : v = 0 ∨ v = 1) : layout Cat.bdTfdt ctx (tfdtSV v a b c x y) =
    verFlags v a b c ++ (if v = 0 then natBits 32 x else natBits 64 y) := by
  unfold tfdtSV
  rcases hv with rfl | rfl
  · layout_tac [SV.flags, SV.version, SV.full, verFlags, ints, Cat.bdTfdt, Cat.fsTfdt]
  · layout_tac [SV.flags, SV.version, SV.full, verFlags, ints, Cat.bdTfdt, Cat.fsTfdt]

/-- it begins with version and flags -/
theorem tfdt_layout_first (v a b c x y : Nat) (ctx : Ctx) : ∃ R, layout Cat.bdTfdt ctx (tfdtSV v a b c x y) = verFlags v a b c ++ R := by
  by_cases hv : v = 0 ∨ v = 1
  · exact ⟨_, tfdt_layout v a b c x y ctx hv⟩
  · by_cases h5 : v = 255
    · refine ⟨natBits 32 x ++ natBits 64 y, ?_⟩
      subst h5
      unfold tfdtSV
      layout_tac [SV.flags, SV.version, SV.full, verFlags, ints, Cat.bdTfdt, Cat.fsTfdt]
    · refine ⟨[], ?_⟩
      have h0 : ¬ 0 = v := fun h => hv (.inl h.symm)
      have h1 : ¬ 1 = v := fun h => hv (.inr h.symm)
      unfold tfdtSV
      layout_tac [SV.flags, SV.version, SV.full, verFlags, ints, Cat.bdTfdt, Cat.fsTfdt, h5, h0, h1]

/-- it can be written -/
theorem tfdt_writable (v a b c x y : Nat) (ctx : Ctx) (hv : v = 0 ∨ v = 1) : writable Cat.bdTfdt ctx (tfdtSV v a b c x y) = true := by
  unfold tfdtSV writable
  rcases hv with rfl | rfl <;>
  simp [Cat.bdTfdt, Cat.fsTfdt, Fields.ofList, writableFields, writableV, fullBox, SV.get, silent, env, fullBoxTy, present, instField,
    SV.version, SV.full, SV.uint, SV.flags, anyVersion]

theorem bytesBits_be (k n : Nat) : bytesBits (beBytes k n) = natBits (8 * k) n := by
  induction k with
  | zero => rfl
  | succ k ih =>
    rw [show 8 * (k + 1) = 8 + 8 * k by omega, natBits_add, ← ih]
    simp only [beBytes, bytesBits_cons, byteBits_ofNat]
    rw [Nat.shiftRight_eq_div_pow, show (2 : Nat) ^ (8 * k) = 256 ^ k by rw [Nat.pow_mul]]

theorem split_bits {a b c e : List Bool} (h : a ++ b = c ++ e) (hl : a.length = c.length) : a = c ∧ b = e :=
  List.append_inj h hl

/-- there are version and flags -/
theorem tfdt_four {d : Bytes} (hd : d.length ≤ 2 ^ 48) {pos : Nat} (hpos : pos ≤ d.length) {ctx : Ctx} {ps : Nat} {n : Nat} {sv : SV}
    {p : Nat} (hu : unmarshalBox Cat.bdTfdt d ctx ps Cat.bdTfdt.fields.zero pos = (.ok (n, sv), p)) : 4 ≤ n := by
  have hbd : Cat.bdTfdt ∈ Cat.allDefs := by simp [Cat.allDefs]
  have hty : typedFields Cat.bdTfdt.fields Cat.bdTfdt.fields.zero = true := by decide
  have hpost := unmarshalBox_post hbd hd hpos ctx ps hty
  rw [hu] at hpost
  obtain ⟨-, -, -, hts, -⟩ := hpost
  rcases unmarshalBox_exact_noStr hbd (by decide) (by decide) hd hty hpos hu with ⟨h, -⟩ | ⟨-, hl, -⟩
  · exact absurd (congrArg BoxDef.goName h) (by decide)
  obtain ⟨v, a, b, c, x, y, -, rfl⟩ := tfdt_typed hts
  obtain ⟨R, hR⟩ := tfdt_layout_first v a b c x y ctx
  rw [hR] at hl
  simp [verFlags, ints] at hl
  omega

/-- the fields of a `tfdt` box after the change -/
theorem tfdt_edited {d : Bytes} (hd : d.length ≤ 2 ^ 48) {pos : Nat} (hpos : pos ≤ d.length) {ctx : Ctx} {ps : Nat} {n : Nat} {sv : SV}
    {p : Nat} (hu : unmarshalBox Cat.bdTfdt d ctx ps Cat.bdTfdt.fields.zero pos = (.ok (n, sv), p)) (t : Nat) :
    marshalBox Cat.bdTfdt memSink ctx
      (if sv.version = 0 then sv.set "BaseMediaDecodeTimeV0" (.uint (t % 2 ^ 32)) else sv.set "BaseMediaDecodeTimeV1" (.uint t)) [] =
      (.ok n, ((d.drop pos).take n).take 4 ++ Form.bigEndian (n - 4) t) := by
  have hbd : Cat.bdTfdt ∈ Cat.allDefs := by simp [Cat.allDefs]
  have hty : typedFields Cat.bdTfdt.fields Cat.bdTfdt.fields.zero = true := by decide
  have hpost := unmarshalBox_post hbd hd hpos ctx ps hty
  rw [hu] at hpost
  obtain ⟨-, -, -, hts, -⟩ := hpost
  rcases unmarshalBox_exact_noStr hbd (by decide) (by decide) hd hty hpos hu with ⟨h, -⟩ | ⟨-, hl, hb⟩
  · exact absurd (congrArg BoxDef.goName h) (by decide)
  obtain ⟨v, a, b, c, x, y, hv, rfl⟩ := tfdt_typed hts
  have hB : bytesBits ((d.drop pos).take n) = layout Cat.bdTfdt ctx (tfdtSV v a b c x y) := by
    rw [← hb, bytesBits_bitsBytes _ (by omega)]
  obtain ⟨R, hR⟩ := tfdt_layout_first v a b c x y ctx
  have hlen : ((d.drop pos).take n).length = n := by
    have := congrArg List.length hB
    rw [bytesBits_length, hl] at this
    omega
  have hn4 : 4 ≤ n := by
    rw [hR] at hl
    simp [verFlags, ints] at hl
    omega
  obtain ⟨b0, b1, b2, b3, B, hB4⟩ : ∃ b0 b1 b2 b3 B, (d.drop pos).take n = b0 :: b1 :: b2 :: b3 :: B := by
    match hq : (d.drop pos).take n with
    | [] => rw [hq] at hlen; simp at hlen; omega
    | [_] => rw [hq] at hlen; simp at hlen; omega
    | [_, _] => rw [hq] at hlen; simp at hlen; omega
    | [_, _, _] => rw [hq] at hlen; simp at hlen; omega
    | b0 :: b1 :: b2 :: b3 :: B => exact ⟨_, _, _, _, _, rfl⟩
  rw [hR, hB4] at hB
  have hB' : byteBits b0 ++ (byteBits b1 ++ (byteBits b2 ++ (byteBits b3 ++ bytesBits B))) =
      natBits 8 v ++ (natBits 8 a ++ (natBits 8 b ++ (natBits 8 c ++ R))) := by
    simpa [verFlags, ints] using hB
  obtain ⟨e0, hB'⟩ := split_bits hB' (by simp)
  obtain ⟨e1, hB'⟩ := split_bits hB' (by simp)
  obtain ⟨e2, hB'⟩ := split_bits hB' (by simp)
  obtain ⟨e3, hB'⟩ := split_bits hB' (by simp)
  have hv0 : b0.toNat = v := by
    have : b0 = BitVec.ofNat 8 v := byteBits_inj (by rw [byteBits_ofNat, e0])
    rw [this, BitVec.toNat_ofNat]
    omega
  have hv01 : v = 0 ∨ v = 1 := by
    apply Classical.byContradiction
    intro hv01
    have hsplit : d = d.take pos ++ [b0, b1, b2, b3] ++ d.drop (pos + 4) := by
      have h4 : (d.drop pos).take 4 = [b0, b1, b2, b3] := by
        have : ((d.drop pos).take n).take 4 = [b0, b1, b2, b3] := by rw [hB4]; rfl
        rwa [List.take_take, Nat.min_eq_left hn4] at this
      rw [List.append_assoc, ← h4, ← List.drop_drop, List.take_append_drop, List.take_append_drop]
    have hun := Props.unsupported_version_rewinds_partial Cat.bdTfdt hbd (by decide) (by decide) (d.take pos) b0 b1 b2 b3
      (d.drop (pos + 4)) (by decide) (by
        rw [hv0]
        simp [Cat.bdTfdt]
        omega) ctx ps Cat.bdTfdt.fields.zero hty
    rw [← hsplit, List.length_take, Nat.min_eq_left hpos, hu] at hun
    cases hun
  have hver : SV.version (tfdtSV v a b c x y) = v := by
    simp [tfdtSV, SV.version, SV.full, SV.uint, SV.get, fullBox]
  rw [hver]
  have hvf : verFlags v a b c = bytesBits [b0, b1, b2, b3] := by
    simp [verFlags, ints, e0, e1, e2, e3]
  rw [hB4]
  have key : ∀ x' y', (if v = 0 then natBits 32 x' else natBits 64 y') = natBits (8 * (n - 4)) t →
      marshalBox Cat.bdTfdt memSink ctx (tfdtSV v a b c x' y') [] = (.ok n, [b0, b1, b2, b3] ++ Form.bigEndian (n - 4) t) := by
    intro x' y' hxy
    have hlay := tfdt_layout v a b c x' y' ctx hv01
    rw [hxy, hvf, ← bytesBits_be, ← bytesBits_append, ← bigEndian_eq] at hlay
    have hlen : (layout Cat.bdTfdt ctx (tfdtSV v a b c x' y')).length = 8 * n := by
      rw [hlay]
      simp
      omega
    rw [marshalBox_writes (tfdt_writable v a b c x' y' ctx hv01) (by omega) (allDefs_emsg _ hbd) [], hlen, hlay, bitsBytes_bytesBits,
      Nat.mul_div_cancel_left _ (by decide)]
    simp
  have hn : n = if v = 0 then 8 else 12 := by
    rw [tfdt_layout v a b c x y ctx hv01] at hl
    rcases hv01 with rfl | rfl
    · simp [verFlags, ints] at hl; simp; omega
    · simp [verFlags, ints] at hl; simp; omega
  rcases hv01 with rfl | rfl
  · rw [if_pos rfl]
    have : SV.set (tfdtSV 0 a b c x y) "BaseMediaDecodeTimeV0" (.uint (t % 2 ^ 32)) = tfdtSV 0 a b c (t % 2 ^ 32) y := by
      simp [tfdtSV, SV.set, fullBox]
    rw [this]
    exact key _ _ (by rw [hn]; simp only [if_true]; exact natBits_mod 32 t)
  · rw [if_neg (by decide)]
    have : SV.set (tfdtSV 1 a b c x y) "BaseMediaDecodeTimeV1" (.uint t) = tfdtSV 1 a b c x t := by
      simp [tfdtSV, SV.set, fullBox]
    rw [this]
    exact key _ _ (by rw [hn]; simp)
end Mp4
