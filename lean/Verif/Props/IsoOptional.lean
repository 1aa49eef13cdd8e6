import Verif.Lemmas.Golden

/-!
# C48: boxes with optional fields, in the form of ISO/IEC 14496-12 and 23001-7
-/

namespace Mp4.Props

open Mp4 Mp4.Spec

/-- The fields `FullBox` with the flags given as one number. -/
def full (version flags : Nat) : String × Val := fullBox version (flags / 65536) (flags / 256 % 256) (flags % 256)

/-- A number that is only there if the condition holds. -/
def optInt (c : Prop) [Decidable c] (w n : Nat) : List Bool := if c then natBits w n else []

theorem full_bits (v flags : Nat) (_ : flags < 2 ^ 24) :
    natBits 8 v ++ natBits 8 (flags / 65536) ++ natBits 8 (flags / 256 % 256) ++ natBits 8 (flags % 256) =
      ints [(8, v), (24, flags)] := by
  have e1 : natBits 24 flags = natBits 8 (flags >>> 16) ++ natBits 16 flags := natBits_add 8 16 flags
  have e2 : natBits 16 flags = natBits 8 (flags >>> 8) ++ natBits 8 flags := natBits_add 8 8 flags
  simp only [ints, e1, e2, Nat.shiftRight_eq_div_pow, List.append_nil, List.append_assoc]
  rw [← natBits_mod 8 (flags / 2 ^ 8), ← natBits_mod 8 flags]

/-- track fragment header (8.8.7); fields whose flag is off are absent, and zero in Go -/
theorem tfhd_iso (flags track base index duration size sflags : Nat) (hf : flags < 2 ^ 24) (h0 : track < 2 ^ 32)
    (h1 : base < 2 ^ 64) (h2 : index < 2 ^ 32) (h3 : duration < 2 ^ 32) (h4 : size < 2 ^ 32) (h5 : sflags < 2 ^ 32)
    (z1 : flags &&& 0x1 = 0 → base = 0) (z2 : flags &&& 0x2 = 0 → index = 0) (z3 : flags &&& 0x8 = 0 → duration = 0)
    (z4 : flags &&& 0x10 = 0 → size = 0) (z5 : flags &&& 0x20 = 0 → sflags = 0) (ctx : Ctx) :
    Encodes Cat.bdTfhd ctx
      [full 0 flags, ("TrackID", .uint track), ("BaseDataOffset", .uint base), ("SampleDescriptionIndex", .uint index),
       ("DefaultSampleDuration", .uint duration), ("DefaultSampleSize", .uint size), ("DefaultSampleFlags", .uint sflags)]
      (ints [(8, 0), (24, flags), (32, track)] ++ optInt (flags &&& 0x1 ≠ 0) 64 base ++ optInt (flags &&& 0x2 ≠ 0) 32 index ++
        optInt (flags &&& 0x8 ≠ 0) 32 duration ++ optInt (flags &&& 0x10 ≠ 0) 32 size ++
        optInt (flags &&& 0x20 ≠ 0) 32 sflags) := by
  have hB := full_bits 0 flags hf
  have hF : ∀ rest : SV, SV.flags (full 0 flags :: rest) = flags := fun rest => flags_bytes flags 0 hf rest
  have hb : flags / 65536 < 256 ∧ flags / 256 % 256 < 256 ∧ flags % 256 < 256 := by omega
  simp only [Nat.reducePow] at h0 h1 h2 h3 h4 h5
  have hw := hF [("TrackID", .uint track), ("BaseDataOffset", .uint base), ("SampleDescriptionIndex", .uint index),
       ("DefaultSampleDuration", .uint duration), ("DefaultSampleSize", .uint size), ("DefaultSampleFlags", .uint sflags)]
  simp only [full, fullBox] at hw hB
  by_cases c1 : flags &&& 0x1 = 0
  all_goals by_cases c2 : flags &&& 0x2 = 0
  all_goals by_cases c3 : flags &&& 0x8 = 0
  all_goals by_cases c4 : flags &&& 0x10 = 0
  all_goals by_cases c5 : flags &&& 0x20 = 0
  all_goals
    have c1' := c1
    rw [Nat.and_one_is_mod] at c1'
    simp only [c1, c2, c3, c4, c5, true_implies, false_implies, ne_eq, not_true_eq_false, not_false_eq_true, optInt, if_true, if_false,
      List.append_nil] at z1 z2 z3 z4 z5 ⊢
    try subst z1
    try subst z2
    try subst z3
    try subst z4
    try subst z5
    refine encodes_intro' (by simp [Cat.allDefs]) ?_ rfl ?_ ?_ ?_ rfl rfl
    · rw [show ∀ x, ints [(8, 0), (24, flags), (32, x)] = ints [(8, 0), (24, flags)] ++ ints [(32, x)] from fun _ => by simp [ints], ← hB]
      layout_tac [SV.version, SV.full, full, hw, Cat.bdTfhd, Cat.fsTfhd, ints, c1', c1, c2, c3, c4, c5]
    · simp [ints]
    · simp [ints]
    · fits_tac [SV.version, SV.full, full, hw, hb, ints, Cat.bdTfhd, Cat.fsTfhd, h0, h1, h2, h3, h4, h5, c1', c1, c2, c3, c4, c5]
      try (left; omega)

example := tfhd_iso 0x020009 1 100000000000 0 1024 0 0 (by decide) (by decide) (by decide) (by decide) (by decide) (by decide) (by decide) (by decide) (by decide) (by decide) (by decide) (by decide) {}

/-- A sample of a track run.  The offset is unsigned in version 0 and signed in version 1. -/
structure RunSample where
  duration : Nat
  size : Nat
  flags : Nat
  offset : Int

namespace RunSample

/-- As a value of the Go type `TrunEntry`. -/
def toGo (version : Nat) (s : RunSample) : Val := .struct
  [("SampleDuration", .uint s.duration), ("SampleSize", .uint s.size), ("SampleFlags", .uint s.flags),
   ("SampleCompositionTimeOffsetV0", .uint (if version = 0 then s.offset.toNat else 0)),
   ("SampleCompositionTimeOffsetV1", .int (if version = 0 then 0 else s.offset))]

/-- The bits of the sample in a run with these flags. -/
def bits (flags : Nat) (s : RunSample) : List Bool :=
  optInt (flags &&& 0x100 ≠ 0) 32 s.duration ++ optInt (flags &&& 0x200 ≠ 0) 32 s.size ++
  optInt (flags &&& 0x400 ≠ 0) 32 s.flags ++ (if flags &&& 0x800 ≠ 0 then sint 32 s.offset else [])

/-- The numbers fit their fields, and are zero if their field is absent. -/
structure Valid (version flags : Nat) (s : RunSample) : Prop where
  duration : s.duration < 2 ^ 32 ∧ (flags &&& 0x100 = 0 → s.duration = 0)
  size : s.size < 2 ^ 32 ∧ (flags &&& 0x200 = 0 → s.size = 0)
  sflags : s.flags < 2 ^ 32 ∧ (flags &&& 0x400 = 0 → s.flags = 0)
  offset : (if version = 0 then 0 ≤ s.offset ∧ s.offset < 2 ^ 32 else IsInt 32 s.offset) ∧ (flags &&& 0x800 = 0 → s.offset = 0)

/-- the number of bits of a sample -/
def width (flags : Nat) : Nat :=
  (if flags &&& 0x100 ≠ 0 then 32 else 0) + (if flags &&& 0x200 ≠ 0 then 32 else 0) +
  (if flags &&& 0x400 ≠ 0 then 32 else 0) + (if flags &&& 0x800 ≠ 0 then 32 else 0)

theorem encoded (e : Env) (fi : Field) (version flags : Nat) (hv : version = 0 ∨ version = 1) (h1 : e.root.version = version)
    (h2 : e.root.flags = flags) (hc : e.cfo = cfoTrun) (hs : fi.size = width flags) (s : RunSample) (h : s.Valid version flags) :
    layoutV e Cat.tyTrunEntry fi (s.toGo version) = s.bits flags ∧ (s.bits flags).length = width flags ∧
      ∀ j, width flags ≤ j → j % 8 = 0 → fitsV e Cat.tyTrunEntry fi (s.toGo version) j = true := by
  obtain ⟨duration, size, sflags, offset⟩ := s
  obtain ⟨⟨a1, z1⟩, ⟨a2, z2⟩, ⟨a3, z3⟩, ⟨a4, z4⟩⟩ := h
  simp only [Nat.reducePow, IsInt] at a1 a2 a3 a4
  have b1 : 0 ≤ offset → offset < 4294967296 → (offset % 4294967296).toNat = offset.toNat := by omega
  have b2 : offset < 4294967296 → offset.toNat < 4294967296 := by omega
  by_cases c1 : flags &&& 0x100 = 0
  all_goals by_cases c2 : flags &&& 0x200 = 0
  all_goals by_cases c3 : flags &&& 0x400 = 0
  all_goals by_cases c4 : flags &&& 0x800 = 0
  all_goals
    simp only [c1, c2, c3, c4, true_implies, false_implies] at z1 z2 z3 z4
    try subst z1
    try subst z2
    try subst z3
    try subst z4
    rcases hv with rfl | rfl
    all_goals
      simp [width, c1, c2, c3, c4] at hs a4
      refine ⟨?_, ?_, fun j hj hj8 => ?_⟩
      · layout_tac [Cat.tyTrunEntry, Cat.fsTrunEntry, toGo, bits, optInt, c1, c2, c3, c4, hc, h1, h2, hs, sint, a4, b1]
      · simp [bits, optInt, c1, c2, c3, c4, width, sint]
      · simp [width, c1, c2, c3, c4] at hj
        fits_tac [Cat.tyTrunEntry, Cat.fsTrunEntry, toGo, hj, hj8, c1, c2, c3, c4, hc, h1, h2, hs, a1, a2, a3, a4, b2]
        try omega

theorem width_le (flags : Nat) : width flags ≤ 128 ∧ width flags % 8 = 0 := by
  unfold width
  (repeat' split) <;> simp

end RunSample

end Mp4.Props
