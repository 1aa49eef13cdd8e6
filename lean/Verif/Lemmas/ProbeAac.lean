import Verif.Spec.ProbeTrack
import Verif.Lemmas.Bitio

/-!
# Lemmas about the bits of an AudioSpecificConfig
-/

namespace Mp4.Props

open Mp4

variable {d : Bytes}

theorem bytes_one {out : Bytes} (h : (bytesBits out).length = 8) : byteAt out 0 = bitsNat (bytesBits out) := by
  rw [bytesBits_length] at h
  match out, h with
  | [a], _ => simp [byteAt, bitsNat_byteBits]
  | [], h => simp at h
  | _ :: _ :: _, h => simp at h; omega

theorem bytes_two {out : Bytes} (h : (bytesBits out).length = 16) :
    byteAt out 0 = bitsNat (bytesBits out) / 256 ∧ byteAt out 1 = bitsNat (bytesBits out) % 256 := by
  rw [bytesBits_length] at h
  match out, h with
  | [a, b], _ =>
    have := b.isLt
    simp [byteAt, bitsNat_append, bitsNat_byteBits]
    omega
  | [], h => simp at h
  | [_], h => simp at h
  | _ :: _ :: _ :: _, h => simp at h; omega

/-- up to 8 bits are the first byte -/
theorem read_small {s : RSt} {bs t : List Bool} {w : Nat} (hw : s.WF d) (hr : s.rem d = bs ++ t) (hl : bs.length = w) (h0 : 0 < w)
    (h8 : w ≤ 8) : ∃ out s', readBits d w s = (.ok out, s') ∧ s'.rem d = t ∧ s'.WF d ∧ byteAt out 0 = bitsNat bs := by
  obtain ⟨out, s', e, h1, h2, h3⟩ := readBits_ok hw hr hl
  refine ⟨out, s', e, h1, h2, ?_⟩
  rw [bytes_one (by rw [h3]; simp; omega), h3, bitsNat_pad]

/-- 9 to 16 bits are two bytes -/
theorem read_wide {s : RSt} {bs t : List Bool} {w : Nat} (hw : s.WF d) (hr : s.rem d = bs ++ t) (hl : bs.length = w) (h0 : 8 < w)
    (h8 : w ≤ 16) : ∃ out s', readBits d w s = (.ok out, s') ∧ s'.rem d = t ∧ s'.WF d ∧ byteAt out 0 = bitsNat bs / 256 ∧
      byteAt out 1 = bitsNat bs % 256 := by
  obtain ⟨out, s', e, h1, h2, h3⟩ := readBits_ok hw hr hl
  obtain ⟨a, b⟩ := bytes_two (out := out) (by rw [h3]; simp; omega)
  refine ⟨out, s', e, h1, h2, ?_, ?_⟩
  · rw [a, h3, bitsNat_pad]
  · rw [b, h3, bitsNat_pad]

theorem read_aot {s : RSt} {n : Nat} {t : List Bool} (hw : s.WF d) (hn : n ≠ 31 ∧ n < 96) (hr : s.rem d = aotBits n ++ t) :
    ∃ s', audioObjectType d s = (.ok (n, (aotBits n).length), s') ∧ s'.rem d = t ∧ s'.WF d := by
  unfold aotBits at *
  by_cases h : n < 31
  · rw [if_pos h] at *
    obtain ⟨out, s', e, h1, h2, h3⟩ := read_small hw hr (natBits_length _ _) (by decide) (by decide)
    rw [bitsNat_natBits, Nat.mod_eq_of_lt (by omega)] at h3
    refine ⟨s', ?_, h1, h2⟩
    unfold audioObjectType
    rw [M.bind_ok e, if_pos (by omega), h3, natBits_length]
    rfl
  · rw [if_neg h] at *
    rw [List.append_assoc] at hr
    obtain ⟨out, s', e, h1, h2, h3⟩ := read_small hw hr (natBits_length _ _) (by decide) (by decide)
    obtain ⟨out2, s2, e2, g1, g2, g3⟩ := read_small h2 h1 (natBits_length _ _) (by decide) (by decide)
    rw [bitsNat_natBits] at h3 g3
    refine ⟨s2, ?_, g1, g2⟩
    unfold audioObjectType
    rw [M.bind_ok e, if_neg (by omega), M.bind_ok e2, g3]
    simp only [List.length_append, natBits_length]
    rw [show (n - 32) % 2 ^ 6 + 32 = n by omega, Nat.mod_eq_of_lt (by omega)]
    rfl

/-- a sampling frequency is read and dropped -/
theorem read_rate {α : Type} {s : RSt} {i f : Nat} {t : List Bool} (hw : s.WF d) (hi : i < 16) (hr : s.rem d = rateBits i f ++ t)
    (k1 k2 : RM α) : ∃ s', (do
      let b ← readBits d 4
      if byteAt b 0 = 0x0f then do
        let _ ← readBits d 24
        k1
      else k2) s = (if i = 15 then k1 s' else k2 s') ∧ s'.rem d = t ∧ s'.WF d := by
  unfold rateBits at hr
  rw [List.append_assoc] at hr
  obtain ⟨out, s', e, h1, h2, h3⟩ := read_small hw hr (natBits_length _ _) (by decide) (by decide)
  rw [bitsNat_natBits, Nat.mod_eq_of_lt (by omega)] at h3
  by_cases h : i = 15
  · rw [if_pos h] at h1
    obtain ⟨out2, s2, e2, g1, g2, -⟩ := readBits_ok h2 h1 (natBits_length _ _)
    refine ⟨s2, ?_, g1, g2⟩
    rw [M.bind_ok e, if_pos (by omega), M.bind_ok e2, if_pos h]
  · rw [if_neg h] at h1
    refine ⟨s', ?_, h1, h2⟩
    rw [M.bind_ok e, if_neg (by omega), if_neg h]

theorem rateBits_length (i f : Nat) : (rateBits i f).length = if i = 15 then 28 else 4 := by
  unfold rateBits
  split <;> simp

/-- a sync word -/
theorem sync_iff {bs : List Bool} {n : Nat} (hl : bs.length = 11) (hn : n < 2 ^ 11) :
    (bitsNat bs / 256 = n / 256 ∧ bitsNat bs % 256 = n % 256) ↔ bs = natBits 11 n := by
  constructor
  · rintro ⟨a, b⟩
    refine bitsNat_inj (by simp [hl]) ?_
    rw [bitsNat_natBits, Nat.mod_eq_of_lt hn]
    omega
  · rintro rfl
    rw [bitsNat_natBits, Nat.mod_eq_of_lt hn]
    exact ⟨rfl, rfl⟩

/-- The start of a configuration is read; what is left decides about the extension. -/
theorem config_start (c : AacStart) (hc : c.WF) (rest : List Bool) (hd : bytesBits d = c.bits ++ rest) :
    ∃ s, detectConfig d (.fresh 0) = detectExt d c.aot (4 + rest.length : Nat) s ∧ s.rem d = natBits 4 c.channels ++ rest ∧ s.WF d := by
  have hw : (RSt.fresh 0).WF d := ⟨by simp [RSt.fresh], by simp [RSt.fresh]⟩
  have hr : (RSt.fresh 0).rem d = aotBits c.aot ++ (rateBits c.index c.frequency ++ (natBits 4 c.channels ++ rest)) := by
    rw [RSt.rem_aligned rfl]
    simp only [RSt.fresh, List.drop_zero]
    rw [hd]
    unfold AacStart.bits
    simp only [List.append_assoc]
  have hlen := congrArg List.length hd
  unfold AacStart.bits at hlen
  simp only [bytesBits_length, List.length_append, natBits_length, rateBits_length] at hlen
  obtain ⟨s1, e1, h1, h2⟩ := read_aot hw hc.aot hr
  obtain ⟨s2, e2, g1, g2⟩ := read_rate h2 hc.index h1
    (detectExt d c.aot (8 * d.length - (aotBits c.aot).length - 4 - 24)) (detectExt d c.aot (8 * d.length - (aotBits c.aot).length - 4))
  refine ⟨s2, ?_, g1, g2⟩
  unfold detectConfig
  rw [M.bind_ok e1]
  refine e2.trans ?_
  by_cases h : c.index = 15
  · rw [if_pos h] at *
    congr 1
    congr 1
    omega
  · rw [if_neg h] at *
    congr 1
    congr 1
    omega

end Mp4.Props
