import Verif.Lemmas.ProbeAac
import Verif.Lemmas.Hdlr

/-!
# C55: the audio profile
-/

namespace Mp4.Props

open Mp4

variable {d : Bytes}

theorem ext_plain {s : RSt} {aot ch : Nat} {rest : List Bool} (hw : s.WF d) (hr : s.rem d = natBits 4 ch ++ rest)
    (hn : aot = 2 → rest.take 11 ≠ natBits 11 0x2b7) : (detectExt d aot (4 + rest.length : Nat) s).1 = .ok (0x40, aot) := by
  unfold detectExt
  split
  · next h =>
    have hlen : 16 ≤ rest.length := by omega
    obtain ⟨o1, s1, e1, h1, h2, -⟩ := readBits_ok hw hr (natBits_length _ _)
    obtain ⟨o2, s2, e2, g1, g2, g3, g4⟩ := read_wide (w := 11) (bs := rest.take 11) (t := rest.drop 11) h2 (by rw [h1]; simp)
      (by rw [List.length_take]; omega) (by decide) (by decide)
    rw [M.bind_ok e1, M.bind_ok e2, g3, g4, if_neg]
    · rfl
    · intro hc
      exact hn h.1 ((sync_iff (n := 0x2b7) (by rw [List.length_take]; omega) (by decide)).1 hc)
  · rfl

theorem ps_none {s : RSt} {pad : Nat} {r : Int} (hw : s.WF d) (hr : s.rem d = List.replicate pad false) (h : 12 ≤ r → 11 ≤ pad) :
    (detectPS d r s).1 = .ok (0x40, 5) := by
  unfold detectPS
  split
  · next hc =>
    have hp := h hc
    obtain ⟨o2, s2, e2, g1, g2, g3, g4⟩ := read_wide (w := 11) (bs := List.replicate 11 false) (t := List.replicate (pad - 11) false) hw
      (by rw [hr, List.replicate_append_replicate]; congr 1; omega) (by simp) (by decide) (by decide)
    rw [bitsNat_replicate_false] at g3 g4
    rw [M.bind_ok e2, if_neg (by omega)]
    rfl
  · rfl

theorem ps_some {s : RSt} {t : List Bool} {b : Bool} {r : Int} (hw : s.WF d) (hr : s.rem d = natBits 11 0x548 ++ [b] ++ t) (h : 12 ≤ r) :
    (detectPS d r s).1 = .ok (0x40, if b then 29 else 5) := by
  unfold detectPS
  rw [List.append_assoc] at hr
  obtain ⟨o2, s2, e2, g1, g2, g3, g4⟩ := read_wide hw hr (natBits_length _ _) (by decide) (by decide)
  obtain ⟨o3, s3, e3, i1, i2, i3⟩ := read_small g2 g1 (w := 1) rfl (by decide) (by decide)
  rw [bitsNat_natBits] at g3 g4
  rw [if_pos h, M.bind_ok e2, if_pos ⟨by omega, by omega⟩, M.bind_ok e3, i3]
  cases b <;> rfl

/-- **C55**, partial — For an `AudioSpecificConfig` whose decoder is MPEG-4 audio (object type indication 0x40), whatever
object type, sampling frequency and channels it starts with, the profile reported is

* the object type it starts with, if no backward compatible extension follows the channel configuration;
* 5 or 29 as spectral band replication and parametric stereo are signalled, if such an extension follows immediately, padded with zeros
  to whole bytes.

Missing: in configurations of AAC LC by the standard, `GASpecificConfig` stands between the channel configuration and the extension, and then
the extension is never seen (`extension_missed`). -/
theorem aac_profile_partial (c : AacStart) (hc : c.WF) (data : Bytes) :
    (∀ rest, bytesBits data = c.bits ++ rest → (c.aot = 2 → rest.take 11 ≠ natBits 11 0x2b7) →
      (detectConfig data (.fresh 0)).1 = .ok (0x40, c.aot)) ∧
    (∀ (e : AacExt) (pad : Nat), c.aot = 2 → e.index < 16 → bytesBits data = c.bits ++ (e.bits ++ List.replicate pad false) →
      (detectConfig data (.fresh 0)).1 = .ok (0x40, e.profile c.aot)) := by
  constructor
  · intro rest hd hn
    obtain ⟨s, e, hr, hw⟩ := config_start c hc rest hd
    rw [e]
    exact ext_plain hw hr hn
  · intro x pad ha hi hd
    obtain ⟨s, e, hr, hw⟩ := config_start c hc _ hd
    rw [e, ha]
    have h8 := congrArg List.length hd
    simp only [bytesBits_length, List.length_append, List.length_replicate] at h8
    have hcl : c.bits.length = 13 ∨ c.bits.length = 37 := by
      unfold AacStart.bits
      simp only [List.length_append, rateBits_length, natBits_length]
      rw [show (aotBits c.aot).length = 5 by rw [ha]; rfl]
      split <;> omega
    -- what follows the channel configuration
    generalize hX : x.sbrBits = tail at *
    have hE : x.bits = natBits 11 0x2b7 ++ (aotBits 5 ++ tail) := by
      unfold AacExt.bits
      rw [hX, List.append_assoc]
    rw [hE] at hr h8 ⊢
    have h5 : (aotBits 5).length = 5 := rfl
    simp only [List.append_assoc] at hr
    simp only [List.length_append, natBits_length, h5] at h8 ⊢
    simp only [List.length_replicate]
    obtain ⟨o1, s1, e1, h1, h2, -⟩ := readBits_ok hw hr (natBits_length _ _)
    obtain ⟨o2, s2, e2, g1, g2, g3, g4⟩ := read_wide h2 h1 (natBits_length _ _) (by decide) (by decide)
    obtain ⟨s3, e3, i1, i2⟩ := read_aot g2 (by decide) g1
    rw [bitsNat_natBits] at g3 g4
    unfold detectExt
    rw [if_pos (by constructor <;> omega), M.bind_ok e1, M.bind_ok e2, if_pos (by constructor <;> omega), M.bind_ok e3]
    simp only
    unfold AacExt.sbrBits at hX
    unfold detectSBR AacExt.profile
    rw [if_pos (by simp)]
    cases hs : x.sbr with
    | false =>
      rw [hs] at hX
      simp only [Bool.false_eq_true, if_false] at hX ⊢
      subst hX
      obtain ⟨o4, s4, e4, j1, j2, j3⟩ := read_small (bs := [false]) i2 i1 (w := 1) rfl (by decide) (by decide)
      rw [M.bind_ok e4, j3]
      rfl
    | true =>
      rw [hs] at hX
      simp only [if_true] at hX ⊢
      have i1' : s3.rem data = [true] ++ (rateBits x.index x.frequency ++ (x.psBits ++ List.replicate pad false)) := by
        rw [i1, ← hX]
        simp
      obtain ⟨o4, s4, e4, j1, j2, j3⟩ := read_small i2 i1' (w := 1) rfl (by decide) (by decide)
      rw [M.bind_ok e4, j3, if_pos (by decide)]
      have hlt := congrArg List.length hX
      simp only [List.length_cons, List.length_append, rateBits_length] at hlt
      obtain ⟨s5, e5, k1, k2⟩ := read_rate j2 hi j1
        (detectPS data (((4 + (11 + (5 + tail.length) + pad) : Nat) : Int) - 4 - 11 - 1 - 4 - 24))
        (detectPS data (((4 + (11 + (5 + tail.length) + pad) : Nat) : Int) - 4 - 11 - 1 - 4))
      refine (congrArg Prod.fst e5).trans ?_
      cases hp : x.ps with
      | none =>
        unfold AacExt.psBits at k1 hlt
        rw [hp] at k1 hlt
        simp only [List.nil_append, List.length_nil] at k1 hlt
        by_cases h15 : x.index = 15
        · rw [if_pos h15] at hlt ⊢
          rw [ps_none k2 k1 (by omega)]
          rfl
        · rw [if_neg h15] at hlt ⊢
          rw [ps_none k2 k1 (by omega)]
          rfl
      | some b =>
        unfold AacExt.psBits at k1 hlt
        rw [hp] at k1 hlt
        simp only [List.length_append, natBits_length, List.length_cons, List.length_nil] at hlt
        by_cases h15 : x.index = 15
        · rw [if_pos h15] at hlt ⊢
          rw [ps_some k2 k1 (by omega)]
          cases b <;> rfl
        · rw [if_neg h15] at hlt ⊢
          rw [ps_some k2 k1 (by omega)]
          cases b <;> rfl

/-- The hypotheses are met: AAC LC, 22050 Hz, two channels, spectral band replication for 44100 Hz and parametric stereo, directly after
the channel configuration; and the same without extension. -/
example : (detectConfig [0x13, 0x92, 0xb7, 0x2d, 0x2a, 0x44] (.fresh 0)).1 = .ok (0x40, 29) :=
  (aac_profile_partial ⟨2, 7, 0, 2⟩ ⟨by decide, by decide, by decide⟩ _).2 ⟨true, 4, 0, some true⟩ 2 rfl (by decide) (by decide)
example : (detectConfig [0x13, 0x90] (.fresh 0)).1 = .ok (0x40, 2) :=
  (aac_profile_partial ⟨2, 7, 0, 2⟩ ⟨by decide, by decide, by decide⟩ _).1 [false, false, false] (by decide) (by decide)

/-- Where C55 fails: if the three bits of `GASpecificConfig` stand before the extension, as the standard says, the extension is never
seen: the profile reported is 2, whatever is signalled. -/
theorem extension_missed (c : AacStart) (hc : c.WF) (ha : c.aot = 2) (g1 g2 g3 : Bool) (e : AacExt) (pad : List Bool) (data : Bytes)
    (hd : bytesBits data = c.bits ++ ([g1, g2, g3] ++ (e.bits ++ pad))) : (detectConfig data (.fresh 0)).1 = .ok (0x40, 2) := by
  rw [← ha]
  refine (aac_profile_partial c hc data).1 _ hd fun _ h => ?_
  unfold AacExt.bits at h
  simp only [List.append_assoc] at h
  rw [show natBits 11 0x2b7 = [false, true, false, true, false, true, true, false, true, true, true] by decide] at h
  cases g1 <;> cases g2 <;> cases g3 <;> simp at h

/-- For example a usual HE-AAC configuration (22050 Hz, two channels, spectral band replication for 44100 Hz), whose profile is 5. -/
example : (detectConfig [0x13, 0x90, 0x56, 0xe5, 0xa0] (.fresh 0)).1 = .ok (0x40, 2) ∧ (⟨true, 4, 0, none⟩ : AacExt).profile 2 = 5 :=
  ⟨extension_missed ⟨2, 7, 0, 2⟩ ⟨by decide, by decide, by decide⟩ rfl false false false ⟨true, 4, 0, none⟩ [false, false, false] _
    (by decide), rfl⟩

/-- The descriptor with the tag (the first one). -/
def dscrOf (esds : SV) (tag : Int) : Option SV := (rows esds "Descriptors").find? fun x => x.int "Tag" == tag

/-- **C55**, the whole — The object type indication reported is that of the first decoder configuration (tag 4) of the `esds` box, 0 if there
is none.  For MPEG-4 audio (0x40) the profile is that of the data of the first descriptor with decoder specific information
(tag 5), and without such a descriptor there is an error; for anything else it is 0. -/
theorem aac_descriptors (esds : SV) :
    (dscrOf esds 4 = none → detectAACProfile esds = .ok (0, 0)) ∧
    (∀ x conf, dscrOf esds 4 = some x → x.get "DecoderConfigDescriptor" = some (.ptr (some (.struct conf))) →
      (SV.uint conf "ObjectTypeIndication" ≠ 0x40 → detectAACProfile esds = .ok (SV.uint conf "ObjectTypeIndication", 0)) ∧
      (SV.uint conf "ObjectTypeIndication" = 0x40 →
        (∀ y, dscrOf esds 5 = some y → detectAACProfile esds = (detectConfig ((numbers y "Data").map (BitVec.ofNat 8)) (.fresh 0)).1) ∧
        (dscrOf esds 5 = none → ∃ e, detectAACProfile esds = .err e))) := by
  refine ⟨fun h => ?_, fun x conf h1 h2 => ⟨fun h3 => ?_, fun h3 => ⟨fun y h4 => ?_, fun h4 => ?_⟩⟩⟩
  · unfold detectAACProfile
    rw [show findDescriptor (esds.structs "Descriptors") 4 = none from h]
  · unfold detectAACProfile
    rw [show findDescriptor (esds.structs "Descriptors") 4 = some x from h1]
    simp only [h2, if_pos h3]
  · unfold detectAACProfile
    rw [show findDescriptor (esds.structs "Descriptors") 4 = some x from h1]
    simp only [h2, if_neg (Decidable.not_not.2 h3)]
    rw [show findDescriptor (esds.structs "Descriptors") 5 = some y from h4]
    rfl
  · unfold detectAACProfile
    rw [show findDescriptor (esds.structs "Descriptors") 4 = some x from h1]
    simp only [h2, if_neg (Decidable.not_not.2 h3)]
    rw [show findDescriptor (esds.structs "Descriptors") 5 = none from h4]
    exact ⟨_, rfl⟩

end Mp4.Props
