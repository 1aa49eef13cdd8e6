import Verif.Lemmas.Golden

/-!
# C48: tables in the form of ISO/IEC 14496-12

As `Props/Iso.lean`, for boxes with lists.  The lists are of any length that a 32-bit count can express, except
2^32-1 (the value the library uses internally for "no count").
-/

namespace Mp4.Props

open Mp4 Mp4.Spec

/-- time to sample (8.6.1.2): runs of samples with the same duration -/
theorem stts_iso (f0 f1 f2 : Nat) (runs : List (Nat × Nat)) (hf : f0 < 256 ∧ f1 < 256 ∧ f2 < 256)
    (hr : ∀ x ∈ runs, x.1 < 2 ^ 32 ∧ x.2 < 2 ^ 32) (hn : runs.length < 2 ^ 32 - 1) (ctx : Ctx) :
    Encodes Cat.bdStts ctx
      [fullBox 0 f0 f1 f2, ("EntryCount", .uint runs.length),
       ("Entries", .slice (runs.map fun x => .struct [("SampleCount", .uint x.1), ("SampleDelta", .uint x.2)]))]
      (verFlags 0 f0 f1 f2 ++ ints [(32, runs.length)] ++ runs.flatMap fun x => ints [(32, x.1), (32, x.2)]) := by
  simp only [Nat.reducePow, Nat.reduceSub] at hf hr hn
  iso_table (8 + 8 * runs.length), 64, hr, [Cat.bdStts, Cat.fsStts, Cat.tySttsEntry, Cat.fsSttsEntry, cfoStts, Cfo.counted, hf]

/-- composition offsets, version 0 (8.6.1.3) -/
theorem ctts_v0 (f0 f1 f2 : Nat) (runs : List (Nat × Nat)) (hf : f0 < 256 ∧ f1 < 256 ∧ f2 < 256)
    (hr : ∀ x ∈ runs, x.1 < 2 ^ 32 ∧ x.2 < 2 ^ 32) (hn : runs.length < 2 ^ 32 - 1) (ctx : Ctx) :
    Encodes Cat.bdCtts ctx
      [fullBox 0 f0 f1 f2, ("EntryCount", .uint runs.length),
       ("Entries", .slice (runs.map fun x =>
          .struct [("SampleCount", .uint x.1), ("SampleOffsetV0", .uint x.2), ("SampleOffsetV1", .int 0)]))]
      (verFlags 0 f0 f1 f2 ++ ints [(32, runs.length)] ++ runs.flatMap fun x => ints [(32, x.1), (32, x.2)]) := by
  simp only [Nat.reducePow, Nat.reduceSub] at hf hr hn
  iso_table (8 + 8 * runs.length), 64, hr, [Cat.bdCtts, Cat.fsCtts, Cat.tyCttsEntry, Cat.fsCttsEntry, cfoCtts, Cfo.counted, hf]

/-- composition offsets, version 1: signed offsets -/
theorem ctts_v1 (f0 f1 f2 : Nat) (runs : List (Nat × Int)) (hf : f0 < 256 ∧ f1 < 256 ∧ f2 < 256)
    (hr : ∀ x ∈ runs, x.1 < 2 ^ 32 ∧ IsInt 32 x.2) (hn : runs.length < 2 ^ 32 - 1) (ctx : Ctx) :
    Encodes Cat.bdCtts ctx
      [fullBox 1 f0 f1 f2, ("EntryCount", .uint runs.length),
       ("Entries", .slice (runs.map fun x =>
          .struct [("SampleCount", .uint x.1), ("SampleOffsetV0", .uint 0), ("SampleOffsetV1", .int x.2)]))]
      (verFlags 1 f0 f1 f2 ++ ints [(32, runs.length)] ++ runs.flatMap fun x => ints [(32, x.1)] ++ sint 32 x.2) := by
  simp only [Nat.reducePow, Nat.reduceSub] at hf hr hn
  iso_table (8 + 8 * runs.length), 64, hr, [Cat.bdCtts, Cat.fsCtts, Cat.tyCttsEntry, Cat.fsCttsEntry, cfoCtts, Cfo.counted, hf]

/-- sample to chunk (8.7.4): first chunk, samples per chunk, sample description index -/
theorem stsc_iso (f0 f1 f2 : Nat) (runs : List (Nat × Nat × Nat)) (hf : f0 < 256 ∧ f1 < 256 ∧ f2 < 256)
    (hr : ∀ x ∈ runs, x.1 < 2 ^ 32 ∧ x.2.1 < 2 ^ 32 ∧ x.2.2 < 2 ^ 32) (hn : runs.length < 2 ^ 32 - 1) (ctx : Ctx) :
    Encodes Cat.bdStsc ctx
      [fullBox 0 f0 f1 f2, ("EntryCount", .uint runs.length),
       ("Entries", .slice (runs.map fun x =>
          .struct [("FirstChunk", .uint x.1), ("SamplesPerChunk", .uint x.2.1), ("SampleDescriptionIndex", .uint x.2.2)]))]
      (verFlags 0 f0 f1 f2 ++ ints [(32, runs.length)] ++
        runs.flatMap fun x => ints [(32, x.1), (32, x.2.1), (32, x.2.2)]) := by
  simp only [Nat.reducePow, Nat.reduceSub] at hf hr hn
  iso_table (8 + 12 * runs.length), 96, hr, [Cat.bdStsc, Cat.fsStsc, Cat.tyStscEntry, Cat.fsStscEntry, cfoStsc, Cfo.counted, hf]

/-- sample sizes (8.7.3.2), one for each sample -/
theorem stsz_each (f0 f1 f2 : Nat) (sizes : List Nat) (hf : f0 < 256 ∧ f1 < 256 ∧ f2 < 256)
    (hr : ∀ x ∈ sizes, x < 2 ^ 32) (hn : sizes.length < 2 ^ 32 - 1) (ctx : Ctx) :
    Encodes Cat.bdStsz ctx
      [fullBox 0 f0 f1 f2, ("SampleSize", .uint 0), ("SampleCount", .uint sizes.length),
       ("EntrySize", .slice (sizes.map fun x => .uint x))]
      (verFlags 0 f0 f1 f2 ++ ints [(32, 0), (32, sizes.length)] ++ sizes.flatMap fun x => ints [(32, x)]) := by
  simp only [Nat.reducePow, Nat.reduceSub] at hf hr hn
  iso_table (12 + 4 * sizes.length), 32, hr, [Cat.bdStsz, Cat.fsStsz, cfoStsz, hf]

/-- sample sizes, all the same: there is no table -/
theorem stsz_same (f0 f1 f2 size count : Nat) (hf : f0 < 256 ∧ f1 < 256 ∧ f2 < 256)
    (hr : 0 < size ∧ size < 2 ^ 32) (hn : count < 2 ^ 32) (ctx : Ctx) :
    Encodes Cat.bdStsz ctx
      [fullBox 0 f0 f1 f2, ("SampleSize", .uint size), ("SampleCount", .uint count), ("EntrySize", .slice [])]
      (verFlags 0 f0 f1 f2 ++ ints [(32, size), (32, count)]) := by
  simp only [Nat.reducePow, Nat.reduceSub] at hf hr hn
  have h0 : size ≠ 0 := by omega
  refine encodes_intro 12 (by simp [Cat.allDefs]) ?_ rfl ?_ (by decide) ?_ rfl rfl
  · layout_tac [SV.flags, SV.version, SV.full, Cat.bdStsz, Cat.fsStsz, cfoStsz, verFlags, ints, hr, hn, h0, layoutV, counted]
  · simp [verFlags, ints]
  · fits_tac [SV.flags, SV.version, SV.full, Cat.bdStsz, Cat.fsStsz, cfoStsz, hf, hr, hn, h0, layoutV, counted, fitsV]

/-- chunk offsets (8.7.5) -/
theorem stco_iso (f0 f1 f2 : Nat) (offsets : List Nat) (hf : f0 < 256 ∧ f1 < 256 ∧ f2 < 256)
    (hr : ∀ x ∈ offsets, x < 2 ^ 32) (hn : offsets.length < 2 ^ 32 - 1) (ctx : Ctx) :
    Encodes Cat.bdStco ctx
      [fullBox 0 f0 f1 f2, ("EntryCount", .uint offsets.length), ("ChunkOffset", .slice (offsets.map fun x => .uint x))]
      (verFlags 0 f0 f1 f2 ++ ints [(32, offsets.length)] ++ offsets.flatMap fun x => ints [(32, x)]) := by
  simp only [Nat.reducePow, Nat.reduceSub] at hf hr hn
  iso_table (8 + 4 * offsets.length), 32, hr, [Cat.bdStco, Cat.fsStco, cfoStco, Cfo.counted, hf]

/-- chunk offsets of 64 bits -/
theorem co64_iso (f0 f1 f2 : Nat) (offsets : List Nat) (hf : f0 < 256 ∧ f1 < 256 ∧ f2 < 256)
    (hr : ∀ x ∈ offsets, x < 2 ^ 64) (hn : offsets.length < 2 ^ 32 - 1) (ctx : Ctx) :
    Encodes Cat.bdCo64 ctx
      [fullBox 0 f0 f1 f2, ("EntryCount", .uint offsets.length), ("ChunkOffset", .slice (offsets.map fun x => .uint x))]
      (verFlags 0 f0 f1 f2 ++ ints [(32, offsets.length)] ++ offsets.flatMap fun x => ints [(64, x)]) := by
  simp only [Nat.reducePow, Nat.reduceSub] at hf hr hn
  iso_table (8 + 8 * offsets.length), 64, hr, [Cat.bdCo64, Cat.fsCo64, cfoCo64, Cfo.counted, hf]

/-- sync samples (8.6.2) -/
theorem stss_iso (f0 f1 f2 : Nat) (samples : List Nat) (hf : f0 < 256 ∧ f1 < 256 ∧ f2 < 256)
    (hr : ∀ x ∈ samples, x < 2 ^ 32) (hn : samples.length < 2 ^ 32 - 1) (ctx : Ctx) :
    Encodes Cat.bdStss ctx
      [fullBox 0 f0 f1 f2, ("EntryCount", .uint samples.length), ("SampleNumber", .slice (samples.map fun x => .uint x))]
      (verFlags 0 f0 f1 f2 ++ ints [(32, samples.length)] ++ samples.flatMap fun x => ints [(32, x)]) := by
  simp only [Nat.reducePow, Nat.reduceSub] at hf hr hn
  iso_table (8 + 4 * samples.length), 32, hr, [Cat.bdStss, Cat.fsStss, cfoStss, Cfo.counted, hf]

/-- edit list, version 0 (8.6.6): segment duration, media time, media rate -/
theorem elst_v0 (f0 f1 f2 : Nat) (edits : List (Nat × Int × Int × Int)) (hf : f0 < 256 ∧ f1 < 256 ∧ f2 < 256)
    (hr : ∀ x ∈ edits, x.1 < 2 ^ 32 ∧ IsInt 32 x.2.1 ∧ IsInt 16 x.2.2.1 ∧ IsInt 16 x.2.2.2)
    (hn : edits.length < 2 ^ 32 - 1) (ctx : Ctx) :
    Encodes Cat.bdElst ctx
      [fullBox 0 f0 f1 f2, ("EntryCount", .uint edits.length),
       ("Entries", .slice (edits.map fun x =>
          .struct [("SegmentDurationV0", .uint x.1), ("MediaTimeV0", .int x.2.1), ("SegmentDurationV1", .uint 0),
            ("MediaTimeV1", .int 0), ("MediaRateInteger", .int x.2.2.1), ("MediaRateFraction", .int x.2.2.2)]))]
      (verFlags 0 f0 f1 f2 ++ ints [(32, edits.length)] ++
        edits.flatMap fun x => ints [(32, x.1)] ++ sint 32 x.2.1 ++ sint 16 x.2.2.1 ++ sint 16 x.2.2.2) := by
  simp only [Nat.reducePow, Nat.reduceSub] at hf hr hn
  iso_table (8 + 12 * edits.length), 96, hr, [Cat.bdElst, Cat.fsElst, Cat.tyElstEntry, Cat.fsElstEntry, cfoElst, hf]

/-- edit list, version 1 -/
theorem elst_v1 (f0 f1 f2 : Nat) (edits : List (Nat × Int × Int × Int)) (hf : f0 < 256 ∧ f1 < 256 ∧ f2 < 256)
    (hr : ∀ x ∈ edits, x.1 < 2 ^ 64 ∧ IsInt 64 x.2.1 ∧ IsInt 16 x.2.2.1 ∧ IsInt 16 x.2.2.2)
    (hn : edits.length < 2 ^ 32 - 1) (ctx : Ctx) :
    Encodes Cat.bdElst ctx
      [fullBox 1 f0 f1 f2, ("EntryCount", .uint edits.length),
       ("Entries", .slice (edits.map fun x =>
          .struct [("SegmentDurationV0", .uint 0), ("MediaTimeV0", .int 0), ("SegmentDurationV1", .uint x.1),
            ("MediaTimeV1", .int x.2.1), ("MediaRateInteger", .int x.2.2.1), ("MediaRateFraction", .int x.2.2.2)]))]
      (verFlags 1 f0 f1 f2 ++ ints [(32, edits.length)] ++
        edits.flatMap fun x => ints [(64, x.1)] ++ sint 64 x.2.1 ++ sint 16 x.2.2.1 ++ sint 16 x.2.2.2) := by
  simp only [Nat.reducePow, Nat.reduceSub] at hf hr hn
  iso_table (8 + 20 * edits.length), 160, hr, [Cat.bdElst, Cat.fsElst, Cat.tyElstEntry, Cat.fsElstEntry, cfoElst, hf]

/-- A reference of a segment index (8.16.3). -/
structure SegRef where
  isIndex : Bool
  size : Nat
  duration : Nat
  startsWithSAP : Bool
  sapType : Nat
  sapDelta : Nat

namespace SegRef

/-- As a value of the Go type `SidxReference`. -/
def toGo (r : SegRef) : Val := .struct
  [("ReferenceType", .bool r.isIndex), ("ReferencedSize", .uint r.size), ("SubsegmentDuration", .uint r.duration),
   ("StartsWithSAP", .bool r.startsWithSAP), ("SAPType", .uint r.sapType), ("SAPDeltaTime", .uint r.sapDelta)]

/-- Its twelve bytes. -/
def bits (r : SegRef) : List Bool :=
  [r.isIndex] ++ ints [(31, r.size), (32, r.duration)] ++ [r.startsWithSAP] ++ ints [(3, r.sapType), (28, r.sapDelta)]

/-- The numbers fit their fields. -/
def Valid (r : SegRef) : Prop := r.size < 2 ^ 31 ∧ r.duration < 2 ^ 32 ∧ r.sapType < 8 ∧ r.sapDelta < 2 ^ 28

theorem toGo_def : toGo = fun r => .struct
  [("ReferenceType", .bool r.isIndex), ("ReferencedSize", .uint r.size), ("SubsegmentDuration", .uint r.duration),
   ("StartsWithSAP", .bool r.startsWithSAP), ("SAPType", .uint r.sapType), ("SAPDeltaTime", .uint r.sapDelta)] := rfl

theorem bits_def : bits = fun r =>
  [r.isIndex] ++ ints [(31, r.size), (32, r.duration)] ++ [r.startsWithSAP] ++ ints [(3, r.sapType), (28, r.sapDelta)] := rfl

end SegRef

/-- segment index, version 0 (8.16.3) -/
theorem sidx_v0 (f0 f1 f2 id timescale time first : Nat) (refs : List SegRef) (hf : f0 < 256 ∧ f1 < 256 ∧ f2 < 256)
    (h1 : id < 2 ^ 32 ∧ timescale < 2 ^ 32) (h2 : time < 2 ^ 32 ∧ first < 2 ^ 32)
    (hr : ∀ x ∈ refs, x.Valid) (hn : refs.length < 2 ^ 16) (ctx : Ctx) :
    Encodes Cat.bdSidx ctx
      [fullBox 0 f0 f1 f2, ("ReferenceID", .uint id), ("Timescale", .uint timescale),
       ("EarliestPresentationTimeV0", .uint time), ("FirstOffsetV0", .uint first),
       ("EarliestPresentationTimeV1", .uint 0), ("FirstOffsetV1", .uint 0), ("Reserved", .uint 0),
       ("ReferenceCount", .uint refs.length), ("References", .slice (refs.map SegRef.toGo))]
      (verFlags 0 f0 f1 f2 ++
        ints [(32, id), (32, timescale), (32, time), (32, first), (16, 0), (16, refs.length)] ++ refs.flatMap SegRef.bits) := by
  change ∀ x ∈ refs, x.size < 2 ^ 31 ∧ x.duration < 2 ^ 32 ∧ x.sapType < 8 ∧ x.sapDelta < 2 ^ 28 at hr
  simp only [Nat.reducePow, Nat.reduceSub] at hf hr hn h1 h2
  iso_table (24 + 12 * refs.length), 96, hr, [Cat.bdSidx, Cat.fsSidx, Cat.tySidxReference, Cat.fsSidxReference, cfoSidx, Cfo.counted,
    hf, h1, h2, SegRef.toGo_def, SegRef.bits_def]

/-- segment index, version 1 -/
theorem sidx_v1 (f0 f1 f2 id timescale time first : Nat) (refs : List SegRef) (hf : f0 < 256 ∧ f1 < 256 ∧ f2 < 256)
    (h1 : id < 2 ^ 32 ∧ timescale < 2 ^ 32) (h2 : time < 2 ^ 64 ∧ first < 2 ^ 64)
    (hr : ∀ x ∈ refs, x.Valid) (hn : refs.length < 2 ^ 16) (ctx : Ctx) :
    Encodes Cat.bdSidx ctx
      [fullBox 1 f0 f1 f2, ("ReferenceID", .uint id), ("Timescale", .uint timescale),
       ("EarliestPresentationTimeV0", .uint 0), ("FirstOffsetV0", .uint 0),
       ("EarliestPresentationTimeV1", .uint time), ("FirstOffsetV1", .uint first), ("Reserved", .uint 0),
       ("ReferenceCount", .uint refs.length), ("References", .slice (refs.map SegRef.toGo))]
      (verFlags 1 f0 f1 f2 ++
        ints [(32, id), (32, timescale), (64, time), (64, first), (16, 0), (16, refs.length)] ++ refs.flatMap SegRef.bits) := by
  change ∀ x ∈ refs, x.size < 2 ^ 31 ∧ x.duration < 2 ^ 32 ∧ x.sapType < 8 ∧ x.sapDelta < 2 ^ 28 at hr
  simp only [Nat.reducePow, Nat.reduceSub] at hf hr hn h1 h2
  iso_table (32 + 12 * refs.length), 96, hr, [Cat.bdSidx, Cat.fsSidx, Cat.tySidxReference, Cat.fsSidxReference, cfoSidx, Cfo.counted,
    hf, h1, h2, SegRef.toGo_def, SegRef.bits_def]

/-- file type (4.3): major brand, minor version and compatible brands up to the end of the box -/
theorem ftyp_iso (major : BoxType) (minor : Nat) (brands : List BoxType) (h1 : minor < 2 ^ 32) (hn : brands.length < 2 ^ 45)
    (ctx : Ctx) :
    Encodes Cat.bdFtyp ctx
      [("MajorBrand", .arr (goBytes [major.b0, major.b1, major.b2, major.b3])), ("MinorVersion", .uint minor),
       ("CompatibleBrands", .slice (brands.map fun b =>
         .struct [("CompatibleBrand", .arr (goBytes [b.b0, b.b1, b.b2, b.b3]))]))]
      (bytesBits [major.b0, major.b1, major.b2, major.b3] ++ ints [(32, minor)] ++
        brands.flatMap fun b => bytesBits [b.b0, b.b1, b.b2, b.b3]) := by
  have hr : ∀ b ∈ brands, b.b0.toNat < 256 ∧ b.b1.toNat < 256 ∧ b.b2.toNat < 256 ∧ b.b3.toNat < 256 :=
    fun b _ => ⟨b.b0.isLt, b.b1.isLt, b.b2.isLt, b.b3.isLt⟩
  have hm : major.b0.toNat < 256 ∧ major.b1.toNat < 256 ∧ major.b2.toNat < 256 ∧ major.b3.toNat < 256 :=
    ⟨major.b0.isLt, major.b1.isLt, major.b2.isLt, major.b3.isLt⟩
  simp only [Nat.reducePow] at h1 hn
  iso_table (8 + 4 * brands.length), 32, hr, [Cat.bdFtyp, Cat.fsFtyp, Cat.tyCompatibleBrandElem, Cat.fsCompatibleBrandElem, h1, hm,
    goBytes, bytesBits, natBits_byte]

/-! A concrete case of each of the theorems above. -/

example := stts_iso 0 0 0 [(1, 1024), (99, 1001)] (by decide) (by decide) (by decide) {}
example := ctts_v0 0 0 0 [(1, 1024), (99, 4294967295)] (by decide) (by decide) (by decide) {}
example := ctts_v1 0 0 0 [(1, 1024), (99, -512)] (by decide) (by decide) (by decide) {}
example := stsc_iso 0 0 0 [(1, 10, 1), (7, 3, 2)] (by decide) (by decide) (by decide) {}
example := stsz_each 0 0 0 [0, 300, 4294967295] (by decide) (by decide) (by decide) {}
example := stsz_same 0 0 0 512 1000 (by decide) (by decide) (by decide) {}
example := stco_iso 0 0 0 [48, 1000048] (by decide) (by decide) (by decide) {}
example := co64_iso 0 0 0 [48, 10000000048] (by decide) (by decide) (by decide) {}
example := stss_iso 0 0 0 [1, 251] (by decide) (by decide) (by decide) {}
example := elst_v0 0 0 0 [(500, -1, 1, 0), (90000, 1024, 1, 0)] (by decide) (by decide) (by decide) {}
example := elst_v1 0 0 0 [(500, -1, 1, 0), (90000000000, 1024, 1, 0)] (by decide) (by decide) (by decide) {}
example := sidx_v0 0 0 0 1 48000 0 0 [⟨false, 100000, 96000, true, 1, 0⟩, ⟨true, 2147483647, 1, false, 7, 3⟩] (by decide) (by decide) (by decide) (by simp [SegRef.Valid]) (by decide) {}
example := sidx_v1 0 0 0 1 48000 96000000000 80 [⟨false, 100000, 96000, true, 1, 0⟩, ⟨true, 2147483647, 1, false, 7, 3⟩] (by decide) (by decide) (by decide) (by simp [SegRef.Valid]) (by decide) {}
example := ftyp_iso ⟨0x69, 0x73, 0x6f, 0x6d⟩ 512 [⟨0x69, 0x73, 0x6f, 0x36⟩, ⟨0x71, 0x74, 0x20, 0x20⟩] (by decide) (by decide) {}

end Mp4.Props
