import Verif.Props.IsoMore

/-!
# C48: sample entries and the configuration of codecs
-/

namespace Mp4.Props

open Mp4 Mp4.Spec

/-- The fields common to all sample entries (8.5.2). -/
def sampleEntry (index : Nat) : String × Val :=
  ("SampleEntry", .struct [("Reserved", .arr [.uint 0, .uint 0, .uint 0, .uint 0, .uint 0, .uint 0]), ("DataReferenceIndex", .uint index)])

/-- visual sample entry (12.1.3) -/
theorem visual_iso (index width height hres vres frames depth : Nat) (name : Bytes) (h0 : index < 2 ^ 16)
    (h1 : width < 2 ^ 16 ∧ height < 2 ^ 16) (h2 : hres < 2 ^ 32 ∧ vres < 2 ^ 32) (h3 : frames < 2 ^ 16 ∧ depth < 2 ^ 16)
    (h4 : name.length = 32) (ctx : Ctx) :
    Encodes Cat.bdVisualSampleEntry ctx
      [sampleEntry index, ("PreDefined", .uint 0), ("Reserved", .uint 0), ("PreDefined2", .arr [.uint 0, .uint 0, .uint 0]),
       ("Width", .uint width), ("Height", .uint height), ("Horizresolution", .uint hres), ("Vertresolution", .uint vres),
       ("Reserved2", .uint 0), ("FrameCount", .uint frames), ("Compressorname", .arr (goBytes name)), ("Depth", .uint depth),
       ("PreDefined3", .int (-1))]
      (ints [(8, 0), (8, 0), (8, 0), (8, 0), (8, 0), (8, 0), (16, index), (16, 0), (16, 0), (32, 0), (32, 0), (32, 0), (16, width),
        (16, height), (32, hres), (32, vres), (32, 0), (16, frames)] ++ bytesBits name ++ ints [(16, depth), (16, 0xffff)]) := by
  simp only [Nat.reducePow] at h0 h1 h2 h3
  have hr : ∀ x ∈ ([] : List Nat), x < 1 := by simp
  iso_mixed 78, 32, hr, [sampleEntry, Cat.bdVisualSampleEntry, Cat.fsVisualSampleEntry, Cat.tySampleEntry, Cat.fsSampleEntry,
    h0, h1, h2, h3, h4]

/-- audio sample entry (12.2.3) in an ISO file, and in a QuickTime file outside of `wave` when of version 0 -/
theorem audio_iso (index version channels size preDefined rate : Nat) (h0 : index < 2 ^ 16 ∧ version < 2 ^ 16)
    (h1 : channels < 2 ^ 16 ∧ size < 2 ^ 16 ∧ preDefined < 2 ^ 16) (h2 : rate < 2 ^ 32) (ctx : Ctx)
    (hc : ctx.isQuickTimeCompatible = false ∨ (ctx.underWave = false ∧ version ≠ 1 ∧ version ≠ 2)) :
    Encodes Cat.bdAudioSampleEntry ctx
      [sampleEntry index, ("EntryVersion", .uint version), ("Reserved", .arr [.uint 0, .uint 0, .uint 0]),
       ("ChannelCount", .uint channels), ("SampleSize", .uint size), ("PreDefined", .uint preDefined), ("Reserved2", .uint 0),
       ("SampleRate", .uint rate), ("QuickTimeData", .slice [])]
      (ints [(8, 0), (8, 0), (8, 0), (8, 0), (8, 0), (8, 0), (16, index), (16, version), (16, 0), (16, 0), (16, 0), (16, channels),
        (16, size), (16, preDefined), (16, 0), (32, rate)]) := by
  simp only [Nat.reducePow] at h0 h1 h2
  have hr : ∀ x ∈ ([] : List Nat), x < 1 := by simp
  rcases hc with hc | hc
  all_goals
    iso_mixed 28, 32, hr, [sampleEntry, Cat.bdAudioSampleEntry, Cat.fsAudioSampleEntry, Cat.tySampleEntry, Cat.fsSampleEntry,
      cfoAudioSampleEntry, h0, h1, h2, hc]

/-- audio sample entry of a QuickTime file outside of `wave`: version 1 has 16 bytes more, version 2 has 36 -/
theorem audio_quicktime (index version channels size preDefined rate : Nat) (extra : Bytes) (h0 : index < 2 ^ 16)
    (hv : version = 1 ∧ extra.length = 16 ∨ version = 2 ∧ extra.length = 36)
    (h1 : channels < 2 ^ 16 ∧ size < 2 ^ 16 ∧ preDefined < 2 ^ 16) (h2 : rate < 2 ^ 32) (ctx : Ctx)
    (hc : ctx.isQuickTimeCompatible = true ∧ ctx.underWave = false) :
    Encodes Cat.bdAudioSampleEntry ctx
      [sampleEntry index, ("EntryVersion", .uint version), ("Reserved", .arr [.uint 0, .uint 0, .uint 0]),
       ("ChannelCount", .uint channels), ("SampleSize", .uint size), ("PreDefined", .uint preDefined), ("Reserved2", .uint 0),
       ("SampleRate", .uint rate), ("QuickTimeData", .slice (goBytes extra))]
      (ints [(8, 0), (8, 0), (8, 0), (8, 0), (8, 0), (8, 0), (16, index), (16, version), (16, 0), (16, 0), (16, 0), (16, channels),
        (16, size), (16, preDefined), (16, 0), (32, rate)] ++ bytesBits extra) := by
  simp only [Nat.reducePow] at h0 h1 h2
  have hr : ∀ x ∈ ([] : List Nat), x < 1 := by simp
  rcases hv with ⟨rfl, hv⟩ | ⟨rfl, hv⟩
  · iso_mixed 44, 32, hr, [sampleEntry, Cat.bdAudioSampleEntry, Cat.fsAudioSampleEntry, Cat.tySampleEntry, Cat.fsSampleEntry,
      cfoAudioSampleEntry, h0, h1, h2, hc, hv]
  · iso_mixed 64, 32, hr, [sampleEntry, Cat.bdAudioSampleEntry, Cat.fsAudioSampleEntry, Cat.tySampleEntry, Cat.fsSampleEntry,
      cfoAudioSampleEntry, h0, h1, h2, hc, hv]

/-- an audio sample entry in the `wave` box of a QuickTime file is a byte string -/
theorem audio_wave (data : Bytes) (hn : data.length < 2 ^ 40) (ctx : Ctx)
    (hc : ctx.isQuickTimeCompatible = true ∧ ctx.underWave = true) :
    Encodes Cat.bdAudioSampleEntry ctx
      [sampleEntry 0, ("EntryVersion", .uint 0), ("Reserved", .arr [.uint 0, .uint 0, .uint 0]),
       ("ChannelCount", .uint 0), ("SampleSize", .uint 0), ("PreDefined", .uint 0), ("Reserved2", .uint 0),
       ("SampleRate", .uint 0), ("QuickTimeData", .slice (goBytes data))] (bytesBits data) := by
  simp only [Nat.reducePow] at hn
  have hr : ∀ x ∈ ([] : List Nat), x < 1 := by simp
  iso_mixed data.length, 32, hr, [sampleEntry, Cat.bdAudioSampleEntry, Cat.fsAudioSampleEntry, Cat.tySampleEntry, Cat.fsSampleEntry,
      cfoAudioSampleEntry, hc, isZeroFields, isZero]

/-- AV1 codec configuration (AV1-ISOBMFF 2.3.3) -/
theorem av1C_iso (profile level tier high twelve mono subX subY position present delay : Nat) (obus : Bytes)
    (h : profile < 8 ∧ level < 32 ∧ tier < 2 ∧ high < 2 ∧ twelve < 2 ∧ mono < 2 ∧ subX < 2 ∧ subY < 2 ∧ position < 4 ∧ present < 2 ∧
      delay < 16) (hn : obus.length < 2 ^ 40) (ctx : Ctx) :
    Encodes Cat.bdAv1C ctx
      [("Marker", .uint 1), ("Version", .uint 1), ("SeqProfile", .uint profile), ("SeqLevelIdx0", .uint level), ("SeqTier0", .uint tier),
       ("HighBitdepth", .uint high), ("TwelveBit", .uint twelve), ("Monochrome", .uint mono), ("ChromaSubsamplingX", .uint subX),
       ("ChromaSubsamplingY", .uint subY), ("ChromaSamplePosition", .uint position), ("Reserved", .uint 0),
       ("InitialPresentationDelayPresent", .uint present), ("InitialPresentationDelayMinusOne", .uint delay),
       ("ConfigOBUs", .slice (goBytes obus))]
      (ints [(1, 1), (7, 1), (3, profile), (5, level), (1, tier), (1, high), (1, twelve), (1, mono), (1, subX), (1, subY), (2, position),
        (3, 0), (1, present), (4, delay)] ++ bytesBits obus) := by
  simp only [Nat.reducePow] at hn
  have hr : ∀ x ∈ ([] : List Nat), x < 1 := by simp
  iso_mixed (4 + obus.length), 32, hr, [Cat.bdAv1C, Cat.fsAv1C, h]

/-- AC-3 configuration (ETSI TS 102 366 F.4) -/
theorem dac3_iso (fscod bsid bsmod acmod lfe rate : Nat)
    (h : fscod < 4 ∧ bsid < 32 ∧ bsmod < 8 ∧ acmod < 8 ∧ lfe < 2 ∧ rate < 32) (ctx : Ctx) :
    Encodes Cat.bdDac3 ctx
      [("Fscod", .uint fscod), ("Bsid", .uint bsid), ("Bsmod", .uint bsmod), ("Acmod", .uint acmod), ("LfeOn", .uint lfe),
       ("BitRateCode", .uint rate), ("Reserved", .uint 0)]
      (ints [(2, fscod), (5, bsid), (3, bsmod), (3, acmod), (1, lfe), (5, rate), (5, 0)]) := by
  have hr : ∀ x ∈ ([] : List Nat), x < 1 := by simp
  iso_mixed 3, 32, hr, [Cat.bdDac3, Cat.fsDac3, h]

/-- VP codec configuration (VP-ISOBMFF) -/
theorem vpcC_iso (f0 f1 f2 profile level depth sub full primaries transfer matrix : Nat) (data : Bytes)
    (hf : f0 < 256 ∧ f1 < 256 ∧ f2 < 256) (h1 : profile < 256 ∧ level < 256 ∧ depth < 16 ∧ sub < 8 ∧ full < 2)
    (h2 : primaries < 256 ∧ transfer < 256 ∧ matrix < 256) (hn : data.length < 2 ^ 16) (ctx : Ctx) :
    Encodes Cat.bdVpcC ctx
      [fullBox 1 f0 f1 f2, ("Profile", .uint profile), ("Level", .uint level), ("BitDepth", .uint depth), ("ChromaSubsampling", .uint sub),
       ("VideoFullRangeFlag", .uint full), ("ColourPrimaries", .uint primaries), ("TransferCharacteristics", .uint transfer),
       ("MatrixCoefficients", .uint matrix), ("CodecInitializationDataSize", .uint data.length),
       ("CodecInitializationData", .slice (goBytes data))]
      (verFlags 1 f0 f1 f2 ++ ints [(8, profile), (8, level), (4, depth), (3, sub), (1, full), (8, primaries), (8, transfer), (8, matrix),
        (16, data.length)] ++ bytesBits data) := by
  simp only [Nat.reducePow] at hn
  have hr : ∀ x ∈ ([] : List Nat), x < 1 := by simp
  iso_mixed (12 + data.length), 32, hr, [Cat.bdVpcC, Cat.fsVpcC, cfoVpcC, Cfo.counted0, hf, h1, h2]

/-- Opus specific box with the channel mapping family 0 (Opus in ISOBMFF 4.3.2) -/
theorem dOps_family0 (version channels skip rate : Nat) (gain : Int) (h1 : version < 256 ∧ channels < 256)
    (h2 : skip < 2 ^ 16 ∧ rate < 2 ^ 32) (h3 : IsInt 16 gain) (ctx : Ctx) :
    Encodes Cat.bdDOps ctx
      [("Version", .uint version), ("OutputChannelCount", .uint channels), ("PreSkip", .uint skip), ("InputSampleRate", .uint rate),
       ("OutputGain", .int gain), ("ChannelMappingFamily", .uint 0), ("StreamCount", .uint 0), ("CoupledCount", .uint 0),
       ("ChannelMapping", .slice [])]
      (ints [(8, version), (8, channels), (16, skip), (32, rate)] ++ sint 16 gain ++ ints [(8, 0)]) := by
  simp [IsInt] at h1 h2 h3
  have hr : ∀ x ∈ ([] : List Nat), x < 1 := by simp
  iso_mixed 11, 32, hr, [Cat.bdDOps, Cat.fsDOps, cfoDOps, h1, h2, h3]

/-- Opus specific box with another channel mapping family -/
theorem dOps_mapped (version skip rate family streams coupled : Nat) (gain : Int) (mapping : Bytes) (h0 : family ≠ 0)
    (h1 : version < 256 ∧ mapping.length < 256 ∧ family < 256 ∧ streams < 256 ∧ coupled < 256)
    (h2 : skip < 2 ^ 16 ∧ rate < 2 ^ 32) (h3 : IsInt 16 gain) (ctx : Ctx) :
    Encodes Cat.bdDOps ctx
      [("Version", .uint version), ("OutputChannelCount", .uint mapping.length), ("PreSkip", .uint skip), ("InputSampleRate", .uint rate),
       ("OutputGain", .int gain), ("ChannelMappingFamily", .uint family), ("StreamCount", .uint streams), ("CoupledCount", .uint coupled),
       ("ChannelMapping", .slice (goBytes mapping))]
      (ints [(8, version), (8, mapping.length), (16, skip), (32, rate)] ++ sint 16 gain ++
        ints [(8, family), (8, streams), (8, coupled)] ++ bytesBits mapping) := by
  simp [IsInt] at h1 h2 h3
  have hr : ∀ x ∈ ([] : List Nat), x < 1 := by simp
  iso_mixed (13 + mapping.length), 32, hr, [Cat.bdDOps, Cat.fsDOps, cfoDOps, h0, h1, h2, h3]

/-- the colour type `nclx` -/
def nclx : Bytes := [0x6e, 0x63, 0x6c, 0x78]

theorem opt_nclx (n : String) (ctx : Ctx) (a b c d e f g : String × Val) :
    cfoColr.opt n ctx [("ColourType", .arr (goBytes nclx)), a, b, c, d, e, f, g] = colrNclx.contains n := by
  have h : SV.byteArr [("ColourType", .arr (goBytes nclx)), a, b, c, d, e, f, g] "ColourType" = ascii "nclx" := by
    have h1 : ascii "nclx" = [0x6e, 0x63, 0x6c, 0x78] := by decide
    rw [h1]
    simp [SV.byteArr, SV.get, goBytes, nclx]
  simp only [cfoColr, h, if_pos]

/-- colour information (12.1.5), `nclx` -/
theorem colr_nclx (primaries transfer matrix : Nat) (full : Bool) (h : primaries < 2 ^ 16 ∧ transfer < 2 ^ 16 ∧ matrix < 2 ^ 16) (ctx : Ctx) :
    Encodes Cat.bdColr ctx
      [("ColourType", .arr (goBytes nclx)), ("ColourPrimaries", .uint primaries), ("TransferCharacteristics", .uint transfer),
       ("MatrixCoefficients", .uint matrix), ("FullRangeFlag", .bool full), ("Reserved", .uint 0), ("Profile", .slice []),
       ("Unknown", .slice [])]
      (bytesBits nclx ++ ints [(16, primaries), (16, transfer), (16, matrix)] ++ [full] ++ ints [(7, 0)]) := by
  simp only [Nat.reducePow] at h
  have hl : nclx.length = 4 := rfl
  have hr : ∀ x ∈ ([] : List Nat), x < 1 := by simp
  iso_mixed 11, 32, hr, [Cat.bdColr, Cat.fsColr, opt_nclx, colrNclx, h, hl]

/-- track extension properties (8.8.15) -/
theorem trep_iso (f0 f1 f2 track : Nat) (hf : f0 < 256 ∧ f1 < 256 ∧ f2 < 256) (h : track < 2 ^ 32) (ctx : Ctx) :
    Encodes Cat.bdTrep ctx [fullBox 0 f0 f1 f2, ("TrackID", .uint track)] (verFlags 0 f0 f1 f2 ++ ints [(32, track)]) := by
  simp at hf h
  iso_box 8, [Cat.bdTrep, Cat.fsTrep, hf, h]

/-- field handling (QuickTime) -/
theorem fiel_iso (count order : Nat) (h : count < 256 ∧ order < 256) (ctx : Ctx) :
    Encodes Cat.bdFiel ctx [("FieldCount", .uint count), ("FieldOrdering", .uint order)] (ints [(8, count), (8, order)]) := by
  iso_box 2, [Cat.bdFiel, Cat.fsFiel, h]

/-- PCM configuration (ISO/IEC 23003-5) -/
theorem pcmC_iso (f0 f1 f2 flags size : Nat) (hf : f0 < 256 ∧ f1 < 256 ∧ f2 < 256) (h : flags < 256 ∧ size < 256) (ctx : Ctx) :
    Encodes Cat.bdPcmC ctx [fullBox 0 f0 f1 f2, ("FormatFlags", .uint flags), ("PCMSampleSize", .uint size)]
      (verFlags 0 f0 f1 f2 ++ ints [(8, flags), (8, size)]) := by
  iso_box 6, [Cat.bdPcmC, Cat.fsPcmC, hf, h]

/-- URN entry of a data reference (8.7.2) that does not refer to the same file -/
theorem urn_iso (f0 f1 f2 : Nat) (name location : Bytes) (hf : f0 < 256 ∧ f1 < 256 ∧ f2 < 256) (h2 : f2 % 2 = 0)
    (h : (∀ b ∈ name, b ≠ 0) ∧ ∀ b ∈ location, b ≠ 0) (hn : name.length < 2 ^ 40 ∧ location.length < 2 ^ 40) (ctx : Ctx) :
    Encodes Cat.bdUrn ctx [fullBox 0 f0 f1 f2, ("Name", .str name), ("Location", .str location)]
      (verFlags 0 f0 f1 f2 ++ cstring name ++ cstring location) := by
  have n1 : noNul name = true := by simpa [noNul] using h.1
  have n2 : noNul location = true := by simpa [noNul] using h.2
  simp only [Nat.reducePow] at hn
  have hr : ∀ x ∈ ([] : List Nat), x < 1 := by simp
  iso_mixed (6 + name.length + location.length), 32, hr, [Cat.bdUrn, Cat.fsUrn, hf, h2, n1, n2]

/-- event message (ISO/IEC 23009-1 5.10.3.3), version 0 -/
theorem emsg_v0 (f0 f1 f2 timescale delta duration ident : Nat) (scheme value data : Bytes) (hf : f0 < 256 ∧ f1 < 256 ∧ f2 < 256)
    (h : (∀ b ∈ scheme, b ≠ 0) ∧ ∀ b ∈ value, b ≠ 0) (hn : scheme.length < 2 ^ 40 ∧ value.length < 2 ^ 40 ∧ data.length < 2 ^ 40)
    (h1 : timescale < 2 ^ 32 ∧ delta < 2 ^ 32 ∧ duration < 2 ^ 32 ∧ ident < 2 ^ 32) (ctx : Ctx) :
    Encodes Cat.bdEmsg ctx
      [fullBox 0 f0 f1 f2, ("SchemeIdUri", .str scheme), ("Value", .str value), ("Timescale", .uint timescale),
       ("PresentationTimeDelta", .uint delta), ("PresentationTime", .uint 0), ("EventDuration", .uint duration), ("Id", .uint ident),
       ("MessageData", .slice (goBytes data))]
      (verFlags 0 f0 f1 f2 ++ cstring scheme ++ cstring value ++ ints [(32, timescale), (32, delta), (32, duration), (32, ident)] ++
        bytesBits data) := by
  have n1 : noNul scheme = true := by simpa [noNul] using h.1
  have n2 : noNul value = true := by simpa [noNul] using h.2
  simp only [Nat.reducePow] at hn h1
  have hr : ∀ x ∈ ([] : List Nat), x < 1 := by simp
  iso_mixed (22 + scheme.length + value.length + data.length), 32, hr, [Cat.bdEmsg, Cat.fsEmsg, hf, h1, n1, n2]

/-- event message, version 1: the strings follow the numbers -/
theorem emsg_v1 (f0 f1 f2 timescale time duration ident : Nat) (scheme value data : Bytes) (hf : f0 < 256 ∧ f1 < 256 ∧ f2 < 256)
    (h : (∀ b ∈ scheme, b ≠ 0) ∧ ∀ b ∈ value, b ≠ 0) (hn : scheme.length < 2 ^ 40 ∧ value.length < 2 ^ 40 ∧ data.length < 2 ^ 40)
    (h1 : timescale < 2 ^ 32 ∧ time < 2 ^ 64 ∧ duration < 2 ^ 32 ∧ ident < 2 ^ 32) (ctx : Ctx) :
    Encodes Cat.bdEmsg ctx
      [fullBox 1 f0 f1 f2, ("SchemeIdUri", .str scheme), ("Value", .str value), ("Timescale", .uint timescale),
       ("PresentationTimeDelta", .uint 0), ("PresentationTime", .uint time), ("EventDuration", .uint duration), ("Id", .uint ident),
       ("MessageData", .slice (goBytes data))]
      (verFlags 1 f0 f1 f2 ++ ints [(32, timescale), (64, time), (32, duration), (32, ident)] ++ cstring scheme ++ cstring value ++
        bytesBits data) := by
  have n1 : noNul scheme = true := by simpa [noNul] using h.1
  have n2 : noNul value = true := by simpa [noNul] using h.2
  simp only [Nat.reducePow] at hn h1
  have hr : ∀ x ∈ ([] : List Nat), x < 1 := by simp
  iso_mixed (26 + scheme.length + value.length + data.length), 32, hr, [Cat.bdEmsg, Cat.fsEmsg, hf, h1, n1, n2]

/-! Concrete cases. -/

example := visual_iso 1 1920 1080 0x480000 0x480000 1 24 (List.replicate 32 0) (by decide) (by decide) (by decide) (by decide) (by decide) {}
example := audio_iso 1 0 2 16 0 (48000 * 65536) (by decide) (by decide) (by decide) {} (by decide)
example := audio_iso 1 0 2 16 0 (48000 * 65536) (by decide) (by decide) (by decide) { isQuickTimeCompatible := true } (by decide)
example := audio_quicktime 1 1 2 16 65534 (48000 * 65536) (List.replicate 16 7) (by decide) (by decide) (by decide) (by decide)
  { isQuickTimeCompatible := true } (by decide)
example := audio_wave [1, 2, 3] (by decide) { isQuickTimeCompatible := true, underWave := true } (by decide)
example := av1C_iso 0 8 0 0 0 0 1 1 0 1 3 [10, 11] (by decide) (by decide) {}
example := dac3_iso 0 8 0 7 1 15 (by decide) {}
example := vpcC_iso 0 0 0 1 20 8 1 0 2 2 2 [] (by decide) (by decide) (by decide) (by decide) {}
example := dOps_family0 0 2 312 48000 (-256) (by decide) (by decide) (by decide) {}
example := dOps_mapped 0 312 48000 1 1 1 0 [0, 1, 2] (by decide) (by decide) (by decide) (by decide) {}
example := colr_nclx 1 1 1 true (by decide) {}
example := trep_iso 0 0 0 7 (by decide) (by decide) {}
example := fiel_iso 2 9 (by decide) {}
example := pcmC_iso 0 0 0 1 24 (by decide) (by decide) {}
example := urn_iso 0 0 0 [0x61] [0x62, 0x63] (by decide) (by decide) (by decide) (by decide) {}
example := emsg_v0 0 0 0 1000 5 100 1 [0x75, 0x72, 0x6e] [0x31] [1, 0, 2] (by decide) (by decide) (by decide) (by decide) {}
example := emsg_v1 0 0 0 1000 50000000000 100 1 [0x75, 0x72, 0x6e] [] [1, 0, 2] (by decide) (by decide) (by decide) (by decide) {}

end Mp4.Props
