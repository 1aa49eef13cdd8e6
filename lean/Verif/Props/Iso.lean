import Verif.Lemmas.Golden

/-!
# C48: headers in the form of ISO/IEC 14496-12

`Encodes bd ctx sv bits` says that `Marshal` of the Go value `sv` writes exactly `bits` and that `Unmarshal` of `bits` gives
`sv`.  The bits are spelled out here field by field, from the syntax tables of the standard, independently of
the descriptions of the box types in the model (which come from the struct tags of the source).
-/

namespace Mp4.Props

open Mp4 Mp4.Spec

/-- movie header, version 0 (8.2.2) -/
theorem mvhd_v0 (f0 f1 f2 creation modification timescale duration nextTrack : Nat) (rate volume : Int) (matrix : List Int)
    (hf : f0 < 256 ∧ f1 < 256 ∧ f2 < 256) (h1 : creation < 2 ^ 32) (h2 : modification < 2 ^ 32) (h3 : timescale < 2 ^ 32)
    (h4 : duration < 2 ^ 32) (h5 : IsInt 32 rate) (h6 : IsInt 16 volume) (h7 : matrix.length = 9) (h8 : ∀ x ∈ matrix, IsInt 32 x)
    (h9 : nextTrack < 2 ^ 32) (ctx : Ctx) :
    Encodes Cat.bdMvhd ctx
      [fullBox 0 f0 f1 f2, ("CreationTimeV0", .uint creation), ("ModificationTimeV0", .uint modification),
       ("CreationTimeV1", .uint 0), ("ModificationTimeV1", .uint 0), ("Timescale", .uint timescale),
       ("DurationV0", .uint duration), ("DurationV1", .uint 0), ("Rate", .int rate), ("Volume", .int volume),
       ("Reserved", .int 0), ("Reserved2", .arr [.uint 0, .uint 0]), ("Matrix", .arr (matrix.map .int)),
       ("PreDefined", .arr [.int 0, .int 0, .int 0, .int 0, .int 0, .int 0]), ("NextTrackID", .uint nextTrack)]
      (verFlags 0 f0 f1 f2 ++
       ints [(32, creation), (32, modification), (32, timescale), (32, duration)] ++ sint 32 rate ++ sint 16 volume ++
       ints [(16, 0), (32, 0), (32, 0)] ++ matrix.flatMap (sint 32) ++
       ints [(32, 0), (32, 0), (32, 0), (32, 0), (32, 0), (32, 0), (32, nextTrack)]) := by
  match matrix, h7 with
  | [m0, m1, m2, m3, m4, m5, m6, m7, m8], _ =>
  simp [IsInt] at hf h1 h2 h3 h4 h5 h6 h8 h9
  iso_box 100, [Cat.bdMvhd, Cat.fsMvhd, hf, h1, h2, h3, h4, h5, h6, h8, h9]

/-- movie header, version 1 -/
theorem mvhd_v1 (f0 f1 f2 creation modification timescale duration nextTrack : Nat) (rate volume : Int) (matrix : List Int)
    (hf : f0 < 256 ∧ f1 < 256 ∧ f2 < 256) (h1 : creation < 2 ^ 64) (h2 : modification < 2 ^ 64) (h3 : timescale < 2 ^ 32)
    (h4 : duration < 2 ^ 64) (h5 : IsInt 32 rate) (h6 : IsInt 16 volume) (h7 : matrix.length = 9) (h8 : ∀ x ∈ matrix, IsInt 32 x)
    (h9 : nextTrack < 2 ^ 32) (ctx : Ctx) :
    Encodes Cat.bdMvhd ctx
      [fullBox 1 f0 f1 f2, ("CreationTimeV0", .uint 0), ("ModificationTimeV0", .uint 0),
       ("CreationTimeV1", .uint creation), ("ModificationTimeV1", .uint modification), ("Timescale", .uint timescale),
       ("DurationV0", .uint 0), ("DurationV1", .uint duration), ("Rate", .int rate), ("Volume", .int volume),
       ("Reserved", .int 0), ("Reserved2", .arr [.uint 0, .uint 0]), ("Matrix", .arr (matrix.map .int)),
       ("PreDefined", .arr [.int 0, .int 0, .int 0, .int 0, .int 0, .int 0]), ("NextTrackID", .uint nextTrack)]
      (verFlags 1 f0 f1 f2 ++
       ints [(64, creation), (64, modification), (32, timescale), (64, duration)] ++ sint 32 rate ++ sint 16 volume ++
       ints [(16, 0), (32, 0), (32, 0)] ++ matrix.flatMap (sint 32) ++
       ints [(32, 0), (32, 0), (32, 0), (32, 0), (32, 0), (32, 0), (32, nextTrack)]) := by
  match matrix, h7 with
  | [m0, m1, m2, m3, m4, m5, m6, m7, m8], _ =>
  simp [IsInt] at hf h1 h2 h3 h4 h5 h6 h8 h9
  iso_box 112, [Cat.bdMvhd, Cat.fsMvhd, hf, h1, h2, h3, h4, h5, h6, h8, h9]

/-- track header, version 0 (8.3.2) -/
theorem tkhd_v0 (f0 f1 f2 creation modification track duration width height : Nat) (layer group volume : Int) (matrix : List Int)
    (hf : f0 < 256 ∧ f1 < 256 ∧ f2 < 256) (h1 : creation < 2 ^ 32) (h2 : modification < 2 ^ 32) (h3 : track < 2 ^ 32)
    (h4 : duration < 2 ^ 32) (h5 : IsInt 16 layer ∧ IsInt 16 group ∧ IsInt 16 volume) (h7 : matrix.length = 9)
    (h8 : ∀ x ∈ matrix, IsInt 32 x) (h9 : width < 2 ^ 32) (h10 : height < 2 ^ 32) (ctx : Ctx) :
    Encodes Cat.bdTkhd ctx
      [fullBox 0 f0 f1 f2, ("CreationTimeV0", .uint creation), ("ModificationTimeV0", .uint modification),
       ("CreationTimeV1", .uint 0), ("ModificationTimeV1", .uint 0), ("TrackID", .uint track), ("Reserved0", .uint 0),
       ("DurationV0", .uint duration), ("DurationV1", .uint 0), ("Reserved1", .arr [.uint 0, .uint 0]),
       ("Layer", .int layer), ("AlternateGroup", .int group), ("Volume", .int volume), ("Reserved2", .uint 0),
       ("Matrix", .arr (matrix.map .int)), ("Width", .uint width), ("Height", .uint height)]
      (verFlags 0 f0 f1 f2 ++
       ints [(32, creation), (32, modification), (32, track), (32, 0), (32, duration), (32, 0), (32, 0)] ++
       sint 16 layer ++ sint 16 group ++ sint 16 volume ++ ints [(16, 0)] ++ matrix.flatMap (sint 32) ++
       ints [(32, width), (32, height)]) := by
  match matrix, h7 with
  | [m0, m1, m2, m3, m4, m5, m6, m7, m8], _ =>
  simp [IsInt] at hf h1 h2 h3 h4 h5 h8 h9 h10
  iso_box 84, [Cat.bdTkhd, Cat.fsTkhd, hf, h1, h2, h3, h4, h5, h8, h9, h10]

/-- track header, version 1 -/
theorem tkhd_v1 (f0 f1 f2 creation modification track duration width height : Nat) (layer group volume : Int) (matrix : List Int)
    (hf : f0 < 256 ∧ f1 < 256 ∧ f2 < 256) (h1 : creation < 2 ^ 64) (h2 : modification < 2 ^ 64) (h3 : track < 2 ^ 32)
    (h4 : duration < 2 ^ 64) (h5 : IsInt 16 layer ∧ IsInt 16 group ∧ IsInt 16 volume) (h7 : matrix.length = 9)
    (h8 : ∀ x ∈ matrix, IsInt 32 x) (h9 : width < 2 ^ 32) (h10 : height < 2 ^ 32) (ctx : Ctx) :
    Encodes Cat.bdTkhd ctx
      [fullBox 1 f0 f1 f2, ("CreationTimeV0", .uint 0), ("ModificationTimeV0", .uint 0),
       ("CreationTimeV1", .uint creation), ("ModificationTimeV1", .uint modification), ("TrackID", .uint track),
       ("Reserved0", .uint 0), ("DurationV0", .uint 0), ("DurationV1", .uint duration), ("Reserved1", .arr [.uint 0, .uint 0]),
       ("Layer", .int layer), ("AlternateGroup", .int group), ("Volume", .int volume), ("Reserved2", .uint 0),
       ("Matrix", .arr (matrix.map .int)), ("Width", .uint width), ("Height", .uint height)]
      (verFlags 1 f0 f1 f2 ++
       ints [(64, creation), (64, modification), (32, track), (32, 0), (64, duration), (32, 0), (32, 0)] ++
       sint 16 layer ++ sint 16 group ++ sint 16 volume ++ ints [(16, 0)] ++ matrix.flatMap (sint 32) ++
       ints [(32, width), (32, height)]) := by
  match matrix, h7 with
  | [m0, m1, m2, m3, m4, m5, m6, m7, m8], _ =>
  simp [IsInt] at hf h1 h2 h3 h4 h5 h8 h9 h10
  iso_box 96, [Cat.bdTkhd, Cat.fsTkhd, hf, h1, h2, h3, h4, h5, h8, h9, h10]

/-- media header, version 0 (8.4.2); the language is three five-bit letters -/
theorem mdhd_v0 (f0 f1 f2 creation modification timescale duration l0 l1 l2 preDefined : Nat)
    (hf : f0 < 256 ∧ f1 < 256 ∧ f2 < 256) (h1 : creation < 2 ^ 32) (h2 : modification < 2 ^ 32) (h3 : timescale < 2 ^ 32)
    (h4 : duration < 2 ^ 32) (h5 : l0 < 32 ∧ l1 < 32 ∧ l2 < 32) (h6 : preDefined < 2 ^ 16) (ctx : Ctx) :
    Encodes Cat.bdMdhd ctx
      [fullBox 0 f0 f1 f2, ("CreationTimeV0", .uint creation), ("ModificationTimeV0", .uint modification),
       ("CreationTimeV1", .uint 0), ("ModificationTimeV1", .uint 0), ("Timescale", .uint timescale),
       ("DurationV0", .uint duration), ("DurationV1", .uint 0), ("Pad", .bool false),
       ("Language", .arr [.uint l0, .uint l1, .uint l2]), ("PreDefined", .uint preDefined)]
      (verFlags 0 f0 f1 f2 ++
       ints [(32, creation), (32, modification), (32, timescale), (32, duration), (1, 0), (5, l0), (5, l1), (5, l2),
         (16, preDefined)]) := by
  simp at hf h1 h2 h3 h4 h5 h6
  have : l0 < 256 ∧ l1 < 256 ∧ l2 < 256 := by omega
  iso_box 24, [Cat.bdMdhd, Cat.fsMdhd, hf, h1, h2, h3, h4, h5, h6, this, natBits]

/-- media header, version 1 -/
theorem mdhd_v1 (f0 f1 f2 creation modification timescale duration l0 l1 l2 preDefined : Nat)
    (hf : f0 < 256 ∧ f1 < 256 ∧ f2 < 256) (h1 : creation < 2 ^ 64) (h2 : modification < 2 ^ 64) (h3 : timescale < 2 ^ 32)
    (h4 : duration < 2 ^ 64) (h5 : l0 < 32 ∧ l1 < 32 ∧ l2 < 32) (h6 : preDefined < 2 ^ 16) (ctx : Ctx) :
    Encodes Cat.bdMdhd ctx
      [fullBox 1 f0 f1 f2, ("CreationTimeV0", .uint 0), ("ModificationTimeV0", .uint 0),
       ("CreationTimeV1", .uint creation), ("ModificationTimeV1", .uint modification), ("Timescale", .uint timescale),
       ("DurationV0", .uint 0), ("DurationV1", .uint duration), ("Pad", .bool false),
       ("Language", .arr [.uint l0, .uint l1, .uint l2]), ("PreDefined", .uint preDefined)]
      (verFlags 1 f0 f1 f2 ++
       ints [(64, creation), (64, modification), (32, timescale), (64, duration), (1, 0), (5, l0), (5, l1), (5, l2),
         (16, preDefined)]) := by
  simp at hf h1 h2 h3 h4 h5 h6
  have : l0 < 256 ∧ l1 < 256 ∧ l2 < 256 := by omega
  iso_box 36, [Cat.bdMdhd, Cat.fsMdhd, hf, h1, h2, h3, h4, h5, h6, this, natBits]

/-- movie extends header, version 0 (8.8.2) -/
theorem mehd_v0 (f0 f1 f2 duration : Nat) (hf : f0 < 256 ∧ f1 < 256 ∧ f2 < 256) (h1 : duration < 2 ^ 32) (ctx : Ctx) :
    Encodes Cat.bdMehd ctx
      [fullBox 0 f0 f1 f2, ("FragmentDurationV0", .uint duration), ("FragmentDurationV1", .uint 0)]
      (verFlags 0 f0 f1 f2 ++ ints [(32, duration)]) := by
  simp at hf h1
  iso_box 8, [Cat.bdMehd, Cat.fsMehd, hf, h1]

/-- movie extends header, version 1 -/
theorem mehd_v1 (f0 f1 f2 duration : Nat) (hf : f0 < 256 ∧ f1 < 256 ∧ f2 < 256) (h1 : duration < 2 ^ 64) (ctx : Ctx) :
    Encodes Cat.bdMehd ctx
      [fullBox 1 f0 f1 f2, ("FragmentDurationV0", .uint 0), ("FragmentDurationV1", .uint duration)]
      (verFlags 1 f0 f1 f2 ++ ints [(64, duration)]) := by
  simp at hf h1
  iso_box 12, [Cat.bdMehd, Cat.fsMehd, hf, h1]

/-- track extends defaults (8.8.3) -/
theorem trex_v0 (f0 f1 f2 track index duration size flags : Nat) (hf : f0 < 256 ∧ f1 < 256 ∧ f2 < 256) (h1 : track < 2 ^ 32)
    (h2 : index < 2 ^ 32) (h3 : duration < 2 ^ 32) (h4 : size < 2 ^ 32) (h5 : flags < 2 ^ 32) (ctx : Ctx) :
    Encodes Cat.bdTrex ctx
      [fullBox 0 f0 f1 f2, ("TrackID", .uint track), ("DefaultSampleDescriptionIndex", .uint index),
       ("DefaultSampleDuration", .uint duration), ("DefaultSampleSize", .uint size), ("DefaultSampleFlags", .uint flags)]
      (verFlags 0 f0 f1 f2 ++ ints [(32, track), (32, index), (32, duration), (32, size), (32, flags)]) := by
  simp at hf h1 h2 h3 h4 h5
  iso_box 24, [Cat.bdTrex, Cat.fsTrex, hf, h1, h2, h3, h4, h5]

/-- movie fragment header (8.8.5) -/
theorem mfhd_v0 (f0 f1 f2 number : Nat) (hf : f0 < 256 ∧ f1 < 256 ∧ f2 < 256) (h1 : number < 2 ^ 32) (ctx : Ctx) :
    Encodes Cat.bdMfhd ctx [fullBox 0 f0 f1 f2, ("SequenceNumber", .uint number)]
      (verFlags 0 f0 f1 f2 ++ ints [(32, number)]) := by
  simp at hf h1
  iso_box 8, [Cat.bdMfhd, Cat.fsMfhd, hf, h1]

/-- movie fragment random access offset (8.8.11) -/
theorem mfro_v0 (f0 f1 f2 size : Nat) (hf : f0 < 256 ∧ f1 < 256 ∧ f2 < 256) (h1 : size < 2 ^ 32) (ctx : Ctx) :
    Encodes Cat.bdMfro ctx [fullBox 0 f0 f1 f2, ("Size", .uint size)]
      (verFlags 0 f0 f1 f2 ++ ints [(32, size)]) := by
  simp at hf h1
  iso_box 8, [Cat.bdMfro, Cat.fsMfro, hf, h1]

/-- track fragment decode time, version 0 (8.8.12) -/
theorem tfdt_v0 (f0 f1 f2 time : Nat) (hf : f0 < 256 ∧ f1 < 256 ∧ f2 < 256) (h1 : time < 2 ^ 32) (ctx : Ctx) :
    Encodes Cat.bdTfdt ctx
      [fullBox 0 f0 f1 f2, ("BaseMediaDecodeTimeV0", .uint time), ("BaseMediaDecodeTimeV1", .uint 0)]
      (verFlags 0 f0 f1 f2 ++ ints [(32, time)]) := by
  simp at hf h1
  iso_box 8, [Cat.bdTfdt, Cat.fsTfdt, hf, h1]

/-- track fragment decode time, version 1 -/
theorem tfdt_v1 (f0 f1 f2 time : Nat) (hf : f0 < 256 ∧ f1 < 256 ∧ f2 < 256) (h1 : time < 2 ^ 64) (ctx : Ctx) :
    Encodes Cat.bdTfdt ctx
      [fullBox 1 f0 f1 f2, ("BaseMediaDecodeTimeV0", .uint 0), ("BaseMediaDecodeTimeV1", .uint time)]
      (verFlags 1 f0 f1 f2 ++ ints [(64, time)]) := by
  simp at hf h1
  iso_box 12, [Cat.bdTfdt, Cat.fsTfdt, hf, h1]

/-- video media header (12.1.2) -/
theorem vmhd_v0 (f0 f1 f2 mode r g b : Nat) (hf : f0 < 256 ∧ f1 < 256 ∧ f2 < 256)
    (h1 : mode < 2 ^ 16 ∧ r < 2 ^ 16 ∧ g < 2 ^ 16 ∧ b < 2 ^ 16) (ctx : Ctx) :
    Encodes Cat.bdVmhd ctx
      [fullBox 0 f0 f1 f2, ("Graphicsmode", .uint mode), ("Opcolor", .arr [.uint r, .uint g, .uint b])]
      (verFlags 0 f0 f1 f2 ++ ints [(16, mode), (16, r), (16, g), (16, b)]) := by
  simp at hf h1
  iso_box 12, [Cat.bdVmhd, Cat.fsVmhd, hf, h1]

/-- sound media header (12.2.2) -/
theorem smhd_v0 (f0 f1 f2 : Nat) (balance : Int) (hf : f0 < 256 ∧ f1 < 256 ∧ f2 < 256) (h1 : IsInt 16 balance) (ctx : Ctx) :
    Encodes Cat.bdSmhd ctx
      [fullBox 0 f0 f1 f2, ("Balance", .int balance), ("Reserved", .uint 0)]
      (verFlags 0 f0 f1 f2 ++ sint 16 balance ++ ints [(16, 0)]) := by
  simp [IsInt] at hf h1
  iso_box 8, [Cat.bdSmhd, Cat.fsSmhd, hf, h1]

/-- bit rate (8.5.2) -/
theorem btrt_iso (buffer max avg : Nat) (h : buffer < 2 ^ 32 ∧ max < 2 ^ 32 ∧ avg < 2 ^ 32) (ctx : Ctx) :
    Encodes Cat.bdBtrt ctx [("BufferSizeDB", .uint buffer), ("MaxBitrate", .uint max), ("AvgBitrate", .uint avg)]
      (ints [(32, buffer), (32, max), (32, avg)]) := by
  simp at h
  iso_box 12, [Cat.bdBtrt, Cat.fsBtrt, h]

/-- pixel aspect ratio (12.1.4) -/
theorem pasp_iso (h v : Nat) (hh : h < 2 ^ 32) (hv : v < 2 ^ 32) (ctx : Ctx) :
    Encodes Cat.bdPixelAspectRatioBox ctx [("HSpacing", .uint h), ("VSpacing", .uint v)] (ints [(32, h), (32, v)]) := by
  simp at hh hv
  iso_box 8, [Cat.bdPixelAspectRatioBox, Cat.fsPixelAspectRatioBox, hh, hv]

/-! A concrete case of each of the theorems above. -/

example := mvhd_v0 0 0 0 3791000000 3791000000 1000 90500 3 65536 256 [65536, 0, 0, 0, 65536, 0, 0, 0, 1073741824] (by decide) (by decide) (by decide) (by decide) (by decide) (by decide) (by decide) rfl (by decide) (by decide) {}
example := mvhd_v1 0 0 0 13791000000 13791000000 1000 90500 3 65536 256 [65536, 0, 0, 0, 65536, 0, 0, 0, 1073741824] (by decide) (by decide) (by decide) (by decide) (by decide) (by decide) (by decide) rfl (by decide) (by decide) {}
example := tkhd_v0 0 0 7 3791000000 3791000000 1 90500 83886080 47185920 (-1) 0 256 [65536, 0, 0, 0, 65536, 0, 0, 0, 1073741824] (by decide) (by decide) (by decide) (by decide) (by decide) (by decide) rfl (by decide) (by decide) (by decide) {}
example := tkhd_v1 0 0 7 13791000000 13791000000 1 90500 83886080 47185920 (-1) 0 256 [65536, 0, 0, 0, 65536, 0, 0, 0, 1073741824] (by decide) (by decide) (by decide) (by decide) (by decide) (by decide) rfl (by decide) (by decide) (by decide) {}
example := mdhd_v0 0 0 0 3791000000 3791000000 48000 4344000 21 14 4 0 (by decide) (by decide) (by decide) (by decide) (by decide) (by decide) (by decide) {}
example := mdhd_v1 0 0 0 13791000000 13791000000 48000 4344000 21 14 4 0 (by decide) (by decide) (by decide) (by decide) (by decide) (by decide) (by decide) {}
example := mehd_v0 0 0 0 90500 (by decide) (by decide) {}
example := mehd_v1 0 0 0 90000000500 (by decide) (by decide) {}
example := trex_v0 0 0 0 1 1 1024 0 33554432 (by decide) (by decide) (by decide) (by decide) (by decide) (by decide) {}
example := mfhd_v0 0 0 0 17 (by decide) (by decide) {}
example := mfro_v0 0 0 0 340 (by decide) (by decide) {}
example := tfdt_v0 0 0 0 96000 (by decide) (by decide) {}
example := tfdt_v1 0 0 0 96000000000 (by decide) (by decide) {}
example := vmhd_v0 0 0 1 0 65535 32768 1 (by decide) (by decide) {}
example := smhd_v0 0 0 0 (-256) (by decide) (by decide) {}
example := btrt_iso 1 2000000 1500000 (by decide) {}
example := pasp_iso 4 3 (by decide) (by decide) {}

end Mp4.Props
