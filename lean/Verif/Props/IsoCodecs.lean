import Verif.Props.IsoEntries

/-!
# C48: configuration records with lists of NAL units

`avcC` and `hvcC` of ISO/IEC 14496-15.
-/

namespace Mp4.Props

open Mp4 Mp4.Spec

theorem fitsList_var {ok : Val → Nat → Bool} {bits : Val → List Bool} : ∀ (l : List Val) (left : Nat), left % 8 = 0 →
    (∀ x ∈ l, (bits x).length % 8 = 0 ∧ ∀ j, (bits x).length ≤ j → j % 8 = 0 → ok x j = true) → (l.flatMap bits).length ≤ left →
    fitsList ok bits l left = true
  | [], _, _, _, _ => rfl
  | v :: vs, left, hl8, h, hl => by
    have h1 := h v List.mem_cons_self
    rw [List.flatMap_cons, List.length_append] at hl
    simp only [fitsList, Bool.and_eq_true, decide_eq_true_eq]
    exact ⟨⟨h1.2 left (by omega) hl8, by omega⟩,
      fitsList_var vs _ (by omega) (fun x hx => h x (List.mem_cons_of_mem _ hx)) (by omega)⟩

/-- a counted list of elements of different sizes -/
theorem fitsV_var {α : Type} (e : Env) (fi : Field) (left : Nat) (t : Ty) (g : α → Val) (l : List α) (hl : fi.length ≠ lengthUnlimited)
    (hn : fi.length = l.length) (hl8 : left % 8 = 0) (h : (l.flatMap fun x => layoutV e t fi (g x)).length ≤ left)
    (hx : ∀ x ∈ l, (layoutV e t fi (g x)).length % 8 = 0 ∧
      ∀ j, (layoutV e t fi (g x)).length ≤ j → j % 8 = 0 → fitsV e t fi (g x) j = true) :
    fitsV e (.slice t) fi (.slice (l.map g)) left = true := by
  rw [fitsV]
  simp only [Bool.and_eq_true]
  rw [if_neg hl]
  refine ⟨fitsList_var (l.map g) left hl8 (fun x hm => ?_) (by simpa [List.flatMap_map] using h), by simp [hn]⟩
  obtain ⟨y, hy, rfl⟩ := List.mem_map.1 hm
  exact hx y hy

/-- A NAL unit with its length in 16 bits. -/
def unitBits (u : Bytes) : List Bool := natBits 16 u.length ++ bytesBits u
/-- A NAL unit as the Go struct `AVCParameterSet` or `HEVCNalu`. -/
def goUnit (u : Bytes) : Val := .struct [("Length", .uint u.length), ("NALUnit", .slice (goBytes u))]
/-- The bytes of some NAL units with their lengths. -/
def unitsLen (l : List Bytes) : Nat := (l.map fun u => 2 + u.length).sum

theorem length_units (l : List Bytes) : (l.flatMap unitBits).length = 8 * unitsLen l := by
  induction l with
  | nil => rfl
  | cons u l ih => simp [unitBits, unitsLen] at ih ⊢; omega

theorem layout_avcUnit (e : Env) (fi : Field) (u : Bytes) : layoutV e Cat.tyAVCParameterSet fi (goUnit u) = unitBits u := by
  simp only [goUnit, Cat.tyAVCParameterSet]
  layout_tac [Cat.fsAVCParameterSet, cfoAVCParameterSet, Cfo.counted0, layout_goBytesN, unitBits]

theorem layout_hevcUnit (e : Env) (fi : Field) (u : Bytes) : layoutV e Cat.tyHEVCNalu fi (goUnit u) = unitBits u := by
  simp only [goUnit, Cat.tyHEVCNalu]
  layout_tac [Cat.fsHEVCNalu, cfoHEVCNalu, Cfo.counted0, layout_goBytesN, unitBits]

theorem fits_avcUnit (e : Env) (fi : Field) (hs : fi.size = 0) (u : Bytes) (hu : u.length < 65536) (j : Nat) (hj : (unitBits u).length ≤ j) :
    fitsV e Cat.tyAVCParameterSet fi (goUnit u) j = true := by
  simp only [unitBits, List.length_append, natBits_length, bytesBits_length] at hj
  simp only [goUnit, Cat.tyAVCParameterSet]
  fits_tac [Cat.fsAVCParameterSet, cfoAVCParameterSet, Cfo.counted0, layout_goBytesN, hs, hu]
  fits_close

theorem fits_hevcUnit (e : Env) (fi : Field) (hs : fi.size = 0) (u : Bytes) (hu : u.length < 65536) (j : Nat) (hj : (unitBits u).length ≤ j) :
    fitsV e Cat.tyHEVCNalu fi (goUnit u) j = true := by
  simp only [unitBits, List.length_append, natBits_length, bytesBits_length] at hj
  simp only [goUnit, Cat.tyHEVCNalu]
  fits_tac [Cat.fsHEVCNalu, cfoHEVCNalu, Cfo.counted0, layout_goBytesN, hs, hu]
  fits_close

theorem fits_avcUnits (e : Env) (fi : Field) (hs : fi.size = 0) (l : List Bytes) (hl : fi.length = l.length) (hc : l.length < 65536)
    (hu : ∀ u ∈ l, u.length < 65536) (left : Nat) (h8 : left % 8 = 0) (h : 8 * unitsLen l ≤ left) :
    fitsV e (.slice Cat.tyAVCParameterSet) fi (.slice (l.map goUnit)) left = true := by
  refine fitsV_var e fi left _ goUnit l (by simp [lengthUnlimited]; omega) hl h8 ?_ fun u hm => ?_
  · simp only [layout_avcUnit, length_units]; exact h
  · rw [layout_avcUnit]
    exact ⟨by simp [unitBits], fun j hj _ => fits_avcUnit e fi hs u (hu u hm) j hj⟩

theorem fits_hevcUnits (e : Env) (fi : Field) (hs : fi.size = 0) (l : List Bytes) (hl : fi.length = l.length) (hc : l.length < 65536)
    (hu : ∀ u ∈ l, u.length < 65536) (left : Nat) (h8 : left % 8 = 0) (h : 8 * unitsLen l ≤ left) :
    fitsV e (.slice Cat.tyHEVCNalu) fi (.slice (l.map goUnit)) left = true := by
  refine fitsV_var e fi left _ goUnit l (by simp [lengthUnlimited]; omega) hl h8 ?_ fun u hm => ?_
  · simp only [layout_hevcUnit, length_units]; exact h
  · rw [layout_hevcUnit]
    exact ⟨by simp [unitBits], fun j hj _ => fits_hevcUnit e fi hs u (hu u hm) j hj⟩

theorem unitsLen_lt (l : List Bytes) (n : Nat) (hc : l.length ≤ n) (hu : ∀ u ∈ l, u.length < 65536) : unitsLen l ≤ 65537 * n := by
  induction l generalizing n with
  | nil => simp [unitsLen]
  | cons u l ih =>
    have h1 := hu u List.mem_cons_self
    have h2 := ih (n - 1) (by simp at hc; omega) fun v hv => hu v (List.mem_cons_of_mem _ hv)
    simp [unitsLen] at hc h2 ⊢
    omega

/-- Is this a profile with the additional fields? -/
def HighProfile (profile : Nat) : Prop := profile = 100 ∨ profile = 110 ∨ profile = 122 ∨ profile = 144

instance (profile : Nat) : Decidable (HighProfile profile) := inferInstanceAs (Decidable (_ ∨ _))

/-- conditions on lists of parameter sets -/
macro "units_close" hs:term "," hq:term : tactic => `(tactic|
  ((repeat' apply And.intro) <;> first
    | omega
    | (refine fits_avcUnits _ _ rfl _ rfl (by omega) ($hs).2 _ (by omega) (by omega))
    | (refine fits_avcUnits _ _ rfl _ rfl (by omega) ($hq).2 _ (by omega) (by omega))
    | (refine fits_avcUnits _ _ rfl _ rfl (by omega) (by simp_all) _ (by omega) (by omega))))

/-- conditions on lists of NAL units -/
macro "hevc_close" hs:term : tactic => `(tactic|
  ((repeat' apply And.intro) <;> first
    | omega
    | (refine fits_hevcUnits _ _ rfl _ rfl (by omega) ($hs).2 _ (by omega) (by omega))))

/-- AVC decoder configuration (5.3.3.1) without the additional fields -/
theorem avcC_iso (version profile compatibility level size : Nat) (sps pps : List Bytes)
    (h1 : version < 256 ∧ profile < 256 ∧ compatibility < 256 ∧ level < 256 ∧ size < 4) (hp : ¬ HighProfile profile)
    (hs : sps.length < 32 ∧ ∀ u ∈ sps, u.length < 65536) (hq : pps.length < 256 ∧ ∀ u ∈ pps, u.length < 65536) (ctx : Ctx) :
    Encodes Cat.bdAVCDecoderConfiguration ctx
      [("ConfigurationVersion", .uint version), ("Profile", .uint profile), ("ProfileCompatibility", .uint compatibility),
       ("Level", .uint level), ("Reserved", .uint 63), ("LengthSizeMinusOne", .uint size), ("Reserved2", .uint 7),
       ("NumOfSequenceParameterSets", .uint sps.length), ("SequenceParameterSets", .slice (sps.map goUnit)),
       ("NumOfPictureParameterSets", .uint pps.length), ("PictureParameterSets", .slice (pps.map goUnit)),
       ("HighProfileFieldsEnabled", .bool false), ("Reserved3", .uint 0), ("ChromaFormat", .uint 0), ("Reserved4", .uint 0),
       ("BitDepthLumaMinus8", .uint 0), ("Reserved5", .uint 0), ("BitDepthChromaMinus8", .uint 0),
       ("NumOfSequenceParameterSetExt", .uint 0), ("SequenceParameterSetsExt", .slice [])]
      (ints [(8, version), (8, profile), (8, compatibility), (8, level), (6, 63), (2, size), (3, 7), (5, sps.length)] ++
        sps.flatMap unitBits ++ ints [(8, pps.length)] ++ pps.flatMap unitBits) := by
  have l1 := unitsLen_lt sps 32 (by omega) hs.2
  have l2 := unitsLen_lt pps 256 (by omega) hq.2
  have hp' : highProfile profile = false := by simpa [HighProfile, highProfile] using hp
  refine encodes_intro (7 + unitsLen sps + unitsLen pps) (by simp [Cat.allDefs]) ?_ rfl ?_ (by omega) ?_ rfl rfl
  · layout_tac [Cat.bdAVCDecoderConfiguration, Cat.fsAVCDecoderConfiguration, cfoAVCDecoderConfiguration, layout_avcUnit, ints,
      SV.bool]
  · simp [ints, -List.length_flatMap, length_units]; omega
  · fits_tac [Cat.bdAVCDecoderConfiguration, Cat.fsAVCDecoderConfiguration, cfoAVCDecoderConfiguration, layout_avcUnit, h1, SV.bool,
      isBool, hp', ← List.length_flatMap, length_units]
    units_close hs, hq

set_option maxHeartbeats 1000000 in
/-- AVC decoder configuration with the additional fields of the high profiles -/
theorem avcC_high (version profile compatibility level size chroma luma chromaDepth : Nat) (sps pps ext : List Bytes)
    (h1 : version < 256 ∧ profile < 256 ∧ compatibility < 256 ∧ level < 256 ∧ size < 4) (hp : HighProfile profile)
    (h2 : chroma < 4 ∧ luma < 8 ∧ chromaDepth < 8)
    (hs : sps.length < 32 ∧ ∀ u ∈ sps, u.length < 65536) (hq : pps.length < 256 ∧ ∀ u ∈ pps, u.length < 65536)
    (he : ext.length < 256 ∧ ∀ u ∈ ext, u.length < 65536) (ctx : Ctx) :
    Encodes Cat.bdAVCDecoderConfiguration ctx
      [("ConfigurationVersion", .uint version), ("Profile", .uint profile), ("ProfileCompatibility", .uint compatibility),
       ("Level", .uint level), ("Reserved", .uint 63), ("LengthSizeMinusOne", .uint size), ("Reserved2", .uint 7),
       ("NumOfSequenceParameterSets", .uint sps.length), ("SequenceParameterSets", .slice (sps.map goUnit)),
       ("NumOfPictureParameterSets", .uint pps.length), ("PictureParameterSets", .slice (pps.map goUnit)),
       ("HighProfileFieldsEnabled", .bool true), ("Reserved3", .uint 63), ("ChromaFormat", .uint chroma), ("Reserved4", .uint 31),
       ("BitDepthLumaMinus8", .uint luma), ("Reserved5", .uint 31), ("BitDepthChromaMinus8", .uint chromaDepth),
       ("NumOfSequenceParameterSetExt", .uint ext.length), ("SequenceParameterSetsExt", .slice (ext.map goUnit))]
      (ints [(8, version), (8, profile), (8, compatibility), (8, level), (6, 63), (2, size), (3, 7), (5, sps.length)] ++
        sps.flatMap unitBits ++ ints [(8, pps.length)] ++ pps.flatMap unitBits ++
        ints [(6, 63), (2, chroma), (5, 31), (3, luma), (5, 31), (3, chromaDepth), (8, ext.length)] ++ ext.flatMap unitBits) := by
  have l1 := unitsLen_lt sps 32 (by omega) hs.2
  have l2 := unitsLen_lt pps 256 (by omega) hq.2
  have l3 := unitsLen_lt ext 256 (by omega) he.2
  have hp' : highProfile profile = true := by simpa [HighProfile, highProfile] using hp
  refine encodes_intro (11 + unitsLen sps + unitsLen pps + unitsLen ext) (by simp [Cat.allDefs]) ?_ rfl ?_ (by omega) ?_ rfl rfl
  · layout_tac [Cat.bdAVCDecoderConfiguration, Cat.fsAVCDecoderConfiguration, cfoAVCDecoderConfiguration, layout_avcUnit, ints,
      SV.bool, avccOptNames]
  · simp [ints, -List.length_flatMap, length_units]; omega
  · fits_tac [Cat.bdAVCDecoderConfiguration, Cat.fsAVCDecoderConfiguration, cfoAVCDecoderConfiguration, layout_avcUnit, h1, h2, SV.bool,
      isBool, hp', ← List.length_flatMap, length_units, avccOptNames]
    units_close hs, he

/-- An array of NAL units of one type. -/
structure Nalus where
  completeness : Bool
  reserved : Bool
  type : Nat
  units : List Bytes

/-- The bits of an array of NAL units (8.3.3.1.2). -/
def Nalus.bits (a : Nalus) : List Bool :=
  [a.completeness, a.reserved] ++ ints [(6, a.type), (16, a.units.length)] ++ a.units.flatMap unitBits
/-- An array of NAL units as the Go struct `HEVCNaluArray`. -/
def Nalus.go (a : Nalus) : Val :=
  .struct [("Completeness", .bool a.completeness), ("Reserved", .bool a.reserved), ("NaluType", .uint a.type),
    ("NumNalus", .uint a.units.length), ("Nalus", .slice (a.units.map goUnit))]
/-- The fields of the array fit their widths. -/
def Nalus.Fits (a : Nalus) : Prop := a.type < 64 ∧ a.units.length < 65536 ∧ ∀ u ∈ a.units, u.length < 65536

instance (a : Nalus) : Decidable a.Fits := inferInstanceAs (Decidable (_ ∧ _))

/-- The bytes of some arrays. -/
def arraysLen (l : List Nalus) : Nat := (l.map fun a => 3 + unitsLen a.units).sum

theorem length_array (a : Nalus) : a.bits.length = 8 * (3 + unitsLen a.units) := by
  simp [Nalus.bits, ints, -List.length_flatMap, length_units]; omega

theorem length_arrays (l : List Nalus) : (l.flatMap Nalus.bits).length = 8 * arraysLen l := by
  induction l with
  | nil => rfl
  | cons a l ih => 
    have := length_array a
    simp [arraysLen, -List.length_flatMap] at ih ⊢; omega

theorem arraysLen_lt (l : List Nalus) (n : Nat) (hc : l.length ≤ n) (hu : ∀ a ∈ l, a.Fits) : arraysLen l ≤ 2 ^ 33 * n := by
  induction l generalizing n with
  | nil => simp [arraysLen]
  | cons u l ih =>
    have h1 := hu u List.mem_cons_self
    have h3 := unitsLen_lt u.units 65536 (by have := h1.2.1; omega) h1.2.2
    have h2 := ih (n - 1) (by simp at hc; omega) fun v hv => hu v (List.mem_cons_of_mem _ hv)
    simp [arraysLen] at hc h2 ⊢
    omega

theorem layout_array (e : Env) (fi : Field) (a : Nalus) : layoutV e Cat.tyHEVCNaluArray fi a.go = a.bits := by
  simp only [Nalus.go, Cat.tyHEVCNaluArray]
  layout_tac [Cat.fsHEVCNaluArray, cfoHEVCNaluArray, Cfo.counted0, layout_hevcUnit, Nalus.bits, ints]

theorem fits_array (e : Env) (fi : Field) (hs : fi.size = 0) (a : Nalus) (ha : a.Fits) (j : Nat) (h8 : j % 8 = 0) (hj : a.bits.length ≤ j) :
    fitsV e Cat.tyHEVCNaluArray fi a.go j = true := by
  rw [length_array] at hj
  have h1 := ha.1
  have h2 := ha.2.1
  have h3 := ha.2
  simp only [Nalus.go, Cat.tyHEVCNaluArray]
  fits_tac [Cat.fsHEVCNaluArray, cfoHEVCNaluArray, Cfo.counted0, layout_hevcUnit, ← List.length_flatMap, length_units, hs, h1, h2]
  hevc_close h3

theorem fits_arrays (e : Env) (fi : Field) (hs : fi.size = 0) (l : List Nalus) (hl : fi.length = l.length) (hc : l.length < 256)
    (hu : ∀ a ∈ l, a.Fits) (left : Nat) (h8 : left % 8 = 0) (h : 8 * arraysLen l ≤ left) :
    fitsV e (.slice Cat.tyHEVCNaluArray) fi (.slice (l.map Nalus.go)) left = true := by
  refine fitsV_var e fi left _ Nalus.go l (by simp [lengthUnlimited]; omega) hl h8 ?_ fun a hm => ?_
  · simp only [layout_array, length_arrays]; exact h
  · rw [layout_array]
    exact ⟨by rw [length_array]; omega, fun j hj h8 => fits_array e fi hs a (hu a hm) j h8 hj⟩

/-- The Go value of an `hvcC` box. -/
def hvcC (version space : Nat) (tier : Bool) (profile : Nat) (compatibility : List Bool) (constraints : Bytes)
    (level segmentation parallelism chroma luma chromaDepth rate constant layers nested size : Nat) (arrays : List Nalus) : SV :=
  [("ConfigurationVersion", .uint version), ("GeneralProfileSpace", .uint space), ("GeneralTierFlag", .bool tier),
   ("GeneralProfileIdc", .uint profile), ("GeneralProfileCompatibility", .arr (compatibility.map .bool)),
   ("GeneralConstraintIndicator", .arr (goBytes constraints)), ("GeneralLevelIdc", .uint level), ("Reserved1", .uint 15),
   ("MinSpatialSegmentationIdc", .uint segmentation), ("Reserved2", .uint 63), ("ParallelismType", .uint parallelism),
   ("Reserved3", .uint 63), ("ChromaFormatIdc", .uint chroma), ("Reserved4", .uint 31), ("BitDepthLumaMinus8", .uint luma),
   ("Reserved5", .uint 31), ("BitDepthChromaMinus8", .uint chromaDepth), ("AvgFrameRate", .uint rate),
   ("ConstantFrameRate", .uint constant), ("NumTemporalLayers", .uint layers), ("TemporalIdNested", .uint nested),
   ("LengthSizeMinusOne", .uint size), ("NumOfNaluArrays", .uint arrays.length), ("NaluArrays", .slice (arrays.map Nalus.go))]

/-- The bits of an HEVC decoder configuration record (8.3.3.1.2), with the number of temporal layers in `w` bits and the flag
for nested temporal identifiers in `v` bits.  In the standard these are 3 and 1. -/
def hvcCBits (w v : Nat) (version space : Nat) (tier : Bool) (profile : Nat) (compatibility : List Bool) (constraints : Bytes)
    (level segmentation parallelism chroma luma chromaDepth rate constant layers nested size : Nat) (arrays : List Nalus) : List Bool :=
  ints [(8, version), (2, space)] ++ [tier] ++ ints [(5, profile)] ++ compatibility ++ bytesBits constraints ++
  ints [(8, level), (4, 15), (12, segmentation), (6, 63), (2, parallelism), (6, 63), (2, chroma), (5, 31), (3, luma), (5, 31),
    (3, chromaDepth), (16, rate), (2, constant), (w, layers), (v, nested), (2, size), (8, arrays.length)] ++
  arrays.flatMap Nalus.bits

theorem natBits_3_1 (layers nested : Nat) (h : layers < 8 ∧ nested < 2) (rest : List Bool) :
    natBits 2 (layers / 2) ++ (natBits 2 (layers % 2 * 2 + nested) ++ rest) = natBits 3 layers ++ (natBits 1 nested ++ rest) := by
  have : ∀ l : Fin 8, ∀ n : Fin 2, natBits 2 (l / 2) ++ natBits 2 (l % 2 * 2 + n) = natBits 3 l ++ natBits 1 n := by decide
  have := this ⟨layers, h.1⟩ ⟨nested, h.2⟩
  rw [← List.append_assoc, ← List.append_assoc]
  exact congrArg (· ++ rest) this

theorem layout_bools (e : Env) (fi : Field) (hs : fi.size = 1) (l : List Bool) :
    (l.map Val.bool).flatMap (fun x => layoutV e .bool fi x) = l := by
  induction l with
  | nil => rfl
  | cons b l ih => simp only [List.map_cons, List.flatMap_cons, layoutV_bool, hs, ih]; rfl

theorem fits_bools (e : Env) (fi : Field) (hs : fi.size = 1) (l : List Bool) (left : Nat) (h : l.length ≤ left) :
    fitsList (fun x k => fitsV e .bool fi x k) (fun x => layoutV e .bool fi x) (l.map Val.bool) left = true := by
  refine fitsList_const 1 _ _ ?_ (by simpa using h)
  intro x hm
  obtain ⟨b, _, rfl⟩ := List.mem_map.1 hm
  exact ⟨by simp [layoutV_bool, hs], fun j hj => by simp [fitsV_bool, hs]; omega⟩

/-- conditions on lists of arrays -/
macro "arrays_close" hs:term : tactic => `(tactic|
  ((repeat' apply And.intro) <;> first
    | omega
    | (refine fits_arrays _ _ rfl _ rfl (by omega) ($hs).2 _ (by omega) (by omega))
    | exact fits_goArr _ _ rfl rfl _ _ (by omega)
    | exact fits_bools _ _ (by rfl) _ _ (by omega)))

/-- The code reads and writes the record of the standard, but splits the byte with the temporal layers differently: the field
`NumTemporalLayers` has the upper two bits of the number of layers, and `TemporalIdNested` the last bit of it and the flag. -/
theorem hvcC_iso_partial (version space : Nat) (tier : Bool) (profile : Nat) (compatibility : List Bool) (constraints : Bytes)
    (level segmentation parallelism chroma luma chromaDepth rate constant layers nested size : Nat) (arrays : List Nalus)
    (h1 : version < 256 ∧ space < 4 ∧ profile < 32) (h2 : compatibility.length = 32) (h3 : constraints.length = 6)
    (h4 : level < 256 ∧ segmentation < 4096 ∧ parallelism < 4 ∧ chroma < 4 ∧ luma < 8 ∧ chromaDepth < 8 ∧ rate < 65536)
    (h5 : constant < 4 ∧ layers < 8 ∧ nested < 2 ∧ size < 4) (ha : arrays.length < 256 ∧ ∀ a ∈ arrays, a.Fits) (ctx : Ctx) :
    Encodes Cat.bdHvcC ctx
      (hvcC version space tier profile compatibility constraints level segmentation parallelism chroma luma chromaDepth rate constant
        (layers / 2) (layers % 2 * 2 + nested) size arrays)
      (hvcCBits 3 1 version space tier profile compatibility constraints level segmentation parallelism chroma luma chromaDepth rate
        constant layers nested size arrays) := by
  have l1 := arraysLen_lt arrays 256 (by omega) ha.2
  have q1 : layers / 2 < 4 := by omega
  have q2 : layers % 2 * 2 + nested < 4 := by omega
  refine encodes_intro (23 + arraysLen arrays) (by simp [Cat.allDefs]) ?_ rfl ?_ (by omega) ?_ rfl rfl
  · simp only [hvcC, hvcCBits]
    layout_tac [Cat.bdHvcC, Cat.fsHvcC, cfoHvcC, Cfo.counted0, layout_array, ints, layout_bools, layout_goArr]
    rw [natBits_3_1 layers nested ⟨h5.2.1, h5.2.2.1⟩]
  · simp [hvcCBits, ints, -List.length_flatMap, length_arrays, h2, h3]; omega
  · simp only [hvcC]
    fits_tac [Cat.bdHvcC, Cat.fsHvcC, cfoHvcC, Cfo.counted0, layout_array, layout_bools, layout_goArr, ← List.length_flatMap,
      length_arrays, h1, h2, h3, h4, h5, q1, q2]
    arrays_close ha

theorem encodes_unique {bd : BoxDef} {ctx : Ctx} {sv sv' : SV} {bits : List Bool} (h : Encodes bd ctx sv bits)
    (h' : Encodes bd ctx sv' bits) (hl : bits.length < 2 ^ 60) : sv = sv' := by
  obtain ⟨p, h1, _, h3⟩ := h
  obtain ⟨q, g1, _, g3⟩ := h'
  obtain rfl : p = q := bytesBits_inj (h1.trans g1.symm)
  have hp : p.length < 2 ^ 64 := by
    have := congrArg List.length h1
    rw [bytesBits_length] at this
    omega
  have e1 := h3 [] [] (by simpa using hp)
  have e2 := g3 [] [] (by simpa using hp)
  have := e1.symm.trans e2
  simpa using this

/-- No record of the standard with a temporal layer is read into, or written from, a Go value with the numbers of the
standard. -/
theorem hvcC_layers (version space : Nat) (tier : Bool) (profile : Nat) (compatibility : List Bool) (constraints : Bytes)
    (level segmentation parallelism chroma luma chromaDepth rate constant layers nested size : Nat) (arrays : List Nalus)
    (h1 : version < 256 ∧ space < 4 ∧ profile < 32) (h2 : compatibility.length = 32) (h3 : constraints.length = 6)
    (h4 : level < 256 ∧ segmentation < 4096 ∧ parallelism < 4 ∧ chroma < 4 ∧ luma < 8 ∧ chromaDepth < 8 ∧ rate < 65536)
    (h5 : constant < 4 ∧ layers < 8 ∧ nested < 2 ∧ size < 4) (ha : arrays.length < 256 ∧ ∀ a ∈ arrays, a.Fits) (h0 : layers ≠ 0)
    (ctx : Ctx) :
    ¬ Encodes Cat.bdHvcC ctx
      (hvcC version space tier profile compatibility constraints level segmentation parallelism chroma luma chromaDepth rate constant
        layers nested size arrays)
      (hvcCBits 3 1 version space tier profile compatibility constraints level segmentation parallelism chroma luma chromaDepth rate
        constant layers nested size arrays) := by
  intro h
  have l1 := arraysLen_lt arrays 256 (by omega) ha.2
  have := encodes_unique h (hvcC_iso_partial version space tier profile compatibility constraints level segmentation parallelism chroma luma
    chromaDepth rate constant layers nested size arrays h1 h2 h3 h4 h5 ha ctx)
    (by simp [hvcCBits, ints, -List.length_flatMap, length_arrays, h2, h3]; omega)
  simp [hvcC] at this
  omega

/-! Concrete cases. -/

example := avcC_iso 1 66 0 30 3 [[0x67, 0x42], [0x67]] [[0x68]] (by decide) (by decide) (by decide) (by decide) {}
example := avcC_high 1 100 0 30 3 1 0 0 [[0x67, 0x64]] [[0x68]] [[0x6d]] (by decide) (by decide) (by decide) (by decide) (by decide)
  (by decide) {}
example := hvcC_layers 1 0 true 1 (List.replicate 32 false) [0x90, 0, 0, 0, 0, 0] 93 0 0 1 0 0 0 0 1 1 3
  [⟨true, false, 32, [[0x40, 1], [0x40]]⟩, ⟨true, false, 33, []⟩] (by decide) (by decide) (by decide) (by decide) (by decide) (by decide)
  (by decide) {}

end Mp4.Props
