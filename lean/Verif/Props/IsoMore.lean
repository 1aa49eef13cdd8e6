import Verif.Props.IsoOptional

/-!
# C48: further boxes of ISO/IEC 14496-12 and 23001-7
-/

namespace Mp4.Props

open Mp4 Mp4.Spec

theorem layout_goArr (e : Env) (fi : Field) (hs : fi.size = 8) (hv : fi.varint = false) (d : Bytes) :
    (goBytes d).flatMap (fun x => layoutV e (.uint 8) fi x) = bytesBits d := by
  induction d with
  | nil => rfl
  | cons b d ih =>
    simp only [goBytes, List.map_cons, List.flatMap_cons] at ih ⊢
    rw [ih]
    simp only [layoutV, hs, hv, Bool.false_eq_true, if_false, natBits_byte]
    rfl

theorem fits_goArr (e : Env) (fi : Field) (hs : fi.size = 8) (hv : fi.varint = false) (d : Bytes) (left : Nat) (h : 8 * d.length ≤ left) :
    fitsList (fun x k => fitsV e (.uint 8) fi x k) (fun x => layoutV e (.uint 8) fi x) (goBytes d) left = true := by
  refine fitsList_const 8 _ _ ?_ (by simpa using h)
  intro x hm
  obtain ⟨b, _, rfl⟩ := List.mem_map.1 hm
  refine ⟨by simp [layoutV, hs, hv], fun j hj => ?_⟩
  have := b.isLt
  simp only [fitsV, hs, hv, Bool.false_eq_true, if_false, decide_eq_true_eq]
  omega

/-- the lowest bit of the flags -/
theorem flags_odd (v f0 f1 f2 : Nat) (rest : SV) :
    SV.flags (("FullBox", .struct [("Version", .uint v), ("Flags", .arr [.uint f0, .uint f1, .uint f2])]) :: rest) % 2 = f2 % 2 := by
  change SV.flags (fullBox v f0 f1 f2 :: rest) % 2 = f2 % 2
  have : SV.flags (fullBox v f0 f1 f2 :: rest) = (f0 * 65536) ^^^ (f1 * 256) ^^^ f2 := by
    simp [SV.flags, SV.full, SV.get, fullBox, SV.byteArr]
  have hx : ∀ a b : Nat, (a ^^^ b) % 2 = (a % 2 + b % 2) % 2 := by
    intro a b
    have := Nat.xor_mod_two_pow (a := a) (b := b) (n := 1)
    rw [show (2 : Nat) ^ 1 = 2 from rfl] at this
    rw [this]
    rcases Nat.mod_two_eq_zero_or_one a with h | h <;> rcases Nat.mod_two_eq_zero_or_one b with h' | h' <;> rw [h, h'] <;> rfl
  rw [this, hx, hx]
  omega

theorem layout_goBytesN (e : Env) (fi : Field) (hs : fi.size = 8) (hv : fi.varint = false) (d : Bytes) (hl : fi.length = d.length) :
    layoutV e (.slice (.uint 8)) fi (.slice (goBytes d)) = bytesBits d := layout_goBytes e fi hs hv d (.inr hl)

theorem natBits_int (n : Nat) (h : n < 2 ^ 31) : natBits 32 (((n : Int) % (4294967296 : Int)).toNat) = natBits 32 n := by
  congr 1; omega

theorem goBytes_zero4 : goBytes [0#8, 0#8, 0#8, 0#8] = [.uint 0, .uint 0, .uint 0, .uint 0] := rfl
theorem goBytes_nil : goBytes [] = [] := rfl

/-- `Encodes` of a box with byte strings and a list of elements of `w` bits each that satisfy `hr` -/
macro "iso_mixed" k:term "," w:term "," hr:term "," "[" ds:Lean.Parser.Tactic.simpLemma,* "]" : tactic => `(tactic|
  (refine encodes_intro $k (by simp [Cat.allDefs]) ?_ rfl ?_ ?_ ?_ rfl rfl
   · layout_tac [SV.version, SV.full, verFlags, ints, sint, List.flatMap_map, layout_goArr, layout_goBytesN, flags_odd, bytesBits, $ds,*]
   · simp [verFlags, ints, sint, List.length_flatMap, $ds,*] <;> omega
   · omega
   · fits_tac [SV.version, SV.full, List.length_flatMap, layout_goArr, layout_goBytesN, flags_odd, goBytes_zero4, goBytes_nil, $ds,*]
     try ((repeat' apply And.intro) <;> first
       | omega
       | (refine fits_goArr _ _ rfl rfl _ _ (by omega))
       | (refine fits_goBytes _ _ rfl rfl _ _ (by omega) (.inl ⟨rfl, by omega⟩))
       | (refine fits_goBytes _ _ rfl rfl _ _ (by omega) (.inr ⟨by simp [lengthUnlimited]; omega, rfl⟩))
       | assumption
       | (refine fitsV_map _ _ _ $w _ _ _ (by simp [lengthUnlimited]; omega) rfl (by decide) (by omega) (by omega) (fun x hx => ⟨by have hr' := $hr x hx; layout_tac [SV.version, SV.full, layout_goArr, layout_goBytesN, flags_odd, hr', $ds,*], fun j hj hj8 => ?_⟩)
          have hr' := $hr x hx
          try simp only [IsInt, Nat.reducePow, Nat.reduceSub] at hr'
          fits_tac [SV.version, SV.full, layout_goArr, layout_goBytesN, flags_odd, hr', $ds,*]
          try ((repeat' apply And.intro) <;> first | omega | (refine fits_goArr _ _ rfl rfl _ _ (by omega)) | assumption))
       | (right; omega))))

/-- composition to decode (8.6.1.4), version 0 -/
theorem cslg_v0 (f0 f1 f2 : Nat) (shift least greatest start stop : Int) (hf : f0 < 256 ∧ f1 < 256 ∧ f2 < 256)
    (h1 : IsInt 32 shift) (h2 : IsInt 32 least) (h3 : IsInt 32 greatest) (h4 : IsInt 32 start) (h5 : IsInt 32 stop) (ctx : Ctx) :
    Encodes Cat.bdCslg ctx
      [fullBox 0 f0 f1 f2, ("CompositionToDTSShiftV0", .int shift), ("LeastDecodeToDisplayDeltaV0", .int least),
       ("GreatestDecodeToDisplayDeltaV0", .int greatest), ("CompositionStartTimeV0", .int start), ("CompositionEndTimeV0", .int stop),
       ("CompositionToDTSShiftV1", .int 0), ("LeastDecodeToDisplayDeltaV1", .int 0),
       ("GreatestDecodeToDisplayDeltaV1", .int 0), ("CompositionStartTimeV1", .int 0), ("CompositionEndTimeV1", .int 0)]
      (verFlags 0 f0 f1 f2 ++ sint 32 shift ++ sint 32 least ++ sint 32 greatest ++ sint 32 start ++ sint 32 stop) := by
  simp [IsInt] at hf h1 h2 h3 h4 h5
  iso_box 24, [Cat.bdCslg, Cat.fsCslg, hf, h1, h2, h3, h4, h5]

/-- composition to decode (8.6.1.4), version 1 -/
theorem cslg_v1 (f0 f1 f2 : Nat) (shift least greatest start stop : Int) (hf : f0 < 256 ∧ f1 < 256 ∧ f2 < 256)
    (h1 : IsInt 64 shift) (h2 : IsInt 64 least) (h3 : IsInt 64 greatest) (h4 : IsInt 64 start) (h5 : IsInt 64 stop) (ctx : Ctx) :
    Encodes Cat.bdCslg ctx
      [fullBox 1 f0 f1 f2, ("CompositionToDTSShiftV0", .int 0), ("LeastDecodeToDisplayDeltaV0", .int 0),
       ("GreatestDecodeToDisplayDeltaV0", .int 0), ("CompositionStartTimeV0", .int 0), ("CompositionEndTimeV0", .int 0),
       ("CompositionToDTSShiftV1", .int shift), ("LeastDecodeToDisplayDeltaV1", .int least),
       ("GreatestDecodeToDisplayDeltaV1", .int greatest), ("CompositionStartTimeV1", .int start), ("CompositionEndTimeV1", .int stop)]
      (verFlags 1 f0 f1 f2 ++ sint 64 shift ++ sint 64 least ++ sint 64 greatest ++ sint 64 start ++ sint 64 stop) := by
  simp [IsInt] at hf h1 h2 h3 h4 h5
  iso_box 44, [Cat.bdCslg, Cat.fsCslg, hf, h1, h2, h3, h4, h5]

/-- data references (8.7.2): the entries are boxes -/
theorem dref_iso (f0 f1 f2 count : Nat) (hf : f0 < 256 ∧ f1 < 256 ∧ f2 < 256) (h1 : count < 2 ^ 32) (ctx : Ctx) :
    Encodes Cat.bdDref ctx [fullBox 0 f0 f1 f2, ("EntryCount", .uint count)] (verFlags 0 f0 f1 f2 ++ ints [(32, count)]) := by
  simp at hf h1
  iso_box 8, [Cat.bdDref, Cat.fsDref, hf, h1]

/-- sample descriptions (8.5.2): the entries are boxes -/
theorem stsd_iso (f0 f1 f2 count : Nat) (hf : f0 < 256 ∧ f1 < 256 ∧ f2 < 256) (h1 : count < 2 ^ 32) (ctx : Ctx) :
    Encodes Cat.bdStsd ctx [fullBox 0 f0 f1 f2, ("EntryCount", .uint count)] (verFlags 0 f0 f1 f2 ++ ints [(32, count)]) := by
  simp at hf h1
  iso_box 8, [Cat.bdStsd, Cat.fsStsd, hf, h1]

/-- original format (8.12.2) -/
theorem frma_iso (format : Bytes) (h : format.length = 4) (ctx : Ctx) :
    Encodes Cat.bdFrma ctx [("DataFormat", .arr (goBytes format))] (bytesBits format) := by
  refine encodes_intro 4 (by simp [Cat.allDefs]) ?_ rfl ?_ ?_ ?_ rfl rfl
  · layout_tac [Cat.bdFrma, Cat.fsFrma, layout_goArr]
  · simp [h]
  · omega
  · fits_tac [Cat.bdFrma, Cat.fsFrma, layout_goArr, fits_goArr, h]

/-- an URL in the data references (8.7.2); flag 1: the data are in the same file, and there is no URL -/
theorem url_iso (f0 f1 f2 : Nat) (location : Bytes) (hf : f0 < 256 ∧ f1 < 256 ∧ f2 < 256) (hn : location.length < 2 ^ 40)
    (h0 : ∀ b ∈ location, b ≠ 0) (h1 : f2 % 2 = 1 → location = []) (ctx : Ctx) :
    Encodes Cat.bdUrl ctx [fullBox 0 f0 f1 f2, ("Location", .str location)]
      (verFlags 0 f0 f1 f2 ++ if f2 % 2 = 1 then [] else cstring location) := by
  have n1 : noNul location = true := by simpa [noNul] using h0
  simp only [Nat.reducePow] at hf hn
  by_cases c : f2 % 2 = 1
  · obtain rfl := h1 c
    rw [if_pos c, List.append_nil]
    refine encodes_intro 4 (by simp [Cat.allDefs]) ?_ rfl ?_ ?_ ?_ rfl rfl
    · layout_tac [SV.version, SV.full, verFlags, ints, Cat.bdUrl, Cat.fsUrl, flags_odd, c]
    · simp [verFlags, ints]
    · omega
    · fits_tac [SV.version, SV.full, Cat.bdUrl, Cat.fsUrl, flags_odd, c, hf]
  · rw [if_neg c]
    have c' : f2 % 2 = 0 := by omega
    refine encodes_intro (5 + location.length) (by simp [Cat.allDefs]) ?_ rfl ?_ ?_ ?_ rfl rfl
    · layout_tac [SV.version, SV.full, verFlags, ints, Cat.bdUrl, Cat.fsUrl, flags_odd, c']
    · simp [verFlags, ints]; omega
    · omega
    · fits_tac [SV.version, SV.full, Cat.bdUrl, Cat.fsUrl, flags_odd, c', hf, n1]
      omega

/-- protection scheme (8.12.6); flag 1: with URI -/
theorem schm_iso (f0 f1 f2 version : Nat) (scheme uri : Bytes) (hf : f0 < 256 ∧ f1 < 256 ∧ f2 < 256) (h : scheme.length = 4)
    (hv : version < 2 ^ 32) (hn : uri.length < 2 ^ 40) (h1 : f2 % 2 = 0 → uri = []) (ctx : Ctx) :
    Encodes Cat.bdSchm ctx [fullBox 0 f0 f1 f2, ("SchemeType", .arr (goBytes scheme)), ("SchemeVersion", .uint version),
        ("SchemeUri", .slice (goBytes uri))]
      (verFlags 0 f0 f1 f2 ++ bytesBits scheme ++ ints [(32, version)] ++ bytesBits uri) := by
  simp only [Nat.reducePow] at hf hv hn
  have hr : ∀ x ∈ ([] : List Nat), x < 1 := by simp
  by_cases c : f2 % 2 = 1
  · iso_mixed (12 + uri.length), 32, hr, [Cat.bdSchm, Cat.fsSchm, hf, hv, h, c]
  · have c' : f2 % 2 = 0 := by omega
    obtain rfl := h1 c'
    iso_mixed 12, 32, hr, [Cat.bdSchm, Cat.fsSchm, hf, hv, h, c']

/-- sample auxiliary information offsets (8.7.9), version 0; flag 1: with the type of information -/
theorem saio_v0 (f0 f1 f2 param : Nat) (type : Bytes) (offsets : List Nat) (hf : f0 < 256 ∧ f1 < 256 ∧ f2 < 256) (ht : type.length = 4)
    (hp : param < 2 ^ 32) (z : f2 % 2 = 0 → type = [0, 0, 0, 0] ∧ param = 0)
    (hr : ∀ x ∈ offsets, x < 2 ^ 32) (hn : offsets.length < 2 ^ 32 - 1) (ctx : Ctx) :
    Encodes Cat.bdSaio ctx
      [fullBox 0 f0 f1 f2, ("AuxInfoType", .arr (goBytes type)), ("AuxInfoTypeParameter", .uint param),
       ("EntryCount", .uint offsets.length), ("OffsetV0", .slice (offsets.map .uint)), ("OffsetV1", .slice [])]
      (verFlags 0 f0 f1 f2 ++ (if f2 % 2 = 1 then bytesBits type ++ ints [(32, param)] else []) ++
        ints [(32, offsets.length)] ++ offsets.flatMap fun x => ints [(32, x)]) := by
  simp only [Nat.reducePow, Nat.reduceSub] at hf hp hn hr
  by_cases c : f2 % 2 = 1
  · rw [if_pos c]
    iso_mixed (16 + 4 * offsets.length), 32, hr, [Cat.bdSaio, Cat.fsSaio, cfoSaio, hf, hp, ht, c]
  · have c' : f2 % 2 = 0 := by omega
    obtain ⟨rfl, rfl⟩ := z c'
    rw [if_neg c]
    iso_mixed (8 + 4 * offsets.length), 32, hr, [Cat.bdSaio, Cat.fsSaio, cfoSaio, hf, c']

/-- sample auxiliary information offsets, version 1 -/
theorem saio_v1 (f0 f1 f2 param : Nat) (type : Bytes) (offsets : List Nat) (hf : f0 < 256 ∧ f1 < 256 ∧ f2 < 256) (ht : type.length = 4)
    (hp : param < 2 ^ 32) (z : f2 % 2 = 0 → type = [0, 0, 0, 0] ∧ param = 0)
    (hr : ∀ x ∈ offsets, x < 2 ^ 64) (hn : offsets.length < 2 ^ 32 - 1) (ctx : Ctx) :
    Encodes Cat.bdSaio ctx
      [fullBox 1 f0 f1 f2, ("AuxInfoType", .arr (goBytes type)), ("AuxInfoTypeParameter", .uint param),
       ("EntryCount", .uint offsets.length), ("OffsetV0", .slice []), ("OffsetV1", .slice (offsets.map .uint))]
      (verFlags 1 f0 f1 f2 ++ (if f2 % 2 = 1 then bytesBits type ++ ints [(32, param)] else []) ++
        ints [(32, offsets.length)] ++ offsets.flatMap fun x => ints [(64, x)]) := by
  simp only [Nat.reducePow, Nat.reduceSub] at hf hp hn hr
  by_cases c : f2 % 2 = 1
  · rw [if_pos c]
    iso_mixed (16 + 8 * offsets.length), 64, hr, [Cat.bdSaio, Cat.fsSaio, cfoSaio, hf, hp, ht, c]
  · have c' : f2 % 2 = 0 := by omega
    obtain ⟨rfl, rfl⟩ := z c'
    rw [if_neg c]
    iso_mixed (8 + 8 * offsets.length), 64, hr, [Cat.bdSaio, Cat.fsSaio, cfoSaio, hf, c']

/-- sample auxiliary information sizes (8.7.8): all of one size -/
theorem saiz_same (f0 f1 f2 param size count : Nat) (type : Bytes) (hf : f0 < 256 ∧ f1 < 256 ∧ f2 < 256) (ht : type.length = 4)
    (hp : param < 2 ^ 32) (z : f2 % 2 = 0 → type = [0, 0, 0, 0] ∧ param = 0)
    (h0 : size ≠ 0) (h1 : size < 256) (h2 : count < 2 ^ 32) (ctx : Ctx) :
    Encodes Cat.bdSaiz ctx
      [fullBox 0 f0 f1 f2, ("AuxInfoType", .arr (goBytes type)), ("AuxInfoTypeParameter", .uint param),
       ("DefaultSampleInfoSize", .uint size), ("SampleCount", .uint count), ("SampleInfoSize", .slice [])]
      (verFlags 0 f0 f1 f2 ++ (if f2 % 2 = 1 then bytesBits type ++ ints [(32, param)] else []) ++ ints [(8, size), (32, count)]) := by
  simp only [Nat.reducePow] at hf hp h2
  have hr : ∀ x ∈ ([] : List Nat), x < 1 := by simp
  by_cases c : f2 % 2 = 1
  · rw [if_pos c]
    iso_mixed 17, 32, hr, [Cat.bdSaiz, Cat.fsSaiz, cfoSaiz, hf, hp, ht, c, h0, h1, h2]
  · have c' : f2 % 2 = 0 := by omega
    obtain ⟨rfl, rfl⟩ := z c'
    rw [if_neg c]
    iso_mixed 9, 32, hr, [Cat.bdSaiz, Cat.fsSaiz, cfoSaiz, hf, c', h0, h1, h2]

/-- sample auxiliary information sizes: each with a size of its own -/
theorem saiz_each (f0 f1 f2 param : Nat) (type sizes : Bytes) (hf : f0 < 256 ∧ f1 < 256 ∧ f2 < 256) (ht : type.length = 4)
    (hp : param < 2 ^ 32) (z : f2 % 2 = 0 → type = [0, 0, 0, 0] ∧ param = 0) (hn : sizes.length < 2 ^ 32 - 1) (ctx : Ctx) :
    Encodes Cat.bdSaiz ctx
      [fullBox 0 f0 f1 f2, ("AuxInfoType", .arr (goBytes type)), ("AuxInfoTypeParameter", .uint param),
       ("DefaultSampleInfoSize", .uint 0), ("SampleCount", .uint sizes.length), ("SampleInfoSize", .slice (goBytes sizes))]
      (verFlags 0 f0 f1 f2 ++ (if f2 % 2 = 1 then bytesBits type ++ ints [(32, param)] else []) ++
        ints [(8, 0), (32, sizes.length)] ++ bytesBits sizes) := by
  simp only [Nat.reducePow, Nat.reduceSub] at hf hp hn
  have hr : ∀ x ∈ ([] : List Nat), x < 1 := by simp
  by_cases c : f2 % 2 = 1
  · rw [if_pos c]
    iso_mixed (17 + sizes.length), 32, hr, [Cat.bdSaiz, Cat.fsSaiz, cfoSaiz, hf, hp, ht, c]
  · have c' : f2 % 2 = 0 := by omega
    obtain ⟨rfl, rfl⟩ := z c'
    rw [if_neg c]
    iso_mixed (9 + sizes.length), 32, hr, [Cat.bdSaiz, Cat.fsSaiz, cfoSaiz, hf, c']

/-- sample to group (8.9.2), version 0 -/
theorem sbgp_v0 (f0 f1 f2 type : Nat) (runs : List (Nat × Nat)) (hf : f0 < 256 ∧ f1 < 256 ∧ f2 < 256) (ht : type < 2 ^ 32)
    (hr : ∀ x ∈ runs, x.1 < 2 ^ 32 ∧ x.2 < 2 ^ 32) (hn : runs.length < 2 ^ 32 - 1) (ctx : Ctx) :
    Encodes Cat.bdSbgp ctx
      [fullBox 0 f0 f1 f2, ("GroupingType", .uint type), ("GroupingTypeParameter", .uint 0), ("EntryCount", .uint runs.length),
       ("Entries", .slice (runs.map fun x => .struct [("SampleCount", .uint x.1), ("GroupDescriptionIndex", .uint x.2)]))]
      (verFlags 0 f0 f1 f2 ++ ints [(32, type), (32, runs.length)] ++ runs.flatMap fun x => ints [(32, x.1), (32, x.2)]) := by
  simp only [Nat.reducePow, Nat.reduceSub] at hf hr hn ht
  iso_table (12 + 8 * runs.length), 64, hr, [Cat.bdSbgp, Cat.fsSbgp, Cat.tySbgpEntry, Cat.fsSbgpEntry, cfoSbgp, Cfo.counted, hf, ht]

/-- sample to group (8.9.2), version 1 -/
theorem sbgp_v1 (f0 f1 f2 type param : Nat) (runs : List (Nat × Nat)) (hf : f0 < 256 ∧ f1 < 256 ∧ f2 < 256) (ht : type < 2 ^ 32)
    (hp : param < 2 ^ 32) (hr : ∀ x ∈ runs, x.1 < 2 ^ 32 ∧ x.2 < 2 ^ 32) (hn : runs.length < 2 ^ 32 - 1) (ctx : Ctx) :
    Encodes Cat.bdSbgp ctx
      [fullBox 1 f0 f1 f2, ("GroupingType", .uint type), ("GroupingTypeParameter", .uint param), ("EntryCount", .uint runs.length),
       ("Entries", .slice (runs.map fun x => .struct [("SampleCount", .uint x.1), ("GroupDescriptionIndex", .uint x.2)]))]
      (verFlags 1 f0 f1 f2 ++ ints [(32, type), (32, param), (32, runs.length)] ++ runs.flatMap fun x => ints [(32, x.1), (32, x.2)]) := by
  simp only [Nat.reducePow, Nat.reduceSub] at hf hr hn ht hp
  iso_table (16 + 8 * runs.length), 64, hr, [Cat.bdSbgp, Cat.fsSbgp, Cat.tySbgpEntry, Cat.fsSbgpEntry, cfoSbgp, Cfo.counted, hf, ht, hp]

/-- sample dependencies (8.6.4): is leading, depends on, is depended on, has redundancy, for each sample -/
theorem sdtp_iso (f0 f1 f2 : Nat) (samples : List (Nat × Nat × Nat × Nat)) (hf : f0 < 256 ∧ f1 < 256 ∧ f2 < 256)
    (hr : ∀ x ∈ samples, x.1 < 4 ∧ x.2.1 < 4 ∧ x.2.2.1 < 4 ∧ x.2.2.2 < 4) (hn : samples.length < 2 ^ 40) (ctx : Ctx) :
    Encodes Cat.bdSdtp ctx
      [fullBox 0 f0 f1 f2, ("Samples", .slice (samples.map fun x => .struct [("IsLeading", .uint x.1), ("SampleDependsOn", .uint x.2.1),
        ("SampleIsDependedOn", .uint x.2.2.1), ("SampleHasRedundancy", .uint x.2.2.2)]))]
      (verFlags 0 f0 f1 f2 ++ samples.flatMap fun x => ints [(2, x.1), (2, x.2.1), (2, x.2.2.1), (2, x.2.2.2)]) := by
  simp only [Nat.reducePow] at hf hr hn
  iso_table (4 + samples.length), 8, hr, [Cat.bdSdtp, Cat.fsSdtp, Cat.tySdtpSampleElem, Cat.fsSdtpSampleElem, hf]

/-- media data (8.1.1) -/
theorem mdat_iso (data : Bytes) (hn : data.length < 2 ^ 47) (ctx : Ctx) :
    Encodes Cat.bdMdat ctx [("Data", .slice (goBytes data))] (bytesBits data) := by
  refine encodes_intro data.length (by simp [Cat.allDefs]) ?_ rfl ?_ ?_ ?_ rfl rfl
  · layout_tac [Cat.bdMdat, Cat.fsMdat]
  · simp
  · omega
  · fits_tac [Cat.bdMdat, Cat.fsMdat]
    try fits_close

/-- protection system specific header (23001-7, 8.1), version 0 -/
theorem pssh_v0 (f0 f1 f2 : Nat) (system data : Bytes) (hf : f0 < 256 ∧ f1 < 256 ∧ f2 < 256) (hs : system.length = 16)
    (hn : data.length < 2 ^ 31) (ctx : Ctx) :
    Encodes Cat.bdPssh ctx
      [fullBox 0 f0 f1 f2, ("SystemID", .arr (goBytes system)), ("KIDCount", .uint 0), ("KIDs", .slice []),
       ("DataSize", .int data.length), ("Data", .slice (goBytes data))]
      (verFlags 0 f0 f1 f2 ++ bytesBits system ++ ints [(32, data.length)] ++ bytesBits data) := by
  have hN := natBits_int data.length hn
  have hM : ((data.length : Int) % (18446744073709551616 : Int)).toNat = data.length := by omega
  simp only [Nat.reducePow] at hf hn
  have hr : ∀ x ∈ ([] : List Nat), x < 1 := by simp
  iso_mixed (24 + data.length), 32, hr, [SV.flags, Cat.bdPssh, Cat.fsPssh, cfoPssh, uintOfInt, SV.int, hf, hs, hM, hN]

/-- protection system specific header, version 1: with the identifiers of the keys -/
theorem pssh_v1 (f0 f1 f2 : Nat) (system data : Bytes) (kids : List Bytes) (hf : f0 < 256 ∧ f1 < 256 ∧ f2 < 256) (hs : system.length = 16)
    (hr : ∀ x ∈ kids, x.length = 16) (hk : kids.length < 2 ^ 32 - 1) (hn : data.length < 2 ^ 31) (ctx : Ctx) :
    Encodes Cat.bdPssh ctx
      [fullBox 1 f0 f1 f2, ("SystemID", .arr (goBytes system)), ("KIDCount", .uint kids.length),
       ("KIDs", .slice (kids.map fun x => .struct [("KID", .arr (goBytes x))])),
       ("DataSize", .int data.length), ("Data", .slice (goBytes data))]
      (verFlags 1 f0 f1 f2 ++ bytesBits system ++ ints [(32, kids.length)] ++ kids.flatMap bytesBits ++
        ints [(32, data.length)] ++ bytesBits data) := by
  have hN := natBits_int data.length hn
  have hM : ((data.length : Int) % (18446744073709551616 : Int)).toNat = data.length := by omega
  have hl : (kids.map fun x => 8 * x.length).sum = 128 * kids.length := by
    rw [← sum_const kids 128]
    congr 1
    exact List.map_congr_left fun x hx => by rw [hr x hx]
  simp only [Nat.reducePow, Nat.reduceSub] at hf hn hk
  iso_mixed (28 + 16 * kids.length + data.length), 128, hr, [SV.flags, Cat.bdPssh, Cat.fsPssh, Cat.tyPsshKID, Cat.fsPsshKID, cfoPssh, uintOfInt, SV.int, hf, hs, hM, hN, hl]

/-- track encryption (23001-7, 8.2): unprotected, or with initialization vectors in the samples -/
theorem tenc_v0 (f0 f1 f2 protect iv : Nat) (kid : Bytes) (hf : f0 < 256 ∧ f1 < 256 ∧ f2 < 256) (h1 : protect < 256)
    (h2 : iv < 256) (hk : kid.length = 16) (h3 : protect = 1 → ¬ iv = 0) (ctx : Ctx) :
    Encodes Cat.bdTenc ctx
      [fullBox 0 f0 f1 f2, ("Reserved", .uint 0), ("DefaultCryptByteBlock", .uint 0), ("DefaultSkipByteBlock", .uint 0),
       ("DefaultIsProtected", .uint protect), ("DefaultPerSampleIVSize", .uint iv), ("DefaultKID", .arr (goBytes kid)),
       ("DefaultConstantIVSize", .uint 0), ("DefaultConstantIV", .slice [])]
      (verFlags 0 f0 f1 f2 ++ ints [(8, 0), (4, 0), (4, 0), (8, protect), (8, iv)] ++ bytesBits kid) := by
  have hr : ∀ x ∈ ([] : List Nat), x < 1 := by simp
  by_cases hp : protect = 1
  · have h4 := h3 hp
    subst hp
    iso_mixed 24, 32, hr, [SV.flags, Cat.bdTenc, Cat.fsTenc, cfoTenc, hf, h2, hk, h4]
  · iso_mixed 24, 32, hr, [SV.flags, Cat.bdTenc, Cat.fsTenc, cfoTenc, hf, h1, h2, hk, hp]

/-- track encryption: one constant initialization vector, pattern of encrypted blocks -/
theorem tenc_v1 (f0 f1 f2 crypt skip : Nat) (kid iv : Bytes) (hf : f0 < 256 ∧ f1 < 256 ∧ f2 < 256) (h1 : crypt < 16)
    (h2 : skip < 16) (hk : kid.length = 16) (hi : iv.length < 256) (ctx : Ctx) :
    Encodes Cat.bdTenc ctx
      [fullBox 1 f0 f1 f2, ("Reserved", .uint 0), ("DefaultCryptByteBlock", .uint crypt), ("DefaultSkipByteBlock", .uint skip),
       ("DefaultIsProtected", .uint 1), ("DefaultPerSampleIVSize", .uint 0), ("DefaultKID", .arr (goBytes kid)),
       ("DefaultConstantIVSize", .uint iv.length), ("DefaultConstantIV", .slice (goBytes iv))]
      (verFlags 1 f0 f1 f2 ++ ints [(8, 0), (4, crypt), (4, skip), (8, 1), (8, 0)] ++ bytesBits kid ++
        ints [(8, iv.length)] ++ bytesBits iv) := by
  have hr : ∀ x ∈ ([] : List Nat), x < 1 := by simp
  have h1' : crypt < 256 := by omega
  have h2' : skip < 256 := by omega
  iso_mixed (25 + iv.length), 32, hr, [SV.flags, Cat.bdTenc, Cat.fsTenc, cfoTenc, hf, h1, h2, h1', h2', hk, hi]

/-- An entry of a movie fragment random access box (8.8.10): time, offset of the fragment, number of the track
fragment, of the run and of the sample. -/
structure Access where
  time : Nat
  offset : Nat
  traf : Nat
  trun : Nat
  sample : Nat

namespace Access

def toGo (version : Nat) (x : Access) : Val := .struct [
  ("TimeV0", .uint (if version = 0 then x.time else 0)), ("MoofOffsetV0", .uint (if version = 0 then x.offset else 0)),
  ("TimeV1", .uint (if version = 0 then 0 else x.time)), ("MoofOffsetV1", .uint (if version = 0 then 0 else x.offset)),
  ("TrafNumber", .uint x.traf), ("TrunNumber", .uint x.trun), ("SampleNumber", .uint x.sample)]

/-- The times and offsets have 32 bits in version 0 and 64 in version 1; the other numbers have `a`, `b` and `c` bytes. -/
def bits (version a b c : Nat) (x : Access) : List Bool :=
  let w := if version = 0 then 32 else 64
  ints [(w, x.time), (w, x.offset), (8 * a, x.traf), (8 * b, x.trun), (8 * c, x.sample)]

structure Valid (version a b c : Nat) (x : Access) : Prop where
  time : x.time < 2 ^ (if version = 0 then 32 else 64)
  offset : x.offset < 2 ^ (if version = 0 then 32 else 64)
  traf : x.traf < 2 ^ (8 * a)
  trun : x.trun < 2 ^ (8 * b)
  sample : x.sample < 2 ^ (8 * c)

end Access

/-- movie fragment random access (8.8.10) -/
theorem tfra_iso (version f0 f1 f2 track a b c : Nat) (entries : List Access) (hf : f0 < 256 ∧ f1 < 256 ∧ f2 < 256)
    (hv : version = 0 ∨ version = 1) (h1 : track < 2 ^ 32) (ha : 1 ≤ a ∧ a ≤ 4) (hb : 1 ≤ b ∧ b ≤ 4) (hc : 1 ≤ c ∧ c ≤ 4)
    (hr : ∀ x ∈ entries, x.Valid version a b c) (hn : entries.length < 2 ^ 32 - 1) (ctx : Ctx) :
    Encodes Cat.bdTfra ctx
      [fullBox version f0 f1 f2, ("TrackID", .uint track), ("Reserved", .uint 0), ("LengthSizeOfTrafNum", .uint (a - 1)),
       ("LengthSizeOfTrunNum", .uint (b - 1)), ("LengthSizeOfSampleNum", .uint (c - 1)), ("NumberOfEntry", .uint entries.length),
       ("Entries", .slice (entries.map (Access.toGo version)))]
      (verFlags version f0 f1 f2 ++
        ints [(32, track), (26, 0), (2, a - 1), (2, b - 1), (2, c - 1), (32, entries.length)] ++
        entries.flatMap (Access.bits version a b c)) := by
  have ea : (a - 1 + 1) * 8 = 8 * a := by omega
  have eb : (b - 1 + 1) * 8 = 8 * b := by omega
  have ec : (c - 1 + 1) * 8 = 8 * c := by omega
  have l4 : ∀ n k, 1 ≤ k ∧ k ≤ 4 → n < 2 ^ (8 * k) → n < 4294967296 := fun n k h h' =>
    Nat.lt_of_lt_of_le h' (Nat.pow_le_pow_right (show 0 < 2 by decide) (show 8 * k ≤ 32 by omega))
  have hx'' : ∀ x ∈ entries, x.traf < 4294967296 ∧ x.trun < 4294967296 ∧ x.sample < 4294967296 := fun x hx =>
    ⟨l4 _ _ ha (hr x hx).traf, l4 _ _ hb (hr x hx).trun, l4 _ _ hc (hr x hx).sample⟩
  have hx' : ∀ x ∈ entries, x.traf < 2 ^ (8 * a) ∧ x.trun < 2 ^ (8 * b) ∧ x.sample < 2 ^ (8 * c) := fun x hx =>
    ⟨(hr x hx).traf, (hr x hx).trun, (hr x hx).sample⟩
  have ga : a - 1 < 4 ∧ a - 1 < 256 := by omega
  have gb : b - 1 < 4 ∧ b - 1 < 256 := by omega
  have gc : c - 1 < 4 ∧ c - 1 < 256 := by omega
  simp only [Nat.reducePow, Nat.reduceSub] at hf hn h1
  rcases hv with rfl | rfl
  · have ht : ∀ x ∈ entries, x.time < 4294967296 ∧ x.offset < 4294967296 := fun x hx => ⟨(hr x hx).time, (hr x hx).offset⟩
    obtain ⟨n, hm⟩ : ∃ n, n = (8 + a + b + c) * entries.length := ⟨_, rfl⟩
    have hm8 : (64 + 8 * a + 8 * b + 8 * c) * entries.length = 8 * n := by
      rw [hm, ← Nat.mul_assoc]; congr 1; omega
    have hm3 : (32 + (32 + (8 * a + (8 * b + 8 * c)))) * entries.length = 8 * n := by
      rw [← hm8]; congr 1; omega
    have hm2 : n ≤ 20 * entries.length := by rw [hm]; exact Nat.mul_le_mul_right _ (by omega)
    have hbl : ∀ x : Access, (x.bits 0 a b c).length = 64 + 8 * a + 8 * b + 8 * c := fun x => by
      simp [Access.bits, ints]; omega
    have hbd : Access.bits 0 a b c = fun x => natBits 32 x.time ++
        (natBits 32 x.offset ++ (natBits (8 * a) x.traf ++ (natBits (8 * b) x.trun ++ natBits (8 * c) x.sample))) := by
      funext x; simp [Access.bits, ints]
    refine encodes_intro (16 + n) (by simp [Cat.allDefs]) ?_ rfl ?_ ?_ ?_ rfl rfl
    · layout_tac [SV.flags, SV.version, SV.full, verFlags, ints, List.flatMap_map, Access.toGo, hbd, Cat.bdTfra, Cat.fsTfra, Cat.tyTfraEntry, Cat.fsTfraEntry, cfoTfra, ea, eb, ec]
    · have := flatMap_const _ (Access.bits 0 a b c) entries (fun x _ => hbl x)
      rw [List.length_append, this]
      simp [verFlags, ints]; omega
    · omega
    · fits_tac [SV.flags, SV.version, SV.full, Cat.bdTfra, Cat.fsTfra, Cat.tyTfraEntry, Cat.fsTfraEntry, cfoTfra, hf, h1, ga, gb, gc, ea, eb, ec, Access.toGo, List.length_flatMap]
      (repeat' apply And.intro) <;> first
        | omega
        | (refine fitsV_map _ _ _ (64 + 8 * a + 8 * b + 8 * c) _ _ _ (by simp [lengthUnlimited]; omega) rfl (by omega) (by omega) (by omega) (fun x hx => ⟨by layout_tac [SV.flags, SV.version, SV.full, Access.toGo, Cat.fsTfraEntry, ea, eb, ec]; omega, fun j hj hj8 => ?_⟩)
           have t := ht x hx
           have u := hx' x hx
           have v := hx'' x hx
           fits_tac [SV.flags, SV.version, SV.full, Access.toGo, Cat.fsTfraEntry, ea, eb, ec, t, u, v]
           try ((repeat' apply And.intro) <;> omega))
  · have ht : ∀ x ∈ entries, x.time < 18446744073709551616 ∧ x.offset < 18446744073709551616 := fun x hx => ⟨(hr x hx).time, (hr x hx).offset⟩
    obtain ⟨n, hm⟩ : ∃ n, n = (16 + a + b + c) * entries.length := ⟨_, rfl⟩
    have hm8 : (128 + 8 * a + 8 * b + 8 * c) * entries.length = 8 * n := by
      rw [hm, ← Nat.mul_assoc]; congr 1; omega
    have hm3 : (64 + (64 + (8 * a + (8 * b + 8 * c)))) * entries.length = 8 * n := by
      rw [← hm8]; congr 1; omega
    have hm2 : n ≤ 28 * entries.length := by rw [hm]; exact Nat.mul_le_mul_right _ (by omega)
    have hbl : ∀ x : Access, (x.bits 1 a b c).length = 128 + 8 * a + 8 * b + 8 * c := fun x => by
      simp [Access.bits, ints]; omega
    have hbd : Access.bits 1 a b c = fun x => natBits 64 x.time ++
        (natBits 64 x.offset ++ (natBits (8 * a) x.traf ++ (natBits (8 * b) x.trun ++ natBits (8 * c) x.sample))) := by
      funext x; simp [Access.bits, ints]
    refine encodes_intro (16 + n) (by simp [Cat.allDefs]) ?_ rfl ?_ ?_ ?_ rfl rfl
    · layout_tac [SV.flags, SV.version, SV.full, verFlags, ints, List.flatMap_map, Access.toGo, hbd, Cat.bdTfra, Cat.fsTfra, Cat.tyTfraEntry, Cat.fsTfraEntry, cfoTfra, ea, eb, ec]
    · have := flatMap_const _ (Access.bits 1 a b c) entries (fun x _ => hbl x)
      rw [List.length_append, this]
      simp [verFlags, ints]; omega
    · omega
    · fits_tac [SV.flags, SV.version, SV.full, Cat.bdTfra, Cat.fsTfra, Cat.tyTfraEntry, Cat.fsTfraEntry, cfoTfra, hf, h1, ga, gb, gc, ea, eb, ec, Access.toGo, List.length_flatMap]
      (repeat' apply And.intro) <;> first
        | omega
        | (refine fitsV_map _ _ _ (128 + 8 * a + 8 * b + 8 * c) _ _ _ (by simp [lengthUnlimited]; omega) rfl (by omega) (by omega) (by omega) (fun x hx => ⟨by layout_tac [SV.flags, SV.version, SV.full, Access.toGo, Cat.fsTfraEntry, ea, eb, ec]; omega, fun j hj hj8 => ?_⟩)
           have t := ht x hx
           have u := hx' x hx
           have v := hx'' x hx
           fits_tac [SV.flags, SV.version, SV.full, Access.toGo, Cat.fsTfraEntry, ea, eb, ec, t, u, v]
           try ((repeat' apply And.intro) <;> omega))

/-! A concrete case of each of the theorems above. -/

/-- sixteen bytes -/
private def kid : Bytes := [1, 2, 3, 4, 5, 6, 7, 8, 9, 10, 11, 12, 13, 14, 15, 255]

example := cslg_v0 0 0 0 1024 (-1) 2048 0 90000 (by decide) (by decide) (by decide) (by decide) (by decide) (by decide) {}
example := cslg_v1 0 0 0 1024 (-1) 2048 0 90000000000 (by decide) (by decide) (by decide) (by decide) (by decide) (by decide) {}
example := dref_iso 0 0 0 1 (by decide) (by decide) {}
example := stsd_iso 0 0 0 2 (by decide) (by decide) {}
example := frma_iso [0x61, 0x76, 0x63, 0x31] (by decide) {}
example := url_iso 0 0 1 [] (by decide) (by decide) (by decide) (by decide) {}
example := url_iso 0 0 0 [0x61, 0x2e, 0x6d] (by decide) (by decide) (by decide) (by decide) {}
example := schm_iso 0 0 1 0x10000 [0x63, 0x65, 0x6e, 0x63] [0x75, 0x00] (by decide) (by decide) (by decide) (by decide) (by decide) {}
example := schm_iso 0 0 0 0x10000 [0x63, 0x65, 0x6e, 0x63] [] (by decide) (by decide) (by decide) (by decide) (by decide) {}
example := saio_v0 0 0 1 0 [0x63, 0x65, 0x6e, 0x63] [100, 4294967295] (by decide) (by decide) (by decide) (by decide) (by decide) (by decide) {}
example := saio_v1 0 0 0 0 [0, 0, 0, 0] [100, 4294967296] (by decide) (by decide) (by decide) (by decide) (by decide) (by decide) {}
example := saiz_same 0 0 0 0 16 100 [0, 0, 0, 0] (by decide) (by decide) (by decide) (by decide) (by decide) (by decide) (by decide) {}
example := saiz_each 0 0 1 0 [0x63, 0x65, 0x6e, 0x63] [8, 16, 0] (by decide) (by decide) (by decide) (by decide) (by decide) {}
example := sbgp_v0 0 0 0 0x726f6c6c [(10, 1), (20, 0)] (by decide) (by decide) (by decide) (by decide) {}
example := sbgp_v1 0 0 0 0x726f6c6c 7 [(10, 1), (20, 0)] (by decide) (by decide) (by decide) (by decide) (by decide) {}
example := sdtp_iso 0 0 0 [(0, 2, 1, 2), (3, 1, 2, 0)] (by decide) (by decide) (by decide) {}
example := mdat_iso [1, 2, 3] (by decide) {}
example := pssh_v0 0 0 0 kid [1, 2] (by decide) (by decide) (by decide) {}
example := pssh_v1 0 0 0 kid [1, 2] [kid, kid] (by decide) (by decide) (by decide) (by decide) (by decide) {}
example := tenc_v0 0 0 0 1 8 kid (by decide) (by decide) (by decide) (by decide) (by decide) {}
example := tenc_v1 0 0 0 1 9 kid kid (by decide) (by decide) (by decide) (by decide) (by decide) {}
example := tfra_iso 1 0 0 0 1 1 2 4 [⟨0, 1000, 1, 1, 1⟩, ⟨90000000000, 100000, 255, 65535, 65536⟩] (by decide) (by decide) (by decide) (by decide) (by decide) (by decide)
  (fun x hx => by
    simp only [List.mem_cons, List.not_mem_nil, or_false] at hx
    rcases hx with rfl | rfl <;> constructor <;> decide) (by decide) {}

end Mp4.Props
