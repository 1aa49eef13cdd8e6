import Verif.Props.IsoCodecs

/-!
# C81: the layouts of the remaining boxes

Containers, free space, subtitles (ISO/IEC 14496-12 and 14496-30), 3GPP assets (TS 26.244), sample group descriptions, and the
metadata of iTunes and QuickTime.
-/

namespace Mp4.Props

open Mp4 Mp4.Spec

/-- Boxes that consist of other boxes only. -/
def containers : List BoxDef :=
  [Cat.bdDinf, Cat.bdEdts, Cat.bdMdia, Cat.bdMfra, Cat.bdMinf, Cat.bdMoof, Cat.bdMoov, Cat.bdMvex, Cat.bdSchi, Cat.bdSinf, Cat.bdStbl,
   Cat.bdTraf, Cat.bdTrak, Cat.bdUdta, Cat.bdWave, Cat.bdIlst, Cat.bdIlstMetaContainer, Cat.bdVTTCueBox, Cat.bdVTTEmptyCueBox]

theorem containers_empty : ∀ bd ∈ containers, bd.fields = .nil ∧ bd.metaHook = false := by
  unfold containers
  simp only [List.forall_mem_cons]
  repeat' apply And.intro
  all_goals first
    | rfl
    | (intro x hx; cases hx)

/-- A container has nothing in front of its children. -/
theorem container_iso : ∀ bd ∈ containers, ∀ ctx, Encodes bd ctx [] [] := by
  intro bd hbd ctx
  have h1 : ∀ bd ∈ containers, bd ∈ Cat.allDefs := by
    unfold containers
    simp only [List.forall_mem_cons]
    repeat' apply And.intro
    all_goals first
      | (simp [Cat.allDefs]; done)
      | (intro x hx; cases hx)
  obtain ⟨hf, hm⟩ := containers_empty bd hbd
  refine encodes_intro 0 (h1 bd hbd) ?_ ?_ rfl (by omega) ?_ ?_ hm
  · rw [layout, hf, layoutFields]
  · rw [hf]; rfl
  · rw [hf, fitsFields]
  · rw [hf]; rfl

/-- Whatever follows in the payload of a container is left to be read: `Unmarshal` reads nothing. -/
theorem container_reads_nothing : ∀ bd ∈ containers, ∀ (d : Bytes) (ctx : Ctx) (n pos : Nat),
    unmarshalBox bd d ctx n bd.fields.zero pos = (.ok (0, []), pos) := by
  intro bd hbd d ctx n pos
  obtain ⟨hf, hm⟩ := containers_empty bd hbd
  have hz : (Fields.nil.zero : SV) = [] := rfl
  unfold unmarshalBox
  rw [hm, hf, hz]
  have hs : SV.setVersion [] anyVersion = [] := by simp [SV.setVersion, SV.full, SV.get]
  simp only [Bool.false_eq_true, if_false, hs]
  unfold unmarshalBody
  rw [hf, unmarshalFields]
  change (if (0 : Nat) % 8 ≠ 0 then _ else if n * 8 % U64 < 0 then _ else _) = _
  rw [if_neg (by decide), if_neg (by omega)]
  simp [RSt.fresh]

/-- free space (8.1.2) -/
theorem free_iso (data : Bytes) (hn : data.length < 2 ^ 47) (ctx : Ctx) :
    Encodes Cat.bdFree ctx [("Data", .slice (goBytes data))] (bytesBits data) ∧
      Encodes Cat.bdSkip ctx [("Data", .slice (goBytes data))] (bytesBits data) := by
  have hr : ∀ x ∈ ([] : List Nat), x < 1 := by simp
  refine ⟨?_, ?_⟩
  · iso_mixed data.length, 32, hr, [Cat.bdFree, Cat.fsFreeSpace]
  · iso_mixed data.length, 32, hr, [Cat.bdSkip, Cat.fsFreeSpace]

/-- segment type (8.16.2): as the file type -/
theorem styp_iso (major : BoxType) (minor : Nat) (brands : List BoxType) (h1 : minor < 2 ^ 32) (hn : brands.length < 2 ^ 45)
    (ctx : Ctx) :
    Encodes Cat.bdStyp ctx
      [("MajorBrand", .arr (goBytes [major.b0, major.b1, major.b2, major.b3])), ("MinorVersion", .uint minor),
       ("CompatibleBrands", .slice (brands.map fun b =>
         .struct [("CompatibleBrand", .arr (goBytes [b.b0, b.b1, b.b2, b.b3]))]))]
      (bytesBits [major.b0, major.b1, major.b2, major.b3] ++ ints [(32, minor)] ++
        brands.flatMap fun b => bytesBits [b.b0, b.b1, b.b2, b.b3]) := by
  have hr : ∀ b ∈ brands, b.b0.toNat < 256 ∧ b.b1.toNat < 256 ∧ b.b2.toNat < 256 ∧ b.b3.toNat < 256 :=
    fun b _ => ⟨b.b0.isLt, b.b1.isLt, b.b2.isLt, b.b3.isLt⟩
  have hm : major.b0.toNat < 256 ∧ major.b1.toNat < 256 ∧ major.b2.toNat < 256 ∧ major.b3.toNat < 256 :=
    ⟨major.b0.isLt, major.b1.isLt, major.b2.isLt, major.b3.isLt⟩
  simp only [Nat.reducePow] at h1 hn
  iso_table (8 + 4 * brands.length), 32, hr, [Cat.bdStyp, Cat.fsStyp, Cat.tyCompatibleBrandElem, Cat.fsCompatibleBrandElem, h1, hm,
    goBytes, bytesBits, natBits_byte]

/-- sample entry of XML subtitles (12.6.3.2): three strings with a final NUL -/
theorem stpp_iso (index : Nat) (space location mime : Bytes) (h0 : index < 2 ^ 16)
    (h : (∀ b ∈ space, b ≠ 0) ∧ (∀ b ∈ location, b ≠ 0) ∧ ∀ b ∈ mime, b ≠ 0)
    (hn : space.length < 2 ^ 40 ∧ location.length < 2 ^ 40 ∧ mime.length < 2 ^ 40) (ctx : Ctx) :
    Encodes Cat.bdXMLSubtitleSampleEntry ctx
      [sampleEntry index, ("Namespace", .str space), ("SchemaLocation", .str location), ("AuxiliaryMIMETypes", .str mime)]
      (ints [(8, 0), (8, 0), (8, 0), (8, 0), (8, 0), (8, 0), (16, index)] ++ cstring space ++ cstring location ++ cstring mime) := by
  have n1 : noNul space = true := by simpa [noNul] using h.1
  have n2 : noNul location = true := by simpa [noNul] using h.2.1
  have n3 : noNul mime = true := by simpa [noNul] using h.2.2
  simp only [Nat.reducePow] at hn h0
  have hr : ∀ x ∈ ([] : List Nat), x < 1 := by simp
  iso_mixed (11 + space.length + location.length + mime.length), 32, hr, [sampleEntry, Cat.bdXMLSubtitleSampleEntry,
    Cat.fsXMLSubtitleSampleEntry, Cat.tySampleEntry, Cat.fsSampleEntry, h0, n1, n2, n3]

/-- sample entry of text subtitles (12.6.3.2): two strings with a final NUL -/
theorem sbtt_iso (index : Nat) (encoding mime : Bytes) (h0 : index < 2 ^ 16)
    (h : (∀ b ∈ encoding, b ≠ 0) ∧ ∀ b ∈ mime, b ≠ 0) (hn : encoding.length < 2 ^ 40 ∧ mime.length < 2 ^ 40) (ctx : Ctx) :
    Encodes Cat.bdTextSubtitleSampleEntry ctx
      [sampleEntry index, ("ContentEncoding", .str encoding), ("MIMEFormat", .str mime)]
      (ints [(8, 0), (8, 0), (8, 0), (8, 0), (8, 0), (8, 0), (16, index)] ++ cstring encoding ++ cstring mime) := by
  have n1 : noNul encoding = true := by simpa [noNul] using h.1
  have n2 : noNul mime = true := by simpa [noNul] using h.2
  simp only [Nat.reducePow] at hn h0
  have hr : ∀ x ∈ ([] : List Nat), x < 1 := by simp
  iso_mixed (10 + encoding.length + mime.length), 32, hr, [sampleEntry, Cat.bdTextSubtitleSampleEntry,
    Cat.fsTextSubtitleSampleEntry, Cat.tySampleEntry, Cat.fsSampleEntry, h0, n1, n2]

/-- sample entry of WebVTT (14496-30, 7.5): the configuration is a child -/
theorem wvtt_iso (index : Nat) (h0 : index < 2 ^ 16) (ctx : Ctx) :
    Encodes Cat.bdWVTTSampleEntry ctx [sampleEntry index] (ints [(8, 0), (8, 0), (8, 0), (8, 0), (8, 0), (8, 0), (16, index)]) := by
  simp only [Nat.reducePow] at h0
  have hr : ∀ x ∈ ([] : List Nat), x < 1 := by simp
  iso_mixed 8, 32, hr, [sampleEntry, Cat.bdWVTTSampleEntry, Cat.fsWVTTSampleEntry, Cat.tySampleEntry, Cat.fsSampleEntry, h0]

/-- The boxes of WebVTT that are a string up to the end of the box, without a NUL: header, label of the source, current time,
identifier, settings and text of a cue, and text between cues. -/
theorem webvtt_iso (text : Bytes) (h : ∀ b ∈ text, b ≠ 0) (hn : text.length < 2 ^ 40) (ctx : Ctx) :
    Encodes Cat.bdWebVTTConfigurationBox ctx [("Config", .str text)] (bytesBits text) ∧
    Encodes Cat.bdWebVTTSourceLabelBox ctx [("SourceLabel", .str text)] (bytesBits text) ∧
    Encodes Cat.bdCueTimeBox ctx [("CueCurrentTime", .str text)] (bytesBits text) ∧
    Encodes Cat.bdCueIDBox ctx [("CueId", .str text)] (bytesBits text) ∧
    Encodes Cat.bdCueSettingsBox ctx [("Settings", .str text)] (bytesBits text) ∧
    Encodes Cat.bdCuePayloadBox ctx [("CueText", .str text)] (bytesBits text) ∧
    Encodes Cat.bdVTTAdditionalTextBox ctx [("CueAdditionalText", .str text)] (bytesBits text) := by
  have n1 : noNul text = true := by simpa [noNul] using h
  simp only [Nat.reducePow] at hn
  have hr : ∀ x ∈ ([] : List Nat), x < 1 := by simp
  refine ⟨?_, ?_, ?_, ?_, ?_, ?_, ?_⟩
  · iso_mixed text.length, 32, hr, [Cat.bdWebVTTConfigurationBox, Cat.fsWebVTTConfigurationBox, n1]
  · iso_mixed text.length, 32, hr, [Cat.bdWebVTTSourceLabelBox, Cat.fsWebVTTSourceLabelBox, n1]
  · iso_mixed text.length, 32, hr, [Cat.bdCueTimeBox, Cat.fsCueTimeBox, n1]
  · iso_mixed text.length, 32, hr, [Cat.bdCueIDBox, Cat.fsCueIDBox, n1]
  · iso_mixed text.length, 32, hr, [Cat.bdCueSettingsBox, Cat.fsCueSettingsBox, n1]
  · iso_mixed text.length, 32, hr, [Cat.bdCuePayloadBox, Cat.fsCuePayloadBox, n1]
  · iso_mixed text.length, 32, hr, [Cat.bdVTTAdditionalTextBox, Cat.fsVTTAdditionalTextBox, n1]

/-- source of a cue of WebVTT -/
theorem vsid_iso (source : Nat) (h : source < 2 ^ 32) (ctx : Ctx) :
    Encodes Cat.bdCueSourceIDBox ctx [("SourceId", .uint source)] (ints [(32, source)]) := by
  simp only [Nat.reducePow] at h
  have hr : ∀ x ∈ ([] : List Nat), x < 1 := by simp
  iso_mixed 4, 32, hr, [Cat.bdCueSourceIDBox, Cat.fsCueSourceIDBox, h]

/-- assets of 3GPP (TS 26.244, 8): a bit, a language of three times five bits, text -/
theorem asset_iso (f0 f1 f2 l0 l1 l2 : Nat) (pad : Bool) (text : Bytes) (hf : f0 < 256 ∧ f1 < 256 ∧ f2 < 256)
    (hl : l0 < 32 ∧ l1 < 32 ∧ l2 < 32) (hn : text.length < 2 ^ 40) (ctx : Ctx) :
    Encodes Cat.bdUdta3GppString ctx
      [fullBox 0 f0 f1 f2, ("Pad", .bool pad), ("Language", .arr [.uint l0, .uint l1, .uint l2]), ("Data", .slice (goBytes text))]
      (verFlags 0 f0 f1 f2 ++ pad :: ints [(5, l0), (5, l1), (5, l2)] ++ bytesBits text) := by
  simp only [Nat.reducePow] at hn
  have hl' : l0 < 256 ∧ l1 < 256 ∧ l2 < 256 := by omega
  have hr : ∀ x ∈ ([] : List Nat), x < 1 := by simp
  iso_mixed (6 + text.length), 32, hr, [Cat.bdUdta3GppString, Cat.fsUdta3GppString, hf, hl, hl']

/-- a value of the metadata: type, language, value -/
theorem data_iso (type lang : Nat) (value : Bytes) (h : type < 2 ^ 32 ∧ lang < 2 ^ 32) (hn : value.length < 2 ^ 40) (ctx : Ctx) :
    Encodes Cat.bdData ctx [("DataType", .uint type), ("DataLang", .uint lang), ("Data", .slice (goBytes value))]
      (ints [(32, type), (32, lang)] ++ bytesBits value) := by
  simp only [Nat.reducePow] at hn h
  have hr : ∀ x ∈ ([] : List Nat), x < 1 := by simp
  iso_mixed (8 + value.length), 32, hr, [Cat.bdData, Cat.fsData, h]

/-- a string of the free-form metadata -/
theorem stringData_iso (value : Bytes) (hn : value.length < 2 ^ 40) (ctx : Ctx) :
    Encodes Cat.bdStringData ctx [("Data", .slice (goBytes value))] (bytesBits value) := by
  simp only [Nat.reducePow] at hn
  have hr : ∀ x ∈ ([] : List Nat), x < 1 := by simp
  iso_mixed value.length, 32, hr, [Cat.bdStringData, Cat.fsStringData]

/-- an item of the metadata of QuickTime -/
theorem item_iso (version f0 f1 f2 type lang : Nat) (name value : Bytes) (hf : version < 256 ∧ f0 < 256 ∧ f1 < 256 ∧ f2 < 256)
    (hc : name.length = 4) (h : type < 2 ^ 32 ∧ lang < 2 ^ 32) (hn : value.length < 2 ^ 40) (ctx : Ctx) :
    Encodes Cat.bdItem ctx
      [("Version", .uint version), ("Flags", .arr [.uint f0, .uint f1, .uint f2]), ("ItemName", .slice (goBytes name)),
       ("Data", .struct [("DataType", .uint type), ("DataLang", .uint lang), ("Data", .slice (goBytes value))])]
      (verFlags version f0 f1 f2 ++ bytesBits name ++ ints [(32, type), (32, lang)] ++ bytesBits value) := by
  simp only [Nat.reducePow] at hn h
  have hr : ∀ x ∈ ([] : List Nat), x < 1 := by simp
  refine encodes_intro (16 + value.length) (by simp [Cat.allDefs]) ?_ rfl ?_ (by omega) ?_ rfl rfl
  · layout_tac [verFlags, ints, layout_goBytesN, Cat.bdItem, Cat.fsItem, Cat.tyData, Cat.fsData, hc]
  · simp [verFlags, ints, hc]; omega
  · fits_tac [layout_goBytesN, Cat.bdItem, Cat.fsItem, Cat.tyData, Cat.fsData, hf, hc, h]
    (repeat' apply And.intro) <;> first
      | omega
      | (refine fits_goBytes _ _ rfl rfl _ _ (by omega) (.inl ⟨rfl, by omega⟩))
      | (refine fits_goBytes _ _ rfl rfl _ _ (by omega) (.inr ⟨by simp [lengthUnlimited], hc.symm⟩))

/-- A key of the metadata of QuickTime: its size, which includes the eight bytes of size and namespace, the namespace and the name. -/
structure MetaKey where
  space : Bytes
  name : Bytes

def MetaKey.bits (k : MetaKey) : List Bool := natBits 32 (8 + k.name.length) ++ bytesBits k.space ++ bytesBits k.name

def MetaKey.go (k : MetaKey) : Val :=
  .struct [("KeySize", .int (8 + k.name.length : Nat)), ("KeyNamespace", .slice (goBytes k.space)), ("KeyValue", .slice (goBytes k.name))]

def MetaKey.Fits (k : MetaKey) : Prop := k.space.length = 4 ∧ k.name.length < 2 ^ 30

instance (k : MetaKey) : Decidable k.Fits := inferInstanceAs (Decidable (_ ∧ _))

theorem length_key (k : MetaKey) (h : k.Fits) : k.bits.length = 8 * (8 + k.name.length) := by
  simp [MetaKey.bits, h.1]; omega

def keysLen (l : List MetaKey) : Nat := (l.map fun k => 8 + k.name.length).sum

theorem length_keys (l : List MetaKey) (h : ∀ k ∈ l, k.Fits) : (l.flatMap MetaKey.bits).length = 8 * keysLen l := by
  induction l with
  | nil => rfl
  | cons u l ih =>
    have h1 := length_key u (h u List.mem_cons_self)
    have h2 := ih fun k hk => h k (List.mem_cons_of_mem _ hk)
    rw [List.flatMap_cons, List.length_append, h1, h2]
    simp [keysLen]; omega

theorem key_size (n : Nat) (h : n < 2 ^ 30) : sub64 (uintOfInt (8 + (n : Int))) 8 = n := by
  simp only [sub64, uintOfInt, U64] at *
  omega

theorem key_bits (n : Nat) (h : n < 2 ^ 30) : natBits 32 ((8 + (n : Int)) % (4294967296 : Int)).toNat = natBits 32 (8 + n) := by
  congr 1; omega

theorem layout_key (e : Env) (fi : Field) (k : MetaKey) (h : k.Fits) : layoutV e Cat.tyKey fi k.go = k.bits := by
  have h1 := key_bits k.name.length h.2
  have h2 := key_size k.name.length h.2
  have h0 := h.1
  simp only [MetaKey.go, Cat.tyKey]
  layout_tac [Cat.fsKey, cfoKey, layout_goBytesN, SV.int, h2, h0, MetaKey.bits, h1]

theorem fits_key (e : Env) (fi : Field) (hs : fi.size = 0) (k : MetaKey) (h : k.Fits) (j : Nat) (hj : k.bits.length ≤ j) :
    fitsV e Cat.tyKey fi k.go j = true := by
  rw [length_key k h] at hj
  have h1 := key_bits k.name.length h.2
  have h2 := key_size k.name.length h.2
  have h0 := h.1
  have h3 := h.2
  simp only [MetaKey.go, Cat.tyKey]
  fits_tac [Cat.fsKey, cfoKey, layout_goBytesN, SV.int, h2, h0, hs]
  (repeat' apply And.intro) <;> first
    | omega
    | (refine fits_goBytes _ _ rfl rfl _ _ (by omega) (.inr ⟨by simp [lengthUnlimited], h0.symm⟩))
    | (refine fits_goBytes _ _ rfl rfl _ _ (by omega) (.inr ⟨by simp [lengthUnlimited]; omega, rfl⟩))

/-- the keys of the metadata of QuickTime -/
theorem keys_iso (version f0 f1 f2 : Nat) (keys : List MetaKey) (hf : version < 256 ∧ f0 < 256 ∧ f1 < 256 ∧ f2 < 256)
    (hk : ∀ k ∈ keys, k.Fits) (hn : keys.length < 2 ^ 31) (hl : keysLen keys < 2 ^ 40) (ctx : Ctx) :
    Encodes Cat.bdKeys ctx
      [fullBox version f0 f1 f2, ("EntryCount", .int keys.length), ("Entries", .slice (keys.map MetaKey.go))]
      (verFlags version f0 f1 f2 ++ ints [(32, keys.length)] ++ keys.flatMap MetaKey.bits) := by
  have hN := natBits_int keys.length hn
  have hM : uintOfInt (keys.length : Int) = keys.length := by simp only [uintOfInt]; omega
  have hL : ∀ e fi, keys.flatMap (fun x => layoutV e Cat.tyKey fi x.go) = keys.flatMap MetaKey.bits := by
    intro e fi
    rw [List.flatMap_def, List.flatMap_def]
    congr 1
    exact List.map_congr_left fun k h => layout_key e fi k (hk k h)
  have hb := length_keys keys hk
  simp only [Nat.reducePow] at hn hl
  refine encodes_intro (8 + keysLen keys) (by simp [Cat.allDefs]) ?_ rfl ?_ (by omega) ?_ rfl rfl
  · layout_tac [SV.flags, SV.version, SV.full, verFlags, ints, Cat.bdKeys, Cat.fsKeys, cfoKeys, SV.int, hM, hN, hL]
  · simp [verFlags, ints, -List.length_flatMap, hb]; omega
  · fits_tac [SV.flags, SV.version, SV.full, Cat.bdKeys, Cat.fsKeys, cfoKeys, SV.int, hM, hL, hf, ← List.length_flatMap, hb]
    (repeat' apply And.intro) <;> first
      | omega
      | (refine fitsV_var _ _ _ _ MetaKey.go keys (by simp [lengthUnlimited]; omega) rfl (by omega) (by rw [hL, hb]; omega) fun k h => ?_
         rw [layout_key _ _ k (hk k h)]
         exact ⟨by rw [length_key k (hk k h)]; omega, fun j hj _ => fits_key _ _ rfl k (hk k h) j hj⟩)

/-- a movie's, track's or file's metadata container (8.11.1) -/
theorem meta_iso (ctx : Ctx) : Encodes Cat.bdMeta ctx [fullBox 0 0 0 0] (verFlags 0 0 0 0) := by
  have hbd : Cat.bdMeta ∈ Cat.allDefs := by simp [Cat.allDefs]
  have hl : layout Cat.bdMeta ctx [fullBox 0 0 0 0] = verFlags 0 0 0 0 := by
    layout_tac [SV.flags, SV.version, SV.full, verFlags, ints, Cat.bdMeta, Cat.fsMeta]
  have h8 : (verFlags 0 0 0 0).length = 32 := rfl
  have hfit : fits Cat.bdMeta ctx [fullBox 0 0 0 0] = true := by
    unfold fits
    rw [hl, h8]
    simp only [Bool.and_eq_true]
    refine ⟨⟨⟨⟨⟨rfl, rfl⟩, rfl⟩, ?_⟩, rfl⟩, rfl⟩
    fits_tac [SV.flags, SV.version, SV.full, Cat.bdMeta, Cat.fsMeta]
  obtain ⟨hl1, hl2⟩ := allDefs_local _ hbd
  refine ⟨bitsBytes (layout Cat.bdMeta ctx [fullBox 0 0 0 0]), by rw [hl, bytesBits_bitsBytes _ rfl], marshalBox_layout hfit, fun pre rest h => ?_⟩
  exact unmarshalBox_layout (allDefs_ok _ hbd) hl1 hl2 hfit pre rest h

/-- The container of metadata in a QuickTime file has no version and flags: when the payload does not begin with four zero bytes,
nothing is in front of the children. -/
theorem meta_quicktime (pre p rest : Bytes) (h4 : 4 ≤ p.length) (h0 : p.take 4 ≠ [0, 0, 0, 0]) (ctx : Ctx) :
    unmarshalBox Cat.bdMeta (pre ++ p ++ rest) ctx p.length Cat.bdMeta.fields.zero pre.length =
      (.ok (0, [fullBox 0 0 0 0]), pre.length) := by
  have hg : ((pre ++ p ++ rest).drop pre.length).take 4 = p.take 4 := by
    rw [List.append_assoc, List.drop_left, List.take_append_of_le_length h4]
  have hl : (p.take 4).length = 4 := by simp; omega
  have ha : (p.take 4).any (fun b => b != 0#8) = true := by
    match hp : p.take 4, hl, h0 with
    | [a, b, c, d], _, h0 =>
      simp only [List.any_cons, List.any_nil, Bool.or_false, Bool.or_eq_true, bne_iff_ne]
      false_or_by_contra
      rename_i h
      simp only [not_or, Decidable.not_not, ne_eq] at h
      obtain ⟨rfl, rfl, rfl, rfl⟩ := h
      exact h0 rfl
  unfold unmarshalBox
  rw [if_pos (by rfl)]
  have : metaBefore (pre ++ p ++ rest) (Cat.bdMeta.fields.zero.setVersion anyVersion) pre.length =
      (.ok (true, [fullBox 0 0 0 0]), pre.length) := by
    unfold metaBefore
    simp only [hg, hl, ha]
    rfl
  rw [M.bind_ok this]
  rfl

/-- The fields of a sample group description (8.9.3) as a Go value; the type of the grouping is given as four bytes. -/
def groups (version length index : Nat) (type : Nat × Nat × Nat × Nat) (count : Nat)
    (roll rollL alst alstL rap rapL tele teleL other : List Val) : SV :=
  [fullBox version 0 0 0, ("GroupingType", .arr [.uint type.1, .uint type.2.1, .uint type.2.2.1, .uint type.2.2.2]), ("DefaultLength", .uint length),
   ("DefaultSampleDescriptionIndex", .uint index), ("EntryCount", .uint count),
   ("RollDistances", .slice roll), ("RollDistancesL", .slice rollL), ("AlternativeStartupEntries", .slice alst),
   ("AlternativeStartupEntriesL", .slice alstL), ("VisualRandomAccessEntries", .slice rap), ("VisualRandomAccessEntriesL", .slice rapL),
   ("TemporalLevelEntries", .slice tele), ("TemporalLevelEntriesL", .slice teleL), ("Unsupported", .slice other)]

/-- version 1: type of the grouping, length of each entry (0: they differ), number of entries; version 2: type of the grouping, default
entry, number of entries -/
def groupsHead (version : Nat) (type : Nat × Nat × Nat × Nat) (word count : Nat) : List Bool :=
  verFlags version 0 0 0 ++ ints [(8, type.1), (8, type.2.1), (8, type.2.2.1), (8, type.2.2.2), (32, word), (32, count)]

/-- `roll` -/
def cRoll : Nat × Nat × Nat × Nat := (0x72, 0x6f, 0x6c, 0x6c)
/-- `prol` -/
def cProl : Nat × Nat × Nat × Nat := (0x70, 0x72, 0x6f, 0x6c)
/-- `alst` -/
def cAlst : Nat × Nat × Nat × Nat := (0x61, 0x6c, 0x73, 0x74)
/-- `rap ` -/
def cRap : Nat × Nat × Nat × Nat := (0x72, 0x61, 0x70, 0x20)
/-- `tele` -/
def cTele : Nat × Nat × Nat × Nat := (0x74, 0x65, 0x6c, 0x65)

/-- distances of roll recovery points and of audio pre-roll (10.1), in entries of two bytes; the form in which each entry has its
length in front is missing, because it is refused (`sgpd_rollL_refuted`) -/
theorem sgpd_roll_partial (type : Nat × Nat × Nat × Nat) (ht : type = cRoll ∨ type = cProl) (rolls : List Int) (hr : ∀ x ∈ rolls, IsInt 16 x)
    (hn : rolls.length < 2 ^ 32 - 1) (ctx : Ctx) :
    Encodes Cat.bdSgpd ctx (groups 1 2 0 type rolls.length (rolls.map .int) [] [] [] [] [] [] [] [])
      (groupsHead 1 type 2 rolls.length ++ rolls.flatMap fun x => sint 16 x) := by
  simp only [Nat.reducePow, Nat.reduceSub] at hn
  rcases ht with rfl | rfl
  · iso_table (16 + 2 * rolls.length), 16, hr, [groups, groupsHead, cRoll, Cat.bdSgpd, Cat.fsSgpd, cfoSgpd, sgpdLists, ascii]
  · iso_table (16 + 2 * rolls.length), 16, hr, [groups, groupsHead, cProl, Cat.bdSgpd, Cat.fsSgpd, cfoSgpd, sgpdLists, ascii]

/-- the same in version 2 -/
theorem sgpd_roll_v2 (type : Nat × Nat × Nat × Nat) (ht : type = cRoll ∨ type = cProl) (index : Nat) (hi : index < 2 ^ 32)
    (rolls : List Int) (hr : ∀ x ∈ rolls, IsInt 16 x) (hn : rolls.length < 2 ^ 32 - 1) (ctx : Ctx) :
    Encodes Cat.bdSgpd ctx (groups 2 0 index type rolls.length (rolls.map .int) [] [] [] [] [] [] [] [])
      (groupsHead 2 type index rolls.length ++ rolls.flatMap fun x => sint 16 x) := by
  simp only [Nat.reducePow, Nat.reduceSub] at hn hi
  rcases ht with rfl | rfl
  · iso_table (16 + 2 * rolls.length), 16, hr, [groups, groupsHead, cRoll, Cat.bdSgpd, Cat.fsSgpd, cfoSgpd, sgpdLists, ascii, hi]
  · iso_table (16 + 2 * rolls.length), 16, hr, [groups, groupsHead, cProl, Cat.bdSgpd, Cat.fsSgpd, cfoSgpd, sgpdLists, ascii, hi]

/-- a random access point (10.4): is the number of leading samples known, and the number -/
def goRap (x : Bool × Nat) : Val := .struct [("NumLeadingSamplesKnown", .bool x.1), ("NumLeadingSamples", .uint x.2)]

theorem sgpd_rap (raps : List (Bool × Nat)) (h : ∀ x ∈ raps, x.2 < 128) (hn : raps.length < 2 ^ 32 - 1) (ctx : Ctx) :
    Encodes Cat.bdSgpd ctx (groups 1 1 0 cRap raps.length [] [] [] [] (raps.map fun x => goRap x) [] [] [] [])
      (groupsHead 1 cRap 1 raps.length ++ raps.flatMap fun x => x.1 :: ints [(7, x.2)]) := by
  have hr : ∀ x ∈ raps, x.2 < 128 ∧ x.2 < 256 := fun x hx => ⟨h x hx, Nat.lt_trans (h x hx) (by decide)⟩
  simp only [Nat.reducePow, Nat.reduceSub] at hn
  iso_table (16 + raps.length), 8, hr, [groups, groupsHead, cRap, Cat.bdSgpd, Cat.fsSgpd, cfoSgpd, sgpdLists, ascii, goRap,
    Cat.tyVisualRandomAccessEntry, Cat.fsVisualRandomAccessEntry]

theorem sgpd_rapL (raps : List (Bool × Nat)) (h : ∀ x ∈ raps, x.2 < 128) (hn : raps.length < 2 ^ 32 - 1) (ctx : Ctx) :
    Encodes Cat.bdSgpd ctx
      (groups 1 0 0 cRap raps.length [] [] [] [] []
        (raps.map fun x => .struct [("DescriptionLength", .uint 1), ("VisualRandomAccessEntry", goRap x)]) [] [] [])
      (groupsHead 1 cRap 0 raps.length ++ raps.flatMap fun x => ints [(32, 1)] ++ x.1 :: ints [(7, x.2)]) := by
  have hr : ∀ x ∈ raps, x.2 < 128 ∧ x.2 < 256 := fun x hx => ⟨h x hx, Nat.lt_trans (h x hx) (by decide)⟩
  simp only [Nat.reducePow, Nat.reduceSub] at hn
  iso_table (16 + 5 * raps.length), 40, hr, [groups, groupsHead, cRap, Cat.bdSgpd, Cat.fsSgpd, cfoSgpd, sgpdLists, ascii, goRap,
    Cat.tyVisualRandomAccessEntry, Cat.fsVisualRandomAccessEntry, Cat.tyVisualRandomAccessEntryL, Cat.fsVisualRandomAccessEntryL]

/-- a temporal level (10.5): can it be decoded independently of other levels? -/
def goTele (x : Bool) : Val := .struct [("LevelIndependentlyDecodable", .bool x), ("Reserved", .uint 0)]

theorem sgpd_tele (levels : List Bool) (hn : levels.length < 2 ^ 32 - 1) (ctx : Ctx) :
    Encodes Cat.bdSgpd ctx (groups 1 1 0 cTele levels.length [] [] [] [] [] [] (levels.map fun x => goTele x) [] [])
      (groupsHead 1 cTele 1 levels.length ++ levels.flatMap fun x => x :: ints [(7, 0)]) := by
  have hr : ∀ x ∈ levels, True := fun _ _ => trivial
  simp only [Nat.reducePow, Nat.reduceSub] at hn
  iso_table (16 + levels.length), 8, hr, [groups, groupsHead, cTele, Cat.bdSgpd, Cat.fsSgpd, cfoSgpd, sgpdLists, ascii, goTele,
    Cat.tyTemporalLevelEntry, Cat.fsTemporalLevelEntry]

theorem sgpd_teleL (levels : List Bool) (hn : levels.length < 2 ^ 32 - 1) (ctx : Ctx) :
    Encodes Cat.bdSgpd ctx
      (groups 1 0 0 cTele levels.length [] [] [] [] [] [] []
        (levels.map fun x => .struct [("DescriptionLength", .uint 1), ("TemporalLevelEntry", goTele x)]) [])
      (groupsHead 1 cTele 0 levels.length ++ levels.flatMap fun x => ints [(32, 1)] ++ x :: ints [(7, 0)]) := by
  have hr : ∀ x ∈ levels, True := fun _ _ => trivial
  simp only [Nat.reducePow, Nat.reduceSub] at hn
  iso_table (16 + 5 * levels.length), 40, hr, [groups, groupsHead, cTele, Cat.bdSgpd, Cat.fsSgpd, cfoSgpd, sgpdLists, ascii, goTele,
    Cat.tyTemporalLevelEntry, Cat.fsTemporalLevelEntry, Cat.tyTemporalLevelEntryL, Cat.fsTemporalLevelEntryL]

/-- groupings of other types: the entries are kept as they are -/
theorem sgpd_other (a b c d length count : Nat) (h4 : a < 256 ∧ b < 256 ∧ c < 256 ∧ d < 256)
    (ht : ∀ t ∈ [cRoll, cProl, cAlst, cRap, cTele], (a, b, c, d) ≠ t) (hl : length < 2 ^ 32 ∧ count < 2 ^ 32) (entries : Bytes)
    (hn : entries.length < 2 ^ 40) (ctx : Ctx) :
    Encodes Cat.bdSgpd ctx (groups 1 length 0 (a, b, c, d) count [] [] [] [] [] [] [] [] (goBytes entries))
      (groupsHead 1 (a, b, c, d) length count ++ bytesBits entries) := by
  have hr : ∀ x ∈ ([] : List Nat), x < 1 := by simp
  simp [cRoll, cProl, cAlst, cRap, cTele] at hn hl ht
  obtain ⟨t1, t2, t3, t4, t5⟩ := ht
  have q1 : ([a, b, c, d] == [114, 111, 108, 108]) = false := by simpa using t1
  have q2 : ([a, b, c, d] == [112, 114, 111, 108]) = false := by simpa using t2
  have q3 : ([a, b, c, d] == [97, 108, 115, 116]) = false := by simpa using t3
  have q4 : ([a, b, c, d] == [114, 97, 112, 32]) = false := by simpa using t4
  have q5 : ([a, b, c, d] == [116, 101, 108, 101]) = false := by simpa using t5
  iso_mixed (16 + entries.length), 8, hr, [SV.flags, groups, groupsHead, Cat.bdSgpd, Cat.fsSgpd, cfoSgpd, sgpdLists, ascii, hl, h4, q1, q2, q3, q4, q5]

/-- An alternative startup sequence (10.3): the first output sample, the offsets of the samples (their number is the roll count), and
numbers of output samples and of all samples. -/
structure Startup where
  first : Nat
  offsets : List Nat
  rates : List (Nat × Nat)

/-- the encoding of an alternative startup sequence -/
def Startup.bits (s : Startup) : List Bool :=
  ints [(16, s.offsets.length), (16, s.first)] ++ (s.offsets.flatMap fun x => ints [(32, x)]) ++
    s.rates.flatMap fun x => ints [(16, x.1), (16, x.2)]

/-- an alternative startup sequence as a Go value -/
def Startup.go (s : Startup) : Val :=
  .struct [("RollCount", .uint s.offsets.length), ("FirstOutputSample", .uint s.first), ("SampleOffset", .slice (s.offsets.map .uint)),
    ("Opts", .slice (s.rates.map fun x => .struct [("NumOutputSamples", .uint x.1), ("NumTotalSamples", .uint x.2)]))]

/-- the numbers are in range -/
def Startup.Fits (s : Startup) : Prop :=
  s.offsets.length < 2 ^ 16 ∧ s.first < 2 ^ 16 ∧ (∀ x ∈ s.offsets, x < 2 ^ 32) ∧ s.rates.length < 2 ^ 20 ∧
    ∀ x ∈ s.rates, x.1 < 2 ^ 16 ∧ x.2 < 2 ^ 16

instance (s : Startup) : Decidable s.Fits := inferInstanceAs (Decidable (_ ∧ _))

/-- the bytes of an alternative startup sequence -/
def Startup.len (s : Startup) : Nat := 4 + 4 * s.offsets.length + 4 * s.rates.length

theorem length_startup (s : Startup) : s.bits.length = 8 * s.len := by
  simp [Startup.bits, Startup.len, ints]; omega

theorem layout_startup (e : Env) (fi : Field) (s : Startup) : layoutV e Cat.tyAlternativeStartupEntry fi s.go = s.bits := by
  simp only [Startup.go, Cat.tyAlternativeStartupEntry]
  layout_tac [Cat.fsAlternativeStartupEntry, cfoAlternativeStartupEntry, Cfo.counted0, Startup.bits, ints,
    Cat.tyAlternativeStartupEntryOpt, Cat.fsAlternativeStartupEntryOpt]

theorem fits_startup (e : Env) (fi : Field) (s : Startup) (h : s.Fits) (hs : fi.size = 8 * s.len) (j : Nat) (hj : 8 * s.len ≤ j)
    (h8 : j % 8 = 0) : fitsV e Cat.tyAlternativeStartupEntry fi s.go j = true := by
  have hl := layout_startup e fi s
  simp only [Startup.go, Cat.tyAlternativeStartupEntry] at hl ⊢
  rw [layoutV_struct] at hl
  rw [fitsV_struct, hl, length_startup, ← hs, if_pos ⟨by simp [Startup.len] at hs; omega, by omega⟩, hs]
  obtain ⟨h1, h2, h3, h4, h5⟩ := h
  simp only [Nat.reducePow] at h1 h2 h3 h4 h5
  simp only [Startup.len] at hj ⊢
  fits_tac [Cat.fsAlternativeStartupEntry, cfoAlternativeStartupEntry, Cfo.counted0, h1, h2, h8,
    Cat.tyAlternativeStartupEntryOpt, Cat.fsAlternativeStartupEntryOpt]
  (repeat' apply And.intro) <;> try omega
  · exact decide_eq_true hj
  · refine fitsV_map _ _ _ 32 _ _ s.offsets (by simp [lengthUnlimited]; omega) rfl (by decide) (by omega) (by omega) (fun x hx => ⟨by layout_tac [], fun k hk hk8 => ?_⟩)
    have hr' := h3 x hx
    fits_tac [hr', hk]
  · refine fitsV_map_rest _ _ _ 32 _ _ s.rates rfl (by decide) (by omega) (by decide) (by simp) (fun x hx => ⟨by layout_tac [], fun k hk hk8 => ?_⟩)
    have hr' := h5 x hx
    fits_tac [hr', hk, hk8]

/-- alternative startup sequences, each of `length` bytes -/
theorem sgpd_alst (length : Nat) (entries : List Startup) (hr : ∀ s ∈ entries, s.Fits ∧ s.len = length) (h0 : length ≠ 0)
    (hl : length < 2 ^ 29) (hn : entries.length < 2 ^ 16) (ctx : Ctx) :
    Encodes Cat.bdSgpd ctx (groups 1 length 0 cAlst entries.length [] [] (entries.map Startup.go) [] [] [] [] [] [])
      (groupsHead 1 cAlst length entries.length ++ entries.flatMap Startup.bits) := by
  have hL := length * entries.length
  have hb : (entries.flatMap Startup.bits).length = 8 * (length * entries.length) := by
    rw [flatMap_const (8 * length) _ _ fun s hs => by rw [length_startup, (hr s hs).2], Nat.mul_assoc]
  have hm : length * entries.length < 2 ^ 45 := by
    calc length * entries.length ≤ length * 2 ^ 16 := Nat.mul_le_mul_left _ (by omega)
      _ < 2 ^ 45 := by omega
  have hz : length * 8 % U32 = 8 * length := by simp only [U32]; omega
  generalize hK : length * entries.length = K at hb hm
  simp only [Nat.reducePow] at hn hl hm
  refine encodes_intro (16 + K) (by simp [Cat.allDefs]) ?_ rfl ?_ (by omega) ?_ rfl rfl
  · layout_tac [SV.flags, SV.version, SV.full, verFlags, ints, groups, groupsHead, cAlst, Cat.bdSgpd, Cat.fsSgpd, cfoSgpd, sgpdLists, ascii, h0, layout_startup]
  · simp [groupsHead, verFlags, ints, -List.length_flatMap, hb]; omega
  · fits_tac [SV.flags, SV.version, SV.full, groups, cAlst, Cat.bdSgpd, Cat.fsSgpd, cfoSgpd, sgpdLists, ascii, h0, layout_startup, ← List.length_flatMap, hb]
    (repeat' apply And.intro) <;> first
      | omega
      | (refine fitsV_map _ _ _ (8 * length) _ _ _ (by simp [lengthUnlimited]; omega) rfl (by omega) (by omega) (by rw [Nat.mul_assoc, hK]; omega) (fun s hs => ⟨by rw [layout_startup, length_startup, (hr s hs).2], fun k hk hk8 => ?_⟩)
         exact fits_startup _ _ s (hr s hs).1 (by rw [(hr s hs).2]; exact hz) k (by rw [(hr s hs).2]; exact hk) hk8)

/-- a startup sequence with its length in front -/
def Startup.goL (s : Startup) : Val := .struct [("DescriptionLength", .uint s.len), ("AlternativeStartupEntry", s.go)]

theorem startup_size (s : Startup) (h : s.Fits) : s.len < 2 ^ 23 ∧ s.len * 8 % U32 = 8 * s.len := by
  obtain ⟨h1, h2, h3, h4, h5⟩ := h
  simp only [Startup.len, U32]
  omega

theorem layout_startupL (e : Env) (fi : Field) (s : Startup) :
    layoutV e Cat.tyAlternativeStartupEntryL fi s.goL = ints [(32, s.len)] ++ s.bits := by
  simp only [Startup.goL, Cat.tyAlternativeStartupEntryL]
  layout_tac [Cat.fsAlternativeStartupEntryL, cfoAlternativeStartupEntryL, layout_startup, ints]

theorem fits_startupL (e : Env) (fi : Field) (s : Startup) (h : s.Fits) (hs : fi.size = 0) (j : Nat) (hj : 32 + 8 * s.len ≤ j)
    (h8 : j % 8 = 0) : fitsV e Cat.tyAlternativeStartupEntryL fi s.goL j = true := by
  obtain ⟨h1, h2⟩ := startup_size s h
  have h3 : s.len < 4294967296 := by omega
  simp only [Startup.goL, Cat.tyAlternativeStartupEntryL]
  fits_tac [Cat.fsAlternativeStartupEntryL, cfoAlternativeStartupEntryL, layout_startup, length_startup, hs, h3]
  (repeat' apply And.intro) <;> first
    | omega
    | exact fits_startup _ _ s h h2 _ (by omega) (by omega)

/-- the bytes of startup sequences with their lengths -/
def startupsLen (l : List Startup) : Nat := (l.map fun s => 4 + s.len).sum

theorem length_startups (l : List Startup) : (l.flatMap fun s => ints [(32, s.len)] ++ s.bits).length = 8 * startupsLen l := by
  induction l with
  | nil => rfl
  | cons u l ih =>
    rw [List.flatMap_cons, List.length_append, ih, List.length_append, length_startup]
    simp [startupsLen, ints]; omega

/-- alternative startup sequences, each with its length in front -/
theorem sgpd_alstL (entries : List Startup) (hr : ∀ s ∈ entries, s.Fits) (hn : entries.length < 2 ^ 32 - 1)
    (hl : startupsLen entries < 2 ^ 45) (ctx : Ctx) :
    Encodes Cat.bdSgpd ctx (groups 1 0 0 cAlst entries.length [] [] [] (entries.map Startup.goL) [] [] [] [] [])
      (groupsHead 1 cAlst 0 entries.length ++ entries.flatMap fun s => ints [(32, s.len)] ++ s.bits) := by
  have hb := length_startups entries
  simp only [Nat.reducePow, Nat.reduceSub] at hn hl
  refine encodes_intro (16 + startupsLen entries) (by simp [Cat.allDefs]) ?_ rfl ?_ (by omega) ?_ rfl rfl
  · layout_tac [SV.flags, SV.version, SV.full, verFlags, ints, groups, groupsHead, cAlst, Cat.bdSgpd, Cat.fsSgpd, cfoSgpd, sgpdLists, ascii, layout_startupL]
  · rw [List.length_append, hb]
    simp [groupsHead, verFlags, ints]; omega
  · generalize hq : startupsLen entries = q at hb hl
    have hc : ∀ e fi, (entries.flatMap fun s => layoutV e Cat.tyAlternativeStartupEntryL fi s.goL).length = 8 * q := by
      intro e fi
      simp only [layout_startupL]
      exact hb
    fits_tac [SV.flags, SV.version, SV.full, groups, cAlst, Cat.bdSgpd, Cat.fsSgpd, cfoSgpd, sgpdLists, ascii, ← List.length_flatMap, hc]
    (repeat' apply And.intro) <;> first
      | omega
      | (refine fitsV_var _ _ _ _ Startup.goL entries (by simp [lengthUnlimited]; omega) rfl (by omega) (by rw [hc]; omega) fun s hs => ?_
         have hn : (ints [(32, s.len)] ++ s.bits).length = 32 + 8 * s.len := by
           rw [List.length_append, length_startup]; simp [ints]
         rw [layout_startupL, hn]
         exact ⟨by omega, fun j hj h8 => fits_startupL _ _ s (hr s hs) rfl j hj h8⟩)

/-- the error that a call returned -/
def _root_.Mp4.Out.error {α : Type} : Out α → Option Err
  | .err e => some e
  | _ => none

/-- Roll distances with a length in front of each entry are written as the standard says, and refused when they are read: the tag of the
field (`size=16`, box_types_iso14496_12.go:1557) says that an entry has two bytes, and it has six. -/
theorem sgpd_rollL_refuted :
    let sv := groups 1 0 0 cRoll 1 [] [.struct [("DescriptionLength", .uint 2), ("RollDistance", .int (-1))]] [] [] [] [] [] [] []
    let p : Bytes := [1, 0, 0, 0, 0x72, 0x6f, 0x6c, 0x6c, 0, 0, 0, 0, 0, 0, 0, 1, 0, 0, 0, 2, 0xff, 0xff]
    bytesBits p = groupsHead 1 cRoll 0 1 ++ ints [(32, 2)] ++ sint 16 (-1) ∧
      marshalBox Cat.bdSgpd memSink {} sv [] = (.ok p.length, p) ∧
      (unmarshalBox Cat.bdSgpd p {} p.length Cat.bdSgpd.fields.zero 0).1.error = some .invalidAlignment := by
  refine ⟨by decide +kernel, by decide +kernel, by decide +kernel⟩

/-! Concrete cases. -/

example := container_iso Cat.bdMoov (by simp [containers]) {}
example := free_iso [1, 2, 3] (by decide) {}
example := styp_iso ⟨0x6d, 0x73, 0x64, 0x68⟩ 0 [⟨0x6d, 0x73, 0x64, 0x68⟩, ⟨0x6d, 0x73, 0x69, 0x78⟩] (by decide) (by decide) {}
example := stpp_iso 1 [0x61] [] [0x62] (by decide) (by decide) (by decide) {}
example := sbtt_iso 1 [] [0x74, 0x78] (by decide) (by decide) (by decide) {}
example := wvtt_iso 1 (by decide) {}
example := webvtt_iso [0x57, 0x45, 0x42] (by decide) (by decide) {}
example := vsid_iso 0xdeadbeef (by decide) {}
example := asset_iso 0 0 0 5 14 7 false [0x73, 0x69, 0x6e, 0x67] (by decide) (by decide) (by decide) { underUdta := true }
example := data_iso 1 0 [0x78] (by decide) (by decide) { underIlstMeta := true }
example := stringData_iso [0x78, 0, 0x79] (by decide) { underIlstFreeMeta := true }
example := item_iso 0 0 0 1 1 0 [0x64, 0x61, 0x74, 0x61] [0x31, 0x2e] (by decide) (by decide) (by decide) (by decide) { underIlst := true }
example := keys_iso 0 0 0 0 [⟨[0x6d, 0x64, 0x74, 0x61], [0x61, 0x62]⟩, ⟨[0x6d, 0x64, 0x74, 0x61], []⟩] (by decide) (by decide)
  (by decide) (by decide) {}
example := meta_quicktime [1, 2] [0, 0, 0, 32, 0x68, 0x64, 0x6c, 0x72] [] (by decide) (by decide) { isQuickTimeCompatible := true }
example := sgpd_roll_partial cProl (.inr rfl) [-1, 300] (by decide) (by decide) {}
example := sgpd_roll_v2 cRoll (.inl rfl) 7 (by decide) [-1, 300] (by decide) (by decide) {}
example := sgpd_rap [(true, 5), (false, 0)] (by decide) (by decide) {}
example := sgpd_rapL [(true, 5), (false, 0)] (by decide) (by decide) {}
example := sgpd_tele [true, false] (by decide) {}
example := sgpd_teleL [true, false] (by decide) {}
example := sgpd_other 0x73 0x65 0x69 0x67 20 1 (by decide) (by decide) (by decide) [0, 0, 1] (by decide) {}
example := sgpd_alst 12 [⟨3, [5], [(1, 2)]⟩, ⟨4, [], [(1, 2), (3, 4)]⟩] (by decide) (by decide) (by decide) (by decide) {}
example := sgpd_alstL [⟨3, [5], [(1, 2)]⟩, ⟨4, [], []⟩] (by decide) (by decide) (by decide) {}

end Mp4.Props
