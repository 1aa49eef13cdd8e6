import Verif.Model.Accessors
import Verif.Props.Iso
import Verif.Props.IsoTables
import Verif.Props.IsoTrun
import Verif.Props.IsoMore
import Verif.Props.IsoEntries

/-!
# C40: the accessors return the field of the version in force

What each accessor returns after `Unmarshal` has read the bits laid down by the standard for a version and given contents.
-/

namespace Mp4.Props

open Mp4 Mp4.Spec

/-- The box type `bd` reads these bits, anywhere in a stream, into a value with the property `P`. -/
def ReadsAs (bd : BoxDef) (ctx : Ctx) (bits : List Bool) (P : SV → Prop) : Prop :=
  ∃ p : Bytes, bytesBits p = bits ∧ ∀ pre rest : Bytes, (pre ++ p ++ rest).length < 2 ^ 64 → ∃ sv,
    unmarshalBox bd (pre ++ p ++ rest) ctx p.length bd.fields.zero pre.length = (.ok (p.length, sv), pre.length + p.length) ∧ P sv

theorem ReadsAs.of {bd : BoxDef} {ctx : Ctx} {bits : List Bool} {P : SV → Prop} {sv : SV} (h : Encodes bd ctx sv bits)
    (hp : P sv) : ReadsAs bd ctx bits P := by
  obtain ⟨p, h1, _, h3⟩ := h
  exact ⟨p, h1, fun pre rest hl => ⟨sv, h3 pre rest hl, hp⟩⟩

/-- Bits of a time in a box of this version. -/
def timeBits (version : Nat) : Nat := if version = 0 then 32 else 64

/-- Element of a list at a Go index; `none` when out of range. -/
def nth {α : Type} (l : List α) (i : Int) : Option α := if i < 0 then none else l[i.toNat]?

/-- times of a movie header, and its rate -/
theorem mvhd_accessors (version f0 f1 f2 creation modification timescale duration nextTrack : Nat) (rate volume : Int)
    (matrix : List Int) (hv : version = 0 ∨ version = 1)
    (hf : f0 < 256 ∧ f1 < 256 ∧ f2 < 256) (h1 : creation < 2 ^ timeBits version) (h2 : modification < 2 ^ timeBits version)
    (h3 : timescale < 2 ^ 32) (h4 : duration < 2 ^ timeBits version) (h5 : IsInt 32 rate) (h6 : IsInt 16 volume)
    (h7 : matrix.length = 9) (h8 : ∀ x ∈ matrix, IsInt 32 x) (h9 : nextTrack < 2 ^ 32) (ctx : Ctx) :
    ReadsAs Cat.bdMvhd ctx
      (verFlags version f0 f1 f2 ++
       ints [(timeBits version, creation), (timeBits version, modification), (32, timescale), (timeBits version, duration)] ++
       sint 32 rate ++ sint 16 volume ++ ints [(16, 0), (32, 0), (32, 0)] ++ matrix.flatMap (sint 32) ++
       ints [(32, 0), (32, 0), (32, 0), (32, 0), (32, 0), (32, 0), (32, nextTrack)])
      fun sv => Acc.mvhdCreationTime sv = creation ∧ Acc.mvhdModificationTime sv = modification ∧
        Acc.mvhdDuration sv = duration ∧ Acc.mvhdRate16 sv = rate ∧ Acc.mvhdRateInt sv = rate / 65536 := by
  have hr : toSigned 16 ((rate / 65536) % 65536).toNat = rate / 65536 := by
    simp only [IsInt] at h5
    apply toSigned_of (size := 16) <;> simp at h5 ⊢ <;> omega
  rcases hv with rfl | rfl
  · exact .of (mvhd_v0 f0 f1 f2 creation modification timescale duration nextTrack rate volume matrix hf h1 h2 h3 h4 h5 h6 h7 h8 h9 ctx)
      ⟨rfl, rfl, rfl, rfl, hr⟩
  · exact .of (mvhd_v1 f0 f1 f2 creation modification timescale duration nextTrack rate volume matrix hf h1 h2 h3 h4 h5 h6 h7 h8 h9 ctx)
      ⟨rfl, rfl, rfl, rfl, hr⟩

/-- times of a track header, and the size of the track -/
theorem tkhd_accessors (version f0 f1 f2 creation modification track duration width height : Nat) (layer group volume : Int)
    (matrix : List Int) (hv : version = 0 ∨ version = 1)
    (hf : f0 < 256 ∧ f1 < 256 ∧ f2 < 256) (h1 : creation < 2 ^ timeBits version) (h2 : modification < 2 ^ timeBits version)
    (h3 : track < 2 ^ 32) (h4 : duration < 2 ^ timeBits version) (h5 : IsInt 16 layer ∧ IsInt 16 group ∧ IsInt 16 volume)
    (h7 : matrix.length = 9) (h8 : ∀ x ∈ matrix, IsInt 32 x) (h9 : width < 2 ^ 32) (h10 : height < 2 ^ 32) (ctx : Ctx) :
    ReadsAs Cat.bdTkhd ctx
      (verFlags version f0 f1 f2 ++
       ints [(timeBits version, creation), (timeBits version, modification), (32, track), (32, 0), (timeBits version, duration),
         (32, 0), (32, 0)] ++
       sint 16 layer ++ sint 16 group ++ sint 16 volume ++ ints [(16, 0)] ++ matrix.flatMap (sint 32) ++
       ints [(32, width), (32, height)])
      fun sv => Acc.tkhdCreationTime sv = creation ∧ Acc.tkhdModificationTime sv = modification ∧
        Acc.tkhdDuration sv = duration ∧ Acc.tkhdWidth16 sv = width ∧ Acc.tkhdWidthInt sv = width / 65536 ∧
        Acc.tkhdHeight16 sv = height ∧ Acc.tkhdHeightInt sv = height / 65536 := by
  have e1 : width / 65536 % 65536 = width / 65536 := by omega
  have e2 : height / 65536 % 65536 = height / 65536 := by omega
  rcases hv with rfl | rfl
  · exact .of (tkhd_v0 f0 f1 f2 creation modification track duration width height layer group volume matrix hf h1 h2 h3 h4 h5 h7 h8
      h9 h10 ctx) ⟨rfl, rfl, rfl, rfl, e1, rfl, e2⟩
  · exact .of (tkhd_v1 f0 f1 f2 creation modification track duration width height layer group volume matrix hf h1 h2 h3 h4 h5 h7 h8
      h9 h10 ctx) ⟨rfl, rfl, rfl, rfl, e1, rfl, e2⟩

/-- times of a media header -/
theorem mdhd_accessors (version f0 f1 f2 creation modification timescale duration l0 l1 l2 preDefined : Nat)
    (hv : version = 0 ∨ version = 1) (hf : f0 < 256 ∧ f1 < 256 ∧ f2 < 256) (h1 : creation < 2 ^ timeBits version)
    (h2 : modification < 2 ^ timeBits version) (h3 : timescale < 2 ^ 32) (h4 : duration < 2 ^ timeBits version)
    (h5 : l0 < 32 ∧ l1 < 32 ∧ l2 < 32) (h6 : preDefined < 2 ^ 16) (ctx : Ctx) :
    ReadsAs Cat.bdMdhd ctx
      (verFlags version f0 f1 f2 ++
       ints [(timeBits version, creation), (timeBits version, modification), (32, timescale), (timeBits version, duration),
         (1, 0), (5, l0), (5, l1), (5, l2), (16, preDefined)])
      fun sv => Acc.mdhdCreationTime sv = creation ∧ Acc.mdhdModificationTime sv = modification ∧
        Acc.mdhdDuration sv = duration := by
  rcases hv with rfl | rfl
  · exact .of (mdhd_v0 f0 f1 f2 creation modification timescale duration l0 l1 l2 preDefined hf h1 h2 h3 h4 h5 h6 ctx) ⟨rfl, rfl, rfl⟩
  · exact .of (mdhd_v1 f0 f1 f2 creation modification timescale duration l0 l1 l2 preDefined hf h1 h2 h3 h4 h5 h6 ctx) ⟨rfl, rfl, rfl⟩

/-- duration of the longest fragmented track -/
theorem mehd_accessors (version f0 f1 f2 duration : Nat) (hv : version = 0 ∨ version = 1)
    (hf : f0 < 256 ∧ f1 < 256 ∧ f2 < 256) (h1 : duration < 2 ^ timeBits version) (ctx : Ctx) :
    ReadsAs Cat.bdMehd ctx (verFlags version f0 f1 f2 ++ ints [(timeBits version, duration)])
      fun sv => Acc.mehdFragmentDuration sv = duration := by
  rcases hv with rfl | rfl
  · exact .of (mehd_v0 f0 f1 f2 duration hf h1 ctx) rfl
  · exact .of (mehd_v1 f0 f1 f2 duration hf h1 ctx) rfl

/-- decode time of a track fragment -/
theorem tfdt_accessors (version f0 f1 f2 time : Nat) (hv : version = 0 ∨ version = 1)
    (hf : f0 < 256 ∧ f1 < 256 ∧ f2 < 256) (h1 : time < 2 ^ timeBits version) (ctx : Ctx) :
    ReadsAs Cat.bdTfdt ctx (verFlags version f0 f1 f2 ++ ints [(timeBits version, time)])
      fun sv => Acc.tfdtBaseMediaDecodeTime sv = time := by
  rcases hv with rfl | rfl
  · exact .of (tfdt_v0 f0 f1 f2 time hf h1 ctx) rfl
  · exact .of (tfdt_v1 f0 f1 f2 time hf h1 ctx) rfl

/-- balance of a sound track -/
theorem smhd_accessors (f0 f1 f2 : Nat) (balance : Int) (hf : f0 < 256 ∧ f1 < 256 ∧ f2 < 256) (h1 : IsInt 16 balance) (ctx : Ctx) :
    ReadsAs Cat.bdSmhd ctx (verFlags 0 f0 f1 f2 ++ sint 16 balance ++ ints [(16, 0)])
      fun sv => Acc.smhdBalance8 sv = balance ∧ Acc.smhdBalanceInt sv = balance / 256 := by
  have hr : toSigned 8 ((balance / 256) % 256).toNat = balance / 256 := by
    simp only [IsInt] at h1
    apply toSigned_of (size := 8) <;> simp at h1 ⊢ <;> omega
  exact .of (smhd_v0 f0 f1 f2 balance hf h1 ctx) ⟨rfl, hr⟩

/-- composition to decode times -/
theorem cslg_accessors (version f0 f1 f2 : Nat) (shift least greatest start stop : Int) (hv : version = 0 ∨ version = 1)
    (hf : f0 < 256 ∧ f1 < 256 ∧ f2 < 256) (h1 : IsInt (timeBits version) shift) (h2 : IsInt (timeBits version) least)
    (h3 : IsInt (timeBits version) greatest) (h4 : IsInt (timeBits version) start) (h5 : IsInt (timeBits version) stop) (ctx : Ctx) :
    ReadsAs Cat.bdCslg ctx
      (verFlags version f0 f1 f2 ++ sint (timeBits version) shift ++ sint (timeBits version) least ++
        sint (timeBits version) greatest ++ sint (timeBits version) start ++ sint (timeBits version) stop)
      fun sv => Acc.cslgCompositionToDTSShift sv = shift ∧ Acc.cslgLeastDecodeToDisplayDelta sv = least ∧
        Acc.cslgGreatestDecodeToDisplayDelta sv = greatest ∧ Acc.cslgCompositionStartTime sv = start ∧
        Acc.cslgCompositionEndTime sv = stop := by
  rcases hv with rfl | rfl
  · exact .of (cslg_v0 f0 f1 f2 shift least greatest start stop hf h1 h2 h3 h4 h5 ctx) ⟨rfl, rfl, rfl, rfl, rfl⟩
  · exact .of (cslg_v1 f0 f1 f2 shift least greatest start stop hf h1 h2 h3 h4 h5 ctx) ⟨rfl, rfl, rfl, rfl, rfl⟩

/-- times of a segment index -/
theorem sidx_accessors (version f0 f1 f2 id timescale time first : Nat) (refs : List SegRef) (hv : version = 0 ∨ version = 1)
    (hf : f0 < 256 ∧ f1 < 256 ∧ f2 < 256) (h1 : id < 2 ^ 32 ∧ timescale < 2 ^ 32)
    (h2 : time < 2 ^ timeBits version ∧ first < 2 ^ timeBits version)
    (hr : ∀ x ∈ refs, x.Valid) (hn : refs.length < 2 ^ 16) (ctx : Ctx) :
    ReadsAs Cat.bdSidx ctx
      (verFlags version f0 f1 f2 ++
        ints [(32, id), (32, timescale), (timeBits version, time), (timeBits version, first), (16, 0), (16, refs.length)] ++
        refs.flatMap SegRef.bits)
      fun sv => Acc.sidxEarliestPresentationTime sv = time ∧ Acc.sidxFirstOffset sv = first := by
  rcases hv with rfl | rfl
  · exact .of (sidx_v0 f0 f1 f2 id timescale time first refs hf h1 h2 hr hn ctx) ⟨rfl, rfl⟩
  · exact .of (sidx_v1 f0 f1 f2 id timescale time first refs hf h1 h2 hr hn ctx) ⟨rfl, rfl⟩

/-! ## Accessors of an entry -/

theorem entry_map {α β : Type} (sv : SV) (name : String) (l : List α) (g : α → Val) (f : SV → β) (k : α → β)
    (h : sv.get name = some (.slice (l.map g))) (hk : ∀ x ∈ l, ∃ e, g x = .struct e ∧ f e = k x) (i : Int) :
    (Acc.entry sv name i).map f = nth (l.map k) i := by
  unfold Acc.entry nth
  split
  · rfl
  · rw [h]
    simp only [List.getElem?_map]
    cases e : l[i.toNat]? with
    | none => rfl
    | some x =>
      obtain ⟨v, h1, h2⟩ := hk x (List.mem_of_getElem? e)
      simp only [Option.map_some, h1, h2]

theorem elem_map (sv : SV) (name : String) (l : List Nat) (h : sv.get name = some (.slice (l.map .uint))) (i : Int) :
    Acc.elem sv name i = nth l i := by
  unfold Acc.elem nth
  split
  · rfl
  · rw [h]
    simp only [List.getElem?_map]
    cases e : l[i.toNat]? <;> rfl

local macro "indexed " l:term ", " hk:term : tactic => `(tactic|
  first
  | (refine (if_pos rfl).trans (entry_map _ "Entries" $l ?_ _ _ ?_ ?_ _)
     rotate_left
     exact rfl
     exact $hk)
  | (refine (if_neg (show (1 : Nat) ≠ 0 by decide)).trans ((if_pos rfl).trans (entry_map _ "Entries" $l ?_ _ _ ?_ ?_ _))
     rotate_left
     exact rfl
     exact $hk))

/-- composition offset of a run of samples, version 0 -/
theorem ctts_accessors_v0 (f0 f1 f2 : Nat) (runs : List (Nat × Nat)) (hf : f0 < 256 ∧ f1 < 256 ∧ f2 < 256)
    (hr : ∀ x ∈ runs, x.1 < 2 ^ 32 ∧ x.2 < 2 ^ 32) (hn : runs.length < 2 ^ 32 - 1) (ctx : Ctx) :
    ReadsAs Cat.bdCtts ctx
      (verFlags 0 f0 f1 f2 ++ ints [(32, runs.length)] ++ runs.flatMap fun x => ints [(32, x.1), (32, x.2)])
      fun sv => ∀ i, Acc.cttsSampleOffset sv i = nth (runs.map fun x => (x.2 : Int)) i :=
  .of (ctts_v0 f0 f1 f2 runs hf hr hn ctx) fun i => by
    indexed runs, fun x _ => ⟨_, rfl, rfl⟩

/-- composition offset of a run of samples, version 1: may be negative -/
theorem ctts_accessors_v1 (f0 f1 f2 : Nat) (runs : List (Nat × Int)) (hf : f0 < 256 ∧ f1 < 256 ∧ f2 < 256)
    (hr : ∀ x ∈ runs, x.1 < 2 ^ 32 ∧ IsInt 32 x.2) (hn : runs.length < 2 ^ 32 - 1) (ctx : Ctx) :
    ReadsAs Cat.bdCtts ctx
      (verFlags 1 f0 f1 f2 ++ ints [(32, runs.length)] ++ runs.flatMap fun x => ints [(32, x.1)] ++ sint 32 x.2)
      fun sv => ∀ i, Acc.cttsSampleOffset sv i = nth (runs.map fun x => x.2) i :=
  .of (ctts_v1 f0 f1 f2 runs hf hr hn ctx) fun i => by
    indexed runs, fun x _ => ⟨_, rfl, rfl⟩

/-- duration and start of an edit -/
theorem elst_accessors (version f0 f1 f2 : Nat) (edits : List (Nat × Int × Int × Int)) (hv : version = 0 ∨ version = 1)
    (hf : f0 < 256 ∧ f1 < 256 ∧ f2 < 256)
    (hr : ∀ x ∈ edits, x.1 < 2 ^ timeBits version ∧ IsInt (timeBits version) x.2.1 ∧ IsInt 16 x.2.2.1 ∧ IsInt 16 x.2.2.2)
    (hn : edits.length < 2 ^ 32 - 1) (ctx : Ctx) :
    ReadsAs Cat.bdElst ctx
      (verFlags version f0 f1 f2 ++ ints [(32, edits.length)] ++
        edits.flatMap fun x => ints [(timeBits version, x.1)] ++ sint (timeBits version) x.2.1 ++ sint 16 x.2.2.1 ++ sint 16 x.2.2.2)
      fun sv => (∀ i, Acc.elstSegmentDuration sv i = nth (edits.map (·.1)) i) ∧
        ∀ i, Acc.elstMediaTime sv i = nth (edits.map (·.2.1)) i := by
  rcases hv with rfl | rfl
  · refine .of (elst_v0 f0 f1 f2 edits hf hr hn ctx) ⟨fun i => ?_, fun i => ?_⟩
    all_goals
      indexed edits, fun x _ => ⟨_, rfl, rfl⟩
  · refine .of (elst_v1 f0 f1 f2 edits hf hr hn ctx) ⟨fun i => ?_, fun i => ?_⟩
    all_goals
      indexed edits, fun x _ => ⟨_, rfl, rfl⟩

/-- offsets of sample auxiliary information -/
theorem saio_accessors (version f0 f1 f2 param : Nat) (type : Bytes) (offsets : List Nat) (hv : version = 0 ∨ version = 1)
    (hf : f0 < 256 ∧ f1 < 256 ∧ f2 < 256) (ht : type.length = 4)
    (hp : param < 2 ^ 32) (z : f2 % 2 = 0 → type = [0, 0, 0, 0] ∧ param = 0)
    (hr : ∀ x ∈ offsets, x < 2 ^ timeBits version) (hn : offsets.length < 2 ^ 32 - 1) (ctx : Ctx) :
    ReadsAs Cat.bdSaio ctx
      (verFlags version f0 f1 f2 ++ (if f2 % 2 = 1 then bytesBits type ++ ints [(32, param)] else []) ++
        ints [(32, offsets.length)] ++ offsets.flatMap fun x => ints [(timeBits version, x)])
      fun sv => ∀ i, Acc.saioOffset sv i = nth offsets i := by
  rcases hv with rfl | rfl
  · exact .of (saio_v0 f0 f1 f2 param type offsets hf ht hp z hr hn ctx) fun i => (if_pos rfl).trans (elem_map _ "OffsetV0" offsets rfl i)
  · exact .of (saio_v1 f0 f1 f2 param type offsets hf ht hp z hr hn ctx) fun i => (if_neg (show (1 : Nat) ≠ 0 by decide)).trans ((if_pos rfl).trans (elem_map _ "OffsetV1" offsets rfl i))

/-- time and place of a random access point -/
theorem tfra_accessors (version f0 f1 f2 track a b c : Nat) (entries : List Access) (hf : f0 < 256 ∧ f1 < 256 ∧ f2 < 256)
    (hv : version = 0 ∨ version = 1) (h1 : track < 2 ^ 32) (ha : 1 ≤ a ∧ a ≤ 4) (hb : 1 ≤ b ∧ b ≤ 4) (hc : 1 ≤ c ∧ c ≤ 4)
    (hr : ∀ x ∈ entries, x.Valid version a b c) (hn : entries.length < 2 ^ 32 - 1) (ctx : Ctx) :
    ReadsAs Cat.bdTfra ctx
      (verFlags version f0 f1 f2 ++
        ints [(32, track), (26, 0), (2, a - 1), (2, b - 1), (2, c - 1), (32, entries.length)] ++
        entries.flatMap (Access.bits version a b c))
      fun sv => (∀ i, Acc.tfraTime sv i = nth (entries.map (·.time)) i) ∧
        ∀ i, Acc.tfraMoofOffset sv i = nth (entries.map (·.offset)) i := by
  refine .of (tfra_iso version f0 f1 f2 track a b c entries hf hv h1 ha hb hc hr hn ctx) ?_
  rcases hv with rfl | rfl
  all_goals
    refine ⟨fun i => ?_, fun i => ?_⟩
    all_goals
      indexed entries, fun x _ => ⟨_, rfl, rfl⟩

/-- composition offset of a sample of a run; 0 when the run does not give one -/
theorem trun_accessors (version flags first : Nat) (dataOffset : Int) (samples : List RunSample) (hv : version = 0 ∨ version = 1)
    (hf : flags < 2 ^ 24) (h1 : IsInt 32 dataOffset) (z1 : flags &&& 0x1 = 0 → dataOffset = 0)
    (h2 : first < 2 ^ 32) (z2 : flags &&& 0x4 = 0 → first = 0)
    (hr : ∀ x ∈ samples, x.Valid version flags) (hn : samples.length < 2 ^ 32 - 1) (ctx : Ctx) :
    ReadsAs Cat.bdTrun ctx
      (ints [(8, version), (24, flags), (32, samples.length)] ++ (if flags &&& 0x1 ≠ 0 then sint 32 dataOffset else []) ++
        optInt (flags &&& 0x4 ≠ 0) 32 first ++ samples.flatMap (RunSample.bits flags))
      fun sv => ∀ i, Acc.trunSampleCompositionTimeOffset sv i = nth (samples.map (·.offset)) i := by
  refine .of (trun_iso version flags first dataOffset samples hv hf h1 z1 h2 z2 hr hn ctx) fun i => ?_
  rcases hv with rfl | rfl
  · indexed samples, fun x hx => ⟨_, rfl, Int.toNat_of_nonneg (hr x hx).offset.1.1⟩
  · indexed samples, fun x _ => ⟨_, rfl, rfl⟩

/-- Every accessor returns 0 for a version other than 0 and 1, whatever the index. -/
theorem accessors_other_version (sv : SV) (h0 : sv.version ≠ 0) (h1 : sv.version ≠ 1) :
    (∀ f ∈ [Acc.mvhdCreationTime, Acc.mvhdModificationTime, Acc.mvhdDuration, Acc.tkhdCreationTime, Acc.tkhdModificationTime,
      Acc.tkhdDuration, Acc.mdhdCreationTime, Acc.mdhdModificationTime, Acc.mdhdDuration, Acc.mehdFragmentDuration,
      Acc.tfdtBaseMediaDecodeTime, Acc.sidxEarliestPresentationTime, Acc.sidxFirstOffset], f sv = 0) ∧
    (∀ f ∈ [Acc.cslgCompositionToDTSShift, Acc.cslgLeastDecodeToDisplayDelta, Acc.cslgGreatestDecodeToDisplayDelta,
      Acc.cslgCompositionStartTime, Acc.cslgCompositionEndTime], f sv = 0) ∧
    (∀ f ∈ [Acc.elstSegmentDuration, Acc.saioOffset, Acc.tfraTime, Acc.tfraMoofOffset], ∀ i, f sv i = some 0) ∧
    (∀ f ∈ [Acc.cttsSampleOffset, Acc.elstMediaTime, Acc.trunSampleCompositionTimeOffset], ∀ i, f sv i = some 0) := by
  simp only [List.forall_mem_cons]
  repeat' apply And.intro
  all_goals first
    | (intro i; simp [Acc.elstSegmentDuration, Acc.saioOffset, Acc.tfraTime, Acc.tfraMoofOffset, Acc.cttsSampleOffset,
        Acc.elstMediaTime, Acc.trunSampleCompositionTimeOffset, h0, h1]; done)
    | (simp [Acc.mvhdCreationTime, Acc.mvhdModificationTime, Acc.mvhdDuration, Acc.tkhdCreationTime, Acc.tkhdModificationTime,
      Acc.tkhdDuration, Acc.mdhdCreationTime, Acc.mdhdModificationTime, Acc.mdhdDuration, Acc.mehdFragmentDuration,
      Acc.tfdtBaseMediaDecodeTime, Acc.sidxEarliestPresentationTime, Acc.sidxFirstOffset, Acc.uintOf, Acc.intOf,
      Acc.cslgCompositionToDTSShift, Acc.cslgLeastDecodeToDisplayDelta, Acc.cslgGreatestDecodeToDisplayDelta,
      Acc.cslgCompositionStartTime, Acc.cslgCompositionEndTime, h0, h1]; done)

/-- sample rate of an audio sample entry: 16.16 fixed point, and its integral part -/
theorem audio_accessors (index version channels size preDefined rate : Nat) (h0 : index < 2 ^ 16 ∧ version < 2 ^ 16)
    (h1 : channels < 2 ^ 16 ∧ size < 2 ^ 16 ∧ preDefined < 2 ^ 16) (h2 : rate < 2 ^ 32) (ctx : Ctx)
    (hc : ctx.isQuickTimeCompatible = false ∨ (ctx.underWave = false ∧ version ≠ 1 ∧ version ≠ 2)) :
    ReadsAs Cat.bdAudioSampleEntry ctx
      (ints [(8, 0), (8, 0), (8, 0), (8, 0), (8, 0), (8, 0), (16, index), (16, version), (16, 0), (16, 0), (16, 0), (16, channels),
        (16, size), (16, preDefined), (16, 0), (32, rate)])
      fun sv => Acc.audioSampleRate16 sv = rate ∧ Acc.audioSampleRateInt sv = rate / 65536 := by
  refine .of (audio_iso index version channels size preDefined rate h0 h1 h2 ctx hc) ⟨rfl, ?_⟩
  show rate / 65536 % 65536 = rate / 65536
  omega

/-! Concrete cases. -/

example := audio_accessors 1 0 2 16 0 (48000 * 65536 + 32768) (by decide) (by decide) (by decide) {} (by decide)

example := mvhd_accessors 1 0 0 0 3791000000 3791000000 1000 9050000000 3 (-98304) 256
  [65536, 0, 0, 0, 65536, 0, 0, 0, 1073741824] (by decide) (by decide) (by decide) (by decide) (by decide) (by decide) (by decide)
  (by decide) rfl (by decide) (by decide) {}
example := tkhd_accessors 0 0 0 3 3791000000 3791000000 1 90500 (1920 * 65536) (1080 * 65536 + 32768) 0 0 256
  [65536, 0, 0, 0, 65536, 0, 0, 0, 1073741824] (by decide) (by decide) (by decide) (by decide) (by decide) (by decide) (by decide)
  rfl (by decide) (by decide) (by decide) {}
example := mdhd_accessors 1 0 0 0 5 6 48000 10000000000 10 14 7 0 (by decide) (by decide) (by decide) (by decide) (by decide)
  (by decide) (by decide) (by decide) {}
example := mehd_accessors 1 0 0 0 10000000000 (by decide) (by decide) (by decide) {}
example := tfdt_accessors 1 0 0 0 10000000000 (by decide) (by decide) (by decide) {}
example := smhd_accessors 0 0 0 (-384) (by decide) (by decide) {}
example := cslg_accessors 1 0 0 0 1024 (-1) 2048 0 90000000000 (by decide) (by decide) (by decide) (by decide) (by decide)
  (by decide) (by decide) {}
example := sidx_accessors 0 0 0 0 1 1000 0 52 [] (by decide) (by decide) (by decide) (by decide) (by simp) (by decide) {}
example := ctts_accessors_v0 0 0 0 [(1, 1024), (2, 4294967295)] (by decide) (by decide) (by decide) {}
example := ctts_accessors_v1 0 0 0 [(1, 1024), (2, -512)] (by decide) (by decide) (by decide) {}
example := elst_accessors 0 0 0 0 [(1000, -1, 1, 0), (5000, 1024, 1, 0)] (by decide) (by decide) (by decide) (by decide) {}
example := saio_accessors 1 0 0 1 7 [99, 101, 110, 99] [10000000000, 5] (by decide) (by decide) (by decide) (by decide) (by decide)
  (by decide) (by decide) {}
example := tfra_accessors 0 0 0 0 1 1 1 1 [⟨5, 100, 1, 1, 1⟩] (by decide) (by decide) (by decide) (by decide) (by decide) (by decide)
  (fun _ h => by cases List.mem_singleton.mp h; exact ⟨by decide, by decide, by decide, by decide, by decide⟩) (by decide) {}
example := trun_accessors 1 0x801 0 160 [⟨0, 0, 0, -512⟩] (by decide) (by decide) (by decide) (by decide) (by decide) (by decide)
  (fun _ h => by cases List.mem_singleton.mp h; exact ⟨by decide, by decide, by decide, by decide⟩) (by decide) {}
example := accessors_other_version [fullBox 2 0 0 0, ("Entries", .slice [])] (by decide) (by decide)

end Mp4.Props
