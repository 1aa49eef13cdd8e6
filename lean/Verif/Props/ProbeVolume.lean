import Verif.Props.Volume
import Verif.Props.ToolProbe
import Verif.Props.ProbeTables

/-!
# C67: the summary of a file is no larger than the file; C33 for files of less than 2^34 bytes
-/

namespace Mp4.Props

open Mp4 Mp4.Spec

variable {d : Bytes}

/-! ## The boxes that Probe reads -/

theorem bd_stco : ∀ bd ∈ Cat.allDefs, bd.goName = "Stco" → bd = Cat.bdStco := by
  unfold Cat.allDefs
  simp only [List.forall_mem_cons]
  repeat' apply And.intro
  all_goals first
    | (intro _; rfl)
    | (intro _; trivial)
    | (intro h; exact absurd h (by decide))
    | (intro x hx; exact absurd hx (by simp))

theorem bd_co64 : ∀ bd ∈ Cat.allDefs, bd.goName = "Co64" → bd = Cat.bdCo64 := by
  unfold Cat.allDefs
  simp only [List.forall_mem_cons]
  repeat' apply And.intro
  all_goals first
    | (intro _; rfl)
    | (intro _; trivial)
    | (intro h; exact absurd h (by decide))
    | (intro x hx; exact absurd hx (by simp))

theorem bd_stsc : ∀ bd ∈ Cat.allDefs, bd.goName = "Stsc" → bd = Cat.bdStsc := by
  unfold Cat.allDefs
  simp only [List.forall_mem_cons]
  repeat' apply And.intro
  all_goals first
    | (intro _; rfl)
    | (intro _; trivial)
    | (intro h; exact absurd h (by decide))
    | (intro x hx; exact absurd hx (by simp))

theorem std_stco (ctx : Ctx) : BoxMap.std.getBoxDef tStco ctx = some Cat.bdStco := by
  obtain ⟨bd, h1, h2⟩ := lookup_single (asserted (tStco, "Stco") (by decide)) ctx
  rw [h1, bd_stco bd (std_mem h1) h2]

theorem std_co64 (ctx : Ctx) : BoxMap.std.getBoxDef tCo64 ctx = some Cat.bdCo64 := by
  obtain ⟨bd, h1, h2⟩ := lookup_single (asserted (tCo64, "Co64") (by decide)) ctx
  rw [h1, bd_co64 bd (std_mem h1) h2]

theorem std_stsc (ctx : Ctx) : BoxMap.std.getBoxDef tStsc ctx = some Cat.bdStsc := by
  obtain ⟨bd, h1, h2⟩ := lookup_single (asserted (tStsc, "Stsc") (by decide)) ctx
  rw [h1, bd_stsc bd (std_mem h1) h2]

theorem std_elst (ctx : Ctx) : BoxMap.std.getBoxDef tElst ctx = some Cat.bdElst := by
  obtain ⟨bd, h1, h2⟩ := lookup_single (asserted (tElst, "Elst") (by decide)) ctx
  rw [h1, bd_elst bd (std_mem h1) h2]

theorem readPayload_decoded (hd : d.length ≤ 2 ^ 48) {bi : BoxInfo} (hin : bi.offset + bi.headerSize ≤ d.length) {v : BoxVal} {n p : Nat}
    (h : readPayloadP BoxMap.std d bi 0 = (.ok (v, n), p)) : ∃ ps p0 p1, BoxMap.std.getBoxDef bi.type bi.ctx = some v.bd ∧
      unmarshalBox v.bd d bi.ctx ps v.bd.fields.zero p0 = (.ok (n, v.sv), p1) ∧ p0 + n ≤ d.length ∧
      typedFields v.bd.fields v.sv = true := by
  unfold readPayloadP at h
  rw [M.bind_ok (seekToPayload_ok hd hin 0)] at h
  unfold BoxMap.unmarshalAny at h
  cases hn : BoxMap.std.new bi.type bi.ctx with
  | error e => rw [hn] at h; cases h
  | ok box =>
    rw [hn] at h
    simp only at h
    have hnew : BoxMap.std.getBoxDef bi.type bi.ctx = some box.bd ∧ box.sv = box.bd.fields.zero := by
      unfold BoxMap.new at hn
      cases hg : BoxMap.std.getBoxDef bi.type bi.ctx with
      | none => rw [hg] at hn; cases hn
      | some bd => rw [hg] at hn; cases hn; exact ⟨rfl, rfl⟩
    obtain ⟨h1, h3⟩ := hnew
    have hbd := std_mem h1
    rw [h3] at h
    generalize hu : unmarshalBox box.bd d bi.ctx _ box.bd.fields.zero _ = r at h
    obtain ⟨o, q⟩ := r
    cases o with
    | ok y =>
      obtain ⟨k, sv⟩ := y
      cases h
      obtain ⟨i1, i2, i3, i4⟩ := unmarshal_stays_inside box.bd hbd d hd _ hin bi.ctx _ _ (zero_typedFields _) _ _ _ hu
      exact ⟨_, _, _, h1, hu, by omega, i4⟩
    | err e => cases h
    | panic => cases h
    | hang => cases h

/-- How a box with payload has been decoded. -/
theorem payload_decoded (hd : d.length ≤ 2 ^ 48) {fuel : Nat} {bi : BoxInfo} (hbi : Real d bi) {paths : List (List BoxType)}
    {pos p : Nat} {l : List (BoxInfo × BoxVal)} (h : extractBoxesWithPayload BoxMap.std d fuel (some bi) paths pos = (.ok l, p))
    {x : BoxInfo × BoxVal} (hx : x ∈ l) : ∃ ctx ps p0 n p1, BoxMap.std.getBoxDef x.1.type ctx = some x.2.bd ∧
      unmarshalBox x.2.bd d ctx ps x.2.bd.fields.zero p0 = (.ok (n, x.2.sv), p1) ∧ p0 + n ≤ d.length ∧
      typedFields x.2.bd.fields x.2.sv = true := by
  have hl : ∃ path, Leads d (some bi) path x.1 := by
    obtain ⟨_, hs⟩ := (extract_payload_sound hd fuel bi hbi paths pos).2 l p h
    obtain ⟨⟨path, hl, -⟩, -⟩ := hs x hx
    exact ⟨path, hl⟩
  obtain ⟨path, hl⟩ := hl
  have hin := (header_of_real hd (leads_real hl)).inside
  unfold extractBoxesWithPayload at h
  obtain ⟨⟨bis, par⟩, p2, e1, h⟩ := bind_ok_inv h
  obtain ⟨-, h2⟩ := decodeAll_ok h
  obtain ⟨n, p3, e2⟩ := h2 x hx 0
  obtain ⟨ps, p0, p1, k1, k2, k3, k4⟩ := readPayload_decoded hd (by exact hin) e2
  exact ⟨_, ps, p0, n, p1, k1, k2, k3, k4⟩

/-- the offsets of a `stco` box take four bytes each -/
theorem stco_bytes {ctx : Ctx} {ps p0 n p1 : Nat} {dst sv : SV} (h : unmarshalBox Cat.bdStco d ctx ps dst p0 = (.ok (n, sv), p1)) :
    4 * (numbers sv "ChunkOffset").length ≤ n := by
  obtain ⟨l, h1, h2⟩ := last_list (bd := Cat.bdStco) (by simp [Cat.allDefs]) rfl rfl (head := Fields.ofList [
    ({ name := "FullBox", extend := true }, fullBoxTy), ({ name := "EntryCount", size := 32 }, (.uint 32))])
    (f := { name := "ChunkOffset", size := 32, lenDyn := true }) (t := .uint 32) rfl (by decide) (by decide) (by decide) (by decide) (by decide) h
  simp only at h1
  simp only [Ty.least, Field.leastSize, Bool.false_eq_true, if_false] at h2
  unfold numbers
  rw [h1]
  simp only [List.length_map]
  omega

theorem co64_bytes {ctx : Ctx} {ps p0 n p1 : Nat} {dst sv : SV} (h : unmarshalBox Cat.bdCo64 d ctx ps dst p0 = (.ok (n, sv), p1)) :
    8 * (numbers sv "ChunkOffset").length ≤ n := by
  obtain ⟨l, h1, h2⟩ := last_list (bd := Cat.bdCo64) (by simp [Cat.allDefs]) rfl rfl (head := Fields.ofList [
    ({ name := "FullBox", extend := true }, fullBoxTy), ({ name := "EntryCount", size := 32 }, (.uint 32))])
    (f := { name := "ChunkOffset", size := 64, lenDyn := true }) (t := .uint 64) rfl (by decide) (by decide) (by decide) (by decide) (by decide) h
  simp only at h1
  simp only [Ty.least, Field.leastSize, Bool.false_eq_true, if_false] at h2
  unfold numbers
  rw [h1]
  simp only [List.length_map]
  omega

theorem elst_bytes {ctx : Ctx} {ps p0 n p1 : Nat} {dst sv : SV} (h : unmarshalBox Cat.bdElst d ctx ps dst p0 = (.ok (n, sv), p1)) :
    4 * (elstEntries sv).length ≤ n := by
  obtain ⟨l, h1, h2⟩ := last_list (bd := Cat.bdElst) (by simp [Cat.allDefs]) rfl rfl (head := Fields.ofList [
    ({ name := "FullBox", extend := true }, fullBoxTy), ({ name := "EntryCount", size := 32 }, (.uint 32))])
    (f := { name := "Entries", lenDyn := true, sizeDyn := true }) (t := Cat.tyElstEntry) rfl (by decide) (by decide) (by decide) (by decide)
    (by decide) h
  simp only at h1
  have hk : Ty.least (leastDyn Cat.bdElst) Cat.tyElstEntry { name := "Entries", lenDyn := true, sizeDyn := true } = 32 := by decide
  rw [hk] at h2
  unfold elstEntries SV.structs
  rw [h1]
  simp only [List.length_map]
  omega

/-- the first chunks of a `stsc` table are 32-bit numbers -/
theorem stsc_small {sv : SV} (h : typedFields Cat.bdStsc.fields sv = true) : ∀ e ∈ stscTable sv, e.1 < 2 ^ 32 := by
  obtain ⟨v, hv, ht⟩ := typed_get (f := { name := "Entries", lenDyn := true, size := 96 }) (t := .slice Cat.tyStscEntry)
    (Fields.nodup_names _ (allDefs_nodup Cat.bdStsc (by simp [Cat.allDefs]))) h (by simp [Cat.bdStsc, Cat.fsStsc, Fields.ofList, Fields.toList])
  simp only at hv
  intro e he
  unfold stscTable rows at he
  rw [hv] at he
  cases v with
  | slice l =>
    simp only [List.map_map] at he
    obtain ⟨y, hy, rfl⟩ := List.mem_map.1 he
    have ht : l.all (fun x => typedV Cat.tyStscEntry x) = true := by rw [← ht]; simp only [typedV]
    have hty := List.all_eq_true.1 ht y hy
    cases y with
    | struct e =>
      have hte : typedFields Cat.fsStscEntry e = true := by rw [← hty]; simp only [Cat.tyStscEntry, typedV]
      obtain ⟨v, hv, hw⟩ := typed_get (f := { name := "FirstChunk", size := 32 }) (t := .uint 32) (by decide) hte
        (by simp [Cat.fsStscEntry, Fields.ofList, Fields.toList])
      obtain ⟨n, rfl, hn⟩ := typedV_uint_inv hw
      simp only at hv
      simp only [Function.comp, SV.uint, hv]
      exact hn
    | _ => simp [Function.comp, SV.uint, SV.get]
  | _ => simp at he

/-! ## Tracks -/

/-- The chunks of a track are at most one for every four bytes of the file, and so are the entries of its edit list. -/
theorem track_volume (hd : d.length ≤ 2 ^ 48) {fuel : Nat} {bi : BoxInfo} (hbi : Real d bi) {pos p : Nat} {t : Track}
    (h : probeTrak BoxMap.std d fuel bi pos = (.ok t, p)) : 4 * t.chunks.length ≤ d.length ∧ 4 * t.editList.length ≤ d.length := by
  obtain ⟨l, f, h1, h2, h3⟩ := probeTrak_ok h
  obtain ⟨tkhd, mdhd, mp4a, chunks, stts, stsc, -, -, -, g4, -, -, g7, -, -, -, -, -, -, g14, -⟩ := trackOf_ok h3
  obtain ⟨-, c2, -, -, -, -, c7, -, -, -, -, c12, -⟩ := collect_eq l {} f h2
  rw [Option.or_none] at c2 c7 c12
  have stco : ∀ sv, lastPayload l tStco = some sv → 4 * (numbers sv "ChunkOffset").length ≤ d.length := by
    intro sv hs
    obtain ⟨x, hx, ht, rfl⟩ := lastPayload_mem hs
    obtain ⟨ctx, ps, p0, n, p1, k1, k2, k3, -⟩ := payload_decoded hd hbi h1 hx
    rw [ht, std_stco] at k1
    rw [← Option.some.inj k1] at k2
    exact Nat.le_trans (stco_bytes k2) (by omega)
  have co64 : ∀ sv, lastPayload l tCo64 = some sv → 8 * (numbers sv "ChunkOffset").length ≤ d.length := by
    intro sv hs
    obtain ⟨x, hx, ht, rfl⟩ := lastPayload_mem hs
    obtain ⟨ctx, ps, p0, n, p1, k1, k2, k3, -⟩ := payload_decoded hd hbi h1 hx
    rw [ht, std_co64] at k1
    rw [← Option.some.inj k1] at k2
    exact Nat.le_trans (co64_bytes k2) (by omega)
  have elst : ∀ sv, lastPayload l tElst = some sv → 4 * (elstEntries sv).length ≤ d.length := by
    intro sv hs
    obtain ⟨x, hx, ht, rfl⟩ := lastPayload_mem hs
    obtain ⟨ctx, ps, p0, n, p1, k1, k2, k3, -⟩ := payload_decoded hd hbi h1 hx
    rw [ht, std_elst] at k1
    rw [← Option.some.inj k1] at k2
    exact Nat.le_trans (elst_bytes k2) (by omega)
  constructor
  · rw [stscLoop_length g7]
    unfold chunkTable at g4
    rw [c7, c12] at g4
    cases hs : lastPayload l tStco with
    | some sv =>
      rw [hs] at g4
      cases g4
      unfold chunksOf
      rw [List.length_map]
      exact stco sv hs
    | none =>
      cases hs2 : lastPayload l tCo64 with
      | some sv =>
        rw [hs, hs2] at g4
        cases g4
        unfold chunksOf
        rw [List.length_map]
        exact Nat.le_trans (Nat.mul_le_mul_right _ (by decide)) (co64 sv hs2)
      | none => rw [hs, hs2] at g4; cases g4
  · rw [g14, c2]
    cases hs : lastPayload l tElst with
    | some sv => exact elst sv hs
    | none => exact Nat.zero_le _

/-- **C33** for files — If a `trak` box of a file of less than 16 GiB can be summarised, then the list of its chunks has the offsets of the
`stco` box, or of the `co64` box if there is no `stco` box, in order; and the samples per chunk of chunk `j` are those of the
last run of `stsc` whose first chunk is at or before it.

Missing: larger files, which can have 2^32 chunks (`chunks_lost`). -/
theorem chunk_table_file_partial (hd : d.length < 2 ^ 34) {fuel : Nat} {bi : BoxInfo} (hbi : Real d bi) {pos p : Nat} {t : Track}
    (h : probeTrak BoxMap.std d fuel bi pos = (.ok t, p)) :
    ∃ l, extractBoxesWithPayload BoxMap.std d fuel (some bi) trakPaths pos = (.ok l, p) ∧
    ∃ stsc offsets, lastPayload l tStsc = some stsc ∧
      ((∃ stco, lastPayload l tStco = some stco ∧ offsets = numbers stco "ChunkOffset") ∨
        (lastPayload l tStco = none ∧ ∃ co64, lastPayload l tCo64 = some co64 ∧ offsets = numbers co64 "ChunkOffset")) ∧
      t.chunks.map (·.dataOffset) = offsets ∧
      ∀ (j : Nat) (c : Chunk), t.chunks[j]? = some c → c.samplesPerChunk = (lastRun (stscTable stsc) j).getD 0 := by
  have hv := (track_volume (by omega) hbi h).1
  obtain ⟨l, h1, stsc, offsets, h2, h3, h4⟩ := chunk_table_partial BoxMap.std fuel bi pos p t h (by omega)
  obtain ⟨x, hx, ht, hxs⟩ := lastPayload_mem h2
  obtain ⟨ctx, ps, p0, n, p1, k1, -, -, k4⟩ := payload_decoded (by omega) hbi h1 hx
  rw [ht, std_stsc] at k1
  rw [← Option.some.inj k1, hxs] at k4
  obtain ⟨h5, h6⟩ := h4 (stsc_small k4)
  exact ⟨l, h1, stsc, offsets, h2, h3, h5, h6⟩

/-- Why C33 needs fewer than 2^32 chunks: with 2^32 chunks (in general with a multiple of that number), the library takes the number of chunks
for 0, and the numbers of samples per chunk are not filled in at all. -/
theorem chunks_lost (chunks : List Chunk) (h : chunks.length % 2 ^ 32 = 0) : ∀ t : List (Nat × Nat), stscLoop t chunks = some chunks
  | [] => rfl
  | (first, spc) :: t => by
    have h0 : runEnd t (chunks.length % U32) = 0 := by
      rw [show chunks.length % U32 = 0 from h]
      cases t with
      | nil => rfl
      | cons e t => unfold runEnd; exact if_neg (Nat.not_lt_zero _)
    unfold stscLoop
    rw [h0]
    exact chunks_lost chunks h t

/-- **C67**, partial — For every file of at most 2^48 bytes: if `Probe` succeeds, every track it reports has at most one chunk for every four
bytes of the file, and at most one edit for every four bytes of the file; whatever the counts in the tables are.

Missing: the samples, of which the result has as many as `stts` says (`samples_unbounded`). -/
theorem probe_volume_partial (hd : d.length ≤ 2 ^ 48) {fuel pos p : Nat} {info : ProbeInfo}
    (h : probe BoxMap.std d fuel pos = (.ok info, p)) : ∀ t ∈ info.tracks, 4 * t.chunks.length ≤ d.length ∧ 4 * t.editList.length ≤ d.length := by
  obtain ⟨h1, h2⟩ := extract_sound hd fuel probePaths pos
  unfold probe at h
  obtain ⟨⟨bis, par⟩, p1, e1, h⟩ := bind_ok_inv h
  obtain ⟨⟨s1, -, -, -⟩, -⟩ := probeLoop_ok (soFar_nil fuel) h
  rw [List.nil_append] at s1
  intro tr htr
  obtain ⟨i, hi, rfl⟩ := List.mem_iff_getElem.1 htr
  obtain ⟨p2, q2, e2⟩ := s1.2 i _ _ (List.getElem?_eq_getElem (by rw [s1.1]; exact hi)) (List.getElem?_eq_getElem hi)
  have hb := List.getElem_mem (l := bis.filter (·.type = tTrak)) (n := i) (by rw [s1.1]; exact hi)
  obtain ⟨path, hl, -⟩ := (h2 _ _ _ e1).2 _ (List.mem_filter.1 hb).1
  exact track_volume hd (leads_real hl) e2

/-! ## Concrete files -/

/-- A `moov` box of 220 bytes with one track; `stts` has one run, of 4294967295 samples; `stsc` and `stco` are empty. -/
def manyFile : Bytes := [0, 0, 0, 220, 109, 111, 111, 118, 0, 0, 0, 212, 116, 114, 97, 107, 0, 0, 0, 92, 116, 107, 104, 100, 0, 0, 0, 0, 0, 0, 0, 0, 0, 0,
  0, 0, 0, 0, 0, 7, 0, 0, 0, 0, 0, 0, 0, 0, 0, 0, 0, 0, 0, 0, 0, 0, 0, 0, 0, 0, 0, 0, 0, 0, 0, 0, 0, 0, 0, 0, 0, 0, 0, 0, 0, 0, 0,
  0, 0, 0, 0, 0, 0, 0, 0, 0, 0, 0, 0, 0, 0, 0, 0, 0, 0, 0, 0, 0, 0, 0, 0, 0, 0, 0, 0, 0, 0, 0, 0, 0, 0, 112, 109, 100, 105, 97, 0,
  0, 0, 32, 109, 100, 104, 100, 0, 0, 0, 0, 0, 0, 0, 0, 0, 0, 0, 0, 0, 0, 3, 232, 0, 0, 0, 90, 0, 0, 0, 0, 0, 0, 0, 72, 109, 105,
  110, 102, 0, 0, 0, 64, 115, 116, 98, 108, 0, 0, 0, 24, 115, 116, 116, 115, 0, 0, 0, 0, 0, 0, 0, 1, 255, 255, 255, 255, 0, 0, 0,
  10, 0, 0, 0, 16, 115, 116, 115, 99, 0, 0, 0, 0, 0, 0, 0, 0, 0, 0, 0, 16, 115, 116, 99, 111, 0, 0, 0, 0, 0, 0, 0, 0]

theorem ok_of_check {α : Type} {x : Out α × Nat} (q : α → Nat → Bool)
    (h : (match x with | (.ok a, p) => q a p | _ => false) = true) : ∃ a p, x = (.ok a, p) ∧ q a p = true := by
  obtain ⟨o, p⟩ := x
  cases o with
  | ok a => exact ⟨a, p, rfl, h⟩
  | _ => cases h

/-- its `trak` box -/
def manyTrak : BoxInfo := ⟨8, 212, 8, tTrak, false, {}⟩

/-- what `Probe` collects in it -/
theorem many_found : ∃ l p, extractBoxesWithPayload BoxMap.std manyFile 30 (some manyTrak) trakPaths 220 = (.ok l, p) ∧
    (match collect {} l with
      | some f => f.tkhd.isSome && f.mdhd.isSome && f.audio.isNone && decide (chunkTable f = some []) &&
        decide (f.stts.map sttsEntries = some [(4294967295, 10)]) && decide (f.stsc.map stscEntries = some []) && f.ctts.isNone && f.stsz.isNone
      | none => false) = true := ok_of_check (fun l _ => match collect {} l with
      | some f => f.tkhd.isSome && f.mdhd.isSome && f.audio.isNone && decide (chunkTable f = some []) &&
        decide (f.stts.map sttsEntries = some [(4294967295, 10)]) && decide (f.stsc.map stscEntries = some []) && f.ctts.isNone && f.stsz.isNone
      | none => false) (by decide +kernel)

theorem many_track : ∃ t p, probeTrak BoxMap.std manyFile 30 manyTrak 220 = (.ok t, p) ∧ t.samples.length = 4294967295 := by
  obtain ⟨l, p, h1, h2⟩ := many_found
  cases hc : collect {} l with
  | none => rw [hc] at h2; cases h2
  | some f =>
    rw [hc] at h2
    simp only [Bool.and_eq_true, decide_eq_true_eq] at h2
    obtain ⟨⟨⟨⟨⟨⟨⟨a1, a2⟩, a3⟩, a4⟩, a5⟩, a6⟩, a7⟩, a8⟩ := h2
    obtain ⟨tkhd, b1⟩ := Option.isSome_iff_exists.1 a1
    obtain ⟨mdhd, b2⟩ := Option.isSome_iff_exists.1 a2
    have b3 := Option.isNone_iff_eq_none.1 a3
    obtain ⟨stts, b5, b5'⟩ := Option.map_eq_some_iff.1 a5
    obtain ⟨stsc, b6, b6'⟩ := Option.map_eq_some_iff.1 a6
    have b7 := Option.isNone_iff_eq_none.1 a7
    have b8 := Option.isNone_iff_eq_none.1 a8
    have hm : mp4aInfo f = .ok none := by unfold mp4aInfo; rw [b3]
    have hf : fillSamples f (samplesOf (sttsEntries stts)) = some (samplesOf (sttsEntries stts)) := by unfold fillSamples; rw [b7, b8]
    have ht : ∃ t, trackOf f = .ok t ∧ t.samples = samplesOf (sttsEntries stts) := by
      unfold trackOf
      rw [b1, b2, hm, a4, b5, b6]
      simp only
      rw [b6', show stscLoop [] [] = some [] from rfl, hf]
      exact ⟨_, rfl, rfl⟩
    obtain ⟨t, t1, t2⟩ := ht
    refine ⟨t, p, ?_, ?_⟩
    · unfold probeTrak
      rw [M.bind_ok h1, hc, M.bind_ok (show orPanic (some f) p = (.ok f, p) from rfl)]
      unfold ofOut
      rw [t1]
    · rw [t2, samplesOf_length, b5']
      decide +kernel

/-- Where C67 fails: `Probe` makes 4294967295 samples out of a file of 220 bytes. -/
theorem samples_unbounded : manyFile.length = 220 ∧
    ∃ info p t, probe BoxMap.std manyFile 30 0 = (.ok info, p) ∧ t ∈ info.tracks ∧ t.samples.length = 4294967295 := by
  refine ⟨by decide +kernel, ?_⟩
  obtain ⟨t, p, h1, h2⟩ := many_track
  have hx : extractBoxes BoxMap.std manyFile 30 none probePaths 0 = (.ok ([⟨0, 220, 8, tMoov, false, {}⟩, manyTrak], none), 220) := by decide +kernel
  refine ⟨{ ({} : ProbeInfo) with fastStart := true, tracks := [t] }, p, t, ?_, List.mem_singleton.2 rfl, h2⟩
  unfold probe
  rw [M.bind_ok hx]
  show probeLoop BoxMap.std manyFile 30 [⟨0, 220, 8, tMoov, false, {}⟩, manyTrak] false {} 220 = _
  unfold probeLoop
  rw [M.bind_ok (show probeOne BoxMap.std manyFile 30 ⟨0, 220, 8, tMoov, false, {}⟩ false {} 220 =
    (.ok (false, { ({} : ProbeInfo) with fastStart := true }), 220) from rfl)]
  show probeLoop BoxMap.std manyFile 30 [manyTrak] false { ({} : ProbeInfo) with fastStart := true } 220 = _
  unfold probeLoop
  have ho : probeOne BoxMap.std manyFile 30 manyTrak false { ({} : ProbeInfo) with fastStart := true } 220 =
      (.ok (false, { ({} : ProbeInfo) with fastStart := true, tracks := [t] }), p) := by
    unfold probeOne
    rw [if_neg (by decide), if_neg (by decide), if_neg (by decide), if_pos (by decide), M.bind_ok h1]
    rfl
  rw [M.bind_ok ho]
  rfl

/-- The hypotheses of the theorems on tracks are met by `tableFile` of C32. -/
theorem tableTrak_real : Real tableFile tableTrak := by unfold Real; decide +kernel

example := chunk_table_file_partial (d := tableFile) (by decide +kernel) tableTrak_real tableFile_track

/-- and those of C67 -/
example : ∃ info p, probe BoxMap.std tableFile 30 0 = (.ok info, p) ∧ info.tracks.map (·.chunks.length) = [2] := by
  obtain ⟨info, p, h1, h2⟩ := ok_of_check (x := probe BoxMap.std tableFile 30 0) (fun info _ => decide (info.tracks.map (·.chunks.length) = [2]))
    (by decide +kernel)
  exact ⟨info, p, h1, of_decide_eq_true h2⟩

end Mp4.Props
