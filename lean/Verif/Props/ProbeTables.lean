import Verif.Lemmas.Probe

/-!
# C32, C33: the samples and chunks of a track
-/

namespace Mp4.Props

open Mp4

variable {d : Bytes}

theorem trackOf_ok {f : Found} {t : Track} (h : trackOf f = .ok t) : ∃ tkhd mdhd mp4a chunks stts stsc,
    f.tkhd = some tkhd ∧ f.mdhd = some mdhd ∧ mp4aInfo f = .ok mp4a ∧ chunkTable f = some chunks ∧ f.stts = some stts ∧
    f.stsc = some stsc ∧ stscLoop (stscEntries stsc) chunks = some t.chunks ∧
    fillSamples f (samplesOf (sttsEntries stts)) = some t.samples ∧ t.trackID = tkhd.uint "TrackID" ∧
    t.timescale = mdhd.uint "Timescale" ∧ t.duration = Acc.mdhdDuration mdhd ∧ t.codec = f.codec ∧ t.encrypted = f.encrypted ∧
    t.editList = (match f.elst with | some s => elstEntries s | none => []) ∧ t.avc = avcInfo f ∧ t.mp4a = mp4a := by
  unfold trackOf at h
  cases h1 : f.tkhd with
  | none => rw [h1] at h; cases h
  | some tkhd =>
  cases h2 : f.mdhd with
  | none => rw [h1, h2] at h; cases h
  | some mdhd =>
  cases h3 : mp4aInfo f with
  | err e => rw [h1, h2, h3] at h; cases h
  | panic => rw [h1, h2, h3] at h; cases h
  | hang => rw [h1, h2, h3] at h; cases h
  | ok mp4a =>
  cases h4 : chunkTable f with
  | none => rw [h1, h2, h3, h4] at h; cases h
  | some chunks =>
  cases h5 : f.stts with
  | none => rw [h1, h2, h3, h4, h5] at h; cases h
  | some stts =>
  cases h6 : f.stsc with
  | none => rw [h1, h2, h3, h4, h5, h6] at h; cases h
  | some stsc =>
  rw [h1, h2, h3, h4, h5, h6] at h
  simp only at h
  cases h7 : stscLoop (stscEntries stsc) chunks with
  | none => rw [h7] at h; cases h
  | some chunks' =>
  cases h8 : fillSamples f (samplesOf (sttsEntries stts)) with
  | none => rw [h7, h8] at h; cases h
  | some samples =>
  rw [h7, h8] at h
  cases h
  exact ⟨tkhd, mdhd, mp4a, chunks, stts, stsc, rfl, rfl, rfl, rfl, rfl, rfl, h7, h8, rfl, rfl, rfl, rfl, rfl, rfl, rfl, rfl⟩

theorem probeTrak_ok {m : BoxMap} {fuel : Nat} {bi : BoxInfo} {pos pos' : Nat} {t : Track}
    (h : probeTrak m d fuel bi pos = (.ok t, pos')) : ∃ l f,
    extractBoxesWithPayload m d fuel (some bi) trakPaths pos = (.ok l, pos') ∧ collect {} l = some f ∧ trackOf f = .ok t := by
  unfold probeTrak at h
  obtain ⟨l, s1, e1, h⟩ := bind_ok_inv h
  obtain ⟨f, s2, e2, h⟩ := bind_ok_inv h
  cases hc : collect {} l with
  | none => rw [hc] at e2; cases e2
  | some g =>
    rw [hc] at e2
    cases e2
    unfold ofOut at h
    cases ht : trackOf f with
    | ok t' => rw [ht] at h; cases h; exact ⟨l, f, e1, hc, ht⟩
    | err e => rw [ht] at h; cases h
    | panic => rw [ht] at h; cases h
    | hang => rw [ht] at h; cases h

theorem cttsEntries_eq (sv : SV) : cttsEntries sv = cttsTable sv := by
  unfold cttsEntries cttsTable
  refine List.map_congr_left fun e _ => ?_
  rcases hv : sv.version with _ | _ | n
  · rfl
  · rfl
  · rfl

/-- **C32**, partial — If a `trak` box can be summarised, and has fewer than 2^32 samples, then the list of its samples has the length of
the time-to-sample table of the (last) `stts` box, and sample `i` has the delta of the run of that table it belongs to, the
offset of the run of the table of `ctts` it belongs to (0 if there is none), and the `i`-th size of `stsz` (0 if there is none).

Missing: if `stsz` has one size for all samples, that size is not used (`constant_size_ignored`). -/
theorem sample_table_partial (m : BoxMap) (fuel : Nat) (bi : BoxInfo) (pos pos' : Nat) (t : Track)
    (h : probeTrak m d fuel bi pos = (.ok t, pos')) (hn : t.samples.length < 2 ^ 32) :
    ∃ l, extractBoxesWithPayload m d fuel (some bi) trakPaths pos = (.ok l, pos') ∧
    ∃ stts, lastPayload l tStts = some stts ∧ t.samples.length = runTotal (sttsTable stts) ∧
      ∀ (i : Nat) (s : Sample), t.samples[i]? = some s →
        runAt (sttsTable stts) i = some s.timeDelta ∧
        s.offset = ((lastPayload l tCtts).bind fun ctts => runAt (cttsTable ctts) i).getD 0 ∧
        s.size = ((lastPayload l tStsz).bind fun stsz => (numbers stsz "EntrySize")[i]?).getD 0 := by
  obtain ⟨l, f, h1, h2, h3⟩ := probeTrak_ok h
  obtain ⟨tkhd, mdhd, mp4a, chunks, stts, stsc, -, -, -, -, g5, -, -, g8, -⟩ := trackOf_ok h3
  obtain ⟨-, -, -, -, -, -, -, c8, -, c10, c11, -, -⟩ := collect_eq l {} f h2
  rw [Option.or_none] at c8 c10 c11
  refine ⟨l, h1, stts, by rw [← c8, g5], ?_⟩
  unfold fillSamples at g8
  rw [c10, c11] at g8
  have hL := samplesOf_length (sttsEntries stts)
  have hG := samplesOf_get (sttsEntries stts)
  generalize samplesOf (sttsEntries stts) = S0 at g8 hL hG
  -- the offsets
  have key : ∀ S1, (match lastPayload l tCtts with | some s => cttsLoop (cttsEntries s) 0 S0 | none => some S0) = some S1 →
      S0.length < 2 ^ 32 → S1.length = S0.length ∧ ∀ (i : Nat) (s : Sample), S1[i]? = some s →
        runAt (sttsTable stts) i = some s.timeDelta ∧
        s.offset = ((lastPayload l tCtts).bind fun ctts => runAt (cttsTable ctts) i).getD 0 ∧ s.size = 0 := by
    intro S1 hS1 hlen
    cases hc : lastPayload l tCtts with
    | none =>
      rw [hc] at hS1
      cases hS1
      refine ⟨rfl, fun i s hs => ?_⟩
      rw [hG] at hs
      cases hr : runAt (sttsEntries stts) i with
      | none => rw [hr] at hs; cases hs
      | some x =>
        rw [hr] at hs
        cases hs
        exact ⟨hr, rfl, rfl⟩
    | some ctts =>
      rw [hc] at hS1
      obtain ⟨S1', e1, e2, e3⟩ := cttsLoop_run (cttsEntries ctts) 0 S0 hlen (Nat.zero_le _)
      have hS1 : cttsLoop (cttsEntries ctts) 0 S0 = some S1 := hS1
      rw [e1] at hS1
      cases hS1
      refine ⟨e2, fun i s hs => ?_⟩
      rw [e3, hG] at hs
      cases hr : runAt (sttsEntries stts) i with
      | none => rw [hr] at hs; cases hs
      | some x =>
        rw [hr] at hs
        simp only [Option.map_some, Nat.not_lt_zero, if_false, Nat.sub_zero] at hs
        rw [cttsEntries_eq] at hs
        simp only [Option.bind_some]
        cases hq : runAt (cttsTable ctts) i with
        | none => rw [hq] at hs; cases hs; exact ⟨hr, rfl, rfl⟩
        | some o => rw [hq] at hs; cases hs; exact ⟨hr, rfl, rfl⟩
  split at g8
  · cases g8
  · next S1 hS1 =>
    -- the sizes
    have hlen0 : t.samples.length = S1.length := by
      cases hz : lastPayload l tStsz with
      | none => rw [hz] at g8; cases g8; rfl
      | some stsz => rw [hz] at g8; rw [← Option.some.inj g8]; exact (stszLoop_run _ _).1
    have hle : S1.length = S0.length := by
      cases hc : lastPayload l tCtts with
      | none => rw [hc] at hS1; cases hS1; rfl
      | some ctts =>
        rw [hc] at hS1
        exact cttsLoop_length hS1
    obtain ⟨k1, k2⟩ := key S1 hS1 (by omega)
    refine ⟨by rw [hlen0, hle, hL]; rfl, fun i s hs => ?_⟩
    cases hz : lastPayload l tStsz with
    | none =>
      rw [hz] at g8
      cases g8
      exact k2 i s hs
    | some stsz =>
      rw [hz] at g8
      rw [← Option.some.inj g8, (stszLoop_run _ _).2 i] at hs
      cases hq : S1[i]? with
      | none => rw [hq] at hs; cases hs
      | some s1 =>
        rw [hq] at hs
        obtain ⟨a1, a2, a3⟩ := k2 i s1 hq
        simp only [Option.map_some] at hs
        simp only [Option.bind_some]
        have : stsz.uints "EntrySize" = numbers stsz "EntrySize" := rfl
        rw [this] at hs
        cases hy : (numbers stsz "EntrySize")[i]? with
        | none => rw [hy] at hs; cases hs; exact ⟨a1, a2, a3⟩
        | some n => rw [hy] at hs; cases hs; exact ⟨a1, a2, rfl⟩

/-- **C33**, partial — If a `trak` box can be summarised (the first chunks of the `stsc` table being 32-bit numbers, as they are when they
come out of a file) and has fewer than 2^32 chunks, then the list of its chunks has the offsets of the `stco` box, or of the `co64` box
if there is no `stco` box, in order; and the samples per chunk of chunk `j` are those of the last run of `stsc` whose first
chunk is at or before it.  (Chunks are numbered from 1, so a run with the first chunk 0 is never used.)

Missing: tracks with 2^32 chunks or more, whose count does not fit the 32-bit counter of the loop. -/
theorem chunk_table_partial (m : BoxMap) (fuel : Nat) (bi : BoxInfo) (pos pos' : Nat) (t : Track)
    (h : probeTrak m d fuel bi pos = (.ok t, pos')) (hn : t.chunks.length < 2 ^ 32) :
    ∃ l, extractBoxesWithPayload m d fuel (some bi) trakPaths pos = (.ok l, pos') ∧
    ∃ stsc offsets, lastPayload l tStsc = some stsc ∧
      ((∃ stco, lastPayload l tStco = some stco ∧ offsets = numbers stco "ChunkOffset") ∨
        (lastPayload l tStco = none ∧ ∃ co64, lastPayload l tCo64 = some co64 ∧ offsets = numbers co64 "ChunkOffset")) ∧
      ((∀ e ∈ stscTable stsc, e.1 < 2 ^ 32) →
        t.chunks.map (·.dataOffset) = offsets ∧
        ∀ (j : Nat) (c : Chunk), t.chunks[j]? = some c → c.samplesPerChunk = (lastRun (stscTable stsc) j).getD 0) := by
  obtain ⟨l, f, h1, h2, h3⟩ := probeTrak_ok h
  obtain ⟨tkhd, mdhd, mp4a, chunks, stts, stsc, -, -, -, g4, -, g6, g7, -⟩ := trackOf_ok h3
  obtain ⟨-, -, -, -, -, -, c7, -, c9, -, -, c12, -⟩ := collect_eq l {} f h2
  rw [Option.or_none] at c7 c9 c12
  have hch : ∃ offsets, chunks = chunksOf offsets ∧
      ((∃ stco, lastPayload l tStco = some stco ∧ offsets = numbers stco "ChunkOffset") ∨
        (lastPayload l tStco = none ∧ ∃ co64, lastPayload l tCo64 = some co64 ∧ offsets = numbers co64 "ChunkOffset")) := by
    unfold chunkTable at g4
    rw [c7, c12] at g4
    cases hs : lastPayload l tStco with
    | some stco =>
      rw [hs] at g4
      cases g4
      exact ⟨_, rfl, .inl ⟨stco, rfl, rfl⟩⟩
    | none =>
      cases hs2 : lastPayload l tCo64 with
      | some co64 =>
        rw [hs, hs2] at g4
        cases g4
        exact ⟨_, rfl, .inr ⟨rfl, co64, rfl, rfl⟩⟩
      | none => rw [hs, hs2] at g4; cases g4
  obtain ⟨offsets, rfl, hoff⟩ := hch
  refine ⟨l, h1, stsc, offsets, by rw [← c9, g6], hoff, fun hr => ?_⟩
  have hlen := stscLoop_length g7
  obtain ⟨l', e1, e2, e3⟩ := stscLoop_run (stscEntries stsc) (chunksOf offsets) (by rw [← hlen]; exact hn) hr
  rw [e1] at g7
  cases g7
  constructor
  · refine List.ext_getElem? fun j => ?_
    rw [List.getElem?_map, e3]
    unfold chunksOf
    rw [List.getElem?_map]
    cases offsets[j]? with
    | none => rfl
    | some o =>
      simp only [Option.map_some]
      cases lastRun (stscEntries stsc) j <;> rfl
  · intro j c hc
    rw [e3] at hc
    unfold chunksOf at hc
    rw [List.getElem?_map] at hc
    cases ho : offsets[j]? with
    | none => rw [ho] at hc; cases hc
    | some o =>
      rw [ho] at hc
      simp only [Option.map_some] at hc
      have : stscEntries stsc = stscTable stsc := rfl
      rw [this] at hc
      cases hx : lastRun (stscTable stsc) j with
      | none => rw [hx] at hc; cases hc; rfl
      | some n => rw [hx] at hc; cases hc; rfl

/-! ## Concrete files -/

/-- A `moov` box with one track of three samples in two chunks (`stts`, `ctts`, `stsc`, `stsz`, `stco`). -/
def tableFile : Bytes := [0, 0, 1, 60, 109, 111, 111, 118, 0, 0, 1, 52, 116, 114, 97, 107, 0, 0, 0, 92, 116, 107, 104, 100, 0, 0, 0, 0,
  0, 0, 0, 0, 0, 0, 0, 0, 0, 0, 0, 7, 0, 0, 0, 0, 0, 0, 0, 0, 0, 0, 0, 0, 0, 0, 0, 0, 0, 0, 0, 0, 0, 0, 0, 0, 0, 0, 0, 0, 0, 0, 0, 0, 0,
  0, 0, 0, 0, 0, 0, 0, 0, 0, 0, 0, 0, 0, 0, 0, 0, 0, 0, 0, 0, 0, 0, 0, 0, 0, 0, 0, 0, 0, 0, 0, 0, 0, 0, 0, 0, 0, 0, 208, 109, 100, 105,
  97, 0, 0, 0, 32, 109, 100, 104, 100, 0, 0, 0, 0, 0, 0, 0, 0, 0, 0, 0, 0, 0, 0, 3, 232, 0, 0, 0, 90, 0, 0, 0, 0, 0, 0, 0, 168, 109, 105,
  110, 102, 0, 0, 0, 160, 115, 116, 98, 108, 0, 0, 0, 32, 115, 116, 116, 115, 0, 0, 0, 0, 0, 0, 0, 2, 0, 0, 0, 2, 0, 0, 0, 10, 0, 0, 0,
  1, 0, 0, 0, 20, 0, 0, 0, 24, 99, 116, 116, 115, 0, 0, 0, 0, 0, 0, 0, 1, 0, 0, 0, 1, 0, 0, 0, 5, 0, 0, 0, 40, 115, 116, 115, 99, 0, 0,
  0, 0, 0, 0, 0, 2, 0, 0, 0, 1, 0, 0, 0, 1, 0, 0, 0, 1, 0, 0, 0, 2, 0, 0, 0, 2, 0, 0, 0, 1, 0, 0, 0, 32, 115, 116, 115, 122, 0, 0, 0, 0,
  0, 0, 0, 0, 0, 0, 0, 3, 0, 0, 0, 4, 0, 0, 0, 5, 0, 0, 0, 6, 0, 0, 0, 24, 115, 116, 99, 111, 0, 0, 0, 0, 0, 0, 0, 2, 0, 0, 1, 144, 0, 0,
  1, 148]

/-- A track of two samples; `stsz` says that both have 5 bytes. -/
def constFile : Bytes := [0, 0, 1, 0, 109, 111, 111, 118, 0, 0, 0, 248, 116, 114, 97, 107, 0, 0, 0, 92, 116, 107, 104, 100, 0, 0, 0, 0,
  0, 0, 0, 0, 0, 0, 0, 0, 0, 0, 0, 7, 0, 0, 0, 0, 0, 0, 0, 0, 0, 0, 0, 0, 0, 0, 0, 0, 0, 0, 0, 0, 0, 0, 0, 0, 0, 0, 0, 0, 0, 0, 0, 0, 0,
  0, 0, 0, 0, 0, 0, 0, 0, 0, 0, 0, 0, 0, 0, 0, 0, 0, 0, 0, 0, 0, 0, 0, 0, 0, 0, 0, 0, 0, 0, 0, 0, 0, 0, 0, 0, 0, 0, 148, 109, 100, 105,
  97, 0, 0, 0, 32, 109, 100, 104, 100, 0, 0, 0, 0, 0, 0, 0, 0, 0, 0, 0, 0, 0, 0, 3, 232, 0, 0, 0, 90, 0, 0, 0, 0, 0, 0, 0, 108, 109, 105,
  110, 102, 0, 0, 0, 100, 115, 116, 98, 108, 0, 0, 0, 24, 115, 116, 116, 115, 0, 0, 0, 0, 0, 0, 0, 1, 0, 0, 0, 2, 0, 0, 0, 10, 0, 0, 0,
  28, 115, 116, 115, 99, 0, 0, 0, 0, 0, 0, 0, 1, 0, 0, 0, 1, 0, 0, 0, 2, 0, 0, 0, 1, 0, 0, 0, 20, 115, 116, 115, 122, 0, 0, 0, 0, 0, 0,
  0, 5, 0, 0, 0, 2, 0, 0, 0, 20, 115, 116, 99, 111, 0, 0, 0, 0, 0, 0, 0, 1, 0, 0, 1, 144]

/-- its `trak` box -/
def tableTrak : BoxInfo := ⟨8, 308, 8, tTrak, false, {}⟩

/-- The track of that file. -/
def tableTrack : Track := {
  trackID := 7, timescale := 1000, duration := 90, codec := .unknown, encrypted := false, editList := []
  samples := [⟨4, 10, 5⟩, ⟨5, 10, 0⟩, ⟨6, 20, 0⟩], chunks := [⟨400, 1⟩, ⟨404, 2⟩], avc := none, mp4a := none }

theorem tableFile_track : probeTrak BoxMap.std tableFile 30 tableTrak 0 = (.ok tableTrack, 316) := by decide +kernel

/-- The hypotheses of C32 and C33 are met by this file. -/
example := sample_table_partial BoxMap.std 30 tableTrak 0 316 tableTrack tableFile_track (by decide)
example := chunk_table_partial BoxMap.std 30 tableTrak 0 316 tableTrack tableFile_track (by decide)

/-- Where C32 fails: if `stsz` has one size for all samples, `Probe` says that their size is 0. -/
theorem constant_size_ignored : (match probe BoxMap.std constFile 30 0 with
      | (.ok info, _) => info.tracks.map fun t => t.samples.map (·.size)
      | _ => []) = [[0, 0]] ∧
    (match extractBoxWithPayload BoxMap.std constFile 30 none [tMoov, tTrak, tMdia, tMinf, tStbl, tStsz] 0 with
      | (.ok [(_, v)], _) => v.sv.uint "SampleSize" == 5 && v.sv.uint "SampleCount" == 2
      | _ => false) = true := by constructor <;> decide +kernel

/-- Why C32 needs fewer than 2^32 samples: with 2^32 samples (in general with a multiple of that number), the library takes the number of samples for
0, and no composition offset is used at all. -/
theorem offsets_lost (l : List Sample) (h : l.length % 2 ^ 32 = 0) : ∀ t : List (Nat × Int), cttsLoop t 0 l = some l
  | [] => rfl
  | (n, o) :: t => by
    have : ∀ n, offsetLoop o n 0 l = some (0, l)
      | 0 => rfl
      | n + 1 => by
        unfold offsetLoop
        rw [if_pos (by rw [show l.length % U32 = 0 from h]; exact Nat.le_refl _)]
    unfold cttsLoop
    rw [this n]
    exact offsets_lost l h t

end Mp4.Props
