import Verif.Spec.ProbeTrack
import Verif.Lemmas.Probe

/-!
# C54: the segments of a fragmented file
-/

namespace Mp4.Props

open Mp4

variable {d : Bytes}

/-- The paths `Probe` asks for. -/
theorem moofPaths_wanted : moofPaths = moofWanted.map (·.map fourcc) := by decide

theorem frag_assert {v : BoxVal} {name : String} {g : SV → FoundFrag} {f : FoundFrag} (h : (v.assert name).map g = some f) : f = g v.sv := by
  unfold BoxVal.assert at h
  split at h
  · cases h; rfl
  · cases h

theorem collectFrag_eq : ∀ (l : List (BoxInfo × BoxVal)) (f g : FoundFrag), collectFrag f l = some g →
    g.tfhd = (lastPayload l tTfhd).or f.tfhd ∧ g.tfdt = (lastPayload l tTfdt).or f.tfdt ∧ g.trun = (lastPayload l tTrun).or f.trun
  | [], f, g, h => by cases h; exact ⟨rfl, rfl, rfl⟩
  | (bi, v) :: l, f, g, h => by
    unfold collectFrag at h
    simp only [lastPayload_cons, Option.or_assoc]
    split at h
    · cases h
    · next f1 hf =>
      obtain ⟨b1, b2, b3⟩ := collectFrag_eq l f1 g h
      rw [b1, b2, b3]
      by_cases e1 : bi.type = tTfhd
      · rw [if_pos e1] at hf
        rw [frag_assert hf, e1]
        exact ⟨rfl, rfl, rfl⟩
      rw [if_neg e1] at hf
      by_cases e2 : bi.type = tTfdt
      · rw [if_pos e2] at hf
        rw [frag_assert hf, e2]
        exact ⟨rfl, rfl, rfl⟩
      rw [if_neg e2] at hf
      by_cases e3 : bi.type = tTrun
      · rw [if_pos e3] at hf
        rw [frag_assert hf, e3]
        exact ⟨rfl, rfl, rfl⟩
      rw [if_neg e3] at hf
      cases hf
      rw [if_neg e1, if_neg e2, if_neg e3]
      exact ⟨rfl, rfl, rfl⟩

/-! ## Numbers -/

theorem flag_testBit (n i : Nat) : (n &&& 2 ^ i != 0) = n.testBit i := by
  have hi : (n &&& 2 ^ i).testBit i = n.testBit i := by
    rw [Nat.testBit_and, Nat.testBit_two_pow_self, Bool.and_true]
  cases hb : n.testBit i with
  | false =>
    have : n &&& 2 ^ i = 0 := by
      refine Nat.eq_of_testBit_eq fun j => ?_
      rw [Nat.testBit_and, Nat.testBit_two_pow, Nat.zero_testBit]
      by_cases h : i = j
      · subst h; rw [hb]; rfl
      · simp [h]
    rw [this]; rfl
  | true =>
    have : n &&& 2 ^ i ≠ 0 := by
      intro h0
      rw [h0, Nat.zero_testBit, hb] at hi
      cases hi
    simpa using this

theorem sum32_from : ∀ (l : List Nat) (a : Nat), l.foldl add32 (a % U32) = (a + l.sum) % U32
  | [], a => by simp
  | x :: l, a => by
    rw [List.foldl_cons, List.sum_cons]
    have : add32 (a % U32) x = (a + x) % U32 := by unfold add32; simp only [U32]; omega
    rw [this, sum32_from l (a + x)]
    congr 1
    omega

theorem sum32_eq (l : List Nat) : sum32 l = l.sum % U32 := by
  have := sum32_from l 0
  rw [Nat.zero_add] at this
  exact this

theorem sum_replicate (n a : Nat) : (List.replicate n a).sum = a * n := by
  induction n with
  | zero => simp
  | succ n ih =>
    rw [List.replicate_succ, List.sum_cons, ih, Nat.mul_succ]
    omega

theorem toInt32_congr {a b : Int} (h : a % 2 ^ 32 = b % 2 ^ 32) : toInt32 a = toInt32 b := by
  unfold toInt32
  rw [show ((2 ^ 32 : Nat) : Int) = 2 ^ 32 from rfl, h]

theorem toInt32_id {a : Int} (h1 : -2 ^ 31 ≤ a) (h2 : a < 2 ^ 31) : toInt32 a = a := by
  unfold toInt32 toSigned
  simp only [Nat.reducePow, Nat.reduceSub]
  split <;> omega

theorem toInt32_emod (a : Int) : toInt32 a % 2 ^ 32 = a % 2 ^ 32 := by
  unfold toInt32 toSigned
  simp only [Nat.reducePow, Nat.reduceSub]
  split <;> omega

/-- the composition time as the library computes it -/
theorem time32 {D : Nat} {o : Int} (h1 : -2 ^ 31 ≤ (D : Int) + o) (h2 : (D : Int) + o < 2 ^ 31) :
    toInt32 (toInt32 ((D % U32 : Nat) : Int) + toInt32 o) = (D : Int) + o := by
  rw [← toInt32_id h1 h2]
  refine toInt32_congr ?_
  have a := toInt32_emod ((D % U32 : Nat) : Int)
  have b := toInt32_emod o
  simp only [U32] at *
  omega

/-! ## The least composition time -/

/-- the composition times when the entries begin at `D` -/
def timesFrom (tfhd trun : SV) : Nat → List SV → List Int
  | _, [] => []
  | D, e :: l => ((D : Int) + trunOffset trun e) :: timesFrom tfhd trun (D + sampleDuration tfhd trun e) l

theorem offsetScan_spec (tfhd trun : SV) : ∀ (l : List SV) (D : Nat) (least : Option Int),
    (∀ x ∈ timesFrom tfhd trun D l, -2 ^ 31 ≤ x ∧ x < 2 ^ 31) →
    (least.toList ++ timesFrom tfhd trun D l = [] ∧ offsetScan tfhd trun (D % U32) least l = 0) ∨
    (offsetScan tfhd trun (D % U32) least l ∈ least.toList ++ timesFrom tfhd trun D l ∧
      ∀ x ∈ least.toList ++ timesFrom tfhd trun D l, offsetScan tfhd trun (D % U32) least l ≤ x)
  | [], D, least, _ => by
    cases least with
    | none => exact .inl ⟨rfl, rfl⟩
    | some y =>
      refine .inr ⟨by simp [offsetScan, timesFrom], fun x hx => ?_⟩
      simp only [timesFrom, Option.toList_some, List.append_nil, List.mem_singleton] at hx
      subst hx
      exact Int.le_refl _
  | e :: l, D, least, h => by
    have h0 := h _ (List.mem_cons_self)
    have ht := time32 h0.1 h0.2
    have hD : add32 (D % U32) (sampleDuration tfhd trun e) = (D + sampleDuration tfhd trun e) % U32 := by
      unfold add32; simp only [U32]; omega
    have ih := fun least => offsetScan_spec tfhd trun l (D + sampleDuration tfhd trun e) least
      fun x hx => h x (List.mem_cons_of_mem _ hx)
    unfold offsetScan
    simp only [ht, hD]
    generalize hy : (D : Int) + trunOffset trun e = y at *
    have hT : timesFrom tfhd trun D (e :: l) = y :: timesFrom tfhd trun (D + sampleDuration tfhd trun e) l := by
      rw [← hy]; rfl
    rw [hT]
    generalize timesFrom tfhd trun (D + sampleDuration tfhd trun e) l = T at *
    right
    cases least with
    | none =>
      rcases ih (some y) with ⟨hc, -⟩ | hc
      · simp at hc
      · simpa using hc
    | some x =>
      simp only
      by_cases hlt : y < x
      · rw [if_pos hlt]
        rcases ih (some y) with ⟨hc, -⟩ | ⟨h1, h2⟩
        · simp at hc
        · generalize offsetScan tfhd trun _ _ l = r at h1 h2 ⊢
          simp only [Option.toList_some, List.cons_append, List.nil_append, List.mem_cons, forall_eq_or_imp] at h1 h2 ⊢
          exact ⟨.inr h1, by omega, h2.1, h2.2⟩
      · rw [if_neg hlt]
        rcases ih (some x) with ⟨hc, -⟩ | ⟨h1, h2⟩
        · simp at hc
        · generalize offsetScan tfhd trun _ _ l = r at h1 h2 ⊢
          simp only [Option.toList_some, List.cons_append, List.nil_append, List.mem_cons, forall_eq_or_imp] at h1 h2 ⊢
          exact ⟨h1.elim .inl fun h => .inr (.inr h), h2.1, by omega, h2.2⟩

theorem timesFrom_eq (tfhd trun : SV) : ∀ (l : List SV) (D : Nat), timesFrom tfhd trun D l =
    (l.map (trunOffset trun)).mapIdx fun i o => ((D + ((l.map (sampleDuration tfhd trun)).take i).sum : Nat) : Int) + o
  | [], D => rfl
  | e :: l, D => by
    unfold timesFrom
    rw [timesFrom_eq tfhd trun l, List.map_cons, List.map_cons, List.mapIdx_cons]
    congr 1
    refine List.ext_getElem? fun i => ?_
    simp only [List.getElem?_mapIdx]
    cases (l.map (trunOffset trun))[i]? with
    | none => rfl
    | some o => simp [Nat.add_assoc]

theorem probeMoof_ok {m : BoxMap} {fuel : Nat} {bi : BoxInfo} {pos pos' : Nat} {t : Segment}
    (h : probeMoof m d fuel bi pos = (.ok t, pos')) : ∃ l f,
    extractBoxesWithPayload m d fuel (some bi) moofPaths pos = (.ok l, pos') ∧ collectFrag {} l = some f ∧
      segmentOf bi.offset f = .ok t := by
  unfold probeMoof at h
  obtain ⟨l, s1, e1, h⟩ := bind_ok_inv h
  obtain ⟨f, s2, e2, h⟩ := bind_ok_inv h
  cases hc : collectFrag {} l with
  | none => rw [hc] at e2; cases e2
  | some g =>
    rw [hc] at e2
    cases e2
    unfold ofOut at h
    cases ht : segmentOf bi.offset f with
    | ok t' => rw [ht] at h; cases h; exact ⟨l, f, e1, hc, ht⟩
    | err e => rw [ht] at h; cases h
    | panic => rw [ht] at h; cases h
    | hang => rw [ht] at h; cases h

theorem trunOffsets_eq (trun : SV) : (trun.structs "Entries").map (trunOffset trun) = runOffsets trun := by
  unfold runOffsets
  refine List.map_congr_left fun e _ => ?_
  unfold trunOffset
  rcases trun.version with _ | _ | n <;> rfl

theorem checkFlag_eq (sv : SV) (i : Nat) : sv.checkFlag (2 ^ i) = sv.flags.testBit i := flag_testBit _ _

theorem entryDurations_eq (tfhd trun : SV) : (trun.structs "Entries").map (sampleDuration tfhd trun) = entryDurations tfhd trun := by
  unfold entryDurations
  refine List.map_congr_left fun e _ => ?_
  unfold sampleDuration
  rw [show (0x100 : Nat) = 2 ^ 8 from rfl, checkFlag_eq]

/-- **C54**, partial — If a `moof` box can be summarised, then, `l` being the boxes below it with one of the paths of `moofWanted`,

* its offset is that of the `moof` box;
* track ID and default duration are those of the (last) `tfhd` box;
* the base decode time is that of the (last) `tfdt` box, of 32 bits in version 0, of 64 bits otherwise; 0 if there is none;
* without `trun` box the segment is empty;
* otherwise number, duration and size of the samples are those of the (last) `trun` box, the defaults of `tfhd` standing in for durations and
  sizes the run does not have, if the sums are below 2^32;
* and the composition time offset is the least composition time of the samples, counted from the decode time of the first sample, if all of these
  fit 32-bit signed integers.

Missing: a fragment with several runs or several tracks (`only_last_run`, `tracks_mixed`); the defaults of `trex` (`trex_ignored`);
larger sums (`duration_wraps`). -/
theorem segment_fields_partial (m : BoxMap) (fuel : Nat) (bi : BoxInfo) (pos pos' : Nat) (s : Segment)
    (h : probeMoof m d fuel bi pos = (.ok s, pos')) :
    ∃ l, extractBoxesWithPayload m d fuel (some bi) (moofWanted.map (·.map fourcc)) pos = (.ok l, pos') ∧
    s.moofOffset = bi.offset ∧
    ∃ tfhd, lastPayload l (fourcc "tfhd") = some tfhd ∧ s.trackID = tfhd.uint "TrackID" ∧
      s.defaultSampleDuration = tfhd.uint "DefaultSampleDuration" ∧
      s.baseMediaDecodeTime = ((lastPayload l (fourcc "tfdt")).map fun tfdt => match tfdt.version with
        | 0 => tfdt.uint "BaseMediaDecodeTimeV0"
        | _ => tfdt.uint "BaseMediaDecodeTimeV1").getD 0 ∧
      (lastPayload l (fourcc "trun") = none → s.sampleCount = 0 ∧ s.duration = 0 ∧ s.size = 0 ∧ s.compositionTimeOffset = 0) ∧
      ∀ trun, lastPayload l (fourcc "trun") = some trun →
        s.sampleCount = trun.uint "SampleCount" ∧
        ((runDurations tfhd trun).sum < 2 ^ 32 → s.duration = (runDurations tfhd trun).sum) ∧
        ((runSizes tfhd trun).sum < 2 ^ 32 → s.size = (runSizes tfhd trun).sum) ∧
        ∀ times, times = compositionTimes (entryDurations tfhd trun) (runOffsets trun) → (∀ x ∈ times, -2 ^ 31 ≤ x ∧ x < 2 ^ 31) →
          (times = [] → s.compositionTimeOffset = 0) ∧
          (times ≠ [] → s.compositionTimeOffset ∈ times ∧ ∀ x ∈ times, s.compositionTimeOffset ≤ x) := by
  obtain ⟨l, f, h1, h2, h3⟩ := probeMoof_ok h
  obtain ⟨c1, c2, c3⟩ := collectFrag_eq l {} f h2
  rw [Option.or_none] at c1 c2 c3
  rw [show tTfhd = fourcc "tfhd" by decide] at c1
  rw [show tTfdt = fourcc "tfdt" by decide] at c2
  rw [show tTrun = fourcc "trun" by decide] at c3
  refine ⟨l, moofPaths_wanted ▸ h1, ?_⟩
  unfold segmentOf at h3
  rw [c1, c2, c3] at h3
  cases hh : lastPayload l (fourcc "tfhd") with
  | none => rw [hh] at h3; cases h3
  | some tfhd =>
  rw [hh] at h3
  simp only at h3
  cases hr : lastPayload l (fourcc "trun") with
  | none =>
    rw [hr] at h3
    cases h3
    refine ⟨rfl, tfhd, rfl, rfl, rfl, by
      cases lastPayload l (fourcc "tfdt") with
      | none => rfl
      | some s => simp only [Option.map_some, Option.getD_some]; rcases s.version with _ | n <;> rfl, fun _ => ⟨rfl, rfl, rfl, rfl⟩, fun _ hc => by cases hc⟩
  | some trun =>
    rw [hr] at h3
    simp only at h3
    have h3 := Out.ok.inj h3
    subst h3
    refine ⟨rfl, tfhd, rfl, rfl, rfl, by
      cases lastPayload l (fourcc "tfdt") with
      | none => rfl
      | some s => simp only [Option.map_some, Option.getD_some]; rcases s.version with _ | n <;> rfl, fun hc => (by cases hc), ?_⟩
    intro trun' ht
    cases ht
    refine ⟨rfl, ?_, ?_, ?_⟩
    · intro hs
      unfold runDurations at *
      rw [show (0x100 : Nat) = 2 ^ 8 from rfl, checkFlag_eq]
      by_cases hb : trun.flags.testBit 8 = true
      · rw [if_pos hb] at *
        rw [if_pos hb]; refine (sum32_eq _).trans ?_
        exact Nat.mod_eq_of_lt hs
      · rw [if_neg hb] at *
        rw [if_neg hb]
        rw [sum_replicate] at *
        exact Nat.mod_eq_of_lt hs
    · intro hs
      unfold runSizes at *
      rw [show (0x200 : Nat) = 2 ^ 9 from rfl, checkFlag_eq]
      by_cases hb : trun.flags.testBit 9 = true
      · rw [if_pos hb] at *
        rw [if_pos hb]; refine (sum32_eq _).trans ?_
        exact Nat.mod_eq_of_lt hs
      · rw [if_neg hb] at *
        rw [if_neg hb]
        rw [sum_replicate] at *
        exact Nat.mod_eq_of_lt hs
    · intro times htimes hrange
      have hT : timesFrom tfhd trun 0 (trun.structs "Entries") = times := by
        rw [htimes, timesFrom_eq, trunOffsets_eq, entryDurations_eq]
        unfold compositionTimes
        simp only [Nat.zero_add]
      have hs := offsetScan_spec tfhd trun (trun.structs "Entries") 0 none (by rw [hT]; exact hrange)
      rw [hT, Option.toList_none, List.nil_append, Nat.zero_mod] at hs
      rcases hs with ⟨h1, h2⟩ | h1
      · exact ⟨fun _ => h2, fun hc => absurd h1 hc⟩
      · refine ⟨fun hc => ?_, fun _ => h1⟩
        rw [hc] at h1
        cases h1.1

/-! ## Concrete files -/

/-- A fragment of track 2 with three samples: default duration 10, sizes 100, 200, 300, composition offsets 20, -15, 0. -/
def segFile : Bytes := [0, 0, 0, 92, 109, 111, 111, 102, 0, 0, 0, 84, 116, 114, 97, 102, 0, 0, 0, 20, 116, 102, 104, 100, 0, 0, 0, 8, 0,
  0, 0, 2, 0, 0, 0, 10, 0, 0, 0, 16, 116, 102, 100, 116, 0, 0, 0, 0, 0, 0, 3, 232, 0, 0, 0, 40, 116, 114, 117, 110, 1, 0, 10, 0, 0, 0, 0,
  3, 0, 0, 0, 100, 0, 0, 0, 20, 0, 0, 0, 200, 255, 255, 255, 241, 0, 0, 1, 44, 0, 0, 0, 0]

/-- A fragment with five samples for track 1 and none for track 2. -/
def mixedFile : Bytes := [0, 0, 0, 80, 109, 111, 111, 102, 0, 0, 0, 48, 116, 114, 97, 102, 0, 0, 0, 24, 116, 102, 104, 100, 0, 0, 0, 24,
  0, 0, 0, 1, 0, 0, 0, 10, 0, 0, 0, 100, 0, 0, 0, 16, 116, 114, 117, 110, 0, 0, 0, 0, 0, 0, 0, 5, 0, 0, 0, 24, 116, 114, 97, 102, 0, 0,
  0, 16, 116, 102, 104, 100, 0, 0, 0, 0, 0, 0, 0, 2]

/-- A fragment of track 1 with a run of five samples and a run of seven. -/
def runsFile : Bytes := [0, 0, 0, 72, 109, 111, 111, 102, 0, 0, 0, 64, 116, 114, 97, 102, 0, 0, 0, 24, 116, 102, 104, 100, 0, 0, 0, 24,
  0, 0, 0, 1, 0, 0, 0, 10, 0, 0, 0, 100, 0, 0, 0, 16, 116, 114, 117, 110, 0, 0, 0, 0, 0, 0, 0, 5, 0, 0, 0, 16, 116, 114, 117, 110, 0, 0,
  0, 0, 0, 0, 0, 7]

/-- A fragment of two samples of duration 2^31. -/
def wrapFile : Bytes := [0, 0, 0, 56, 109, 111, 111, 102, 0, 0, 0, 48, 116, 114, 97, 102, 0, 0, 0, 24, 116, 102, 104, 100, 0, 0, 0, 24,
  0, 0, 0, 1, 128, 0, 0, 0, 0, 0, 0, 1, 0, 0, 0, 16, 116, 114, 117, 110, 0, 0, 0, 0, 0, 0, 0, 2]

/-- `moov` with defaults for track 1 in `trex` (duration 10, size 100), and a fragment of track 1 with five samples. -/
def trexFile : Bytes := [0, 0, 0, 48, 109, 111, 111, 118, 0, 0, 0, 40, 109, 118, 101, 120, 0, 0, 0, 32, 116, 114, 101, 120, 0, 0, 0, 0,
  0, 0, 0, 1, 0, 0, 0, 1, 0, 0, 0, 10, 0, 0, 0, 100, 0, 0, 0, 0, 0, 0, 0, 48, 109, 111, 111, 102, 0, 0, 0, 40, 116, 114, 97, 102, 0, 0,
  0, 16, 116, 102, 104, 100, 0, 0, 0, 0, 0, 0, 0, 1, 0, 0, 0, 16, 116, 114, 117, 110, 0, 0, 0, 0, 0, 0, 0, 5]

/-- the `moof` box of one of these files -/
def moofBox (d : Bytes) : BoxInfo := ⟨0, d.length, 8, tMoof, false, {}⟩

/-- The segment of `segFile`: decoded at 0, 10, 20, composed at 20, -5, 20. -/
def segSegment : Segment := {
  trackID := 2, moofOffset := 0, baseMediaDecodeTime := 1000, defaultSampleDuration := 10, sampleCount := 3, duration := 30
  compositionTimeOffset := -5, size := 600 }

theorem segFile_segment : probeMoof BoxMap.std segFile 20 (moofBox segFile) 0 = (.ok segSegment, 92) := by decide +kernel

/-- The hypotheses of C54 are met by this file. -/
example := segment_fields_partial BoxMap.std 20 (moofBox segFile) 0 92 segSegment segFile_segment

/-- Where C54 fails: the segment is said to be of track 2 and to have the five samples of track 1. -/
theorem tracks_mixed : (match probeMoof BoxMap.std mixedFile 20 (moofBox mixedFile) 0 with
    | (.ok s, _) => (s.trackID, s.sampleCount, s.duration)
    | _ => (0, 0, 0)) = (2, 5, 0) := by decide +kernel

/-- Where C54 fails: of the twelve samples of duration 10 only the seven of the last run are counted. -/
theorem only_last_run : (match probeMoof BoxMap.std runsFile 20 (moofBox runsFile) 0 with
    | (.ok s, _) => (s.sampleCount, s.duration, s.size)
    | _ => (0, 0, 0)) = (7, 70, 700) := by decide +kernel

/-- Where C54 fails: two samples of duration 2^31 have the duration 0. -/
theorem duration_wraps : (match probeMoof BoxMap.std wrapFile 20 (moofBox wrapFile) 0 with
    | (.ok s, _) => (s.defaultSampleDuration, s.sampleCount, s.duration)
    | _ => (0, 0, 0)) = (2 ^ 31, 2, 0) := by decide +kernel

/-- Where C54 fails: five samples with the default duration 10 and size 100 of `trex` have the duration 0 and the size 0. -/
theorem trex_ignored : (match probe BoxMap.std trexFile 20 0 with
    | (.ok info, _) => info.segments.map fun s => (s.sampleCount, s.duration, s.size)
    | _ => []) = [(5, 0, 0)] := by decide +kernel

end Mp4.Props
