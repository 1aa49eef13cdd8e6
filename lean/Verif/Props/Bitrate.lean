import Verif.Lemmas.Bitrate

/-!
# C35: bit rates
-/

namespace Mp4.Props

open Mp4

theorem sum64_mod (l : List Nat) : sum64 l = l.sum % U64 := by
  have := sum64_eq l 0
  rwa [Nat.zero_add] at this

theorem bits_mod (a b n : Nat) : 8 * (a % n) * b % n = 8 * a * b % n := by
  rw [← Nat.mod_mul_mod (8 * (a % n)), Nat.mul_mod_mod, Nat.mod_mul_mod]

/-- **C35**, partial, `Samples.GetBitrate` — The bit rate of samples is the number of their bits times the timescale over their
duration, and 0 if the duration is 0.  (Missing: numbers from 2^64 on, see `bitrate_wraps`.) -/
theorem bitrate_partial (l : List Sample) (timescale : Nat) (h1 : 8 * bytesOf l * timescale < 2 ^ 64) (h2 : ticksOf l < 2 ^ 64) :
    samplesBitrate l timescale = if ticksOf l = 0 then 0 else 8 * bytesOf l * timescale / ticksOf l := by
  unfold samplesBitrate
  simp only [sum64_mod]
  rw [mul64_bits]
  have e1 : 8 * ((l.map (·.size)).sum % U64) * timescale % U64 = 8 * bytesOf l * timescale := by
    rw [bits_mod]
    exact Nat.mod_eq_of_lt h1
  have e2 : (l.map (·.timeDelta)).sum % U64 = ticksOf l := Nat.mod_eq_of_lt h2
  rw [e1, e2]

/-- Where C35 fails: the number of bits times the timescale wraps around. One sample of 2^29 bytes, that takes one tick of a
clock with a frequency of 2^32-1: the bit rate is 2^32 * (2^32-1), which is right, but with 2^30 bytes it is said to be less. -/
theorem bitrate_wraps : samplesBitrate [⟨2 ^ 29, 1, 0⟩] (2 ^ 32 - 1) = 2 ^ 32 * (2 ^ 32 - 1) ∧
    samplesBitrate [⟨2 ^ 30, 1, 0⟩] (2 ^ 32 - 1) = 2 ^ 33 * (2 ^ 32 - 1) - 2 ^ 64 ∧
    samplesBitrate [⟨2 ^ 30, 1, 0⟩] (2 ^ 32 - 1) < samplesBitrate [⟨2 ^ 29, 1, 0⟩] (2 ^ 32 - 1) := by decide +kernel

example := bitrate_partial [⟨100, 5, 0⟩, ⟨50, 10, 0⟩] 1000 (by decide) (by decide)
example : samplesBitrate [⟨100, 5, 0⟩, ⟨50, 10, 0⟩] 1000 = 80000 := by decide

/-- **C35**, partial, `Samples.GetMaxBitrate` — For a time span other than 0, the function returns the greatest bit rate of the
windows it examines (see `Examined`), provided that none of them has a duration of 0; otherwise it panics.  It always ends: each of its
loops makes at most as many rounds as there are samples.

Missing: the numbers of bits and of ticks of all samples must fit in 64 bits.  And the function does panic
(`max_bitrate_panics`). -/
theorem max_bitrate_partial (l : List Sample) (timescale T : Nat) (hT : T ≠ 0) (h1 : 8 * bytesOf l * timescale < 2 ^ 64)
    (h2 : bytesOf l < 2 ^ 64) (h3 : ticksOf l < 2 ^ 64) (fuel : Nat) (hf : l.length < fuel) :
    ((∃ b e, Examined l T b e ∧ ticksOf (window l b e) = 0) → samplesMaxBitrate l timescale T fuel = .panic) ∧
    ((∀ b e, Examined l T b e → ticksOf (window l b e) ≠ 0) →
      ∃ r, samplesMaxBitrate l timescale T fuel = .ok r ∧
        (∀ b e, Examined l T b e → bitsPerSecond (window l b e) timescale ≤ r) ∧
        (r = 0 ∨ ∃ b e, Examined l T b e ∧ bitsPerSecond (window l b e) timescale = r)) := by
  unfold samplesMaxBitrate
  rw [if_neg hT]
  have := maxLoop_run (l := l) (T := T) (ts := timescale) h3 h1 h2 (by omega) fuel (by omega) fuel 0 0 0 (by omega)
    (Nat.le_refl _) (Nat.zero_le _) (fun _ => ⟨by omega, fun b' hb' => absurd hb' (Nat.not_lt_zero _)⟩)
    ⟨fun b e he hz => absurd he.1 (by omega), .inl rfl⟩
  rw [Nat.sub_self, Nat.sub_self] at this
  rcases this with ⟨e1, b, e, hex, hz⟩ | ⟨r, e1, hb⟩
  · exact ⟨fun _ => e1, fun h => absurd hz (h b e hex)⟩
  · refine ⟨?_, fun _ => ⟨r, e1, fun b e he => (hb.1 b e he he.2.1).2, hb.2⟩⟩
    rintro ⟨b, e, hex, hz⟩
    exact absurd hz (hb.1 b e hex hex.2.1).1

/-- If the time span is 0, the result is 0. -/
theorem max_bitrate_no_span (l : List Sample) (timescale fuel : Nat) : samplesMaxBitrate l timescale 0 fuel = .ok 0 := rfl

/-- **C35**, partial — If every sample takes some time, the function returns. -/
theorem max_bitrate_returns_partial (l : List Sample) (timescale T : Nat) (hpos : ∀ s ∈ l, 0 < s.timeDelta)
    (h1 : 8 * bytesOf l * timescale < 2 ^ 64) (h2 : bytesOf l < 2 ^ 64) (h3 : ticksOf l < 2 ^ 64) (fuel : Nat) (hf : l.length < fuel) :
    ∃ r, samplesMaxBitrate l timescale T fuel = .ok r := by
  by_cases hT : T = 0
  · subst hT
    exact ⟨0, rfl⟩
  · obtain ⟨r, e, -⟩ := (max_bitrate_partial l timescale T hT h1 h2 h3 fuel hf).2 (by
      intro b e hex hz
      rw [examined_iff] at hex
      obtain ⟨c1, c2, -⟩ := hex
      rw [ticks_window] at hz
      have k1 := ticksTo_succ (show b < l.length by omega)
      have k2 := ticksTo_le (l := l) (show b + 1 ≤ e by omega)
      have k3 := hpos l[b] (List.getElem_mem _)
      omega)
    exact ⟨r, e⟩

/-- Where C35 fails: `GetMaxBitrate` divides by zero if the last samples take no time, e.g. for a single sample. -/
theorem max_bitrate_panics : samplesMaxBitrate [⟨100, 0, 0⟩] 1000 500 10 = .panic ∧
    samplesMaxBitrate [⟨100, 600, 0⟩, ⟨100, 0, 0⟩] 1000 500 10 = .panic := by decide +kernel

/-- The windows examined are not all windows of at least the time span: of two samples, of which the second one is as long as the span,
the window with just the second one is not examined, and the maximum of 53 is less than its bit rate of 80. -/
theorem max_bitrate_misses : ∃ (l : List Sample) (r : Nat), samplesMaxBitrate l 1 10 10 = .ok r ∧
    10 ≤ ticksOf (window l 1 2) ∧ r < bitsPerSecond (window l 1 2) 1 :=
  ⟨[⟨0, 5, 0⟩, ⟨100, 10, 0⟩], 53, by decide +kernel, by decide, by decide⟩

example := max_bitrate_partial [⟨100, 5, 0⟩, ⟨50, 10, 0⟩, ⟨10, 5, 0⟩] 1000 12 (by decide) (by decide) (by decide) (by decide) 4
  (by decide)
example : samplesMaxBitrate [⟨100, 5, 0⟩, ⟨50, 10, 0⟩, ⟨10, 5, 0⟩] 1000 12 4 = .ok 80000 := by decide +kernel
example : Examined [⟨100, 5, 0⟩, ⟨50, 10, 0⟩, ⟨10, 5, 0⟩] 12 0 2 := by
  unfold Examined
  decide

/-! ## Segments -/

/-- the segments of the track -/
def ofTrack (l : List Segment) (trackID : Nat) : List Segment := l.filter fun s => s.trackID = trackID

/-- **C35**, partial, `Segments.GetBitrate` — The bit rate of the segments of a track: bits times timescale over duration; 0 if the duration
is 0. -/
theorem segments_bitrate_partial (l : List Segment) (trackID timescale : Nat)
    (h1 : 8 * ((ofTrack l trackID).map (·.size)).sum * timescale < 2 ^ 64)
    (h2 : ((ofTrack l trackID).map (·.duration)).sum < 2 ^ 64) :
    segmentsBitrate l trackID timescale = if ((ofTrack l trackID).map (·.duration)).sum = 0 then 0
      else 8 * ((ofTrack l trackID).map (·.size)).sum * timescale / ((ofTrack l trackID).map (·.duration)).sum := by
  unfold segmentsBitrate
  have e0 : (l.filter fun s => s.trackID == trackID) = ofTrack l trackID := by
    unfold ofTrack
    refine List.filter_congr fun s _ => ?_
    rw [Bool.eq_iff_iff]
    simp
  simp only [e0, sum64_mod]
  rw [mul64_bits]
  have e1 : 8 * (((ofTrack l trackID).map (·.size)).sum % U64) * timescale % U64 =
      8 * ((ofTrack l trackID).map (·.size)).sum * timescale := by
    rw [bits_mod]
    exact Nat.mod_eq_of_lt h1
  rw [e1, show ((ofTrack l trackID).map (·.duration)).sum % U64 = _ from Nat.mod_eq_of_lt h2]

/-- bits per second of a segment -/
def segmentRate (s : Segment) (timescale : Nat) : Nat := 8 * s.size * timescale / s.duration

theorem segmentsMax_run (trackID timescale : Nat) : ∀ (l : List Segment) (best : Nat),
    (∀ s ∈ l, 8 * s.size * timescale < 2 ^ 64) →
    best ≤ segmentsMaxBitrate trackID timescale l best ∧
    (∀ s ∈ l, s.trackID = trackID → s.duration ≠ 0 → segmentRate s timescale ≤ segmentsMaxBitrate trackID timescale l best) ∧
    (segmentsMaxBitrate trackID timescale l best = best ∨
      ∃ s ∈ l, s.trackID = trackID ∧ s.duration ≠ 0 ∧ segmentRate s timescale = segmentsMaxBitrate trackID timescale l best)
  | [], best, h => ⟨Nat.le_refl _, by simp, .inl rfl⟩
  | s :: l, best, h => by
    unfold segmentsMaxBitrate
    split
    · next hc =>
      have hr : mul64 (mul64 8 s.size) timescale / s.duration = segmentRate s timescale := by
        unfold segmentRate
        rw [mul64_bits, Nat.mod_eq_of_lt (h s List.mem_cons_self)]
      simp only [hr]
      obtain ⟨i1, i2, i3⟩ := segmentsMax_run trackID timescale l (if best < segmentRate s timescale then segmentRate s timescale else best)
        fun x hx => h x (List.mem_cons_of_mem _ hx)
      have hb : best ≤ (if best < segmentRate s timescale then segmentRate s timescale else best) ∧
          segmentRate s timescale ≤ (if best < segmentRate s timescale then segmentRate s timescale else best) := by
        split <;> omega
      refine ⟨by omega, ?_, ?_⟩
      · intro x hx h1 h2
        rcases List.mem_cons.1 hx with rfl | hx
        · omega
        · exact i2 x hx h1 h2
      · rcases i3 with i3 | ⟨x, hx, h1, h2, h3⟩
        · by_cases hlt : best < segmentRate s timescale
          · rw [if_pos hlt] at i3 ⊢
            exact .inr ⟨s, List.mem_cons_self, hc.1, hc.2, i3.symm⟩
          · rw [if_neg hlt] at i3 ⊢
            exact .inl i3
        · exact .inr ⟨x, List.mem_cons_of_mem _ hx, h1, h2, h3⟩
    · next hc =>
      obtain ⟨i1, i2, i3⟩ := segmentsMax_run trackID timescale l best fun x hx => h x (List.mem_cons_of_mem _ hx)
      refine ⟨i1, ?_, ?_⟩
      · intro x hx h1 h2
        rcases List.mem_cons.1 hx with rfl | hx
        · exact absurd ⟨h1, h2⟩ hc
        · exact i2 x hx h1 h2
      · rcases i3 with i3 | ⟨x, hx, h1⟩
        · exact .inl i3
        · exact .inr ⟨x, List.mem_cons_of_mem _ hx, h1⟩

/-- **C35**, partial, `Segments.GetMaxBitrate` — The greatest bit rate of a segment of the track (segments without duration do not
count), or 0 if there is none. -/
theorem segments_max_partial (l : List Segment) (trackID timescale : Nat) (h : ∀ s ∈ l, 8 * s.size * timescale < 2 ^ 64) :
    let r := segmentsMaxBitrate trackID timescale l 0
    (∀ s ∈ l, s.trackID = trackID → s.duration ≠ 0 → segmentRate s timescale ≤ r) ∧
    (r = 0 ∨ ∃ s ∈ l, s.trackID = trackID ∧ s.duration ≠ 0 ∧ segmentRate s timescale = r) :=
  ⟨(segmentsMax_run trackID timescale l 0 h).2.1, (segmentsMax_run trackID timescale l 0 h).2.2⟩

/-- three segments, two of them of track 1 -/
def threeSegments : List Segment := [
  { trackID := 1, moofOffset := 0, defaultSampleDuration := 0, duration := 10, size := 100 },
  { trackID := 2, moofOffset := 0, defaultSampleDuration := 0, duration := 10, size := 900 },
  { trackID := 1, moofOffset := 0, defaultSampleDuration := 0, duration := 30, size := 200 }]

example := segments_bitrate_partial threeSegments 1 1000 (by decide) (by decide)
example := segments_max_partial threeSegments 1 1000 (by decide)
example : segmentsBitrate threeSegments 1 1000 = 60000 ∧ segmentsMaxBitrate 1 1000 threeSegments 0 = 80000 := by decide +kernel

end Mp4.Props
