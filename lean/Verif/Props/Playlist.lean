import Verif.Lemmas.Playlist

/-!
# The playlists of `mp4tool divide`

C65: the media playlists and the master playlist.
-/

namespace Mp4.Props

open Mp4.Tool Mp4.Str Mp4.Playlist

variable {d : Bytes} {fuel : Nat}

/-- Timescales are numbers of 32 bits. -/
theorem divide_timescales (hd : d.length ≤ maxAlloc) {o : Out Unit} {ts : List DTrack} {s : DivSt} (h : divide d fuel = (o, ts, s)) :
    ∀ t ∈ ts, t.timescale < 2 ^ 32 := by
  intro t ht
  unfold divide at h
  generalize hr : divTracks d fuel 0 = x at h
  match x, hr, h with
  | (.err e, p), hr, h => cases h; simp at ht
  | (.panic, p), hr, h => cases h; simp at ht
  | (.hang, p), hr, h => cases h; simp at ht
  | (.ok us, p), hr, h =>
    simp only [Prod.mk.injEq] at h
    obtain ⟨-, h2, -⟩ := h
    subst h2
    obtain ⟨l, ⟨par, h1⟩, h2, -, h3⟩ := divTracks_found hr
    obtain ⟨a, b, h4, -⟩ := (h3 t).1 ht
    have hm : t ∈ l.filterMap (·.2) := by rw [h4]; simp
    obtain ⟨x, hx, e⟩ := List.mem_filterMap.1 hm
    obtain ⟨tkhd, mdhd, k, -, h5, -, h6⟩ := h2 x hx
    have hreal : Real d x.1 := by
      cases hq : extractBoxes BoxMap.std d fuel none [[fourcc "moov", fourcc "trak"]] 0 with
      | mk o q =>
        rw [hq] at h1
        cases h1
        obtain ⟨-, hl⟩ := (extract_sound hd fuel [[fourcc "moov", fourcc "trak"]] 0).2 _ _ _ hq
        obtain ⟨path, hp, -⟩ := hl x.1 (List.mem_map_of_mem hx)
        exact leads_real hp
    have := timescale_small hd hreal (x := mdhd) (by rw [h5]; simp)
    rw [e] at h6
    cases k with
    | none => cases h6
    | some k =>
      cases h6
      exact this

theorem fragTicks_lt (bi : BoxInfo) : fragTicks d fuel bi < 2 ^ 32 := by
  unfold fragTicks
  split
  · exact Nat.mod_lt _ (by decide)
  · decide

theorem row_sane : ∀ {F : Forest}, SaneSizes F → ∀ b ∈ row F, b.size < 2 ^ 63
  | .nil, _, b, hb => by simp [row] at hb
  | .leaf bi rest, h, b, hb => by
    rcases List.mem_cons.1 hb with rfl | hb
    · exact h.1.2
    · exact row_sane h.2 b hb
  | .node bi n kids rest, h, b, hb => by
    rcases List.mem_cons.1 hb with rfl | hb
    · exact h.1.2
    · exact row_sane h.2.2 b hb

theorem frag_mem : ∀ {l : List BoxInfo} {x : BoxInfo × List BoxInfo}, x ∈ fragments l → ∀ b ∈ x.2, b ∈ l
  | [], x, h, b, hb => by simp [fragments] at h
  | bi :: l, x, h, b, hb => by
    rw [fragments] at h
    split at h
    · rcases List.mem_cons.1 h with rfl | h
      · exact List.mem_cons_of_mem _ ((List.takeWhile_sublist _).subset (List.mem_filter.1 hb).1)
      · exact List.mem_cons_of_mem _ (frag_mem h b hb)
    · exact List.mem_cons_of_mem _ (frag_mem h b hb)

theorem rates_small {F : Forest} (hz : SaneSizes F) (t : DTrack) : ∀ x ∈ mdatRates d fuel t (row F), x.1 < 2 ^ 64 ∧ x.2 < 2 ^ 32 := by
  intro x hx
  unfold mdatRates at hx
  obtain ⟨f, hf, hx⟩ := List.mem_flatMap.1 hx
  obtain ⟨b, hb, rfl⟩ := List.mem_map.1 hx
  have := row_sane hz b (frag_mem (List.mem_filter.1 hf).1 b hb)
  exact ⟨by omega, fragTicks_lt _⟩

theorem segments_small (t : DTrack) (l : List BoxInfo) : ∀ a ∈ (segments d fuel t l).map (·.1), a < 2 ^ 32 := by
  intro a ha
  unfold segments at ha
  rw [List.map_map] at ha
  obtain ⟨x, -, rfl⟩ := List.mem_map.1 ha
  exact fragTicks_lt _

/-- **C65 (the media playlists).**  After `divide` has succeeded on a file whose tracks are of different kinds, every track (whose timescale is
not 0) has a playlist in its directory that refers to `init.mp4` and lists its segments `0.mp4`, `1.mp4` etc. in this order, all of them and
nothing else, each with its duration in seconds to the nearest millionth; the target duration is the least number of seconds that no segment
exceeds.  There are no other media playlists.  This is so for any order of the tracks, and whatever conversions of numbers out of range give.

Missing for the full statement: tracks with timescale 0, see `zero_timescale`; tracks of the same kind. -/
theorem divide_media_playlists_partial (hd : d.length ≤ maxAlloc) {ts : List DTrack} {s : DivSt} (h : divide d fuel = (.ok (), ts, s))
    (hk : ts.Pairwise fun a b => a.kind ≠ b.kind) {F : Forest} (hF : Laid d F true [] {} 0 0) (hz : SaneSizes F)
    (cv : Conv) {os os' : List DTrack} (ho' : os'.Perm ts) :
    (∀ t ∈ ts, 0 < t.timescale → ∃ (target : Nat) (ms : List Nat), ms.length = (segments d fuel t (row F)).length ∧
      (∀ (i m : Nat) (x : Nat × Bytes), ms[i]? = some m → (segments d fuel t (row F))[i]? = some x → Nearest m x.1 t.timescale) ∧
      Target target t.timescale ((segments d fuel t (row F)).map (·.1)) ∧
      (playlists cv os os' s).media t.kind = some (lines (media target ms))) ∧
    ∀ k, (∀ t ∈ ts, t.kind ≠ k) → (playlists cv os os' s).media k = none := by
  have hw := (divide_writes hd h hk).2 F hF hz
  have hts := divide_timescales hd h
  have hk' : os'.Pairwise fun a b => a.kind ≠ b.kind := (ho'.pairwise_iff fun h => h.symm).2 hk
  have hm : ∀ k, (playlists cv os os' s).media k = (ts.find? fun t => t.kind == k).map fun t => mediaPlaylist cv ((s.durs t.id).map (seconds t)) := by
    intro k
    unfold playlists
    simp only
    rw [fold_upd _ _ _ hk', find_perm ho' hk, Option.or_none]
  constructor
  · intro t ht hb
    obtain ⟨target, h1, h2⟩ := mediaPlaylist_text cv (segments_small (d := d) (fuel := fuel) t (row F)) hb (hts t ht)
    refine ⟨target, (((segments d fuel t (row F)).map (·.1)).map (secN t)).map micros, ?_, ?_, h1, ?_⟩
    · simp
    · intro i m x e1 e2
      simp only [List.getElem?_map, e2, Option.map_some, Option.some.injEq] at e1
      rw [← e1]
      refine (secN_spec ?_ hb (hts t ht)).2.1
      exact segments_small (d := d) (fuel := fuel) t (row F) x.1 (List.mem_map_of_mem (List.mem_of_getElem? e2))
    · rw [hm, find_mem hk ht, Option.map_some, (hw t ht).2.1, h2]
  · intro k hn
    rw [hm, List.find?_eq_none.2 fun t ht => by simpa using hn t ht]
    rfl

/-- **C65 (the master playlist).**  It refers to the playlist of the audio track, and to that of the video track with its width and height
(in both cases the track that is not encrypted, if there is one); and BANDWIDTH is the greatest bit rate of the `mdat`s of the video track, each
taken alone with the duration of its fragment, rounded down (up to an error of 2^-51).

Missing for the full statement: fragments without duration and rates from 2^63 bits per second on, see `zero_duration`; that BANDWIDTH is what RFC 8216
asks for, which is refuted, see `bandwidth_too_small`. -/
theorem divide_master_playlist_partial (hd : d.length ≤ maxAlloc) {ts : List DTrack} {s : DivSt} (h : divide d fuel = (.ok (), ts, s))
    (hk : ts.Pairwise fun a b => a.kind ≠ b.kind) {F : Forest} (hF : Laid d F true [] {} 0 0) (hz : SaneSizes F)
    (cv : Conv) {os os' : List DTrack} (ho : os.Perm ts)
    (hv : ∀ t, firstOf ts [.video, .encVideo] = some t → 0 < t.timescale ∧
      ∀ x ∈ mdatRates d fuel t (row F), 0 < x.2 ∧ 8 * x.1 * t.timescale < 2 ^ 63 * x.2) :
    ∃ bw : DTrack → Nat, (∀ t, firstOf ts [.video, .encVideo] = some t → Peak (bw t) t.timescale (mdatRates d fuel t (row F))) ∧
      (playlists cv os os' s).master = lines (master ((firstOf ts [.audio, .encAudio]).map fun t => dirName t.kind)
        ((firstOf ts [.video, .encVideo]).map fun t => (dirName t.kind, bw t, t.width, t.height))) := by
  have hw := (divide_writes hd h hk).2 F hF hz
  have hts := divide_timescales hd h
  have hk' : os.Pairwise fun a b => a.kind ≠ b.kind := (ho.pairwise_iff fun h => h.symm).2 hk
  refine ⟨fun t => bandwidth cv t (s.rates t.id), fun t e => ?_, ?_⟩
  · obtain ⟨hb, hx⟩ := hv t e
    have ht : t ∈ ts := by
      unfold firstOf at e
      obtain ⟨k, -, e⟩ := List.exists_of_findSome?_eq_some e
      exact List.mem_of_find?_eq_some e
    simp only
    rw [(hw t ht).2.2.1]
    exact bandwidth_peak cv hb (hts t ht) fun x hm => ⟨(rates_small hz t x hm).1, (rates_small hz t x hm).2, hx x hm⟩
  · rw [← master_text]
    unfold playlists
    simp only
    congr 1
    funext k
    rw [fold_upd _ _ _ hk', find_perm ho hk, Option.or_none]

/-! ## The file with two tracks -/

/-- the tracks of `divFile` in the other order -/
def divFileSwapped : List DTrack := [⟨2, .audio, 1000, 0, 0⟩, ⟨1, .video, 600, 640, 360⟩]

theorem swapped_perm : divFileSwapped.Perm divFileTracks := List.Perm.swap _ _ _

/-- the hypotheses are met -/
example (cv : Conv) := divide_media_playlists_partial (d := divFile) (fuel := 20) (by decide +kernel) (outcome_inv divFile_run) (by decide +kernel)
  divFile_laid divForest_sane cv (os := divFileTracks) swapped_perm

/-- the sizes and durations of the `mdat`s of the video track -/
theorem divFile_rates : mdatRates divFile 20 ⟨1, .video, 600, 640, 360⟩ (row divForest) = [(11, 60), (9, 30)] := by decide +kernel

example (cv : Conv) := divide_master_playlist_partial (d := divFile) (fuel := 20) (by decide +kernel) (outcome_inv divFile_run) (by decide +kernel)
  divFile_laid divForest_sane cv (os' := divFileTracks) swapped_perm (by
    intro t e
    have : firstOf divFileTracks [.video, .encVideo] = some ⟨1, .video, 600, 640, 360⟩ := by decide
    rw [this] at e
    cases e
    refine ⟨by decide, ?_⟩
    rw [divFile_rates]
    decide)

theorem divFile_state : (divide divFile 20).2.2.durs 1 = [60, 30] ∧ (divide divFile 20).2.2.durs 2 = [16] ∧
    (divide divFile 20).2.2.rates 1 = [(11, 60), (9, 30)] ∧ (divide divFile 20).2.2.rates 2 = [(9, 16), (10, 16)] := by
  decide +kernel

/-- The playlists of this file. -/
theorem divFile_playlists :
    let p := playlists ⟨fun _ => 0, fun _ => 0⟩ divFileTracks divFileSwapped (divide divFile 20).2.2
    p.master = lit "#EXTM3U\n#EXT-X-MEDIA:TYPE=AUDIO,URI=\"audio/playlist.m3u8\",GROUP-ID=\"audio\",NAME=\"audio\",AUTOSELECT=YES,CHANNELS=\"2\"\n#EXT-X-STREAM-INF:BANDWIDTH=1440,CODECS=\"avc1.64001f,mp4a.40.2\",RESOLUTION=640x360,AUDIO=\"audio\"\nvideo/playlist.m3u8\n" ∧
    p.media .video = some (lit "#EXTM3U\n#EXT-X-VERSION:7\n#EXT-X-TARGETDURATION:1\n#EXT-X-PLAYLIST-TYPE:VOD\n#EXT-X-MAP:URI=\"init.mp4\"\n#EXTINF:0.100000,\n0.mp4\n#EXTINF:0.050000,\n1.mp4\n#EXT-X-ENDLIST\n") ∧
    p.media .audio = some (lit "#EXTM3U\n#EXT-X-VERSION:7\n#EXT-X-TARGETDURATION:1\n#EXT-X-PLAYLIST-TYPE:VOD\n#EXT-X-MAP:URI=\"init.mp4\"\n#EXTINF:0.016000,\n0.mp4\n#EXT-X-ENDLIST\n") ∧
    p.media .encVideo = none := by
  obtain ⟨h1, h2, h3, h4⟩ := divFile_state
  simp only [playlists, divFileTracks, divFileSwapped, List.foldl_cons, List.foldl_nil]
  rw [h1, h2, h3, h4]
  decide +kernel

/-! ## Findings -/

/-- **C65**, findings — if the timescale of a track is 0, which is a division by zero, the durations in its playlist are `+Inf` or `NaN`, -/
theorem zero_timescale {t : DTrack} (ht : t.timescale = 0) {a : Nat} (ha : a < 2 ^ 32) :
    (seconds t a).text = if a = 0 then lit "NaN" else lit "+Inf" := by
  unfold seconds
  rw [ht, ofNat_exact (by omega), ofNat_exact (by decide)]
  have hp := one_pos
  unfold F64.div
  simp only
  rw [if_pos (Nat.zero_mul _)]
  by_cases h : a = 0
  · rw [if_pos (by rw [h]; exact Nat.zero_mul _), if_pos h]
    rfl
  · rw [if_neg (Nat.ne_of_gt (Nat.mul_pos (by omega) hp)), if_neg h]
    rfl

/-- and the target duration is whatever the implementation of Go makes of infinity. -/
theorem zero_timescale_target (cv : Conv) {t : DTrack} (ht : t.timescale = 0) {a : Nat} (ha : a < 2 ^ 32) (h0 : a ≠ 0) :
    mediaPlaylist cv [seconds t a] = lines [lit "#EXTM3U", lit "#EXT-X-VERSION:7", lit "#EXT-X-TARGETDURATION:" ++ inum 10 (cv.int .inf),
      lit "#EXT-X-PLAYLIST-TYPE:VOD", lit "#EXT-X-MAP:URI=\"init.mp4\"", lit "#EXTINF:+Inf,", lit "0.mp4", lit "#EXT-X-ENDLIST"] := by
  have e : seconds t a = .inf := by
    unfold seconds
    rw [ht, ofNat_exact (by omega), ofNat_exact (by decide)]
    unfold F64.div
    simp only
    rw [if_pos (Nat.zero_mul _), if_neg (Nat.ne_of_gt (Nat.mul_pos (by omega) one_pos))]
  rw [e]
  unfold mediaPlaylist
  rw [show toInt cv (maxDur [F64.inf]).ceil = cv.int .inf from rfl,
    show mediaEntries 0 [F64.inf] = lines [lit "#EXTINF:+Inf,", lit "0.mp4"] by decide +kernel]
  rw [media_lines, ← lines_append, ← lines_append]
  simp only [List.cons_append, List.nil_append]

/-- A fragment without duration, as one whose `trun` gives none: the rate of its `mdat` is whatever the implementation makes of infinity. -/
theorem zero_duration (cv : Conv) {t : DTrack} (hb : 0 < t.timescale) (hb' : t.timescale < 2 ^ 32) {n : Nat} (hn : 0 < n) (hn' : n < 2 ^ 64) :
    mdatRate cv t (n, 0) = cv.uint64 .inf := by
  obtain ⟨N, e, -, -, h3⟩ := seconds_rel (a := 0) (by decide) hb hb'
  have hN := h3 0 (by simp)
  rw [Nat.zero_mul] at hN
  subst hN
  obtain ⟨s, e1, s1, s2⟩ := ofNat_rel hn'
  have hp := one_pos
  have hbig := one_big
  have hnO : f64One ≤ n * f64One := Nat.le_mul_of_pos_left _ hn
  have hnO' : n * f64One ≤ 2 ^ 64 * f64One := Nat.mul_le_mul_right _ (by omega)
  unfold mdatRate
  simp only
  rw [e, e1]
  unfold F64.times8
  simp only
  rw [pack_fin (by omega)]
  unfold F64.div
  simp only
  rw [if_pos trivial, if_neg (by omega)]
  rfl

/-- BANDWIDTH is to be no less than the bit rate of any segment (RFC 8216, 4.3.4.2), but only `mdat`s are counted: the second segment of the video
track of `divFile` has 61 bytes in 30 ticks of 1/600 second, that is 9760 bits per second; announced are 1440. -/
theorem bandwidth_too_small :
    ((divide divFile 20).2.2.segs .video 1).length * 8 * 600 = 9760 * 30 ∧ (divide divFile 20).2.2.durs 1 = [60, 30] ∧
    bandwidth ⟨fun _ => 0, fun _ => 0⟩ ⟨1, .video, 600, 640, 360⟩ ((divide divFile 20).2.2.rates 1) = 1440 := by
  refine ⟨by decide +kernel, divFile_state.1, ?_⟩
  rw [divFile_state.2.2.1]
  decide +kernel

end Mp4.Props
