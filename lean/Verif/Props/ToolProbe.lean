import Verif.Props.ToolDump
import Verif.Props.ProbeSafe
import Verif.Props.ProbeSegment
import Verif.Props.Bitrate
import Verif.Props.Idr

/-!
# C62: what `mp4tool probe` reports
-/

namespace Mp4.Props

open Mp4 Mp4.Spec Mp4.Tool Mp4.Str

variable {d : Bytes}

/-! ## What a report says -/

/-- a hexadecimal digit in upper case -/
def upperDigit (n : Nat) : Nat := if n < 10 then 48 + n else 55 + n

/-- a byte as two hexadecimal digits in upper case -/
def upperByte (n : Nat) : Text := [upperDigit (n / 16), upperDigit (n % 16)]

/-- The text consists of hexadecimal digits in upper case, which stand for `n`. -/
def IsUpperHex (n : Nat) (t : Text) : Prop :=
  t ≠ [] ∧ (∀ c ∈ t, (48 ≤ c ∧ c ≤ 57) ∨ (65 ≤ c ∧ c ≤ 70)) ∧ t.foldl (fun a c => 16 * a + if c < 58 then c - 48 else c - 55) 0 = n

/-- The text consists of decimal digits, which stand for `n`. -/
def IsDecimal (n : Nat) (t : Text) : Prop :=
  t ≠ [] ∧ (∀ c ∈ t, 48 ≤ c ∧ c ≤ 57) ∧ t.foldl (fun a c => 10 * a + (c - 48)) 0 = n

/-- The name of the codec, as RFC 6381 has it: for AVC, profile, compatible profiles and level follow in hexadecimal; for MPEG-4 audio the object type
indication in hexadecimal, and the audio object type in decimal.  What is not known is left out. -/
def NamesCodec (tr : Track) (t : Text) : Prop :=
  match tr.codec with
  | .unknown => t = lit "unknown"
  | .avc1 =>
    match tr.avc with
    | none => t = lit "avc1"
    | some a => t = lit "avc1." ++ upperByte a.profile ++ upperByte a.profileCompatibility ++ upperByte a.level
  | .mp4a =>
    match tr.mp4a with
    | none => t = lit "mp4a"
    | some a =>
      if a.oti = 0 then t = lit "mp4a"
      else if a.audOTI = 0 then ∃ u, IsUpperHex a.oti u ∧ t = lit "mp4a." ++ u
      else ∃ u v, IsUpperHex a.oti u ∧ IsDecimal a.audOTI v ∧ t = lit "mp4a." ++ u ++ lit "." ++ v

/-- Width and height of an AVC track, 0 if not known. -/
def pixels (tr : Track) : Nat × Nat :=
  match tr.codec, tr.avc with
  | .avc1, some a => (a.width, a.height)
  | _, _ => (0, 0)

/-- The numbers of the samples of the track do not leave 64 bits. -/
def Fits (tr : Track) : Prop :=
  8 * bytesOf tr.samples * tr.timescale < 2 ^ 64 ∧ bytesOf tr.samples < 2 ^ 64 ∧ ticksOf tr.samples < 2 ^ 64

/-- The numbers of the segments of the track do not leave 64 bits. -/
def SegmentsFit (l : List Segment) (tr : Track) : Prop :=
  8 * ((ofTrack l tr.trackID).map (·.size)).sum * tr.timescale < 2 ^ 64 ∧ ((ofTrack l tr.trackID).map (·.duration)).sum < 2 ^ 64

/-- the average bit rate of `bytes` bytes that take `ticks` ticks -/
def averageRate (bytes ticks timescale : Nat) : Nat := if ticks = 0 then 0 else 8 * bytes * timescale / ticks

/-- the greatest bit rate of the samples within a second, see C35 -/
def IsPeak (tr : Track) (r : Nat) : Prop :=
  (∀ b e, tr.timescale ≠ 0 → Examined tr.samples tr.timescale b e → bitsPerSecond (window tr.samples b e) tr.timescale ≤ r) ∧
  (r = 0 ∨ ∃ b e, Examined tr.samples tr.timescale b e ∧ bitsPerSecond (window tr.samples b e) tr.timescale = r)

/-- The bit rates: those of the samples, unless one of them is 0; then those of the segments of the track. -/
def HasRates (l : List Segment) (tr : Track) (rate peak : Nat) : Prop :=
  ∃ p, IsPeak tr p ∧
    let own := averageRate (bytesOf tr.samples) (ticksOf tr.samples) tr.timescale
    if own = 0 ∨ p = 0 then
      SegmentsFit l tr →
        rate = averageRate ((ofTrack l tr.trackID).map (·.size)).sum ((ofTrack l tr.trackID).map (·.duration)).sum tr.timescale ∧
        (∀ s ∈ ofTrack l tr.trackID, s.duration ≠ 0 → averageRate s.size s.duration tr.timescale ≤ peak) ∧
        (peak = 0 ∨ ∃ s ∈ ofTrack l tr.trackID, s.duration ≠ 0 ∧ averageRate s.size s.duration tr.timescale = peak)
    else rate = own ∧ peak = p

/-- The report about a track. -/
structure Describes (d : Bytes) (info : ProbeInfo) (tr : Track) (t : TrackReport) : Prop where
  header : t.trackID = tr.trackID ∧ t.timescale = tr.timescale ∧ t.duration = tr.duration ∧ t.encrypted = tr.encrypted
  counts : t.sampleNum = tr.samples.length ∧ t.chunkNum = tr.chunks.length
  codec : NamesCodec tr t.codec
  size : (t.width, t.height) = pixels tr
  idr : ∀ avc, tr.codec = .avc1 → tr.avc = some avc → ∀ units, ChunksHold d avc.lengthSize tr.chunks tr.samples units →
    t.idrFrameNum = (units.filter fun us => us.any fun u => isIDR u.2).length
  noIdr : tr.codec ≠ .avc1 ∨ tr.avc = none → t.idrFrameNum = 0
  rates : Fits tr → HasRates info.segments tr t.bitrate t.maxBitrate

/-! ## Texts -/

theorem hex_digits (n : Nat) : ∀ c ∈ num 16 n, (48 ≤ c ∧ c ≤ 57) ∨ (97 ≤ c ∧ c ≤ 102) :=
  numLoop_digits (P := fun c => (48 ≤ c ∧ c ≤ 57) ∨ (97 ≤ c ∧ c ≤ 102)) (by decide) (by decide) _ _ _ (by simp)

theorem upper_value : ∀ (t : Text) (a : Nat), (∀ c ∈ t, (48 ≤ c ∧ c ≤ 57) ∨ (97 ≤ c ∧ c ≤ 102)) →
    (upper t).foldl (fun a c => 16 * a + if c < 58 then c - 48 else c - 55) a = t.foldl (fun a c => a * 16 + (if c < 58 then c - 48 else c - 87)) a
  | [], _, _ => rfl
  | c :: t, a, h => by
    have ih := upper_value t
    unfold upper at ih ⊢
    rw [List.map_cons, List.foldl_cons, List.foldl_cons, ih _ fun c hc => h c (List.mem_cons_of_mem _ hc)]
    congr 1
    rcases h c List.mem_cons_self with hc | hc
    · have e : (if (decide (97 ≤ c) && decide (c ≤ 122)) = true then c - 32 else c) = c := if_neg (by simp; omega)
      rw [e, if_pos (by omega), if_pos (by omega)]
      omega
    · have e : (if (decide (97 ≤ c) && decide (c ≤ 122)) = true then c - 32 else c) = c - 32 := if_pos (by simp; omega)
      rw [e, if_neg (by omega), if_neg (by omega)]
      omega

theorem upper_hex (n : Nat) : IsUpperHex n (upper (num 16 n)) := by
  refine ⟨by unfold upper; simpa using num_ne 16 n, ?_, ?_⟩
  · intro c hc
    unfold upper at hc
    obtain ⟨x, hx, rfl⟩ := List.mem_map.1 hc
    rcases hex_digits n x hx with h | h
    · rw [if_neg (by simp; omega)]; exact .inl h
    · rw [if_pos (by simp; omega)]; omega
  · rw [upper_value _ _ (hex_digits n)]
    exact number_text (by decide) (by decide) n

theorem decimal_value : ∀ (t : Text) (a : Nat), (∀ c ∈ t, 48 ≤ c ∧ c ≤ 57) →
    t.foldl (fun a c => 10 * a + (c - 48)) a = t.foldl (fun a c => a * 10 + (if c < 58 then c - 48 else c - 87)) a
  | [], _, _ => rfl
  | c :: t, a, h => by
    rw [List.foldl_cons, List.foldl_cons, decimal_value t _ fun c hc => h c (List.mem_cons_of_mem _ hc)]
    congr 1
    have := h c List.mem_cons_self
    rw [if_pos (by omega)]
    omega

theorem decimal_text (n : Nat) : IsDecimal n (num 10 n) := by
  have h : ∀ c ∈ num 10 n, 48 ≤ c ∧ c ≤ 57 := numLoop_digits (by decide) (by decide) _ _ _ (by simp)
  refine ⟨num_ne 10 n, h, ?_⟩
  rw [decimal_value _ _ h]
  exact number_text (by decide) (by decide) n

theorem upper_pad : ∀ n, n < 256 → upper (hexPad 2 n) = upperByte n := by decide +kernel

theorem mp4a_names (tr : Track) (h : tr.codec = .mp4a) : NamesCodec tr (mp4aText tr.mp4a) := by
  unfold NamesCodec
  rw [h]
  simp only
  cases tr.mp4a with
  | none => rfl
  | some a =>
    simp only [mp4aText]
    split
    · rfl
    · split
      · exact ⟨_, upper_hex _, rfl⟩
      · refine ⟨_, _, upper_hex _, decimal_text _, ?_⟩
        simp only [List.append_assoc]
        rfl

/-! ## Numbers of decoded boxes -/

/-- The numbers in the name of an AVC codec are bytes. -/
def AvcBytes (tr : Track) : Prop := ∀ a, tr.avc = some a → a.profile < 256 ∧ a.profileCompatibility < 256 ∧ a.level < 256

theorem bd_avcC : ∀ bd ∈ Cat.allDefs, bd.goName = "AVCDecoderConfiguration" → bd = Cat.bdAVCDecoderConfiguration := by
  unfold Cat.allDefs
  simp only [List.forall_mem_cons]
  repeat' apply And.intro
  all_goals first
    | (intro _; rfl)
    | (intro _; trivial)
    | (intro h; exact absurd h (by decide))
    | (intro x hx; exact absurd hx (by simp))

theorem std_avcC (ctx : Ctx) : BoxMap.std.getBoxDef tAvcC ctx = some Cat.bdAVCDecoderConfiguration := by
  obtain ⟨bd, h1, h2⟩ := lookup_single (name := "AVCDecoderConfiguration") (m := BoxMap.std) (t := tAvcC) (by decide +kernel) ctx
  rw [h1, bd_avcC bd (std_mem h1) h2]

theorem uint8_lt {v : Val} (h : typedV (.uint 8) v = true) : ∃ n, v = .uint n ∧ n < 256 := typedV_uint_inv h

theorem avcC_bytes {sv : SV} (h : typedFields Cat.fsAVCDecoderConfiguration sv = true) :
    sv.uint "Profile" < 256 ∧ sv.uint "ProfileCompatibility" < 256 ∧ sv.uint "Level" < 256 := by
  simp only [Cat.fsAVCDecoderConfiguration, Fields.ofList] at h
  obtain ⟨v0, s0, rfl, h0, h⟩ := typedFields_cons h
  obtain ⟨v1, s1, rfl, h1, h⟩ := typedFields_cons h
  obtain ⟨v2, s2, rfl, h2, h⟩ := typedFields_cons h
  obtain ⟨v3, s3, rfl, h3, h⟩ := typedFields_cons h
  obtain ⟨n1, rfl, k1⟩ := uint8_lt h1
  obtain ⟨n2, rfl, k2⟩ := uint8_lt h2
  obtain ⟨n3, rfl, k3⟩ := uint8_lt h3
  refine ⟨?_, ?_, ?_⟩ <;> simpa [SV.uint, SV.get]

theorem lastPayload_mem {l : List (BoxInfo × BoxVal)} {t : BoxType} {sv : SV} (h : lastPayload l t = some sv) :
    ∃ x ∈ l, x.1.type = t ∧ x.2.sv = sv := by
  unfold lastPayload at h
  obtain ⟨x, hx, rfl⟩ := Option.map_eq_some_iff.1 h
  have := List.mem_of_getLast? hx
  obtain ⟨h1, h2⟩ := List.mem_filter.1 this
  exact ⟨x, h1, by simpa using h2, rfl⟩

/-- The tracks that `Probe` reports for a file, whatever the file. -/
theorem probe_tracks_bytes (hd : d.length ≤ 2 ^ 48) {fuel pos p : Nat} {info : ProbeInfo} (h : probe BoxMap.std d fuel pos = (.ok info, p)) :
    ∀ tr ∈ info.tracks, AvcBytes tr := by
  obtain ⟨h1, h2⟩ := extract_sound hd fuel probePaths pos
  unfold probe at h
  obtain ⟨⟨bis, par⟩, p1, e1, h⟩ := bind_ok_inv h
  obtain ⟨⟨s1, -, -, -⟩, -⟩ := probeLoop_ok (soFar_nil fuel) h
  rw [List.nil_append] at s1
  intro tr htr
  obtain ⟨i, hi, rfl⟩ := List.mem_iff_getElem.1 htr
  obtain ⟨p2, q2, e2⟩ := s1.2 i _ _ (List.getElem?_eq_getElem (by rw [s1.1]; exact hi)) (List.getElem?_eq_getElem hi)
  have hb := List.getElem_mem (l := bis.filter (·.type = tTrak)) (n := i) (by rw [s1.1]; exact hi)
  obtain ⟨path, hl, -⟩ := (h2 _ _ _ e1).2 _ (List.mem_filter.1 hb).1
  obtain ⟨l, x1, -, -, -, -, -, x7, -⟩ := track_fields_partial _ _ _ _ _ _ e2
  obtain ⟨ctx, x8⟩ := (extract_payload_sound hd fuel _ (leads_real hl) _ _).2 _ _ x1
  intro a ha
  rw [x7] at ha
  obtain ⟨e, he, ha⟩ := Option.bind_eq_some_iff.1 ha
  obtain ⟨c, hc, rfl⟩ := Option.map_eq_some_iff.1 ha
  obtain ⟨x, hx, ht, rfl⟩ := lastPayload_mem hc
  obtain ⟨-, y1, y2⟩ := x8 x hx
  rw [ht, show fourcc "avcC" = tAvcC by decide, std_avcC] at y1
  rw [← Option.some.inj y1] at y2
  exact avcC_bytes y2

/-! ## Bit rates -/

theorem segmentsMax_filter (i ts : Nat) : ∀ (l : List Segment) (best : Nat), segmentsMaxBitrate i ts l best = segmentsMaxBitrate i ts (ofTrack l i) best
  | [], _ => rfl
  | s :: l, best => by
    have ih := segmentsMax_filter i ts l
    unfold ofTrack at ih ⊢
    rw [List.filter_cons]
    by_cases h : s.trackID = i
    · rw [if_pos (by simpa using h)]
      simp only [segmentsMaxBitrate]
      split
      · exact ih _
      · exact ih _
    · rw [if_neg (by simpa using h)]
      simp only [segmentsMaxBitrate]
      rw [if_neg (fun x => h x.1)]
      exact ih _

theorem le_sum_of_mem {l : List Nat} {a : Nat} (h : a ∈ l) : a ≤ l.sum := by
  induction l with
  | nil => cases h
  | cons b l ih =>
    rw [List.sum_cons]
    rcases List.mem_cons.1 h with rfl | h
    · omega
    · have := ih h; omega

theorem peak_of_max {tr : Track} (hf : Fits tr) {fuel mx : Nat} (hl : tr.samples.length < fuel)
    (h : samplesMaxBitrate tr.samples tr.timescale tr.timescale fuel = .ok mx) : IsPeak tr mx := by
  by_cases ht : tr.timescale = 0
  · rw [ht, max_bitrate_no_span] at h
    cases h
    exact ⟨fun b e hne => absurd ht hne, .inl rfl⟩
  · obtain ⟨m1, m2⟩ := max_bitrate_partial tr.samples tr.timescale tr.timescale ht hf.1 hf.2.1 hf.2.2 fuel hl
    obtain ⟨r, e, r1, r2⟩ := m2 (by
      intro b e hex hz
      rw [m1 ⟨b, e, hex, hz⟩] at h
      cases h)
    rw [e] at h
    cases h
    exact ⟨fun b e _ hex => r1 b e hex, r2⟩

theorem rates_right {info : ProbeInfo} {tr : Track} {fuel a b : Nat} (hl : tr.samples.length < fuel)
    (h : bitrates info tr fuel = .ok (a, b)) (hf : Fits tr) : HasRates info.segments tr a b := by
  unfold bitrates at h
  cases hm : samplesMaxBitrate tr.samples tr.timescale tr.timescale fuel with
  | err e => rw [hm] at h; cases h
  | panic => rw [hm] at h; cases h
  | hang => rw [hm] at h; cases h
  | ok mx =>
    have e0 : samplesBitrate tr.samples tr.timescale = averageRate (bytesOf tr.samples) (ticksOf tr.samples) tr.timescale :=
      bitrate_partial _ _ hf.1 hf.2.2
    rw [hm, e0] at h
    refine ⟨mx, peak_of_max hf hl hm, ?_⟩
    simp only at h ⊢
    split at h
    · next hc =>
      rw [if_pos hc]
      intro hs
      cases h
      have hseg : ∀ s ∈ ofTrack info.segments tr.trackID, 8 * s.size * tr.timescale < 2 ^ 64 := by
        intro s hs'
        refine Nat.lt_of_le_of_lt (Nat.mul_le_mul_right _ (Nat.mul_le_mul_left _ ?_)) hs.1
        exact le_sum_of_mem (List.mem_map.2 ⟨s, hs', rfl⟩)
      obtain ⟨k1, k2⟩ := segments_max_partial (ofTrack info.segments tr.trackID) tr.trackID tr.timescale hseg
      rw [← segmentsMax_filter] at k1 k2
      refine ⟨segments_bitrate_partial _ _ _ hs.1 hs.2, ?_, ?_⟩
      · intro s hm hd
        unfold averageRate
        rw [if_neg hd]
        exact k1 s hm (by simpa using (List.mem_filter.1 hm).2) hd
      · rcases k2 with k2 | ⟨s, hm, -, hd, e⟩
        · exact .inl k2
        · refine .inr ⟨s, hm, hd, ?_⟩
          unfold averageRate
          rw [if_neg hd]
          exact e
    · next hc =>
      rw [if_neg hc]
      cases h
      exact ⟨rfl, rfl⟩

/-! ## Tracks -/

theorem idrFrom_length : ∀ (l : List (List (Bytes × Bytes))) (i : Nat),
    (idrFrom i l).length = (l.filter fun us => us.any fun u => isIDR u.2).length
  | [], _ => rfl
  | us :: l, i => by
    have ih := idrFrom_length l (i + 1)
    rw [show idrFrom i (us :: l) = if (us.any fun u => isIDR u.2) = true then i :: idrFrom (i + 1) l else idrFrom (i + 1) l from rfl,
      List.filter_cons]
    split
    · simp only [List.length_cons, ih]
    · exact ih

theorem idr_count (hd : d.length ≤ 2 ^ 48) {fuel : Nat} (hf : d.length < fuel) {tr : Track} {avc : AvcInfo} (ha : tr.avc = some avc)
    {units : List (List (Bytes × Bytes))} (hu : ChunksHold d avc.lengthSize tr.chunks tr.samples units) {p p' : Nat} {r : Option (List Nat)}
    (h : findIDRFrames d fuel tr p = (.ok r, p')) : (r.getD []).length = (units.filter fun us => us.any fun u => isIDR u.2).length := by
  obtain ⟨q, e⟩ := chunksLoop_run (ls := avc.lengthSize) hd hf tr.samples tr.chunks units 0 [] p (Nat.zero_le _) hu
  unfold findIDRFrames at h
  rw [ha] at h
  simp only at h
  rw [M.bind_ok e] at h
  cases h
  simp only [List.nil_append, Option.getD_some]
  exact idrFrom_length _ _

theorem trackReport_right (hd : d.length ≤ 2 ^ 48) {fuel : Nat} (hf : d.length < fuel) {info : ProbeInfo} {tr : Track}
    (hl : tr.samples.length < fuel) (hb : AvcBytes tr) {p p' : Nat} {t : TrackReport}
    (h : trackReport d fuel info tr p = (.ok t, p')) : Describes d info tr t := by
  unfold trackReport at h
  obtain ⟨⟨a, b⟩, p1, e1, h⟩ := bind_ok_inv h
  have hr : bitrates info tr fuel = .ok (a, b) := by
    unfold ofOut at e1
    exact (Prod.mk.inj e1).1
  have rates := fun hf => rates_right hl hr hf
  cases hc : tr.codec with
  | unknown =>
    rw [hc] at h
    cases h
    exact ⟨⟨rfl, rfl, rfl, rfl⟩, ⟨rfl, rfl⟩, by unfold NamesCodec; rw [hc]; rfl, by unfold pixels; rw [hc]; rfl,
      fun avc h => absurd (hc.symm.trans h) (by simp), fun _ => rfl, rates⟩
  | mp4a =>
    rw [hc] at h
    cases h
    exact ⟨⟨rfl, rfl, rfl, rfl⟩, ⟨rfl, rfl⟩, mp4a_names tr hc, by unfold pixels; rw [hc]; rfl,
      fun avc h => absurd (hc.symm.trans h) (by simp), fun _ => rfl, rates⟩
  | avc1 =>
    rw [hc] at h
    simp only at h
    obtain ⟨r, p2, e2, h⟩ := bind_ok_inv h
    cases h
    cases ha : tr.avc with
    | none =>
      have e3 := idr_no_avc (d := d) tr ha fuel p1
      rw [e3] at e2
      cases e2
      exact ⟨⟨rfl, rfl, rfl, rfl⟩, ⟨rfl, rfl⟩, by unfold NamesCodec; rw [hc, ha]; rfl, by unfold pixels; rw [hc, ha]; rfl,
        fun avc _ h => absurd (ha.symm.trans h) (by simp), fun _ => rfl, rates⟩
    | some avc =>
      refine ⟨⟨rfl, rfl, rfl, rfl⟩, ⟨rfl, rfl⟩, ?_, by unfold pixels; rw [hc, ha]; rfl, ?_, ?_, rates⟩
      · unfold NamesCodec
        rw [hc, ha]
        obtain ⟨b1, b2, b3⟩ := hb avc ha
        simp only [avcReport, avcText]
        rw [upper_pad _ b1, upper_pad _ b2, upper_pad _ b3]
      · intro avc' _ ha' units hu
        rw [ha] at ha'
        cases ha'
        exact idr_count hd hf ha hu e2
      · rintro (h | h)
        · exact absurd hc h
        · rw [ha] at h; cases h

theorem trackReports_right (hd : d.length ≤ 2 ^ 48) {fuel : Nat} (hf : d.length < fuel) {info : ProbeInfo} : ∀ {l : List Track}
    (_ : ∀ tr ∈ l, tr.samples.length < fuel ∧ AvcBytes tr) {p p' : Nat} {ts : List TrackReport}
    (_ : trackReports d fuel info l p = (.ok ts, p')), Aligned (Describes d info) l ts
  | [], _, _, _, _, h => by
    cases h
    exact aligned_nil
  | tr :: l, hl, p, p', ts, h => by
    unfold trackReports at h
    obtain ⟨t, p1, e1, h⟩ := bind_ok_inv h
    obtain ⟨ts', p2, e2, h⟩ := bind_ok_inv h
    cases h
    obtain ⟨h1, h2⟩ := hl tr List.mem_cons_self
    exact aligned_cons (trackReport_right hd hf h1 h2 e1) (trackReports_right hd hf (fun x hx => hl x (List.mem_cons_of_mem _ hx)) e2)

/-- **C62**, the report — Whatever the file, if a report is made, then it says what `Probe` found out: brands, fast start, timescale and duration are
those of the file, and the tracks are described one by one, in order: with the name that RFC 6381 gives to the codec, with the numbers of samples,
chunks and IDR frames, with the size of the picture and the bit rates of samples or segments.  (The number of rounds of the loops is bounded by
`fuel`, which must be larger than the file and the number of samples.) -/
theorem report_describes (hd : d.length ≤ 2 ^ 48) (fuel : Nat) (hf : d.length < fuel) (pos p : Nat) (r : Report)
    (h : buildReport BoxMap.std d fuel pos = (.ok r, p)) :
    ∃ info q, probe BoxMap.std d fuel pos = (.ok info, q) ∧
      r.majorBrand = info.majorBrand ∧ r.minorVersion = info.minorVersion ∧ r.compatibleBrands = info.compatibleBrands ∧
      r.fastStart = info.fastStart ∧ r.timescale = info.timescale ∧ r.duration = info.duration ∧
      ((∀ tr ∈ info.tracks, tr.samples.length < fuel) → Aligned (Describes d info) info.tracks r.tracks) := by
  unfold buildReport at h
  obtain ⟨info, p1, e1, h⟩ := bind_ok_inv h
  obtain ⟨ts, p2, e2, h⟩ := bind_ok_inv h
  cases h
  exact ⟨info, p1, e1, rfl, rfl, rfl, rfl, rfl, rfl,
    fun hs => trackReports_right hd hf (fun tr htr => ⟨hs tr htr, probe_tracks_bytes hd e1 tr htr⟩) e2⟩

/-! ## Panics -/

theorem trackReport_panics {fuel : Nat} {info : ProbeInfo} {tr : Track} {p : Nat} (h : (trackReport d fuel info tr p).1 = .panic) :
    samplesMaxBitrate tr.samples tr.timescale tr.timescale fuel = .panic := by
  unfold trackReport at h
  cases hb : bitrates info tr fuel with
  | panic =>
    unfold bitrates at hb
    cases hm : samplesMaxBitrate tr.samples tr.timescale tr.timescale fuel with
    | ok mx => rw [hm] at hb; simp only at hb; split at hb <;> cases hb
    | err e => rw [hm] at hb; cases hb
    | hang => rw [hm] at hb; cases hb
    | panic => rfl
  | err e => rw [M.bind_err (show ofOut (bitrates info tr fuel) p = (.err e, p) by unfold ofOut; rw [hb])] at h; cases h
  | hang => rw [M.bind_hang (show ofOut (bitrates info tr fuel) p = (.hang, p) by unfold ofOut; rw [hb])] at h; cases h
  | ok rates =>
    rw [M.bind_ok (show ofOut (bitrates info tr fuel) p = (.ok rates, p) by unfold ofOut; rw [hb])] at h
    cases hc : tr.codec with
    | unknown => rw [hc] at h; cases h
    | mp4a => rw [hc] at h; cases h
    | avc1 =>
      rw [hc] at h
      exact absurd h (bind_safe (findIDR_never_panics fuel tr) (fun _ s => pure_safe _ s) p)

theorem trackReports_panics {fuel : Nat} {info : ProbeInfo} : ∀ {l : List Track} {p : Nat}, (trackReports d fuel info l p).1 = .panic →
    ∃ tr ∈ l, samplesMaxBitrate tr.samples tr.timescale tr.timescale fuel = .panic
  | [], _, h => by cases h
  | tr :: l, p, h => by
    unfold trackReports at h
    cases hr : trackReport d fuel info tr p with
    | mk o p1 =>
      cases o with
      | panic => exact ⟨tr, List.mem_cons_self, trackReport_panics (by rw [hr])⟩
      | err e => rw [M.bind_err hr] at h; cases h
      | hang => rw [M.bind_hang hr] at h; cases h
      | ok t =>
        rw [M.bind_ok hr] at h
        cases hs : trackReports d fuel info l p1 with
        | mk o p2 =>
          cases o with
          | panic =>
            obtain ⟨tr', h1, h2⟩ := trackReports_panics (show (trackReports d fuel info l p1).1 = .panic by rw [hs])
            exact ⟨tr', List.mem_cons_of_mem _ h1, h2⟩
          | err e => rw [M.bind_err hs] at h; cases h
          | hang => rw [M.bind_hang hs] at h; cases h
          | ok ts => rw [M.bind_ok hs] at h; cases h

/-- **C62**, partial, no panic — If every sample of the file takes some time and the numbers fit in 64 bits, `mp4tool probe` does not panic, whatever
else is in the file.

Missing: samples that take no time (`report_panics`). -/
theorem report_never_panics_partial (hd : d.length ≤ 2 ^ 48) (fuel pos : Nat)
    (h : ∀ info q, probe BoxMap.std d fuel pos = (.ok info, q) → ∀ tr ∈ info.tracks,
      tr.samples.length < fuel ∧ Fits tr ∧ ∀ s ∈ tr.samples, 0 < s.timeDelta) :
    (buildReport BoxMap.std d fuel pos).1 ≠ .panic ∧ (probeJson BoxMap.std d fuel pos).1 ≠ .panic := by
  have key : (buildReport BoxMap.std d fuel pos).1 ≠ .panic := by
    intro hp
    unfold buildReport at hp
    have h0 := probe_never_panics hd fuel pos
    cases hr : probe BoxMap.std d fuel pos with
    | mk o p1 =>
      rw [hr] at h0
      cases o with
      | panic => exact h0 rfl
      | err e => rw [M.bind_err hr] at hp; cases hp
      | hang => rw [M.bind_hang hr] at hp; cases hp
      | ok info =>
        rw [M.bind_ok hr] at hp
        cases hs : trackReports d fuel info info.tracks p1 with
        | mk o p2 =>
          cases o with
          | panic =>
            obtain ⟨tr, htr, e⟩ := trackReports_panics (show (trackReports d fuel info info.tracks p1).1 = .panic by rw [hs])
            obtain ⟨g1, g2, g3⟩ := h info p1 hr tr htr
            obtain ⟨r, e'⟩ := max_bitrate_returns_partial tr.samples tr.timescale tr.timescale g3 g2.1 g2.2.1 g2.2.2 fuel g1
            rw [e] at e'
            cases e'
          | err e => rw [M.bind_err hs] at hp; cases hp
          | hang => rw [M.bind_hang hs] at hp; cases hp
          | ok ts => rw [M.bind_ok hs] at hp; cases hp
  refine ⟨key, ?_⟩
  intro hp
  unfold probeJson at hp
  cases hr : buildReport BoxMap.std d fuel pos with
  | mk o p1 =>
    rw [hr] at key
    cases o with
    | panic => exact key rfl
    | err e => rw [M.bind_err hr] at hp; cases hp
    | hang => rw [M.bind_hang hr] at hp; cases hp
    | ok r =>
      rw [M.bind_ok hr] at hp
      split at hp <;> cases hp

/-! ## JSON -/

/-- **C62**, JSON — By default the report is printed as JSON; that succeeds if and only if the movie and every track have a timescale other than 0. -/
theorem json_printed (fuel pos p : Nat) (r : Report) : probeJson BoxMap.std d fuel pos = (.ok r, p) ↔
    buildReport BoxMap.std d fuel pos = (.ok r, p) ∧ r.timescale ≠ 0 ∧ ∀ t ∈ r.tracks, t.timescale ≠ 0 := by
  unfold probeJson
  have key : ∀ r : Report, r.finite = true ↔ r.timescale ≠ 0 ∧ ∀ t ∈ r.tracks, t.timescale ≠ 0 := by
    intro r
    simp [Report.finite, bne_iff_ne, List.all_eq_true]
  cases hr : buildReport BoxMap.std d fuel pos with
  | mk o p1 =>
    cases o with
    | panic => rw [M.bind_panic hr]; simp
    | err e => rw [M.bind_err hr]; simp
    | hang => rw [M.bind_hang hr]; simp
    | ok r' =>
      rw [M.bind_ok hr]
      by_cases h : r'.finite = true
      · rw [if_pos h]
        constructor
        · intro e
          cases e
          exact ⟨rfl, (key _).1 h⟩
        · rintro ⟨e, -⟩
          cases e
          rfl
      · rw [if_neg h]
        constructor
        · intro e; cases e
        · rintro ⟨e, h'⟩
          cases e
          exact absurd ((key _).2 h') h

/-- Where C62 fails: nothing is printed about a well-formed file without a movie header (`moov/mvhd`), as media segments are, though `Probe` summarises it. -/
theorem json_needs_movie (hd : d.length ≤ 2 ^ 48) (F : Forest) (hwf : F.WF d true [] {} 0 0)
    (hleaf : ∀ x ∈ leaves [] F, x.1 ≠ [tMoov]) (fuel : Nat) (hf : F.count < fuel) (pos : Nat) (hno : boxesAt F [tMoov, tMvhd] = []) :
    ∀ r p, probeJson BoxMap.std d fuel pos ≠ (.ok r, p) := by
  intro r p h
  obtain ⟨h1, h2, -⟩ := (json_printed fuel pos p r).1 h
  unfold buildReport at h1
  obtain ⟨info, p1, e1, h1⟩ := bind_ok_inv h1
  obtain ⟨ts, p2, e2, h1⟩ := bind_ok_inv h1
  cases h1
  obtain ⟨-, -, -, m⟩ := probe_summary hd F hwf hleaf fuel hf pos p1 info e1
  rw [hno] at m
  exact h2 m.1

/-! ## Files -/

/-- A movie of 2 seconds, with an AVC track of two samples of 6 bytes and one second each; the first one is an IDR frame. -/
def reportFile : Bytes := [0, 0, 1, 233, 109, 111, 111, 118, 0, 0, 0, 108, 109, 118, 104, 100, 0, 0, 0, 0, 0, 0, 0, 0, 0, 0, 0, 0, 0, 0,
  3, 232, 0, 0, 7, 208, 0, 0, 0, 0, 0, 0, 0, 0, 0, 0, 0, 0, 0, 0, 0, 0, 0, 0, 0, 0, 0, 0, 0, 0, 0, 0, 0, 0, 0, 0, 0, 0, 0, 0, 0, 0, 0, 0,
  0, 0, 0, 0, 0, 0, 0, 0, 0, 0, 0, 0, 0, 0, 0, 0, 0, 0, 0, 0, 0, 0, 0, 0, 0, 0, 0, 0, 0, 0, 0, 0, 0, 0, 0, 0, 0, 0, 0, 0, 0, 0, 0, 0, 1,
  117, 116, 114, 97, 107, 0, 0, 0, 92, 116, 107, 104, 100, 0, 0, 0, 0, 0, 0, 0, 0, 0, 0, 0, 0, 0, 0, 0, 1, 0, 0, 0, 0, 0, 0, 0, 0, 0, 0,
  0, 0, 0, 0, 0, 0, 0, 0, 0, 0, 0, 0, 0, 0, 0, 0, 0, 0, 0, 0, 0, 0, 0, 0, 0, 0, 0, 0, 0, 0, 0, 0, 0, 0, 0, 0, 0, 0, 0, 0, 0, 0, 0, 0, 0,
  0, 0, 0, 0, 0, 0, 0, 0, 0, 0, 0, 0, 0, 0, 0, 1, 17, 109, 100, 105, 97, 0, 0, 0, 32, 109, 100, 104, 100, 0, 0, 0, 0, 0, 0, 0, 0, 0, 0,
  0, 0, 0, 0, 2, 88, 0, 0, 4, 176, 0, 0, 0, 0, 0, 0, 0, 233, 109, 105, 110, 102, 0, 0, 0, 225, 115, 116, 98, 108, 0, 0, 0, 117, 115, 116,
  115, 100, 0, 0, 0, 0, 0, 0, 0, 1, 0, 0, 0, 101, 97, 118, 99, 49, 0, 0, 0, 0, 0, 0, 0, 1, 0, 0, 0, 0, 0, 0, 0, 0, 0, 0, 0, 0, 0, 0, 0,
  0, 2, 128, 1, 104, 0, 0, 0, 0, 0, 0, 0, 0, 0, 0, 0, 0, 0, 1, 0, 0, 0, 0, 0, 0, 0, 0, 0, 0, 0, 0, 0, 0, 0, 0, 0, 0, 0, 0, 0, 0, 0, 0, 0,
  0, 0, 0, 0, 0, 0, 0, 0, 24, 255, 255, 0, 0, 0, 15, 97, 118, 99, 67, 1, 66, 192, 30, 255, 224, 0, 0, 0, 0, 24, 115, 116, 116, 115, 0, 0,
  0, 0, 0, 0, 0, 1, 0, 0, 0, 2, 0, 0, 2, 88, 0, 0, 0, 28, 115, 116, 115, 99, 0, 0, 0, 0, 0, 0, 0, 1, 0, 0, 0, 1, 0, 0, 0, 2, 0, 0, 0, 1,
  0, 0, 0, 28, 115, 116, 115, 122, 0, 0, 0, 0, 0, 0, 0, 0, 0, 0, 0, 2, 0, 0, 0, 6, 0, 0, 0, 6, 0, 0, 0, 20, 115, 116, 99, 111, 0, 0, 0,
  0, 0, 0, 0, 1, 0, 0, 1, 241, 0, 0, 0, 20, 109, 100, 97, 116, 0, 0, 0, 2, 101, 1, 0, 0, 0, 2, 65, 7]

/-- The same, but the last sample takes no time. -/
def lastZeroFile : Bytes := [0, 0, 1, 241, 109, 111, 111, 118, 0, 0, 0, 108, 109, 118, 104, 100, 0, 0, 0, 0, 0, 0, 0, 0, 0, 0, 0, 0, 0,
  0, 3, 232, 0, 0, 7, 208, 0, 0, 0, 0, 0, 0, 0, 0, 0, 0, 0, 0, 0, 0, 0, 0, 0, 0, 0, 0, 0, 0, 0, 0, 0, 0, 0, 0, 0, 0, 0, 0, 0, 0, 0, 0, 0,
  0, 0, 0, 0, 0, 0, 0, 0, 0, 0, 0, 0, 0, 0, 0, 0, 0, 0, 0, 0, 0, 0, 0, 0, 0, 0, 0, 0, 0, 0, 0, 0, 0, 0, 0, 0, 0, 0, 0, 0, 0, 0, 0, 0, 0,
  1, 125, 116, 114, 97, 107, 0, 0, 0, 92, 116, 107, 104, 100, 0, 0, 0, 0, 0, 0, 0, 0, 0, 0, 0, 0, 0, 0, 0, 1, 0, 0, 0, 0, 0, 0, 0, 0, 0,
  0, 0, 0, 0, 0, 0, 0, 0, 0, 0, 0, 0, 0, 0, 0, 0, 0, 0, 0, 0, 0, 0, 0, 0, 0, 0, 0, 0, 0, 0, 0, 0, 0, 0, 0, 0, 0, 0, 0, 0, 0, 0, 0, 0, 0,
  0, 0, 0, 0, 0, 0, 0, 0, 0, 0, 0, 0, 0, 0, 0, 0, 1, 25, 109, 100, 105, 97, 0, 0, 0, 32, 109, 100, 104, 100, 0, 0, 0, 0, 0, 0, 0, 0, 0,
  0, 0, 0, 0, 0, 2, 88, 0, 0, 4, 176, 0, 0, 0, 0, 0, 0, 0, 241, 109, 105, 110, 102, 0, 0, 0, 233, 115, 116, 98, 108, 0, 0, 0, 117, 115,
  116, 115, 100, 0, 0, 0, 0, 0, 0, 0, 1, 0, 0, 0, 101, 97, 118, 99, 49, 0, 0, 0, 0, 0, 0, 0, 1, 0, 0, 0, 0, 0, 0, 0, 0, 0, 0, 0, 0, 0, 0,
  0, 0, 2, 128, 1, 104, 0, 0, 0, 0, 0, 0, 0, 0, 0, 0, 0, 0, 0, 1, 0, 0, 0, 0, 0, 0, 0, 0, 0, 0, 0, 0, 0, 0, 0, 0, 0, 0, 0, 0, 0, 0, 0, 0,
  0, 0, 0, 0, 0, 0, 0, 0, 0, 24, 255, 255, 0, 0, 0, 15, 97, 118, 99, 67, 1, 66, 192, 30, 255, 224, 0, 0, 0, 0, 32, 115, 116, 116, 115, 0,
  0, 0, 0, 0, 0, 0, 2, 0, 0, 0, 1, 0, 0, 2, 88, 0, 0, 0, 1, 0, 0, 0, 0, 0, 0, 0, 28, 115, 116, 115, 99, 0, 0, 0, 0, 0, 0, 0, 1, 0, 0, 0,
  1, 0, 0, 0, 2, 0, 0, 0, 1, 0, 0, 0, 28, 115, 116, 115, 122, 0, 0, 0, 0, 0, 0, 0, 0, 0, 0, 0, 2, 0, 0, 0, 6, 0, 0, 0, 6, 0, 0, 0, 20,
  115, 116, 99, 111, 0, 0, 0, 0, 0, 0, 0, 1, 0, 0, 1, 249, 0, 0, 0, 20, 109, 100, 97, 116, 0, 0, 0, 2, 101, 1, 0, 0, 0, 2, 65, 7]

/-- What is reported about the track of `reportFile`. -/
def reportTrack : TrackReport where
  trackID := 1
  timescale := 600
  duration := 1200
  codec := lit "avc1.42C01E"
  encrypted := false
  width := 640
  height := 360
  sampleNum := 2
  chunkNum := 1
  idrFrameNum := 1
  bitrate := 48
  maxBitrate := 48

/-- What is reported about `reportFile`. -/
def fileReport : Report := ⟨[0, 0, 0, 0], 0, [], true, 1000, 2000, [reportTrack]⟩

theorem reportFile_report : buildReport BoxMap.std reportFile 600 0 = (.ok fileReport, 508) := by decide +kernel

example := report_describes (d := reportFile) (by decide +kernel) 600 (by decide +kernel) 0 508 fileReport reportFile_report
example : probeJson BoxMap.std reportFile 600 0 = (.ok fileReport, 508) :=
  (json_printed 600 0 508 fileReport).2 ⟨reportFile_report, by decide, by decide⟩

/-- The track of `reportFile`. -/
def reportedTrack : Track := {
  trackID := 1, timescale := 600, duration := 1200, codec := .avc1, encrypted := false, editList := []
  samples := [⟨6, 600, 0⟩, ⟨6, 600, 0⟩], chunks := [⟨497, 2⟩], avc := some ⟨1, 0x42, 0xc0, 0x1e, 4, 640, 360⟩, mp4a := none }

theorem reportFile_info : probe BoxMap.std reportFile 600 0 =
    (.ok { fastStart := true, timescale := 1000, duration := 2000, tracks := [reportedTrack] }, 489) := by decide +kernel

example := report_never_panics_partial (d := reportFile) (by decide +kernel) 600 0 (by
  intro info q h tr htr
  rw [reportFile_info] at h
  cases h
  rw [List.mem_singleton.1 htr]
  exact ⟨by decide, ⟨by decide, by decide, by decide⟩, by decide⟩)

/-- The samples of `reportFile`, as C36 wants to have them. -/
example : ChunksHold reportFile 4 reportedTrack.chunks reportedTrack.samples [[([0, 0, 0, 2], [0x65, 1])], [([0, 0, 0, 2], [0x41, 7])]] :=
  ⟨_, [], (List.append_nil _).symm, ⟨⟨by decide +kernel, by decide +kernel, by decide, by decide⟩,
    ⟨by decide +kernel, by decide +kernel, by decide, by decide⟩, trivial⟩, rfl⟩

example : ∀ r p, probeJson BoxMap.std fastFile 9 0 ≠ (.ok r, p) :=
  json_needs_movie (by decide) fastForest fastFile_wf (by decide) 9 (by decide) 0 (by decide)

/-- Where C62 fails: `mp4tool probe` panics when the last sample of a track takes no time. -/
theorem report_panics : (match (probeJson BoxMap.std lastZeroFile 600 0).1 with | .panic => true | _ => false) = true := by decide +kernel

/-- Where C62 fails: nothing is printed about a media segment. -/
theorem json_segment : (match (probe BoxMap.std segFile 100 0).1 with | .ok _ => true | _ => false) = true ∧
    (match (probeJson BoxMap.std segFile 100 0).1 with | .err e => decide (e = .msg "json: unsupported value") | _ => false) = true := by
  decide +kernel

end Mp4.Props
