import Verif.Spec.Probe
import Verif.Lemmas.BoxInfo
import Verif.Lemmas.Hdlr

/-!
# C36: frames of instantaneous decoder refresh
-/

namespace Mp4.Props

open Mp4

variable {d : Bytes}

theorem readFullP_run {n pos : Nat} (h : pos + n ≤ d.length) : readFullP d n pos = (.ok ((d.drop pos).take n), pos + n) := by
  unfold readFullP
  have : ((d.drop pos).take n).length = n := by
    rw [List.length_take, List.length_drop]
    omega
  simp only [this, if_true]

theorem nalBytes_cons (u : Bytes × Bytes) (us : List (Bytes × Bytes)) : nalBytes (u :: us) = u.1 ++ u.2 ++ nalBytes us := by
  unfold nalBytes
  rw [List.flatMap_cons]

theorem isIDR_cons (h : Byte) (t : Bytes) : isIDR (h :: t) = decide (h.toNat % 32 = 5) := by
  unfold isIDR
  simp only
  rw [Bool.eq_iff_iff, beq_iff_eq, decide_eq_true_eq, ← BitVec.toNat_inj, BitVec.toNat_and]
  have : h.toNat &&& (0x1f#8).toNat = h.toNat % 2 ^ 5 := Nat.and_two_pow_sub_one_eq_mod h.toNat 5
  rw [this]
  rfl

/-- the loop over the rest of the units of a sample -/
theorem nalLoop_run {ls size off : Nat} (hd : d.length ≤ 2 ^ 48) (hin : off + size ≤ d.length) (hsmall : size + ls + 1 < 2 ^ 32) :
    ∀ (us : List (Bytes × Bytes)) (at_ fuel pos : Nat), (∀ u ∈ us, u.1.length = ls ∧ beNat u.1 = u.2.length ∧ u.2 ≠ []) → at_ ≤ size →
    (d.drop (off + at_)).take (size - at_) = nalBytes us → us.length < fuel →
    ∃ pos', nalLoop d ls size off fuel at_ pos = (.ok (us.any fun u => isIDR u.2), pos')
  | us, at_, 0, pos, _, _, _, hf => by omega
  | [], at_, fuel + 1, pos, hu, hat, hb, hf => by
    have hlen := congrArg List.length hb
    rw [List.length_take, List.length_drop] at hlen
    simp only [nalBytes, List.flatMap_nil, List.length_nil] at hlen
    unfold nalLoop
    rw [if_neg (by unfold add32; simp only [U32] at *; omega)]
    exact ⟨pos, rfl⟩
  | (lf, u) :: us, at_, fuel + 1, pos, hu, hat, hb, hf => by
    obtain ⟨h1, h2, h3⟩ := hu _ List.mem_cons_self
    simp only at h1 h2 h3
    rw [nalBytes_cons] at hb
    simp only at hb
    have hlen := congrArg List.length hb
    rw [List.length_take, List.length_drop] at hlen
    simp only [List.length_append] at hlen
    obtain ⟨x, u', rfl⟩ := List.exists_cons_of_ne_nil h3
    simp only [List.length_cons] at hlen h2
    unfold nalLoop
    rw [if_pos (by unfold add32; simp only [U32] at *; omega)]
    have hoff : add64 off at_ = off + at_ := by
      unfold add64
      simp only [U64] at *
      omega
    have e1 : seekStartP (add64 off at_) pos = (.ok (off + at_), off + at_) := by
      unfold seekStartP
      rw [hoff, Nat.mod_eq_of_lt (by simp only [U64]; omega), if_neg (by omega)]
    have e2 := readFullP_run (d := d) (n := ls + 1) (pos := off + at_) (by omega)
    have e3 : (d.drop (off + at_)).take (ls + 1) = lf ++ [x] := by
      have := congrArg (List.take (ls + 1)) hb
      rw [List.take_take, Nat.min_eq_left (by omega)] at this
      rw [this, List.append_assoc, List.take_append, List.take_of_length_le (by omega)]
      congr 1
      rw [show ls + 1 - lf.length = 1 by omega]
      rfl
    rw [e3] at e2
    rw [M.bind_ok e1, M.bind_ok e2]
    have hbyte : byteAt (lf ++ [x]) ls = x.toNat := by
      unfold byteAt
      rw [List.getD_eq_getElem?_getD, List.getElem?_append_right (by omega), show ls - lf.length = 0 by omega]
      rfl
    have htake : (lf ++ [x]).take ls = lf := by
      rw [List.take_append, List.take_of_length_le (by omega), show ls - lf.length = 0 by omega]
      simp
    simp only [hbyte, htake]
    rw [List.any_cons]
    have hidr := isIDR_cons x u'
    by_cases hx : x.toNat % 32 = 5
    · rw [if_pos hx]
      refine ⟨off + at_ + (ls + 1), ?_⟩
      simp only [hidr, hx, decide_true, Bool.true_or]
      rfl
    · rw [if_neg hx]
      have hnext : add32 at_ (add32 ls (beNat lf % U32)) = at_ + (ls + (u'.length + 1)) := by
        rw [h2]
        unfold add32
        simp only [U32] at *
        omega
      rw [hnext]
      simp only [hidr, hx, decide_false, Bool.false_or]
      apply nalLoop_run hd hin hsmall us _ fuel _ (fun u hu' => hu u (List.mem_cons_of_mem _ hu')) (by omega)
      · have := congrArg (List.drop (ls + (u'.length + 1))) hb
        rw [List.drop_take, List.drop_drop] at this
        rw [show off + (at_ + (ls + (u'.length + 1))) = off + at_ + (ls + (u'.length + 1)) by omega,
          show size - (at_ + (ls + (u'.length + 1))) = size - at_ - (ls + (u'.length + 1)) by omega, this]
        apply List.drop_left'
        simp only [List.length_append, List.length_cons]
        omega
      · simp only [List.length_cons] at hf
        omega

/-- which samples from number `i` on have a unit of that type -/
def idrFrom : Nat → List (List (Bytes × Bytes)) → List Nat
  | _, [] => []
  | i, us :: l => if us.any fun u => isIDR u.2 then i :: idrFrom (i + 1) l else idrFrom (i + 1) l

theorem nalBytes_length : ∀ us : List (Bytes × Bytes), (∀ u ∈ us, u.2 ≠ []) → us.length ≤ (nalBytes us).length
  | [], _ => Nat.zero_le _
  | u :: us, h => by
    have := nalBytes_length us fun x hx => h x (List.mem_cons_of_mem _ hx)
    have h2 := List.length_pos_iff.2 (h u List.mem_cons_self)
    rw [nalBytes_cons]
    simp only [List.length_append, List.length_cons]
    omega

theorem sample_run {ls size off fuel pos : Nat} (hd : d.length ≤ 2 ^ 48) {us : List (Bytes × Bytes)}
    (h : SampleHolds d ls off size us) (hf : d.length < fuel) :
    ∃ pos', nalLoop d ls size off fuel 0 pos = (.ok (us.any fun u => isIDR u.2), pos') := by
  refine nalLoop_run hd h.inFile h.small us 0 fuel pos h.fields (Nat.zero_le _) h.bytes ?_
  have h1 := nalBytes_length us fun u hu => (h.fields u hu).2.2
  rw [← h.bytes, List.length_take, List.length_drop] at h1
  have := h.inFile
  omega

theorem sample_empty {ls off : Nat} {us : List (Bytes × Bytes)} (h : SampleHolds d ls off 0 us) : us = [] := by
  have h1 := nalBytes_length us fun u hu => (h.fields u hu).2.2
  rw [← h.bytes] at h1
  simpa using h1

theorem chunkLoop_run {ls fuel stop : Nat} (hd : d.length ≤ 2 ^ 48) (hf : d.length < fuel) : ∀ (samples : List Sample)
    (uss : List (List (Bytes × Bytes))) (si off : Nat) (idxs : List Nat) (pos : Nat),
    SamplesHold d ls off (samples.take (stop - si)) uss →
    ∃ pos', chunkLoop d fuel ls stop samples si off idxs pos =
      (.ok (si + (samples.take (stop - si)).length, idxs ++ idrFrom si uss), pos')
  | [], uss, si, off, idxs, pos, h => by
    rw [List.take_nil] at h
    cases uss with
    | nil => exact ⟨pos, by simp only [chunkLoop, idrFrom, List.take_nil, List.length_nil, Nat.add_zero, List.append_nil]; rfl⟩
    | cons _ _ => exact absurd h (by simp [SamplesHold])
  | s :: l, uss, si, off, idxs, pos, h => by
    unfold chunkLoop
    by_cases hs : si < stop
    · rw [if_pos hs]
      rw [show stop - si = (stop - (si + 1)) + 1 by omega, List.take_succ_cons] at h ⊢
      cases uss with
      | nil => exact absurd h (by simp [SamplesHold])
      | cons us uss =>
        obtain ⟨h1, h2⟩ := h
        rw [List.length_cons, show si + ((l.take (stop - (si + 1))).length + 1) = si + 1 + (l.take (stop - (si + 1))).length by omega]
        by_cases hz : s.size = 0
        · rw [if_pos hz]
          rw [hz] at h1 h2
          rw [sample_empty h1]
          exact chunkLoop_run hd hf l uss (si + 1) off idxs pos h2
        · rw [if_neg hz]
          obtain ⟨p1, e1⟩ := sample_run (pos := pos) hd h1 hf
          rw [M.bind_ok e1]
          have hoff : add64 off s.size = off + s.size := by
            have := h1.inFile
            unfold add64
            simp only [U64] at *
            omega
          rw [hoff]
          obtain ⟨p2, e2⟩ := chunkLoop_run hd hf l uss (si + 1) (off + s.size)
            (if (us.any fun u => isIDR u.2) = true then idxs ++ [si] else idxs) p1 h2
          refine ⟨p2, e2.trans ?_⟩
          have : idrFrom si (us :: uss) =
              if (us.any fun u => isIDR u.2) = true then si :: idrFrom (si + 1) uss else idrFrom (si + 1) uss := rfl
          rw [this]
          split
          · rw [List.append_assoc]
            rfl
          · rfl
    · rw [if_neg hs]
      rw [show stop - si = 0 by omega, List.take_zero] at h ⊢
      cases uss with
      | nil => exact ⟨pos, by simp only [idrFrom, List.length_nil, Nat.add_zero, List.append_nil]; rfl⟩
      | cons _ _ => exact absurd h (by simp [SamplesHold])

theorem idrFrom_append : ∀ (a b : List (List (Bytes × Bytes))) (i : Nat), idrFrom i (a ++ b) = idrFrom i a ++ idrFrom (i + a.length) b
  | [], b, i => rfl
  | us :: a, b, i => by
    simp only [List.cons_append, idrFrom, idrFrom_append a b (i + 1), List.length_cons]
    rw [show i + 1 + a.length = i + (a.length + 1) by omega]
    split <;> rfl

theorem samplesHold_length {ls : Nat} : ∀ {l : List Sample} {uss : List (List (Bytes × Bytes))} {off : Nat},
    SamplesHold d ls off l uss → uss.length = l.length
  | [], [], _, _ => rfl
  | s :: l, us :: uss, off, h => by
    have := samplesHold_length h.2
    simp [this]
  | [], _ :: _, _, h => absurd h (by simp [SamplesHold])
  | _ :: _, [], _, h => absurd h (by simp [SamplesHold])

theorem chunksLoop_run {ls fuel : Nat} (hd : d.length ≤ 2 ^ 48) (hf : d.length < fuel) (samples : List Sample) : ∀ (chunks : List Chunk)
    (uss : List (List (Bytes × Bytes))) (si : Nat) (idxs : List Nat) (pos : Nat), si ≤ samples.length →
    ChunksHold d ls chunks (samples.drop si) uss →
    ∃ pos', chunksLoop d fuel ls samples chunks si idxs pos = (.ok (idxs ++ idrFrom si uss), pos')
  | [], uss, si, idxs, pos, _, h => by
    have : uss = [] := h
    subst this
    exact ⟨pos, by simp only [chunksLoop, idrFrom, List.append_nil]; rfl⟩
  | c :: cs, uss, si, idxs, pos, hsi, ⟨us1, us2, e, h1, h2⟩ => by
    subst e
    unfold chunksLoop
    obtain ⟨p1, e1⟩ := chunkLoop_run (stop := si + c.samplesPerChunk) hd hf (samples.drop si) us1 si c.dataOffset idxs pos
      (by rw [show si + c.samplesPerChunk - si = c.samplesPerChunk by omega]; exact h1)
    rw [show si + c.samplesPerChunk - si = c.samplesPerChunk by omega] at e1
    rw [M.bind_ok e1]
    simp only
    have hl := samplesHold_length h1
    rw [← hl]
    rw [List.length_take, List.length_drop] at hl
    have hdrop : samples.drop (si + us1.length) = (samples.drop si).drop c.samplesPerChunk := by
      rw [List.drop_drop]
      by_cases hc : si + c.samplesPerChunk ≤ samples.length
      · rw [show us1.length = c.samplesPerChunk by omega]
      · rw [List.drop_eq_nil_of_le (by omega), List.drop_eq_nil_of_le (by omega)]
    obtain ⟨p2, e2⟩ := chunksLoop_run hd hf samples cs us2 (si + us1.length) (idxs ++ idrFrom si us1) p1 (by omega)
      (by rw [hdrop]; exact h2)
    refine ⟨p2, e2.trans ?_⟩
    rw [idrFrom_append, List.append_assoc]

theorem idrFrom_spec : ∀ (l : List (List (Bytes × Bytes))) (i : Nat), (idrFrom i l).Pairwise (· < ·) ∧
    ∀ j, j ∈ idrFrom i l ↔ i ≤ j ∧ ∃ us, l[j - i]? = some us ∧ ∃ u ∈ us, isIDR u.2 = true
  | [], i => by simp [idrFrom]
  | us :: l, i => by
    obtain ⟨h1, h2⟩ := idrFrom_spec l (i + 1)
    have key : ∀ j, (i + 1 ≤ j ∧ ∃ us, l[j - (i + 1)]? = some us ∧ ∃ u ∈ us, isIDR u.2 = true) ↔
        (i < j ∧ ∃ us', (us :: l)[j - i]? = some us' ∧ ∃ u ∈ us', isIDR u.2 = true) := by
      intro j
      constructor
      · rintro ⟨a, b⟩
        rw [show j - i = (j - (i + 1)) + 1 by omega, List.getElem?_cons_succ]
        exact ⟨a, b⟩
      · rintro ⟨a, b⟩
        rw [show j - i = (j - (i + 1)) + 1 by omega, List.getElem?_cons_succ] at b
        exact ⟨a, b⟩
    rw [show idrFrom i (us :: l) = if (us.any fun u => isIDR u.2) = true then i :: idrFrom (i + 1) l else idrFrom (i + 1) l from rfl]
    by_cases hc : (us.any fun u => isIDR u.2) = true
    · rw [if_pos hc]
      refine ⟨List.pairwise_cons.2 ⟨fun j hj => ((h2 j).1 hj).1, h1⟩, fun j => ?_⟩
      rw [List.mem_cons, h2 j, key j]
      constructor
      · rintro (rfl | ⟨a, b⟩)
        · refine ⟨Nat.le_refl _, us, by simp, ?_⟩
          simpa [List.any_eq_true] using hc
        · exact ⟨by omega, b⟩
      · rintro ⟨a, b⟩
        rcases Nat.lt_or_eq_of_le a with h | h
        · exact .inr ⟨h, b⟩
        · exact .inl h.symm
    · rw [if_neg hc]
      refine ⟨h1, fun j => ?_⟩
      rw [h2 j, key j]
      constructor
      · rintro ⟨a, b⟩
        exact ⟨by omega, b⟩
      · rintro ⟨a, us', b1, u, b2, b3⟩
        rcases Nat.lt_or_eq_of_le a with h | h
        · exact ⟨h, us', b1, u, b2, b3⟩
        · subst h
          rw [Nat.sub_self, List.getElem?_cons_zero] at b1
          cases b1
          exact absurd (List.any_eq_true.2 ⟨u, b2, b3⟩) hc

/-- **C36**, partial — If the samples of a track are where its chunks say and consist of NAL units (see `ChunksHold`),
`FindIDRFrames` returns, in increasing order, exactly the numbers of those samples (counted from 0) that have a unit with the type of an instantaneous
decoder refresh; for a track that is not an AVC track it returns nothing.

Missing: samples that are not made of NAL units.  For such the function may not end (`idr_hangs`), or
may take a byte for the type of a unit that is not (`idr_empty_unit`). -/
theorem idr_frames_partial (hd : d.length ≤ 2 ^ 48) (t : Track) (avc : AvcInfo) (havc : t.avc = some avc)
    (units : List (List (Bytes × Bytes))) (h : ChunksHold d avc.lengthSize t.chunks t.samples units) (fuel : Nat) (hf : d.length < fuel)
    (pos : Nat) :
    ∃ idxs pos', findIDRFrames d fuel t pos = (.ok (some idxs), pos') ∧ idxs.Pairwise (· < ·) ∧
      ∀ i, i ∈ idxs ↔ ∃ us, units[i]? = some us ∧ ∃ u ∈ us, isIDR u.2 = true := by
  obtain ⟨p, e⟩ := chunksLoop_run (ls := avc.lengthSize) hd hf t.samples t.chunks units 0 [] pos (Nat.zero_le _) h
  refine ⟨idrFrom 0 units, p, ?_, (idrFrom_spec units 0).1, fun i => ?_⟩
  · unfold findIDRFrames
    rw [havc]
    exact M.bind_ok e
  · rw [(idrFrom_spec units 0).2 i]
    simp

theorem idr_no_avc (t : Track) (h : t.avc = none) (fuel pos : Nat) : findIDRFrames d fuel t pos = (.ok none, pos) := by
  unfold findIDRFrames
  rw [h]
  rfl

/-! ## Examples -/

/-- an AVC track with length fields of four bytes -/
def avcTrack (lengthSize : Nat) (samples : List Sample) (chunks : List Chunk) : Track := {
  trackID := 1, timescale := 1000, duration := 0, codec := .avc1, encrypted := false, editList := [], samples := samples
  chunks := chunks, avc := some ⟨1, 100, 0, 31, lengthSize, 640, 480⟩, mp4a := none }

/-- Two samples: units of types 9 and 5, a unit of type 1. -/
def idrFile : Bytes := [0, 0, 0, 2, 0x09, 0xf0, 0, 0, 0, 3, 0x65, 1, 2, 0, 0, 0, 2, 0x41, 7]

example := idr_frames_partial (d := idrFile) (by decide) (avcTrack 4 [⟨13, 1, 0⟩, ⟨6, 1, 0⟩] [⟨0, 2⟩]) _ rfl
  [[([0, 0, 0, 2], [0x09, 0xf0]), ([0, 0, 0, 3], [0x65, 1, 2])], [([0, 0, 0, 2], [0x41, 7])]]
  ⟨_, [], (List.append_nil _).symm,
    ⟨⟨by decide, by decide, by decide, by decide⟩, ⟨by decide, by decide, by decide, by decide⟩, trivial⟩, rfl⟩
  20 (by decide) 0
example : (findIDRFrames idrFile 20 (avcTrack 4 [⟨13, 1, 0⟩, ⟨6, 1, 0⟩] [⟨0, 2⟩]) 0).1 = .ok (some [0]) := by decide +kernel

/-- Where C36 fails: a sample of five bytes with the length field 0xfffffffc. The position in the sample wraps around to 0, and
`FindIDRFrames` never ends. -/
theorem idr_hangs : ∀ fuel, (findIDRFrames [0xff, 0xff, 0xff, 0xfc, 0x41] fuel (avcTrack 4 [⟨5, 1, 0⟩] [⟨0, 1⟩]) 0).1 = .hang := by
  have key : ∀ fuel pos, (nalLoop [0xff, 0xff, 0xff, 0xfc, 0x41] 4 5 0 fuel 0 pos).1 = .hang := by
    intro fuel
    induction fuel with
    | zero => intro pos; rfl
    | succ fuel ih =>
      intro pos
      unfold nalLoop
      rw [if_pos (by decide)]
      have e1 : seekStartP (add64 0 0) pos = (.ok 0, 0) := by
        unfold seekStartP
        rw [if_neg (by decide)]
        rfl
      have e2 : readFullP [0xff, 0xff, 0xff, 0xfc, 0x41] (4 + 1) 0 = (.ok [0xff, 0xff, 0xff, 0xfc, 0x41], 5) := by decide
      rw [M.bind_ok e1, M.bind_ok e2, if_neg (by decide)]
      have : add32 0 (add32 4 (beNat (List.take 4 [0xff, 0xff, 0xff, 0xfc, 0x41]) % U32)) = 0 := by decide +kernel
      rw [this]
      exact ih 5
  intro fuel
  have h := key fuel 0
  generalize hr : nalLoop [0xff, 0xff, 0xff, 0xfc, 0x41] 4 5 0 fuel 0 0 = r at h
  obtain ⟨o, p⟩ := r
  simp only at h
  subst h
  have e1 : chunkLoop [0xff, 0xff, 0xff, 0xfc, 0x41] fuel 4 (0 + 1) [⟨5, 1, 0⟩] 0 0 [] 0 = (.hang, p) := by
    unfold chunkLoop
    rw [if_pos (by decide), if_neg (by decide)]
    exact M.bind_hang hr
  have e2 : chunksLoop [0xff, 0xff, 0xff, 0xfc, 0x41] fuel 4 [⟨5, 1, 0⟩] [⟨0, 1⟩] 0 [] 0 = (.hang, p) := by
    unfold chunksLoop
    exact M.bind_hang e1
  have e3 : findIDRFrames [0xff, 0xff, 0xff, 0xfc, 0x41] fuel (avcTrack 4 [⟨5, 1, 0⟩] [⟨0, 1⟩]) 0 = (.hang, p) := by
    unfold findIDRFrames
    exact M.bind_hang e2
  rw [e3]

/-- An empty unit: the library takes the first byte of the next length field for its type.  With length fields of one byte, an
empty unit and a unit of 5 bytes of type 1, the sample is reported. -/
theorem idr_empty_unit : (findIDRFrames [0, 5, 0x41, 1, 2, 3, 4] 20 (avcTrack 1 [⟨7, 1, 0⟩] [⟨0, 1⟩]) 0).1 = .ok (some [0]) ∧
    isIDR [0x41, 1, 2, 3, 4] = false := by decide +kernel

end Mp4.Props
