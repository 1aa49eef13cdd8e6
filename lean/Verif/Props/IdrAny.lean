import Verif.Props.Idr

/-!
# C36 for every file: frames of instantaneous decoder refresh, whatever the samples contain

`idr_frames_partial` speaks of samples that consist of NAL units.  Here nothing is supposed of the contents of the samples but that no
length field is so large that the position in the sample exceeds 32 bits.
-/

namespace Mp4.Props

open Mp4

/-! ## Specification -/

/-- Where each sample is, and how large, if the samples lie one after the other from `offset` on. -/
def placed : Nat → List Sample → List (Nat × Nat)
  | _, [] => []
  | offset, s :: l => (offset, s.size) :: placed (offset + s.size) l

/-- Where each sample of a track is: each chunk has as many samples as it says, the last ones perhaps fewer. -/
def layout : List Chunk → List Sample → List (Nat × Nat)
  | [], _ => []
  | c :: cs, samples => placed c.dataOffset (samples.take c.samplesPerChunk) ++ layout cs (samples.drop c.samplesPerChunk)

/-- The unit with its length field at `p` in the sample at `off` is an instantaneous decoder refresh: the low five bits of its first byte. -/
def IdrAt (d : Bytes) (ls off p : Nat) : Prop := isIDR ((d.drop (off + p + ls)).take 1) = true

/-- The length field at `p` in the sample at `off`, a number with the most significant byte first. -/
def lengthAt (d : Bytes) (ls off p : Nat) : Nat := beNat ((d.drop (off + p)).take ls)

/-- The positions of the units in a sample: the first is at 0, and the next behind each; a unit has a length field and one byte at least. -/
inductive UnitAt (d : Bytes) (ls size off : Nat) : Nat → Prop
  | first : UnitAt d ls size off 0
  | next (p : Nat) : UnitAt d ls size off p → p + ls + 1 ≤ size → UnitAt d ls size off (p + ls + lengthAt d ls off p)

/-- The positions up to the first instantaneous decoder refresh. -/
inductive Reached (d : Bytes) (ls size off : Nat) : Nat → Prop
  | first : Reached d ls size off 0
  | next (p : Nat) : Reached d ls size off p → p + ls + 1 ≤ size → ¬ IdrAt d ls off p → Reached d ls size off (p + ls + lengthAt d ls off p)

/-- The sample has a unit that is an instantaneous decoder refresh. -/
def HasIdr (d : Bytes) (ls size off : Nat) : Prop := ∃ p, UnitAt d ls size off p ∧ p + ls + 1 ≤ size ∧ IdrAt d ls off p

/-- The units up to the first instantaneous decoder refresh are in the file, their length fields and first bytes at least. -/
def InFile (d : Bytes) (ls size off : Nat) : Prop := ∀ p, Reached d ls size off p → p + ls + 1 ≤ size → off + p + ls + 1 ≤ d.length

/-- No position up to the first instantaneous decoder refresh comes near 2^32. -/
def NoWrap (d : Bytes) (ls size off : Nat) : Prop :=
  off + size < 2 ^ 64 ∧ ls + 1 < 2 ^ 32 ∧ size < 2 ^ 32 ∧
    ∀ p, Reached d ls size off p → p + ls + 1 ≤ size → ¬ IdrAt d ls off p → p + ls + lengthAt d ls off p + ls + 1 < 2 ^ 32

/-! ## One sample -/

variable {d : Bytes} {ls size off : Nat}

theorem Reached.unitAt {p : Nat} (h : Reached d ls size off p) : UnitAt d ls size off p := by
  induction h with
  | first => exact .first
  | next p _ h1 _ ih => exact .next p ih h1

/-- no unit begins inside another one -/
theorem units_apart (hls : 1 ≤ ls) : ∀ (n p q : Nat), p + q ≤ n → UnitAt d ls size off p → UnitAt d ls size off q → p < q →
    p + ls + 1 ≤ size → p + ls + lengthAt d ls off p ≤ q
  | 0, p, q, hn, _, _, hpq, _ => by omega
  | n + 1, p, q, hn, hp, hq, hpq, hs => by
    cases hq with
    | first => omega
    | next q0 h0 h1 =>
      rcases Nat.lt_trichotomy q0 p with h | h | h
      · have := units_apart hls n q0 p (by omega) h0 hp h h1
        omega
      · subst h; exact Nat.le_refl _
      · have := units_apart hls n p q0 (by omega) hp h0 h hs
        omega

/-- what is reached has no instantaneous decoder refresh before it -/
theorem Reached.before (hls : 1 ≤ ls) {p q : Nat} (hq : Reached d ls size off q) (hp : UnitAt d ls size off p) (hs : p + ls + 1 ≤ size) :
    p < q → ¬ IdrAt d ls off p := by
  induction hq with
  | first => omega
  | next q0 h0 h1 h2 ih =>
    intro hpq
    rcases Nat.lt_trichotomy q0 p with h | h | h
    · have := units_apart hls _ q0 p (Nat.le_refl _) h0.unitAt hp h h1
      omega
    · subst h; exact h2
    · exact ih h

theorem nalLoop_exact (hd : d.length ≤ 2 ^ 48) (hls : 1 ≤ ls) (hw : NoWrap d ls size off) : ∀ (fuel p pos : Nat),
    Reached d ls size off p → size - p < fuel → p + ls + 1 < 2 ^ 32 →
    (∀ q, UnitAt d ls size off q → q < p → q + ls + 1 ≤ size → ¬ IdrAt d ls off q ∧ off + q + ls + 1 ≤ d.length) →
    (InFile d ls size off ∧ ∃ b pos', nalLoop d ls size off fuel p pos = (.ok b, pos') ∧ (b = true ↔ HasIdr d ls size off)) ∨
    (¬ InFile d ls size off ∧ ∃ e pos', nalLoop d ls size off fuel p pos = (.err e, pos'))
  | 0, p, pos, _, hf, _, _ => by omega
  | fuel + 1, p, pos, hp, hf, hb, hno => by
    have hsum : add32 (add32 p ls) 1 = p + ls + 1 := by
      unfold add32
      simp only [U32] at *
      omega
    unfold nalLoop
    rw [hsum]
    by_cases hs : p + ls + 1 ≤ size
    · rw [if_pos hs]
      have hoff : add64 off p = off + p := by
        have := hw.1
        unfold add64
        simp only [U64] at *
        omega
      rw [hoff]
      by_cases hin : off + p + ls + 1 ≤ d.length
      · have e1 : seekStartP (off + p) pos = (.ok (off + p), off + p) := by
          unfold seekStartP
          rw [Nat.mod_eq_of_lt (by simp only [U64]; omega), if_neg (by omega)]
        have e2 := readFullP_run (d := d) (n := ls + 1) (pos := off + p) (by omega)
        rw [M.bind_ok e1, M.bind_ok e2]
        have hx : (off + p + ls) < d.length := by omega
        have htake : ((d.drop (off + p)).take (ls + 1)).take ls = (d.drop (off + p)).take ls := by
          rw [List.take_take, Nat.min_eq_left (by omega)]
        have hbyte : byteAt ((d.drop (off + p)).take (ls + 1)) ls = (d[off + p + ls]).toNat := by
          unfold byteAt
          rw [List.getD_eq_getElem?_getD, List.getElem?_take, if_pos (by omega), List.getElem?_drop, List.getElem?_eq_getElem hx]
          rfl
        have hidr : IdrAt d ls off p ↔ (d[off + p + ls]).toNat % 32 = 5 := by
          unfold IdrAt
          rw [List.drop_eq_getElem_cons hx, List.take_succ_cons, List.take_zero, isIDR_cons, decide_eq_true_eq]
        simp only [hbyte, htake]
        by_cases h5 : (d[off + p + ls]).toNat % 32 = 5
        · rw [if_pos h5]
          refine .inl ⟨fun q hq hqs => ?_, true, _, rfl, ?_⟩
          · rcases Nat.lt_trichotomy q p with h | h | h
            · exact (hno q hq.unitAt h hqs).2
            · subst h; exact hin
            · exact absurd (hidr.2 h5) (hq.before hls hp.unitAt hs h)
          · exact ⟨fun _ => ⟨p, hp.unitAt, hs, hidr.2 h5⟩, fun _ => rfl⟩
        · rw [if_neg h5]
          have hni : ¬ IdrAt d ls off p := fun h => h5 (hidr.1 h)
          have hw2 := hw.2.2.2 p hp hs hni
          have hnext : add32 p (add32 ls (beNat ((d.drop (off + p)).take ls) % U32)) = p + ls + lengthAt d ls off p := by
            unfold lengthAt at hw2 ⊢
            unfold add32
            simp only [U32] at *
            omega
          rw [hnext]
          refine nalLoop_exact hd hls hw fuel _ _ (.next p hp hs hni) (by omega) hw2 fun q hq hlt hqs => ?_
          rcases Nat.lt_trichotomy q p with h | h | h
          · exact hno q hq h hqs
          · subst h; exact ⟨hni, hin⟩
          · have := units_apart hls _ p q (Nat.le_refl _) hp.unitAt hq h hs
            omega
      · refine .inr ⟨fun h => hin (h p hp hs), ?_⟩
        by_cases h63 : off + p < 2 ^ 63
        · have e1 : seekStartP (off + p) pos = (.ok (off + p), off + p) := by
            unfold seekStartP
            rw [Nat.mod_eq_of_lt (by simp only [U64]; omega), if_neg (by omega)]
          rw [M.bind_ok e1]
          have hl : ((d.drop (off + p)).take (ls + 1)).length ≠ ls + 1 := by
            rw [List.length_take, List.length_drop]
            omega
          have e2 : readFullP d (ls + 1) (off + p) = (.err (if ((d.drop (off + p)).take (ls + 1)).length = 0 then .eof else .unexpectedEOF),
              off + p + ((d.drop (off + p)).take (ls + 1)).length) := by
            unfold readFullP
            simp only
            rw [if_neg hl]
          exact ⟨_, _, M.bind_err e2⟩
        · have hneg : ∃ e pos', seekStartP (off + p) pos = (.err e, pos') := by
            have := hw.1
            unfold seekStartP
            rw [Nat.mod_eq_of_lt (by simp only [U64]; omega), if_pos (by omega)]
            exact ⟨_, _, rfl⟩
          obtain ⟨e, pos', e1⟩ := hneg
          exact ⟨e, pos', M.bind_err e1⟩
    · rw [if_neg hs]
      refine .inl ⟨fun q hq hqs => (hno q hq.unitAt (by omega) hqs).2, false, pos, rfl, ?_⟩
      refine ⟨fun h => absurd h Bool.false_ne_true, fun ⟨q, h1, h2, h3⟩ => ?_⟩
      exact absurd h3 (hno q h1 (by omega) h2).1

/-! ## The samples of a chunk, the chunks of a track -/

open Classical in
/-- the numbers of those that satisfy `P`, counted from `i` -/
noncomputable def numbersOf (P : Nat × Nat → Prop) : Nat → List (Nat × Nat) → List Nat
  | _, [] => []
  | i, a :: l => if P a then i :: numbersOf P (i + 1) l else numbersOf P (i + 1) l

theorem numbersOf_append (P : Nat × Nat → Prop) : ∀ (a b : List (Nat × Nat)) (i : Nat), numbersOf P i (a ++ b) = numbersOf P i a ++ numbersOf P (i + a.length) b
  | [], b, i => rfl
  | x :: a, b, i => by
    simp only [List.cons_append, numbersOf, numbersOf_append P a b (i + 1), List.length_cons]
    rw [show i + 1 + a.length = i + (a.length + 1) by omega]
    split <;> rfl

theorem numbersOf_spec (P : Nat × Nat → Prop) : ∀ (l : List (Nat × Nat)) (i : Nat), (numbersOf P i l).Pairwise (· < ·) ∧
    ∀ j, j ∈ numbersOf P i l ↔ i ≤ j ∧ ∃ a, l[j - i]? = some a ∧ P a
  | [], i => by simp [numbersOf]
  | x :: l, i => by
    obtain ⟨h1, h2⟩ := numbersOf_spec P l (i + 1)
    have key : ∀ j, (i + 1 ≤ j ∧ ∃ a, l[j - (i + 1)]? = some a ∧ P a) ↔ (i < j ∧ ∃ a, (x :: l)[j - i]? = some a ∧ P a) := by
      intro j
      constructor
      · rintro ⟨a, b⟩
        rw [show j - i = (j - (i + 1)) + 1 by omega, List.getElem?_cons_succ]
        exact ⟨a, b⟩
      · rintro ⟨a, b⟩
        rw [show j - i = (j - (i + 1)) + 1 by omega, List.getElem?_cons_succ] at b
        exact ⟨a, b⟩
    unfold numbersOf
    by_cases hc : P x
    · rw [if_pos hc]
      refine ⟨List.pairwise_cons.2 ⟨fun j hj => ((h2 j).1 hj).1, h1⟩, fun j => ?_⟩
      rw [List.mem_cons, h2 j, key j]
      constructor
      · rintro (rfl | ⟨a, b⟩)
        · exact ⟨Nat.le_refl _, x, by simp, hc⟩
        · exact ⟨by omega, b⟩
      · rintro ⟨a, b⟩
        rcases Nat.lt_or_eq_of_le a with h | h
        · exact .inr ⟨h, b⟩
        · exact .inl h.symm
    · rw [if_neg hc]
      refine ⟨h1, fun j => ?_⟩
      rw [h2 j, key j]
      constructor
      · rintro ⟨a, b⟩
        exact ⟨by omega, b⟩
      · rintro ⟨a, y, b1, b2⟩
        rcases Nat.lt_or_eq_of_le a with h | h
        · exact ⟨h, y, b1, b2⟩
        · subst h
          rw [Nat.sub_self, List.getElem?_cons_zero] at b1
          cases b1
          exact absurd b2 hc

theorem placed_length : ∀ (l : List Sample) (off : Nat), (placed off l).length = l.length
  | [], _ => rfl
  | s :: l, off => by simp [placed, placed_length l]

theorem chunkLoop_exact {fuel stop : Nat} (hd : d.length ≤ 2 ^ 48) (hls : 1 ≤ ls) : ∀ (samples : List Sample) (si off : Nat) (idxs : List Nat)
    (pos : Nat), (∀ a ∈ placed off (samples.take (stop - si)), NoWrap d ls a.2 a.1 ∧ a.2 < fuel) →
    ((∀ a ∈ placed off (samples.take (stop - si)), InFile d ls a.2 a.1) ∧ ∃ pos', chunkLoop d fuel ls stop samples si off idxs pos =
      (.ok (si + (samples.take (stop - si)).length,
        idxs ++ numbersOf (fun a => HasIdr d ls a.2 a.1) si (placed off (samples.take (stop - si)))), pos')) ∨
    (¬ (∀ a ∈ placed off (samples.take (stop - si)), InFile d ls a.2 a.1) ∧ ∃ e pos', chunkLoop d fuel ls stop samples si off idxs pos = (.err e, pos'))
  | [], si, off, idxs, pos, h => by
    refine .inl ⟨by simp [placed], pos, ?_⟩
    simp only [chunkLoop, List.take_nil, placed, numbersOf, List.length_nil, Nat.add_zero, List.append_nil]
    rfl
  | s :: l, si, off, idxs, pos, h => by
    unfold chunkLoop
    by_cases hs : si < stop
    · rw [if_pos hs]
      rw [show stop - si = (stop - (si + 1)) + 1 by omega, List.take_succ_cons] at h ⊢
      simp only [placed, List.forall_mem_cons] at h ⊢
      rw [List.length_cons, show si + ((l.take (stop - (si + 1))).length + 1) = si + 1 + (l.take (stop - (si + 1))).length by omega]
      unfold numbersOf
      by_cases hz : s.size = 0
      · rw [if_pos hz]
        rw [hz] at h ⊢
        have hin : InFile d ls 0 off := fun p _ hp => by omega
        have hno : ¬ HasIdr d ls 0 off := fun ⟨p, _, hp, _⟩ => by omega
        rw [if_neg hno]
        rcases chunkLoop_exact hd hls l (si + 1) off idxs pos h.2 with ⟨h1, p', e⟩ | ⟨h1, e⟩
        · exact .inl ⟨⟨hin, h1⟩, p', e⟩
        · exact .inr ⟨fun h => h1 h.2, e⟩
      · rw [if_neg hz]
        rcases nalLoop_exact hd hls h.1.1 fuel 0 pos .first (by omega) (by have := h.1.1.2.1; omega) (fun q _ hq => by omega) with
          ⟨h1, b, p1, e1, hb⟩ | ⟨h1, e, p1, e1⟩
        · rw [M.bind_ok e1]
          have hoff : add64 off s.size = off + s.size := by
            have := h.1.1.1
            unfold add64
            simp only [U64] at *
            omega
          rw [hoff]
          rcases chunkLoop_exact hd hls l (si + 1) (off + s.size) (if b = true then idxs ++ [si] else idxs) p1 h.2 with ⟨h2, p2, e2⟩ | ⟨h2, e2⟩
          · refine .inl ⟨⟨h1, h2⟩, p2, e2.trans ?_⟩
            by_cases hb' : b = true
            · rw [if_pos hb', if_pos (hb.1 hb'), List.append_assoc]
              rfl
            · rw [if_neg hb', if_neg (fun h => hb' (hb.2 h))]
          · exact .inr ⟨fun h => h2 h.2, e2⟩
        · exact .inr ⟨fun h => h1 h.1, e, p1, M.bind_err e1⟩
    · rw [if_neg hs]
      rw [show stop - si = 0 by omega, List.take_zero] at h ⊢
      refine .inl ⟨by simp [placed], pos, ?_⟩
      simp only [placed, numbersOf, List.length_nil, Nat.add_zero, List.append_nil]
      rfl

theorem chunksLoop_exact {fuel : Nat} (hd : d.length ≤ 2 ^ 48) (hls : 1 ≤ ls) (samples : List Sample) : ∀ (chunks : List Chunk)
    (si : Nat) (idxs : List Nat) (pos : Nat), si ≤ samples.length →
    (∀ a ∈ layout chunks (samples.drop si), NoWrap d ls a.2 a.1 ∧ a.2 < fuel) →
    ((∀ a ∈ layout chunks (samples.drop si), InFile d ls a.2 a.1) ∧ ∃ pos', chunksLoop d fuel ls samples chunks si idxs pos =
      (.ok (idxs ++ numbersOf (fun a => HasIdr d ls a.2 a.1) si (layout chunks (samples.drop si))), pos')) ∨
    (¬ (∀ a ∈ layout chunks (samples.drop si), InFile d ls a.2 a.1) ∧ ∃ e pos', chunksLoop d fuel ls samples chunks si idxs pos = (.err e, pos'))
  | [], si, idxs, pos, _, h => by
    refine .inl ⟨by simp [layout], pos, ?_⟩
    simp only [chunksLoop, layout, numbersOf, List.append_nil]
    rfl
  | c :: cs, si, idxs, pos, hsi, h => by
    unfold chunksLoop
    simp only [layout, List.forall_mem_append] at h ⊢
    have hc := chunkLoop_exact (stop := si + c.samplesPerChunk) (fuel := fuel) hd hls (samples.drop si) si c.dataOffset idxs pos
      (by rw [show si + c.samplesPerChunk - si = c.samplesPerChunk by omega]; exact h.1)
    rw [show si + c.samplesPerChunk - si = c.samplesPerChunk by omega] at hc
    rcases hc with ⟨h1, p1, e1⟩ | ⟨h1, e, p1, e1⟩
    · rw [M.bind_ok e1]
      simp only
      have hl : ((samples.drop si).take c.samplesPerChunk).length ≤ samples.length - si := by
        rw [List.length_take, List.length_drop]; omega
      have hdrop : samples.drop (si + ((samples.drop si).take c.samplesPerChunk).length) = (samples.drop si).drop c.samplesPerChunk := by
        rw [List.drop_drop, List.length_take, List.length_drop]
        by_cases hc : si + c.samplesPerChunk ≤ samples.length
        · rw [Nat.min_eq_left (by omega)]
        · rw [List.drop_eq_nil_of_le (by omega), List.drop_eq_nil_of_le (by omega)]
      have hr := chunksLoop_exact (fuel := fuel) hd hls samples cs (si + ((samples.drop si).take c.samplesPerChunk).length)
        (idxs ++ numbersOf (fun a => HasIdr d ls a.2 a.1) si (placed c.dataOffset ((samples.drop si).take c.samplesPerChunk))) p1 (by omega)
        (by rw [hdrop]; exact h.2)
      rw [hdrop] at hr
      rcases hr with ⟨h2, p2, e2⟩ | ⟨h2, e2⟩
      · refine .inl ⟨⟨h1, h2⟩, p2, e2.trans ?_⟩
        rw [numbersOf_append, placed_length, List.append_assoc]
      · exact .inr ⟨fun h => h2 h.2, e2⟩
    · exact .inr ⟨fun h => h1 h.1, e, p1, M.bind_err e1⟩

/-! ## The theorems -/

/-- **C36**, for every file — Whatever the samples of an AVC track contain and wherever they are: unless a length field (before the first
instantaneous decoder refresh of its sample) makes the position in the sample exceed 32 bits, `FindIDRFrames` comes to an end.
If every unit it has to look at is in the file, it returns, in increasing order, exactly the numbers of those samples in which one finds
an instantaneous decoder refresh by following the length fields from the beginning of the sample; otherwise it returns an error. -/
theorem idr_frames_exact (hd : d.length ≤ 2 ^ 48) (t : Track) (avc : AvcInfo) (havc : t.avc = some avc) (hls : 1 ≤ avc.lengthSize)
    (hw : ∀ a ∈ layout t.chunks t.samples, NoWrap d avc.lengthSize a.2 a.1) (fuel : Nat) (hf : ∀ a ∈ layout t.chunks t.samples, a.2 < fuel)
    (pos : Nat) :
    ((∀ a ∈ layout t.chunks t.samples, InFile d avc.lengthSize a.2 a.1) → ∃ idxs pos', findIDRFrames d fuel t pos = (.ok (some idxs), pos') ∧
      idxs.Pairwise (· < ·) ∧ ∀ i, i ∈ idxs ↔ ∃ off size, (layout t.chunks t.samples)[i]? = some (off, size) ∧ HasIdr d avc.lengthSize size off) ∧
    ((¬ ∀ a ∈ layout t.chunks t.samples, InFile d avc.lengthSize a.2 a.1) → ∃ e pos', findIDRFrames d fuel t pos = (.err e, pos')) := by
  have key := chunksLoop_exact (ls := avc.lengthSize) (fuel := fuel) hd hls t.samples t.chunks 0 [] pos (Nat.zero_le _)
    (fun a ha => ⟨hw a ha, hf a ha⟩)
  rw [List.drop_zero] at key
  unfold findIDRFrames
  rw [havc]
  rcases key with ⟨h1, p, e⟩ | ⟨h1, er, p, e⟩
  · refine ⟨fun _ => ⟨_, p, M.bind_ok e, (numbersOf_spec _ _ 0).1, fun i => ?_⟩, fun h => absurd h1 h⟩
    rw [List.nil_append, (numbersOf_spec _ _ 0).2 i]
    constructor
    · rintro ⟨_, ⟨o, s⟩, h2, h3⟩
      exact ⟨o, s, h2, h3⟩
    · rintro ⟨o, s, h2, h3⟩
      exact ⟨Nat.zero_le _, (o, s), h2, h3⟩
  · exact ⟨fun h => absurd h h1, fun _ => ⟨er, p, M.bind_err e⟩⟩

/-- a sample that is in the file has all its units there -/
theorem inFile_of_size (h : off + size ≤ d.length) : InFile d ls size off := fun p _ hp => by omega

/-- with length fields of up to three bytes, no position comes near 2^32 -/
theorem noWrap_short (h3 : ls ≤ 3) (hs : size < 2 ^ 31) (ho : off + size < 2 ^ 64) : NoWrap d ls size off := by
  refine ⟨ho, by omega, by omega, fun p _ hp _ => ?_⟩
  have hb : lengthAt d ls off p < 2 ^ 24 := by
    unfold lengthAt
    refine Nat.lt_of_lt_of_le (beNat_lt _) ?_
    have hl : ((d.drop (off + p)).take ls).length ≤ 3 := by
      rw [List.length_take]; omega
    exact Nat.le_trans (Nat.pow_le_pow_right (by decide) hl) (by decide)
  omega

/-- **C36**, short length fields — With length fields of one, two or three bytes and samples of less than 2^31 bytes, no length field can make the
position exceed 32 bits: `FindIDRFrames` comes to an end for every file. -/
theorem idr_terminates_short (hd : d.length ≤ 2 ^ 48) (t : Track) (avc : AvcInfo) (havc : t.avc = some avc) (h1 : 1 ≤ avc.lengthSize)
    (h3 : avc.lengthSize ≤ 3) (hs : ∀ a ∈ layout t.chunks t.samples, a.2 < 2 ^ 31 ∧ a.1 + a.2 < 2 ^ 64) (fuel : Nat) (hf : 2 ^ 31 ≤ fuel) (pos : Nat) :
    (findIDRFrames d fuel t pos).1 ≠ .hang := by
  obtain ⟨ha, hb⟩ := idr_frames_exact hd t avc havc h1 (fun a ha => noWrap_short h3 (hs a ha).1 (hs a ha).2) fuel
    (fun a ha => by have := (hs a ha).1; omega) pos
  by_cases hin : ∀ a ∈ layout t.chunks t.samples, InFile d avc.lengthSize a.2 a.1
  · obtain ⟨idxs, p, e, _⟩ := ha hin
    rw [e]
    simp
  · obtain ⟨er, p, e⟩ := hb hin
    rw [e]
    simp

/-- the loop over the units of a sample, from any position reached before the one that leads back -/
theorem nalLoop_cycle (hd : d.length ≤ 2 ^ 48) (hls : 1 ≤ ls) (hsz : size < 2 ^ 32) (hin : off + size ≤ d.length) {p q : Nat}
    (hp : Reached d ls size off p) (hq : Reached d ls size off q) (hs : p + ls + 1 ≤ size) (hni : ¬ IdrAt d ls off p)
    (hc : p + ls + lengthAt d ls off p = 2 ^ 32 + q) : ∀ (fuel r pos : Nat),
    Reached d ls size off r → r ≤ p → (nalLoop d ls size off fuel r pos).1 = .hang
  | 0, r, pos, _, _ => rfl
  | fuel + 1, r, pos, hr, hrp => by
    have hrs : r + ls + 1 ≤ size := by omega
    have hnr : ¬ IdrAt d ls off r := by
      rcases Nat.lt_or_eq_of_le hrp with h | h
      · exact hp.before hls hr.unitAt hrs h
      · subst h; exact hni
    have hsum : add32 (add32 r ls) 1 = r + ls + 1 := by
      unfold add32
      simp only [U32] at *
      omega
    have hoff : add64 off r = off + r := by
      unfold add64
      simp only [U64] at *
      omega
    unfold nalLoop
    rw [hsum, if_pos hrs, hoff]
    have e1 : seekStartP (off + r) pos = (.ok (off + r), off + r) := by
      unfold seekStartP
      rw [Nat.mod_eq_of_lt (by simp only [U64]; omega), if_neg (by omega)]
    have e2 := readFullP_run (d := d) (n := ls + 1) (pos := off + r) (by omega)
    rw [M.bind_ok e1, M.bind_ok e2]
    have hx : (off + r + ls) < d.length := by omega
    have htake : ((d.drop (off + r)).take (ls + 1)).take ls = (d.drop (off + r)).take ls := by
      rw [List.take_take, Nat.min_eq_left (by omega)]
    have hbyte : byteAt ((d.drop (off + r)).take (ls + 1)) ls = (d[off + r + ls]).toNat := by
      unfold byteAt
      rw [List.getD_eq_getElem?_getD, List.getElem?_take, if_pos (by omega), List.getElem?_drop, List.getElem?_eq_getElem hx]
      rfl
    have hidr : IdrAt d ls off r ↔ (d[off + r + ls]).toNat % 32 = 5 := by
      unfold IdrAt
      rw [List.drop_eq_getElem_cons hx, List.take_succ_cons, List.take_zero, isIDR_cons, decide_eq_true_eq]
    simp only [hbyte, htake]
    rw [if_neg (fun h => hnr (hidr.2 h))]
    rcases Nat.lt_or_eq_of_le hrp with h | h
    · have happ := units_apart hls _ r p (Nat.le_refl _) hr.unitAt hp.unitAt h hrs
      have hnext : add32 r (add32 ls (beNat ((d.drop (off + r)).take ls) % U32)) = r + ls + lengthAt d ls off r := by
        unfold lengthAt at happ ⊢
        unfold add32
        simp only [U32] at *
        omega
      rw [hnext]
      exact nalLoop_cycle hd hls hsz hin hp hq hs hni hc fuel _ _ (.next r hr hrs hnr) happ
    · subst h
      have hqr : q ≤ r := by
        refine Nat.le_of_not_lt fun hlt => ?_
        have := units_apart hls _ r q (Nat.le_refl _) hr.unitAt hq.unitAt hlt hrs
        omega
      have hnext : add32 r (add32 ls (beNat ((d.drop (off + r)).take ls) % U32)) = q := by
        unfold lengthAt at hc
        unfold add32
        simp only [U32] at *
        omega
      rw [hnext]
      exact nalLoop_cycle hd hls hsz hin hp hq hs hni hc fuel _ _ hq hqr

/-- **C36**, where it does not end — If, in the first sample, a length field before the first instantaneous decoder refresh leads back (modulo
2^32) to the position of a unit reached before, `FindIDRFrames` never ends.  So the condition of `idr_frames_exact` cannot be left out for any
such sample. -/
theorem idr_cycle_hangs (hd : d.length ≤ 2 ^ 48) (t : Track) (avc : AvcInfo) (havc : t.avc = some avc) (hls : 1 ≤ avc.lengthSize)
    (c : Chunk) (cs : List Chunk) (hcs : t.chunks = c :: cs) (hc1 : 1 ≤ c.samplesPerChunk) (s : Sample) (l : List Sample) (hsl : t.samples = s :: l)
    (hsz : s.size < 2 ^ 32) (hin : c.dataOffset + s.size ≤ d.length) (p q : Nat) (hp : Reached d avc.lengthSize s.size c.dataOffset p)
    (hq : Reached d avc.lengthSize s.size c.dataOffset q) (hs : p + avc.lengthSize + 1 ≤ s.size) (hni : ¬ IdrAt d avc.lengthSize c.dataOffset p)
    (hc : p + avc.lengthSize + lengthAt d avc.lengthSize c.dataOffset p = 2 ^ 32 + q) (fuel pos : Nat) :
    (findIDRFrames d fuel t pos).1 = .hang := by
  have h := nalLoop_cycle hd hls hsz hin hp hq hs hni hc fuel 0 pos .first (Nat.zero_le _)
  generalize hr : nalLoop d avc.lengthSize s.size c.dataOffset fuel 0 pos = r at h
  obtain ⟨o, p'⟩ := r
  simp only at h
  subst h
  have e1 : chunkLoop d fuel avc.lengthSize (0 + c.samplesPerChunk) (s :: l) 0 c.dataOffset [] pos = (.hang, p') := by
    unfold chunkLoop
    rw [if_pos (by omega), if_neg (by omega)]
    exact M.bind_hang hr
  have e2 : chunksLoop d fuel avc.lengthSize t.samples t.chunks 0 [] pos = (.hang, p') := by
    rw [hcs, hsl]
    unfold chunksLoop
    exact M.bind_hang e1
  have e3 : findIDRFrames d fuel t pos = (.hang, p') := by
    unfold findIDRFrames
    rw [havc]
    exact M.bind_hang e2
  rw [e3]

/-! ## Examples -/

/-- A sample that is not made of NAL units: the second unit has a length field that runs past the sample; a second sample, whose second unit is
an instantaneous decoder refresh. -/
def oddFile : Bytes := [0, 2, 0x41, 7, 0, 9, 0x01, 0xff,  0, 1, 0x41, 0, 9, 0x65, 0]

example := (idr_frames_exact (d := oddFile) (by decide) (avcTrack 2 [⟨8, 1, 0⟩, ⟨7, 1, 0⟩] [⟨0, 2⟩]) _ rfl (by decide)
  (fun a ha => noWrap_short (by decide) ((by decide : ∀ a ∈ layout [⟨0, 2⟩] [⟨8, 1, 0⟩, ⟨7, 1, 0⟩], a.2 < 2 ^ 31) a ha)
    ((by decide : ∀ a ∈ layout [⟨0, 2⟩] [⟨8, 1, 0⟩, ⟨7, 1, 0⟩], a.1 + a.2 < 2 ^ 64) a ha))
  20 (by decide) 0).1
  (fun a ha => inFile_of_size ((by decide : ∀ a ∈ layout [⟨0, 2⟩] [⟨8, 1, 0⟩, ⟨7, 1, 0⟩], a.1 + a.2 ≤ oddFile.length) a ha))
example : (findIDRFrames oddFile 20 (avcTrack 2 [⟨8, 1, 0⟩, ⟨7, 1, 0⟩] [⟨0, 2⟩]) 0).1 = .ok (some [1]) := by decide +kernel

/-- The sample of `idr_hangs`, with another unit before the one that leads back to it. -/
example (fuel : Nat) : (findIDRFrames [0, 0, 0, 1, 0x41, 0xff, 0xff, 0xff, 0xfc, 0x41] fuel (avcTrack 4 [⟨10, 1, 0⟩] [⟨0, 1⟩]) 0).1 = .hang :=
  idr_cycle_hangs (by decide) (avcTrack 4 [⟨10, 1, 0⟩] [⟨0, 1⟩]) _ rfl (by decide) ⟨0, 1⟩ [] rfl (by decide) ⟨10, 1, 0⟩ [] rfl (by decide)
    (by decide) 5 5 (.next 0 .first (by decide) (by unfold IdrAt; decide)) (.next 0 .first (by decide) (by unfold IdrAt; decide)) (by decide)
    (by unfold IdrAt; decide) (by decide) fuel 0

end Mp4.Props
