import Verif.Spec.Probe
import Verif.Lemmas.Hdlr

/-!
# Lemmas about the loops of probe.go
-/

namespace Mp4.Props

open Mp4

/-! ## samples -/

theorem samplesOf_length : ∀ l : List (Nat × Nat), (samplesOf l).length = runTotal l
  | [] => rfl
  | (n, a) :: l => by
    have := samplesOf_length l
    simp only [samplesOf, runTotal, List.length_append, List.length_replicate, List.map_cons, List.sum_cons] at *
    omega

theorem samplesOf_get : ∀ (l : List (Nat × Nat)) (i : Nat), (samplesOf l)[i]? = (runAt l i).map fun x => { timeDelta := x }
  | [], i => by simp [samplesOf, runAt]
  | (n, a) :: l, i => by
    unfold samplesOf runAt
    by_cases h : i < n
    · rw [List.getElem?_append_left (by simpa using h), if_pos h, List.getElem?_replicate, if_pos h]
      rfl
    · rw [List.getElem?_append_right (by simpa using h), if_neg h, List.length_replicate, samplesOf_get]

theorem offsetLoop_run (o : Int) : ∀ (n si : Nat) (l : List Sample), l.length < U32 → si ≤ l.length →
    offsetLoop o n si l = some (min (si + n) l.length,
      l.mapIdx fun j s => if si ≤ j ∧ j < si + n then { s with offset := o } else s)
  | 0, si, l, h1, h2 => by
    unfold offsetLoop
    rw [Nat.add_zero, Nat.min_eq_left h2]
    congr 2
    refine (List.ext_getElem? fun i => ?_)
    rw [List.getElem?_mapIdx]
    cases l[i]? with
    | none => rfl
    | some s =>
      simp only [Option.map_some]
      rw [if_neg (by omega)]
  | n + 1, si, l, h1, h2 => by
    unfold offsetLoop
    rw [Nat.mod_eq_of_lt h1]
    by_cases h : l.length ≤ si
    · rw [if_pos h]
      have : si = l.length := by omega
      subst this
      rw [Nat.min_eq_right (by omega)]
      congr 2
      refine (List.ext_getElem? fun i => ?_)
      rw [List.getElem?_mapIdx]
      by_cases hi : i < l.length
      · rw [List.getElem?_eq_getElem hi]
        simp only [Option.map_some]
        rw [if_neg (by omega)]
      · rw [List.getElem?_eq_none (by omega)]
        rfl
    · rw [if_neg h]
      have hlt : si < l.length := by omega
      rw [List.getElem?_eq_getElem hlt]
      simp only
      have e : add32 si 1 = si + 1 := by
        unfold add32
        simp only [U32] at *
        omega
      rw [e, offsetLoop_run o n (si + 1) _ (by simpa using h1) (by rw [List.length_set]; exact hlt)]
      rw [List.length_set]
      refine congrArg some (Prod.ext (by simp only; congr 1; omega) ?_)
      refine (List.ext_getElem? fun i => ?_)
      simp only [List.getElem?_mapIdx, List.getElem?_set]
      by_cases hi : si = i
      · subst hi
        rw [if_pos rfl, if_pos hlt, List.getElem?_eq_getElem hlt]
        simp only [Option.map_some]
        rw [if_neg (by omega), if_pos (by omega)]
      · rw [if_neg hi]
        cases l[i]? with
        | none => rfl
        | some s =>
          simp only [Option.map_some]
          by_cases hh : si + 1 ≤ i ∧ i < si + 1 + n
          · rw [if_pos hh, if_pos (by omega)]
          · rw [if_neg hh, if_neg (by omega)]

theorem cttsLoop_run : ∀ (t : List (Nat × Int)) (si : Nat) (l : List Sample), l.length < U32 → si ≤ l.length →
    ∃ l', cttsLoop t si l = some l' ∧ l'.length = l.length ∧
      ∀ i, l'[i]? = (l[i]?).map fun s => if i < si then s else
        match runAt t (i - si) with
        | some o => { s with offset := o }
        | none => s
  | [], si, l, h1, h2 => by
    refine ⟨l, rfl, rfl, fun i => ?_⟩
    cases l[i]? with
    | none => rfl
    | some s => simp [runAt]
  | (n, o) :: t, si, l, h1, h2 => by
    unfold cttsLoop
    rw [offsetLoop_run o n si l h1 h2]
    simp only
    obtain ⟨l', e1, e2, e3⟩ := cttsLoop_run t (min (si + n) l.length)
      (l.mapIdx fun j s => if si ≤ j ∧ j < si + n then { s with offset := o } else s) (by simpa using h1) (by simp; omega)
    refine ⟨l', e1, by simpa using e2, fun i => ?_⟩
    rw [e3 i, List.getElem?_mapIdx]
    by_cases hi : i < l.length
    · rw [List.getElem?_eq_getElem hi]
      simp only [Option.map_some]
      congr 1
      rw [show runAt ((n, o) :: t) (i - si) = if i - si < n then some o else runAt t (i - si - n) from rfl]
      by_cases h3 : i < si
      · rw [if_pos (by omega), if_pos h3, if_neg (by omega)]
      · rw [if_neg h3]
        by_cases h4 : i < si + n
        · rw [if_pos (by omega), if_pos (by omega), if_pos (by omega)]
        · rw [if_neg (by omega), if_neg (by omega), if_neg (by omega)]
          have : i - min (si + n) l.length = i - si - n := by omega
          rw [this]
    · rw [List.getElem?_eq_none (by omega)]
      rfl

theorem offsetLoop_length {o : Int} : ∀ {n si si' : Nat} {l l' : List Sample}, offsetLoop o n si l = some (si', l') →
    l'.length = l.length
  | 0, si, si', l, l', h => by cases h; rfl
  | n + 1, si, si', l, l', h => by
    unfold offsetLoop at h
    split at h
    · cases h; rfl
    · split at h
      · cases h
      · have := offsetLoop_length h
        rwa [List.length_set] at this

theorem cttsLoop_length : ∀ {t : List (Nat × Int)} {si : Nat} {l l' : List Sample}, cttsLoop t si l = some l' → l'.length = l.length
  | [], si, l, l', h => by cases h; rfl
  | (n, o) :: t, si, l, l', h => by
    unfold cttsLoop at h
    split at h
    · cases h
    · next e => exact (cttsLoop_length h).trans (offsetLoop_length e)

theorem runLoop_length {stop spc : Nat} : ∀ {fuel ci : Nat} {l l' : List Chunk}, runLoop stop spc fuel ci l = some l' →
    l'.length = l.length
  | 0, ci, l, l', h => by cases h; rfl
  | n + 1, ci, l, l', h => by
    unfold runLoop at h
    split at h
    · split at h
      · cases h
      · have := runLoop_length h
        rwa [List.length_set] at this
    · cases h; rfl

theorem stscLoop_length : ∀ {t : List (Nat × Nat)} {l l' : List Chunk}, stscLoop t l = some l' → l'.length = l.length
  | [], l, l', h => by cases h; rfl
  | (n, o) :: t, l, l', h => by
    unfold stscLoop at h
    split at h
    · cases h
    · next e => exact (stscLoop_length h).trans (runLoop_length e)

theorem stszLoop_run : ∀ (t : List Nat) (l : List Sample), (stszLoop t l).length = l.length ∧
    ∀ i : Nat, (stszLoop t l)[i]? = (l[i]?).map fun (s : Sample) => match t[i]? with | some n => { s with size := n } | none => s
  | [], l => by
    unfold stszLoop
    refine ⟨rfl, fun i => ?_⟩
    cases l[i]? with
    | none => rfl
    | some s => simp
  | n :: t, [] => by
    unfold stszLoop
    simp
  | n :: t, s :: l => by
    unfold stszLoop
    obtain ⟨h1, h2⟩ := stszLoop_run t l
    refine ⟨by simp [h1], fun i => ?_⟩
    cases i with
    | zero => simp
    | succ i => simpa using h2 i

/-! ## chunks -/

theorem runLoop_run (stop spc : Nat) : ∀ (fuel ci : Nat) (l : List Chunk), stop ≤ l.length → stop < U32 → stop ≤ ci + fuel →
    runLoop stop spc fuel ci l = some (l.mapIdx fun j c => if ci ≤ j ∧ j < stop then { c with samplesPerChunk := spc } else c)
  | 0, ci, l, h1, h2, h3 => by
    unfold runLoop
    congr 1
    refine (List.ext_getElem? fun i => ?_)
    rw [List.getElem?_mapIdx]
    cases l[i]? with
    | none => rfl
    | some s =>
      simp only [Option.map_some]
      rw [if_neg (by omega)]
  | fuel + 1, ci, l, h1, h2, h3 => by
    unfold runLoop
    by_cases h : ci < stop
    · rw [if_pos h]
      have hlt : ci < l.length := by omega
      rw [List.getElem?_eq_getElem hlt]
      simp only
      have e : add32 ci 1 = ci + 1 := by
        unfold add32
        simp only [U32] at *
        omega
      rw [e, runLoop_run stop spc fuel (ci + 1) _ (by simpa using h1) h2 (by omega)]
      congr 1
      refine (List.ext_getElem? fun i => ?_)
      simp only [List.getElem?_mapIdx, List.getElem?_set]
      by_cases hi : ci = i
      · subst hi
        rw [if_pos rfl, if_pos hlt, List.getElem?_eq_getElem hlt]
        simp only [Option.map_some]
        rw [if_neg (by omega), if_pos (by omega)]
      · rw [if_neg hi]
        cases l[i]? with
        | none => rfl
        | some s =>
          simp only [Option.map_some]
          by_cases hh : ci + 1 ≤ i ∧ i < stop
          · rw [if_pos hh, if_pos (by omega)]
          · rw [if_neg hh, if_neg (by omega)]
    · rw [if_neg h]
      congr 1
      refine (List.ext_getElem? fun i => ?_)
      rw [List.getElem?_mapIdx]
      cases l[i]? with
      | none => rfl
      | some s =>
        simp only [Option.map_some]
        rw [if_neg (by omega)]

theorem lastRun_nil (j : Nat) : lastRun [] j = none := rfl

theorem lastRun_cons (a b : Nat) (l : List (Nat × Nat)) (j : Nat) :
    lastRun ((a, b) :: l) j = match lastRun l j with
      | some n => some n
      | none => if 1 ≤ a ∧ a ≤ j + 1 then some b else none := by
  unfold lastRun
  by_cases h : 1 ≤ a ∧ a ≤ j + 1
  · rw [List.filter_cons_of_pos (by simpa using h), if_pos h, List.getLast?_cons]
    cases ((l.filter fun e => 1 ≤ e.1 ∧ e.1 ≤ j + 1).getLast?) <;> rfl
  · rw [List.filter_cons_of_neg (by simpa using h), if_neg h]
    cases ((l.filter fun e => 1 ≤ e.1 ∧ e.1 ≤ j + 1).getLast?) <;> rfl

/-- `a - 1` on `uint32`: 0 becomes the greatest number. -/
theorem sub32_one (a : Nat) (h : a < U32) : ∃ c, sub32 a 1 = c ∧ ∀ j, j < U32 - 1 → (c ≤ j ↔ 1 ≤ a ∧ a ≤ j + 1) := by
  refine ⟨_, rfl, fun j hj => ?_⟩
  unfold sub32
  simp only [U32] at *
  omega

/-- what the loop needs to know about the end of a run -/
theorem runEnd_spec (t : List (Nat × Nat)) (n : Nat) (hn : n < U32) (ht : ∀ e ∈ t, e.1 < U32) :
    runEnd t n ≤ n ∧ ∀ j, lastRun t j = none → j < n → j < runEnd t n := by
  unfold runEnd
  cases t with
  | nil => exact ⟨Nat.le_refl _, fun j _ h => h⟩
  | cons e t =>
    obtain ⟨a, b⟩ := e
    obtain ⟨c, hc, h⟩ := sub32_one a (ht _ List.mem_cons_self)
    simp only [hc]
    constructor
    · split <;> omega
    · intro j hj hjn
      split
      · rw [lastRun_cons] at hj
        split at hj
        · cases hj
        · split at hj
          · cases hj
          · next hh =>
            have := h j (by omega)
            rw [← this] at hh
            omega
      · exact hjn

theorem stscLoop_run : ∀ (t : List (Nat × Nat)) (l : List Chunk), l.length < U32 → (∀ e ∈ t, e.1 < U32) →
    ∃ l', stscLoop t l = some l' ∧ l'.length = l.length ∧
      ∀ j, l'[j]? = (l[j]?).map fun c => match lastRun t j with
        | some n => { c with samplesPerChunk := n }
        | none => c
  | [], l, h1, h2 => by
    refine ⟨l, rfl, rfl, fun i => ?_⟩
    rw [lastRun_nil]
    cases l[i]? <;> rfl
  | (a, b) :: t, l, h1, h2 => by
    unfold stscLoop
    have ha := h2 _ List.mem_cons_self
    have ht : ∀ e ∈ t, e.1 < U32 := fun e he => h2 e (List.mem_cons_of_mem _ he)
    rw [Nat.mod_eq_of_lt h1]
    obtain ⟨hs1, hs2⟩ := runEnd_spec t l.length h1 ht
    obtain ⟨ci, hc1, hc2⟩ := sub32_one a ha
    generalize runEnd t l.length = stop at hs1 hs2
    rw [hc1]
    rw [runLoop_run stop b stop ci l hs1 (by omega) (by omega)]
    simp only
    obtain ⟨l', e1, e2, e3⟩ := stscLoop_run t
      (l.mapIdx fun j c => if ci ≤ j ∧ j < stop then { c with samplesPerChunk := b } else c) (by simpa using h1) ht
    refine ⟨l', e1, by simpa using e2, fun j => ?_⟩
    rw [e3 j, List.getElem?_mapIdx, lastRun_cons]
    by_cases hj : j < l.length
    · rw [List.getElem?_eq_getElem hj]
      simp only [Option.map_some]
      refine congrArg some ?_
      cases hr : lastRun t j with
      | some n =>
        simp only
        split <;> rfl
      | none =>
        simp only
        have h3 := hs2 j hr hj
        have h5 := hc2 j (by omega)
        by_cases h4 : 1 ≤ a ∧ a ≤ j + 1
        · rw [if_pos ⟨h5.2 h4, h3⟩, if_pos h4]
        · rw [if_neg (fun h => h4 (h5.1 h.1)), if_neg h4]
    · rw [List.getElem?_eq_none (by omega)]
      rfl

/-! ## the boxes found -/

theorem lastPayload_nil (t : BoxType) : lastPayload [] t = none := rfl

theorem lastPayload_cons (l : List (BoxInfo × BoxVal)) (bi : BoxInfo) (v : BoxVal) (t : BoxType) :
    lastPayload ((bi, v) :: l) t = (lastPayload l t).or (if bi.type = t then some v.sv else none) := by
  unfold lastPayload
  by_cases h : bi.type = t
  · rw [List.filter_cons_of_pos (by simpa using h), if_pos h, List.getLast?_cons]
    cases ((l.filter fun x => x.1.type == t).getLast?) <;> rfl
  · rw [List.filter_cons_of_neg (by simpa using h), if_neg h]
    cases ((l.filter fun x => x.1.type == t).getLast?) <;> rfl

/-- is there a box of the type? -/
def hasType (l : List (BoxInfo × BoxVal)) (t : BoxType) : Bool := l.any fun x => x.1.type == t

theorem assert_some {v : BoxVal} {name : String} {g : SV → Found} {f : Found} (h : (v.assert name).map g = some f) : f = g v.sv := by
  unfold BoxVal.assert at h
  split at h
  · cases h; rfl
  · cases h

/-- the effect of one box -/
theorem collectOne_eq {f g : Found} {t : BoxType} {v : BoxVal} (h : collectOne f t v = some g) :
    (g.tkhd = (if t = tTkhd then some v.sv else none).or f.tkhd) ∧ (g.elst = (if t = tElst then some v.sv else none).or f.elst) ∧
    (g.mdhd = (if t = tMdhd then some v.sv else none).or f.mdhd) ∧ (g.avc1 = (if t = tAvc1 then some v.sv else none).or f.avc1) ∧
    (g.avcC = (if t = tAvcC then some v.sv else none).or f.avcC) ∧ (g.esds = (if t = tEsds then some v.sv else none).or f.esds) ∧
    (g.stco = (if t = tStco then some v.sv else none).or f.stco) ∧ (g.stts = (if t = tStts then some v.sv else none).or f.stts) ∧
    (g.stsc = (if t = tStsc then some v.sv else none).or f.stsc) ∧ (g.ctts = (if t = tCtts then some v.sv else none).or f.ctts) ∧
    (g.stsz = (if t = tStsz then some v.sv else none).or f.stsz) ∧ (g.co64 = (if t = tCo64 then some v.sv else none).or f.co64) ∧
    (g.encrypted = (t == tEncv || t == tEnca || f.encrypted)) := by
  unfold collectOne at h
  by_cases eTkhd : t = tTkhd
  · rw [if_pos eTkhd] at h; subst eTkhd; rw [assert_some h]; exact ⟨rfl, rfl, rfl, rfl, rfl, rfl, rfl, rfl, rfl, rfl, rfl, rfl, rfl⟩
  rw [if_neg eTkhd] at h
  by_cases eElst : t = tElst
  · rw [if_pos eElst] at h; subst eElst; rw [assert_some h]; exact ⟨rfl, rfl, rfl, rfl, rfl, rfl, rfl, rfl, rfl, rfl, rfl, rfl, rfl⟩
  rw [if_neg eElst] at h
  by_cases eMdhd : t = tMdhd
  · rw [if_pos eMdhd] at h; subst eMdhd; rw [assert_some h]; exact ⟨rfl, rfl, rfl, rfl, rfl, rfl, rfl, rfl, rfl, rfl, rfl, rfl, rfl⟩
  rw [if_neg eMdhd] at h
  by_cases eAvc1 : t = tAvc1
  · rw [if_pos eAvc1] at h; subst eAvc1; rw [assert_some h]; exact ⟨rfl, rfl, rfl, rfl, rfl, rfl, rfl, rfl, rfl, rfl, rfl, rfl, rfl⟩
  rw [if_neg eAvc1] at h
  by_cases eAvcC : t = tAvcC
  · rw [if_pos eAvcC] at h; subst eAvcC; rw [assert_some h]; exact ⟨rfl, rfl, rfl, rfl, rfl, rfl, rfl, rfl, rfl, rfl, rfl, rfl, rfl⟩
  rw [if_neg eAvcC] at h
  by_cases eEncv : t = tEncv
  · rw [if_pos eEncv] at h; subst eEncv; cases h; exact ⟨rfl, rfl, rfl, rfl, rfl, rfl, rfl, rfl, rfl, rfl, rfl, rfl, rfl⟩
  rw [if_neg eEncv] at h
  by_cases eMp4a : t = tMp4a
  · rw [if_pos eMp4a] at h; subst eMp4a; rw [assert_some h]; exact ⟨rfl, rfl, rfl, rfl, rfl, rfl, rfl, rfl, rfl, rfl, rfl, rfl, rfl⟩
  rw [if_neg eMp4a] at h
  by_cases eEnca : t = tEnca
  · rw [if_pos eEnca] at h; subst eEnca; rw [assert_some h]; exact ⟨rfl, rfl, rfl, rfl, rfl, rfl, rfl, rfl, rfl, rfl, rfl, rfl, rfl⟩
  rw [if_neg eEnca] at h
  by_cases eEsds : t = tEsds
  · rw [if_pos eEsds] at h; subst eEsds; rw [assert_some h]; exact ⟨rfl, rfl, rfl, rfl, rfl, rfl, rfl, rfl, rfl, rfl, rfl, rfl, rfl⟩
  rw [if_neg eEsds] at h
  by_cases eStco : t = tStco
  · rw [if_pos eStco] at h; subst eStco; rw [assert_some h]; exact ⟨rfl, rfl, rfl, rfl, rfl, rfl, rfl, rfl, rfl, rfl, rfl, rfl, rfl⟩
  rw [if_neg eStco] at h
  by_cases eStts : t = tStts
  · rw [if_pos eStts] at h; subst eStts; rw [assert_some h]; exact ⟨rfl, rfl, rfl, rfl, rfl, rfl, rfl, rfl, rfl, rfl, rfl, rfl, rfl⟩
  rw [if_neg eStts] at h
  by_cases eStsc : t = tStsc
  · rw [if_pos eStsc] at h; subst eStsc; rw [assert_some h]; exact ⟨rfl, rfl, rfl, rfl, rfl, rfl, rfl, rfl, rfl, rfl, rfl, rfl, rfl⟩
  rw [if_neg eStsc] at h
  by_cases eCtts : t = tCtts
  · rw [if_pos eCtts] at h; subst eCtts; rw [assert_some h]; exact ⟨rfl, rfl, rfl, rfl, rfl, rfl, rfl, rfl, rfl, rfl, rfl, rfl, rfl⟩
  rw [if_neg eCtts] at h
  by_cases eStsz : t = tStsz
  · rw [if_pos eStsz] at h; subst eStsz; rw [assert_some h]; exact ⟨rfl, rfl, rfl, rfl, rfl, rfl, rfl, rfl, rfl, rfl, rfl, rfl, rfl⟩
  rw [if_neg eStsz] at h
  by_cases eCo64 : t = tCo64
  · rw [if_pos eCo64] at h; subst eCo64; rw [assert_some h]; exact ⟨rfl, rfl, rfl, rfl, rfl, rfl, rfl, rfl, rfl, rfl, rfl, rfl, rfl⟩
  rw [if_neg eCo64] at h
  cases h
  refine ⟨?_, ?_, ?_, ?_, ?_, ?_, ?_, ?_, ?_, ?_, ?_, ?_, ?_⟩
  · rw [if_neg eTkhd]; rfl
  · rw [if_neg eElst]; rfl
  · rw [if_neg eMdhd]; rfl
  · rw [if_neg eAvc1]; rfl
  · rw [if_neg eAvcC]; rfl
  · rw [if_neg eEsds]; rfl
  · rw [if_neg eStco]; rfl
  · rw [if_neg eStts]; rfl
  · rw [if_neg eStsc]; rfl
  · rw [if_neg eCtts]; rfl
  · rw [if_neg eStsz]; rfl
  · rw [if_neg eCo64]; rfl
  rw [beq_eq_false_iff_ne.2 eEncv, beq_eq_false_iff_ne.2 eEnca]; rfl

/-- The boxes of each kind: the last of its type. -/
theorem collect_eq : ∀ (l : List (BoxInfo × BoxVal)) (f g : Found), collect f l = some g →
    (g.tkhd = (lastPayload l tTkhd).or f.tkhd) ∧ (g.elst = (lastPayload l tElst).or f.elst) ∧
    (g.mdhd = (lastPayload l tMdhd).or f.mdhd) ∧ (g.avc1 = (lastPayload l tAvc1).or f.avc1) ∧
    (g.avcC = (lastPayload l tAvcC).or f.avcC) ∧ (g.esds = (lastPayload l tEsds).or f.esds) ∧
    (g.stco = (lastPayload l tStco).or f.stco) ∧ (g.stts = (lastPayload l tStts).or f.stts) ∧
    (g.stsc = (lastPayload l tStsc).or f.stsc) ∧ (g.ctts = (lastPayload l tCtts).or f.ctts) ∧
    (g.stsz = (lastPayload l tStsz).or f.stsz) ∧ (g.co64 = (lastPayload l tCo64).or f.co64) ∧
    (g.encrypted = (hasType l tEncv || hasType l tEnca || f.encrypted))
  | [], f, g, h => by
    cases h
    exact ⟨rfl, rfl, rfl, rfl, rfl, rfl, rfl, rfl, rfl, rfl, rfl, rfl, rfl⟩
  | (bi, v) :: l, f, g, h => by
    simp only [collect] at h
    cases hc : collectOne f bi.type v with
    | none => rw [hc] at h; cases h
    | some f1 =>
      rw [hc] at h
      obtain ⟨a1, a2, a3, a4, a5, a6, a7, a8, a9, a10, a11, a12, a13⟩ := collectOne_eq hc
      obtain ⟨b1, b2, b3, b4, b5, b6, b7, b8, b9, b10, b11, b12, b13⟩ := collect_eq l f1 g h
      simp only [lastPayload_cons, Option.or_assoc]
      rw [b1, b2, b3, b4, b5, b6, b7, b8, b9, b10, b11, b12, b13, a1, a2, a3, a4, a5, a6, a7, a8, a9, a10, a11, a12, a13]
      refine ⟨rfl, rfl, rfl, rfl, rfl, rfl, rfl, rfl, rfl, rfl, rfl, rfl, ?_⟩
      simp only [hasType, List.any_cons]
      cases bi.type == tEncv <;> cases bi.type == tEnca <;> simp

end Mp4.Props
