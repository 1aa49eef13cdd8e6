import Verif.Props.ExtractAny
import Verif.Props.ProbeTrack
import Verif.Props.Unmarshal

/-!
# C57: `Probe` does not panic
-/

namespace Mp4.Props

open Mp4 Mp4.Spec

variable {d : Bytes}

/-! ## Payloads -/

theorem decodeAll_safe (hd : d.length ≤ 2 ^ 48) (ctx : Ctx) : ∀ (bis : List BoxInfo), (∀ b ∈ bis, b.offset + b.headerSize ≤ d.length) →
    ∀ pos, (decodeAll BoxMap.std d ctx bis pos).1 ≠ .panic ∧ ∀ l p, decodeAll BoxMap.std d ctx bis pos = (.ok l, p) →
      l.map (·.1) = bis ∧ ∀ x ∈ l, BoxMap.std.getBoxDef x.1.type ctx = some x.2.bd ∧ typedFields x.2.bd.fields x.2.sv = true
  | [], _, pos => ⟨by simp [decodeAll, M.pure_run], by intro l p h; cases h; exact ⟨rfl, by simp⟩⟩
  | bi :: bis, h, pos => by
    have hd' : d.length ≤ maxAlloc := hd
    have hb := h bi List.mem_cons_self
    have ih := decodeAll_safe hd ctx bis (fun b hb => h b (List.mem_cons_of_mem _ hb))
    unfold decodeAll
    rw [M.bind_ok (seekToPayload_ok hd' hb pos)]
    obtain ⟨o, p1, hu, hp⟩ := any_post hd' hb bi.type ctx (sub64 bi.size bi.headerSize)
    match o, hp with
    | .err e, _ =>
      rw [M.bind_err hu]
      exact ⟨by simp, by intro l p h; cases h⟩
    | .hang, _ =>
      rw [M.bind_hang hu]
      exact ⟨by simp, by intro l p h; cases h⟩
    | .ok (box, n), hp =>
      rw [M.bind_ok hu]
      simp only
      obtain ⟨i1, i2⟩ := ih p1
      cases hr : decodeAll BoxMap.std d ctx bis p1 with
      | mk o p2 =>
        rw [hr] at i1
        cases o with
        | panic => exact absurd rfl i1
        | err e => rw [M.bind_err hr]; exact ⟨by simp, by intro l p h; cases h⟩
        | hang => rw [M.bind_hang hr]; exact ⟨by simp, by intro l p h; cases h⟩
        | ok rest =>
          rw [M.bind_ok hr]
          refine ⟨by simp [M.pure_run], ?_⟩
          intro l p h
          cases h
          obtain ⟨j1, j2⟩ := i2 _ _ hr
          refine ⟨by simp [j1], ?_⟩
          intro x hx
          rcases List.mem_cons.1 hx with rfl | hx
          · exact ⟨hp.2.2.2.2.1, hp.2.2.2.2.2⟩
          · exact j2 x hx

theorem leads_real {start : Option BoxInfo} {path : List BoxType} {b : BoxInfo} (h : Leads d start path b) : Real d b := by
  cases h with
  | first hc => exact hc.real
  | down h hc => exact hc.real

theorem leads_type {start : Option BoxInfo} {path : List BoxType} {b : BoxInfo} (h : Leads d start path b) : path.getLast? = some b.type := by
  cases h with
  | first hc => rfl
  | down h hc => simp

/-- **C56**, with payloads — `ExtractBoxesWithPayload` below a box of the file does not panic, and every payload it returns is of the Go type registered for
the type of its box. -/
theorem extract_payload_sound (hd : d.length ≤ 2 ^ 48) (fuel : Nat) (bi : BoxInfo) (hbi : Real d bi) (paths : List (List BoxType))
    (pos : Nat) :
    (extractBoxesWithPayload BoxMap.std d fuel (some bi) paths pos).1 ≠ .panic ∧
    ∀ l p, extractBoxesWithPayload BoxMap.std d fuel (some bi) paths pos = (.ok l, p) → ∃ ctx, ∀ x ∈ l,
      (∃ path, Leads d (some bi) path x.1 ∧ Asked paths path) ∧
      BoxMap.std.getBoxDef x.1.type ctx = some x.2.bd ∧ typedFields x.2.bd.fields x.2.sv = true := by
  obtain ⟨h1, h2⟩ := extract_below_sound hd fuel bi hbi paths pos
  unfold extractBoxesWithPayload
  cases hr : extractBoxes BoxMap.std d fuel (some bi) paths pos with
  | mk o p1 =>
    rw [hr] at h1
    cases o with
    | panic => exact absurd rfl h1
    | err e => rw [M.bind_err hr]; exact ⟨by simp, by intro l p h; cases h⟩
    | hang => rw [M.bind_hang hr]; exact ⟨by simp, by intro l p h; cases h⟩
    | ok v =>
      obtain ⟨bis, par⟩ := v
      obtain ⟨⟨ctx, rfl⟩, h3⟩ := h2 _ _ _ hr
      rw [M.bind_ok hr]
      have h4 := decodeAll_safe hd ctx bis (fun b hb => by
        obtain ⟨path, hl, _⟩ := h3 b hb
        exact (header_of_real hd (leads_real hl)).inside) p1
      refine ⟨h4.1, fun l p h => ⟨ctx, fun x hx => ?_⟩⟩
      obtain ⟨h5, h6⟩ := h4.2 l p h
      exact ⟨h3 x.1 (h5 ▸ List.mem_map.2 ⟨x, hx, rfl⟩), h6 x hx⟩

/-! ## Type assertions -/

/-- The Go types for which `Probe` asserts. -/
theorem asserted : ∀ x ∈ [(tTkhd, "Tkhd"), (tElst, "Elst"), (tMdhd, "Mdhd"), (tAvc1, "VisualSampleEntry"), (tAvcC, "AVCDecoderConfiguration"),
    (tMp4a, "AudioSampleEntry"), (tEnca, "AudioSampleEntry"), (tEsds, "Esds"), (tStco, "Stco"), (tStts, "Stts"), (tStsc, "Stsc"),
    (tCtts, "Ctts"), (tStsz, "Stsz"), (tCo64, "Co64"), (tTfhd, "Tfhd"), (tTfdt, "Tfdt"), (tTrun, "Trun")],
    (BoxMap.std x.1).map (fun bd => (bd.goName, bd.target.isNone)) = [(x.2, true)] := by decide +kernel

theorem assert_ok {t : BoxType} {name : String} {ctx : Ctx} {v : BoxVal} {α : Type} (g : SV → α)
    (hs : (BoxMap.std t).map (fun bd => (bd.goName, bd.target.isNone)) = [(name, true)])
    (h : BoxMap.std.getBoxDef t ctx = some v.bd) : ∃ f, (v.assert name).map g = some f := by
  obtain ⟨bd, h1, h2⟩ := lookup_single hs ctx
  rw [h] at h1
  cases h1
  unfold BoxVal.assert
  rw [if_pos h2]
  exact ⟨_, rfl⟩

theorem collectOne_total (f : Found) {t : BoxType} {ctx : Ctx} {v : BoxVal} (h : BoxMap.std.getBoxDef t ctx = some v.bd) :
    ∃ g, collectOne f t v = some g := by
  unfold collectOne
  have go : ∀ {u : BoxType} {name : String} (g : SV → Found), t = u → (BoxMap.std u).map (fun bd => (bd.goName, bd.target.isNone)) = [(name, true)] →
      ∃ f, (v.assert name).map g = some f := fun g e hs => assert_ok g hs (e ▸ h)
  by_cases c1 : t = tTkhd
  · rw [if_pos c1]; exact go _ c1 (asserted (tTkhd, "Tkhd") (by decide))
  rw [if_neg c1]
  by_cases c2 : t = tElst
  · rw [if_pos c2]; exact go _ c2 (asserted (tElst, "Elst") (by decide))
  rw [if_neg c2]
  by_cases c3 : t = tMdhd
  · rw [if_pos c3]; exact go _ c3 (asserted (tMdhd, "Mdhd") (by decide))
  rw [if_neg c3]
  by_cases c4 : t = tAvc1
  · rw [if_pos c4]; exact go _ c4 (asserted (tAvc1, "VisualSampleEntry") (by decide))
  rw [if_neg c4]
  by_cases c5 : t = tAvcC
  · rw [if_pos c5]; exact go _ c5 (asserted (tAvcC, "AVCDecoderConfiguration") (by decide))
  rw [if_neg c5]
  by_cases c6 : t = tEncv
  · rw [if_pos c6]; exact ⟨_, rfl⟩
  rw [if_neg c6]
  by_cases c7 : t = tMp4a
  · rw [if_pos c7]; exact go _ c7 (asserted (tMp4a, "AudioSampleEntry") (by decide))
  rw [if_neg c7]
  by_cases c8 : t = tEnca
  · rw [if_pos c8]; exact go _ c8 (asserted (tEnca, "AudioSampleEntry") (by decide))
  rw [if_neg c8]
  by_cases c9 : t = tEsds
  · rw [if_pos c9]; exact go _ c9 (asserted (tEsds, "Esds") (by decide))
  rw [if_neg c9]
  by_cases c10 : t = tStco
  · rw [if_pos c10]; exact go _ c10 (asserted (tStco, "Stco") (by decide))
  rw [if_neg c10]
  by_cases c11 : t = tStts
  · rw [if_pos c11]; exact go _ c11 (asserted (tStts, "Stts") (by decide))
  rw [if_neg c11]
  by_cases c12 : t = tStsc
  · rw [if_pos c12]; exact go _ c12 (asserted (tStsc, "Stsc") (by decide))
  rw [if_neg c12]
  by_cases c13 : t = tCtts
  · rw [if_pos c13]; exact go _ c13 (asserted (tCtts, "Ctts") (by decide))
  rw [if_neg c13]
  by_cases c14 : t = tStsz
  · rw [if_pos c14]; exact go _ c14 (asserted (tStsz, "Stsz") (by decide))
  rw [if_neg c14]
  by_cases c15 : t = tCo64
  · rw [if_pos c15]; exact go _ c15 (asserted (tCo64, "Co64") (by decide))
  rw [if_neg c15]
  exact ⟨_, rfl⟩

theorem collect_total {ctx : Ctx} : ∀ (l : List (BoxInfo × BoxVal)) (f : Found), (∀ x ∈ l, BoxMap.std.getBoxDef x.1.type ctx = some x.2.bd) →
    ∃ g, collect f l = some g
  | [], f, _ => ⟨f, rfl⟩
  | (bi, v) :: l, f, h => by
    obtain ⟨g, hg⟩ := collectOne_total f (h (bi, v) List.mem_cons_self)
    rw [collect, hg]
    exact collect_total l g fun x hx => h x (List.mem_cons_of_mem _ hx)

theorem collectFrag_total {ctx : Ctx} : ∀ (l : List (BoxInfo × BoxVal)) (f : FoundFrag),
    (∀ x ∈ l, BoxMap.std.getBoxDef x.1.type ctx = some x.2.bd) → ∃ g, collectFrag f l = some g
  | [], f, _ => ⟨f, rfl⟩
  | (bi, v) :: l, f, h => by
    have h0 := h (bi, v) List.mem_cons_self
    have hl := fun g => collectFrag_total l g fun x hx => h x (List.mem_cons_of_mem _ hx)
    rw [collectFrag]
    by_cases c1 : bi.type = tTfhd
    · simp only [c1] at h0
      obtain ⟨g, hg⟩ := assert_ok (fun s => { f with tfhd := some s }) (asserted (tTfhd, "Tfhd") (by decide)) h0
      rw [if_pos c1, hg]
      exact hl g
    rw [if_neg c1]
    by_cases c2 : bi.type = tTfdt
    · simp only [c2] at h0
      obtain ⟨g, hg⟩ := assert_ok (fun s => { f with tfdt := some s }) (asserted (tTfdt, "Tfdt") (by decide)) h0
      rw [if_pos c2, hg]
      exact hl g
    rw [if_neg c2]
    by_cases c3 : bi.type = tTrun
    · simp only [c3] at h0
      obtain ⟨g, hg⟩ := assert_ok (fun s => { f with trun := some s }) (asserted (tTrun, "Trun") (by decide)) h0
      rw [if_pos c3, hg]
      exact hl g
    rw [if_neg c3]
    exact hl f

/-! ## Loops over tables -/

theorem runLoop_total (stop spc : Nat) : ∀ (fuel ci : Nat) (l : List Chunk), stop ≤ l.length → ∃ l', runLoop stop spc fuel ci l = some l'
  | 0, ci, l, _ => ⟨l, rfl⟩
  | fuel + 1, ci, l, h => by
    rw [runLoop]
    split
    · next hc =>
      rw [List.getElem?_eq_getElem (show ci < l.length by omega)]
      exact runLoop_total stop spc fuel _ _ (by simpa using h)
    · exact ⟨l, rfl⟩

theorem runEnd_le (rest : List (Nat × Nat)) (n : Nat) : runEnd rest n ≤ n := by
  unfold runEnd
  split
  · exact Nat.le_refl n
  · split <;> omega

theorem stscLoop_total : ∀ (t : List (Nat × Nat)) (l : List Chunk), ∃ l', stscLoop t l = some l'
  | [], l => ⟨l, rfl⟩
  | (first, spc) :: rest, l => by
    rw [stscLoop]
    obtain ⟨l', e⟩ := runLoop_total (runEnd rest (l.length % U32)) spc (runEnd rest (l.length % U32)) (sub32 first 1) l
      (Nat.le_trans (runEnd_le _ _) (Nat.mod_le _ _))
    rw [e]
    exact stscLoop_total rest l'

theorem offsetLoop_total (o : Int) : ∀ (n si : Nat) (l : List Sample), ∃ x, offsetLoop o n si l = some x
  | 0, si, l => ⟨_, rfl⟩
  | n + 1, si, l => by
    rw [offsetLoop]
    split
    · exact ⟨_, rfl⟩
    · next hc =>
      have := Nat.mod_le l.length U32
      rw [List.getElem?_eq_getElem (show si < l.length by omega)]
      exact offsetLoop_total o n _ _

theorem cttsLoop_total : ∀ (t : List (Nat × Int)) (si : Nat) (l : List Sample), ∃ l', cttsLoop t si l = some l'
  | [], _, l => ⟨l, rfl⟩
  | (n, o) :: rest, si, l => by
    rw [cttsLoop]
    obtain ⟨⟨si', l'⟩, e⟩ := offsetLoop_total o n si l
    rw [e]
    exact cttsLoop_total rest si' l'

theorem fillSamples_total (f : Found) (l : List Sample) : ∃ l', fillSamples f l = some l' := by
  unfold fillSamples
  cases f.ctts with
  | none => exact ⟨_, rfl⟩
  | some s =>
    obtain ⟨l', e⟩ := cttsLoop_total (cttsEntries s) 0 l
    simp only [e]
    exact ⟨_, rfl⟩

/-! ## The configuration of AAC -/

theorem bind_safe {σ α β : Type} {m : M σ α} {f : α → M σ β} (hm : ∀ s, (m s).1 ≠ .panic) (hf : ∀ a s, (f a s).1 ≠ .panic) (s : σ) :
    ((m >>= f) s).1 ≠ .panic := by
  have h := hm s
  cases e : m s with
  | mk o s1 =>
    rw [e] at h
    cases o with
    | ok a => rw [M.bind_ok e]; exact hf a s1
    | err x => rw [M.bind_err e]; simp
    | panic => exact absurd rfl h
    | hang => rw [M.bind_hang e]; simp

theorem readBits_safe (b : Bytes) (n : Nat) (s : RSt) : (readBits b n s).1 ≠ .panic := by
  have hl : ∀ (k idx : Nat) (data : Bytes) (s : RSt), (readBitsLoop b k idx data s).1 ≠ .panic := by
    intro k
    induction k with
    | zero => intro idx data s; simp [readBitsLoop, M.pure_run]
    | succ k ih =>
      intro idx data s
      unfold readBitsLoop
      refine bind_safe (fun s => ?_) (fun _ _ => ih _ _ _) s
      unfold readBit
      split
      · split <;> simp
      · simp
  exact hl _ _ _ s

theorem pure_safe {σ α : Type} (a : α) (s : σ) : ((pure a : M σ α) s).1 ≠ .panic := by simp [M.pure_run]

theorem aot_safe (b : Bytes) (s : RSt) : (audioObjectType b s).1 ≠ .panic := by
  unfold audioObjectType
  refine bind_safe (readBits_safe b _) (fun a s => ?_) s
  split
  · exact pure_safe _ _
  · exact bind_safe (readBits_safe b _) (fun _ s => pure_safe _ s) s

theorem ps_safe (b : Bytes) (r : Int) (s : RSt) : (detectPS b r s).1 ≠ .panic := by
  unfold detectPS
  split
  · refine bind_safe (readBits_safe b _) (fun a s => ?_) s
    split
    · refine bind_safe (readBits_safe b _) (fun a s => ?_) s
      split <;> exact pure_safe _ _
    · exact pure_safe _ _
  · exact pure_safe _ _

theorem sbr_safe (b : Bytes) (x y : Nat) (r : Int) (s : RSt) : (detectSBR b x y r s).1 ≠ .panic := by
  unfold detectSBR
  split
  · refine bind_safe (readBits_safe b _) (fun a s => ?_) s
    split
    · split
      · refine bind_safe (readBits_safe b _) (fun a s => ?_) s
        split
        · exact bind_safe (readBits_safe b _) (fun a s => ps_safe b _ s) s
        · exact ps_safe b _ s
      · exact pure_safe _ _
    · exact pure_safe _ _
  · exact pure_safe _ _

theorem ext_safe (b : Bytes) (x : Nat) (r : Int) (s : RSt) : (detectExt b x r s).1 ≠ .panic := by
  unfold detectExt
  split
  · refine bind_safe (readBits_safe b _) (fun a s => ?_) s
    refine bind_safe (readBits_safe b _) (fun a s => ?_) s
    split
    · exact bind_safe (aot_safe b) (fun a s => sbr_safe b _ _ _ s) s
    · exact pure_safe _ _
  · exact pure_safe _ _

theorem config_safe (b : Bytes) (s : RSt) : (detectConfig b s).1 ≠ .panic := by
  unfold detectConfig
  refine bind_safe (aot_safe b) (fun a s => ?_) s
  refine bind_safe (readBits_safe b _) (fun c s => ?_) s
  split
  · exact bind_safe (readBits_safe b _) (fun a s => ext_safe b _ _ s) s
  · exact ext_safe b _ _ s

theorem aac_safe (esds : SV) : detectAACProfile esds ≠ .panic := by
  unfold detectAACProfile
  split
  · simp
  · split
    · split
      · simp
      · split
        · simp
        · exact config_safe _ _
    · simp

theorem mp4aInfo_safe (f : Found) : mp4aInfo f ≠ .panic := by
  unfold mp4aInfo
  split
  · next s _ _ =>
    have := aac_safe s
    split <;> simp_all
  · simp

/-! ## Tracks and segments -/

theorem trackOf_safe (f : Found) : trackOf f ≠ .panic := by
  unfold trackOf
  have h1 := mp4aInfo_safe f
  cases f.tkhd with
  | none => simp
  | some tkhd =>
  cases f.mdhd with
  | none => simp
  | some mdhd =>
  simp only
  cases hm : mp4aInfo f with
  | panic => exact absurd hm h1
  | err e => simp
  | hang => simp
  | ok mp4a =>
  simp only
  cases chunkTable f with
  | none => simp
  | some chunks =>
  cases f.stts with
  | none => simp
  | some stts =>
  cases f.stsc with
  | none => simp
  | some stsc =>
  obtain ⟨c, hc⟩ := stscLoop_total (stscEntries stsc) chunks
  obtain ⟨l, hl⟩ := fillSamples_total f (samplesOf (sttsEntries stts))
  simp only [hc, hl]
  simp

theorem segmentOf_safe (o : Nat) (f : FoundFrag) : segmentOf o f ≠ .panic := by
  unfold segmentOf
  cases f.tfhd with
  | none => simp
  | some tfhd =>
    cases f.trun with
    | none => simp
    | some trun => simp

theorem probeTrak_safe (hd : d.length ≤ 2 ^ 48) (fuel : Nat) (bi : BoxInfo) (hbi : Real d bi) (pos : Nat) :
    (probeTrak BoxMap.std d fuel bi pos).1 ≠ .panic := by
  unfold probeTrak
  obtain ⟨h1, h2⟩ := extract_payload_sound hd fuel bi hbi trakPaths pos
  cases hr : extractBoxesWithPayload BoxMap.std d fuel (some bi) trakPaths pos with
  | mk o p =>
    rw [hr] at h1
    cases o with
    | panic => exact absurd rfl h1
    | err e => rw [M.bind_err hr]; simp
    | hang => rw [M.bind_hang hr]; simp
    | ok l =>
      obtain ⟨ctx, h3⟩ := h2 l p hr
      obtain ⟨g, hg⟩ := collect_total (ctx := ctx) l {} (fun x hx => (h3 x hx).2.1)
      rw [M.bind_ok hr, hg]
      exact trackOf_safe g

theorem probeMoof_safe (hd : d.length ≤ 2 ^ 48) (fuel : Nat) (bi : BoxInfo) (hbi : Real d bi) (pos : Nat) :
    (probeMoof BoxMap.std d fuel bi pos).1 ≠ .panic := by
  unfold probeMoof
  obtain ⟨h1, h2⟩ := extract_payload_sound hd fuel bi hbi moofPaths pos
  cases hr : extractBoxesWithPayload BoxMap.std d fuel (some bi) moofPaths pos with
  | mk o p =>
    rw [hr] at h1
    cases o with
    | panic => exact absurd rfl h1
    | err e => rw [M.bind_err hr]; simp
    | hang => rw [M.bind_hang hr]; simp
    | ok l =>
      obtain ⟨ctx, h3⟩ := h2 l p hr
      obtain ⟨g, hg⟩ := collectFrag_total (ctx := ctx) l {} (fun x hx => (h3 x hx).2.1)
      rw [M.bind_ok hr, hg]
      exact segmentOf_safe _ g

/-! ## The whole -/

theorem unmarshalAt_safe (hd : d.length ≤ 2 ^ 48) {bd : BoxDef} (hbd : bd ∈ Cat.allDefs) (bi : BoxInfo) (hbi : Real d bi) (pos : Nat) :
    (unmarshalAt d bd bi pos).1 ≠ .panic := by
  have hb := (header_of_real hd hbi).inside
  unfold unmarshalAt
  rw [M.bind_ok (seekToPayload_ok (show d.length ≤ maxAlloc from hd) hb pos)]
  have h := unmarshal_never_panics bd hbd d hd _ hb bi.ctx (sub64 bi.size bi.headerSize) bd.fields.zero (zero_typedFields _)
  cases hr : unmarshalBox bd d bi.ctx (sub64 bi.size bi.headerSize) bd.fields.zero (bi.offset + bi.headerSize) with
  | mk o p =>
    rw [hr] at h
    cases o with
    | panic => exact absurd rfl h
    | err e => rw [M.bind_err hr]; simp
    | hang => rw [M.bind_hang hr]; simp
    | ok x => rw [M.bind_ok hr]; exact pure_safe _ _

theorem probeOne_safe (hd : d.length ≤ 2 ^ 48) (fuel : Nat) (bi : BoxInfo) (hbi : Real d bi) (seen : Bool) (info : ProbeInfo) (pos : Nat) :
    (probeOne BoxMap.std d fuel bi seen info pos).1 ≠ .panic := by
  unfold probeOne
  split
  · exact bind_safe (unmarshalAt_safe hd (by simp [Cat.allDefs]) bi hbi) (fun _ s => pure_safe _ s) pos
  split
  · exact pure_safe _ _
  split
  · exact bind_safe (unmarshalAt_safe hd (by simp [Cat.allDefs]) bi hbi) (fun _ s => pure_safe _ s) pos
  split
  · exact bind_safe (probeTrak_safe hd fuel bi hbi) (fun _ s => pure_safe _ s) pos
  split
  · exact bind_safe (probeMoof_safe hd fuel bi hbi) (fun _ s => pure_safe _ s) pos
  split <;> exact pure_safe _ _

theorem probeLoop_safe (hd : d.length ≤ 2 ^ 48) (fuel : Nat) : ∀ (bis : List BoxInfo), (∀ b ∈ bis, Real d b) →
    ∀ (seen : Bool) (info : ProbeInfo) (pos : Nat), (probeLoop BoxMap.std d fuel bis seen info pos).1 ≠ .panic
  | [], _, seen, info, pos => pure_safe _ _
  | bi :: bis, h, seen, info, pos => by
    rw [probeLoop]
    exact bind_safe (probeOne_safe hd fuel bi (h bi List.mem_cons_self) seen info)
      (fun a s => probeLoop_safe hd fuel bis (fun b hb => h b (List.mem_cons_of_mem _ hb)) a.1 a.2 s) pos

/-- **C57** — `Probe` does not panic, whatever the file. -/
theorem probe_never_panics (hd : d.length ≤ 2 ^ 48) (fuel pos : Nat) : (probe BoxMap.std d fuel pos).1 ≠ .panic := by
  obtain ⟨h1, h2⟩ := extract_sound hd fuel probePaths pos
  unfold probe
  cases hr : extractBoxes BoxMap.std d fuel none probePaths pos with
  | mk o p =>
    rw [hr] at h1
    cases o with
    | panic => exact absurd rfl h1
    | err e => rw [M.bind_err hr]; simp
    | hang => rw [M.bind_hang hr]; simp
    | ok v =>
      obtain ⟨bis, par⟩ := v
      rw [M.bind_ok hr]
      refine probeLoop_safe hd fuel bis (fun b hb => ?_) _ _ _
      obtain ⟨path, hl, _⟩ := (h2 _ _ _ hr).2 b hb
      exact leads_real hl

theorem nalLoop_safe (lengthSize size o : Nat) : ∀ (fuel n pos : Nat), (nalLoop d lengthSize size o fuel n pos).1 ≠ .panic
  | 0, n, pos => by simp [nalLoop, M.hang]
  | fuel + 1, n, pos => by
    rw [nalLoop]
    split
    · refine bind_safe (fun s => ?_) (fun _ s => bind_safe (fun s => ?_) (fun _ s => ?_) s) pos
      · unfold seekStartP; split <;> simp
      · unfold readFullP; simp only; split <;> simp
      · split
        · exact pure_safe _ _
        · exact nalLoop_safe lengthSize size o fuel _ _
    · exact pure_safe _ _

theorem chunkLoop_safe (fuel lengthSize stop : Nat) : ∀ (l : List Sample) (si o : Nat) (idxs : List Nat) (pos : Nat),
    (chunkLoop d fuel lengthSize stop l si o idxs pos).1 ≠ .panic
  | [], si, o, idxs, pos => pure_safe _ _
  | s :: l, si, o, idxs, pos => by
    rw [chunkLoop]
    split
    · split
      · exact chunkLoop_safe fuel lengthSize stop l _ _ _ _
      · exact bind_safe (nalLoop_safe lengthSize s.size o fuel 0) (fun _ p => chunkLoop_safe fuel lengthSize stop l _ _ _ p) pos
    · exact pure_safe _ _

theorem chunksLoop_safe (fuel lengthSize : Nat) (samples : List Sample) : ∀ (l : List Chunk) (si : Nat) (idxs : List Nat) (pos : Nat),
    (chunksLoop d fuel lengthSize samples l si idxs pos).1 ≠ .panic
  | [], si, idxs, pos => pure_safe _ _
  | c :: l, si, idxs, pos => by
    rw [chunksLoop]
    exact bind_safe (chunkLoop_safe fuel lengthSize _ _ _ _ _) (fun a p => chunksLoop_safe fuel lengthSize samples l a.1 a.2 p) pos

/-- **C57**, the search for IDR frames — `FindIDRFrames` does not panic, whatever the file and whatever the track, even one of another file. -/
theorem findIDR_never_panics (fuel : Nat) (t : Track) (pos : Nat) : (findIDRFrames d fuel t pos).1 ≠ .panic := by
  unfold findIDRFrames
  cases t.avc with
  | none => exact pure_safe _ _
  | some avc => exact bind_safe (chunksLoop_safe fuel _ _ _ _ _) (fun _ s => pure_safe _ s) pos

/-! ## Concrete files -/

/-- Malformed files: `moov` of announced size 4, which leads to an error; and a well-formed one. -/
example : (match (probe BoxMap.std outsideFile 50 0).1 with | .err e => decide (e = .eof) | _ => false) = true := by decide +kernel
example : (probe BoxMap.std outsideFile 50 0).1 ≠ .panic := probe_never_panics (by decide +kernel) 50 0
example : (probe BoxMap.std audioFile 40 0).1 ≠ .panic := probe_never_panics (by decide +kernel) 40 0

/-- That the definitions are those of the library matters: a program that has registered another Go type for `tkhd` makes the type assertion
panic. -/
theorem probe_panics_if_replaced :
    (match (probeTrak (BoxMap.std.add tTkhd Cat.bdMdat) audioFile 40 (trakBox audioFile) 0).1 with | .panic => true | _ => false) = true := by
  decide +kernel

end Mp4.Props
