import Verif.Lemmas.Small
import Verif.Lemmas.SafeUnmarshal
import Verif.Lemmas.Encode

/-!
# What was decoded is what the bits say: every box type of the library
-/

namespace Mp4

open Spec

/-- The strings of the boxes of WebVTT take the rest of the payload, those of the others end with a NUL. -/
def endsInNul (bd : BoxDef) : Bool :=
  !["WebVTTConfigurationBox", "WebVTTSourceLabelBox", "CueTimeBox", "CueIDBox", "CueSettingsBox", "CuePayloadBox",
    "VTTAdditionalTextBox"].contains bd.goName

/-- Box types that have several encodings of the same value of the same length: `esds` (numbers of variable length) and
`hdlr` (the two forms of the name). -/
def ambiguous (bd : BoxDef) : Bool := ["Esds", "Hdlr"].contains bd.goName

theorem allDefs_exact : ∀ bd ∈ Cat.allDefs, Fields.basic (some bd.cfo) bd.fields bd.fields = true ∧
    bd.fields.nodup = true ∧
    (ambiguous bd = false → bd.fields.exact (endsInNul bd) (dynSizes bd) (some bd.cfo) = true ∧ bd.hook ≠ .hdlr) := by
  have h : Cat.allDefs.all (fun bd => Fields.basic (some bd.cfo) bd.fields bd.fields && bd.fields.nodup &&
      (ambiguous bd || (bd.fields.exact (endsInNul bd) (dynSizes bd) (some bd.cfo) && bd.hook != .hdlr))) = true := by
    decide +kernel
  intro bd hbd
  have := List.all_eq_true.mp h bd hbd
  simp only [Bool.and_eq_true, Bool.or_eq_true] at this
  refine ⟨this.1.1, this.1.2, fun ha => ?_⟩
  rw [ha] at this
  have h2 := this.2.resolve_left (by simp)
  exact ⟨h2.1, by simpa using h2.2⟩

theorem dynSizes_exact {bd : BoxDef} (hbd : bd ∈ Cat.allDefs) {ctx : Ctx} {sv : SV}
    (hs : ∀ g w, (g, Ty.uint w) ∈ bd.fields.toList → g.uncond = true → g.sizeDyn = false → g.varint = false →
      g.name ∉ hookNames bd.hook → sv.uint g.name < 2 ^ g.size) :
    ExOk (dynSizes bd) ⟨ctx, bd.cfo, bd.hook, sv⟩ := by
  intro n hn z hz
  unfold dynSizes at hn
  split at hn
  · next hg =>
    have hb := bd_tfra bd hbd hg
    subst hb
    have k1 := hs { name := "LengthSizeOfTrafNum", size := 2 } 8
      (by simp [Cat.bdTfra, Cat.fsTfra, Fields.ofList, Fields.toList]) (by decide) rfl rfl (by decide)
    have k2 := hs { name := "LengthSizeOfTrunNum", size := 2 } 8
      (by simp [Cat.bdTfra, Cat.fsTfra, Fields.ofList, Fields.toList]) (by decide) rfl rfl (by decide)
    have k3 := hs { name := "LengthSizeOfSampleNum", size := 2 } 8
      (by simp [Cat.bdTfra, Cat.fsTfra, Fields.ofList, Fields.toList]) (by decide) rfl rfl (by decide)
    change cfoTfra.size n ctx sv = some z at hz
    simp only [List.mem_cons, List.not_mem_nil, or_false] at hn
    simp only at k1 k2 k3
    rcases hn with rfl | rfl | rfl <;> simp [cfoTfra] at hz <;> omega
  · simp at hn

/-- A successful run of the body of `Unmarshal`. -/
theorem unmarshalBody_sound {bd : BoxDef} (hbd : bd ∈ Cat.allDefs) {d : Bytes} (hd : d.length ≤ maxAlloc)
    {ctx : Ctx} {ps : Nat} {cur : SV} (hty : typedFields bd.fields cur = true) {pos : Nat} (hpos : pos ≤ d.length)
    {n : Nat} {sv : SV} {pos' : Nat} (h : unmarshalBody bd d ctx ps cur pos = (.ok (n, sv), pos')) :
    ((d.drop pos).take n).length = n ∧ typedFields bd.fields sv = true ∧
    countsFields (env bd ctx sv) (some bd.cfo) bd.fields sv = true ∧
    (∀ g w, (g, Ty.uint w) ∈ bd.fields.toList → g.uncond = true → g.sizeDyn = false → g.varint = false →
      g.name ∉ hookNames bd.hook → sv.uint g.name < 2 ^ g.size) ∧
    (∀ dir, bd.fields.exact dir (dynSizes bd) (some bd.cfo) = true → bd.hook ≠ .hdlr →
      SQ dir (bytesBits ((d.drop pos).take n)) (layout bd ctx sv) ∧ writable bd ctx sv = true) := by
  obtain ⟨_, hht, hfn, _⟩ := allDefs_static bd hbd
  obtain ⟨hba, hno, hex⟩ := allDefs_exact bd hbd
  obtain ⟨hsl, hsm⟩ := allDefs_small bd hbd
  obtain ⟨hlc, hal⟩ := allDefs_local bd hbd
  have hok := allDefs_ok bd hbd
  unfold BoxDef.ok at hok
  have hnd := Fields.nodup_names _ (allDefs_nodup bd hbd)
  have hw : (RSt.fresh pos).WF d := ⟨by simp [RSt.fresh], hpos⟩
  have hbits : ((RSt.fresh pos).rem d) = bytesBits (d.drop pos) := rem_fresh d pos
  have hsound := fun (q dir : Bool) (hq : q = true → bd.fields.exact dir (dynSizes bd) (some bd.cfo) = true ∧
      bd.hook ≠ .hdlr) =>
    sound_top (d := d) hd q dir (dynSizes bd) (bd.uenv d ctx ps) bd.fields rfl
    (by show (ps * 8 % U64) % 8 = 0; simp only [U64]; omega) hnd hht hlc hsl
    (fun h => (hq h).2) bd.fields _ cur (fun _ _ h => h)
    (by
      intro m hm
      split at hm
      · simp at hm
      · next hc =>
        simp only [List.mem_cons, List.not_mem_nil, or_false] at hm
        subst hm
        exact ⟨by simpa using hc, fun h => by simp at h⟩)
    hok hal hsm hba (fun h => (hq h).1) hno hty ⟨RSt.fresh pos, 0⟩ hw
    (by simp only; rw [hbits, bytesBits_length]; omega)
  unfold unmarshalBody at h
  cases hr : unmarshalFields (bd.uenv d ctx ps) true (some bd.cfo) bd.fields cur ⟨RSt.fresh pos, 0⟩ with
  | mk o st =>
    rw [hr] at h
    cases o with
    | err e => cases e <;> simp at h
    | panic => simp at h
    | hang => simp at h
    | ok sv0 =>
      simp only at h
      split at h
      · simp at h
      · next h8 =>
        split at h
        · simp at h
        · simp only [Prod.mk.injEq, Out.ok.injEq] at h
          obtain ⟨⟨hn, rfl⟩, hp⟩ := h
          have key : ∀ bs, bytesBits (d.drop pos) = bs ++ st.r.rem d → st.rbits = bs.length →
              ((d.drop pos).take n).length = n ∧ bytesBits ((d.drop pos).take n) = bs := by
            intro bs e1 c1
            have hl : bs.length = 8 * n := by omega
            have hle : 8 * n ≤ 8 * (d.drop pos).length := by
              have := congrArg List.length e1
              rw [bytesBits_length, List.length_append] at this
              omega
            refine ⟨by rw [List.length_take]; omega, ?_⟩
            have h1 : (bytesBits (d.drop pos)).take (8 * n) = bs := by
              rw [e1, ← hl]; simp
            rw [← h1]
            have hsplit := bytesBits_append ((d.drop pos).take n) ((d.drop pos).drop n)
            rw [List.take_append_drop] at hsplit
            have hl2 : (bytesBits ((d.drop pos).take n)).length = 8 * n := by
              rw [bytesBits_length, List.length_take]; omega
            rw [hsplit, ← hl2]
            simp
          obtain ⟨bs, e1, w1, c1, t1, t2, t3, t4, t5⟩ := hsound false true (by simp) sv0 st hr
          simp only [Nat.zero_add] at c1
          simp only [hbits] at e1
          obtain ⟨k1, k2⟩ := key bs e1 c1
          refine ⟨k1, t1, t4, t3, fun dir he hh => ?_⟩
          obtain ⟨bs, e1, w1, c1, t1, t2, t3, t4, t5⟩ := hsound true dir (fun _ => ⟨he, hh⟩) sv0 st hr
          simp only [Nat.zero_add] at c1
          simp only [hbits] at e1
          have := t5 rfl (dynSizes_exact hbd t3)
          rw [(key bs e1 c1).2]
          exact this

theorem bd_meta : ∀ bd ∈ Cat.allDefs, bd.metaHook = true → bd = Cat.bdMeta := by
  unfold Cat.allDefs
  simp only [List.forall_mem_cons]
  repeat' apply And.intro
  all_goals first
    | (intro _; rfl)
    | (intro _; trivial)
    | (intro h; exact absurd h (by decide))
    | (intro x hx; exact absurd hx (by simp))

theorem allDefs_emsg : ∀ bd ∈ Cat.allDefs, bd.hook = .emsg → bd.fields.bytewise = true := by
  have h : Cat.allDefs.all (fun bd => bd.hook != .emsg || bd.fields.bytewise) = true := by decide +kernel
  intro bd hbd he
  have := List.all_eq_true.mp h bd hbd
  simpa [he] using this

/-- The contents of a `meta` box with version and flags 0. -/
theorem meta_layout {sv : SV} {ctx : Ctx} (h : sv.get "FullBox" = some (.struct [("Version", .uint 0),
      ("Flags", .arr [.uint 0, .uint 0, .uint 0])])) : (layout Cat.bdMeta ctx sv).length = 32 := by
  unfold layout
  simp [Cat.bdMeta, Cat.fsMeta, Fields.ofList, fullBoxTy, layoutFields, layoutV, h, present, instField, before, silent,
    SV.get, natBits_length, anyVersion]

/-- A successful run of `Unmarshal`: either the override of `meta`, or everything that was read is in the result. -/
theorem unmarshalBox_sound {bd : BoxDef} (hbd : bd ∈ Cat.allDefs) {d : Bytes} (hd : d.length ≤ maxAlloc)
    {ctx : Ctx} {ps : Nat} {dst : SV} (hty : typedFields bd.fields dst = true) {pos : Nat} (hpos : pos ≤ d.length)
    {n : Nat} {sv : SV} {pos' : Nat} (h : unmarshalBox bd d ctx ps dst pos = (.ok (n, sv), pos')) :
    (bd = Cat.bdMeta ∧ n = 0 ∧ ((layout bd ctx sv).length = 32 ∧ writable bd ctx sv = true) ∧
      countsFields (env bd ctx sv) (some bd.cfo) bd.fields sv = true) ∨
    (((d.drop pos).take n).length = n ∧ typedFields bd.fields sv = true ∧
    countsFields (env bd ctx sv) (some bd.cfo) bd.fields sv = true ∧
    (∀ g w, (g, Ty.uint w) ∈ bd.fields.toList → g.uncond = true → g.sizeDyn = false → g.varint = false →
      g.name ∉ hookNames bd.hook → sv.uint g.name < 2 ^ g.size) ∧
    (∀ dir, bd.fields.exact dir (dynSizes bd) (some bd.cfo) = true → bd.hook ≠ .hdlr →
      SQ dir (bytesBits ((d.drop pos).take n)) (layout bd ctx sv) ∧ writable bd ctx sv = true)) := by
  have hty1 := typed_setVersion hbd hty (v := anyVersion) (by decide)
  unfold unmarshalBox at h
  simp only at h
  by_cases hm : bd.metaHook = true
  · rw [if_pos hm] at h
    obtain ⟨⟨ov, sv1⟩, p1, e1, e2⟩ := bind_ok_inv h
    unfold metaBefore at e1
    simp only at e1
    split at e1
    · simp at e1
    · split at e1
      · simp at e1
      · split at e1
        · simp only [Prod.mk.injEq, Out.ok.injEq] at e1
          obtain ⟨⟨rfl, rfl⟩, rfl⟩ := e1
          left
          have hb := bd_meta bd hbd hm
          subst hb
          simp only [if_true] at e2
          have e3 : (Out.ok (0, (SV.setVersion dst anyVersion).set "FullBox" (.struct [("Version", .uint 0),
            ("Flags", .arr [.uint 0, .uint 0, .uint 0])])), pos) = (Out.ok (n, sv), pos') := e2
          simp only [Prod.mk.injEq, Out.ok.injEq] at e3
          obtain ⟨⟨rfl, rfl⟩, _⟩ := e3
          have hg : (SV.setVersion dst anyVersion).get "FullBox" ≠ none := by
            obtain ⟨v, hv, _⟩ := typed_get (Fields.nodup_names _ (allDefs_nodup _ hbd)) hty1
              (f := { name := "FullBox", extend := true }) (t := fullBoxTy)
              (by simp [Cat.bdMeta, Cat.fsMeta, Fields.ofList, Fields.toList])
            simp only at hv
            rw [hv]; simp
          refine ⟨rfl, rfl, ⟨meta_layout (SV.get_set_eq hg), ?_⟩, ?_⟩
          · simp [writable, env, Cat.bdMeta, Cat.fsMeta, Fields.ofList, fullBoxTy, writableFields, writableV, SV.get, silent,
              instField, SV.get_set_eq hg]
          simp [Cat.bdMeta, Cat.fsMeta, Fields.ofList, fullBoxTy, countsFields, countsV, SV.get_set_eq hg, SV.get]
        · simp only [Prod.mk.injEq, Out.ok.injEq] at e1
          obtain ⟨⟨rfl, rfl⟩, rfl⟩ := e1
          simp only [Bool.false_eq_true, if_false] at e2
          exact Or.inr (unmarshalBody_sound hbd hd hty1 hpos e2)
  · rw [if_neg hm] at h
    exact Or.inr (unmarshalBody_sound hbd hd hty1 hpos h)

theorem unmarshalBox_result_writable {bd : BoxDef} (hbd : bd ∈ Cat.allDefs) (ha : ambiguous bd = false) {d : Bytes}
    (hd : d.length ≤ maxAlloc) {ctx : Ctx} {ps : Nat} {dst : SV} (hty : typedFields bd.fields dst = true)
    {pos : Nat} (hpos : pos ≤ d.length) {n : Nat} {sv : SV} {pos' : Nat}
    (h : unmarshalBox bd d ctx ps dst pos = (.ok (n, sv), pos')) : writable bd ctx sv = true := by
  obtain ⟨_, _, hex⟩ := allDefs_exact bd hbd
  rcases unmarshalBox_sound hbd hd hty hpos h with ⟨_, _, h2, _⟩ | ⟨_, _, _, _, h2⟩
  · exact h2.2
  · exact (h2 (endsInNul bd) (hex ha).1 (hex ha).2).2

/-- If the encoding of the result is as long as what was read, it is what was read. -/
theorem unmarshalBox_exact {bd : BoxDef} (hbd : bd ∈ Cat.allDefs) (ha : ambiguous bd = false) {d : Bytes}
    (hd : d.length ≤ maxAlloc) {ctx : Ctx} {ps : Nat} {dst : SV} (hty : typedFields bd.fields dst = true)
    {pos : Nat} (hpos : pos ≤ d.length) {n : Nat} {sv : SV} {pos' : Nat}
    (h : unmarshalBox bd d ctx ps dst pos = (.ok (n, sv), pos')) (hl : (layout bd ctx sv).length = 8 * n) :
    writable bd ctx sv = true ∧ bitsBytes (layout bd ctx sv) = (d.drop pos).take n := by
  rcases unmarshalBox_sound hbd hd hty hpos h with ⟨_, hn, h2, _⟩ | ⟨h1, _, _, _, h2⟩
  · omega
  · obtain ⟨_, _, hex⟩ := allDefs_exact bd hbd
    obtain ⟨h3, h4⟩ := h2 (endsInNul bd) (hex ha).1 (hex ha).2
    refine ⟨h4, ?_⟩
    have h5 := h3.2 (by rw [bytesBits_length, h1, hl])
    apply bytesBits_inj
    rw [bytesBits_bitsBytes _ (by omega), h5]

/-! ## boxes without strings -/

theorem allDefs_noStr : ∀ bd ∈ Cat.allDefs, bd.fields.hasStr = false → bd.goName ≠ "Esds" →
    bd.fields.exact true (dynSizes bd) (some bd.cfo) = true ∧
    bd.fields.exact false (dynSizes bd) (some bd.cfo) = true ∧ bd.hook ≠ .hdlr := by
  have h : Cat.allDefs.all (fun bd => bd.fields.hasStr || bd.goName == "Esds" ||
      (bd.fields.exact true (dynSizes bd) (some bd.cfo) && bd.fields.exact false (dynSizes bd) (some bd.cfo) &&
        bd.hook != .hdlr)) = true := by decide +kernel
  intro bd hbd h1 h2
  have := List.all_eq_true.mp h bd hbd
  rw [h1] at this
  simpa [h2, and_assoc] using this

/-- If the box has no strings, the encoding of the result is what was read. -/
theorem unmarshalBox_exact_noStr {bd : BoxDef} (hbd : bd ∈ Cat.allDefs) (hs : bd.fields.hasStr = false)
    (he : bd.goName ≠ "Esds") {d : Bytes}
    (hd : d.length ≤ maxAlloc) {ctx : Ctx} {ps : Nat} {dst : SV} (hty : typedFields bd.fields dst = true)
    {pos : Nat} (hpos : pos ≤ d.length) {n : Nat} {sv : SV} {pos' : Nat}
    (h : unmarshalBox bd d ctx ps dst pos = (.ok (n, sv), pos')) :
    (bd = Cat.bdMeta ∧ n = 0) ∨
    (writable bd ctx sv = true ∧ (layout bd ctx sv).length = 8 * n ∧
      bitsBytes (layout bd ctx sv) = (d.drop pos).take n) := by
  rcases unmarshalBox_sound hbd hd hty hpos h with ⟨hb, hn, h2, _⟩ | ⟨h1, _, _, _, h2⟩
  · exact Or.inl ⟨hb, hn⟩
  · right
    obtain ⟨e1, e2, e3⟩ := allDefs_noStr bd hbd hs he
    obtain ⟨s1, w1⟩ := h2 true e1 e3
    obtain ⟨s2, _⟩ := h2 false e2 e3
    have l1 := s1.1
    have l2 := s2.1
    simp only [if_true] at l1
    simp only [Bool.false_eq_true, if_false] at l2
    rw [bytesBits_length, h1] at l1 l2
    have h5 := s1.2 (by rw [bytesBits_length, h1]; omega)
    refine ⟨w1, by omega, ?_⟩
    apply bytesBits_inj
    rw [bytesBits_bitsBytes _ (by omega), h5]

end Mp4
