import Verif.Lemmas.Catalog

/-!
# Whole boxes: `Marshal` writes the layout, `Unmarshal` reads it
-/

namespace Mp4

open Spec

theorem fits_fitsIn {bd : BoxDef} {ctx : Ctx} {sv : SV} (h : fits bd ctx sv = true) :
    fitsIn bd ctx sv (bitsBytes (layout bd ctx sv)).length = true := by
  unfold fits at h
  simp only [Bool.and_eq_true, beq_iff_eq] at h
  obtain ⟨⟨⟨⟨⟨hkeys, h8⟩, hmax⟩, hf⟩, hver⟩, hmeta⟩ := h
  simp only [decide_eq_true_eq] at hmax
  have hpl : 8 * (bitsBytes (layout bd ctx sv)).length = (layout bd ctx sv).length := by
    rw [bitsBytes_length _ h8]
  unfold fitsIn
  simp only [Bool.and_eq_true, beq_iff_eq, decide_eq_true_eq]
  refine ⟨⟨⟨⟨⟨⟨hkeys, h8⟩, by omega⟩, by omega⟩, ?_⟩, hver⟩, hmeta⟩
  rw [hpl]
  exact hf

theorem marshalBox_layoutIn {bd : BoxDef} {ctx : Ctx} {sv : SV} {size : Nat} (h : fitsIn bd ctx sv size = true) (out : Bytes) :
    marshalBox bd memSink ctx sv out =
      (.ok (bitsBytes (layout bd ctx sv)).length, out ++ bitsBytes (layout bd ctx sv)) := by
  unfold fitsIn at h
  simp only [Bool.and_eq_true, beq_iff_eq] at h
  obtain ⟨⟨⟨⟨⟨⟨_, h8⟩, _⟩, _⟩, hf⟩, _⟩, _⟩ := h
  have hi : MInv ⟨WSt.fresh out, 0⟩ := ⟨WSt.fresh_wf out, rfl⟩
  obtain ⟨s', e1, b1, w1, i1⟩ := emits_layoutFields (env bd ctx sv) true (some bd.cfo) bd.fields sv _ hf
    ⟨WSt.fresh out, 0⟩ hi (by simpa [layout] using h8)
  change s'.w.bits = _ ++ layout bd ctx sv at b1
  change s'.wbits = 0 + (layout bd ctx sv).length at w1
  rw [Nat.zero_add] at w1
  have h0 : s'.w.width = 0 := by rw [← i1.al, w1, h8]
  have hb : s'.w.bits = bytesBits s'.w.sink := by simp [WSt.bits, h0]
  have hsink : s'.w.sink = out ++ bitsBytes (layout bd ctx sv) := by
    apply bytesBits_inj
    rw [← hb, b1, bytesBits_append, bytesBits_bitsBytes _ h8, WSt.fresh_bits]
  unfold marshalBox
  change marshalFields (bd.menv memSink ctx sv) true (some bd.cfo) bd.fields sv _ = _ at e1
  rw [e1]
  simp only
  have := bitsBytes_length _ h8
  rw [if_neg (by omega), hsink, w1]
  congr 2
  omega

theorem Fresh.setFull {cur cur' : SV} : ∀ {fs : Fields}, Fresh false cur fs →
    (∀ n, n ≠ "FullBox" → cur'.get n = cur.get n) → (cur'.get "FullBox" = some full255) → Fresh true cur' fs
  | .nil, _, _, _ => by simp [Fresh]
  | .cons f t fs, h, h1, h2 => by
    simp only [Fresh] at h ⊢
    refine ⟨?_, h.2.setFull h1 h2⟩
    by_cases hn : f.name = "FullBox"
    · right; exact ⟨trivial, hn, by rw [hn]; exact h2⟩
    · left
      rcases h.1 with h' | ⟨h', _⟩
      · rw [h1 _ hn]; exact h'
      · simp at h'

theorem Fresh.toTop {cur : SV} : ∀ {fs : Fields}, Fresh false cur fs → Fresh true cur fs
  | .nil, _ => by simp [Fresh]
  | .cons f t fs, h => by
    simp only [Fresh] at h ⊢
    refine ⟨?_, h.2.toTop⟩
    rcases h.1 with h' | ⟨h', _⟩
    · exact Or.inl h'
    · simp at h'

theorem zero_fullBox {rc : Cfo} {rk : List String} {h : Hook} {c : Option Cfo} :
    ∀ {fs : Fields} {known : List String}, okFields rc rk true h c known fs = true →
      "FullBox" ∈ fs.names →
      fs.zero.get "FullBox" = some (.struct [("Version", .uint 0), ("Flags", .arr [.uint 0, .uint 0, .uint 0])])
  | .nil, _, _, hn => by simp [Fields.names] at hn
  | .cons f t fs, known, hok, hn => by
    simp only [okFields] at hok
    simp only [Bool.and_eq_true] at hok
    by_cases hf : f.name = "FullBox"
    · have hk := hok.1.1.1.1.1.2
      simp only [hf, beq_self_eq_true, Bool.and_self, Bool.not_true, Bool.false_or, Bool.and_eq_true] at hk
      have ht := hk.2
      unfold Ty.isFullBox at ht
      split at ht
      · next c f1 f2 =>
        simp only [Bool.and_eq_true, beq_iff_eq] at ht
        obtain ⟨rfl, rfl⟩ := ht
        simp [Fields.zero, SV.get, hf, Ty.zero, List.replicate]
      · simp at ht
    · simp only [Fields.names, List.mem_cons] at hn
      have hn' := hn.resolve_left (fun h => hf h.symm)
      simp only [Fields.zero, SV.get, hf, if_false]
      exact zero_fullBox hok.2 hn'

theorem unmarshalBox_layoutIn {bd : BoxDef} (hok : bd.ok = true) (hloc : bd.cfo.Local)
    (hal : bd.fields.AllLocal) {ctx : Ctx} {sv : SV} {size : Nat} (h : fitsIn bd ctx sv size = true) (pre rest : Bytes)
    (hlen : (pre ++ bitsBytes (layout bd ctx sv) ++ rest).length < U64) :
    unmarshalBox bd (pre ++ bitsBytes (layout bd ctx sv) ++ rest) ctx size bd.fields.zero pre.length =
      (.ok ((bitsBytes (layout bd ctx sv)).length, sv), pre.length + (bitsBytes (layout bd ctx sv)).length) := by
  unfold fitsIn at h
  simp only [Bool.and_eq_true, beq_iff_eq] at h
  obtain ⟨⟨⟨⟨⟨⟨hkeys, h8⟩, hle⟩, hmax⟩, hf⟩, hver⟩, hmeta⟩ := h
  simp only [decide_eq_true_eq] at hmax hle
  have hpl : 8 * (bitsBytes (layout bd ctx sv)).length = (layout bd ctx sv).length := by
    rw [bitsBytes_length _ h8]
  have hpb := bytesBits_bitsBytes _ h8
  generalize hp : bitsBytes (layout bd ctx sv) = p at *
  unfold BoxDef.ok at hok
  have hnd := okFields_nodup hok
  -- the struct at the beginning
  have hmid : Mid true bd.hook (if bd.fields.names.contains "FullBox" then [] else ["FullBox"]) bd.fields
      (bd.fields.zero.setVersion anyVersion) sv := by
    have hfr := fresh_zero bd.fields hnd
    have hcase : ("FullBox" ∈ bd.fields.names ∧
          bd.fields.zero.setVersion anyVersion = bd.fields.zero.set "FullBox" full255) ∨
        ("FullBox" ∉ bd.fields.names ∧ bd.fields.zero.setVersion anyVersion = bd.fields.zero) := by
      by_cases hn : "FullBox" ∈ bd.fields.names
      · left
        refine ⟨hn, ?_⟩
        have := zero_fullBox hok hn
        simp [SV.setVersion, SV.full, this, full255, SV.set, anyVersion]
      · right
        refine ⟨hn, ?_⟩
        have : bd.fields.zero.get "FullBox" = none := by
          rw [SV.get_none_iff, Fields.zero_keys]; exact hn
        simp [SV.setVersion, SV.full, this]
    refine ⟨?_, by rw [hkeys]; exact hnd, ?_, ?_, ?_⟩
    · rcases hcase with ⟨_, h⟩ | ⟨_, h⟩ <;> rw [h]
      · rw [SV.keys_set, Fields.zero_keys, hkeys]
      · rw [Fields.zero_keys, hkeys]
    · rcases hcase with ⟨hn, h⟩ | ⟨hn, h⟩
      · simp [hn]
      · simp only [List.contains_eq_mem, hn, decide_false, Bool.false_eq_true, if_false, List.mem_singleton,
          forall_eq]
        rw [h, SV.get_none_iff.mpr (by rw [Fields.zero_keys]; exact hn),
          SV.get_none_iff.mpr (by rw [hkeys]; exact hn)]
    · rcases hcase with ⟨hn, h⟩ | ⟨hn, h⟩ <;> rw [h]
      · refine hfr.setFull (fun n hn => SV.get_set_ne hn) (SV.get_set_eq ?_)
        rw [zero_fullBox hok hn]; simp
      · exact hfr.toTop
    · intro n hn _
      have hsn : sv.get n = none := SV.get_none_iff.mpr (by rw [hkeys]; exact hn)
      rw [hsn, SV.get_none_iff]
      rcases hcase with ⟨_, h⟩ | ⟨_, h⟩ <;> rw [h]
      · rw [SV.keys_set, Fields.zero_keys]; exact hn
      · rw [Fields.zero_keys]; exact hn
  have hdec := decode_fields (d := pre ++ p ++ rest) hlen (env bd ctx sv) bd.supports hloc bd.fields sv
    (bd.fields.zero.setVersion anyVersion) (8 * size) (8 * size) [] [] _ true bd.hook
    (some bd.cfo) hok hal (by simp; exact hloc) (by simp [env]) (by simp) hmid (by
      intro _ hn
      simp only [List.contains_eq_mem, hn, decide_true, Bool.not_true, Bool.false_or] at hver
      unfold BoxDef.supports
      rw [Bool.or_eq_true] at hver ⊢
      rcases hver with hv | hv
      · exact Or.inl hv
      · right
        rw [List.any_eq_true]
        exact ⟨sv.version, by simpa using hv, by simp⟩) (by omega) (by simp only [maxAlloc]; omega)
    (by omega) hf
  obtain ⟨s', e1, r1, w1, c1⟩ := hdec ⟨RSt.fresh pre.length, 0⟩ (bytesBits rest)
    (RSt.fresh_wf (by simp)) (by simp) (by simp [RSt.fresh])
    (by
      simp only
      rw [RSt.fresh_rem, List.append_assoc, List.drop_left, bytesBits_append, hpb]
      rfl) hle
  have hlay : layoutFields (env bd ctx sv) true (some bd.cfo) bd.fields sv = layout bd ctx sv := rfl
  rw [hlay] at c1
  simp only [Nat.zero_add] at c1
  have hmod : size * 8 % U64 = 8 * size := by
    simp only [U64]
    omega
  have hbody : unmarshalBody bd (pre ++ p ++ rest) ctx size (bd.fields.zero.setVersion anyVersion)
      pre.length = (.ok (p.length, sv), pre.length + p.length) := by
    unfold unmarshalBody
    have henv : bd.uenv (pre ++ p ++ rest) ctx size =
        uenvOf (env bd ctx sv) (pre ++ p ++ rest) bd.supports (8 * size) [] := by
      simp [BoxDef.uenv, uenvOf, env, hmod]
    rw [henv, e1]
    simp only
    rw [if_neg (by omega), hmod, if_neg (by omega)]
    have hp := w1.pos_eq
    rw [r1, bytesBits_length] at hp
    have hw := w1.width
    have hpp := w1.pos
    simp only [List.length_append] at hp hpp
    congr 3
    · omega
    · omega
  unfold unmarshalBox
  cases hm : bd.metaHook with
  | false => simpa using hbody
  | true =>
    simp only [hm, Bool.not_true, Bool.false_or, beq_iff_eq] at hmeta
    have hp4 : p = [0#8, 0#8, 0#8, 0#8] := by
      apply bytesBits_inj
      rw [hpb, hmeta]
      decide
    have hmb : metaBefore (pre ++ p ++ rest) (bd.fields.zero.setVersion anyVersion) pre.length =
        (.ok (false, bd.fields.zero.setVersion anyVersion), pre.length) := by
      unfold metaBefore
      have hg : ((pre ++ p ++ rest).drop pre.length).take 4 = [0#8, 0#8, 0#8, 0#8] := by
        rw [List.append_assoc, List.drop_left, hp4]; rfl
      simp only [hg]
      rfl
    simp only [if_true]
    rw [M.bind_ok hmb]
    simpa using hbody

theorem marshalBox_layout {bd : BoxDef} {ctx : Ctx} {sv : SV} (h : fits bd ctx sv = true) (out : Bytes) :
    marshalBox bd memSink ctx sv out =
      (.ok (bitsBytes (layout bd ctx sv)).length, out ++ bitsBytes (layout bd ctx sv)) :=
  marshalBox_layoutIn (fits_fitsIn h) out

theorem unmarshalBox_layout {bd : BoxDef} (hok : bd.ok = true) (hloc : bd.cfo.Local)
    (hal : bd.fields.AllLocal) {ctx : Ctx} {sv : SV} (h : fits bd ctx sv = true) (pre rest : Bytes)
    (hlen : (pre ++ bitsBytes (layout bd ctx sv) ++ rest).length < U64) :
    unmarshalBox bd (pre ++ bitsBytes (layout bd ctx sv) ++ rest) ctx (bitsBytes (layout bd ctx sv)).length
        bd.fields.zero pre.length =
      (.ok ((bitsBytes (layout bd ctx sv)).length, sv), pre.length + (bitsBytes (layout bd ctx sv)).length) :=
  unmarshalBox_layoutIn hok hloc hal (fits_fitsIn h) pre rest hlen

end Mp4
