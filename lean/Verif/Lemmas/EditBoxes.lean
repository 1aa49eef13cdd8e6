import Verif.Lemmas.Shrink
import Verif.Lemmas.EditTree
import Verif.Lemmas.WriteRead
import Verif.Spec.EditBoxes

/-!
# Lemmas about editing a row of boxes
-/

namespace Mp4.Boxes

open Mp4 Mp4.Spec Mp4.Edit

theorem ownCtx_plain {isRoot : Bool} {ctx : Ctx} {t : BoxType} (sv : SV) (h1 : t ≠ tFtyp) (h2 : t ≠ tKeys) : ownCtx isRoot ctx t sv = ctx := by
  unfold ownCtx
  rw [if_neg (fun h => h1 h.2.1), if_neg h2]

theorem restCtx_plain {isRoot : Bool} {ctx : Ctx} {start : BoxInfo} (sv : SV) (h1 : start.type ≠ tFtyp) (h2 : start.type ≠ tKeys) :
    restCtx isRoot ctx start sv = ctx := by
  unfold restCtx
  rw [ownCtx_plain sv h1 h2]
  exact nextCtx_same rfl h2

/-! ## `tfdt` -/

theorem fits_typed {bd : BoxDef} (hbd : bd ∈ Cat.allDefs) {ctx : Ctx} {sv : SV} {size : Nat} (h : fitsIn bd ctx sv size = true) :
    typedFields bd.fields sv = true := by
  obtain ⟨l1, l2⟩ := allDefs_local bd hbd
  have hl : (bitsBytes (layout bd ctx sv)).length ≤ 2 ^ 48 := by
    unfold fitsIn at h
    simp only [Bool.and_eq_true, beq_iff_eq, decide_eq_true_eq] at h
    have := bitsBytes_length _ h.1.1.1.1.1.2
    omega
  have hu := unmarshalBox_layoutIn (allDefs_ok bd hbd) l1 l2 h [] [] (by simp only [List.nil_append, List.append_nil, U64]; omega)
  have hpost := unmarshalBox_post hbd (d := [] ++ bitsBytes (layout bd ctx sv) ++ []) (by simpa [maxAlloc] using hl) (pos := 0) (by simp) ctx size (zero_typedFields bd.fields)
  rw [show (0 : Nat) = ([] : Bytes).length from rfl, hu] at hpost
  exact hpost.2.2.2.1

theorem tfdt_fits (v a b c x y : Nat) (ctx : Ctx) (hv : v = 0 ∨ v = 1) (size : Nat) : fitsIn Cat.bdTfdt ctx (tfdtSV v a b c x y) size = true ↔
    (a < 256 ∧ b < 256 ∧ c < 256) ∧ size ≤ 2 ^ 48 ∧ (if v = 0 then 8 ≤ size ∧ x < 2 ^ 32 ∧ y = 0 else 12 ≤ size ∧ y < 2 ^ 64 ∧ x = 0) := by
  unfold fitsIn
  rw [tfdt_layout v a b c x y ctx hv]
  rcases hv with rfl | rfl
  · simp [tfdtSV, verFlags, ints, Cat.bdTfdt, Cat.fsTfdt, Fields.ofList, Fields.names, SV.keys, fitsFields, fitsV, fitsList, layoutV, layoutFields, fullBox, SV.get, silent, before, env, fullBoxTy, present, instField,
      SV.version, SV.full, SV.uint, SV.flags, anyVersion, isZero, natBits_length]
    omega
  · simp [tfdtSV, verFlags, ints, Cat.bdTfdt, Cat.fsTfdt, Fields.ofList, Fields.names, SV.keys, fitsFields, fitsV, fitsList, layoutV, layoutFields, fullBox, SV.get, silent, before, env, fullBoxTy, present, instField,
      SV.version, SV.full, SV.uint, SV.flags, anyVersion, isZero, natBits_length]
    omega

theorem tfdt_shape {ctx : Ctx} {sv : SV} {size : Nat} (h : fitsIn Cat.bdTfdt ctx sv size = true) :
    ∃ v a b c x y, (v = 0 ∨ v = 1) ∧ sv = tfdtSV v a b c x y := by
  obtain ⟨v, a, b, c, x, y, -, rfl⟩ := tfdt_typed (fits_typed (by simp [Cat.allDefs]) h)
  refine ⟨v, a, b, c, x, y, ?_, rfl⟩
  unfold fitsIn at h
  simp only [Bool.and_eq_true] at h
  have h6 := h.1.2
  simpa [Cat.bdTfdt, Cat.fsTfdt, Fields.ofList, Fields.names, tfdtSV, SV.version, SV.full, SV.get, SV.uint, fullBox] using h6

theorem setTime_shape (t v a b c x y : Nat) : setTime t (tfdtSV v a b c x y) = if v = 0 then tfdtSV v a b c (t % 2 ^ 32) y else tfdtSV v a b c x t := by
  have hv : (tfdtSV v a b c x y).version = v := by simp [tfdtSV, SV.version, SV.full, SV.get, SV.uint, fullBox]
  unfold setTime
  rw [hv]
  rfl

theorem time_fits {ctx : Ctx} {sv : SV} {size : Nat} {t : Nat} (ht : t < 2 ^ 64) (h : fitsIn Cat.bdTfdt ctx sv size = true) :
    fitsIn Cat.bdTfdt ctx (setTime t sv) size = true ∧ (layout Cat.bdTfdt ctx (setTime t sv)).length = (layout Cat.bdTfdt ctx sv).length := by
  obtain ⟨v, a, b, c, x, y, hv, rfl⟩ := tfdt_shape h
  rw [tfdt_fits _ _ _ _ _ _ _ hv] at h
  rw [setTime_shape]
  rcases hv with rfl | rfl
  · simp only [if_true] at h ⊢
    rw [tfdt_fits _ _ _ _ _ _ _ (.inl rfl), tfdt_layout _ _ _ _ _ _ _ (.inl rfl), tfdt_layout _ _ _ _ _ _ _ (.inl rfl)]
    simp only [if_true, List.length_append, natBits_length, and_true]
    exact ⟨h.1, h.2.1, h.2.2.1, by omega, h.2.2.2.2⟩
  · simp only [Nat.one_ne_zero, if_false] at h ⊢
    rw [tfdt_fits _ _ _ _ _ _ _ (.inr rfl), tfdt_layout _ _ _ _ _ _ _ (.inr rfl), tfdt_layout _ _ _ _ _ _ _ (.inr rfl)]
    simp only [Nat.one_ne_zero, if_false, List.length_append, natBits_length, and_true]
    exact ⟨h.1, h.2.1, h.2.2.1, ht, h.2.2.2.2⟩

theorem bits_len {a b : List Bool} (h : a.length = b.length) (ha : a.length % 8 = 0) : (bitsBytes a).length = (bitsBytes b).length := by
  have := bitsBytes_length a ha
  have := bitsBytes_length b (h ▸ ha)
  omega

theorem fits_mod {bd : BoxDef} {ctx : Ctx} {sv : SV} {size : Nat} (h : fitsIn bd ctx sv size = true) : (layout bd ctx sv).length % 8 = 0 := by
  unfold fitsIn at h
  simp only [Bool.and_eq_true, beq_iff_eq] at h
  exact h.1.1.1.1.1.2

/-- the fields after the change -/
theorem new_fits {time : Option Nat} (ht : ∀ t, time = some t → t < 2 ^ 64) {t : BoxType} {bd : BoxDef} {own : Ctx} (hb : BoxMap.std.getBoxDef t own = some bd) {sv : SV} {size : Nat}
    (h : fitsIn bd own sv size = true) : fitsIn bd own (newValue time t sv) size = true ∧
      (bitsBytes (layout bd own (newValue time t sv))).length = (bitsBytes (layout bd own sv)).length := by
  unfold newValue
  cases time with
  | none => exact ⟨h, rfl⟩
  | some x =>
    simp only
    split
    · next e =>
      rw [show t = tTfdt from e, std_tfdt] at hb
      cases hb
      obtain ⟨h1, h2⟩ := time_fits (ht x rfl) h
      exact ⟨h1, bits_len h2 (fits_mod h1)⟩
    · exact ⟨h, rfl⟩

theorem newValue_ctx {time : Option Nat} {isRoot : Bool} {ctx : Ctx} {t : BoxType} (sv : SV) :
    ownCtx isRoot ctx t (newValue time t sv) = ownCtx isRoot ctx t sv := by
  by_cases e : t = ⟨0x74, 0x66, 0x64, 0x74⟩
  · subst e
    rw [ownCtx_plain _ (by decide) (by decide), ownCtx_plain _ (by decide) (by decide)]
  · unfold newValue
    cases time with
    | none => rfl
    | some x => simp only [if_neg e]

/-! ## The edited row can be written -/

theorem isNil_edit {drop : BoxType → Prop} [DecidablePred drop] {time : Option Nat} {B : Boxes} (h : B.isNil = true) : (B.edit drop time).isNil = true := by
  cases B with
  | nil => rfl
  | _ => cases h

section
variable {drop : BoxType → Prop} [DecidablePred drop] {time : Option Nat}

theorem Ok_last : ∀ (B : Boxes) (isRoot last last' : Bool) (ctx : Ctx), (last = true → last' = true) → B.Ok isRoot last ctx → B.Ok isRoot last' ctx
  | .nil, _, _, _, _, _, _ => trivial
  | .raw start p rest, isRoot, last, last', ctx, h, ⟨h1, h2, h3, h4, h5⟩ =>
    ⟨h1, fun e => ⟨h (h2 e).1, (h2 e).2⟩, h3, h4, Ok_last rest _ _ _ _ h h5⟩
  | .box start bd sv kids rest, isRoot, last, last', ctx, h, ⟨h1, h2, h3, h4, h5, h6⟩ =>
    ⟨h1, fun e => ⟨h (h2 e).1, (h2 e).2⟩, h3, h4,
      Ok_last kids _ _ _ _ (fun e => by rw [Bool.and_eq_true] at e ⊢; exact ⟨h e.1, e.2⟩) h5, Ok_last rest _ _ _ _ h h6⟩

theorem Ok_edit (ht : ∀ t, time = some t → t < 2 ^ 64) (hf : ¬ drop tFtyp) (hk : ¬ drop tKeys) :
    ∀ (B : Boxes) (isRoot last last' : Bool) (ctx : Ctx), (last = true → last' = true) → B.Ok isRoot last ctx →
    (B.edit drop time).Ok isRoot last' ctx ∧ ((B.edit drop time).ser isRoot ctx).length ≤ (B.ser isRoot ctx).length
  | .nil, _, _, _, _, _, _ => ⟨trivial, Nat.le_refl _⟩
  | .raw start p rest, isRoot, last, last', ctx, h, ⟨h1, h2, h3, h4, h5⟩ => by
    obtain ⟨a, b⟩ := Ok_edit ht hf hk rest isRoot last last' ctx h h5
    rw [edit]
    split
    · refine ⟨a, ?_⟩
      simp only [ser, List.length_append]
      omega
    · refine ⟨⟨h1, fun e => ⟨h (h2 e).1, isNil_edit (h2 e).2⟩, h3, h4, a⟩, ?_⟩
      simp only [ser, List.length_append]
      omega
  | .box start bd sv kids rest, isRoot, last, last', ctx, h, ⟨h1, h2, h3, h4, h5, h6⟩ => by
    obtain ⟨a, b⟩ := Ok_edit ht hf hk rest isRoot last last' _ h h6
    rw [edit]
    split
    · next hd =>
      have e1 : start.type ≠ tFtyp := fun e => hf (e ▸ hd)
      have e2 : start.type ≠ tKeys := fun e => hk (e ▸ hd)
      rw [restCtx_plain sv e1 e2] at a b
      refine ⟨a, ?_⟩
      simp only [ser, List.length_append, restCtx_plain sv e1 e2]
      omega
    · split
      · refine ⟨⟨h1, fun e => ⟨h (h2 e).1, isNil_edit (h2 e).2⟩, h3, h4, ?_, a⟩, ?_⟩
        · refine Ok_last kids _ _ _ _ (fun e => ?_) h5
          rw [Bool.and_eq_true] at e ⊢
          exact ⟨h e.1, isNil_edit e.2⟩
        · simp only [ser, List.length_append]
          omega
      · have hk' : kidsCtx isRoot ctx start (newValue time start.type sv) = kidsCtx isRoot ctx start sv := by
          unfold kidsCtx
          rw [newValue_ctx]
        have hr' : restCtx isRoot ctx start (newValue time start.type sv) = restCtx isRoot ctx start sv := by
          unfold restCtx
          rw [newValue_ctx]
        obtain ⟨c, e⟩ := Ok_edit ht hf hk kids false (last && rest.isNil) (last' && (rest.edit drop time).isNil) _ (fun e => by
          rw [Bool.and_eq_true] at e ⊢
          exact ⟨h e.1, isNil_edit e.2⟩) h5
        obtain ⟨n1, n2⟩ := new_fits ht h3 h4
        simp only [Ok, ser, hk', hr', newValue_ctx]
        rw [n2]
        refine ⟨⟨fun e' => ?_, fun e => ⟨h (h2 e).1, isNil_edit (h2 e).2⟩, h3, fitsIn_shrink (std_mem h3) n1 (by omega) (by omega), c, a⟩, ?_⟩
        · have := h1 e'
          omega
        · simp only [List.length_append, n2, Form.header_length]
          omega

/-! ## The calls of the command -/

theorem form_info {start : BoxInfo} {pos size : Nat} {ctx : Ctx} (h : Form.of start = .small → size < 2 ^ 32) : Form.of (info start pos size ctx) = Form.of start := by
  unfold info
  unfold Form.of at h ⊢
  by_cases he : start.extendToEOF = true
  · simp [he]
  · simp only [he, Bool.false_eq_true, if_false] at h ⊢
    by_cases hc : start.headerSize = 16 ∨ 2 ^ 32 ≤ start.size
    · rw [if_pos hc, if_pos (.inl rfl)]
    · rw [if_neg hc] at h ⊢
      have := h rfl
      rw [if_neg]
      simp only [Form.len]
      omega

/-- the box is copied -/
theorem copied {d pre post : Bytes} {start : BoxInfo} {body : Bytes} {ctx : Ctx}
    (hd : d = pre ++ ((Form.of start).header start.type ((Form.of start).len + body.length) ++ body) ++ post) :
    (d.drop (info start pre.length ((Form.of start).len + body.length) ctx).offset).take (info start pre.length ((Form.of start).len + body.length) ctx).size =
      (Form.of start).header start.type ((Form.of start).len + body.length) ++ body ∧
    (info start pre.length ((Form.of start).len + body.length) ctx).offset + (info start pre.length ((Form.of start).len + body.length) ctx).size ≤ d.length := by
  constructor
  · rw [hd, List.append_assoc]
    simp only [info]
    rw [List.drop_left]
    exact List.take_left' (by simp [Form.header_length])
  · rw [hd]
    simp only [info, List.length_append, Form.header_length]
    omega

theorem edit_value {names : List Bytes} (ht : ∀ t, time = some t → t < uNoValue) {t : BoxType} {bd : BoxDef} {own : Ctx} {sv : SV} (hb : BoxMap.std.getBoxDef t own = some bd) :
    editFields ⟨time.getD uNoValue, names⟩ t ⟨bd, t, sv⟩ = some (newValue time t sv) := by
  unfold editFields newValue
  by_cases e : t = tTfdt
  · rw [if_pos e]
    rw [e, std_tfdt] at hb
    cases hb
    have ha : (BoxVal.assert ⟨Cat.bdTfdt, t, sv⟩ "Tfdt") = some sv := rfl
    rw [ha, Option.map_some]
    cases time with
    | none => rfl
    | some x =>
      rw [Option.getD_some, if_pos (Nat.ne_of_lt (ht x rfl))]
      simp only
      rw [if_pos (show t = ⟨0x74, 0x66, 0x64, 0x74⟩ from e)]
      rfl
  · rw [if_neg e]
    cases time with
    | none => rfl
    | some x =>
      simp only
      rw [if_neg (show ¬ t = ⟨0x74, 0x66, 0x64, 0x74⟩ from e)]

theorem edited_tree {d : Bytes} (hl : d.length ≤ 2 ^ 48) (ht : ∀ t, time = some t → t < uNoValue) (names : List Bytes) (hf : ¬ drop tFtyp) (hk : ¬ drop tKeys)
    (hx : ∀ t : BoxType, exists_ names t.toStr = decide (drop t)) :
    ∀ (B : Boxes) (isRoot last : Bool) (ctx : Ctx) (pre post : Bytes), B.Ok isRoot last ctx → B.Opaque drop isRoot ctx → d = pre ++ B.ser isRoot ctx ++ post →
    EditLeaves ⟨time.getD uNoValue, names⟩ (B.forest isRoot ctx pre.length) ∧
    (editTree d ⟨time.getD uNoValue, names⟩ (B.forest isRoot ctx pre.length)).Fits ∧
    (editTree d ⟨time.getD uNoValue, names⟩ (B.forest isRoot ctx pre.length)).ser = (B.edit drop time).ser isRoot ctx
  | .nil, _, _, _, _, _, _, _, _ => ⟨trivial, trivial, rfl⟩
  | .raw start p rest, isRoot, last, ctx, pre, post, ⟨h1, h2, h3, h4, h5⟩, ⟨o1, o2⟩, hd => by
    have hd1 : d = pre ++ ((Form.of start).header start.type ((Form.of start).len + p.length) ++ p) ++ (rest.ser isRoot ctx ++ post) := by
      rw [hd, ser]; simp only [List.append_assoc]
    have hlen : (pre ++ ((Form.of start).header start.type ((Form.of start).len + p.length) ++ p)).length =
        pre.length + ((Form.of start).len + p.length) := by simp
    have hrec := edited_tree hl ht names hf hk hx rest isRoot last ctx (pre ++ ((Form.of start).header start.type ((Form.of start).len + p.length) ++ p)) post h5 o2
      (by rw [hd1]; simp only [List.append_assoc])
    rw [hlen] at hrec
    obtain ⟨r1, r2, r3⟩ := hrec
    obtain ⟨c1, c2⟩ := copied (ctx := ctx) hd1
    simp only [forest, EditLeaves, editTree, hx, decide_eq_true_eq, edit]
    rw [show (info start pre.length ((Form.of start).len + p.length) ctx).type = start.type from rfl,
      show (info start pre.length ((Form.of start).len + p.length) ctx).ctx = ctx from rfl]
    by_cases hq : drop start.type
    · simp only [if_pos hq]
      exact ⟨⟨.inl hq, r1⟩, r2, r3⟩
    · simp only [if_neg hq]
      refine ⟨⟨.inr (o1 hq), r1⟩, ⟨c2, by omega, r2⟩, ?_⟩
      simp only [WTree.ser, r3, ser]
      rw [c1]
  | .box start bd sv kids rest, isRoot, last, ctx, pre, post, hok, ⟨o1, o2⟩, hd => by
    have hE := hok
    obtain ⟨h1, h2, h3, h4, h5, h6⟩ := hok
    have hd1 : d = pre ++ ((Form.of start).header start.type ((Form.of start).len + (bitsBytes (layout bd (ownCtx isRoot ctx start.type sv) sv) ++
        kids.ser false (kidsCtx isRoot ctx start sv)).length) ++ (bitsBytes (layout bd (ownCtx isRoot ctx start.type sv) sv) ++ kids.ser false (kidsCtx isRoot ctx start sv))) ++
        (rest.ser isRoot (restCtx isRoot ctx start sv) ++ post) := by
      rw [hd, ser]; simp only [List.append_assoc]
    obtain ⟨n1, n2⟩ := new_fits (time := time) (fun t h => Nat.lt_trans (ht t h) (by decide)) h3 h4
    have hm := marshalBox_layoutIn n1 []
    have hpay := payload_at hd1 hl h3 h4 _ rfl
    generalize hF : bitsBytes (layout bd (ownCtx isRoot ctx start.type sv) sv) = F at *
    generalize hK : kids.ser false (kidsCtx isRoot ctx start sv) = K at *
    have hFK : F.length + K.length = (F ++ K).length := by simp
    have hlen : (pre ++ ((Form.of start).header start.type ((Form.of start).len + (F ++ K).length) ++ (F ++ K))).length =
        pre.length + ((Form.of start).len + (F ++ K).length) := by simp
    have hlen2 : (pre ++ ((Form.of start).header start.type ((Form.of start).len + (F ++ K).length) ++ F)).length =
        pre.length + (Form.of start).len + F.length := by simp; omega
    have hrec := edited_tree hl ht names hf hk hx rest isRoot last _ (pre ++ ((Form.of start).header start.type ((Form.of start).len + (F ++ K).length) ++ (F ++ K))) post h6 o2
      (by rw [hd1]; simp only [List.append_assoc])
    have hkids := edited_tree hl ht names hf hk hx kids false _ _ (pre ++ ((Form.of start).header start.type ((Form.of start).len + (F ++ K).length) ++ F))
      (rest.ser isRoot (restCtx isRoot ctx start sv) ++ post) h5 o1 (by rw [hK, hd1]; simp only [List.append_assoc])
    rw [hlen] at hrec
    rw [hlen2] at hkids
    obtain ⟨r1, r2, r3⟩ := hrec
    obtain ⟨k1, k2, k3⟩ := hkids
    obtain ⟨c1, c2⟩ := copied (ctx := ownCtx isRoot ctx start.type sv) hd1
    have hOk := (Ok_edit (time := time) (fun t h => Nat.lt_trans (ht t h) (by decide)) hf hk (.box start bd sv kids rest) isRoot last last ctx id hE).1
    simp only [forest, EditLeaves, editTree, hx, decide_eq_true_eq, decide_eq_false_iff_not, hF, hK, hFK]
    rw [edit] at hOk ⊢
    generalize hbi : info start pre.length ((Form.of start).len + (F ++ K).length) (ownCtx isRoot ctx start.type sv) = bi at *
    have ety : bi.type = start.type := by rw [← hbi]; rfl
    have ectx : bi.ctx = ownCtx isRoot ctx start.type sv := by rw [← hbi]; rfl
    have efm : Form.of bi = Form.of start := by
      rw [← hbi]
      refine form_info fun e => ?_
      have := h1 e
      rw [e]
      simp only [Form.len]
      omega
    rw [ety]
    by_cases hq : drop start.type
    · simp only [if_pos hq]
      have e1 : start.type ≠ tFtyp := fun e => hf (e ▸ hq)
      have e2 : start.type ≠ tKeys := fun e => hk (e ▸ hq)
      refine ⟨⟨fun h => absurd hq h, r1⟩, r2, ?_⟩
      rw [r3, restCtx_plain sv e1 e2]
    · simp only [if_neg hq] at hOk ⊢
      by_cases hmd : start.type = tMdat
      · rw [if_pos hmd, if_pos (show start.type = ⟨0x6d, 0x64, 0x61, 0x74⟩ from hmd)]
        refine ⟨⟨fun _ h => absurd hmd h, r1⟩, ⟨c2, by omega, r2⟩, ?_⟩
        simp only [WTree.ser, r3, ser, hF, hK]
        rw [c1]
      · rw [if_neg (show ¬ start.type = ⟨0x6d, 0x64, 0x61, 0x74⟩ from hmd)] at hOk
        rw [if_neg hmd, if_neg (show ¬ start.type = ⟨0x6d, 0x64, 0x61, 0x74⟩ from hmd)]
        obtain ⟨p1, p2, p3, p4, p5, p6⟩ := hOk
        have heb : editedBox d ⟨time.getD uNoValue, names⟩ bi = (bd, newValue time start.type sv) := by
          have e0 : bi.offset + bi.headerSize = pre.length + (Form.of start).len := by rw [← hbi]; rfl
          have e1 : sub64 bi.size bi.headerSize = sub64 ((Form.of start).len + (F.length + K.length)) (Form.of start).len := by rw [← hbi, hFK]; rfl
          unfold editedBox
          rw [ety, ectx, e0, e1, hpay]
          simp only [Prod.mk.injEq, true_and]
          rw [edit_value (ht := ht) h3]
          rfl
        rw [heb, ectx]
        have hmf : marshalBox bd memSink (ownCtx isRoot ctx start.type sv) (newValue time start.type sv) [] = _ := hm
        have hk' : kidsCtx isRoot ctx start (newValue time start.type sv) = kidsCtx isRoot ctx start sv := by
          unfold kidsCtx
          rw [newValue_ctx]
        have hr' : restCtx isRoot ctx start (newValue time start.type sv) = restCtx isRoot ctx start sv := by
          unfold restCtx
          rw [newValue_ctx]
        simp only [newValue_ctx, hk'] at p1
        refine ⟨⟨fun _ _ => k1, r1⟩, ⟨?_, ⟨⟨_, by rw [hmf]⟩, k2⟩, r2⟩, ?_⟩
        · rw [efm]
          simp only [WTree.ser, hmf, k3, List.nil_append, List.length_append]
          exact p1
        · simp only [WTree.ser, hmf, k3, r3, List.nil_append, ser, newValue_ctx, hk', hr', efm, ety]

end

end Mp4.Boxes
