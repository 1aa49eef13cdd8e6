import Verif.Spec.WriteRead
import Verif.Lemmas.Write
import Verif.Lemmas.Box
import Verif.Lemmas.Catalog
import Verif.Lemmas.Ctx
import Verif.Lemmas.Ftyp

/-! # Writing a row of boxes and reading it back -/

namespace Mp4

open Mp4.Spec

theorem header_iso (f : Form) (t : BoxType) (size : Nat) (body : Bytes) (hs : f.len ≤ size) (h1 : f = .small → size < 2 ^ 32)
    (h2 : size < 2 ^ 64) (h3 : f = .toEnd → size = 8 + body.length) :
    Props.isoHeader (f.header t size ++ body) = .box size f.len t (decide (f = .toEnd)) := by
  cases f with
  | small =>
    simp only [Form.len] at hs
    have := Props.iso_small size t body (by omega) (by omega) (h1 rfl)
    simp only [Form.header, bigEndian_eq]
    exact this
  | large =>
    simp only [Form.len] at hs
    have := Props.iso_large size t body (by omega) h2
    simp only [Form.header, bigEndian_eq]
    exact this
  | toEnd =>
    have := Props.iso_eof t body
    rw [← h3 rfl] at this
    simp only [Form.header, bigEndian_eq]
    exact this

theorem form_eof (start : BoxInfo) : decide (Form.of start = .toEnd) = start.extendToEOF := by
  unfold Form.of
  cases start.extendToEOF with
  | true => simp
  | false =>
    simp only [Bool.false_eq_true, if_false]
    split <;> rfl

theorem form_len_pos (f : Form) : 8 ≤ f.len ∧ f.len ≤ 16 := by cases f <;> decide

namespace Boxes

/-- `Marshal` writes the layouts. -/
theorem tree_ser : ∀ (B : Boxes) (isRoot last : Bool) (ctx : Ctx), B.Ok isRoot last ctx →
    (B.tree isRoot ctx).ser = B.ser isRoot ctx ∧ (B.tree isRoot ctx).Fits
  | .nil, _, _, _, _ => ⟨rfl, trivial⟩
  | .raw start p rest, isRoot, last, ctx, h => by
    obtain ⟨h1, _, _, _, h5⟩ := h
    obtain ⟨e1, e2⟩ := tree_ser rest isRoot last ctx h5
    refine ⟨?_, ?_, trivial, e2⟩
    · simp only [tree, ser, WTree.ser, e1, List.append_nil]
    · simpa only [WTree.ser, List.append_nil] using h1
  | .box start bd sv kids rest, isRoot, last, ctx, h => by
    obtain ⟨h1, _, _, h4, h5, h6⟩ := h
    obtain ⟨e1, e2⟩ := tree_ser rest isRoot last _ h6
    obtain ⟨k1, k2⟩ := tree_ser kids false _ _ h5
    have hm := marshalBox_layoutIn h4 []
    refine ⟨?_, ?_, ⟨⟨_, by rw [hm]⟩, k2⟩, e2⟩
    · simp only [tree, ser, WTree.ser, e1, k1, hm, List.nil_append]
    · simp only [WTree.ser, k1, hm, List.nil_append, List.length_append]
      exact h1

/-- The fields at the beginning of the payload of a box. -/
theorem fields_read {bd : BoxDef} {t : BoxType} {own : Ctx} {sv : SV} {size : Nat} (hb : BoxMap.std.getBoxDef t own = some bd)
    (hf : fitsIn bd own sv size = true) (pre rest : Bytes)
    (hlen : (pre ++ bitsBytes (layout bd own sv) ++ rest).length < U64) :
    BoxMap.std.unmarshalAny (pre ++ bitsBytes (layout bd own sv) ++ rest) t size own pre.length =
      (.ok (⟨bd, t, sv⟩, (bitsBytes (layout bd own sv)).length), pre.length + (bitsBytes (layout bd own sv)).length) := by
  have hm := std_mem hb
  obtain ⟨l1, l2⟩ := allDefs_local bd hm
  have := unmarshalBox_layoutIn (allDefs_ok bd hm) l1 l2 hf pre rest hlen
  unfold BoxMap.unmarshalAny BoxMap.new
  rw [hb]
  simp only [this]

theorem bd_keys : ∀ bd ∈ Cat.allDefs, bd.goName = "Keys" → bd = Cat.bdKeys := by
  unfold Cat.allDefs
  simp only [List.forall_mem_cons]
  repeat' apply And.intro
  all_goals first
    | (intro _; rfl)
    | (intro _; trivial)
    | (intro h; exact absurd h (by decide))
    | (intro x hx; exact absurd hx (by simp))

theorem std_keys_def (ctx : Ctx) : BoxMap.std.getBoxDef tKeys ctx = some Cat.bdKeys := by
  obtain ⟨bd, h1, h2⟩ := lookup_single std_keys ctx
  rw [h1, bd_keys bd (std_mem h1) h2]

/-- `ftyp` and `keys` do not look at the context. -/
theorem any_ctx {t : BoxType} (h : t = tFtyp ∨ t = tKeys) (a b : Ctx) (d : Bytes) (n : Nat) :
    BoxMap.std.unmarshalAny d t n a = BoxMap.std.unmarshalAny d t n b := by
  have key : ∀ bd : BoxDef, BoxMap.std.getBoxDef t a = some bd → BoxMap.std.getBoxDef t b = some bd →
      bd.goName ≠ "AudioSampleEntry" → BoxMap.std.unmarshalAny d t n a = BoxMap.std.unmarshalAny d t n b := by
    intro bd ha hb hn
    obtain ⟨h1, h2⟩ := defs_agree a b bd (std_mem ha) hn
    unfold BoxMap.unmarshalAny BoxMap.new
    rw [ha, hb]
    simp only [unmarshalBox_agree h1 h2]
    rfl
  rcases h with rfl | rfl
  · exact key _ (std_ftyp_def a) (std_ftyp_def b) (by decide)
  · exact key _ (std_keys_def a) (std_keys_def b) (by decide)

theorem nextCtx_same {ctx : Ctx} {bi : BoxInfo} (h : bi.ctx = ctx) (hk : bi.type ≠ tKeys) : nextCtx ctx bi = ctx := by
  unfold nextCtx
  rw [if_neg hk, h]
  split
  · next hq => cases ctx; simp only at hq; subst hq; rfl
  · rfl

/-- The box is where it should be. -/
theorem placed {start : BoxInfo} {body pre post : Bytes} {isRoot : Bool} {path : List BoxType} {ctx own : Ctx}
    {total : Nat} {d : Bytes}
    (hd : d = pre ++ ((Form.of start).header start.type ((Form.of start).len + body.length) ++ body) ++ post)
    (h1 : Form.of start = .small → 8 + body.length < 2 ^ 32) (h2 : Form.of start = .toEnd → post = [])
    (ht : isRoot = true ∨ (Form.of start).len + body.length ≤ total) (hl : d.length ≤ 2 ^ 48)
    (ho : OwnCtx d path ctx (info start pre.length ((Form.of start).len + body.length) own)) :
    Forest.Placed d isRoot path ctx pre.length total (info start pre.length ((Form.of start).len + body.length) own) := by
  have hlen := congrArg List.length hd
  simp only [List.length_append, Form.header_length] at hlen
  refine ⟨rfl, ?_, Nat.le_add_right _ _, ?_, ht, ho⟩
  · rw [hd, List.append_assoc, List.append_assoc, List.drop_left]
    refine (header_iso (Form.of start) start.type _ (body ++ post) (Nat.le_add_right _ _) ?_ ?_ ?_).trans ?_
    · intro h
      have := h1 h
      rw [h]
      exact this
    · have := form_len_pos (Form.of start)
      omega
    · intro h
      rw [h2 h, h, List.append_nil]
      rfl
    · rw [form_eof]
      rfl
  · simp only [info]
    omega

/-- The fields of a box are found. -/
theorem payload_at {start : BoxInfo} {bd : BoxDef} {sv : SV} {own : Ctx} {body pre post : Bytes} {d : Bytes}
    (hd : d = pre ++ ((Form.of start).header start.type ((Form.of start).len + (bitsBytes (layout bd own sv) ++ body).length) ++
      (bitsBytes (layout bd own sv) ++ body)) ++ post) (hl : d.length ≤ 2 ^ 48)
    (hb : BoxMap.std.getBoxDef start.type own = some bd)
    (hf : fitsIn bd own sv ((bitsBytes (layout bd own sv)).length + body.length) = true) (size : Nat)
    (hs : size = (Form.of start).len + ((bitsBytes (layout bd own sv)).length + body.length)) :
    BoxMap.std.unmarshalAny d start.type (sub64 size (Form.of start).len) own (pre.length + (Form.of start).len) =
      (.ok (⟨bd, start.type, sv⟩, (bitsBytes (layout bd own sv)).length),
        pre.length + (Form.of start).len + (bitsBytes (layout bd own sv)).length) := by
  have hlen := congrArg List.length hd
  simp only [List.length_append, Form.header_length] at hlen
  have h3 := form_len_pos (Form.of start)
  have hsub : sub64 size (Form.of start).len = (bitsBytes (layout bd own sv)).length + body.length := by
    unfold sub64
    simp only [U64]
    omega
  rw [hsub]
  have hp : (pre ++ (Form.of start).header start.type ((Form.of start).len +
      (bitsBytes (layout bd own sv) ++ body).length)).length = pre.length + (Form.of start).len := by simp
  have hd' : d = (pre ++ (Form.of start).header start.type ((Form.of start).len +
      (bitsBytes (layout bd own sv) ++ body).length)) ++ bitsBytes (layout bd own sv) ++ (body ++ post) := by
    rw [hd]; simp only [List.append_assoc]
  rw [← hp]
  have := fields_read hb hf (pre ++ (Form.of start).header start.type ((Form.of start).len +
    (bitsBytes (layout bd own sv) ++ body).length)) (body ++ post) (by rw [← hd']; simp only [U64]; omega)
  rw [← hd'] at this
  exact this

/-- The context is the one that the reader gives the box. -/
theorem own_ctx {start : BoxInfo} {bd : BoxDef} {sv : SV} {isRoot : Bool} {path : List BoxType} {ctx : Ctx} {pos size n p : Nat}
    {d : Bytes} (hr : isRoot = true ↔ path = [])
    (h : BoxMap.std.unmarshalAny d start.type (sub64 size (Form.of start).len) (ownCtx isRoot ctx start.type sv)
      (pos + (Form.of start).len) = (.ok (⟨bd, start.type, sv⟩, n), p)) :
    OwnCtx d path ctx (info start pos size (ownCtx isRoot ctx start.type sv)) := by
  have hft : start.type = tFtyp → BoxMap.std.unmarshalAny d tFtyp (sub64 size (Form.of start).len) ctx
      (pos + (Form.of start).len) = (.ok (⟨bd, start.type, sv⟩, n), p) := by
    intro ht
    rw [← h, ht, any_ctx (.inl rfl) ctx]
  have hqt : path = [] ∧ start.type = tFtyp →
      (FtypQt d ctx (info start pos size (ownCtx isRoot ctx start.type sv)) ↔ (ftypBrands sv).has brandQT = true) := by
    rintro ⟨hp, ht⟩
    unfold FtypQt
    simp only [info]
    rw [hft ht]
    constructor
    · rintro ⟨box, n', p', e, hq⟩
      cases e
      exact hq
    · intro hq
      exact ⟨_, _, _, rfl, hq⟩
  have hfk : tFtyp ≠ tKeys := by decide
  have hwave : (ownCtx isRoot ctx start.type sv).underWave = ctx.underWave ∧
      (ownCtx isRoot ctx start.type sv).underIlst = ctx.underIlst ∧
      (ownCtx isRoot ctx start.type sv).underIlstMeta = ctx.underIlstMeta ∧
      (ownCtx isRoot ctx start.type sv).underIlstFreeMeta = ctx.underIlstFreeMeta ∧
      (ownCtx isRoot ctx start.type sv).underUdta = ctx.underUdta := by
    unfold ownCtx
    split
    · exact ⟨rfl, rfl, rfl, rfl, rfl⟩
    · split <;> exact ⟨rfl, rfl, rfl, rfl, rfl⟩
  obtain ⟨w1, w2, w3, w4, w5⟩ := hwave
  refine ⟨w1, w2, w3, w4, w5, ?_, ?_, ?_, ?_⟩
  · show (ownCtx isRoot ctx start.type sv).isQuickTimeCompatible = true ↔ ctx.isQuickTimeCompatible = true ∨
      path = [] ∧ start.type = tFtyp ∧ _
    unfold ownCtx
    split
    · next hc =>
      obtain ⟨c1, c2, c3⟩ := hc
      refine ⟨fun _ => .inr ⟨hr.1 c1, c2, (hqt ⟨hr.1 c1, c2⟩).2 c3⟩, fun _ => rfl⟩
    · next hc =>
      have hno : ¬ (path = [] ∧ start.type = tFtyp ∧
          FtypQt d ctx (info start pos size (ownCtx isRoot ctx start.type sv))) :=
        fun ⟨c1, c2, c3⟩ => hc ⟨hr.2 c1, c2, (hqt ⟨c1, c2⟩).1 c3⟩
      unfold ownCtx at hno
      rw [if_neg hc] at hno
      split
      · next hk =>
        rw [if_pos hk] at hno
        exact ⟨.inl, fun h => h.resolve_right hno⟩
      · next hk =>
        rw [if_neg hk] at hno
        exact ⟨.inl, fun h => h.resolve_right hno⟩
  · intro hp ht
    exact ⟨_, _, _, hft ht⟩
  · intro hk
    show (ownCtx isRoot ctx start.type sv).quickTimeKeysMetaEntryCount = _
    unfold ownCtx
    split
    · rfl
    · rw [if_neg (show ¬ start.type = tKeys from hk)]
  · intro (hk : start.type = tKeys)
    have hq : (ownCtx isRoot ctx start.type sv).quickTimeKeysMetaEntryCount = sv.int "EntryCount" := by
      unfold ownCtx
      rw [if_neg (fun hc => hfk (hc.2.1.symm.trans hk)), if_pos hk]
    refine ⟨⟨bd, start.type, sv⟩, n, p, ?_, hq.symm⟩
    rw [← h]
    show BoxMap.std.unmarshalAny d tKeys (sub64 size (Form.of start).len) ctx (pos + (Form.of start).len) = _
    rw [hk, any_ctx (.inr rfl) ctx]

theorem ser_nil {B : Boxes} (h : B.isNil = true) (isRoot : Bool) (ctx : Ctx) : B.ser isRoot ctx = [] := by
  cases B with
  | nil => rfl
  | _ => cases h

/-- The bytes of a row of boxes are a well-formed row of boxes, and the fields are found. -/
theorem wf_read {d : Bytes} (hl : d.length ≤ 2 ^ 48) : ∀ (B : Boxes) (isRoot last : Bool) (ctx : Ctx) (path : List BoxType)
    (pre post : Bytes) (total : Nat), B.Ok isRoot last ctx → (isRoot = true ↔ path = []) → (isRoot = true → post = []) →
    (last = true → post = []) → d = pre ++ B.ser isRoot ctx ++ post →
    (isRoot = true ∨ total = (B.ser isRoot ctx).length) →
    (B.forest isRoot ctx pre.length).WF d isRoot path ctx pre.length total ∧
    (∀ x ∈ B.fields isRoot ctx pre.length, ∃ n,
      BoxMap.std.unmarshalAny d x.1.type (sub64 x.1.size x.1.headerSize) x.1.ctx (x.1.offset + x.1.headerSize) =
        (.ok (⟨x.2.1, x.1.type, x.2.2⟩, n), x.1.offset + x.1.headerSize + n) ∧ x.1.offset + x.1.headerSize ≤ d.length) ∧
    ∀ x ∈ B.payloads isRoot ctx pre.length, (d.drop (x.1.offset + x.1.headerSize)).take (x.1.size - x.1.headerSize) = x.2
  | .nil, isRoot, last, ctx, path, pre, post, total, _, _, hp, _, hd, ht => by
    refine ⟨?_, by simp [fields], by simp [payloads]⟩
    show if isRoot = true then _ else _
    split
    · next h => rw [hd, hp h]; simp [ser]
    · next h =>
      left
      simpa [h, ser] using ht
  | .raw start p rest, isRoot, last, ctx, path, pre, post, total, hok, hr, hp, hlast, hd, ht => by
    obtain ⟨h1, h2, h3, h4, h5⟩ := hok
    simp only [ser, List.append_assoc] at hd
    have hd1 : d = pre ++ ((Form.of start).header start.type ((Form.of start).len + p.length) ++ p) ++
        (rest.ser isRoot ctx ++ post) := by rw [hd]; simp only [List.append_assoc]
    have hlen : (pre ++ ((Form.of start).header start.type ((Form.of start).len + p.length) ++ p)).length =
        pre.length + ((Form.of start).len + p.length) := by simp
    have ht1 : isRoot = true ∨ (Form.of start).len + p.length ≤ total := by
      refine ht.imp id fun h => ?_
      simp only [ser, List.length_append, Form.header_length] at h
      omega
    have hrec := wf_read hl rest isRoot last ctx path
      (pre ++ ((Form.of start).header start.type ((Form.of start).len + p.length) ++ p)) post (total - ((Form.of start).len + p.length)) h5 hr hp hlast
      (by rw [hd1]; simp only [List.append_assoc]) (by
        refine ht.imp id fun h => ?_
        simp only [ser, List.length_append, Form.header_length] at h
        omega)
    rw [hlen] at hrec
    refine ⟨⟨placed hd1 h1 (fun h => ?_) ht1 hl ?_, ?_⟩, hrec.2.1, ?_⟩
    · obtain ⟨a, b⟩ := h2 h
      rw [hlast a, ser_nil b, List.append_nil]
    · exact ⟨rfl, rfl, rfl, rfl, rfl, ⟨.inl, fun h => h.elim id fun h => absurd ⟨hr.2 h.1, h.2.1⟩ h3⟩,
        fun a b => absurd ⟨hr.2 a, b⟩ h3, fun _ => rfl, fun h => absurd h h4⟩
    · rw [nextCtx_same (show (info start pre.length ((Form.of start).len + p.length) ctx).ctx = ctx from rfl) h4]
      exact hrec.1
    · intro x hx
      rcases List.mem_cons.1 hx with rfl | hx
      · simp only [info]
        have e : d = (pre ++ (Form.of start).header start.type ((Form.of start).len + p.length)) ++
            (p ++ (rest.ser isRoot ctx ++ post)) := by rw [hd]; simp only [List.append_assoc]
        have e2 : (pre ++ (Form.of start).header start.type ((Form.of start).len + p.length)).length =
            pre.length + (Form.of start).len := by simp
        rw [← e2]
        conv => lhs; arg 2; rw [e]
        rw [List.drop_left, Nat.add_sub_cancel_left, List.take_left]
      · exact hrec.2.2 x hx
  | .box start bd sv kids rest, isRoot, last, ctx, path, pre, post, total, hok, hr, hp, hlast, hd, ht => by
    obtain ⟨h1, h2, h3, h4, h5, h6⟩ := hok
    simp only [ser] at hd ht
    simp only [forest, fields, payloads, kidsCtx, restCtx] at *
    generalize hown : ownCtx isRoot ctx start.type sv = own at *
    generalize hF : bitsBytes (layout bd own sv) = F at *
    generalize hK : kids.ser false (childCtx (info start 0 0 own)) = K at *
    have hd1 : d = pre ++ ((Form.of start).header start.type ((Form.of start).len + (F ++ K).length) ++ (F ++ K)) ++
        (rest.ser isRoot (nextCtx ctx (info start 0 0 own)) ++ post) := by rw [hd]; simp only [List.append_assoc]
    have hFK : F.length + K.length = (F ++ K).length := by simp
    have hlen : (pre ++ ((Form.of start).header start.type ((Form.of start).len + (F ++ K).length) ++ (F ++ K))).length =
        pre.length + ((Form.of start).len + (F ++ K).length) := by simp
    have hlen2 : (pre ++ ((Form.of start).header start.type ((Form.of start).len + (F ++ K).length) ++ F)).length =
        pre.length + (Form.of start).len + F.length := by simp; omega
    have ht1 : isRoot = true ∨ (Form.of start).len + (F ++ K).length ≤ total := by
      refine ht.imp id fun h => ?_
      simp only [List.length_append, Form.header_length] at h ⊢
      omega
    have hpay := payload_at (start := start) (bd := bd) (sv := sv) (own := own) (body := K) (pre := pre)
      (post := rest.ser isRoot (nextCtx ctx (info start 0 0 own)) ++ post) (d := d) (by rw [hF]; exact hd1) hl h3
      (by rw [hF]; exact h4) ((Form.of start).len + (F ++ K).length) (by rw [hF, hFK])
    rw [hF] at hpay
    have hrec := wf_read hl rest isRoot last _ path
      (pre ++ ((Form.of start).header start.type ((Form.of start).len + (F ++ K).length) ++ (F ++ K))) post (total - ((Form.of start).len + (F ++ K).length)) h6 hr hp hlast
      (by rw [hd1]; simp only [List.append_assoc]) (by
        refine ht.imp id fun h => ?_
        simp only [List.length_append, Form.header_length] at h ⊢
        omega)
    have hkids := wf_read hl kids false _ _ (path ++ [start.type])
      (pre ++ ((Form.of start).header start.type ((Form.of start).len + (F ++ K).length) ++ F)) (rest.ser isRoot (nextCtx ctx (info start 0 0 own)) ++ post)
      K.length h5 (by simp) (by simp) (by
        intro h
        rw [Bool.and_eq_true] at h
        rw [hlast h.1, ser_nil h.2, List.append_nil])
      (by rw [hK, hd1]; simp only [List.append_assoc]) (.inr (by rw [hK]))
    rw [hlen] at hrec
    rw [hlen2] at hkids
    have hown2 := own_ctx (start := start) (pos := pre.length) (size := (Form.of start).len + (F ++ K).length) hr
      (by rw [hown]; exact hpay)
    rw [hown] at hown2
    rw [hFK] at *
    refine ⟨⟨placed hd1 (by rw [List.length_append]; exact h1) (fun h => ?_) ht1 hl hown2, ⟨_, _, hpay⟩, ?_, hrec.1⟩, ?_, ?_⟩
    · obtain ⟨a, b⟩ := h2 h
      rw [hlast a, ser_nil b, List.append_nil]
    · have hsz : (Form.of start).len + (F ++ K).length - (Form.of start).len - F.length = K.length := by
        simp only [List.length_append]; omega
      simp only [info]
      rw [hsz]
      exact hkids.1
    · intro x hx
      rcases List.mem_cons.1 hx with rfl | hx
      · refine ⟨_, hpay, ?_⟩
        have := congrArg List.length hd1
        simp only [List.length_append, Form.header_length] at this
        simp only [info]
        omega
      · rcases List.mem_append.1 hx with hx | hx
        · exact hkids.2.1 x hx
        · exact hrec.2.1 x hx
    · intro x hx
      rcases List.mem_append.1 hx with hx | hx
      · exact hkids.2.2 x hx
      · exact hrec.2.2 x hx

end Boxes

end Mp4
