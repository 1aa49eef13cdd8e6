import Verif.Lemmas.Golden
import Verif.Lemmas.SafeBox

/-!
# Decoding of an `hdlr` box whose name is any byte string
-/

namespace Mp4

open Spec

/-- one list of fields after another -/
def Fields.append : Fields → Fields → Fields
  | .nil, gs => gs
  | .cons f t fs, gs => .cons f t (fs.append gs)

theorem M.bind_congr_run {σ α β : Type} {m : M σ α} {f g : α → M σ β} {s : σ} (h : ∀ a s', m s = (.ok a, s') → f a s' = g a s') :
    (m >>= f) s = (m >>= g) s := by
  rw [M.bind_run, M.bind_run]
  split
  · next e => exact h _ _ e
  · rfl
  · rfl
  · rfl

theorem M.bind_assoc_run {σ α β γ : Type} (m : M σ α) (f : α → M σ β) (g : β → M σ γ) (s : σ) :
    ((m >>= f) >>= g) s = (m >>= fun a => f a >>= g) s := by
  rw [M.bind_run, M.bind_run, M.bind_run]
  cases h : m s with
  | mk o s' => cases o <;> simp only [M.bind_run]

theorem unmarshalFields_append (e : UEnv) (c : Option Cfo) : ∀ (fs gs : Fields) (cur : SV) (s : USt),
    unmarshalFields e true c (fs.append gs) cur s =
      (unmarshalFields e true c fs cur >>= fun cur => unmarshalFields e true c gs cur) s
  | .nil, gs, cur, s => by
    rw [Fields.append, unmarshalFields, M.bind_ok (M.pure_run _ _)]
  | .cons f t fs, gs, cur, s => by
    have ih := fun cur s => unmarshalFields_append e c fs gs cur s
    rw [Fields.append]
    cases hres : resolve (c.getD e.cfo) e.ctx cur f with
    | none =>
      have : ∀ fs, unmarshalFields e true c (.cons f t fs) cur s = (.panic, s) := by
        intro fs
        simp only [unmarshalFields, if_true, true_and, ite_self]
        rw [hres]
        rfl
      rw [this, M.bind_panic (this _)]
    | some fi =>
      rw [unmarshalFields_top _ _ _ _ _ _ _ hres, M.bind_run, unmarshalFields_top _ _ _ _ _ _ _ hres]
      split
      · rw [ih, M.bind_run]
      · unfold runHook
        rw [← M.bind_run, M.bind_assoc_run]
        apply M.bind_congr_run
        intro a s1 _
        rw [M.bind_assoc_run]
        apply M.bind_congr_run
        intro x s2 _
        rw [M.bind_assoc_run]
        apply M.bind_congr_run
        intro _ s3 _
        obtain ⟨n, ov, cur'⟩ := x
        cases ov with
        | true => exact ih _ _
        | false =>
          simp only [afterHook, Bool.false_eq_true, if_false]
          cases cur'.get f.name with
          | none => rfl
          | some y =>
            simp only
            rw [M.bind_assoc_run]
            apply M.bind_congr_run
            intro v s4 _
            split
            · rfl
            · exact ih _ _

/-- the fields of `hdlr` before the name -/
def fsHdlr4 : Fields := Fields.ofList [
  ({ name := "FullBox", extend := true }, fullBoxTy),
  ({ name := "PreDefined", size := 32 }, (.uint 32)),
  ({ name := "HandlerType", size := 8, isString := true }, (.arr 4 (.uint 8))),
  ({ name := "Reserved", size := 32, cnst := "0" }, (.arr 3 (.uint 32)))]

def fsHdlrName : Fields := Fields.ofList [({ name := "Name", isString := true }, .str)]

theorem fsHdlr_split : Cat.fsHdlr = fsHdlr4.append fsHdlrName := rfl

/-- The name that is made of the bytes left in the box. -/
def nameOf (pre : Nat) (q : Bytes) : Bytes :=
  if pre ≠ 0 ∧ 2 ≤ q.length ∧ q.length = ((q.headD 0#8).toNat + 1) % 256 then (q.drop 1).take (q.headD 0#8).toNat
  else q.takeWhile fun c => c != 0#8

theorem hdlrName_decodes {d : Bytes} {cur : SV} {q : Bytes} {r : RSt} {tl : List Bool} (hd : d.length < U64)
    (hmax : q.length ≤ maxAlloc) (hw : r.WF d) (h0 : r.width = 0) (hr : r.rem d = bytesBits q ++ tl) :
    ∃ r', hdlrOnReadName d (8 * q.length) cur r =
        (.ok (8 * q.length, true, cur.set "Name" (.str (nameOf (cur.uint "PreDefined") q))), r') ∧
      r'.rem d = tl ∧ r'.WF d := by
  obtain ⟨h1, h2, h3⟩ := rem_bytes hw h0 hr
  have hsz : 8 * q.length / 8 = q.length := by omega
  unfold hdlrOnReadName
  simp only [hsz]
  by_cases hq : q.length = 0
  · have : q = [] := List.length_eq_zero_iff.mp hq
    subst this
    refine ⟨r, ?_, by simpa using hr, hw⟩
    have hn : nameOf (cur.uint "PreDefined") [] = [] := by
      unfold nameOf
      split
      · simp
      · rfl
    rw [if_pos (by rfl), hn]
    rfl
  refine ⟨{ r with pos := r.pos + q.length }, ?_, ?_, ⟨hw.width, h2⟩⟩
  · rw [if_neg hq, M.bind_ok (readerHasSize_ok h0 h2 hd)]
    simp only [not_true_eq_false, if_false]
    rw [if_neg (by omega), M.bind_ok (a := q) (s' := { r with pos := r.pos + q.length })]
    · unfold nameOf
      split
      · rfl
      · rfl
    · simp only [readFull]
      rw [if_neg (by omega), if_neg (by simp [h0]), h1, if_neg (by omega), if_neg (by omega)]
  · rw [RSt.rem_aligned (by simpa using h0)]
    exact h3

/-- the value decoded -/
def hdlrVal (f0 f1 f2 pre : Nat) (type : Bytes) (r0 r1 r2 : Nat) (name : Bytes) : SV :=
  [fullBox 0 f0 f1 f2, ("PreDefined", .uint pre), ("HandlerType", .arr (goBytes type)),
   ("Reserved", .arr [.uint r0, .uint r1, .uint r2]), ("Name", .str name)]

theorem hdlr_reads (f0 f1 f2 pre r0 r1 r2 : Nat) (type q p : Bytes) (hf : f0 < 256 ∧ f1 < 256 ∧ f2 < 256) (hp : pre < 2 ^ 32)
    (ht : type.length = 4) (hr : r0 < 2 ^ 32 ∧ r1 < 2 ^ 32 ∧ r2 < 2 ^ 32) (hq : q.length < 2 ^ 47) (ctx : Ctx) (d1 d2 : Bytes)
    (hpb : bytesBits p = verFlags 0 f0 f1 f2 ++ ints [(32, pre)] ++ bytesBits type ++ ints [(32, r0), (32, r1), (32, r2)] ++
      bytesBits q) (hl : (d1 ++ p ++ d2).length < 2 ^ 64) :
    unmarshalBox Cat.bdHdlr (d1 ++ p ++ d2) ctx p.length Cat.bdHdlr.fields.zero d1.length =
      (.ok (p.length, hdlrVal f0 f1 f2 pre type r0 r1 r2 (nameOf pre q)), d1.length + p.length) := by
  have hpl : p.length = 24 + q.length := by
    have := congrArg List.length hpb
    simp [verFlags, ints, ht] at this
    omega
  match type, ht with
  | [t0, t1, t2, t3], _ =>
  simp only [Nat.reducePow] at hp hr hq hl
  generalize hd : d1 ++ p ++ d2 = d at *
  have hmod : p.length * 8 % U64 = 8 * p.length := by simp only [U64]; omega
  have henv : Cat.bdHdlr.uenv d ctx p.length =
      uenvOf (env Cat.bdHdlr ctx (hdlrVal f0 f1 f2 pre [t0, t1, t2, t3] r0 r1 r2 [])) d Cat.bdHdlr.supports (8 * p.length) [] := by
    simp [BoxDef.uenv, uenvOf, env, hmod]
  have hbd : Cat.bdHdlr ∈ Cat.allDefs := by unfold Cat.allDefs; simp
  have hmid : Mid true .hdlr [] fsHdlr4 (Cat.bdHdlr.fields.zero.setVersion anyVersion)
      (hdlrVal f0 f1 f2 pre [t0, t1, t2, t3] r0 r1 r2 []) := by
    refine ⟨rfl, by simp [hdlrVal, SV.keys, fullBox], by simp, ?_, ?_⟩
    · refine ⟨.inr ⟨rfl, rfl, rfl⟩, .inl rfl, .inl rfl, .inl rfl, trivial⟩
    · intro n hn _
      simp [fsHdlr4, Fields.ofList, Fields.names] at hn
      have hz : Cat.bdHdlr.fields.zero.setVersion anyVersion = [("FullBox", full255), ("PreDefined", .uint 0),
        ("HandlerType", .arr (List.replicate 4 (.uint 0))), ("Reserved", .arr (List.replicate 3 (.uint 0))), ("Name", .str [])] := rfl
      rw [hz]
      simp [hdlrVal, SV.get, fullBox, Ne.symm hn.1, Ne.symm hn.2.1, Ne.symm hn.2.2.1, Ne.symm hn.2.2.2]
  have hdec := decode_fields (d := d) (by simp only [U64]; omega)
    (env Cat.bdHdlr ctx (hdlrVal f0 f1 f2 pre [t0, t1, t2, t3] r0 r1 r2 [])) Cat.bdHdlr.supports
    (allDefs_local _ hbd).1 fsHdlr4 (hdlrVal f0 f1 f2 pre [t0, t1, t2, t3] r0 r1 r2 [])
    (Cat.bdHdlr.fields.zero.setVersion anyVersion) (8 * p.length) (8 * p.length) [] [] [] true .hdlr (some Cat.bdHdlr.cfo)
    (show okFields Cat.bdHdlr.cfo [] true .hdlr (some Cat.bdHdlr.cfo) [] fsHdlr4 = true by decide +kernel)
    (by simp [fsHdlr4, Fields.ofList, Fields.AllLocal, Ty.AllLocal, fullBoxTy]; exact (allDefs_local _ hbd).1)
    (by intro c hc; cases hc; exact (allDefs_local _ hbd).1)
    (by simp [env, Cat.bdHdlr]) (by simp) hmid (by intro _ _; rfl) (by omega)
    (by simp only [maxAlloc]; omega) (by omega) (by
      fits_tac [fsHdlr4, hdlrVal, fullBox, goBytes, env, hf, hp, hr, hpl]
      have := t0.isLt
      have := t1.isLt
      have := t2.isLt
      have := t3.isLt
      omega)
  have hlay : layoutFields (env Cat.bdHdlr ctx (hdlrVal f0 f1 f2 pre [t0, t1, t2, t3] r0 r1 r2 [])) true (some Cat.bdHdlr.cfo) fsHdlr4
      (hdlrVal f0 f1 f2 pre [t0, t1, t2, t3] r0 r1 r2 []) =
      verFlags 0 f0 f1 f2 ++ ints [(32, pre)] ++ bytesBits [t0, t1, t2, t3] ++ ints [(32, r0), (32, r1), (32, r2)] := by
    layout_tac [fsHdlr4, hdlrVal, fullBox, goBytes, env, verFlags, ints, natBits_byte]
  rw [hlay] at hdec
  obtain ⟨s1, e1, x1, w1, c1⟩ := hdec ⟨RSt.fresh d1.length, 0⟩ (bytesBits q ++ bytesBits d2)
    (RSt.fresh_wf (by rw [← hd]; simp)) (by simp) (by simp [RSt.fresh])
    (by
      simp only
      rw [RSt.fresh_rem, ← hd, List.append_assoc, List.drop_left, bytesBits_append, hpb]
      simp) (by simp [verFlags, ints]; omega)
  have hc1 : s1.rbits = 192 := by rw [c1]; simp [verFlags, ints]
  have hw1 : s1.r.width = 0 := by
    have := w1.pos_eq.2
    rw [x1] at this
    simp at this
    omega
  obtain ⟨r3, e3, x3, w3⟩ := hdlrName_decodes (cur := hdlrVal f0 f1 f2 pre [t0, t1, t2, t3] r0 r1 r2 []) (q := q)
    (by simp only [U64]; omega) (by simp only [maxAlloc]; omega) w1 hw1 x1
  have hleft : Mp4.left (8 * p.length) s1.rbits = 8 * q.length := by
    rw [left_eq (left := 8 * q.length) (by omega) (by simp only [U64]; omega)]
  have e4 : unmarshalFields (Cat.bdHdlr.uenv d ctx p.length) true (some Cat.bdHdlr.cfo) fsHdlrName
      (hdlrVal f0 f1 f2 pre [t0, t1, t2, t3] r0 r1 r2 []) s1 =
      (.ok (hdlrVal f0 f1 f2 pre [t0, t1, t2, t3] r0 r1 r2 (nameOf pre q)), ⟨r3, s1.rbits + 8 * q.length⟩) := by
    unfold fsHdlrName Fields.ofList
    rw [unmarshalFields_top _ _ _ _ _ _ _ (fi := { name := "Name", isString := true }) rfl, if_neg (by exact fun h => h rfl)]
    unfold runHook
    rw [M.bind_ok (M.get_run s1)]
    have e5 : (liftR (onRead .hdlr d "Name" (8 * q.length) (hdlrVal f0 f1 f2 pre [t0, t1, t2, t3] r0 r1 r2 [])) : UM _) s1 =
        (.ok (8 * q.length, true, hdlrVal f0 f1 f2 pre [t0, t1, t2, t3] r0 r1 r2 (nameOf pre q)), ⟨r3, s1.rbits⟩) := by
      show (match hdlrOnReadName d (8 * q.length) _ s1.r with | (o, r') => (o, { s1 with r := r' })) = _
      rw [e3]
      rfl
    rw [show (Cat.bdHdlr.uenv d ctx p.length).size8 = 8 * p.length from hmod, hleft]
    exact (M.bind_ok e5).trans rfl
  have e6 : unmarshalFields (Cat.bdHdlr.uenv d ctx p.length) true (some Cat.bdHdlr.cfo) Cat.bdHdlr.fields
      (Cat.bdHdlr.fields.zero.setVersion anyVersion) ⟨RSt.fresh d1.length, 0⟩ =
      (.ok (hdlrVal f0 f1 f2 pre [t0, t1, t2, t3] r0 r1 r2 (nameOf pre q)), ⟨r3, s1.rbits + 8 * q.length⟩) := by
    show unmarshalFields _ true _ Cat.fsHdlr _ _ = _
    rw [fsHdlr_split, unmarshalFields_append]
    rw [← henv] at e1
    rw [M.bind_ok e1, e4]
  have hpos : r3.pos = d1.length + p.length := by
    have := w3.pos_eq.1
    rw [x3] at this
    have := congrArg List.length hd
    simp at *
    omega
  show unmarshalBody Cat.bdHdlr d ctx p.length (Cat.bdHdlr.fields.zero.setVersion anyVersion) d1.length = _
  unfold unmarshalBody
  rw [e6]
  simp only
  rw [if_neg (by omega), hmod, if_neg (by omega), hpos]
  congr 3
  omega

end Mp4
