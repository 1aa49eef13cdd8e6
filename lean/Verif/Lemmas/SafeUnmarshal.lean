import Verif.Lemmas.SafeTop

/-!
# `Unmarshal` of every box type of the library
-/

namespace Mp4

open Spec

/-! ## facts about the catalogue -/

/-- `FullBox` is the first field, or there is none. -/
def fbShape (bd : BoxDef) : Bool :=
  match bd.fields with
  | .cons f t fs =>
    (f == { name := "FullBox", extend := true } && t.isFullBox && !fs.names.contains "FullBox") ||
    (f.name != "FullBox" && !fs.names.contains "FullBox" && !["Elst", "Tfra", "Trun"].contains bd.goName &&
      !bd.metaHook)
  | .nil => !["Elst", "Tfra", "Trun"].contains bd.goName && !bd.metaHook

/-- numbers whose size is computed -/
def dynSizes (bd : BoxDef) : List String :=
  if bd.goName = "Tfra" then ["TrafNumber", "TrunNumber", "SampleNumber"] else []

theorem allDefs_static : ∀ bd ∈ Cat.allDefs, fbShape bd = true ∧ hookTyped bd.hook bd.fields = true ∧
    "FullBox" ∉ hookNames bd.hook ∧ bd.fields.plain (dynSizes bd) none = true ∧
    (bd.goName = "Trun" ∨ bd.fields.greedyOk = true) := by
  have h : Cat.allDefs.all (fun bd => fbShape bd && hookTyped bd.hook bd.fields &&
      !(hookNames bd.hook).contains "FullBox" && bd.fields.plain (dynSizes bd) none &&
      (bd.goName == "Trun" || bd.fields.greedyOk)) = true := by decide +kernel
  intro bd hbd
  have := List.all_eq_true.mp h bd hbd
  simp only [Bool.and_eq_true, Bool.or_eq_true, beq_iff_eq, Bool.not_eq_true', List.contains_eq_mem,
    decide_eq_false_iff_not] at this
  exact ⟨this.1.1.1.1, this.1.1.1.2, this.1.1.2, this.1.2, this.2⟩

theorem bd_trun : ∀ bd ∈ Cat.allDefs, bd.goName = "Trun" → bd = Cat.bdTrun := by
  unfold Cat.allDefs
  simp only [List.forall_mem_cons]
  repeat' apply And.intro
  all_goals first
    | (intro _; rfl)
    | (intro _; trivial)
    | (intro h; exact absurd h (by decide))
    | (intro x hx; exact absurd hx (by simp))

theorem bd_tfra : ∀ bd ∈ Cat.allDefs, bd.goName = "Tfra" → bd = Cat.bdTfra := by
  unfold Cat.allDefs
  simp only [List.forall_mem_cons]
  repeat' apply And.intro
  all_goals first
    | (intro _; rfl)
    | (intro _; trivial)
    | (intro h; exact absurd h (by decide))
    | (intro x hx; exact absurd hx (by simp))

theorem bd_elst : ∀ bd ∈ Cat.allDefs, bd.goName = "Elst" → bd = Cat.bdElst := by
  unfold Cat.allDefs
  simp only [List.forall_mem_cons]
  repeat' apply And.intro
  all_goals first
    | (intro _; rfl)
    | (intro _; trivial)
    | (intro h; exact absurd h (by decide))
    | (intro x hx; exact absurd hx (by simp))

/-- The sizes of the numbers of a `tfra` entry are small. -/
theorem dynSizes_small {bd : BoxDef} (hbd : bd ∈ Cat.allDefs) {ctx : Ctx} :
    ∀ n ∈ dynSizes bd, ∀ sv, typedFields bd.fields sv = true → ∀ z, bd.cfo.size n ctx sv = some z →
      z ≤ 8 * maxAlloc := by
  intro n hn sv hty z hz
  unfold dynSizes at hn
  split at hn
  · next hg =>
    have hb := bd_tfra bd hbd hg
    subst hb
    have key : ∀ name : String, (∃ f : Field, f.name = name ∧ ∃ w, w ≤ 32 ∧ (f, Ty.uint w) ∈ Cat.bdTfra.fields.toList) →
        sv.uint name < 2 ^ 32 := by
      rintro name ⟨f, rfl, w, hw, hm⟩
      obtain ⟨v, hv, ht⟩ := typed_get (Fields.nodup_names _ (allDefs_nodup _ hbd)) hty hm
      obtain ⟨k, rfl, hk⟩ := typedV_uint_inv ht
      simp only [SV.uint, hv]
      exact Nat.lt_of_lt_of_le hk (Nat.pow_le_pow_right (by decide) hw)
    have k1 := key "LengthSizeOfTrafNum"
      ⟨{ name := "LengthSizeOfTrafNum", size := 2 }, rfl, 8, by decide, by simp [Cat.bdTfra, Cat.fsTfra, Fields.ofList, Fields.toList]⟩
    have k2 := key "LengthSizeOfTrunNum"
      ⟨{ name := "LengthSizeOfTrunNum", size := 2 }, rfl, 8, by decide, by simp [Cat.bdTfra, Cat.fsTfra, Fields.ofList, Fields.toList]⟩
    have k3 := key "LengthSizeOfSampleNum"
      ⟨{ name := "LengthSizeOfSampleNum", size := 2 }, rfl, 8, by decide, by simp [Cat.bdTfra, Cat.fsTfra, Fields.ofList, Fields.toList]⟩
    change cfoTfra.size n ctx sv = some z at hz
    simp only [List.mem_cons, List.not_mem_nil, or_false] at hn
    simp only [maxAlloc]
    rcases hn with rfl | rfl | rfl <;> simp [cfoTfra] at hz <;> omega
  · simp at hn

/-- the condition under which sizes and lengths are defined -/
def verOk (bd : BoxDef) (sv : SV) : Prop :=
  bd.goName = "Elst" ∨ bd.goName = "Tfra" → sv.version = 0 ∨ sv.version = 1

theorem verOk_supports {bd : BoxDef} (hbd : bd ∈ Cat.allDefs) {sv : SV} (h : bd.supports sv.version = true) :
    verOk bd sv := by
  rintro (hg | hg)
  · have := bd_elst bd hbd hg
    subst this
    simpa [BoxDef.supports, Cat.bdElst] using h
  · have := bd_tfra bd hbd hg
    subst this
    simpa [BoxDef.supports, Cat.bdTfra] using h

/-! ## a box that is being decoded -/

theorem mem_keys_of_get {sv : SV} {n : String} {v : Val} (h : sv.get n = some v) : n ∈ sv.keys := by
  apply Classical.byContradiction
  intro hk
  rw [SV.get_none_iff.mpr hk] at h
  cases h

theorem typed_keys : ∀ {fs : Fields} {sv : SV}, typedFields fs sv = true → SV.keys sv = fs.names
  | .nil, [], _ => rfl
  | .nil, _ :: _, h => by simp [typedFields] at h
  | .cons f t fs, [], h => by simp [typedFields] at h
  | .cons f t fs, (n, v) :: rest, h => by
    simp only [typedFields] at h
    rw [Bool.and_eq_true, Bool.and_eq_true, beq_iff_eq] at h
    rw [SV.keys_cons, Fields.names, typed_keys h.2, h.1.1]

theorem full_of_typed {bd : BoxDef} {t : Ty} {f : Field} {fs : Fields} {sv : SV} (hs : bd.fields = .cons f t fs)
    (hf : f.name = "FullBox") (hnd : bd.fields.names.Nodup)
    (hty : typedFields bd.fields sv = true) :
    ∃ v, sv.get "FullBox" = some v ∧ typedV t v = true := by
  have hm : (f, t) ∈ bd.fields.toList := by rw [hs]; simp [Fields.toList]
  rw [← hf]
  exact typed_get hnd hty hm

theorem typed_setVersion {bd : BoxDef} (hbd : bd ∈ Cat.allDefs) {sv : SV} (hty : typedFields bd.fields sv = true)
    {v : Nat} (hv : v < 256) : typedFields bd.fields (sv.setVersion v) = true := by
  obtain ⟨hfb, -⟩ := allDefs_static bd hbd
  have hnd := Fields.nodup_names _ (allDefs_nodup bd hbd)
  unfold SV.setVersion
  split
  · next f hfull =>
    unfold SV.full at hfull
    split at hfull
    · next f' hget =>
      cases hfull
      unfold fbShape at hfb
      split at hfb
      · next g t fs hs =>
        have hname : g.name = "FullBox" ∧ t.isFullBox = true := by
          simp only [Bool.or_eq_true, Bool.and_eq_true, beq_iff_eq] at hfb
          rcases hfb with ⟨⟨h1, h2⟩, _⟩ | ⟨⟨⟨h1, h2⟩, _⟩, _⟩
          · exact ⟨by rw [h1], h2⟩
          · exfalso
            have : "FullBox" ∈ SV.keys sv := mem_keys_of_get hget
            rw [typed_keys hty, hs] at this
            simp only [Fields.names, List.mem_cons] at this
            rcases this with h | h
            · simp [← h] at h1
            · simp [h] at h2
        obtain ⟨w, hw, htw⟩ := full_of_typed hs hname.1 hnd hty
        rw [hget] at hw
        cases hw
        have ht := hname.2
        unfold Ty.isFullBox at ht
        split at ht
        · next c f1 f2 =>
          simp only [Bool.and_eq_true, beq_iff_eq] at ht
          obtain ⟨rfl, rfl⟩ := ht
          obtain ⟨v0, a1, a2, a3, he, _, h1, h2, h3⟩ := typed_fullBox_inv htw
          cases he
          have hm : (g, Ty.struct c (.cons { name := "Version", size := 8 } (.uint 8) (.cons { name := "Flags", size := 8 } (.arr 3 (.uint 8)) .nil))) ∈ bd.fields.toList := by
            rw [hs]; simp [Fields.toList]
          rw [← hname.1]
          refine typed_set hnd hty hm ?_
          simp [SV.set, typedV, typedFields, hv, h1, h2, h3]
        · simp at ht
      · next hs =>
        exfalso
        rw [hs] at hty
        cases sv with
        | nil => simp [SV.get] at hget
        | cons _ _ => simp [typedFields] at hty
    · cases hfull
  · exact hty

/-- the step that decodes `FullBox` -/
theorem fullBox_step {e : UEnv} {t : Ty} {fs : Fields} {sv : SV} {s : USt} {b0 b1 b2 b3 : Byte} {tl : List Bool}
    {x : Val} (ht : t.isFullBox = true) (hget : sv.get "FullBox" = some x) (hx : typedV t x = true)
    (hw : s.r.WF e.d) (hr : s.r.rem e.d = bytesBits [b0, b1, b2, b3] ++ tl) :
    ∃ s', s'.r.rem e.d = tl ∧ s'.r.WF e.d ∧ s'.rbits = s.rbits + 32 ∧
      unmarshalFields e true (some e.cfo) (.cons { name := "FullBox", extend := true } t fs) sv s =
        if ¬ e.supported b0.toNat then (.err .unsupportedVersion, s')
        else unmarshalFields e true (some e.cfo) fs (sv.set "FullBox" (fullBoxVal b0 b1 b2 b3)) s' := by
  obtain ⟨s', h1, h2, h3, h4⟩ := fullBox_run (e := { e with root := sv }) (fi := { name := "FullBox", extend := true })
    ht rfl hx hw hr
  refine ⟨s', h2, h3, h4, ?_⟩
  rw [unmarshalFields_top e (some e.cfo) _ t fs sv s (fi := { name := "FullBox", extend := true }) rfl,
    if_neg (by simp [isTarget])]
  unfold runHook
  rw [M.bind_ok (m := M.get) (s' := s) (a := s) rfl]
  have hor : onRead e.hook e.d "FullBox" (left e.size8 s.rbits) sv s.r = (.ok (0, false, sv), s.r) := by
    unfold onRead
    cases e.hook <;> simp
  rw [M.bind_ok (s' := s) (a := (0, false, sv)) (by simp only [liftR]; rw [hor])]
  rw [M.bind_ok (s' := s) (a := ()) (by simp [addR])]
  unfold afterHook
  simp only [Bool.false_eq_true, if_false]
  rw [hget]
  simp only
  rw [M.bind_ok h1]
  have hv : (sv.set "FullBox" (fullBoxVal b0 b1 b2 b3)).version = b0.toNat := by
    unfold SV.version SV.full
    rw [SV.get_set_eq (by rw [hget]; simp)]
    simp [fullBoxVal, SV.uint, SV.get]
  rw [hv]
  by_cases hs : e.supported b0.toNat = true
  · rw [if_neg (by simp [hs]), if_neg (by simp [hs])]
  · rw [if_pos (by simp [hs]), if_pos (by simp [hs])]
    rfl

theorem fullBox_typed {t : Ty} (ht : t.isFullBox = true) (b0 b1 b2 b3 : Byte) :
    typedV t (fullBoxVal b0 b1 b2 b3) = true := by
  unfold Ty.isFullBox at ht
  split at ht
  · next c f1 f2 =>
    simp only [Bool.and_eq_true, beq_iff_eq] at ht
    obtain ⟨rfl, rfl⟩ := ht
    have h := fun b : Byte => b.isLt
    simp [fullBoxVal, typedV, typedFields, h]
  · simp at ht

theorem readByte_eof {d : Bytes} {s : USt} (hw : s.r.WF d) (hr : (s.r.rem d).length < 8) {fi : Field}
    (hfi : fi.size = 8) (hv : fi.varint = false) :
    ∃ s', unmarshalUint d 8 fi s = (.err .eof, s') := by
  obtain ⟨r', h1, _, _⟩ := readBits_eof hw hr
  refine ⟨⟨r', s.rbits⟩, ?_⟩
  unfold unmarshalUint
  rw [hv, hfi]
  simp only [Bool.false_eq_true, if_false]
  rw [if_neg (by decide), readBitsA_eq (by simp only [maxAlloc]; omega)]
  rw [M.bind_err (s' := { s with r := r' }) (e := .eof) (by simp [liftR, h1])]

/-- A `FullBox` cannot be decoded from less than four bytes. -/
theorem fullBox_short {e : UEnv} {t : Ty} {fi : Field} {cur : Val} {s : USt} {p : Bytes}
    (ht : t.isFullBox = true) (hfi : fi.size = 0) (hty : typedV t cur = true) (hw : s.r.WF e.d)
    (hr : s.r.rem e.d = bytesBits p) (hp : p.length < 4) :
    ∃ s', unmarshalV e t fi cur s = (.err .eof, s') := by
  unfold Ty.isFullBox at ht
  split at ht
  · next c f1 f2 =>
    simp only [Bool.and_eq_true, beq_iff_eq] at ht
    obtain ⟨rfl, rfl⟩ := ht
    obtain ⟨v, a1, a2, a3, rfl, _, _, _, _⟩ := typed_fullBox_inv hty
    clear hty
    have htar : ∀ cf root csv (n : String) (f : Field), f = { name := n, size := 8 } →
        isTarget cf e.ctx root csv f = true := by
      intro cf root csv n f hf
      subst hf
      simp [isTarget]
    have hres : ∀ cf csv (n : String) (f : Field), f = { name := n, size := 8 } →
        resolve cf e.ctx csv f = some f := by
      intro cf csv n f hf
      subst hf
      rfl
    simp only [unmarshalV, structInternal, hfi]
    rw [if_neg (by decide)]
    match p, hp with
    | [], _ =>
      obtain ⟨s1, e1⟩ := readByte_eof (fi := { name := "Version", size := 8 }) hw (by rw [hr]; decide) rfl rfl
      refine ⟨s1, ?_⟩
      rw [M.bind_err]
      rw [unmarshalFields_nested _ c _ _ _ _ s (hres _ _ _ _ rfl) rfl, if_neg (by rw [htar _ _ _ _ _ rfl]; decide)]
      simp only [unmarshalV]
      rw [M.bind_err e1]
    | [b0], _ =>
      simp only [bytesBits_cons, bytesBits_nil] at hr
      obtain ⟨s1, e1, r1, w1, c1⟩ := readByte_run (fi := { name := "Version", size := 8 }) hw hr rfl rfl
      obtain ⟨s2, e2⟩ := readByte_eof (fi := { name := "Flags", size := 8 }) w1 (by rw [r1]; decide) rfl rfl
      refine ⟨s2, ?_⟩
      rw [M.bind_err]
      rw [unmarshalFields_nested _ c _ _ _ _ s (hres _ _ _ _ rfl) rfl, if_neg (by rw [htar _ _ _ _ _ rfl]; decide)]
      simp only [unmarshalV]
      rw [M.bind_ok e1]
      rw [unmarshalFields_nested _ c _ _ _ _ s1 (hres _ _ _ _ rfl) rfl, if_neg (by rw [htar _ _ _ _ _ rfl]; decide)]
      simp only [unmarshalV]
      rw [M.bind_err (s' := s2) (e := .eof)]
      rw [M.bind_err (s' := s2) (e := .eof)]
      unfold arrLoop
      rw [M.bind_err e2]
    | [b0, b1], _ =>
      simp only [bytesBits_cons, bytesBits_nil] at hr
      obtain ⟨s1, e1, r1, w1, c1⟩ := readByte_run (fi := { name := "Version", size := 8 }) hw hr rfl rfl
      obtain ⟨s2, e2, r2, w2, c2⟩ := readByte_run (fi := { name := "Flags", size := 8 }) w1 r1 rfl rfl
      obtain ⟨s3, e3⟩ := readByte_eof (fi := { name := "Flags", size := 8 }) w2 (by rw [r2]; decide) rfl rfl
      refine ⟨s3, ?_⟩
      rw [M.bind_err]
      rw [unmarshalFields_nested _ c _ _ _ _ s (hres _ _ _ _ rfl) rfl, if_neg (by rw [htar _ _ _ _ _ rfl]; decide)]
      simp only [unmarshalV]
      rw [M.bind_ok e1]
      rw [unmarshalFields_nested _ c _ _ _ _ s1 (hres _ _ _ _ rfl) rfl, if_neg (by rw [htar _ _ _ _ _ rfl]; decide)]
      simp only [unmarshalV]
      rw [M.bind_err (s' := s3) (e := .eof)]
      rw [M.bind_err (s' := s3) (e := .eof)]
      unfold arrLoop
      rw [M.bind_ok e2]
      unfold arrLoop
      rw [M.bind_err (s' := s3) (e := .eof)]
      rw [M.bind_err e3]
    | [b0, b1, b2], _ =>
      simp only [bytesBits_cons, bytesBits_nil] at hr
      obtain ⟨s1, e1, r1, w1, c1⟩ := readByte_run (fi := { name := "Version", size := 8 }) hw hr rfl rfl
      obtain ⟨s2, e2, r2, w2, c2⟩ := readByte_run (fi := { name := "Flags", size := 8 }) w1 r1 rfl rfl
      obtain ⟨s3, e3, r3, w3, c3⟩ := readByte_run (fi := { name := "Flags", size := 8 }) w2 r2 rfl rfl
      obtain ⟨s4, e4⟩ := readByte_eof (fi := { name := "Flags", size := 8 }) w3 (by rw [r3]; decide) rfl rfl
      refine ⟨s4, ?_⟩
      rw [M.bind_err]
      rw [unmarshalFields_nested _ c _ _ _ _ s (hres _ _ _ _ rfl) rfl, if_neg (by rw [htar _ _ _ _ _ rfl]; decide)]
      simp only [unmarshalV]
      rw [M.bind_ok e1]
      rw [unmarshalFields_nested _ c _ _ _ _ s1 (hres _ _ _ _ rfl) rfl, if_neg (by rw [htar _ _ _ _ _ rfl]; decide)]
      simp only [unmarshalV]
      rw [M.bind_err (s' := s4) (e := .eof)]
      rw [M.bind_err (s' := s4) (e := .eof)]
      unfold arrLoop
      rw [M.bind_ok e2]
      unfold arrLoop
      rw [M.bind_err (s' := s4) (e := .eof)]
      rw [M.bind_ok e3]
      unfold arrLoop
      rw [M.bind_err (s' := s4) (e := .eof)]
      rw [M.bind_err e4]
    | _ :: _ :: _ :: _ :: _, h =>
      simp only [List.length_cons] at h
      omega
  · simp at ht

/-- the step that fails to decode `FullBox` -/
theorem fullBox_step_short {e : UEnv} {t : Ty} {fs : Fields} {sv : SV} {s : USt} {p : Bytes}
    {x : Val} (ht : t.isFullBox = true) (hget : sv.get "FullBox" = some x) (hx : typedV t x = true)
    (hw : s.r.WF e.d) (hr : s.r.rem e.d = bytesBits p) (hp : p.length < 4) :
    ∃ s', unmarshalFields e true (some e.cfo) (.cons { name := "FullBox", extend := true } t fs) sv s =
      (.err .eof, s') := by
  obtain ⟨s', h1⟩ := fullBox_short (e := { e with root := sv }) (fi := { name := "FullBox", extend := true })
    ht rfl hx hw hr hp
  refine ⟨s', ?_⟩
  rw [unmarshalFields_top e (some e.cfo) _ t fs sv s (fi := { name := "FullBox", extend := true }) rfl,
    if_neg (by simp [isTarget])]
  unfold runHook
  rw [M.bind_ok (m := M.get) (s' := s) (a := s) rfl]
  have hor : onRead e.hook e.d "FullBox" (left e.size8 s.rbits) sv s.r = (.ok (0, false, sv), s.r) := by
    unfold onRead
    cases e.hook <;> simp
  rw [M.bind_ok (s' := s) (a := (0, false, sv)) (by simp only [liftR]; rw [hor])]
  rw [M.bind_ok (s' := s) (a := ()) (by simp [addR])]
  unfold afterHook
  simp only [Bool.false_eq_true, if_false]
  rw [hget]
  simp only
  rw [M.bind_err h1]

/-- bytes 4 to 7 of the payload are all 0xff -/
def allOnes (d : Bytes) (pos : Nat) : Prop := (d.drop (pos + 4)).take 4 = [0xff#8, 0xff#8, 0xff#8, 0xff#8]

/-- the condition for termination that is proved here: a `trun` box does not announce 2^32-1 samples -/
def Ends (bd : BoxDef) (d : Bytes) (pos : Nat) : Prop := bd.goName = "Trun" → ¬ allOnes d pos

theorem greedy_of_fields {c : Cfo} {ctx : Ctx} : ∀ {fs : Fields}, fs.greedyOk = true → ∀ f t, (f, t) ∈ fs.toList →
    ∀ sv fi, resolve c ctx sv f = some fi → t.greedyOk (fi.length == lengthUnlimited) = true
  | .nil, _, f, t, hm, sv, fi, hr => by simp [Fields.toList] at hm
  | .cons g u fs, hg, f, t, hm, sv, fi, hr => by
    simp only [Fields.greedyOk, Bool.and_eq_true] at hg
    simp only [Fields.toList, List.mem_cons, Prod.mk.injEq] at hm
    rcases hm with ⟨rfl, rfl⟩ | hm
    · refine Ty.greedyOk_weaken ?_ _ hg.1
      intro h
      obtain ⟨size, length, hfi, _, _, hl1, _⟩ := resolve_eta hr
      cases hld : f.lenDyn with
      | true => rfl
      | false =>
        rw [hfi] at h
        simp only [hl1 hld] at h
        simpa using h
    · exact greedy_of_fields hg.2 f t hm sv fi hr

theorem rem_fresh (d : Bytes) (pos : Nat) : (RSt.fresh pos).rem d = bytesBits (d.drop pos) :=
  RSt.rem_aligned rfl

/-- What the decoding of the fields of a box does. -/
theorem fields_post {bd : BoxDef} (hbd : bd ∈ Cat.allDefs) {d : Bytes} (hd : d.length ≤ maxAlloc) {pos : Nat}
    (hpos : pos ≤ d.length) (ctx : Ctx) (ps : Nat) {sv : SV} (hty : typedFields bd.fields sv = true) :
    Post d (Ends bd d pos) (fun _ cur' => typedFields bd.fields cur' = true ∧
        ("FullBox" ∈ bd.fields.names → bd.supports cur'.version = true)) ⟨RSt.fresh pos, 0⟩
      (unmarshalFields (bd.uenv d ctx ps) true (some bd.cfo) bd.fields sv ⟨RSt.fresh pos, 0⟩) := by
  obtain ⟨hfb, hht, hhf, hpl, hgr⟩ := allDefs_static bd hbd
  have hnod := allDefs_nodup bd hbd
  have hnd := Fields.nodup_names _ hnod
  have htot := allDefs_total bd hbd
  have hw : RSt.WF d (RSt.fresh pos) := ⟨by simp [RSt.fresh], hpos⟩
  have h8 : (bd.uenv d ctx ps).size8 % 8 = 0 := by
    simp only [BoxDef.uenv, U64]; omega
  have hal : (0 + ((RSt.fresh pos).rem d).length) % 8 = 0 := by
    rw [rem_fresh, bytesBits_length]; omega
  have main := safe_top hd (Ends bd d pos) (verOk bd) (dynSizes bd) (bd.uenv d ctx ps) bd.fields rfl h8 hnd hht hhf
    (fun a b h1 h2 h3 => by rw [← h1]; exact h2 h3) (dynSizes_small hbd)
  unfold fbShape at hfb
  split at hfb
  · next f t fs hs =>
    simp only [Bool.or_eq_true, Bool.and_eq_true, beq_iff_eq, Bool.not_eq_true', List.contains_eq_mem,
      decide_eq_false_iff_not] at hfb
    rcases hfb with ⟨⟨hf, hft⟩, hnf⟩ | ⟨⟨⟨hf, hnf⟩, hgn⟩, _⟩
    · -- with `FullBox`
      obtain ⟨x, hget, hx⟩ := full_of_typed hs (by rw [hf]) hnd hty
      by_cases hlen : (d.drop pos).length < 4
      · obtain ⟨s', he⟩ := fullBox_step_short (e := bd.uenv d ctx ps) (fs := fs) (s := ⟨RSt.fresh pos, 0⟩) hft hget hx
          hw (rem_fresh d pos) hlen
        rw [hs, hf]
        change Post _ _ _ _ (unmarshalFields (bd.uenv d ctx ps) true (some (bd.uenv d ctx ps).cfo) _ sv _)
        rw [he]
        trivial
      · obtain ⟨b0, b1, b2, b3, rest, hdrop⟩ : ∃ b0 b1 b2 b3 rest, d.drop pos = b0 :: b1 :: b2 :: b3 :: rest := by
          match hq : d.drop pos, hlen with
          | [], h => simp at h
          | [_], h => simp at h
          | [_, _], h => simp at h
          | [_, _, _], h => simp at h
          | a :: b :: c :: e :: r, _ => exact ⟨a, b, c, e, r, rfl⟩
        have hrem : (RSt.fresh pos).rem d = bytesBits [b0, b1, b2, b3] ++ bytesBits rest := by
          rw [rem_fresh, hdrop, ← bytesBits_append]; rfl
        obtain ⟨s', r1, w1, c1, he⟩ := fullBox_step (e := bd.uenv d ctx ps) (fs := fs) (s := ⟨RSt.fresh pos, 0⟩) hft hget
          hx hw hrem
        have hmem : (f, t) ∈ bd.fields.toList := by rw [hs]; simp [Fields.toList]
        have hty1 : typedFields bd.fields (sv.set "FullBox" (fullBoxVal b0 b1 b2 b3)) = true := by
          have := typed_set hnd hty hmem (fullBox_typed hft b0 b1 b2 b3)
          rw [hf] at this
          exact this
        have hver : (sv.set "FullBox" (fullBoxVal b0 b1 b2 b3)).version = b0.toNat := by
          unfold SV.version SV.full
          rw [SV.get_set_eq (by rw [hget]; simp)]
          simp [fullBoxVal, SV.uint, SV.get]
        suffices hsuf : bd.supports b0.toNat = true → Post d (Ends bd d pos) (fun _ cur' =>
            typedFields bd.fields cur' = true ∧ (cur'.get "FullBox" =
              (sv.set "FullBox" (fullBoxVal b0 b1 b2 b3)).get "FullBox")) s'
            (unmarshalFields (bd.uenv d ctx ps) true (some bd.cfo) fs (sv.set "FullBox" (fullBoxVal b0 b1 b2 b3)) s') by
          rw [hs, hf]
          change Post _ _ _ _ (unmarshalFields (bd.uenv d ctx ps) true (some (bd.uenv d ctx ps).cfo) _ sv _)
          rw [he]
          by_cases hsup : bd.supports b0.toNat = true
          · rw [if_neg (by change ¬ ¬ bd.supports b0.toNat = true; simp [hsup])]
            have := hsuf hsup
            change Post d (Ends bd d pos) _ s' (unmarshalFields (bd.uenv d ctx ps) true (some (bd.uenv d ctx ps).cfo) fs (sv.set "FullBox" (fullBoxVal b0 b1 b2 b3)) s') at this
            cases hr : unmarshalFields (bd.uenv d ctx ps) true (some (bd.uenv d ctx ps).cfo) fs
                (sv.set "FullBox" (fullBoxVal b0 b1 b2 b3)) s' with
            | mk o s2 =>
              rw [hr] at this
              match o, this with
              | .ok a, ⟨bs, q1, q2, q3, q4, q5⟩ =>
                refine ⟨bytesBits [b0, b1, b2, b3] ++ bs, ?_, q2, ?_, ?_, ?_⟩
                · change (RSt.fresh pos).rem d = _
                  rw [hrem, List.append_assoc, ← q1]
                  congr 1
                  exact r1.symm
                · rw [q3, c1, List.length_append, bytesBits_length]
                  simp only [List.length_cons, List.length_nil]
                  omega
                · rw [← hf, ← hs]; exact q4
                · intro _
                  rw [SV.version_congr q5, hver]
                  exact hsup
              | .err _, _ => trivial
              | .panic, h => exact h.elim
              | .hang, h => exact h
          · rw [if_pos (by change ¬ bd.supports b0.toNat = true; exact hsup)]
            trivial
        intro hsup
        have hok1 : verOk bd (sv.set "FullBox" (fullBoxVal b0 b1 b2 b3)) := verOk_supports hbd (by rw [hver]; exact hsup)
        rw [hs] at htot hpl hnod
        simp only [Fields.Total] at htot
        simp only [Fields.plain, Bool.and_eq_true] at hpl
        simp only [Fields.nodup, Bool.and_eq_true] at hnod
        have hal1 : (s'.rbits + (s'.r.rem d).length) % 8 = 0 := by
          have : (s'.r.rem d).length = (bytesBits rest).length := congrArg List.length r1
          rw [c1, this, bytesBits_length]
          simp only
          omega
        by_cases htr : bd.goName = "Trun"
        · have hb := bd_trun bd hbd htr
          subst hb
          have hfs : fs = .cons { name := "SampleCount", size := 32 } (.uint 32)
              (.cons { name := "DataOffset", size := 32, optFlag := 1 } (.int 32)
                (.cons { name := "FirstSampleFlags", size := 32, optFlag := 4, hex := true } (.uint 32)
                  (.cons { name := "Entries", lenDyn := true, sizeDyn := true } (.slice Cat.tyTrunEntry) .nil))) := by
            have : Cat.bdTrun.fields = .cons f t fs := hs
            simp only [Cat.bdTrun, Cat.fsTrun, Fields.ofList, Fields.cons.injEq] at this
            exact this.2.2.symm
          generalize hsv1 : sv.set "FullBox" (fullBoxVal b0 b1 b2 b3) = sv1 at hty1 hok1 ⊢
          rw [hfs]
          rw [unmarshalFields_top _ (some Cat.bdTrun.cfo) _ _ _ sv1 s' (fi := { name := "SampleCount", size := 32 }) rfl,
            if_neg (by simp [isTarget])]
          refine post_runHook (d := d) w1 hd hal1 h8 ?_
          intro bs ov cur1 s1 hres1 hrem1 hw1 hb1
          cases hres1 with
          | emsgSkip he _ _ => cases he
          | emsgText he _ _ _ _ _ _ => cases he
          | hdlrEmpty he _ _ => cases he
          | hdlrName he _ _ _ _ => cases he
          | avcc he _ => cases he
          | same _ =>
            unfold afterHook
            have hm1 : (({ name := "SampleCount", size := 32 } : Field), Ty.uint 32) ∈ Cat.bdTrun.fields.toList := by
              rw [hs, hfs]; simp [Fields.toList]
            obtain ⟨x1, hget1, hx1⟩ := typed_get hnd hty1 hm1
            simp only [Bool.false_eq_true, if_false]
            rw [hget1]
            simp only [unmarshalV]
            refine Post.bind (post_uint (d := d) (nh := Ends Cat.bdTrun d pos) hw1 (by simp only [maxAlloc]; omega)) ?_
            intro bs2 v s2 ⟨_, n, hv, hn32, hbits⟩ hrem2 hw2 hb2
            subst hv
            obtain ⟨hbl, hbn⟩ := hbits rfl
            simp only at hbl
            rw [if_neg (by simp)]
            have hn1 : Ends Cat.bdTrun d pos → n ≠ lengthUnlimited := by
              intro hend hnu
              apply hend rfl
              have hbs : bs2 = bytesBits [0xff#8, 0xff#8, 0xff#8, 0xff#8] := by
                have h1 : bitsNat bs2 = 2 ^ 32 - 1 := by
                  have h2 := bitsNat_lt bs2
                  rw [hbl] at h2
                  rw [hnu] at hbn
                  simp only [lengthUnlimited, U64] at hbn
                  omega
                have := natBits_bitsNat bs2
                rw [hbl, h1] at this
                rw [← this]
                decide
              have hrest : bytesBits rest = bytesBits [0xff#8, 0xff#8, 0xff#8, 0xff#8] ++ s2.r.rem d := by
                have h1 : s'.r.rem d = bytesBits rest := r1
                rw [← h1, hrem1, List.nil_append, hrem2, hbs]
              have hlen4 : 4 ≤ rest.length := by
                have := congrArg List.length hrest
                rw [List.length_append, bytesBits_length, bytesBits_length] at this
                simp only [List.length_cons, List.length_nil] at this
                omega
              have h4 : rest.take 4 = [0xff#8, 0xff#8, 0xff#8, 0xff#8] := by
                apply bytesBits_inj
                have h5 : bytesBits rest = bytesBits (rest.take 4) ++ bytesBits (rest.drop 4) := by
                  rw [← bytesBits_append, List.take_append_drop]
                rw [h5] at hrest
                exact (List.append_inj hrest (by
                  rw [bytesBits_length, bytesBits_length, List.length_take]
                  simp only [List.length_cons, List.length_nil]
                  omega)).1
              unfold allOnes
              rw [← List.drop_drop, hdrop]
              exact h4
            have hty2 : typedFields Cat.bdTrun.fields (sv1.set "SampleCount" (.uint n)) = true :=
              typed_set hnd hty1 hm1 (by simp [typedV, hn32])
            have hk2 : ∀ m, m ≠ "SampleCount" → (sv1.set "SampleCount" (.uint n)).get m = sv1.get m := by
              intro m hm
              rw [SV.get_set_ne hm]
            have hu2 : (sv1.set "SampleCount" (.uint n)).get "SampleCount" = some (.uint n) :=
              SV.get_set_eq (by rw [hget1]; simp)
            rw [hfs] at hnf htot hpl hnod
            simp only [Fields.Total] at htot
            simp only [Fields.plain, Bool.and_eq_true] at hpl
            simp only [Fields.nodup, Bool.and_eq_true] at hnod
            refine (main _ _ ?_ ?_ ?_ ?_ ?_ ?_ hty2 ?_ s2 hw2 ?_).mono ?_
            · intro g u hm
              rw [hs, hfs]
              simp only [Fields.toList, List.mem_cons] at hm ⊢
              exact Or.inr (Or.inr hm)
            · simp [Fields.names]
            · simp only [Fields.Total]
              exact htot.2.2.2.2
            · simp only [Fields.plain, Bool.and_eq_true]
              exact hpl.2.2
            · simp only [Fields.nodup, Bool.and_eq_true]
              exact hnod.2.2
            · intro hend g u hm cur' fi hc hr
              simp only [Fields.toList, List.mem_cons, List.not_mem_nil, or_false, Prod.mk.injEq] at hm
              rcases hm with ⟨rfl, rfl⟩ | ⟨rfl, rfl⟩ | ⟨rfl, rfl⟩
              · simp [Ty.greedyOk]
              · simp [Ty.greedyOk]
              · obtain ⟨size, length, hfi, _, _, _, hl⟩ := resolve_eta hr
                have hl' := hl rfl
                have hsc : cur'.uint "SampleCount" = n := by
                  have := hc "SampleCount" (by simp [Fields.names]) (by simp [hookNames, BoxDef.uenv, Cat.bdTrun])
                  rw [hu2] at this
                  simp [SV.uint, this]
                change cfoTrun.length "Entries" _ cur' = some length at hl'
                simp only [cfoTrun, if_true, hsc, Option.some.injEq] at hl'
                have hnu : (fi.length == lengthUnlimited) = false := by
                  rw [hfi, ← hl']
                  simpa using hn1 hend
                rw [hnu]
                decide
            · intro h
              have := hok1 h
              rw [SV.version_congr (hk2 "FullBox" (by decide))]
              exact this
            · rw [hrem1, List.nil_append, hrem2, List.length_append] at hal1
              rw [hb2, hb1]
              simp only [List.length_nil]
              omega
            · intro bs' cur' ⟨h1, h2⟩
              refine ⟨h1, ?_⟩
              rw [h2 "FullBox" (by simp [Fields.names]) hhf, hk2 _ (by decide)]
        · refine (main fs _ ?_ hnf htot.2.2 hpl.2 hnod.2 ?_ hty1 hok1 s' w1 hal1).mono ?_
          · intro g u hm
            rw [hs]
            simp [Fields.toList, hm]
          · intro _ g u hm cur' fi _ hr
            rcases hgr with h | h
            · exact absurd h htr
            · rw [hs] at h
              simp only [Fields.greedyOk, Bool.and_eq_true] at h
              exact greedy_of_fields h.2 g u hm cur' fi hr
          · intro bs cur' ⟨h1, h2⟩
            exact ⟨h1, h2 _ hnf hhf⟩
    · -- without `FullBox`
      simp only [List.mem_cons, List.not_mem_nil, or_false, not_or] at hgn
      have hnm : "FullBox" ∉ bd.fields.names := by
        rw [hs]
        simp only [Fields.names, List.mem_cons, not_or]
        refine ⟨?_, hnf⟩
        intro h
        rw [← h] at hf
        simp at hf
      refine (main bd.fields sv (fun _ _ h => h) hnm htot hpl hnod ?_ hty ?_ _ hw hal).mono ?_
      · intro _ g u hm cur' fi _ hr
        rcases hgr with h | h
        · exact absurd h hgn.2.2
        · exact greedy_of_fields h g u hm cur' fi hr
      · rintro (h | h)
        · exact absurd h hgn.1
        · exact absurd h hgn.2.1
      · intro bs cur' ⟨h1, h2⟩
        exact ⟨h1, fun h => absurd h hnm⟩
  · next hs =>
    simp only [Bool.and_eq_true, Bool.not_eq_true', List.contains_eq_mem, decide_eq_false_iff_not] at hfb
    have hgn := hfb.1
    simp only [List.mem_cons, List.not_mem_nil, or_false, not_or] at hgn
    rw [hs]
    simp only [unmarshalFields]
    refine Post.pure hw ⟨by rw [← hs]; exact hty, by simp [Fields.names]⟩

/-- What a run of `Unmarshal` may end with. -/
def UnmarshalPost (bd : BoxDef) (d : Bytes) (pos ps : Nat) : Out (Nat × SV) × Nat → Prop
  | (.ok (n, sv), pos') => n ≤ ps ∧ pos' = pos + n ∧ pos' ≤ d.length ∧ typedFields bd.fields sv = true ∧
      ("FullBox" ∈ bd.fields.names → bd.metaHook = false → bd.supports sv.version = true)
  | (.err _, _) => True
  | (.panic, _) => False
  | (.hang, _) => ¬ Ends bd d pos

/-- **Every run of `Unmarshal`** on a stream, from a position in it, into a box of the right type. -/
theorem unmarshalBox_post {bd : BoxDef} (hbd : bd ∈ Cat.allDefs) {d : Bytes} (hd : d.length ≤ maxAlloc) {pos : Nat}
    (hpos : pos ≤ d.length) (ctx : Ctx) (ps : Nat) {dst : SV} (hty : typedFields bd.fields dst = true) :
    UnmarshalPost bd d pos ps (unmarshalBox bd d ctx ps dst pos) := by
  have hbody : ∀ sv, typedFields bd.fields sv = true → UnmarshalPost bd d pos ps (unmarshalBody bd d ctx ps sv pos) := by
    intro sv hsv
    have hp := fields_post hbd hd hpos ctx ps hsv
    unfold unmarshalBody
    cases hr : unmarshalFields (bd.uenv d ctx ps) true (some bd.cfo) bd.fields sv ⟨RSt.fresh pos, 0⟩ with
    | mk o st =>
      rw [hr] at hp
      match o, hp with
      | .ok sv', ⟨bs, e1, w1, c1, q1, q2⟩ =>
        simp only
        split
        · trivial
        · next h8 =>
          split
          · trivial
          · next hle =>
            simp only [Nat.zero_add] at c1
            have hlen := congrArg List.length e1
            change ((RSt.fresh pos).rem d).length = _ at hlen
            rw [rem_fresh, bytesBits_length, List.length_append, RSt.rem_length, List.length_drop] at hlen
            have hwid := w1.width
            have hp1 := w1.pos
            refine ⟨?_, ?_, hp1, q1, fun h _ => q2 h⟩
            · have : ps * 8 % U64 ≤ ps * 8 := Nat.mod_le _ _
              omega
            · omega
      | .err e, _ => cases e <;> exact trivial
      | .panic, h => exact h.elim
      | .hang, h => exact h
  have htv := typed_setVersion hbd hty (v := anyVersion) (by decide)
  unfold unmarshalBox
  simp only
  split
  · next hm =>
    rw [M.bind_run]
    cases hmb : metaBefore d (dst.setVersion anyVersion) pos with
    | mk o p' =>
      unfold metaBefore at hmb
      simp only at hmb
      split at hmb
      · cases hmb; trivial
      · split at hmb
        · cases hmb; trivial
        · split at hmb
          · cases hmb
            refine ⟨Nat.zero_le _, rfl, hpos, ?_, ?_⟩
            · obtain ⟨hfb, -⟩ := allDefs_static bd hbd
              have hnd := Fields.nodup_names _ (allDefs_nodup bd hbd)
              unfold fbShape at hfb
              split at hfb
              · next f t fs hs =>
                simp only [Bool.or_eq_true, Bool.and_eq_true, beq_iff_eq, Bool.not_eq_true', hm, Bool.true_eq_false,
                  and_false, or_false] at hfb
                have hmem : (f, t) ∈ bd.fields.toList := by rw [hs]; simp [Fields.toList]
                have := typed_set hnd htv hmem (fullBox_typed hfb.1.2 0#8 0#8 0#8 0#8)
                rw [hfb.1.1] at this
                exact this
              · simp [hm] at hfb
            · intro _ h
              rw [hm] at h
              cases h
          · cases hmb
            exact hbody _ htv
  · exact hbody _ htv

end Mp4
