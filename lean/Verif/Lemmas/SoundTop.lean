import Verif.Lemmas.SoundBox

/-!
# What was decoded is what the bits say: boxes
-/

namespace Mp4

open Spec

theorem okp_runHook {α : Type} {d : Bytes} {Q : List Bool → α → Prop} {h : Hook} {name : String} {size8 : Nat} {cur : SV}
    {k : Bool → SV → UM α} {s : USt} (hw : s.r.WF d) (hd : d.length ≤ maxAlloc)
    (hal : (s.rbits + (s.r.rem d).length) % 8 = 0) (h8 : size8 % 8 = 0)
    (hk : ∀ bs ov cur' s', HookRes h name (left size8 s.rbits) cur bs ov cur' → s.r.rem d = bs ++ s'.r.rem d →
      s'.r.WF d → s'.rbits = s.rbits + bs.length → OkPost d (fun bs' b => Q (bs ++ bs') b) s' (k ov cur' s')) :
    OkPost d Q s (runHook h d name size8 cur k s) := by
  intro a s' hx
  have hp := post_runHook (nh := True) (h := h) (name := name) (size8 := size8) (cur := cur)
    (k := fun ov cur' => (Pure.pure (ov, cur') : UM (Bool × SV)))
    (Q := fun bs p => HookRes h name (left size8 s.rbits) cur bs p.1 p.2) hw hd hal h8
    (fun bs ov cur' s' hr _ hw' _ => Post.pure hw' (by simpa using hr))
  unfold runHook at hx hp
  obtain ⟨s0, s1, e0, hx⟩ := bind_ok_inv hx
  rw [M.get_run] at e0
  cases e0
  obtain ⟨x, s2, e1, hx⟩ := bind_ok_inv hx
  obtain ⟨u, s3, e2, hx⟩ := bind_ok_inv hx
  rw [M.bind_ok (m := M.get) (s' := s) (a := s) rfl, M.bind_ok e1, M.bind_ok e2] at hp
  obtain ⟨bs, r1, w1, c1, q1⟩ := hp
  obtain ⟨bs2, r2, w2, c2, q2⟩ := hk bs x.2.1 x.2.2 s3 q1 r1 w1 c1 a s' hx
  exact ⟨bs ++ bs2, by rw [r1, r2, List.append_assoc], w2, by rw [c2, c1, List.length_append]; omega, q2⟩

theorem layoutFields_top {L : Env} {f fi : Field} {t : Ty} {fs : Fields} {sv : SV} {b : Bool}
    (hfi : instField L.cfo L.ctx sv f = fi)
    (hp : present L.cfo L.ctx L.root.version L.root.flags sv fi = b) :
    layoutFields L true (some L.cfo) (.cons f t fs) sv =
      (if b then before L.hook f.name sv ++ (if silent L.hook f.name sv then [] else
        (match sv.get f.name with | some v => layoutV L t fi v | none => [])) else []) ++
        layoutFields L true (some L.cfo) fs sv := by
  simp only [layoutFields, Option.getD_some, Option.isSome_some, if_true, hfi, hp, Bool.true_and]
  cases sv.get f.name <;> rfl

theorem writableFields_top {L : Env} {f fi : Field} {t : Ty} {fs : Fields} {sv : SV} {b : Bool}
    (hfi : instField L.cfo L.ctx sv f = fi)
    (hp : present L.cfo L.ctx L.root.version L.root.flags sv fi = b)
    (h1 : (!f.sizeDyn || (L.cfo.size f.name L.ctx sv).isSome) = true)
    (h2 : (!f.lenDyn || (L.cfo.length f.name L.ctx sv).isSome) = true) :
    writableFields L true (some L.cfo) (.cons f t fs) sv =
      ((!b || (if silent L.hook f.name sv then
          L.hook != .avcc || !sv.bool "HighProfileFieldsEnabled" || highProfile (sv.uint "Profile")
        else (match sv.get f.name with | some v => writableV L t fi v | none => false))) &&
        writableFields L true (some L.cfo) fs sv) := by
  simp only [writableFields, Option.getD_some, Option.isSome_some, if_true, hfi, hp, h1, h2, Bool.true_and]
  cases sv.get f.name <;> rfl

theorem countsFields_top {L : Env} {f fi : Field} {t : Ty} {fs : Fields} {sv : SV} {b : Bool}
    (hfi : instField L.cfo L.ctx sv f = fi)
    (hp : present L.cfo L.ctx L.root.version L.root.flags sv fi = b) :
    countsFields L (some L.cfo) (.cons f t fs) sv =
      ((!b || (match sv.get f.name with | some v => countsV L t fi v | none => true)) &&
        countsFields L (some L.cfo) fs sv) :=
  countsFields_cons (c := some L.cfo) (L := L) (sv := sv) hfi hp

theorem mem_unique {f g : Field} {t u : Ty} : ∀ {fs : Fields}, fs.names.Nodup → (f, t) ∈ fs.toList →
    (g, u) ∈ fs.toList → f.name = g.name → t = u
  | .nil, _, h, _, _ => by simp [Fields.toList] at h
  | .cons f0 t0 fs, hnd, h1, h2, he => by
    simp only [Fields.names, List.nodup_cons] at hnd
    simp only [Fields.toList, List.mem_cons, Prod.mk.injEq] at h1 h2
    rcases h1 with ⟨rfl, rfl⟩ | h1 <;> rcases h2 with ⟨rfl, rfl⟩ | h2
    · rfl
    · exact absurd (he ▸ names_of_mem h2) hnd.1
    · exact absurd (he ▸ names_of_mem h1) hnd.1
    · exact mem_unique hnd.2 h1 h2 he

/-- What is known of the fields of a box that were decoded from the bits `bs`. -/
def TQ (q dir : Bool) (ex : List String) (e : UEnv) (all fs : Fields) (cur : SV) (bs : List Bool) (sv : SV) : Prop :=
  typedFields all sv = true ∧
  (∀ n, n ∉ fs.names → ¬ Deferred true e.hook sv fs n → sv.get n = cur.get n) ∧
  (∀ g w, (g, Ty.uint w) ∈ fs.toList → g.uncond = true → g.sizeDyn = false → g.varint = false →
    g.name ∉ hookNames e.hook → sv.uint g.name < 2 ^ g.size) ∧
  countsFields ⟨e.ctx, e.cfo, e.hook, sv⟩ (some e.cfo) fs sv = true ∧
  (q = true → ExOk ex ⟨e.ctx, e.cfo, e.hook, sv⟩ →
    SQ dir bs (layoutFields ⟨e.ctx, e.cfo, e.hook, sv⟩ true (some e.cfo) fs sv) ∧
    writableFields ⟨e.ctx, e.cfo, e.hook, sv⟩ true (some e.cfo) fs sv = true)

theorem HookRes.changed {h : Hook} {name : String} {lft : Nat} {cur cur' : SV} {bs : List Bool} {ov : Bool}
    (hr : HookRes h name lft cur bs ov cur') {n : String} (hn : n ≠ name)
    (hd : ¬ (h = .emsg ∧ cur.version ≠ 0 ∧ name = "MessageData" ∧ (n = "SchemeIdUri" ∨ n = "Value"))) :
    cur'.get n = cur.get n := by
  cases hr with
  | same => rfl
  | emsgSkip => rfl
  | emsgText he hv hm a b ha hb =>
    have : n ≠ "SchemeIdUri" ∧ n ≠ "Value" := by
      constructor
      · intro h; exact hd ⟨he, hv, hm, Or.inl h⟩
      · intro h; exact hd ⟨he, hv, hm, Or.inr h⟩
    rw [SV.get_set_ne this.2, SV.get_set_ne this.1]
  | hdlrEmpty he hm hl => rw [SV.get_set_ne (hm ▸ hn)]
  | hdlrName he hm buf hl hb => rw [SV.get_set_ne (hm ▸ hn)]
  | avcc he hm => rw [SV.get_set_ne (hm ▸ hn)]

theorem HookRes.override {h : Hook} {name : String} {lft : Nat} {cur cur' : SV} {bs : List Bool}
    (hr : HookRes h name lft cur bs true cur') : name ∈ hookNames h := by
  cases hr with
  | emsgSkip he hv hn => subst he; rcases hn with rfl | rfl <;> simp [hookNames]
  | hdlrEmpty he hm hl => subst he; subst hm; simp [hookNames]
  | hdlrName he hm buf hl hb => subst he; subst hm; simp [hookNames]
  | avcc he hm => subst he; subst hm; simp [hookNames]

theorem sound_top {d : Bytes} (hd : d.length ≤ maxAlloc) (q dir : Bool) (ex : List String) (e : UEnv) (all : Fields)
    (hed : e.d = d) (h8 : e.size8 % 8 = 0) (hnd : all.names.Nodup) (hht : hookTyped e.hook all = true)
    (hlc : e.cfo.Local) (hsl : e.cfo.SmallLen) (hqh : q = true → e.hook ≠ .hdlr) :
    ∀ (fs : Fields) (known : List String) (cur : SV), (∀ f t, (f, t) ∈ fs.toList → (f, t) ∈ all.toList) →
      (∀ n ∈ known, n ∉ fs.names ∧ ¬ (e.hook = .emsg ∧ (n = "SchemeIdUri" ∨ n = "Value"))) →
      okFields e.cfo [] true e.hook (some e.cfo) known fs = true → fs.AllLocal → fs.AllSmall →
      Fields.basic (some e.cfo) all fs = true → (q = true → fs.exact dir ex (some e.cfo) = true) → fs.nodup = true →
      typedFields all cur = true →
      ∀ s, s.r.WF d → (s.rbits + (s.r.rem d).length) % 8 = 0 →
      OkPost d (fun bs sv => TQ q dir ex e all fs cur bs sv) s (unmarshalFields e true (some e.cfo) fs cur s)
  | .nil, known, cur, hsub, hkn, hok, hloc, hsm, hb, hex, hn, hty, s, hw, hal => by
    simp only [unmarshalFields]
    refine OkPost.pure hw ⟨hty, fun _ _ _ => rfl, by simp [Fields.toList], ?_⟩
    simp only [countsFields, layoutFields, writableFields]
    exact ⟨trivial, fun _ _ => ⟨SQ.refl _ _, trivial⟩⟩
  | .cons f t fs, known, cur, hsub, hkn, hok, hloc, hsm, hb, hex, hn, hty, s, hw, hal => by
    simp only [okFields, Option.isSome_some, Option.getD_some, if_true] at hok
    simp only [Fields.AllLocal] at hloc
    simp only [Fields.AllSmall] at hsm
    simp only [Fields.basic] at hb
    simp only [Fields.exact, Option.isNone_some, Bool.false_and, Bool.or_false] at hex
    simp only [Fields.nodup] at hn
    simp only [Bool.and_eq_true] at hb hn hex
    rw [Bool.and_eq_true, Bool.and_eq_true, Bool.and_eq_true, Bool.and_eq_true, Bool.and_eq_true, Bool.and_eq_true,
      Bool.and_eq_true, Bool.and_eq_true, Bool.and_eq_true] at hok
    obtain ⟨⟨⟨⟨⟨⟨⟨⟨⟨hdeps, hvers⟩, hfresh⟩, hokt⟩, hfbx⟩, hem1⟩, hem2⟩, hhd⟩, havc⟩, hokf⟩ := hok
    obtain ⟨⟨⟨hcp, hlen⟩, hbt⟩, hbf⟩ := hb
    have hmem : (f, t) ∈ all.toList := hsub f t (by simp [Fields.toList])
    have hff : f.name ∉ fs.names := by simpa using hfresh
    have hkf : ∀ n ∈ known, n ≠ f.name := by
      intro n hn h
      have := (hkn n hn).1
      rw [h] at this
      simp [Fields.names] at this
    cases hres : resolve e.cfo e.ctx cur f with
    | none =>
      intro a s' hx
      simp only [unmarshalFields, Option.getD_some, Option.isSome_some, if_true] at hx
      rw [hres] at hx
      cases hx
    | some fi =>
      rw [unmarshalFields_top e (some e.cfo) f t fs cur s hres]
      obtain ⟨size, length, hfi, hs1, hs2, hl1, hl2⟩ := resolve_eta hres
      have hsane : Sane fi.length := by
        rw [hfi]
        simp only
        cases hld : f.lenDyn with
        | false =>
          rw [hld] at hlen
          simp only [Bool.false_eq_true, if_false, decide_eq_true_eq] at hlen
          rw [hl1 hld]
          exact Or.inl hlen
        | true =>
          rw [hld] at hlen
          simp only [if_true] at hlen
          refine hsl f.name e.ctx cur length (fun m hm => ?_) (hl2 hld)
          exact small_num hty (List.all_eq_true.mp hlen m hm)
      have hcp' : fi.strCP = false := by rw [hfi]; simpa using hcp
      -- the emsg strings need the version
      have hemv : e.hook = .emsg → (f.name = "SchemeIdUri" ∨ f.name = "Value" ∨ f.name = "MessageData") →
          "FullBox" ∈ known := by
        intro h1 h2
        rw [h1] at hem1 hem2
        rcases h2 with h2 | h2 | h2
        · rw [h2] at hem1
          simp at hem1
          exact hem1.1
        · rw [h2] at hem1
          simp at hem1
          exact hem1.1
        · rw [h2] at hem2
          simp at hem2
          exact hem2.1.1.1
      have hemd : e.hook = .emsg → f.name = "MessageData" → "SchemeIdUri" ∉ fs.names ∧ "Value" ∉ fs.names := by
        intro h1 h2
        rw [h1, h2] at hem2
        simp at hem2
        exact ⟨hem2.1.2, hem2.2⟩
      -- what the finished box says about this field
      have hagree : ∀ sv : SV, (∀ n ∈ known, sv.get n = cur.get n) →
          instField e.cfo e.ctx sv f = fi ∧
          present e.cfo e.ctx sv.version sv.flags sv fi = isTarget e.cfo e.ctx cur cur fi ∧
          (!f.sizeDyn || (e.cfo.size f.name e.ctx sv).isSome) = true ∧
          (!f.lenDyn || (e.cfo.length f.name e.ctx sv).isSome) = true := by
        intro sv hkeep
        rw [isTarget_eq]
        have hst := step_agree (b := sv) (v := cur.version) (v' := sv.version)
          (fl := cur.flags) (fl' := sv.flags) hlc (by
            intro hdyn m hm
            rw [hdyn] at hdeps
            simp only [Bool.not_true, Bool.false_or] at hdeps
            have hmk := List.all_eq_true.mp hdeps m hm
            exact (hkeep m (by simpa using hmk)).symm) hres (by
            rw [Bool.or_eq_true] at hvers
            rcases hvers with h | h
            · left
              simp only [Bool.and_eq_true, beq_iff_eq] at h
              exact ⟨h.1.1.1, h.1.1.2, h.1.2, h.2⟩
            · right
              have := hkeep "FullBox" (by simpa using h)
              exact ⟨SV.version_congr this.symm, SV.flags_congr this.symm⟩)
        exact ⟨hst.1, hst.2.1.symm, hst.2.2⟩
      have hrec := fun cur' (hty' : typedFields all cur' = true) s (hw : s.r.WF d)
          (hal : (s.rbits + (s.r.rem d).length) % 8 = 0) =>
        sound_top hd q dir ex e all hed h8 hnd hht hlc hsl hqh fs _ cur'
          (fun g u h => hsub g u (by simp [Fields.toList, h])) (by
            intro n hn
            split at hn
            · have := hkn n hn
              simp only [Fields.names, List.mem_cons, not_or] at this
              exact ⟨this.1.2, this.2⟩
            · next hc =>
              simp only [List.mem_cons] at hn
              rcases hn with rfl | hn
              · refine ⟨hff, ?_⟩
                intro ⟨h1, h2⟩
                apply hc
                rw [h1]
                rcases h2 with h2 | h2 <;> simp [h2]
              · have := hkn n hn
                simp only [Fields.names, List.mem_cons, not_or] at this
                exact ⟨this.1.2, this.2⟩) hokf hloc.2 hsm.2 hbf (fun hq => (hex hq).2) hn.2 hty' s hw hal
      -- nothing known changes afterwards
      have hknown : ∀ sv cur1 : SV, (∀ n ∈ known, cur1.get n = cur.get n) →
          (∀ n, n ∉ fs.names → ¬ Deferred true e.hook sv fs n → sv.get n = cur1.get n) →
          ∀ n ∈ known, sv.get n = cur.get n := by
        intro sv cur1 h1 h2 n hn
        have := hkn n hn
        simp only [Fields.names, List.mem_cons, not_or] at this
        rw [h2 n this.1.2 (fun hd => this.2 ⟨hd.2.1, by simpa using hd.2.2.2.1⟩), h1 n hn]
      have hdefer : ∀ (sv : SV) (n : String), ¬ Deferred true e.hook sv (.cons f t fs) n → ¬ Deferred true e.hook sv fs n := by
        intro sv n h h'
        exact h ⟨h'.1, h'.2.1, h'.2.2.1, h'.2.2.2.1, by simp [Fields.names, h'.2.2.2.2]⟩
      by_cases htg : isTarget e.cfo e.ctx cur cur fi = true
      · rw [if_neg (by simp [htg]), hed]
        refine okp_runHook hw hd hal h8 ?_
        intro bs ov cur1 s1 hres1 hrem1 hw1 hb1
        obtain ⟨hty1, _⟩ := hres1.keeps hht hnd hty
        have hal1 : (s1.rbits + (s1.r.rem d).length) % 8 = 0 := by
          rw [hrem1, List.length_append] at hal
          rw [hb1]
          omega
        have hk1 : ∀ n ∈ known, cur1.get n = cur.get n := by
          intro n hn
          refine hres1.changed (hkf n hn) ?_
          intro h
          exact (hkn n hn).2 ⟨h.1, by simpa using h.2.2.2⟩
        have hother : ∀ sv : SV, (∀ n ∈ known, sv.get n = cur.get n) → ∀ n, n ∉ (Fields.cons f t fs).names →
            ¬ Deferred true e.hook sv (.cons f t fs) n → cur1.get n = cur.get n := by
          intro sv hk n hn hdef
          simp only [Fields.names, List.mem_cons, not_or] at hn
          refine hres1.changed hn.1 ?_
          intro h
          have hfb := hk _ (hemv h.1 (Or.inr (Or.inr h.2.2.1)))
          exact hdef ⟨rfl, h.1, by rw [SV.version_congr hfb]; exact h.2.1, by simpa using h.2.2.2, by
            simp [Fields.names, h.2.2.1]⟩
        unfold afterHook
        cases ov with
        | true =>
          simp only [if_true]
          have hin := hres1.override
          obtain ⟨g, hg1, hg2⟩ := hookTyped_mem hht hin
          have htt : t = hookTy e.hook := mem_unique hnd hmem hg2 hg1.symm
          refine (hrec cur1 hty1 s1 hw1 hal1).mono ?_
          intro bs' sv ⟨h1, h2, h3, h4, h5⟩
          have hk := hknown sv cur1 hk1 h2
          obtain ⟨a1, a2, a3, a4⟩ := hagree sv hk
          rw [htg] at a2
          refine ⟨h1, ?_, ?_, ?_, ?_⟩
          · intro n hn hdef
            have hn' := hn
            simp only [Fields.names, List.mem_cons, not_or] at hn'
            rw [h2 n hn'.2 (hdefer sv n hdef), hother sv hk n hn hdef]
          · intro g w hg hu hsd hv hh
            simp only [Fields.toList, List.mem_cons, Prod.mk.injEq] at hg
            rcases hg with ⟨rfl, _⟩ | hg
            · exact absurd hin hh
            · exact h3 g w hg hu hsd hv hh
          · rw [countsFields_top (L := ⟨e.ctx, e.cfo, e.hook, sv⟩) a1 a2, h4, htt]
            cases e.hook <;> cases sv.get f.name <;> simp [hookTy, countsV]
          · intro hq he
            have h6 := h5 hq he
            rw [layoutFields_top (L := ⟨e.ctx, e.cfo, e.hook, sv⟩) a1 a2,
              writableFields_top (L := ⟨e.ctx, e.cfo, e.hook, sv⟩) a1 a2 a3 a4]
            simp only
            have hhd := hqh hq
            cases hres1 with
            | emsgSkip he' hv hn =>
              have hfb := hk _ (hemv he' (by rcases hn with h | h <;> simp [h]))
              have hv' : sv.version ≠ 0 := by rw [SV.version_congr hfb]; exact hv
              have hb1 : before e.hook f.name sv = [] := by
                unfold before
                rw [if_neg]
                intro h
                rcases hn with hn | hn <;> rw [hn] at h <;> simp at h
              have hs1 : silent e.hook f.name sv = true := by
                unfold silent
                rw [he']
                rcases hn with hn | hn <;> simp [hn, hv']
              rw [hb1, hs1, he']
              simp only [if_true, List.nil_append]
              exact ⟨by rw [he'] at h6; exact h6.1, by rw [he'] at h6; rw [h6.2]; rfl⟩
            | hdlrEmpty he' => exact absurd he' hhd
            | hdlrName he' => exact absurd he' hhd
            | avcc he' hn =>
              have hb1 : before e.hook f.name sv = [] := by
                unfold before
                rw [if_neg]
                rw [he']
                simp
              have hs1 : silent e.hook f.name sv = true := by
                unfold silent
                rw [he', hn]
                simp
              have hpk : "Profile" ∈ known := by
                rw [he', hn] at havc
                simpa using havc
              have hpv : sv.uint "Profile" = cur.uint "Profile" := SV.uint_congr (hk _ hpk)
              obtain ⟨x, hget, _⟩ := typed_get hnd hty hmem
              have hval : sv.bool "HighProfileFieldsEnabled" = (decide (32 ≤ left e.size8 s.rbits) && avccHigh (cur.uint "Profile")) := by
                have := h2 f.name hff (by
                  intro h
                  have := h.2.1
                  rw [he'] at this
                  simp at this)
                rw [hn] at this hget
                rw [SV.get_set_eq (by rw [hget]; simp)] at this
                simp only [SV.bool, this]
              rw [hb1, hs1]
              simp only [if_true, List.nil_append]
              refine ⟨h6.1, ?_⟩
              rw [h6.2, hval, hpv, avccHigh_eq]
              cases highProfile (cur.uint "Profile") <;> simp
        | false =>
          obtain ⟨x, hget, hxt⟩ := typed_get hnd hty1 hmem
          simp only [Bool.false_eq_true, if_false, hget]
          refine OkPost.bind (sound_V hd q dir ex t { e with root := cur1 } known fi x hed hlc hokt hloc.1 hsm.1 hbt
            (fun hq => (hex hq).1.2) hn.1.2 hcp' hsane hxt s1 hw1) ?_
          intro bs2 v s2 ⟨hv1, hv2, hv3⟩ hrem2 hw2 hb2
          split
          · exact OkPost.fail _
          · refine (hrec (cur1.set f.name v) (typed_set hnd hty1 hmem hv1) s2 hw2 (by
              rw [hrem2, List.length_append] at hal1
              rw [hb2]
              omega)).mono ?_
            intro bs' sv ⟨h1, h2, h3, h4, h5⟩
            have hk := hknown sv (cur1.set f.name v) (fun n hn => by
              rw [SV.get_set_ne (hkf n hn), hk1 n hn]) h2
            obtain ⟨a1, a2, a3, a4⟩ := hagree sv hk
            rw [htg] at a2
            have hgetv : sv.get f.name = some v := by
              rw [h2 f.name hff, SV.get_set_eq (by rw [hget]; simp)]
              intro hdef
              -- a field that is put off would have been skipped
              have hfb := hk _ (hemv hdef.2.1 (by rcases hdef.2.2.2.1 with h | h <;> simp [h]))
              have hcv : cur.version ≠ 0 := by
                rw [← SV.version_congr hfb]; exact hdef.2.2.1
              cases hres1 with
              | same hn => exact hn.1 ⟨hdef.2.1, hcv, by rcases hdef.2.2.2.1 with h | h <;> simp [h]⟩
              | emsgText he' hv hm a b ha hb =>
                have := hdef.2.2.2.1
                rw [hm] at this
                simp at this
            have h6 := hv3 ⟨e.ctx, e.cfo, e.hook, sv⟩ ⟨rfl, rfl, fun n hn => by
              simp only
              rw [hk n hn, hk1 n hn]⟩
            refine ⟨h1, ?_, ?_, ?_, ?_⟩
            · intro n hn hdef
              have hn' := hn
              simp only [Fields.names, List.mem_cons, not_or] at hn'
              rw [h2 n hn'.2 (hdefer sv n hdef), SV.get_set_ne hn'.1, hother sv hk n hn hdef]
            · intro g w hg hu hsd hv hh
              simp only [Fields.toList, List.mem_cons, Prod.mk.injEq] at hg
              rcases hg with ⟨rfl, rfl⟩ | hg
              · obtain ⟨n, rfl, _⟩ := typedV_uint_inv hv1
                have := hv2 (by rw [hfi]; exact hv) w n rfl rfl
                rw [hfi] at this
                simp only [hs1 hsd] at this
                simp only [SV.uint, hgetv]
                exact this
              · exact h3 g w hg hu hsd hv hh
            · rw [countsFields_top (L := ⟨e.ctx, e.cfo, e.hook, sv⟩) a1 a2, h4, hgetv]
              simp only [Bool.not_true, Bool.false_or, Bool.and_true]
              exact h6.1
            · intro hq he
              have h7 := h5 hq he
              rw [layoutFields_top (L := ⟨e.ctx, e.cfo, e.hook, sv⟩) a1 a2,
                writableFields_top (L := ⟨e.ctx, e.cfo, e.hook, sv⟩) a1 a2 a3 a4]
              simp only [if_true, hgetv]
              have hfo : t.fiOk dir fi = true := by
                have hfo := (hex hq).1.1
                cases hsd : f.sizeDyn with
                | false =>
                  rw [hsd] at hfo
                  simp only [Bool.false_eq_true, if_false] at hfo
                  rw [hfi]
                  exact fiOk_inst (f := f) (a := f.size) hfo (fun _ => by rw [hs1 hsd]; omega)
                | true =>
                  rw [if_pos hsd, Bool.and_eq_true] at hfo
                  rw [hfi]
                  refine fiOk_inst (f := f) (a := 32) hfo.1 (fun hnum => ?_)
                  have hfo2 := hfo.2
                  rw [hnum] at hfo2
                  simp at hfo2
              have h8 := h6.2 hq he hfo
              have hsil : silent e.hook f.name sv = false := by
                cases hres1 with
                | same hn =>
                  unfold silent
                  rw [Bool.or_eq_false_iff]
                  constructor
                  · rw [Bool.eq_false_iff]
                    intro h
                    simp only [Bool.and_eq_true, beq_iff_eq, Bool.or_eq_true, bne_iff_ne] at h
                    have hfb := hk _ (hemv h.1.1 (by rcases h.2 with h | h <;> simp [h]))
                    exact hn.1 ⟨h.1.1, by rw [← SV.version_congr hfb]; exact h.1.2, by
                      rcases h.2 with h | h <;> simp [h]⟩
                  · rw [Bool.eq_false_iff]
                    intro h
                    simp only [Bool.and_eq_true, beq_iff_eq] at h
                    exact hn.2.2 h
                | emsgText he' hv hm a b ha hb =>
                  unfold silent
                  rw [he', hm]
                  simp
              have hbef : before e.hook f.name sv = bs := by
                cases hres1 with
                | same hn =>
                  unfold before
                  rw [if_neg]
                  intro h
                  have hfb := hk _ (hemv h.1 (Or.inr (Or.inr h.2.2)))
                  exact hn.1 ⟨h.1, by rw [← SV.version_congr hfb]; exact h.2.1, Or.inr (Or.inr h.2.2)⟩
                | emsgText he' hv hm a b ha hb =>
                  have hfb := hk _ (hemv he' (Or.inr (Or.inr hm)))
                  have hv' : sv.version ≠ 0 := by rw [SV.version_congr hfb]; exact hv
                  have hnn := hemd he' hm
                  have hnd' : ∀ n, ¬ Deferred true e.hook sv fs n := by
                    intro n h
                    exact hff (hm ▸ h.2.2.2.2)
                  obtain ⟨g1, hg1, hm1⟩ := hookTyped_mem hht (n := "SchemeIdUri") (by rw [he']; simp [hookNames])
                  obtain ⟨g2, hg2, hm2⟩ := hookTyped_mem hht (n := "Value") (by rw [he']; simp [hookNames])
                  obtain ⟨x1, hx1, _⟩ := typed_get hnd hty hm1
                  obtain ⟨x2, hx2, _⟩ := typed_get hnd hty hm2
                  rw [hg1] at hx1
                  rw [hg2] at hx2
                  have e1 := h2 "SchemeIdUri" hnn.1 (hnd' _)
                  have e2 := h2 "Value" hnn.2 (hnd' _)
                  rw [SV.get_set_ne (by rw [hm]; decide), SV.get_set_ne (by decide),
                    SV.get_set_eq (by rw [hx1]; simp)] at e1
                  rw [SV.get_set_ne (by rw [hm]; decide), SV.get_set_eq (by
                    rw [SV.get_set_ne (by decide), hx2]; simp)] at e2
                  unfold before
                  rw [if_pos ⟨he', hv', hm⟩]
                  simp only [SV.str, e1, e2]
              rw [hsil, hbef]
              simp only [Bool.false_eq_true, if_false, Bool.not_true, Bool.false_or]
              rw [h8.2, h7.2, List.append_assoc]
              refine ⟨?_, rfl⟩
              exact (SQ.refl _ _).append (h8.1.append h7.1)
      · rw [if_pos (show ¬ isTarget ((some e.cfo).getD e.cfo) e.ctx cur cur fi = true from htg)]
        refine (hrec cur hty s hw hal).mono ?_
        intro bs' sv ⟨h1, h2, h3, h4, h5⟩
        have hk := hknown sv cur (fun _ _ => rfl) h2
        obtain ⟨a1, a2, a3, a4⟩ := hagree sv hk
        have hut : f.uncond = true → isTarget e.cfo e.ctx cur cur fi = true := fun h => uncond_target hres h
        rw [Bool.not_eq_true] at htg
        rw [htg] at a2
        refine ⟨h1, ?_, ?_, ?_, ?_⟩
        · intro n hn hdef
          have hn' := hn
          simp only [Fields.names, List.mem_cons, not_or] at hn'
          exact h2 n hn'.2 (hdefer sv n hdef)
        · intro g w hg hu hsd hv hh
          simp only [Fields.toList, List.mem_cons, Prod.mk.injEq] at hg
          rcases hg with ⟨rfl, rfl⟩ | hg
          · rw [hut hu] at htg; simp at htg
          · exact h3 g w hg hu hsd hv hh
        · rw [countsFields_top (L := ⟨e.ctx, e.cfo, e.hook, sv⟩) a1 a2, h4]
          rfl
        · intro hq he
          rw [layoutFields_top (L := ⟨e.ctx, e.cfo, e.hook, sv⟩) a1 a2,
            writableFields_top (L := ⟨e.ctx, e.cfo, e.hook, sv⟩) a1 a2 a3 a4]
          simp only [Bool.not_false, Bool.true_or, Bool.true_and, Bool.false_eq_true, if_false, List.nil_append]
          exact h5 hq he

end Mp4
