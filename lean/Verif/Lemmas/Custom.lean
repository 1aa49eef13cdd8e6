import Verif.Spec.Custom
import Verif.Lemmas.SimBox

/-!
# `Unmarshal` of box types that an application defines
-/

namespace Mp4

open Spec Props

/-- What the decoding of the fields of a box does. -/
theorem custom_fields_post {bd : BoxDef} (hsd : SafeDef bd) {d : Bytes} (hd : d.length ≤ maxAlloc) {pos : Nat}
    (hpos : pos ≤ d.length) (ctx : Ctx) (ps : Nat) {sv : SV} (hty : typedFields bd.fields sv = true) :
    Post d True (fun _ cur' => typedFields bd.fields cur' = true ∧
        ("FullBox" ∈ bd.fields.names → bd.supports cur'.version = true)) ⟨RSt.fresh pos, 0⟩
      (unmarshalFields (bd.uenv d ctx ps) true (some bd.cfo) bd.fields sv ⟨RSt.fresh pos, 0⟩) := by
  have hnod := hsd.names
  have hnd := Fields.nodup_names _ hnod
  have htot := hsd.answers
  have hpl := hsd.sizes
  have hgr := hsd.moves
  have hhf : "FullBox" ∉ hookNames (bd.uenv d ctx ps).hook := by
    show _ ∉ hookNames bd.hook
    rw [hsd.noHook]
    simp [hookNames]
  have hw : RSt.WF d (RSt.fresh pos) := ⟨by simp [RSt.fresh], hpos⟩
  have hal : (0 + ((RSt.fresh pos).rem d).length) % 8 = 0 := by
    rw [rem_fresh, bytesBits_length]; omega
  have main := safe_top hd True (fun _ => True) [] (bd.uenv d ctx ps) bd.fields rfl (by simp only [BoxDef.uenv, U64]; omega) hnd
    (by show hookTyped bd.hook _ = true; rw [hsd.noHook]; rfl) hhf (fun _ _ _ _ => trivial) (fun n hn => by simp at hn)
  rcases hsd.full with hnm | ⟨t, fs, hs, hft, hnf⟩
  · refine (main bd.fields sv (fun _ _ h => h) hnm htot hpl hnod ?_ hty trivial _ hw hal).mono ?_
    · intro _ g u hm cur' fi _ hr
      exact greedy_of_fields hgr g u hm cur' fi hr
    · intro bs cur' ⟨h1, h2⟩
      exact ⟨h1, fun h => absurd h hnm⟩
  · obtain ⟨x, hget, hx⟩ := full_of_typed hs rfl hnd hty
    by_cases hlen : (d.drop pos).length < 4
    · obtain ⟨s', he⟩ := fullBox_step_short (e := bd.uenv d ctx ps) (fs := fs) (s := ⟨RSt.fresh pos, 0⟩) hft hget hx
        hw (rem_fresh d pos) hlen
      rw [hs]
      change Post _ _ _ _ (unmarshalFields (bd.uenv d ctx ps) true (some (bd.uenv d ctx ps).cfo) _ sv _)
      rw [he]
      trivial
    · obtain ⟨b0, b1, b2, b3, rest, hdrop⟩ : ∃ b0 b1 b2 b3 rest, d.drop pos = b0 :: b1 :: b2 :: b3 :: rest := by
        match hq : d.drop pos, hlen with
        | [], h => simp at h
        | [_], h => simp at h
        | [_, _], h => simp at h
        | [_, _, _], h => simp at h
        | a :: b :: c :: e :: r, _ => exact ⟨a, b, c, e, r, rfl⟩
      have hrem : (RSt.fresh pos).rem d = bytesBits [b0, b1, b2, b3] ++ bytesBits rest := by
        rw [rem_fresh, hdrop, ← bytesBits_append]; rfl
      obtain ⟨s', r1, w1, c1, he⟩ := fullBox_step (e := bd.uenv d ctx ps) (fs := fs) (s := ⟨RSt.fresh pos, 0⟩) hft hget
        hx hw hrem
      have hmem : (({ name := "FullBox", extend := true } : Field), t) ∈ bd.fields.toList := by rw [hs]; simp [Fields.toList]
      have hty1 : typedFields bd.fields (sv.set "FullBox" (fullBoxVal b0 b1 b2 b3)) = true :=
        typed_set hnd hty hmem (fullBox_typed hft b0 b1 b2 b3)
      have hver : (sv.set "FullBox" (fullBoxVal b0 b1 b2 b3)).version = b0.toNat := by
        unfold SV.version SV.full
        rw [SV.get_set_eq (by rw [hget]; simp)]
        simp [fullBoxVal, SV.uint, SV.get]
      have hal1 : (s'.rbits + (s'.r.rem d).length) % 8 = 0 := by
        have : (s'.r.rem d).length = (bytesBits rest).length := congrArg List.length r1
        rw [c1, this, bytesBits_length]
        simp only
        omega
      have htot1 := htot
      have hpl1 := hpl
      have hnod1 := hnod
      have hgr1 := hgr
      rw [hs] at htot1 hpl1 hnod1 hgr1
      simp only [Fields.Total] at htot1
      simp only [Fields.plain, Bool.and_eq_true] at hpl1
      simp only [Fields.nodup, Bool.and_eq_true] at hnod1
      simp only [Fields.greedyOk, Bool.and_eq_true] at hgr1
      have this : Post d True (fun _ cur' =>
          typedFields bd.fields cur' = true ∧ (cur'.get "FullBox" =
            (sv.set "FullBox" (fullBoxVal b0 b1 b2 b3)).get "FullBox")) s'
          (unmarshalFields (bd.uenv d ctx ps) true (some bd.cfo) fs (sv.set "FullBox" (fullBoxVal b0 b1 b2 b3)) s') := by
        refine (main fs _ ?_ hnf htot1.2.2 hpl1.2 hnod1.2 ?_ hty1 trivial s' w1 hal1).mono ?_
        · intro g u hm
          rw [hs]
          simp [Fields.toList, hm]
        · intro _ g u hm cur' fi _ hr
          exact greedy_of_fields hgr1.2 g u hm cur' fi hr
        · intro bs cur' ⟨h1, h2⟩
          exact ⟨h1, h2 _ hnf hhf⟩
      rw [hs]
      change Post _ _ _ _ (unmarshalFields (bd.uenv d ctx ps) true (some (bd.uenv d ctx ps).cfo) _ sv _)
      rw [he]
      by_cases hsup : bd.supports b0.toNat = true
      · rw [if_neg (by change ¬ ¬ bd.supports b0.toNat = true; simp [hsup])]
        change Post d True _ s' (unmarshalFields (bd.uenv d ctx ps) true (some (bd.uenv d ctx ps).cfo) fs (sv.set "FullBox" (fullBoxVal b0 b1 b2 b3)) s') at this
        cases hr : unmarshalFields (bd.uenv d ctx ps) true (some (bd.uenv d ctx ps).cfo) fs
            (sv.set "FullBox" (fullBoxVal b0 b1 b2 b3)) s' with
        | mk o s2 =>
          rw [hr] at this
          match o, this with
          | .ok a, ⟨bs, q1, q2, q3, q4, q5⟩ =>
            refine ⟨bytesBits [b0, b1, b2, b3] ++ bs, ?_, q2, ?_, ?_, ?_⟩
            · change (RSt.fresh pos).rem d = _
              rw [hrem, List.append_assoc, ← q1]
              congr 1
              exact r1.symm
            · rw [q3, c1, List.length_append, bytesBits_length]
              simp only [List.length_cons, List.length_nil]
              omega
            · rw [← hs]; exact q4
            · intro _
              rw [SV.version_congr q5, hver]
              exact hsup
          | .err _, _ => trivial
          | .panic, h => exact h.elim
          | .hang, h => exact h
      · rw [if_pos (by change ¬ bd.supports b0.toNat = true; exact hsup)]
        trivial

theorem custom_setVersion {bd : BoxDef} (hsd : SafeDef bd) {sv : SV} (hty : typedFields bd.fields sv = true)
    {v : Nat} (hv : v < 256) : typedFields bd.fields (sv.setVersion v) = true := by
  have hnd := Fields.nodup_names _ hsd.names
  unfold SV.setVersion
  split
  · next f hfull =>
    unfold SV.full at hfull
    split at hfull
    · next f' hget =>
      cases hfull
      rcases hsd.full with hnm | ⟨t, fs, hs, ht, hnf⟩
      · have : "FullBox" ∈ SV.keys sv := mem_keys_of_get hget
        rw [typed_keys hty] at this
        exact absurd this hnm
      · obtain ⟨w, hw, htw⟩ := full_of_typed hs rfl hnd hty
        rw [hget] at hw
        cases hw
        unfold Ty.isFullBox at ht
        split at ht
        · next c f1 f2 =>
          simp only [Bool.and_eq_true, beq_iff_eq] at ht
          obtain ⟨rfl, rfl⟩ := ht
          obtain ⟨v0, a1, a2, a3, he, _, h1, h2, h3⟩ := typed_fullBox_inv htw
          cases he
          have hm : (({ name := "FullBox", extend := true } : Field), Ty.struct c (.cons { name := "Version", size := 8 } (.uint 8) (.cons { name := "Flags", size := 8 } (.arr 3 (.uint 8)) .nil))) ∈ bd.fields.toList := by
            rw [hs]; simp [Fields.toList]
          refine typed_set hnd hty hm ?_
          simp [SV.set, typedV, typedFields, hv, h1, h2, h3]
        · simp at ht
    · cases hfull
  · exact hty

/-- Every run of `Unmarshal` on a stream, from a position in it, into a box of the right type. -/
theorem custom_post {bd : BoxDef} (hsd : SafeDef bd) {d : Bytes} (hd : d.length ≤ maxAlloc) {pos : Nat}
    (hpos : pos ≤ d.length) (ctx : Ctx) (ps : Nat) {dst : SV} (hty : typedFields bd.fields dst = true) :
    (∃ n sv, unmarshalBox bd d ctx ps dst pos = (.ok (n, sv), pos + n) ∧ n ≤ ps ∧ pos + n ≤ d.length ∧ typedFields bd.fields sv = true ∧
      ("FullBox" ∈ bd.fields.names → bd.supports sv.version = true)) ∨
    ∃ e p, unmarshalBox bd d ctx ps dst pos = (.err e, p) := by
  have hv := custom_setVersion hsd hty (v := anyVersion) (by decide)
  unfold unmarshalBox
  simp only [hsd.noMeta, Bool.false_eq_true, if_false]
  generalize dst.setVersion anyVersion = sv at hv
  have hp := custom_fields_post hsd hd hpos ctx ps hv
  unfold unmarshalBody
  cases hr : unmarshalFields (bd.uenv d ctx ps) true (some bd.cfo) bd.fields sv ⟨RSt.fresh pos, 0⟩ with
  | mk o st =>
    rw [hr] at hp
    match o, hp with
    | .ok sv', ⟨bs, e1, w1, c1, q1, q2⟩ =>
      simp only
      split
      · exact .inr ⟨_, _, rfl⟩
      · next h8 =>
        split
        · exact .inr ⟨_, _, rfl⟩
        · next hle =>
          simp only [Nat.zero_add] at c1
          have hlen := congrArg List.length e1
          change ((RSt.fresh pos).rem d).length = _ at hlen
          rw [rem_fresh, bytesBits_length, List.length_append, RSt.rem_length, List.length_drop] at hlen
          have hwid := w1.width
          have hp1 := w1.pos
          have hpe : st.r.pos = pos + st.rbits / 8 := by omega
          refine .inl ⟨st.rbits / 8, sv', ?_, ?_, ?_, q1, q2⟩
          · rw [hpe]
          · have : ps * 8 % U64 ≤ ps * 8 := Nat.mod_le _ _
            omega
          · omega
    | .err e, _ => cases e <;> exact .inr ⟨_, _, rfl⟩
    | .panic, h => exact h.elim
    | .hang, h => exact (h trivial).elim

/-- A successful run of the body of `Unmarshal`. -/
theorem custom_body_sound {bd : BoxDef} (hsd : SafeDef bd) (hod : OrderedDef bd) (hsl : bd.cfo.SmallLen) (hsm : bd.fields.AllSmall)
    (hba : Fields.basic (some bd.cfo) bd.fields bd.fields = true) {d : Bytes} (hd : d.length ≤ maxAlloc)
    {ctx : Ctx} {ps : Nat} {cur : SV} (hty : typedFields bd.fields cur = true) {pos : Nat} (hpos : pos ≤ d.length)
    {n : Nat} {sv : SV} {pos' : Nat} (h : unmarshalBody bd d ctx ps cur pos = (.ok (n, sv), pos')) :
    ((d.drop pos).take n).length = n ∧ typedFields bd.fields sv = true ∧
    countsFields (env bd ctx sv) (some bd.cfo) bd.fields sv = true ∧
    (∀ g w, (g, Ty.uint w) ∈ bd.fields.toList → g.uncond = true → g.sizeDyn = false → g.varint = false →
      g.name ∉ hookNames bd.hook → sv.uint g.name < 2 ^ g.size) ∧
    (∀ dir, bd.fields.exact dir [] (some bd.cfo) = true → bd.hook ≠ .hdlr →
      SQ dir (bytesBits ((d.drop pos).take n)) (layout bd ctx sv) ∧ writable bd ctx sv = true) := by
  have hht : hookTyped bd.hook bd.fields = true := by rw [hsd.noHook]; rfl
  have hno := hsd.names
  obtain ⟨hlc, hal⟩ := hod.looks
  have hok := hod.order
  unfold BoxDef.ok at hok
  have hnd := Fields.nodup_names _ hsd.names
  have hw : (RSt.fresh pos).WF d := ⟨by simp [RSt.fresh], hpos⟩
  have hbits : ((RSt.fresh pos).rem d) = bytesBits (d.drop pos) := rem_fresh d pos
  have hsound := fun (q dir : Bool) (hq : q = true → bd.fields.exact dir [] (some bd.cfo) = true ∧
      bd.hook ≠ .hdlr) =>
    sound_top (d := d) hd q dir [] (bd.uenv d ctx ps) bd.fields rfl
    (by show (ps * 8 % U64) % 8 = 0; simp only [U64]; omega) hnd hht hlc hsl
    (fun h => (hq h).2) bd.fields _ cur (fun _ _ h => h)
    (by
      intro m hm
      split at hm
      · simp at hm
      · next hc =>
        simp only [List.mem_cons, List.not_mem_nil, or_false] at hm
        subst hm
        exact ⟨by simpa using hc, fun h => by simp at h⟩)
    hok hal hsm hba (fun h => (hq h).1) hno hty ⟨RSt.fresh pos, 0⟩ hw
    (by simp only; rw [hbits, bytesBits_length]; omega)
  unfold unmarshalBody at h
  cases hr : unmarshalFields (bd.uenv d ctx ps) true (some bd.cfo) bd.fields cur ⟨RSt.fresh pos, 0⟩ with
  | mk o st =>
    rw [hr] at h
    cases o with
    | err e => cases e <;> simp at h
    | panic => simp at h
    | hang => simp at h
    | ok sv0 =>
      simp only at h
      split at h
      · simp at h
      · next h8 =>
        split at h
        · simp at h
        · simp only [Prod.mk.injEq, Out.ok.injEq] at h
          obtain ⟨⟨hn, rfl⟩, hp⟩ := h
          have key : ∀ bs, bytesBits (d.drop pos) = bs ++ st.r.rem d → st.rbits = bs.length →
              ((d.drop pos).take n).length = n ∧ bytesBits ((d.drop pos).take n) = bs := by
            intro bs e1 c1
            have hl : bs.length = 8 * n := by omega
            have hle : 8 * n ≤ 8 * (d.drop pos).length := by
              have := congrArg List.length e1
              rw [bytesBits_length, List.length_append] at this
              omega
            refine ⟨by rw [List.length_take]; omega, ?_⟩
            have h1 : (bytesBits (d.drop pos)).take (8 * n) = bs := by
              rw [e1, ← hl]; simp
            rw [← h1]
            have hsplit := bytesBits_append ((d.drop pos).take n) ((d.drop pos).drop n)
            rw [List.take_append_drop] at hsplit
            have hl2 : (bytesBits ((d.drop pos).take n)).length = 8 * n := by
              rw [bytesBits_length, List.length_take]; omega
            rw [hsplit, ← hl2]
            simp
          obtain ⟨bs, e1, w1, c1, t1, t2, t3, t4, t5⟩ := hsound false true (by simp) sv0 st hr
          simp only [Nat.zero_add] at c1
          simp only [hbits] at e1
          obtain ⟨k1, k2⟩ := key bs e1 c1
          refine ⟨k1, t1, t4, t3, fun dir he hh => ?_⟩
          obtain ⟨bs, e1, w1, c1, t1, t2, t3, t4, t5⟩ := hsound true dir (fun _ => ⟨he, hh⟩) sv0 st hr
          simp only [Nat.zero_add] at c1
          simp only [hbits] at e1
          have := t5 rfl (fun n hn => by simp at hn)
          rw [(key bs e1 c1).2]
          exact this

theorem custom_box {bd : BoxDef} (hm : bd.metaHook = false) (d : Bytes) (ctx : Ctx) (ps : Nat) (dst : SV) :
    unmarshalBox bd d ctx ps dst = unmarshalBody bd d ctx ps (dst.setVersion anyVersion) := by
  unfold unmarshalBox
  rw [if_neg (by simp [hm])]

/-- A successful `Unmarshal`. -/
theorem custom_sound {bd : BoxDef} {nul : Bool} (hsd : SafeDef bd) (hod : OrderedDef bd) (hed : ExactDef nul bd) {d : Bytes}
    (hd : d.length ≤ maxAlloc) {ctx : Ctx} {ps : Nat} {dst : SV} (hty : typedFields bd.fields dst = true) {pos : Nat} (hpos : pos ≤ d.length)
    {n : Nat} {sv : SV} {pos' : Nat} (h : unmarshalBox bd d ctx ps dst pos = (.ok (n, sv), pos')) :
    ((d.drop pos).take n).length = n ∧ SQ nul (bytesBits ((d.drop pos).take n)) (layout bd ctx sv) ∧ writable bd ctx sv = true := by
  rw [custom_box hsd.noMeta] at h
  obtain ⟨h1, -, -, -, h5⟩ := custom_body_sound hsd hod hed.lengths.1 hed.lengths.2 hed.counts hd
    (custom_setVersion hsd hty (v := anyVersion) (by decide)) hpos h
  exact ⟨h1, h5 nul hed.numbers (by rw [hsd.noHook]; simp)⟩

/-- If the encoding of the result is as long as what was read, it is what was read. -/
theorem custom_exact {bd : BoxDef} {nul : Bool} (hsd : SafeDef bd) (hod : OrderedDef bd) (hed : ExactDef nul bd) {d : Bytes}
    (hd : d.length ≤ maxAlloc) {ctx : Ctx} {ps : Nat} {dst : SV} (hty : typedFields bd.fields dst = true) {pos : Nat} (hpos : pos ≤ d.length)
    {n : Nat} {sv : SV} {pos' : Nat} (h : unmarshalBox bd d ctx ps dst pos = (.ok (n, sv), pos'))
    (hl : (layout bd ctx sv).length = 8 * n) :
    writable bd ctx sv = true ∧ bitsBytes (layout bd ctx sv) = (d.drop pos).take n := by
  obtain ⟨h1, h3, h4⟩ := custom_sound hsd hod hed hd hty hpos h
  refine ⟨h4, ?_⟩
  have h5 := h3.2 (by rw [bytesBits_length, h1, hl])
  apply bytesBits_inj
  rw [bytesBits_bitsBytes _ (by omega), h5]

/-- If both readings of strings are possible (there are none), the encoding is as long as what was read. -/
theorem custom_length {bd : BoxDef} (hsd : SafeDef bd) (hod : OrderedDef bd) (hed : ExactDef true bd) (hed' : ExactDef false bd) {d : Bytes}
    (hd : d.length ≤ maxAlloc) {ctx : Ctx} {ps : Nat} {dst : SV} (hty : typedFields bd.fields dst = true) {pos : Nat} (hpos : pos ≤ d.length)
    {n : Nat} {sv : SV} {pos' : Nat} (h : unmarshalBox bd d ctx ps dst pos = (.ok (n, sv), pos')) :
    (layout bd ctx sv).length = 8 * n := by
  obtain ⟨h1, h3, _⟩ := custom_sound hsd hod hed hd hty hpos h
  obtain ⟨_, h3', _⟩ := custom_sound hsd hod hed' hd hty hpos h
  have l1 := h3.1
  have l2 := h3'.1
  simp only [if_true] at l1
  simp only [Bool.false_eq_true, if_false] at l2
  rw [bytesBits_length, h1] at l1 l2
  omega

/-- The bytes behind what was read have no effect. -/
theorem custom_sim {bd : BoxDef} (hsd : SafeDef bd) {E : Nat} {d d' : Bytes} (ha : Agree E d d') (ctx : Ctx) (ps : Nat) (dst : SV) (pos : Nat)
    {r : Nat × SV} {pos' : Nat} (h : unmarshalBox bd d ctx ps dst pos = (.ok r, pos')) (hE : pos' ≤ E) :
    unmarshalBox bd d' ctx ps dst pos = (.ok r, pos') := by
  rw [custom_box hsd.noMeta] at h ⊢
  have hs := sim_top ha [] bd.fields (bd.uenv d ctx ps) (some bd.cfo) none (dst.setVersion anyVersion) rfl hsd.sizes
  unfold unmarshalBody at h ⊢
  cases hr : unmarshalFields (bd.uenv d ctx ps) true (some bd.cfo) bd.fields (dst.setVersion anyVersion) ⟨RSt.fresh pos, 0⟩ with
  | mk o st =>
    rw [hr] at h
    cases o with
    | ok sv' =>
      simp only at h
      obtain ⟨_, _, q⟩ := hs.ok _ _ _ (by simp [RSt.fresh]) hr
      have hp : pos' = st.r.pos := by
        split at h
        · cases h
        · split at h
          · cases h
          · cases h; rfl
      have q1 : unmarshalFields (bd.uenv d' ctx ps) true (some bd.cfo) bd.fields (dst.setVersion anyVersion) ⟨RSt.fresh pos, 0⟩ = _ :=
        q (hp ▸ hE)
      rw [q1]
      exact h
    | err e => cases e <;> cases h
    | panic => cases h
    | hang => cases h

theorem custom_noPanic {bd : BoxDef} (hsd : SafeDef bd) {σ : Type} (k : Sink σ) {ctx : Ctx} {sv : SV} (hty : typedFields bd.fields sv = true)
    (hn : noNilFields (env bd ctx sv) (some bd.cfo) bd.fields sv = true) (s : σ) :
    (marshalBox bd k ctx sv s).1 ≠ .panic ∧ (marshalBox bd k ctx sv s).1 ≠ .hang := by
  have := noPanic_fields k (env bd ctx sv) (fun _ => True) trivial true (some bd.cfo) bd.fields sv
    hsd.answers hsd.names (fieldsTyped_of_typed _ _ (Fields.nodup_names _ hsd.names) hty) hn (fun _ => rfl)
    ⟨WSt.fresh s, 0⟩
  change (marshalFields (bd.menv k ctx sv) true (some bd.cfo) bd.fields sv _).1 ≠ _ ∧
    (marshalFields (bd.menv k ctx sv) true (some bd.cfo) bd.fields sv _).1 ≠ _ at this
  unfold marshalBox
  cases hr : marshalFields (bd.menv k ctx sv) true (some bd.cfo) bd.fields sv ⟨WSt.fresh s, 0⟩ with
  | mk r st =>
    rw [hr] at this
    cases r with
    | ok a => simp only; split <;> simp
    | err e => simp
    | panic => simp at this
    | hang => simp at this

end Mp4
