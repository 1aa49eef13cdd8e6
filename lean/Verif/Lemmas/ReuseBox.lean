import Verif.Lemmas.Reuse
import Verif.Lemmas.SafeUnmarshal
import Verif.Lemmas.MarshalPanic

/-!
# Decoding into a struct that has been used before: whole boxes
-/

namespace Mp4

open Spec

/-! ## Unmarshal -/

/-- what the results of two decodings have in common -/
structure Twin (bd : BoxDef) (ctx : Ctx) (a b : SV) : Prop where
  keys : a.keys = b.keys
  known : ∀ n ∈ reuseK bd, a.get n = b.get n
  past : ∀ f t, (f, t) ∈ bd.fields.toList →
    a.get f.name = b.get f.name ∨ (tgt bd.cfo ctx a f = false ∧ tgt bd.cfo ctx b f = false)

theorem Inv.twin {bd : BoxDef} {d : Bytes} {ctx : Ctx} {size : Nat} {P : List Field} {a b : SV}
    (hi : Inv (bd.uenv d ctx size) P (reuseK bd) .nil a b) (hP : ∀ f t, (f, t) ∈ bd.fields.toList → f ∈ P) : Twin bd ctx a b := by
  refine ⟨hi.keys, hi.known, fun f t hm => ?_⟩
  rcases hi.past f (hP f t hm) with h | h | h
  · exact Or.inl h
  · exact Or.inr h
  · exact absurd h.2.2.2.1 (by simp [Fields.names])

theorem holds_of_typed {fs : Fields} {sv : SV} (hnd : fs.names.Nodup) (h : typedFields fs sv = true) : Holds fs sv :=
  fun _ _ hm => typed_get hnd h hm

theorem unmarshalBody_same {bd : BoxDef} (hbd : bd ∈ Cat.allDefs) (d : Bytes) (ctx : Ctx) (size : Nat) {a b : SV}
    (ha : typedFields bd.fields a = true) (hb : typedFields bd.fields b = true)
    (hk : bd.goName = "Sgpd" → a.get "DefaultLength" = b.get "DefaultLength") (pos : Nat) :
    Same (fun x y => x.1 = y.1 ∧ Twin bd ctx x.2 y.2) (unmarshalBody bd d ctx size a pos) (unmarshalBody bd d ctx size b pos) := by
  have hnd := Fields.nodup_names _ (allDefs_nodup bd hbd)
  obtain ⟨hlc, hal⟩ := allDefs_local bd hbd
  have hi : Inv (bd.uenv d ctx size) [] (reuseK bd) bd.fields a b := by
    refine ⟨by rw [typedFields_keys _ _ ha, typedFields_keys _ _ hb], fun n hn => ?_, fun g hg => by simp at hg,
      holds_of_typed hnd ha, holds_of_typed hnd hb⟩
    unfold reuseK at hn
    rw [List.mem_append] at hn
    rcases hn with hn | hn
    · split at hn
      · simp at hn
      · next h =>
        simp only [List.mem_singleton] at hn
        subst hn
        have h' : "FullBox" ∉ bd.fields.names := by simpa using h
        rw [SV.get_none_iff.2 (by rw [typedFields_keys _ _ ha]; exact h'), SV.get_none_iff.2 (by rw [typedFields_keys _ _ hb]; exact h')]
    · split at hn
      · next h =>
        simp only [List.mem_singleton] at hn
        subst hn
        exact hk (by simpa using h)
      · simp at hn
  have h := reuse_top (bd.uenv d ctx size) rfl hlc (reuseSp bd) bd.fields
    (fun f t g u hf hg hsp a b hd hfb => reuse_special hbd ctx f t g u hf hg hsp a b hd hfb) bd.fields [] (reuseK bd) a b
    (fun _ _ h => h) (fun _ h => by simp at h) (allDefs_reusable bd hbd) hal (fun g hg => by simp at hg) hi ⟨RSt.fresh pos, 0⟩
  replace h : Same (fun x y => Twin bd ctx x y) (unmarshalFields (bd.uenv d ctx size) true (some bd.cfo) bd.fields a ⟨RSt.fresh pos, 0⟩)
      (unmarshalFields (bd.uenv d ctx size) true (some bd.cfo) bd.fields b ⟨RSt.fresh pos, 0⟩) :=
    h.mono fun x y hxy => hxy.twin fun f t hm => by
      rw [List.append_nil]; exact List.mem_map.2 ⟨(f, t), hm, rfl⟩
  unfold unmarshalBody
  generalize hx : unmarshalFields (bd.uenv d ctx size) true (some bd.cfo) bd.fields a ⟨RSt.fresh pos, 0⟩ = x at h ⊢
  generalize hy : unmarshalFields (bd.uenv d ctx size) true (some bd.cfo) bd.fields b ⟨RSt.fresh pos, 0⟩ = y at h ⊢
  obtain ⟨o, st⟩ := x
  obtain ⟨o', st'⟩ := y
  obtain ⟨h1, h2⟩ := h
  simp only at h1
  subst h1
  cases o <;> cases o' <;> simp only at h2 <;> first | exact h2.elim | skip
  · simp only
    split
    · exact ⟨rfl, rfl⟩
    · split
      · exact ⟨rfl, rfl⟩
      · exact ⟨rfl, rfl, h2⟩
  · subst h2
    rename_i er
    cases er <;> exact ⟨rfl, rfl⟩
  · exact ⟨rfl, trivial⟩
  · exact ⟨rfl, trivial⟩

theorem setVersion_other {sv : SV} {v : Nat} {n : String} (h : n ≠ "FullBox") : (sv.setVersion v).get n = sv.get n := by
  unfold SV.setVersion
  split
  · exact SV.get_set_ne h
  · rfl

theorem unmarshal_same {bd : BoxDef} (hbd : bd ∈ Cat.allDefs) (d : Bytes) (ctx : Ctx) (size : Nat) {a b : SV}
    (ha : typedFields bd.fields a = true) (hb : typedFields bd.fields b = true)
    (hk : bd.goName = "Sgpd" → a.get "DefaultLength" = b.get "DefaultLength") (pos : Nat) :
    Same (fun x y => x.1 = y.1 ∧ Twin bd ctx x.2 y.2) (unmarshalBox bd d ctx size a pos) (unmarshalBox bd d ctx size b pos) := by
  have hta := typed_setVersion hbd ha (show anyVersion < 256 by decide)
  have htb := typed_setVersion hbd hb (show anyVersion < 256 by decide)
  have hk' : bd.goName = "Sgpd" → (a.setVersion anyVersion).get "DefaultLength" = (b.setVersion anyVersion).get "DefaultLength" := by
    intro h
    rw [setVersion_other (by decide), setVersion_other (by decide), hk h]
  unfold unmarshalBox
  cases hm : bd.metaHook with
  | false =>
    simp only [Bool.false_eq_true, if_false]
    exact unmarshalBody_same hbd d ctx size hta htb hk' pos
  | true =>
    simp only [if_true]
    have hmeta := bd_meta bd hbd hm
    have hkeys : (a.setVersion anyVersion).keys = (b.setVersion anyVersion).keys := by
      rw [typedFields_keys _ _ hta, typedFields_keys _ _ htb]
    refine Same.bind (Q := fun x y => x.1 = y.1 ∧ (x.1 = true → Twin bd ctx x.2 y.2) ∧
      (x.1 = false → x.2 = a.setVersion anyVersion ∧ y.2 = b.setVersion anyVersion)) ?_ ?_
    · unfold metaBefore
      simp only
      split
      · exact ⟨rfl, rfl⟩
      · split
        · exact ⟨rfl, rfl⟩
        · split
          · refine ⟨rfl, rfl, fun _ => ⟨by rw [SV.keys_set, SV.keys_set, hkeys], fun n hn => ?_, fun f t hf => Or.inl ?_⟩, fun h => by cases h⟩
            · subst hmeta
              simp [reuseK, Cat.bdMeta, Cat.fsMeta, Fields.ofList, Fields.names] at hn
            · subst hmeta
              have : f.name = "FullBox" := by
                have := names_of_mem hf
                simpa [Cat.bdMeta, Cat.fsMeta, Fields.ofList, Fields.names] using this
              rw [this]
              exact get_set_same hkeys _ _
          · exact ⟨rfl, rfl, (fun h => by cases h), fun _ => ⟨rfl, rfl⟩⟩
    · rintro ⟨o, x⟩ ⟨o', y⟩ s _ _ ⟨h1, h2, h3⟩
      simp only at h1 h2 h3
      subst h1
      cases o with
      | true => exact ⟨rfl, rfl, h2 rfl⟩
      | false =>
        obtain ⟨rfl, rfl⟩ := h3 rfl
        simp only [Bool.false_eq_true, if_false]
        exact unmarshalBody_same hbd d ctx size hta htb hk' s

/-! ## What the twins have in common -/

/-- everything the methods look at is the same, for a field that comes next -/
theorem twin_decided {bd : BoxDef} (hbd : bd ∈ Cat.allDefs) {ctx : Ctx} {a b : SV} (ht : Twin bd ctx a b) :
    ∀ (fs : Fields) (P : List Field) (K : List String), (∀ f t, (f, t) ∈ fs.toList → (f, t) ∈ bd.fields.toList) →
      (∀ g ∈ P, ∃ u, (g, u) ∈ bd.fields.toList) → reusable bd.cfo bd.hook (reuseSp bd) (P.map (·.name)) K fs = true →
      (∀ n ∈ K, a.get n = b.get n) → ∀ f t, (f, t) ∈ fs.toList → Decided bd.cfo ctx a b f ∧
        ∃ K', (∀ n ∈ K', a.get n = b.get n) ∧ okV bd.cfo K' t = true ∧
          (bd.hook = .avcc → f.name = "HighProfileFieldsEnabled" → a.get "Profile" = b.get "Profile") ∧
          (bd.hook = .emsg → f.name = "MessageData" ∨ f.name = "SchemeIdUri" ∨ f.name = "Value" → a.get "FullBox" = b.get "FullBox")
  | .nil, P, K, hsub, hP, hok, hK, f, t, hm => by simp [Fields.toList] at hm
  | .cons g u fs, P, K, hsub, hP, hok, hK, f, t, hm => by
    obtain ⟨hlc, -⟩ := allDefs_local bd hbd
    simp only [reusable] at hok
    simp only [Bool.and_eq_true] at hok
    obtain ⟨⟨⟨⟨⟨⟨⟨⟨⟨⟨h1, h2⟩, h3⟩, h4⟩, h5⟩, h6⟩, h7⟩, h8⟩, h9⟩, h10⟩, h11⟩ := hok
    simp only [Fields.toList, List.mem_cons, Prod.mk.injEq] at hm
    rcases hm with ⟨rfl, rfl⟩ | hm
    · have hu : f.untagged = true ∨ a.get "FullBox" = b.get "FullBox" := by
        rw [Bool.or_eq_true, Bool.and_eq_true] at h3
        rcases h3 with h | h
        · exact Or.inl h
        · exact Or.inr (hK _ (by simpa using h.1))
      refine ⟨?_, K, hK, h5, ?_, ?_⟩
      · rw [Bool.or_eq_true, Bool.or_eq_true] at h1
        rcases h1 with (h | h) | h
        · refine decided_of hlc (fun hd => ?_) hu
          unfold Field.fixed at h
          rw [hd] at h
          simp at h
        · refine decided_of hlc (fun _ m hm => hK m ?_) hu
          have := List.all_eq_true.mp h m hm
          simpa using this
        · split at h
          · next gn hgn =>
            simp only [Bool.and_eq_true] at h
            obtain ⟨⟨⟨q1, q2⟩, q3⟩, q4⟩ := h
            have hfb : a.get "FullBox" = b.get "FullBox" := hK _ (by simpa using q2)
            have hPm : gn ∈ P.map (·.name) := by simpa using q1
            obtain ⟨g, hg, rfl⟩ := List.mem_map.1 hPm
            obtain ⟨u', hg'⟩ := hP g hg
            have hdeps : ∀ m ∈ bd.cfo.deps f.name, m ≠ g.name → a.get m = b.get m := by
              intro m hm hne
              have := List.all_eq_true.mp q4 m hm
              simp only [Bool.or_eq_true, beq_iff_eq] at this
              rcases this with h | h
              · exact absurd h hne
              · exact hK m (by simpa using h)
            rcases ht.past g u' hg' with h | ⟨ha, hb⟩
            · refine decided_of hlc (fun _ m hm => ?_) hu
              by_cases hne : m = g.name
              · rw [hne, h]
              · exact hdeps m hm hne
            · exact reuse_special hbd ctx f t g u' (hsub f t (by simp [Fields.toList])) hg' hgn a b hdeps hfb ha hb
          · cases h
      · intro hh hn
        rw [hh, hn] at h10
        exact hK _ (by simpa using h10)
      · intro hh hn
        rw [hh] at h7 h8
        rcases hn with hn | hn | hn <;> rw [hn] at h7 h8 <;> simp at h7 h8
        · exact hK _ h8.1.1.1
        · exact hK _ h7.1.1
        · exact hK _ h7.1.1
    · refine twin_decided hbd ht fs (g :: P) _ (fun f t h => hsub f t (by simp [Fields.toList, h])) ?_ h11 ?_ f t hm
      · intro g' hg'
        rw [List.mem_cons] at hg'
        rcases hg' with rfl | h
        · exact ⟨u, hsub _ _ (by simp [Fields.toList])⟩
        · exact hP g' h
      · intro n hn
        split at hn
        · next hu =>
          rw [List.mem_cons] at hn
          rcases hn with rfl | hn
          · rcases ht.past g u (hsub _ _ (by simp [Fields.toList])) with h | h
            · exact h
            · have := target_uncond (c := bd.cfo) (ctx := ctx) (r := a) (a := a) hu.1
              rw [show isTarget bd.cfo ctx a a g = tgt bd.cfo ctx a g from rfl, h.1] at this
              cases this
          · exact hK n hn
        · exact hK n hn

end Mp4
