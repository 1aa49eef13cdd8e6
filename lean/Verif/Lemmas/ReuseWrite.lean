import Verif.Lemmas.ReuseBox
import Verif.Model.Stringify

/-!
# Encoding and showing what has been decoded into a struct that has been used before
-/

namespace Mp4

open Spec

/-! ## Fields of nested structs -/

/-- what is decided about a field of a nested struct is the same whichever of the boxes is around it -/
theorem nested_decided {rc : Cfo} {rk kn : List String} {c : Option Cfo} {f : Field} {t : Ty} {fs : Fields} {ctx : Ctx} {sv r1 r2 : SV}
    (hl : rc.Local) (hok : okFields rc rk false .none c kn (.cons f t fs) = true) (hr : RootAgree rk r1 r2) :
    resolve (c.getD rc) ctx (if c.isSome = true then sv else r1) f = resolve (c.getD rc) ctx (if c.isSome = true then sv else r2) f ∧
    isTarget (c.getD rc) ctx r1 (if c.isSome = true then sv else r1) f =
      isTarget (c.getD rc) ctx r2 (if c.isSome = true then sv else r2) f ∧
    okV rc rk t = true ∧ okFields rc rk false .none c (f.name :: kn) fs = true := by
  simp only [okFields, Bool.false_eq_true, if_false, Bool.false_and, Bool.not_false, Bool.true_or, Bool.and_true] at hok
  rw [Bool.and_eq_true, Bool.and_eq_true, Bool.and_eq_true, Bool.and_eq_true] at hok
  obtain ⟨⟨⟨⟨hd, hv⟩, _⟩, hokt⟩, hokf⟩ := hok
  have hans : ∀ cf, cf = c.getD rc → (f.sizeDyn || f.lenDyn || f.optDyn) = true →
      cf.size f.name ctx (if c.isSome = true then sv else r1) = cf.size f.name ctx (if c.isSome = true then sv else r2) ∧
      cf.length f.name ctx (if c.isSome = true then sv else r1) = cf.length f.name ctx (if c.isSome = true then sv else r2) ∧
      cf.opt f.name ctx (if c.isSome = true then sv else r1) = cf.opt f.name ctx (if c.isSome = true then sv else r2) := by
    intro cf hcf hdyn
    cases c with
    | some c' => exact ⟨rfl, rfl, rfl⟩
    | none =>
      subst hcf
      refine hl f.name ctx r1 r2 fun m hm => hr m ?_
      rw [hdyn] at hd
      simp at hd
      exact hd m hm
  have hu : f.untagged = true ∨ r1.get "FullBox" = r2.get "FullBox" := by
    rw [Bool.or_eq_true] at hv
    rcases hv with h | h
    · exact Or.inl h
    · exact Or.inr (hr _ (by simpa using h))
  exact ⟨resolve_congr (hans _ rfl), target_untagged hu fun ho => (hans _ rfl (by simp [ho])).2.2, hokt, hokf⟩

/-! ## Marshal -/

variable {σ : Type}

mutual
theorem msameV : ∀ (t : Ty) (e : MEnv σ) (rk : List String) (r1 r2 : SV) (fi : Field) (x : Val), e.cfo.Local →
    okV e.cfo rk t = true → RootAgree rk r1 r2 →
    marshalV { e with root := r1 } t fi x = marshalV { e with root := r2 } t fi x
  | .ptr t, e, rk, r1, r2, fi, x, hl, hok, hr => by
    simp only [okV] at hok
    simp only [marshalV]
    split
    · exact msameV t e rk r1 r2 fi _ hl hok hr
    · rfl
  | .struct c fs, e, rk, r1, r2, fi, x, hl, hok, hr => by
    simp only [okV] at hok
    simp only [marshalV]
    split
    · exact msameFields fs e rk [] r1 r2 c _ hl hok hr
    · rfl
  | .arr n t, e, rk, r1, r2, fi, x, hl, hok, hr => by
    simp only [okV] at hok
    simp only [marshalV]
    rw [show (fun x => marshalV { e with root := r1 } t fi x) = fun x => marshalV { e with root := r2 } t fi x from
        funext fun x => msameV t e rk r1 r2 fi x hl hok hr]
  | .slice t, e, rk, r1, r2, fi, x, hl, hok, hr => by
    simp only [okV] at hok
    simp only [marshalV]
    rw [show (fun x => marshalV { e with root := r1 } t fi x) = fun x => marshalV { e with root := r2 } t fi x from
        funext fun x => msameV t e rk r1 r2 fi x hl hok hr]
  | .int w, _, _, _, _, _, _, _, _, _ => by simp only [marshalV]
  | .uint w, _, _, _, _, _, _, _, _, _ => by simp only [marshalV]
  | .bool, _, _, _, _, _, _, _, _, _ => by simp only [marshalV]
  | .str, _, _, _, _, _, _, _, _, _ => by simp only [marshalV]

theorem msameFields : ∀ (fs : Fields) (e : MEnv σ) (rk kn : List String) (r1 r2 : SV) (c : Option Cfo) (sv : SV), e.cfo.Local →
    okFields e.cfo rk false .none c kn fs = true → RootAgree rk r1 r2 →
    marshalFields { e with root := r1 } false c fs sv = marshalFields { e with root := r2 } false c fs sv
  | .nil, e, rk, kn, r1, r2, c, sv, hl, hok, hr => by simp only [marshalFields]
  | .cons f t fs, e, rk, kn, r1, r2, c, sv, hl, hok, hr => by
    obtain ⟨hres, htg, hokt, hokf⟩ := nested_decided (ctx := e.ctx) (sv := sv) hl hok hr
    simp only [marshalFields]
    rw [hres]
    cases hfi : resolve (c.getD e.cfo) e.ctx (if c.isSome = true then sv else r2) f with
    | none => rfl
    | some fi =>
      simp only
      rw [isTarget_resolved hfi, isTarget_resolved hfi, htg, msameFields fs e rk (f.name :: kn) r1 r2 c sv hl hokf hr,
        show marshalV { e with root := r1 } t fi = marshalV { e with root := r2 } t fi from
          funext fun x => msameV t e rk r1 r2 fi x hl hokt hr]
end

/-- the hooks see the same -/
theorem onWrite_congr (h : Hook) (k : Sink σ) (n : String) {a b : SV}
    (h1 : h = .emsg → n = "MessageData" ∨ n = "SchemeIdUri" ∨ n = "Value" → a.get "FullBox" = b.get "FullBox")
    (h2 : h = .emsg → n = "MessageData" → a.get "SchemeIdUri" = b.get "SchemeIdUri" ∧ a.get "Value" = b.get "Value")
    (h3 : h = .avcc → n = "HighProfileFieldsEnabled" → a.get "Profile" = b.get "Profile" ∧ a.get n = b.get n) :
    onWrite h k n a = onWrite h k n b := by
  cases h with
  | none => rfl
  | hdlr => rfl
  | emsg =>
    simp only [onWrite]
    by_cases hm : n = "MessageData"
    · obtain ⟨q1, q2⟩ := h2 rfl hm
      rw [SV.version_congr (h1 rfl (Or.inl hm))]
      unfold SV.str
      rw [q1, q2]
    · by_cases hs : n = "SchemeIdUri" ∨ n = "Value"
      · rw [SV.version_congr (h1 rfl (Or.inr hs))]
        simp only [if_pos hs]
      · simp only [if_neg hm, if_neg hs, ite_self]
  | avcc =>
    simp only [onWrite]
    by_cases hm : n = "HighProfileFieldsEnabled"
    · obtain ⟨q1, q2⟩ := h3 rfl hm
      subst hm
      unfold SV.bool SV.uint
      rw [q1, q2]
    · simp only [if_neg hm]

/-- In the box itself: the same, if what the methods see is the same -/
theorem mtop_same {bd : BoxDef} {ctx : Ctx} {a b : SV} (k : Sink σ) (hl : bd.cfo.Local) : ∀ (fs : Fields),
    (∀ f t, (f, t) ∈ fs.toList → Decided bd.cfo ctx a b f ∧
      (a.get f.name = b.get f.name ∨ (tgt bd.cfo ctx a f = false ∧ tgt bd.cfo ctx b f = false)) ∧
      (∃ K, (∀ n ∈ K, a.get n = b.get n) ∧ okV bd.cfo K t = true) ∧
      (tgt bd.cfo ctx a f = true → onWrite bd.hook k f.name a = onWrite bd.hook k f.name b)) →
    marshalFields (bd.menv k ctx a) true (some bd.cfo) fs a = marshalFields (bd.menv k ctx b) true (some bd.cfo) fs b
  | .nil, _ => by simp only [marshalFields]
  | .cons f t fs, h => by
    have ih := mtop_same k hl fs fun g u hg => h g u (by simp [Fields.toList, hg])
    obtain ⟨⟨h1, h2, h3⟩, hp, ⟨K, hK, hok⟩, how⟩ := h f t (by simp [Fields.toList])
    simp only [marshalFields, BoxDef.menv, Option.getD_some, Option.isSome_some, if_true] at ih ⊢
    cases ha : resolve bd.cfo ctx a f with
    | none =>
      rw [ha] at h3
      cases hb : resolve bd.cfo ctx b f with
      | none => rfl
      | some fi => rw [hb] at h3; cases h3
    | some fi =>
      cases hb : resolve bd.cfo ctx b f with
      | none => rw [ha, hb] at h3; cases h3
      | some fi' =>
        simp only
        have e1 : isTarget bd.cfo ctx a a fi = tgt bd.cfo ctx a f := isTarget_resolved ha
        have e2 : isTarget bd.cfo ctx b b fi' = tgt bd.cfo ctx b f := isTarget_resolved hb
        rw [e1, e2, ← h1]
        cases htg : tgt bd.cfo ctx a f with
        | false =>
          rw [if_pos (by decide), if_pos (by decide)]
          exact ih
        | true =>
          rw [if_neg (by decide), if_neg (by decide)]
          have hfi := h2 htg
          rw [ha, hb] at hfi
          cases hfi
          rw [how htg]
          congr 1
          funext p
          congr 1
          funext _
          rw [ih]
          split
          · rfl
          · have hget : a.get f.name = b.get f.name := by
              rcases hp with h | h
              · exact h
              · rw [htg] at h; cases h.1
            rw [hget]
            split
            · rfl
            · rw [show marshalV { sink := k, ctx := ctx, root := a, cfo := bd.cfo, hook := bd.hook } t fi =
                marshalV { sink := k, ctx := ctx, root := b, cfo := bd.cfo, hook := bd.hook } t fi from
                funext fun x => msameV t ⟨k, ctx, a, bd.cfo, bd.hook⟩ K a b fi x hl hok hK]

/-- the strings that a late hook writes are always part of the box -/
theorem emsg_fields : ∀ bd ∈ Cat.allDefs, bd.hook = .emsg → ∀ n, n = "SchemeIdUri" ∨ n = "Value" →
    ∃ f t, (f, t) ∈ bd.fields.toList ∧ f.name = n ∧ f.uncond = true := by
  have h : Cat.allDefs.all (fun bd => !(bd.hook == .emsg) ||
      (bd.fields.toList.any (fun p => p.1.name == "SchemeIdUri" && p.1.uncond) &&
       bd.fields.toList.any (fun p => p.1.name == "Value" && p.1.uncond))) = true := by decide +kernel
  intro bd hbd hh n hn
  have := List.all_eq_true.mp h bd hbd
  rw [hh] at this
  simp only [show (Hook.emsg == Hook.emsg) = true from rfl, Bool.not_true, Bool.false_or, Bool.and_eq_true, List.any_eq_true,
    beq_iff_eq] at this
  obtain ⟨⟨p, hp, hp1, hp2⟩, ⟨q, hq, hq1, hq2⟩⟩ := this
  rcases hn with rfl | rfl
  · exact ⟨p.1, p.2, hp, hp1, hp2⟩
  · exact ⟨q.1, q.2, hq, hq1, hq2⟩

theorem twin_uncond {bd : BoxDef} {ctx : Ctx} {a b : SV} (ht : Twin bd ctx a b) {f : Field} {t : Ty} (hm : (f, t) ∈ bd.fields.toList)
    (hu : f.uncond = true) : a.get f.name = b.get f.name := by
  rcases ht.past f t hm with h | h
  · exact h
  · have := target_uncond (c := bd.cfo) (ctx := ctx) (r := a) (a := a) hu
    rw [show isTarget bd.cfo ctx a a f = tgt bd.cfo ctx a f from rfl, h.1] at this
    cases this

/-- `Marshal` cannot tell the twins apart. -/
theorem marshal_twin {bd : BoxDef} (hbd : bd ∈ Cat.allDefs) {ctx : Ctx} {a b : SV} (ht : Twin bd ctx a b) (k : Sink σ) (s : σ) :
    marshalBox bd k ctx a s = marshalBox bd k ctx b s := by
  unfold marshalBox
  rw [mtop_same k (allDefs_local bd hbd).1 bd.fields fun f t hm => ?_]
  obtain ⟨hdec, K, hK, hok, hav, hem⟩ := twin_decided hbd ht bd.fields [] (reuseK bd) (fun _ _ h => h) (fun _ h => by simp at h)
    (allDefs_reusable bd hbd) ht.known f t hm
  refine ⟨hdec, ht.past f t hm, ⟨K, hK, hok⟩, fun htg => onWrite_congr _ k f.name hem ?_ ?_⟩
  · intro hh _
    constructor
    · obtain ⟨g, u, hg, hn, hu⟩ := emsg_fields bd hbd hh "SchemeIdUri" (Or.inl rfl)
      rw [← hn]; exact twin_uncond ht hg hu
    · obtain ⟨g, u, hg, hn, hu⟩ := emsg_fields bd hbd hh "Value" (Or.inr rfl)
      rw [← hn]; exact twin_uncond ht hg hu
  · intro hh hn
    refine ⟨hav hh hn, ?_⟩
    rcases ht.past f t hm with h | h
    · exact h
    · rw [htg] at h; cases h.1

end Mp4
