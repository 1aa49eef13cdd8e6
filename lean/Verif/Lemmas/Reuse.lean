import Verif.Lemmas.SafeBox
import Verif.Lemmas.Catalog
import Verif.Lemmas.Hdlr
import Verif.Lemmas.SoundUnmarshal
import Verif.Lemmas.Ctx
import Verif.Spec.Reuse

/-!
# Decoding into a struct that has been used before

Two runs of `Unmarshal` that differ only in the contents of the destination.
-/

namespace Mp4

open Spec

/-! ## Two results -/

/-- the same outcome and the same state; values are related by `Q` -/
def Same {α σ : Type} (Q : α → α → Prop) (x y : Out α × σ) : Prop :=
  x.2 = y.2 ∧ match x.1, y.1 with
    | .ok a, .ok b => Q a b
    | .err e, .err e' => e = e'
    | .panic, .panic => True
    | .hang, .hang => True
    | _, _ => False

theorem Same.refl {α σ : Type} {Q : α → α → Prop} (x : Out α × σ) (h : ∀ a, x.1 = .ok a → Q a a) : Same Q x x := by
  obtain ⟨o, s⟩ := x
  cases o with
  | ok a => exact ⟨rfl, h a rfl⟩
  | err e => exact ⟨rfl, rfl⟩
  | panic => exact ⟨rfl, trivial⟩
  | hang => exact ⟨rfl, trivial⟩

theorem Same.bind {α β σ : Type} {Q : α → α → Prop} {R : β → β → Prop} {m m' : M σ α} {k k' : α → M σ β} {s : σ}
    (h : Same Q (m s) (m' s)) (hk : ∀ a b s', m s = (.ok a, s') → m' s = (.ok b, s') → Q a b → Same R (k a s') (k' b s')) :
    Same R ((m >>= k) s) ((m' >>= k') s) := by
  rw [M.bind_run, M.bind_run]
  cases hm : m s with
  | mk o s1 =>
    cases hm' : m' s with
    | mk o' s2 =>
      rw [hm, hm'] at h
      obtain ⟨h1, h2⟩ := h
      simp only at h1
      subst h1
      cases o <;> cases o' <;> simp only at h2 <;> first | exact h2.elim | skip
      · exact hk _ _ _ hm hm' h2
      · exact ⟨rfl, h2⟩
      · exact ⟨rfl, trivial⟩
      · exact ⟨rfl, trivial⟩

theorem Same.mono {α σ : Type} {Q R : α → α → Prop} {x y : Out α × σ} (h : Same Q x y) (hq : ∀ a b, Q a b → R a b) :
    Same R x y := by
  obtain ⟨o, s⟩ := x
  obtain ⟨o', s'⟩ := y
  obtain ⟨h1, h2⟩ := h
  cases o <;> cases o' <;> simp only at h2 <;> first | exact h2.elim | skip
  · exact ⟨h1, hq _ _ h2⟩
  · exact ⟨h1, h2⟩
  · exact ⟨h1, trivial⟩
  · exact ⟨h1, trivial⟩

/-! ## Struct values -/

theorem get_set_same {a b : SV} (hk : a.keys = b.keys) (n : String) (v : Val) : (a.set n v).get n = (b.set n v).get n := by
  by_cases h : a.get n = none
  · have hb : b.get n = none := by rw [SV.get_none_iff] at h ⊢; rw [← hk]; exact h
    rw [SV.get_none_iff] at h hb
    rw [SV.get_none_iff.2 (by rw [SV.keys_set]; exact h), SV.get_none_iff.2 (by rw [SV.keys_set]; exact hb)]
  · have hb : b.get n ≠ none := by
      intro hb
      apply h
      rw [SV.get_none_iff] at hb ⊢
      rw [hk]; exact hb
    rw [SV.get_set_eq h, SV.get_set_eq hb]

theorem agree_set {a b : SV} (hk : a.keys = b.keys) {m : String} (h : a.get m = b.get m) (n : String) (v : Val) :
    (a.set n v).get m = (b.set n v).get m := by
  by_cases hm : m = n
  · subst hm; exact get_set_same hk m v
  · rw [SV.get_set_ne hm, SV.get_set_ne hm, h]

/-! ## The fields of a field as they are here -/

theorem isTarget_resolved {c c' : Cfo} {ctx : Ctx} {csv root csv' : SV} {f fi : Field} (h : resolve c ctx csv f = some fi) :
    isTarget c' ctx root csv' fi = isTarget c' ctx root csv' f := by
  obtain ⟨size, length, rfl, -⟩ := resolve_eta h
  rfl

/-- has no restriction to versions and flags -/
def Field.untagged (f : Field) : Bool :=
  f.version == anyVersion && f.nVersion == anyVersion && f.optFlag == 0 && f.nOptFlag == 0

/-- does not depend on a method -/
def Field.fixed (f : Field) : Bool := !(f.sizeDyn || f.lenDyn || f.optDyn)

theorem target_untagged {c : Cfo} {ctx : Ctx} {r r' a b : SV} {f : Field}
    (hu : f.untagged = true ∨ r.get "FullBox" = r'.get "FullBox")
    (ho : f.optDyn = true → c.opt f.name ctx a = c.opt f.name ctx b) : isTarget c ctx r a f = isTarget c ctx r' b f := by
  rw [isTarget_eq, isTarget_eq]
  refine present_congr ho ?_
  rcases hu with h | h
  · left
    simp only [Field.untagged, Bool.and_eq_true, beq_iff_eq] at h
    exact ⟨h.1.1.1, h.1.1.2, h.1.2, h.2⟩
  · exact Or.inr ⟨SV.version_congr h, SV.flags_congr h⟩

theorem target_uncond {c : Cfo} {ctx : Ctx} {r a : SV} {f : Field} (h : f.uncond = true) : isTarget c ctx r a f = true := by
  rw [isTarget_eq]
  exact present_always h

theorem resolve_fixed {c c' : Cfo} {ctx : Ctx} {a b : SV} {f : Field} (h : (f.sizeDyn || f.lenDyn) = false) :
    resolve c ctx a f = some f ∧ resolve c' ctx b f = some f := by
  simp only [Bool.or_eq_false_iff] at h
  obtain ⟨h1, h2⟩ := h
  cases f
  simp only at h1 h2
  subst h1 h2
  exact ⟨rfl, rfl⟩

/-! ## The same value, different boxes around it -/

/-- what nested structs may see of the box -/
def RootAgree (rk : List String) (r1 r2 : SV) : Prop := ∀ n ∈ rk, r1.get n = r2.get n

mutual
theorem sameV : ∀ (t : Ty) (e : UEnv) (rk : List String) (r1 r2 : SV) (fi : Field) (x : Val), e.cfo.Local → t.AllLocal →
    okV e.cfo rk t = true → RootAgree rk r1 r2 →
    unmarshalV { e with root := r1 } t fi x = unmarshalV { e with root := r2 } t fi x
  | .ptr t, e, rk, r1, r2, fi, x, hl, ht, hok, hr => by
    simp only [okV] at hok
    simp only [Ty.AllLocal] at ht
    simp only [unmarshalV]
    rw [sameV t e rk r1 r2 fi t.zero hl ht hok hr]
  | .struct c fs, e, rk, r1, r2, fi, x, hl, ht, hok, hr => by
    simp only [okV] at hok
    simp only [Ty.AllLocal] at ht
    cases x with
    | struct sv =>
      simp only [unmarshalV]
      congr 1
      funext size8
      rw [show ({ ({ e with root := r1 } : UEnv) with size8 := size8 } : UEnv) = { ({ e with size8 := size8 } : UEnv) with root := r1 } from rfl,
        show ({ ({ e with root := r2 } : UEnv) with size8 := size8 } : UEnv) = { ({ e with size8 := size8 } : UEnv) with root := r2 } from rfl,
        sameFields fs { e with size8 := size8 } rk [] r1 r2 c sv hl ht.2 hok hr]
    | _ => rfl
  | .arr n t, e, rk, r1, r2, fi, x, hl, ht, hok, hr => by
    simp only [okV] at hok
    simp only [Ty.AllLocal] at ht
    cases x with
    | arr l =>
      simp only [unmarshalV]
      rw [show (fun x => unmarshalV { e with root := r1 } t fi x) = fun x => unmarshalV { e with root := r2 } t fi x from
        funext fun x => sameV t e rk r1 r2 fi x hl ht hok hr]
    | _ => rfl
  | .slice t, e, rk, r1, r2, fi, x, hl, ht, hok, hr => by
    simp only [okV] at hok
    simp only [Ty.AllLocal] at ht
    simp only [unmarshalV]
    rw [sameV t e rk r1 r2 fi t.zero hl ht hok hr]
  | .int w, _, _, _, _, _, _, _, _, _, _ => by simp only [unmarshalV]
  | .uint w, _, _, _, _, _, _, _, _, _, _ => by simp only [unmarshalV]
  | .bool, _, _, _, _, _, _, _, _, _, _ => by simp only [unmarshalV]
  | .str, _, _, _, _, _, _, _, _, _, _ => by simp only [unmarshalV]

theorem sameFields : ∀ (fs : Fields) (e : UEnv) (rk kn : List String) (r1 r2 : SV) (c : Option Cfo) (sv : SV), e.cfo.Local →
    fs.AllLocal → okFields e.cfo rk false .none c kn fs = true → RootAgree rk r1 r2 →
    unmarshalFields { e with root := r1 } false c fs sv = unmarshalFields { e with root := r2 } false c fs sv
  | .nil, e, rk, kn, r1, r2, c, sv, hl, ht, hok, hr => by simp only [unmarshalFields]
  | .cons f t fs, e, rk, kn, r1, r2, c, sv, hl, ht, hok, hr => by
    simp only [okFields, Bool.false_eq_true, if_false, Bool.false_and, Bool.not_false, Bool.true_or, Bool.and_true] at hok
    rw [Bool.and_eq_true, Bool.and_eq_true, Bool.and_eq_true, Bool.and_eq_true] at hok
    obtain ⟨⟨⟨⟨hd, hv⟩, _⟩, hokt⟩, hokf⟩ := hok
    simp only [Fields.AllLocal] at ht
    have hans : ∀ cf, cf = c.getD e.cfo → (f.sizeDyn || f.lenDyn || f.optDyn) = true →
        cf.size f.name e.ctx (if c.isSome = true then sv else r1) = cf.size f.name e.ctx (if c.isSome = true then sv else r2) ∧
        cf.length f.name e.ctx (if c.isSome = true then sv else r1) = cf.length f.name e.ctx (if c.isSome = true then sv else r2) ∧
        cf.opt f.name e.ctx (if c.isSome = true then sv else r1) = cf.opt f.name e.ctx (if c.isSome = true then sv else r2) := by
      intro cf hcf hdyn
      cases c with
      | some c' => exact ⟨rfl, rfl, rfl⟩
      | none =>
        subst hcf
        refine hl f.name e.ctx r1 r2 fun m hm => hr m ?_
        rw [hdyn] at hd
        simp at hd
        exact hd m hm
    have hres : resolve (c.getD e.cfo) e.ctx (if c.isSome = true then sv else r1) f =
        resolve (c.getD e.cfo) e.ctx (if c.isSome = true then sv else r2) f := resolve_congr (hans _ rfl)
    have hu : f.untagged = true ∨ r1.get "FullBox" = r2.get "FullBox" := by
      rw [Bool.or_eq_true] at hv
      rcases hv with h | h
      · exact Or.inl h
      · exact Or.inr (hr _ (by simpa using h))
    have htg : ∀ fi, resolve (c.getD e.cfo) e.ctx (if c.isSome = true then sv else r2) f = some fi →
        isTarget (c.getD e.cfo) e.ctx r1 (if c.isSome = true then sv else r1) fi =
        isTarget (c.getD e.cfo) e.ctx r2 (if c.isSome = true then sv else r2) fi := by
      intro fi hfi
      rw [isTarget_resolved hfi, isTarget_resolved hfi]
      exact target_untagged hu fun ho => (hans _ rfl (by simp [ho])).2.2
    simp only [unmarshalFields, Bool.false_eq_true, if_false, false_and]
    rw [hres]
    cases hfi : resolve (c.getD e.cfo) e.ctx (if c.isSome = true then sv else r2) f with
    | none => rfl
    | some fi =>
      simp only
      rw [htg fi hfi, sameFields fs e rk (f.name :: kn) r1 r2 c sv hl ht.2 hokf hr]
      by_cases hti : isTarget (c.getD e.cfo) e.ctx r2 (if c.isSome = true then sv else r2) fi = true
      case neg => rw [if_pos hti, if_pos hti]
      case pos =>
        rw [if_neg (not_not_intro hti), if_neg (not_not_intro hti)]
        funext s
        refine M.bind_congr_run fun _ s1 _ => M.bind_congr_run fun p s2 hp => M.bind_congr_run fun _ s3 _ => ?_
        obtain ⟨n, ov, cur⟩ := p
        cases hp
        simp only
        cases hg : sv.get f.name with
        | none => rfl
        | some x =>
          simp only [Bool.false_eq_true, if_false]
          rw [sameV t e rk r1 r2 fi x hl ht.1 hokt hr]
          exact M.bind_congr_run fun v s4 _ => by
            rw [sameFields fs e rk (f.name :: kn) r1 r2 c (sv.set f.name v) hl ht.2 hokf hr]
end

/-! ## Different old values, in types without optional parts -/

mutual
/-- Every part of a value of this type is overwritten: the fields of structs are neither optional nor
governed by methods.  (Slices and the targets of pointers are made anew.) -/
def Ty.rewritten : Ty → Bool
  | .struct _ fs => fs.rewritten
  | .arr _ t => t.rewritten
  | _ => true
/-- the same for fields -/
def Fields.rewritten : Fields → Bool
  | .nil => true
  | .cons f t fs => f.uncond && f.fixed && !fs.names.contains f.name && t.rewritten && fs.rewritten
end

/-- the fields of these names have values of their types -/
def Holds (fs : Fields) (sv : SV) : Prop := ∀ g u, (g, u) ∈ fs.toList → ∃ x, sv.get g.name = some x ∧ typedV u x = true

theorem Holds.tail {f : Field} {t : Ty} {fs : Fields} {sv : SV} (h : Holds (.cons f t fs) sv) : Holds fs sv :=
  fun g u hm => h g u (by simp [Fields.toList, hm])

theorem Holds.set {n : String} {v : Val} {fs : Fields} {sv : SV} (h : Holds fs sv) (hn : n ∉ fs.names) : Holds fs (sv.set n v) := by
  intro g u hm
  obtain ⟨x, h1, h2⟩ := h g u hm
  refine ⟨x, ?_, h2⟩
  rw [SV.get_set_ne (fun e => hn (by rw [← e]; exact names_of_mem hm)), h1]

theorem arrLoop_rewritten {f g : Val → UM Val} : ∀ {l1 l2 : List Val}, l1.length = l2.length →
    (∀ x ∈ l1, ∀ y ∈ l2, f x = g y) → arrLoop f l1 = arrLoop g l2
  | [], [], _, _ => rfl
  | x :: l1, y :: l2, hl, h => by
    simp only [arrLoop]
    rw [h x List.mem_cons_self y List.mem_cons_self, arrLoop_rewritten (by simpa using hl) fun a ha b hb =>
      h a (List.mem_cons_of_mem _ ha) b (List.mem_cons_of_mem _ hb)]

mutual
theorem rewrittenV : ∀ (t : Ty) (e : UEnv) (rk : List String) (r1 r2 : SV) (fi : Field) (x y : Val), e.cfo.Local → t.AllLocal →
    okV e.cfo rk t = true → RootAgree rk r1 r2 → t.rewritten = true → typedV t x = true → typedV t y = true →
    unmarshalV { e with root := r1 } t fi x = unmarshalV { e with root := r2 } t fi y
  | .ptr t, e, rk, r1, r2, fi, x, y, hl, ht, hok, hr, _, _, _ => by
    have := sameV (.ptr t) e rk r1 r2 fi x hl ht hok hr
    rw [this]
    simp only [unmarshalV]
  | .struct c fs, e, rk, r1, r2, fi, x, y, hl, ht, hok, hr, hw, hx, hy => by
    simp only [okV] at hok
    simp only [Ty.AllLocal] at ht
    simp only [Ty.rewritten] at hw
    cases x <;> simp only [typedV] at hx <;> first | cases hx | skip
    cases y <;> simp only [typedV] at hy <;> first | cases hy | skip
    rename_i a b
    simp only [unmarshalV]
    congr 1
    funext size8
    have hka := typedFields_keys fs a hx
    have hkb := typedFields_keys fs b hy
    have hnd := rewritten_nodup fs hw
    rw [show ({ ({ e with root := r1 } : UEnv) with size8 := size8 } : UEnv) = { ({ e with size8 := size8 } : UEnv) with root := r1 } from rfl,
      show ({ ({ e with root := r2 } : UEnv) with size8 := size8 } : UEnv) = { ({ e with size8 := size8 } : UEnv) with root := r2 } from rfl,
      rewrittenFields fs { e with size8 := size8 } rk [] r1 r2 c a b hl ht.2 hok hr hw (hka.trans hkb.symm) (hka ▸ hnd)
        (fun n hn => by
          rw [SV.get_none_iff.2 (by rw [hka]; exact hn), SV.get_none_iff.2 (by rw [hkb]; exact hn)])
        (fun g u hm => typed_get hnd hx hm) (fun g u hm => typed_get hnd hy hm)]
  | .arr n t, e, rk, r1, r2, fi, x, y, hl, ht, hok, hr, hw, hx, hy => by
    simp only [okV] at hok
    simp only [Ty.AllLocal] at ht
    simp only [Ty.rewritten] at hw
    cases x <;> simp only [typedV] at hx <;> first | cases hx | skip
    cases y <;> simp only [typedV] at hy <;> first | cases hy | skip
    rename_i a b
    rw [Bool.and_eq_true, beq_iff_eq, List.all_eq_true] at hx hy
    simp only [unmarshalV]
    rw [arrLoop_rewritten (hx.1.trans hy.1.symm) fun p hp q hq =>
      rewrittenV t e rk r1 r2 fi p q hl ht hok hr hw (hx.2 p hp) (hy.2 q hq)]
  | .slice t, e, rk, r1, r2, fi, x, y, hl, ht, hok, hr, _, _, _ => by
    have := sameV (.slice t) e rk r1 r2 fi x hl ht hok hr
    rw [this]
    simp only [unmarshalV]
  | .int w, _, _, _, _, _, _, _, _, _, _, _, _, _, _ => by simp only [unmarshalV]
  | .uint w, _, _, _, _, _, _, _, _, _, _, _, _, _, _ => by simp only [unmarshalV]
  | .bool, _, _, _, _, _, _, _, _, _, _, _, _, _, _ => by simp only [unmarshalV]
  | .str, _, _, _, _, _, _, _, _, _, _, _, _, _, _ => by simp only [unmarshalV]

theorem rewritten_nodup : ∀ fs : Fields, fs.rewritten = true → fs.names.Nodup
  | .nil, _ => by simp [Fields.names]
  | .cons f t fs, h => by
    simp only [Fields.rewritten, Bool.and_eq_true] at h
    simp only [Fields.names, List.nodup_cons]
    exact ⟨by simpa using h.1.1.2, rewritten_nodup fs h.2⟩

theorem rewrittenFields : ∀ (fs : Fields) (e : UEnv) (rk kn : List String) (r1 r2 : SV) (c : Option Cfo) (a b : SV), e.cfo.Local →
    fs.AllLocal → okFields e.cfo rk false .none c kn fs = true → RootAgree rk r1 r2 → fs.rewritten = true →
    a.keys = b.keys → a.keys.Nodup → (∀ n, n ∉ fs.names → a.get n = b.get n) → Holds fs a → Holds fs b →
    unmarshalFields { e with root := r1 } false c fs a = unmarshalFields { e with root := r2 } false c fs b
  | .nil, e, rk, kn, r1, r2, c, a, b, hl, ht, hok, hr, hw, hk, hnd, hag, ha, hb => by
    simp only [unmarshalFields]
    rw [SV.ext hk hnd fun n => hag n (by simp [Fields.names])]
  | .cons f t fs, e, rk, kn, r1, r2, c, a, b, hl, ht, hok, hr, hw, hk, hnd, hag, ha, hb => by
    simp only [okFields, Bool.false_eq_true, if_false, Bool.false_and, Bool.not_false, Bool.true_or, Bool.and_true] at hok
    rw [Bool.and_eq_true, Bool.and_eq_true, Bool.and_eq_true, Bool.and_eq_true] at hok
    obtain ⟨⟨⟨⟨hd, hv⟩, _⟩, hokt⟩, hokf⟩ := hok
    simp only [Fields.AllLocal] at ht
    simp only [Fields.rewritten, Bool.and_eq_true] at hw
    obtain ⟨⟨⟨⟨hu, hfx⟩, hff⟩, hwt⟩, hwf⟩ := hw
    have hff : f.name ∉ fs.names := by simpa using hff
    have hfx : (f.sizeDyn || f.lenDyn) = false := by
      simp only [Field.fixed, Bool.not_eq_true', Bool.or_eq_false_iff] at hfx
      simp [hfx.1]
    obtain ⟨x, hx, hxt⟩ := ha f t (by simp [Fields.toList])
    obtain ⟨y, hy, hyt⟩ := hb f t (by simp [Fields.toList])
    funext s
    rw [unmarshalFields_nested { e with root := r1 } c f t fs a s (resolve_fixed (c' := c.getD e.cfo) (b := b) hfx).1 hx,
      unmarshalFields_nested { e with root := r2 } c f t fs b s (resolve_fixed (c' := c.getD e.cfo) (b := b) hfx).1 hy,
      if_neg (not_not_intro (target_uncond hu)), if_neg (not_not_intro (target_uncond hu)),
      rewrittenV t e rk r1 r2 f x y hl ht.1 hokt hr hwt hxt hyt]
    refine M.bind_congr_run fun v s1 _ => ?_
    rw [rewrittenFields fs e rk (f.name :: kn) r1 r2 c (a.set f.name v) (b.set f.name v) hl ht.2 hokf hr hwf
      (by rw [SV.keys_set, SV.keys_set, hk]) (by rw [SV.keys_set]; exact hnd)
      (fun n hn => by
        by_cases h : n = f.name
        · subst h; exact get_set_same hk _ _
        · rw [SV.get_set_ne h, SV.get_set_ne h]
          exact hag n (by simp [Fields.names, h, hn]))
      (ha.tail.set hff) (hb.tail.set hff)]
end

/-! ## The hooks -/

/-- several fields are stored -/
def updAll (l : List (String × Val)) (sv : SV) : SV := l.foldl (fun sv p => SV.set sv p.1 p.2) sv

/-- what a hook stores in the box -/
inductive HookUpd (h : Hook) (name : String) (ver : Nat) : Bool → List (String × Val) → Prop
  | nothing (hn : ¬ (h = .emsg ∧ ver ≠ 0 ∧ (name = "SchemeIdUri" ∨ name = "Value" ∨ name = "MessageData"))) :
      HookUpd h name ver false []
  | skip (hh : h = .emsg) (hv : ver ≠ 0) (hn : name = "SchemeIdUri" ∨ name = "Value") : HookUpd h name ver true []
  | text (hh : h = .emsg) (hv : ver ≠ 0) (hn : name = "MessageData") (x y : Val) :
      HookUpd h name ver false [("SchemeIdUri", x), ("Value", y)]
  | own (hh : (h = .hdlr ∧ name = "Name") ∨ (h = .avcc ∧ name = "HighProfileFieldsEnabled")) (v : Val) :
      HookUpd h name ver true [(name, v)]

/-- two results of a hook -/
def HookSame (h : Hook) (name : String) (a b : SV) (p q : Nat × Bool × SV) : Prop :=
  p.1 = q.1 ∧ p.2.1 = q.2.1 ∧ ∃ l, p.2.2 = updAll l a ∧ q.2.2 = updAll l b ∧ HookUpd h name a.version p.2.1 l

theorem hook_same {h : Hook} {d : Bytes} {name : String} {lft : Nat} {a b : SV} {s : RSt}
    (hv : h = .emsg → (name = "SchemeIdUri" ∨ name = "Value" ∨ name = "MessageData") → a.version = b.version)
    (hp : h = .hdlr → name = "Name" → a.uint "PreDefined" = b.uint "PreDefined")
    (hq : h = .avcc → name = "HighProfileFieldsEnabled" → a.uint "Profile" = b.uint "Profile") :
    Same (HookSame h name a b) (onRead h d name lft a s) (onRead h d name lft b s) := by
  have hnone : ∀ hn, Same (HookSame h name a b) ((pure (0, false, a) : RM (Nat × Bool × SV)) s) ((pure (0, false, b) : RM _) s) :=
    fun hn => ⟨rfl, rfl, rfl, [], rfl, rfl, HookUpd.nothing hn⟩
  unfold onRead
  cases h with
  | none => exact hnone (by simp)
  | emsg =>
    simp only
    by_cases hn : name = "SchemeIdUri" ∨ name = "Value" ∨ name = "MessageData"
    · have hv := hv rfl hn
      rw [← hv]
      by_cases hz : a.version = 0
      · rw [if_pos hz, if_pos hz]
        exact hnone fun h => h.2.1 hz
      rw [if_neg hz, if_neg hz]
      by_cases h1 : name = "SchemeIdUri" ∨ name = "Value"
      · rw [if_pos h1, if_pos h1]
        exact ⟨rfl, rfl, rfl, [], rfl, rfl, HookUpd.skip rfl hz h1⟩
      rw [if_neg h1, if_neg h1]
      have h2 : name = "MessageData" := by
        rcases hn with h | h | h
        · exact absurd (Or.inl h) h1
        · exact absurd (Or.inr h) h1
        · exact h
      rw [if_pos h2, if_pos h2]
      refine Same.bind (Q := Eq) (Same.refl _ fun _ _ => rfl) ?_
      intro x x' s1 _ _ hx
      subst hx
      refine Same.bind (Q := Eq) (Same.refl _ fun _ _ => rfl) ?_
      intro y y' s2 _ _ hy
      subst hy
      exact ⟨rfl, rfl, rfl, [("SchemeIdUri", .str x), ("Value", .str y)], rfl, rfl, HookUpd.text rfl hz h2 _ _⟩
    · have h1 : ¬ (name = "SchemeIdUri" ∨ name = "Value") := fun h => hn (by rcases h with h | h <;> simp [h])
      have h2 : ¬ name = "MessageData" := fun h => hn (by simp [h])
      rw [if_neg h1, if_neg h2, if_neg h1, if_neg h2]
      simp only [ite_self]
      exact hnone fun h => hn h.2.2
  | hdlr =>
    simp only
    by_cases hn : name = "Name"
    · rw [if_pos hn, if_pos hn]
      have hp := hp rfl hn
      unfold hdlrOnReadName
      simp only
      split
      · exact ⟨rfl, rfl, rfl, [(name, .str [])], by rw [hn]; rfl, by rw [hn]; rfl, HookUpd.own (Or.inl ⟨rfl, hn⟩) _⟩
      · refine Same.bind (Q := Eq) (Same.refl _ fun _ _ => rfl) ?_
        intro o o' s1 _ _ ho
        subst ho
        split
        · exact ⟨rfl, rfl⟩
        split
        · exact ⟨rfl, trivial⟩
        · refine Same.bind (Q := Eq) (Same.refl _ fun _ _ => rfl) ?_
          intro buf buf' s2 _ _ hb
          subst hb
          rw [← hp]
          split
          · exact ⟨rfl, rfl, rfl, [(name, .str ((buf.drop 1).take (buf.headD 0#8).toNat))], by rw [hn]; rfl, by rw [hn]; rfl,
              HookUpd.own (Or.inl ⟨rfl, hn⟩) _⟩
          · exact ⟨rfl, rfl, rfl, [(name, .str (buf.takeWhile (fun c => c != 0#8)))], by rw [hn]; rfl, by rw [hn]; rfl,
              HookUpd.own (Or.inl ⟨rfl, hn⟩) _⟩
    · rw [if_neg hn, if_neg hn]
      exact hnone (by simp)
  | avcc =>
    simp only
    by_cases hn : name = "HighProfileFieldsEnabled"
    · rw [if_pos hn, if_pos hn, ← hq rfl hn]
      exact ⟨rfl, rfl, rfl, [(name, .bool (decide (32 ≤ lft) && avccHigh (a.uint "Profile")))], by rw [hn]; rfl, by rw [hn]; rfl,
        HookUpd.own (Or.inr ⟨rfl, hn⟩) _⟩
    · rw [if_neg hn, if_neg hn]
      exact hnone (by simp)

/-! ## The fields of the box -/

/-- is the field part of the encoding of this box? -/
def tgt (c : Cfo) (ctx : Ctx) (sv : SV) (g : Field) : Bool := isTarget c ctx sv sv g

/-- the same is decided about a field -/
def Decided (c : Cfo) (ctx : Ctx) (a b : SV) (f : Field) : Prop :=
  tgt c ctx a f = tgt c ctx b f ∧ (tgt c ctx a f = true → resolve c ctx a f = resolve c ctx b f) ∧
  (resolve c ctx a f).isSome = (resolve c ctx b f).isSome

theorem decided_of {c : Cfo} (hl : c.Local) {ctx : Ctx} {a b : SV} {f : Field}
    (hd : (f.sizeDyn || f.lenDyn || f.optDyn) = true → ∀ m ∈ c.deps f.name, a.get m = b.get m)
    (hu : f.untagged = true ∨ a.get "FullBox" = b.get "FullBox") : Decided c ctx a b f := by
  have hr : resolve c ctx a f = resolve c ctx b f := resolve_congr fun h => hl _ _ _ _ (hd h)
  exact ⟨target_untagged hu fun ho => (hl _ _ _ _ (hd (by simp [ho]))).2.2, fun _ => hr, by rw [hr]⟩

theorem tgt_set {c : Cfo} (hl : c.Local) {ctx : Ctx} {a : SV} {g : Field} {n : String} {v : Val}
    (hd : g.optDyn = true → n ∉ c.deps g.name) (hu : g.untagged = true ∨ "FullBox" ≠ n) :
    tgt c ctx (a.set n v) g = tgt c ctx a g := by
  refine target_untagged ?_ ?_
  · rcases hu with h | h
    · exact Or.inl h
    · exact Or.inr (SV.get_set_ne h)
  · intro ho
    refine (hl _ _ _ _ fun m hm => ?_).2.2
    exact SV.get_set_ne fun e => hd ho (e ▸ hm)

/-- What the destinations have in common once the fields `P` are decoded and the fields `fs` are still to come. -/
structure Inv (e : UEnv) (P : List Field) (K : List String) (fs : Fields) (a b : SV) : Prop where
  keys : a.keys = b.keys
  known : ∀ n ∈ K, a.get n = b.get n
  past : ∀ g ∈ P, a.get g.name = b.get g.name ∨ (tgt e.cfo e.ctx a g = false ∧ tgt e.cfo e.ctx b g = false) ∨
    (e.hook = .emsg ∧ a.version ≠ 0 ∧ (g.name = "SchemeIdUri" ∨ g.name = "Value") ∧ "MessageData" ∈ fs.names ∧
      "FullBox" ∉ fs.names)
  ha : Holds fs a
  hb : Holds fs b

/-- the decisions about the fields decoded so far will not change -/
def Settled (e : UEnv) (P : List Field) (fs : Fields) : Prop :=
  ∀ g ∈ P, (g.optDyn = true → ∀ m ∈ e.cfo.deps g.name, m ∉ fs.names ∧ ¬ (e.hook = .emsg ∧ (m = "SchemeIdUri" ∨ m = "Value"))) ∧
    (g.untagged = true ∨ "FullBox" ∉ fs.names)

theorem Settled.tail {e : UEnv} {P : List Field} {f : Field} {t : Ty} {fs : Fields} (h : Settled e P (.cons f t fs)) :
    Settled e P fs := by
  intro g hg
  obtain ⟨h1, h2⟩ := h g hg
  refine ⟨fun ho m hm => ⟨fun hn => (h1 ho m hm).1 (by simp [Fields.names, hn]), (h1 ho m hm).2⟩, ?_⟩
  rcases h2 with h2 | h2
  · exact Or.inl h2
  · exact Or.inr fun hn => h2 (by simp [Fields.names, hn])

/-- Is everything the box's methods look at decoded before, whatever the box held?  `P`: fields decoded so far.
`K`: those that are always present.  `sp f` is an optional field on which the field `f` may depend
(that this does no harm is shown separately). -/
def reusable (rc : Cfo) (hook : Hook) (sp : String → Option String) (P K : List String) : Fields → Bool
  | .nil => true
  | .cons f t fs =>
    let late := hook == .emsg && (f.name == "SchemeIdUri" || f.name == "Value")
    (f.fixed || (rc.deps f.name).all K.contains || match sp f.name with
      | some g => P.contains g && K.contains "FullBox" && hook != .emsg && (rc.deps f.name).all (fun n => n == g || K.contains n)
      | none => false) &&
    (!f.optDyn || (rc.deps f.name).all (fun n => !(f.name :: fs.names).contains n &&
      !(hook == .emsg && (n == "SchemeIdUri" || n == "Value")))) &&
    (f.untagged || (K.contains "FullBox" && !(f.name :: fs.names).contains "FullBox")) &&
    !fs.names.contains f.name && okV rc K t && t.rewritten &&
    (!late || (K.contains "FullBox" && fs.names.contains "MessageData" && !(f.name :: fs.names).contains "FullBox")) &&
    (!(hook == .emsg && f.name == "MessageData") || (K.contains "FullBox" && f.uncond && !fs.names.contains "SchemeIdUri" &&
      !fs.names.contains "Value")) &&
    (!(hook == .hdlr && f.name == "Name") || K.contains "PreDefined") &&
    (!(hook == .avcc && f.name == "HighProfileFieldsEnabled") || K.contains "Profile") &&
    reusable rc hook sp (f.name :: P) (if f.uncond && !late then f.name :: K else K) fs

theorem updAll_keys (l : List (String × Val)) : ∀ sv : SV, (updAll l sv).keys = sv.keys := by
  unfold updAll
  induction l with
  | nil => intro sv; rfl
  | cons p l ih => intro sv; rw [List.foldl_cons, ih, SV.keys_set]

theorem updAll_ne {l : List (String × Val)} {m : String} : ∀ {sv : SV}, (∀ p ∈ l, m ≠ p.1) → (updAll l sv).get m = sv.get m := by
  unfold updAll
  induction l with
  | nil => intro sv _; rfl
  | cons p l ih =>
    intro sv h
    rw [List.foldl_cons, ih fun q hq => h q (List.mem_cons_of_mem _ hq), SV.get_set_ne (h p List.mem_cons_self)]

theorem updAll_agree {l : List (String × Val)} {m : String} : ∀ {a b : SV}, a.keys = b.keys → a.get m = b.get m →
    (updAll l a).get m = (updAll l b).get m := by
  unfold updAll
  induction l with
  | nil => intro a b _ h; exact h
  | cons p l ih =>
    intro a b hk h
    rw [List.foldl_cons, List.foldl_cons]
    exact ih (by rw [SV.keys_set, SV.keys_set, hk]) (agree_set hk h _ _)

theorem updAll_mem {l : List (String × Val)} {m : String} : ∀ {a b : SV}, a.keys = b.keys → m ∈ l.map (·.1) →
    (updAll l a).get m = (updAll l b).get m := by
  unfold updAll
  induction l with
  | nil => intro a b _ h; simp at h
  | cons p l ih =>
    intro a b hk h
    rw [List.foldl_cons, List.foldl_cons]
    by_cases hm : m = p.1
    · subst hm
      exact updAll_agree (l := l) (by rw [SV.keys_set, SV.keys_set, hk]) (get_set_same hk _ _)
    · refine ih (by rw [SV.keys_set, SV.keys_set, hk]) ?_
      simp only [List.map_cons, List.mem_cons] at h
      rcases h with h | h
      · exact absurd h hm
      · exact h

theorem updAll_tgt {c : Cfo} (hl : c.Local) {ctx : Ctx} {g : Field} {l : List (String × Val)}
    (hd : g.optDyn = true → ∀ p ∈ l, p.1 ∉ c.deps g.name) (hu : g.untagged = true ∨ ∀ p ∈ l, "FullBox" ≠ p.1) :
    ∀ {a : SV}, tgt c ctx (updAll l a) g = tgt c ctx a g := by
  unfold updAll
  induction l with
  | nil => intro a; rfl
  | cons p l ih =>
    intro a
    rw [List.foldl_cons, ih (fun ho q hq => hd ho q (List.mem_cons_of_mem _ hq)) (hu.imp_right fun h q hq => h q (List.mem_cons_of_mem _ hq))]
    exact tgt_set hl (fun ho => hd ho p List.mem_cons_self) (hu.imp_right fun h => h p List.mem_cons_self)

/-- names a hook stores -/
theorem HookUpd.names {h : Hook} {name : String} {ver : Nat} {ov : Bool} {l : List (String × Val)} (hu : HookUpd h name ver ov l) :
    ∀ p ∈ l, p.1 = name ∨ (h = .emsg ∧ name = "MessageData" ∧ (p.1 = "SchemeIdUri" ∨ p.1 = "Value")) := by
  intro p hp
  cases hu with
  | nothing => simp at hp
  | skip => simp at hp
  | text hh hv hn x y =>
    simp only [List.mem_cons, List.not_mem_nil, or_false] at hp
    rcases hp with rfl | rfl
    · exact Or.inr ⟨hh, hn, Or.inl rfl⟩
    · exact Or.inr ⟨hh, hn, Or.inr rfl⟩
  | own hh v =>
    simp only [List.mem_cons, List.not_mem_nil, or_false] at hp
    subst hp
    exact Or.inl rfl

theorem HookUpd.noFull {h : Hook} {name : String} {ver : Nat} {ov : Bool} {l : List (String × Val)} (hu : HookUpd h name ver ov l) :
    ∀ p ∈ l, "FullBox" ≠ p.1 := by
  intro p hp
  cases hu with
  | nothing => simp at hp
  | skip => simp at hp
  | text hh hv hn x y =>
    simp only [List.mem_cons, List.not_mem_nil, or_false] at hp
    rcases hp with rfl | rfl <;> simp
  | own hh v =>
    simp only [List.mem_cons, List.not_mem_nil, or_false] at hp
    subst hp
    rcases hh with ⟨_, rfl⟩ | ⟨_, rfl⟩ <;> simp

theorem reuse_top {d : Bytes} (e : UEnv) (hed : e.d = d) (hlc : e.cfo.Local) (sp : String → Option String) (all : Fields)
    (hsp : ∀ f t g u, (f, t) ∈ all.toList → (g, u) ∈ all.toList → sp f.name = some g.name → ∀ a b : SV,
      (∀ m ∈ e.cfo.deps f.name, m ≠ g.name → a.get m = b.get m) → a.get "FullBox" = b.get "FullBox" →
      tgt e.cfo e.ctx a g = false → tgt e.cfo e.ctx b g = false → Decided e.cfo e.ctx a b f) :
    ∀ (fs : Fields) (P : List Field) (K : List String) (a b : SV), (∀ f t, (f, t) ∈ fs.toList → (f, t) ∈ all.toList) →
      (∀ g ∈ P, ∃ u, (g, u) ∈ all.toList) → reusable e.cfo e.hook sp (P.map (·.name)) K fs = true → fs.AllLocal →
      Settled e P fs → Inv e P K fs a b →
      ∀ s, Same (fun x y => Inv e (fs.toList.map (·.1) ++ P) K .nil x y) (unmarshalFields e true (some e.cfo) fs a s)
        (unmarshalFields e true (some e.cfo) fs b s)
  | .nil, P, K, a, b, hsub, hP, hok, hloc, hset, hi, s => by
    simp only [unmarshalFields]
    refine ⟨rfl, hi.keys, hi.known, fun g hg => ?_, hi.ha, hi.hb⟩
    exact hi.past g (by simpa [Fields.toList] using hg)
  | .cons f t fs, P, K, a, b, hsub, hP, hok, hloc, hset, hi, s => by
    simp only [reusable] at hok
    simp only [Bool.and_eq_true] at hok
    obtain ⟨⟨⟨⟨⟨⟨⟨⟨⟨⟨hdep, hopt⟩, hver⟩, hfresh⟩, hokt⟩, hrw⟩, hlate⟩, hmd⟩, hhd⟩, hav⟩, hokf⟩ := hok
    have hff : f.name ∉ fs.names := by simpa using hfresh
    have hmem : (f, t) ∈ all.toList := hsub f t (by simp [Fields.toList])
    simp only [Fields.AllLocal] at hloc
    have hu : f.untagged = true ∨ ("FullBox" ∈ K ∧ "FullBox" ≠ f.name ∧ "FullBox" ∉ fs.names) := by
      rw [Bool.or_eq_true] at hver
      rcases hver with h | h
      · exact Or.inl h
      · right
        simp at h
        exact ⟨h.1, h.2.1, h.2.2⟩
    have hu' : f.untagged = true ∨ a.get "FullBox" = b.get "FullBox" := hu.imp_right fun h => hi.known _ h.1
    have hset' : Settled e (f :: P) fs := by
      intro g hg
      simp only [List.mem_cons] at hg
      rcases hg with rfl | hg
      · refine ⟨fun ho m hm => ?_, hu.imp_right fun h => h.2.2⟩
        rw [ho] at hopt
        simp only [Bool.not_true, Bool.false_or] at hopt
        have := List.all_eq_true.mp hopt m hm
        simp at this
        refine ⟨this.1.2, fun hh => ?_⟩
        rcases this.2 with h | h
        · exact h hh.1
        · exact hh.2.elim h.1 h.2
      · exact hset.tail g hg
    -- the same decisions
    have hdec : Decided e.cfo e.ctx a b f := by
      rw [Bool.or_eq_true, Bool.or_eq_true] at hdep
      rcases hdep with (h | h) | h
      · refine decided_of hlc (fun hd => ?_) hu'
        simp only [Field.fixed, Bool.not_eq_true'] at h
        rw [h] at hd
        simp at hd
      · refine decided_of hlc (fun _ m hm => hi.known m ?_) hu'
        simpa using List.all_eq_true.mp h m hm
      · cases hs : sp f.name with
        | none => rw [hs] at h; simp at h
        | some gn =>
          rw [hs] at h
          simp only [Bool.and_eq_true] at h
          obtain ⟨⟨⟨h1, h2⟩, h3⟩, h4⟩ := h
          have h1 : gn ∈ P.map (·.name) := by simpa using h1
          have h2 : "FullBox" ∈ K := by simpa using h2
          have h3 : e.hook ≠ .emsg := by simpa using h3
          obtain ⟨g, hg, hgn⟩ := List.mem_map.1 h1
          have hothers : ∀ m ∈ e.cfo.deps f.name, m ≠ g.name → a.get m = b.get m := by
            intro m hm hne
            have := List.all_eq_true.mp h4 m hm
            rw [Bool.or_eq_true] at this
            rcases this with h | h
            · exact absurd (by rw [hgn]; simpa using h) hne
            · exact hi.known m (by simpa using h)
          rcases hi.past g hg with hg' | ⟨h5, h6⟩ | ⟨h5, _⟩
          · refine decided_of hlc (fun _ m hm => ?_) hu'
            by_cases hne : m = g.name
            · rw [hne, hg']
            · exact hothers m hm hne
          · obtain ⟨u, hgu⟩ := hP g hg
            exact hsp f t g u hmem hgu (by rw [hs, hgn]) a b hothers (hi.known _ h2) h5 h6
          · exact absurd h5 h3
    obtain ⟨hd1, hd2, hd3⟩ := hdec
    -- after an update of both
    have hP' : ∀ g ∈ f :: P, ∃ u, (g, u) ∈ all.toList := by
      intro g hg
      simp only [List.mem_cons] at hg
      rcases hg with rfl | hg
      · exact ⟨t, hmem⟩
      · exact hP g hg
    have hsub' : ∀ f' t', (f', t') ∈ fs.toList → (f', t') ∈ all.toList := fun f' t' h => hsub f' t' (by simp [Fields.toList, h])
    have hfin : ∀ (K' : List String) (x y : SV) (s : USt), (K' = K ∨ K' = f.name :: K ∧ x.get f.name = y.get f.name) →
        reusable e.cfo e.hook sp (f.name :: P.map (·.name)) K' fs = true → x.keys = y.keys →
        (∀ n ∈ K, x.get n = y.get n) → (∀ g ∈ f :: P, x.get g.name = y.get g.name ∨
          (tgt e.cfo e.ctx x g = false ∧ tgt e.cfo e.ctx y g = false) ∨
          (e.hook = .emsg ∧ x.version ≠ 0 ∧ (g.name = "SchemeIdUri" ∨ g.name = "Value") ∧ "MessageData" ∈ fs.names ∧
            "FullBox" ∉ fs.names)) → Holds fs x → Holds fs y →
        Same (fun x y => Inv e ((Fields.cons f t fs).toList.map (·.1) ++ P) K .nil x y)
          (unmarshalFields e true (some e.cfo) fs x s) (unmarshalFields e true (some e.cfo) fs y s) := by
      intro K' x y s hK' hok' hk hkn hpast hx hy
      refine (reuse_top e hed hlc sp all hsp fs (f :: P) K' x y hsub' hP' hok' hloc.2 hset' ⟨hk, ?_, hpast, hx, hy⟩ s).mono ?_
      · rcases hK' with rfl | ⟨rfl, h⟩
        · exact hkn
        · intro n hn
          simp only [List.mem_cons] at hn
          rcases hn with rfl | hn
          · exact h
          · exact hkn n hn
      · intro x y h
        refine ⟨h.keys, fun n hn => h.known n (by rcases hK' with rfl | ⟨rfl, _⟩ <;> simp [hn]), fun g hg => h.past g ?_, h.ha, h.hb⟩
        simp only [Fields.toList, List.map_cons, List.cons_append, List.mem_cons, List.mem_append, List.mem_map] at hg ⊢
        rcases hg with h | h | h
        · exact Or.inr (Or.inl h)
        · exact Or.inl h
        · exact Or.inr (Or.inr h)
    -- what is kept of the past when the hook has stored `l`
    cases hra : resolve e.cfo e.ctx a f with
    | none =>
      have hrb : resolve e.cfo e.ctx b f = none := by
        rw [hra] at hd3
        cases h : resolve e.cfo e.ctx b f with
        | none => rfl
        | some _ => rw [h] at hd3; simp at hd3
      simp only [unmarshalFields, Option.getD_some, Option.isSome_some, if_true]
      rw [hra, hrb]
      exact ⟨rfl, trivial⟩
    | some fa =>
      obtain ⟨fb, hrb⟩ : ∃ fb, resolve e.cfo e.ctx b f = some fb := by
        rw [hra] at hd3
        exact Option.isSome_iff_exists.1 hd3.symm
      rw [unmarshalFields_top e (some e.cfo) f t fs a s hra, unmarshalFields_top e (some e.cfo) f t fs b s hrb]
      simp only [Option.getD_some]
      have hta : isTarget e.cfo e.ctx a a fa = tgt e.cfo e.ctx a f := isTarget_resolved hra
      have htb : isTarget e.cfo e.ctx b b fb = tgt e.cfo e.ctx b f := isTarget_resolved hrb
      rw [← hd1] at htb
      by_cases hT : tgt e.cfo e.ctx a f = true
      case neg =>
        rw [if_pos (by rw [hta]; exact hT), if_pos (by rw [htb]; exact hT)]
        have hT' : tgt e.cfo e.ctx a f = false := by simpa using hT
        have hun : f.uncond = false := by
          cases h : f.uncond with
          | false => rfl
          | true => exact absurd (target_uncond h) hT
        rw [if_neg (by simp [hun])] at hokf
        have hne : e.hook = .emsg → f.name ≠ "MessageData" := by
          intro h1 h2
          rw [h1, h2, hun] at hmd
          simp at hmd
        refine hfin K a b s (Or.inl rfl) hokf hi.keys hi.known ?_ hi.ha.tail hi.hb.tail
        intro g hg
        simp only [List.mem_cons] at hg
        rcases hg with rfl | hg
        · exact Or.inr (Or.inl ⟨hT', hd1 ▸ hT'⟩)
        · rcases hi.past g hg with h | h | ⟨h1, h2, h3, h4, h5⟩
          · exact Or.inl h
          · exact Or.inr (Or.inl h)
          · right; right
            simp only [Fields.names, List.mem_cons, not_or] at h4 h5
            rcases h4 with h4 | h4
            · exact absurd h4.symm (hne h1)
            · exact ⟨h1, h2, h3, h4, h5.2⟩
      case pos =>
        rw [if_neg (by rw [hta]; exact not_not_intro hT), if_neg (by rw [htb]; exact not_not_intro hT)]
        have hfab : fa = fb := by
          have := hd2 hT
          rw [hra, hrb] at this
          simpa using this
        subst hfab
        unfold runHook
        refine Same.bind (Q := Eq) (Same.refl _ fun _ _ => rfl) ?_
        intro s1 s1' s2 hs1 _ he1
        subst he1
        cases hs1
        refine Same.bind (Q := HookSame e.hook f.name a b) ?_ ?_
        · have := hook_same (h := e.hook) (d := e.d) (name := f.name) (lft := left e.size8 s.rbits) (a := a) (b := b) (s := s.r)
            (fun h1 h2 => by
              have : "FullBox" ∈ K := by
                rw [h1] at hlate hmd
                rcases h2 with h | h | h
                · rw [h] at hlate; simp at hlate; exact hlate.1.1
                · rw [h] at hlate; simp at hlate; exact hlate.1.1
                · rw [h] at hmd; simp at hmd; exact hmd.1.1.1
              exact SV.version_congr (hi.known _ this))
            (fun h1 h2 => by
              rw [h1, h2] at hhd
              simp at hhd
              exact SV.uint_congr (hi.known _ hhd))
            (fun h1 h2 => by
              rw [h1, h2] at hav
              simp at hav
              exact SV.uint_congr (hi.known _ hav))
          unfold liftR
          obtain ⟨h1, h2⟩ := this
          cases hA : onRead e.hook e.d f.name (left e.size8 s.rbits) a s.r with
          | mk o r =>
            cases hB : onRead e.hook e.d f.name (left e.size8 s.rbits) b s.r with
            | mk o' r' =>
              rw [hA, hB] at h1 h2
              simp only at h1
              subst h1
              exact ⟨rfl, h2⟩
        rintro ⟨n, ov, x⟩ ⟨n', ov', y⟩ s3 _ _ ⟨h1, h2, l, h3, h4, h5⟩
        simp only at h1 h2 h3 h4 h5
        subst h1 h2 h3 h4
        refine Same.bind (Q := Eq) (Same.refl _ fun _ _ => rfl) ?_
        intro _ _ s4 _ _ _
        simp only
        have hkeys : (updAll l a).keys = (updAll l b).keys := by rw [updAll_keys, updAll_keys, hi.keys]
        have hvers : (updAll l a).version = a.version := SV.version_congr (updAll_ne h5.noFull)
        have hkn : ∀ n ∈ K, (updAll l a).get n = (updAll l b).get n := fun n hn => updAll_agree hi.keys (hi.known n hn)
        have hhold : ∀ sv : SV, Holds fs sv → Holds fs (updAll l sv) := by
          intro sv h g u hm
          obtain ⟨x, h6, h7⟩ := h g u hm
          refine ⟨x, ?_, h7⟩
          rw [updAll_ne, h6]
          intro p hp he
          have hgn := names_of_mem hm
          rw [he] at hgn
          rcases h5.names p hp with h | ⟨h8, h9, h10⟩
          · exact hff (h ▸ hgn)
          · rw [h8, h9] at hmd
            simp at hmd
            rcases h10 with h | h
            · exact hmd.1.2 (h ▸ hgn)
            · exact hmd.2 (h ▸ hgn)
        -- the fields decoded before
        have hpast : ∀ g ∈ P, (updAll l a).get g.name = (updAll l b).get g.name ∨
            (tgt e.cfo e.ctx (updAll l a) g = false ∧ tgt e.cfo e.ctx (updAll l b) g = false) ∨
            (e.hook = .emsg ∧ (updAll l a).version ≠ 0 ∧ (g.name = "SchemeIdUri" ∨ g.name = "Value") ∧
              ("MessageData" ∈ fs.names ∧ "FullBox" ∉ fs.names) ∧ "FullBox" ≠ f.name) := by
          intro g hg
          rcases hi.past g hg with h | ⟨h6, h7⟩ | ⟨h6, h7, h8, h9, h10⟩
          · exact Or.inl (updAll_agree hi.keys h)
          · right; left
            have hs := hset g hg
            have hst : ∀ {sv : SV}, tgt e.cfo e.ctx (updAll l sv) g = tgt e.cfo e.ctx sv g := by
              refine updAll_tgt hlc (fun ho p hp hm => ?_) (Or.inr h5.noFull)
              obtain ⟨h8, h9⟩ := hs.1 ho _ hm
              rcases h5.names p hp with h | ⟨h10, _, h11⟩
              · exact h8 (by simp [Fields.names, h])
              · exact h9 ⟨h10, h11⟩
            rw [hst, hst]
            exact ⟨h6, h7⟩
          · simp only [Fields.names, List.mem_cons, not_or] at h9 h10
            rcases h9 with h9 | h9
            · -- the two strings are stored now
              left
              cases h5 with
              | nothing hn => exact absurd ⟨h6, h7, Or.inr (Or.inr h9.symm)⟩ hn
              | skip _ _ hn => rw [← h9] at hn; simp at hn
              | text _ _ _ x y => exact updAll_mem hi.keys (by rcases h8 with h | h <;> simp [h])
              | own hh v => rw [h6] at hh; simp at hh
            · exact Or.inr (Or.inr ⟨h6, by rw [hvers]; exact h7, h8, ⟨h9, h10.2⟩, h10.1⟩)
        have hpast' := fun g hg => (hpast g hg).imp_right fun h => h.imp_right fun h => (⟨h.1, h.2.1, h.2.2.1, h.2.2.2.1⟩ : _ ∧ _ ∧ _ ∧ _)
        unfold afterHook
        cases ov with
        | true =>
          simp only [if_true]
          cases h5 with
          | skip hh hv hn =>
            have hlt : (e.hook == Hook.emsg && (f.name == "SchemeIdUri" || f.name == "Value")) = true := by
              rw [hh]; rcases hn with h | h <;> simp [h]
            rw [hlt] at hlate hokf
            simp only [Bool.not_true, Bool.false_eq_true, and_false, if_false] at hokf
            simp at hlate
            refine hfin K _ _ s4 (Or.inl rfl) hokf hkeys hkn ?_ (hhold _ hi.ha.tail) (hhold _ hi.hb.tail)
            intro g hg
            simp only [List.mem_cons] at hg
            rcases hg with rfl | hg
            · exact Or.inr (Or.inr ⟨hh, by rw [hvers]; exact hv, hn, hlate.1.2, hlate.2.2⟩)
            · exact hpast' g hg
          | own hh v =>
            have hown : (updAll [(f.name, v)] a).get f.name = (updAll [(f.name, v)] b).get f.name := updAll_mem hi.keys (by simp)
            refine hfin _ _ _ s4 ?_ hokf hkeys hkn ?_ (hhold _ hi.ha.tail) (hhold _ hi.hb.tail)
            · split
              · exact Or.inr ⟨rfl, hown⟩
              · exact Or.inl rfl
            · intro g hg
              simp only [List.mem_cons] at hg
              rcases hg with rfl | hg
              · exact Or.inl hown
              · exact hpast' g hg
        | false =>
          simp only [Bool.false_eq_true, if_false]
          -- the hook has not touched the field itself
          have hnot : ∀ p ∈ l, f.name ≠ p.1 := by
            intro p hp he
            cases h5 with
            | nothing => simp at hp
            | text _ _ hn x y =>
              simp only [List.mem_cons, List.not_mem_nil, or_false] at hp
              rw [hn] at he
              rcases hp with rfl | rfl <;> simp at he
          obtain ⟨x, hx, hxt⟩ := hi.ha f t (by simp [Fields.toList])
          obtain ⟨y, hy, hyt⟩ := hi.hb f t (by simp [Fields.toList])
          rw [updAll_ne hnot, hx, updAll_ne hnot, hy]
          simp only
          rw [rewrittenV t e K (updAll l a) (updAll l b) fa x y hlc hloc.1 hokt hkn hrw hxt hyt]
          refine Same.bind (Q := Eq) (Same.refl _ fun _ _ => rfl) ?_
          intro v v' s5 _ _ hv
          subst hv
          have hown : ((updAll l a).set f.name v).get f.name = ((updAll l b).set f.name v).get f.name := get_set_same hkeys _ _
          have hgo : ∀ s5, Same (fun x y => Inv e ((Fields.cons f t fs).toList.map (·.1) ++ P) K .nil x y)
              (unmarshalFields e true (some e.cfo) fs ((updAll l a).set f.name v) s5)
              (unmarshalFields e true (some e.cfo) fs ((updAll l b).set f.name v) s5) := by
            intro s5
            refine hfin _ _ _ s5 ?_ hokf (by rw [SV.keys_set, SV.keys_set, hkeys]) (fun n hn => agree_set hkeys (hkn n hn) _ _) ?_
              ((hhold _ hi.ha.tail).set hff) ((hhold _ hi.hb.tail).set hff)
            · split
              · exact Or.inr ⟨rfl, hown⟩
              · exact Or.inl rfl
            · intro g hg
              simp only [List.mem_cons] at hg
              rcases hg with rfl | hg
              · exact Or.inl hown
              · rcases hpast g hg with h | ⟨h6, h7⟩ | ⟨h6, h7, h8, h9, h10⟩
                · exact Or.inl (agree_set hkeys h _ _)
                · right; left
                  have hs := hset g hg
                  have hst : ∀ {sv : SV}, tgt e.cfo e.ctx (sv.set f.name v) g = tgt e.cfo e.ctx sv g := by
                    refine tgt_set hlc (fun ho hm => (hs.1 ho _ hm).1 (by simp [Fields.names])) (hs.2.imp_right fun h he => h (by simp [Fields.names, he]))
                  rw [hst, hst]
                  exact ⟨h6, h7⟩
                · right; right
                  refine ⟨h6, ?_, h8, h9⟩
                  rw [SV.version_congr (SV.get_set_ne h10)]
                  exact h7
          by_cases hfb : f.name = "FullBox"
          · have hvv : ((updAll l a).set f.name v).version = ((updAll l b).set f.name v).version := by
              apply SV.version_congr
              rw [← hfb]
              exact hown
            rw [hvv]
            split
            · exact ⟨rfl, rfl⟩
            · exact hgo s5
          · rw [if_neg fun h => hfb h.1, if_neg fun h => hfb h.1]
            exact hgo s5

/-! ## All box types -/

/-- optional fields on which other fields depend -/
def reuseSp (bd : BoxDef) (n : String) : Option String :=
  if bd.goName == "AVCDecoderConfiguration" && n == "SequenceParameterSetsExt" then some "NumOfSequenceParameterSetExt"
  else if bd.goName == "AudioSampleEntry" && n == "QuickTimeData" then some "EntryVersion"
  else if bd.goName == "Pssh" && n == "KIDs" then some "KIDCount"
  else if bd.goName == "Tenc" && n == "DefaultConstantIV" then some "DefaultConstantIVSize"
  else none

/-- what the destinations have in common at the beginning -/
def reuseK (bd : BoxDef) : List String :=
  (if bd.fields.names.contains "FullBox" then [] else ["FullBox"]) ++ (if bd.goName == "Sgpd" then ["DefaultLength"] else [])

theorem allDefs_reusable : ∀ bd ∈ Cat.allDefs, reusable bd.cfo bd.hook (reuseSp bd) [] (reuseK bd) bd.fields = true := by
  have h : Cat.allDefs.all (fun bd => reusable bd.cfo bd.hook (reuseSp bd) [] (reuseK bd) bd.fields) = true := by decide +kernel
  exact List.all_eq_true.mp h

/-- the field of this name -/
def Fields.named : Fields → String → Option Field
  | .nil, _ => none
  | .cons f _ fs, n => if f.name = n then some f else fs.named n

theorem named_of_mem {f : Field} {t : Ty} : ∀ {fs : Fields}, fs.names.Nodup → (f, t) ∈ fs.toList → fs.named f.name = some f
  | .nil, _, h => by simp [Fields.toList] at h
  | .cons g u fs, hnd, h => by
    simp only [Fields.names, List.nodup_cons] at hnd
    simp only [Fields.toList, List.mem_cons, Prod.mk.injEq] at h
    unfold Fields.named
    rcases h with ⟨rfl, rfl⟩ | h
    · rw [if_pos rfl]
    · rw [if_neg (fun (e : g.name = f.name) => hnd.1 (e ▸ names_of_mem h))]
      exact named_of_mem hnd.2 h

theorem bd_avcc : ∀ bd ∈ Cat.allDefs, bd.goName = "AVCDecoderConfiguration" → bd = Cat.bdAVCDecoderConfiguration := by
  unfold Cat.allDefs
  simp only [List.forall_mem_cons]
  repeat' apply And.intro
  all_goals first
    | (intro _; rfl)
    | (intro _; trivial)
    | (intro h; exact absurd h (by decide))
    | (intro x hx; exact absurd hx (by simp))

theorem bd_pssh : ∀ bd ∈ Cat.allDefs, bd.goName = "Pssh" → bd = Cat.bdPssh := by
  unfold Cat.allDefs
  simp only [List.forall_mem_cons]
  repeat' apply And.intro
  all_goals first
    | (intro _; rfl)
    | (intro _; trivial)
    | (intro h; exact absurd h (by decide))
    | (intro x hx; exact absurd hx (by simp))

theorem bd_tenc : ∀ bd ∈ Cat.allDefs, bd.goName = "Tenc" → bd = Cat.bdTenc := by
  unfold Cat.allDefs
  simp only [List.forall_mem_cons]
  repeat' apply And.intro
  all_goals first
    | (intro _; rfl)
    | (intro _; trivial)
    | (intro h; exact absurd h (by decide))
    | (intro x hx; exact absurd hx (by simp))

theorem tgt_opt {c : Cfo} {ctx : Ctx} {sv : SV} {f : Field} (hu : f.untagged = true) (ho : f.optDyn = true) :
    tgt c ctx sv f = c.opt f.name ctx sv := by
  simp only [Field.untagged, Bool.and_eq_true, beq_iff_eq] at hu
  obtain ⟨⟨⟨h1, h2⟩, h3⟩, h4⟩ := hu
  unfold tgt isTarget
  simp [h1, h2, h3, h4, ho]

theorem reuse_special {bd : BoxDef} (hbd : bd ∈ Cat.allDefs) (ctx : Ctx) (f : Field) (t : Ty) (g : Field) (u : Ty)
    (hf : (f, t) ∈ bd.fields.toList) (hg : (g, u) ∈ bd.fields.toList) (hsp : reuseSp bd f.name = some g.name) (a b : SV)
    (hd : ∀ m ∈ bd.cfo.deps f.name, m ≠ g.name → a.get m = b.get m) (hfb : a.get "FullBox" = b.get "FullBox")
    (ha : tgt bd.cfo ctx a g = false) (hb : tgt bd.cfo ctx b g = false) : Decided bd.cfo ctx a b f := by
  have hnd := Fields.nodup_names _ (allDefs_nodup bd hbd)
  have hf' := named_of_mem hnd hf
  have hg' := named_of_mem hnd hg
  unfold reuseSp at hsp
  split at hsp
  · next h =>
    simp only [Bool.and_eq_true, beq_iff_eq] at h
    have := bd_avcc bd hbd h.1
    subst this
    rw [h.2] at hf'
    rw [← Option.some.inj hsp] at hg'
    cases hf'
    cases hg'
    rw [tgt_opt rfl rfl] at ha hb
    have ha' : a.bool "HighProfileFieldsEnabled" = false := ha
    have hb' : b.bool "HighProfileFieldsEnabled" = false := hb
    have h1 : ∀ sv : SV, tgt Cat.bdAVCDecoderConfiguration.cfo ctx sv { name := "SequenceParameterSetsExt", lenDyn := true, optDyn := true } =
        sv.bool "HighProfileFieldsEnabled" := fun sv => by rw [tgt_opt rfl rfl]; rfl
    refine ⟨by rw [h1, h1, ha', hb'], fun h => ?_, rfl⟩
    rw [h1, ha'] at h
    cases h
  split at hsp
  · next h =>
    simp only [Bool.and_eq_true, beq_iff_eq] at h
    have := bd_audio bd hbd h.1
    subst this
    rw [h.2] at hf'
    rw [← Option.some.inj hsp] at hg'
    cases hf'
    cases hg'
    rw [tgt_opt rfl rfl] at ha
    have ha' : (!(ctx.isQuickTimeCompatible && ctx.underWave)) = false := ha
    simp only [Bool.not_eq_false', Bool.and_eq_true] at ha'
    refine ⟨?_, fun _ => ?_, ?_⟩
    · rw [tgt_opt rfl rfl, tgt_opt rfl rfl]
      simp [Cat.bdAudioSampleEntry, cfoAudioSampleEntry, ha'.1, ha'.2]
    · refine resolve_congr fun _ => ?_
      simp [Cat.bdAudioSampleEntry, cfoAudioSampleEntry, ha'.1, ha'.2]
    · simp [resolve, Cat.bdAudioSampleEntry, cfoAudioSampleEntry, ha'.1, ha'.2]
  split at hsp
  · next h =>
    simp only [Bool.and_eq_true, beq_iff_eq] at h
    have := bd_pssh bd hbd h.1
    subst this
    rw [h.2] at hf'
    rw [← Option.some.inj hsp] at hg'
    cases hf'
    cases hg'
    have h1 : ∀ sv : SV, tgt Cat.bdPssh.cfo ctx sv { name := "KIDs", nVersion := 0, lenDyn := true, size := 128 } =
        tgt Cat.bdPssh.cfo ctx sv { name := "KIDCount", size := 32, nVersion := 0 } := fun sv => by
      unfold tgt isTarget
      simp
    refine ⟨by rw [h1, h1, ha, hb], fun h => ?_, rfl⟩
    rw [h1, ha] at h
    cases h
  split at hsp
  · next h =>
    simp only [Bool.and_eq_true, beq_iff_eq] at h
    have := bd_tenc bd hbd h.1
    subst this
    rw [h.2] at hf'
    rw [← Option.some.inj hsp] at hg'
    cases hf'
    cases hg'
    have h1 : ∀ sv : SV, tgt Cat.bdTenc.cfo ctx sv { name := "DefaultConstantIV", size := 8, optDyn := true, lenDyn := true } =
        tgt Cat.bdTenc.cfo ctx sv { name := "DefaultConstantIVSize", size := 8, optDyn := true, dec := true } := fun sv => by
      rw [tgt_opt rfl rfl, tgt_opt rfl rfl]; rfl
    refine ⟨by rw [h1, h1, ha, hb], fun h => ?_, rfl⟩
    rw [h1, ha] at h
    cases h
  · cases hsp

end Mp4
