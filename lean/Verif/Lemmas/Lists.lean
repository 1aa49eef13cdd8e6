import Verif.Lemmas.SoundUnmarshal

/-!
# Counted lists, wherever they are in a box
-/

namespace Mp4

open Spec

/-- The list `t` of structs, or the struct (pointed to) -/
def Ty.elemStruct : Ty → Option (Option Cfo × Fields)
  | .slice (.struct c fs) => some (c, fs)
  | .struct c fs => some (c, fs)
  | .ptr (.struct c fs) => some (c, fs)
  | _ => none

/-- Is this field part of the encoding? -/
def there (e : Env) (c : Option Cfo) (sv : SV) (f : Field) : Bool :=
  present (c.getD e.cfo) e.ctx e.root.version e.root.flags (if c.isSome then sv else e.root)
    (instField (c.getD e.cfo) e.ctx (if c.isSome then sv else e.root) f)

/-- the tag of the field in this box -/
def tagOf (e : Env) (c : Option Cfo) (sv : SV) (f : Field) : Field :=
  instField (c.getD e.cfo) e.ctx (if c.isSome then sv else e.root) f

theorem countsFields_mem {e : Env} {c : Option Cfo} {f : Field} {t : Ty} {sv : SV} {v : Val} :
    ∀ {fs : Fields}, (f, t) ∈ fs.toList → countsFields e c fs sv = true → there e c sv f = true →
      sv.get f.name = some v → countsV e t (tagOf e c sv f) v = true
  | .nil, hm, _, _, _ => by simp [Fields.toList] at hm
  | .cons g u fs, hm, h, hp, hv => by
    simp only [countsFields, Bool.and_eq_true] at h
    simp only [Fields.toList, List.mem_cons, Prod.mk.injEq] at hm
    rcases hm with ⟨rfl, rfl⟩ | hm
    · have h1 := h.1
      rw [hv, show present (c.getD e.cfo) e.ctx e.root.version e.root.flags (if c.isSome = true then sv else e.root)
        (instField (c.getD e.cfo) e.ctx (if c.isSome = true then sv else e.root) f) = true from hp] at h1
      unfold tagOf
      simpa using h1
    · exact countsFields_mem hm h.2 hp hv

theorem layoutFields_mem {e : Env} {top : Bool} {c : Option Cfo} {f : Field} {t : Ty} {sv : SV} {v : Val}
    (hh : e.hook = .none) : ∀ {fs : Fields}, (f, t) ∈ fs.toList → there e c sv f = true →
      sv.get f.name = some v → (layoutV e t (tagOf e c sv f) v).length ≤ (layoutFields e top c fs sv).length
  | .nil, hm, _, _ => by simp [Fields.toList] at hm
  | .cons g u fs, hm, hp, hv => by
    simp only [Fields.toList, List.mem_cons, Prod.mk.injEq] at hm
    simp only [layoutFields, List.length_append]
    rcases hm with ⟨rfl, rfl⟩ | hm
    · rw [hv, show present (c.getD e.cfo) e.ctx e.root.version e.root.flags (if c.isSome = true then sv else e.root)
        (instField (c.getD e.cfo) e.ctx (if c.isSome = true then sv else e.root) f) = true from hp]
      simp only [if_true]
      have hs : silent e.hook f.name sv = false := by simp [silent, hh]
      rw [hs]
      simp only [Bool.and_false, Bool.false_eq_true, if_false, List.length_append]
      unfold tagOf
      omega
    · have := layoutFields_mem (top := top) hh hm hp hv
      omega

/-- The path exists in the type, and the conditions are those of the type. -/
inductive PathOk (e : Env) : Bool → Option Cfo → Fields → List (String × (SV → Bool)) → Option Cfo → Fields → Prop
  | nil {top c fs} : fs.names.Nodup → PathOk e top c fs [] c fs
  | cons {top c fs f t c1 fs1 cond path c' fs'} : fs.names.Nodup → (f, t) ∈ fs.toList → t.elemStruct = some (c1, fs1) →
      (∀ sv, (top = true → sv = e.root) → typedFields fs sv = true → cond sv = true → there e c sv f = true) →
      PathOk e false c1 fs1 path c' fs' →
      PathOk e top c fs ((f.name, cond) :: path) c' fs'

theorem PathOk.nodup {e : Env} {top : Bool} {c c' : Option Cfo} {fs fs' : Fields} {path : List (String × (SV → Bool))}
    (h : PathOk e top c fs path c' fs') : fs'.names.Nodup := by
  induction h with
  | nil h => exact h
  | cons _ _ _ _ _ ih => exact ih

theorem all_length_le {g : Val → List Bool} : ∀ {l : List Val} {x : Val}, x ∈ l → (g x).length ≤ (l.flatMap g).length
  | y :: l, x, h => by
    rw [List.flatMap_cons, List.length_append]
    rcases List.mem_cons.mp h with rfl | h
    · omega
    · have := all_length_le (g := g) h
      omega

theorem flatMap_length_ge {g : Val → List Bool} : ∀ {l : List Val}, (∀ x ∈ l, 1 ≤ (g x).length) →
    l.length ≤ (l.flatMap g).length
  | [], _ => by simp
  | y :: l, h => by
    rw [List.flatMap_cons, List.length_append, List.length_cons]
    have h1 := h y (by simp)
    have := flatMap_length_ge (g := g) (l := l) (fun x hx => h x (by simp [hx]))
    omega

theorem counted_all {fi : Field} {l : List Val} (h : (fi.length == lengthUnlimited || l.length == fi.length) = true) :
    counted fi l = l := by
  unfold counted
  split
  · rfl
  · next hn =>
    rw [show (fi.length == lengthUnlimited) = false by simpa using hn] at h
    simp only [Bool.false_or, beq_iff_eq] at h
    rw [← h, List.take_length]

/-- Every struct on the path has its fields, lists of the announced lengths, and bits that are part of those of the box. -/
theorem inside_counts {e : Env} {top : Bool} {c c' : Option Cfo} {fs fs' : Fields}
    {path : List (String × (SV → Bool))} (h : PathOk e top c fs path c' fs') :
    ∀ sv, (top = true → sv = e.root) → typedFields fs sv = true → countsFields e c fs sv = true →
      ∀ sub ∈ inside path sv, typedFields fs' sub = true ∧ countsFields e c' fs' sub = true ∧
        (path = [] → sub = sv) ∧
        (e.hook = .none → ∃ tp, (layoutFields e tp c' fs' sub).length ≤ (layoutFields e top c fs sv).length) := by
  induction h with
  | nil _ =>
    intro sv ht hty hc sub hsub
    simp only [inside, List.mem_singleton] at hsub
    subst hsub
    exact ⟨hty, hc, fun _ => rfl, fun _ => ⟨_, Nat.le_refl _⟩⟩
  | @cons top c fs f t c1 fs1 cond path c' fs' hnd hm he hcond hp ih =>
    intro sv ht hty hc sub hsub
    simp only [inside] at hsub
    split at hsub
    · next hcd =>
      have hth := hcond sv ht hty hcd
      obtain ⟨v, hv, htv⟩ := typed_get hnd hty hm
      have hcv := countsFields_mem hm hc hth hv
      have key : ∀ s, sub ∈ inside path s → typedFields fs1 s = true → countsFields e c1 fs1 s = true →
          (e.hook = .none → (layoutFields e false c1 fs1 s).length ≤ (layoutV e t (tagOf e c sv f) v).length) →
          typedFields fs' sub = true ∧ countsFields e c' fs' sub = true ∧ ((f.name, cond) :: path = [] → sub = sv) ∧
          (e.hook = .none → ∃ tp, (layoutFields e tp c' fs' sub).length ≤ (layoutFields e top c fs sv).length) := by
        intro s h1 h2 h3 h4
        obtain ⟨a1, a2, _, a3⟩ := ih s (by simp) h2 h3 sub h1
        refine ⟨a1, a2, fun h => (by cases h), fun hh => ?_⟩
        obtain ⟨tp, h5⟩ := a3 hh
        have h6 := layoutFields_mem (top := top) hh hm hth hv
        have h7 := h4 hh
        exact ⟨tp, by omega⟩
      rw [hv] at hsub
      unfold Ty.elemStruct at he
      split at he
      · -- a list of structs
        next c0 f0 =>
        cases he
        cases v <;> simp only [typedV] at htv <;> try contradiction
        next l =>
        simp only [countsV, Bool.and_eq_true] at hcv
        simp only [List.mem_flatMap] at hsub
        obtain ⟨x, hx, hsub⟩ := hsub
        have h2 := List.all_eq_true.mp htv x hx
        have h3 := List.all_eq_true.mp hcv.2 x hx
        cases x <;> simp only at hsub <;> try (simp at hsub)
        next s =>
        simp only at h3 h2
        refine key s hsub h2 h3 (fun hh => ?_)
        simp only [layoutV]
        rw [counted_all hcv.1]
        have := all_length_le (g := fun x => match x with
          | .struct sv => layoutFields e false c1 fs1 sv
          | _ => []) hx
        exact this
      · -- a struct
        next c0 f0 =>
        cases he
        cases v <;> simp only [typedV] at htv <;> try contradiction
        next s =>
        simp only [countsV] at hcv
        refine key s hsub htv hcv (fun hh => ?_)
        simp only [layoutV]
        exact Nat.le_refl _
      · next c0 f0 =>
        cases he
        cases v <;> simp only [typedV] at htv <;> try contradiction
        next o =>
        cases o with
        | none => simp at hsub
        | some x =>
          cases x <;> simp only at htv hsub <;> try contradiction
          next s =>
          simp only [countsV] at hcv
          refine key s hsub htv hcv (fun hh => ?_)
          simp only [layoutV]
          exact Nat.le_refl _
      · cases he
    · simp at hsub

/-- A list that is part of the encoding. -/
theorem list_counts {e : Env} {top : Bool} {c c' : Option Cfo} {fs fs' : Fields}
    {path : List (String × (SV → Bool))} (h : PathOk e top c fs path c' fs') {f : Field} {t : Ty}
    (hm : (f, Ty.slice t) ∈ fs'.toList) {sv : SV} (ht : top = true → sv = e.root) (hty : typedFields fs sv = true)
    (hc : countsFields e c fs sv = true) {sub : SV} (hsub : sub ∈ inside path sv)
    (hp : there e c' sub f = true) :
    ∃ l, sub.get f.name = some (.slice l) ∧
      ((tagOf e c' sub f).length = lengthUnlimited ∨ l.length = (tagOf e c' sub f).length) ∧
      (e.hook = .none → (∀ x ∈ l, typedV t x = true → 1 ≤ (layoutV e t (tagOf e c' sub f) x).length) →
        l.length ≤ (layoutFields e top c fs sv).length) := by
  obtain ⟨h1, h2, _, h3⟩ := inside_counts h sv ht hty hc sub hsub
  obtain ⟨v, hv, htv⟩ := typed_get h.nodup h1 hm
  cases v <;> simp only [typedV] at htv <;> try contradiction
  next l =>
  have hcv := countsFields_mem hm h2 hp hv
  simp only [countsV, Bool.and_eq_true] at hcv
  refine ⟨l, hv, by simpa using hcv.1, fun hh hx => ?_⟩
  obtain ⟨tp, h4⟩ := h3 hh
  have h5 := layoutFields_mem (top := tp) hh hm hp hv
  simp only [layoutV] at h5
  rw [counted_all hcv.1] at h5
  have h6 := flatMap_length_ge (g := fun x => layoutV e t (tagOf e c' sub f) x) (l := l)
    (fun x hxl => hx x hxl (List.all_eq_true.mp htv x hxl))
  omega

theorem number_uint {fs : Fields} {g : Field} {w : Nat} {sv : SV} (hnd : fs.names.Nodup)
    (hty : typedFields fs sv = true) (hm : (g, Ty.uint w) ∈ fs.toList) : number sv g.name = sv.uint g.name := by
  obtain ⟨v, hv, ht⟩ := typed_get hnd hty hm
  obtain ⟨k, rfl, _⟩ := typedV_uint_inv ht
  simp [number, SV.uint, hv]

theorem number_int {fs : Fields} {g : Field} {w : Nat} {sv : SV} (hnd : fs.names.Nodup)
    (hty : typedFields fs sv = true) (hm : (g, Ty.int w) ∈ fs.toList) :
    number sv g.name = sv.int g.name ∧ -(2 ^ (w - 1) : Nat) ≤ sv.int g.name ∧ sv.int g.name < (2 ^ (w - 1) : Nat) := by
  obtain ⟨v, hv, ht⟩ := typed_get hnd hty hm
  cases v <;> simp only [typedV] at ht <;> try contradiction
  simp only [decide_eq_true_eq] at ht
  refine ⟨by simp [number, SV.int, hv], ?_⟩
  simp only [SV.int, hv]
  exact ht

/-- What has to be known about a row of the table: the list is where it is said to be, with the condition given, and its length is asked from the count. -/
def RowFacts (bd : BoxDef) (row : CountedList) : Prop :=
  ∀ ctx sv, ∃ c' fs' f t, PathOk (env bd ctx sv) true (some bd.cfo) bd.fields row.path c' fs' ∧
    (f, Ty.slice t) ∈ fs'.toList ∧ f.name = row.list ∧
    ∀ sub, (row.path = [] → sub = sv) → typedFields fs' sub = true → row.only sub = true →
      there (env bd ctx sv) c' sub f = true ∧
      ((((tagOf (env bd ctx sv) c' sub f).length : Int) + row.extra = number sub row.count) ∨
        (bd.hook = .none ∧ bd.fields.hasStr = false ∧ bd.goName ≠ "Esds" ∧ bd.metaHook = false ∧
          (∀ x, typedV t x = true → 1 ≤ (layoutV (env bd ctx sv) t (tagOf (env bd ctx sv) c' sub f) x).length) ∧
          ((2 ^ 63 ≤ (tagOf (env bd ctx sv) c' sub f).length) ∨
            (((tagOf (env bd ctx sv) c' sub f).length : Int) + row.extra = number sub row.count))))

end Mp4
