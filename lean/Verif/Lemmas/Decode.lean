import Verif.Lemmas.Unmarshal
import Verif.Lemmas.Static

/-! # Decoding a box: what was laid out is what is read -/

namespace Mp4

open Spec

/-! ## Struct values -/

namespace SV

theorem keys_cons (n : String) (v : Val) (sv : SV) : keys ((n, v) :: sv) = n :: keys sv := rfl

theorem get_set_ne {sv : SV} {n m : String} {v : Val} (h : m ≠ n) : (sv.set n v).get m = sv.get m := by
  induction sv with
  | nil => rfl
  | cons p rest ih =>
    obtain ⟨k, x⟩ := p
    by_cases hk : k = n
    · subst hk
      have hm : ¬ k = m := fun h' => h h'.symm
      simp [set, get, hm]
    · simp only [set, hk, if_false, get, ih]

theorem get_set_eq {sv : SV} {n : String} {v : Val} (h : sv.get n ≠ none) :
    (sv.set n v).get n = some v := by
  induction sv with
  | nil => simp [get] at h
  | cons p rest ih =>
    obtain ⟨k, x⟩ := p
    by_cases hk : k = n
    · simp [set, get, hk]
    · simp only [get, hk, if_false] at h
      simp only [set, hk, if_false, get]
      exact ih h

theorem keys_set (sv : SV) (n : String) (v : Val) : (sv.set n v).keys = sv.keys := by
  induction sv with
  | nil => rfl
  | cons p rest ih =>
    obtain ⟨k, x⟩ := p
    by_cases hk : k = n
    · simp [set, hk, keys]
    · simp only [set, hk, if_false]
      rw [keys_cons, keys_cons, ih]

theorem get_none_iff {sv : SV} {n : String} : sv.get n = none ↔ n ∉ sv.keys := by
  induction sv with
  | nil => simp [get, keys]
  | cons p rest ih =>
    obtain ⟨k, x⟩ := p
    rw [keys_cons]
    by_cases hk : k = n
    · simp [get, hk]
    · simp only [get, hk, if_false, ih, List.mem_cons, not_or]
      constructor
      · intro h; exact ⟨fun h' => hk h'.symm, h⟩
      · intro h; exact h.2

theorem ext {a b : SV} (hk : a.keys = b.keys) (hn : a.keys.Nodup) (h : ∀ n, a.get n = b.get n) :
    a = b := by
  induction a generalizing b with
  | nil =>
    cases b with
    | nil => rfl
    | cons p rest => simp [keys] at hk
  | cons p rest ih =>
    obtain ⟨k, x⟩ := p
    cases b with
    | nil => simp [keys] at hk
    | cons q rest' =>
      obtain ⟨k', x'⟩ := q
      rw [keys_cons, keys_cons, List.cons.injEq] at hk
      obtain ⟨rfl, hk⟩ := hk
      rw [keys_cons, List.nodup_cons] at hn
      have h0 := h k
      simp only [get, if_true, Option.some.injEq] at h0
      subst h0
      congr 1
      apply ih hk hn.2
      intro n
      by_cases hkn : k = n
      · subst hkn
        rw [get_none_iff.mpr hn.1, get_none_iff.mpr (hk ▸ hn.1)]
      · have := h n
        simpa [get, hkn] using this

theorem full_congr {a b : SV} (h : a.get "FullBox" = b.get "FullBox") : a.full = b.full := by
  rw [full, full, h]

theorem version_congr {a b : SV} (h : a.get "FullBox" = b.get "FullBox") : a.version = b.version := by
  rw [version, version, full_congr h]

theorem flags_congr {a b : SV} (h : a.get "FullBox" = b.get "FullBox") : a.flags = b.flags := by
  rw [flags, flags, full_congr h]

theorem uint_congr {a b : SV} {n : String} (h : a.get n = b.get n) : a.uint n = b.uint n := by
  rw [uint, uint, h]

end SV

theorem Fields.zero_keys (fs : Fields) : fs.zero.keys = fs.names := by
  induction fs using Fields.rec (motive_1 := fun _ => True) with
  | nil => rfl
  | cons f t fs _ ih => simp only [Fields.zero, Fields.names, SV.keys_cons, ih]
  | _ => trivial

/-! ## Zero values -/

mutual
theorem isZero_eq : ∀ (t : Ty) (v : Val), isZero t v = true → v = t.zero
  | .uint _, v, h => by cases v <;> simp_all [isZero, Ty.zero]
  | .int _, v, h => by cases v <;> simp_all [isZero, Ty.zero]
  | .bool, v, h => by cases v <;> simp_all [isZero, Ty.zero]
  | .str, v, h => by cases v <;> simp_all [isZero, Ty.zero]
  | .ptr _, v, h => by cases v <;> simp_all [isZero, Ty.zero]
  | .slice _, v, h => by cases v <;> simp_all [isZero, Ty.zero]
  | .arr n t, v, h => by
    cases v <;> simp only [isZero, Bool.false_eq_true] at h
    case arr l =>
      simp only [Bool.and_eq_true, beq_iff_eq, List.all_eq_true] at h
      rw [Ty.zero]
      congr 1
      exact List.eq_replicate_iff.mpr ⟨h.1, fun x hx => isZero_eq t x (h.2 x hx)⟩
  | .struct c fs, v, h => by
    cases v <;> simp only [isZero, Bool.false_eq_true] at h
    case struct sv =>
      rw [Ty.zero, isZeroFields_eq fs sv h]
theorem isZeroFields_eq : ∀ (fs : Fields) (sv : SV), isZeroFields fs sv = true → sv = fs.zero
  | .nil, sv, h => by
    simp only [isZeroFields, List.isEmpty_iff] at h
    rw [h, Fields.zero]
  | .cons f t fs, sv, h => by
    cases sv with
    | nil => simp [isZeroFields] at h
    | cons p rest =>
      obtain ⟨n, v⟩ := p
      simp only [isZeroFields, Bool.and_eq_true, beq_iff_eq] at h
      rw [Fields.zero, isZeroFields_eq fs rest h.2, isZero_eq t v h.1.2, h.1.1]
end

/-! ## The struct before its remaining fields have been decoded -/

/-- `FullBox` before decoding: `Unmarshal` sets the version to `anyVersion` first. -/
def full255 : Val :=
  .struct [("Version", .uint 255), ("Flags", .arr [.uint 0, .uint 0, .uint 0])]

/-- The remaining fields have their zero values (except for the version). -/
def Fresh (top : Bool) (cur : SV) : Fields → Prop
  | .nil => True
  | .cons f t fs =>
    (cur.get f.name = some t.zero ∨
      (top = true ∧ f.name = "FullBox" ∧ cur.get f.name = some full255)) ∧ Fresh top cur fs

theorem Fresh.set {top : Bool} {cur : SV} {n : String} {v : Val} : ∀ {fs : Fields},
    Fresh top cur fs → n ∉ fs.names → Fresh top (cur.set n v) fs
  | .nil, _, _ => by simp [Fresh]
  | .cons f t fs, h, hn => by
    simp only [Fields.names, List.mem_cons, not_or] at hn
    simp only [Fresh] at h ⊢
    rw [SV.get_set_ne (fun h' => hn.1 h'.symm)]
    exact ⟨h.1, Fresh.set h.2 hn.2⟩

theorem fresh_zero : ∀ (fs : Fields), fs.names.Nodup → Fresh false fs.zero fs := by
  intro fs hn
  suffices ∀ (fs : Fields) (pre : SV), (∀ n ∈ fs.names, n ∉ pre.keys) → fs.names.Nodup →
      Fresh false (pre ++ fs.zero) fs by
    have := this fs [] (by simp [SV.keys]) hn
    simpa using this
  clear hn fs
  intro fs
  induction fs using Fields.rec (motive_1 := fun _ => True) with
  | nil => intros; simp [Fresh]
  | cons f t fs _ ih =>
    intro pre hp hn
    have hget : ∀ (pre : SV) (x : Val) (rest : SV), f.name ∉ pre.keys →
        SV.get (pre ++ (f.name, x) :: rest) f.name = some x := by
      intro pre
      induction pre with
      | nil => intros; simp [SV.get]
      | cons p pre ih =>
        intro x rest h
        obtain ⟨k, y⟩ := p
        rw [SV.keys_cons, List.mem_cons, not_or] at h
        have hk : ¬ k = f.name := fun h' => h.1 h'.symm
        simp only [List.cons_append, SV.get, hk, if_false]
        exact ih x rest h.2
    simp only [Fields.names, List.nodup_cons] at hn
    simp only [Fresh, Fields.zero]
    refine ⟨Or.inl (hget _ _ _ (hp _ (by simp [Fields.names]))), ?_⟩
    have := ih (pre ++ [(f.name, t.zero)]) (by
      intro n hnn
      simp only [SV.keys, List.map_append, List.mem_append, List.map_cons, List.map_nil,
        List.mem_singleton, not_or]
      refine ⟨hp n (by simp [Fields.names, hnn]), ?_⟩
      intro h; subst h; exact hn.1 hnn) hn.2
    simpa using this
  | _ => trivial

/-- `FullBox` is decoded the same way whatever its contents were. -/
theorem unmarshalV_fullBox (e : UEnv) (t : Ty) (fi : Field) (h : t.isFullBox = true) :
    unmarshalV e t fi full255 = unmarshalV e t fi t.zero := by
  unfold Ty.isFullBox at h
  split at h
  · next c f1 f2 =>
    simp only [Bool.and_eq_true, beq_iff_eq] at h
    obtain ⟨rfl, rfl⟩ := h
    have htar : ∀ cf root csv (n : String) (f : Field), f = { name := n, size := 8 } →
        isTarget cf e.ctx root csv f = true := by
      intro cf root csv n f hf
      subst hf
      simp [isTarget]
    have hres : ∀ cf csv (n : String) (f : Field), f = { name := n, size := 8 } →
        resolve cf e.ctx csv f = some f := by
      intro cf csv n f hf
      subst hf
      rfl
    simp only [full255, Ty.zero, Fields.zero, unmarshalV, unmarshalFields, hres _ _ _ _ rfl,
      htar _ _ _ _ _ rfl, Bool.false_eq_true, not_true_eq_false, if_false, false_and]
    rfl
  · simp at h

/-! ## Presence and sizes depend only on what is known -/

theorem resolve_congr {c : Cfo} {ctx : Ctx} {a b : SV} {f : Field}
    (h : (f.sizeDyn || f.lenDyn || f.optDyn) = true →
      c.size f.name ctx a = c.size f.name ctx b ∧ c.length f.name ctx a = c.length f.name ctx b ∧
      c.opt f.name ctx a = c.opt f.name ctx b) :
    resolve c ctx a f = resolve c ctx b f := by
  unfold resolve
  cases hs : f.sizeDyn <;> cases hl : f.lenDyn <;> simp [hs, hl] at h ⊢ <;> simp [h]

theorem instField_name (c : Cfo) (ctx : Ctx) (sv : SV) (f : Field) :
    (instField c ctx sv f).name = f.name := rfl

theorem present_congr {c : Cfo} {ctx : Ctx} {a b : SV} {f : Field} {v v' fl fl' : Nat}
    (h : f.optDyn = true → c.opt f.name ctx a = c.opt f.name ctx b)
    (h2 : (f.version = 255 ∧ f.nVersion = 255 ∧ f.optFlag = 0 ∧ f.nOptFlag = 0) ∨ (v = v' ∧ fl = fl')) :
    present c ctx v fl a f = present c ctx v' fl' b f := by
  unfold present
  congr 1
  · rcases h2 with ⟨h1, h2, h3, h4⟩ | ⟨rfl, rfl⟩
    · simp [h1, h2, h3, h4]
    · rfl
  · cases ho : f.optDyn
    · simp
    · simp [h ho]

theorem present_always {c : Cfo} {ctx : Ctx} {a : SV} {f : Field} {v fl : Nat} (h : f.always = true) :
    present c ctx v fl a f = true := by
  simp only [Field.always, Bool.and_eq_true, beq_iff_eq, Bool.not_eq_true'] at h
  obtain ⟨⟨⟨⟨h1, h2⟩, h3⟩, h4⟩, h5⟩ := h
  simp [present, h1, h2, h3, h4, h5]


/-! ## Hooks -/

theorem readStringZ_ok {d : Bytes} : ∀ (b : Bytes) {fuel : Nat} {r : RSt} {tl : List Bool},
    noNul b = true → b.length < fuel → r.WF d → r.width = 0 → r.rem d = cstring b ++ tl →
    ∃ r', readStringZ d fuel r = (.ok b, r') ∧ r'.rem d = tl ∧ r'.WF d ∧ r'.width = 0 := by
  intro b
  induction b with
  | nil =>
    intro fuel r tl _ hf hw h0 hr
    obtain ⟨fuel, rfl⟩ : ∃ k, fuel = k + 1 := ⟨fuel - 1, by simp at hf; omega⟩
    obtain ⟨h1, h2, h3⟩ := rem_bytes (p := [0#8]) hw h0 hr
    refine ⟨{ r with pos := r.pos + 1 }, ?_, ?_, ⟨hw.width, h2⟩, h0⟩
    · rw [readStringZ, M.bind_ok (a := [0#8]) (s' := { r with pos := r.pos + 1 })]
      · simp
      · simp only [List.length_singleton] at h1 h2
        simp only [readSome, h0, ne_eq, not_true_eq_false, if_false, h1]
        rw [if_neg (by omega)]
        rfl
    · rw [RSt.rem_aligned (by simpa using h0)]
      exact h3
  | cons x xs ih =>
    intro fuel r tl hn hf hw h0 hr
    obtain ⟨fuel, rfl⟩ : ∃ k, fuel = k + 1 := ⟨fuel - 1, by simp at hf; omega⟩
    simp only [noNul, List.all_cons, Bool.and_eq_true, bne_iff_ne] at hn
    have hr' : r.rem d = bytesBits [x] ++ (cstring xs ++ tl) := by
      rw [hr]; simp [cstring]
    obtain ⟨h1, h2, h3⟩ := rem_bytes (p := [x]) hw h0 hr'
    obtain ⟨r', e', hr', hw', h0'⟩ := ih (fuel := fuel) (r := { r with pos := r.pos + 1 }) (tl := tl)
      hn.2 (by simp at hf; omega) ⟨hw.width, h2⟩ h0 (by
        rw [RSt.rem_aligned (by simpa using h0)]
        exact h3)
    refine ⟨r', ?_, hr', hw', h0'⟩
    rw [readStringZ, M.bind_ok (a := [x]) (s' := { r with pos := r.pos + 1 })]
    · rw [if_neg (show ¬ [x].headD 0#8 = 0#8 from hn.1), M.bind_ok e']
      rfl
    · simp only [List.length_singleton] at h1 h2
      simp only [readSome, h0, ne_eq, not_true_eq_false, if_false, h1]
      rw [if_neg (by omega)]
      rfl

theorem isText_str {sv : SV} {n : String} (h : isText sv n = true) :
    sv.get n = some (.str (sv.str n)) ∧ noNul (sv.str n) = true := by
  unfold isText at h
  split at h
  · next b hb => simp [SV.str, hb, h]
  · simp at h

theorem takeWhile_noNul (b : Bytes) (h : noNul b = true) :
    (b ++ [0#8]).takeWhile (fun c => c != 0#8) = b := by
  induction b with
  | nil => rfl
  | cons x xs ih =>
    simp only [noNul, List.all_cons, Bool.and_eq_true] at h
    rw [List.cons_append, List.takeWhile_cons, h.1, if_pos rfl, ih h.2]

theorem hdlr_decodes {d : Bytes} {cur : SV} {b : Bytes} {pre left : Nat} {r : RSt} {tl : List Bool}
    (hd : d.length < U64) (hpre : cur.uint "PreDefined" = pre) (hn : noNul b = true)
    (hp : notPascal pre b = true) (hl : left = 8 * (b.length + 1)) (hmax : left ≤ 8 * maxAlloc)
    (hw : r.WF d) (h0 : r.width = 0) (hr : r.rem d = cstring b ++ tl) :
    ∃ r', hdlrOnReadName d left cur r = (.ok (left, true, cur.set "Name" (.str b)), r') ∧
      r'.rem d = tl ∧ r'.WF d := by
  have hr' : r.rem d = bytesBits (b ++ [0#8]) ++ tl := by
    rw [hr, bytesBits_append]; rfl
  obtain ⟨h1, h2, h3⟩ := rem_bytes hw h0 hr'
  have hlen : (b ++ [0#8]).length = b.length + 1 := by simp
  rw [hlen] at h1 h2 h3
  have hsz : left / 8 = b.length + 1 := by omega
  unfold hdlrOnReadName
  simp only [hsz]
  refine ⟨{ r with pos := r.pos + (b.length + 1) }, ?_, ?_, ⟨hw.width, h2⟩⟩
  · rw [if_neg (by omega), M.bind_ok (readerHasSize_ok h0 h2 hd)]
    simp only [not_true_eq_false, if_false]
    rw [if_neg (by omega), M.bind_ok (a := b ++ [0#8]) (s' := { r with pos := r.pos + (b.length + 1) })]
    · have hcond : ¬ (cur.uint "PreDefined" ≠ 0 ∧ 2 ≤ b.length + 1 ∧
          b.length + 1 = (((b ++ [0#8]).headD 0#8).toNat + 1) % 256) := by
        rintro ⟨c1, c2, c3⟩
        rw [hpre] at c1
        cases b with
        | nil => simp at c2
        | cons x xs =>
          simp only [notPascal, List.isEmpty_cons, List.headD_cons, Bool.or_false, Bool.or_eq_true,
            beq_iff_eq, bne_iff_ne] at hp
          simp only [List.cons_append, List.headD_cons] at c3
          rcases hp with hp | hp
          · exact c1 hp
          · exact hp c3.symm
      rw [if_neg hcond, takeWhile_noNul b hn]
      rfl
    · simp only [readFull]
      rw [if_neg (by omega), if_neg (by simp [h0]), h1, if_neg (by omega), if_neg (by omega), hlen]
  · rw [RSt.rem_aligned (by simpa using h0)]
    exact h3

/-- Strings of `emsg` whose bits come later. -/
def Deferred (top : Bool) (h : Hook) (sv : SV) (fs : Fields) (n : String) : Prop :=
  top = true ∧ h = .emsg ∧ sv.version ≠ 0 ∧ (n = "SchemeIdUri" ∨ n = "Value") ∧
    "MessageData" ∈ fs.names

/-- What `onRead` does for a field with bits of its own, other than `Name` of `hdlr`. -/
theorem onRead_before {h : Hook} {d : Bytes} {n : String} {sv cur : SV} {left lft : Nat} {r : RSt} {tl : List Bool}
    (hs : silent h n sv = false) (hnotName : ¬ (h = .hdlr ∧ n = "Name"))
    (hver : h = .emsg → (n = "SchemeIdUri" ∨ n = "Value" ∨ n = "MessageData") →
      cur.version = sv.version)
    (hw : r.WF d) (ha : r.width = left % 8)
    (hpre : before h n sv = [] ∨ (left % 8 = 0 ∧ isText sv "SchemeIdUri" = true ∧ isText sv "Value" = true))
    (hr : r.rem d = before h n sv ++ tl) :
    ∃ r' cur', onRead h d n lft cur r = (.ok ((before h n sv).length, false, cur'), r') ∧
      r'.rem d = tl ∧ r'.WF d ∧
      ((before h n sv = [] ∧ cur' = cur) ∨
       (h = .emsg ∧ sv.version ≠ 0 ∧ n = "MessageData" ∧
        cur' = (cur.set "SchemeIdUri" (.str (sv.str "SchemeIdUri"))).set "Value" (.str (sv.str "Value")) ∧
        sv.get "SchemeIdUri" = some (.str (sv.str "SchemeIdUri")) ∧
        sv.get "Value" = some (.str (sv.str "Value")))) := by
  have trivial_case : ∀ (_ : onRead h d n lft cur = Pure.pure (0, false, cur)) (_ : before h n sv = []),
      ∃ r' cur', onRead h d n lft cur r = (.ok ((before h n sv).length, false, cur'), r') ∧
      r'.rem d = tl ∧ r'.WF d ∧
      ((before h n sv = [] ∧ cur' = cur) ∨
       (h = .emsg ∧ sv.version ≠ 0 ∧ n = "MessageData" ∧
        cur' = (cur.set "SchemeIdUri" (.str (sv.str "SchemeIdUri"))).set "Value" (.str (sv.str "Value")) ∧
        sv.get "SchemeIdUri" = some (.str (sv.str "SchemeIdUri")) ∧
        sv.get "Value" = some (.str (sv.str "Value")))) := by
    intro h1 h2
    refine ⟨r, cur, ?_, ?_, hw, Or.inl ⟨h2, rfl⟩⟩
    · rw [h1, h2]; rfl
    · rw [h2] at hr; simpa using hr
  cases h with
  | none => exact trivial_case rfl (by simp [before])
  | hdlr =>
    have : ¬ n = "Name" := fun hn => hnotName ⟨rfl, hn⟩
    exact trivial_case (by simp [onRead, this]) (by simp [before])
  | avcc =>
    simp [silent] at hs
    exact trivial_case (by simp [onRead, hs]) (by simp [before])
  | emsg =>
    by_cases hsv : n = "SchemeIdUri" ∨ n = "Value"
    · have hv : sv.version = 0 := by
        simp only [silent] at hs
        apply Classical.byContradiction
        intro hne
        rcases hsv with rfl | rfl <;> simp [hne] at hs
      have hcv : cur.version = 0 := by
        rw [hver rfl (by rcases hsv with h | h <;> simp [h]), hv]
      exact trivial_case (by simp [onRead, hcv]) (by simp [before, hv])
    · by_cases hm : n = "MessageData"
      · have hcv := hver rfl (Or.inr (Or.inr hm))
        by_cases hv : sv.version = 0
        · exact trivial_case (by simp [onRead, hcv, hv]) (by simp [before, hv])
        · have hb : before .emsg n sv = cstring (sv.str "SchemeIdUri") ++ cstring (sv.str "Value") := by
            simp [before, hv, hm]
          have hne : before .emsg n sv ≠ [] := by rw [hb]; simp [cstring]
          obtain ⟨hal, ht1, ht2⟩ := hpre.resolve_left hne
          obtain ⟨g1, n1⟩ := isText_str ht1
          obtain ⟨g2, n2⟩ := isText_str ht2
          have h0 : r.width = 0 := by omega
          rw [hb, List.append_assoc] at hr
          have hl := congrArg List.length hr
          rw [RSt.rem_length, List.length_append, List.length_append] at hl
          have hc : ∀ b : Bytes, (cstring b).length = 8 * (b.length + 1) := by
            intro b; simp [cstring]; omega
          rw [hc, hc] at hl
          obtain ⟨r1, e1, hr1, w1, h1⟩ := readStringZ_ok (sv.str "SchemeIdUri") (fuel := d.length + 2)
            n1 (by omega) hw h0 hr
          obtain ⟨r2, e2, hr2, w2, h2⟩ := readStringZ_ok (sv.str "Value") (fuel := d.length + 2)
            n2 (by omega) w1 h1 hr1
          refine ⟨r2, _, ?_, hr2, w2, Or.inr ⟨rfl, hv, hm, rfl, g1, g2⟩⟩
          subst hm
          simp only [onRead, hcv, hv, if_false, if_true]
          simp only [show ("MessageData" = "SchemeIdUri") = False by decide,
            show ("MessageData" = "Value") = False by decide, or_self, if_false]
          rw [M.bind_ok e1, M.bind_ok e2, hb, List.length_append, hc, hc, M.pure_run]
          congr 3
          omega
      · refine trivial_case ?_ (by simp [before, hm])
        simp only [onRead, hsv, hm, if_false]
        split <;> rfl


/-! ## The decoding theorem -/

/-- The unmarshaller's view of a specification environment. -/
def uenvOf (e : Env) (d : Bytes) (supp : Nat → Bool) (size8 : Nat) (root : SV) : UEnv :=
  ⟨d, e.ctx, size8, root, e.cfo, e.hook, supp⟩

/-- The struct `cur`, on its way to `sv`, before the fields `fs` are decoded. -/
structure Mid (top : Bool) (h : Hook) (known : List String) (fs : Fields) (cur sv : SV) : Prop where
  keys : cur.keys = sv.keys
  nodup : sv.keys.Nodup
  known : ∀ n ∈ known, cur.get n = sv.get n
  fresh : Fresh top cur fs
  done : ∀ n, n ∉ fs.names → ¬ Deferred top h sv fs n → cur.get n = sv.get n

/-- After the field `f` has got its value. -/
theorem Mid.step {top : Bool} {h : Hook} {known known' : List String} {f : Field} {t : Ty} {fs : Fields}
    {cur sv : SV} {v : Val} (hkeys : cur.keys = sv.keys) (hnodup : sv.keys.Nodup)
    (hknown : ∀ n ∈ known, cur.get n = sv.get n) (hfresh : Fresh top cur (.cons f t fs))
    (hdone : ∀ n, n ∉ (Fields.cons f t fs).names → ¬ Deferred top h sv fs n → cur.get n = sv.get n)
    (hv : sv.get f.name = some v) (hf : f.name ∉ fs.names)
    (hk' : ∀ n ∈ known', n = f.name ∨ n ∈ known) :
    Mid top h known' fs (cur.set f.name v) sv := by
  have hne : cur.get f.name ≠ none := by
    have := hfresh.1
    rcases this with h | ⟨_, _, h⟩ <;> simp [h]
  have hset : (cur.set f.name v).get f.name = sv.get f.name := by
    rw [SV.get_set_eq hne, hv]
  refine ⟨by rw [SV.keys_set, hkeys], hnodup, ?_, hfresh.2.set hf, ?_⟩
  · intro n hn
    by_cases hnf : n = f.name
    · rw [hnf]; exact hset
    · rw [SV.get_set_ne hnf]
      rcases hk' n hn with h | h
      · exact absurd h hnf
      · exact hknown n h
  · intro n hn hdef
    by_cases hnf : n = f.name
    · rw [hnf]; exact hset
    · rw [SV.get_set_ne hnf]
      apply hdone n _ hdef
      simp only [Fields.names, List.mem_cons, not_or]
      exact ⟨hnf, hn⟩

/-- A field with bits of its own, after the hook. -/
theorem decodes_field {d : Bytes} {e : Env} {supp : Nat → Bool} {size8 left : Nat} {root cur sv : SV}
    {top : Bool} {c : Option Cfo} {h : Hook} {known known' : List String} {f fi : Field} {t : Ty}
    {fs : Fields} {v : Val} {bs bs' : List Bool}
    (hkeys : cur.keys = sv.keys) (hnodup : sv.keys.Nodup)
    (hknown : ∀ n ∈ known, cur.get n = sv.get n) (hfresh : Fresh top cur (.cons f t fs))
    (hdone : ∀ n, n ∉ (Fields.cons f t fs).names → ¬ Deferred top h sv fs n → cur.get n = sv.get n)
    (hv : sv.get f.name = some v) (hf : f.name ∉ fs.names)
    (hk' : ∀ n ∈ known', n = f.name ∨ n ∈ known)
    (hfull : top = true → f.name = "FullBox" → t.isFullBox = true)
    (hsupp : top = true → f.name = "FullBox" → supp sv.version = true)
    (hdec : Decodes d size8 left
      (unmarshalV (uenvOf e d supp size8 (if top then cur else root)) t fi t.zero) bs v)
    (hrec : ∀ cur2, Mid top h known' fs cur2 sv → bs.length ≤ left →
      Decodes d size8 (left - bs.length) (unmarshalFields (uenvOf e d supp size8 root) top c fs cur2)
        bs' sv) :
    Decodes d size8 left
      (match cur.get f.name with
       | none => M.panic
       | some x => do
          let v ← unmarshalV (uenvOf e d supp size8 (if top then cur else root)) t fi x
          if top ∧ f.name = "FullBox" ∧ ¬ supp (cur.set f.name v).version then M.fail .unsupportedVersion
          else unmarshalFields (uenvOf e d supp size8 root) top c fs (cur.set f.name v))
      (bs ++ bs') sv := by
  have hmid := Mid.step hkeys hnodup hknown hfresh hdone hv hf hk'
  have hx : ∃ x, cur.get f.name = some x ∧
      unmarshalV (uenvOf e d supp size8 (if top then cur else root)) t fi x =
      unmarshalV (uenvOf e d supp size8 (if top then cur else root)) t fi t.zero := by
    rcases hfresh.1 with h1 | ⟨ht, hfn, h1⟩
    · exact ⟨_, h1, rfl⟩
    · exact ⟨_, h1, unmarshalV_fullBox _ _ _ (hfull ht hfn)⟩
  obtain ⟨x, hx1, hx2⟩ := hx
  rw [hx1]
  simp only
  rw [hx2]
  apply Decodes.bind hdec
  intro hle
  rw [if_neg]
  · exact hrec _ hmid hle
  · rintro ⟨ht, hfn, hns⟩
    apply hns
    have hgf : (cur.set f.name v).get "FullBox" = sv.get "FullBox" := by
      rw [← hfn, hv]
      apply SV.get_set_eq
      rw [hx1]; simp
    rw [SV.version_congr hgf]
    exact hsupp ht hfn

theorem valBytes_back {e : Env} {fi : Field} {t : Ty} (ht : t.isByte = true) (hs : fi.size = 8) :
    ∀ (l : List Val) (left : Nat),
      fitsList (fun x k => fitsV e t fi x k) (fun x => layoutV e t fi x) l left = true →
      (valBytes l).map (fun b => Val.uint b.toNat) = l := by
  have htt : t = .uint 8 := by
    unfold Ty.isByte at ht
    split at ht
    · rfl
    · simp at ht
  subst htt
  intro l
  induction l with
  | nil => intros; rfl
  | cons v vs ih =>
    intro left hf
    simp only [fitsList, Bool.and_eq_true] at hf
    have ih' := ih _ hf.2
    have hv := hf.1.1
    cases v <;> simp only [fitsV] at hv
    case uint n =>
      have hvar : fi.varint = false := by
        cases hh : fi.varint with
        | false => rfl
        | true => rw [hh] at hv; simp [hs] at hv
      simp only [hvar, hs, Bool.false_eq_true, if_false, decide_eq_true_eq] at hv
      simp only [valBytes, List.map_cons, List.cons.injEq, Val.uint.injEq, BitVec.toNat_ofNat]
      exact ⟨Nat.mod_eq_of_lt hv.2.2.1, ih'⟩
    all_goals simp at hv

theorem okFields_nodup {rc : Cfo} {rk : List String} {top : Bool} {h : Hook} {c : Option Cfo} :
    ∀ {fs : Fields} {known : List String}, okFields rc rk top h c known fs = true → fs.names.Nodup
  | .nil, _, _ => by simp [Fields.names]
  | .cons f t fs, known, hok => by
    simp only [okFields] at hok
    simp only [Bool.and_eq_true, Bool.not_eq_true', List.contains_eq_mem, decide_eq_false_iff_not] at hok
    rw [Fields.names, List.nodup_cons]
    exact ⟨hok.1.1.1.1.1.1.1.2, okFields_nodup hok.2⟩

theorem avccHigh_eq (p : Nat) : avccHigh p = highProfile p := by
  rw [Bool.eq_iff_iff]
  simp [avccHigh, highProfile, or_assoc]

theorem silent_false_of_none (n : String) (sv : SV) : silent .none n sv = false := by simp [silent]

mutual
/-- Decoding the layout of a value gives the value. -/
theorem decode_V {d : Bytes} (hd : d.length < U64) (e : Env) (supp : Nat → Bool) (hloc : e.cfo.Local) :
    ∀ (t : Ty) (fi : Field) (v : Val) (size8 left : Nat) (root : SV) (rk : List String),
      okV e.cfo rk t = true → t.AllLocal → (∀ n ∈ rk, root.get n = e.root.get n) →
      size8 % 8 = 0 → size8 ≤ 8 * maxAlloc → left ≤ size8 → fitsV e t fi v left = true →
      Decodes d size8 left (unmarshalV (uenvOf e d supp size8 root) t fi t.zero) (layoutV e t fi v) v
  | .ptr t, fi, v, size8, left, root, rk, hok, hal, hroot, h8, hmax, hls, hf => by
    cases v <;> simp only [fitsV] at hf <;> try contradiction
    case ptr o =>
      cases o with
      | none => simp at hf
      | some x =>
        simp only [okV] at hok
        simp only [Ty.AllLocal] at hal
        simp only [unmarshalV, layoutV]
        exact (decode_V hd e supp hloc t fi x size8 left root rk hok hal hroot h8 hmax hls hf).map
  | .struct c fs, fi, v, size8, left, root, rk, hok, hal, hroot, h8, hmax, hls, hf => by
    cases v <;> simp only [fitsV] at hf <;> try contradiction
    case struct sv =>
      simp only [okV] at hok
      simp only [Ty.AllLocal] at hal
      simp only [Bool.and_eq_true, beq_iff_eq] at hf
      obtain ⟨hkeys, hf⟩ := hf
      have hnodup : fs.names.Nodup := okFields_nodup hok
      simp only [unmarshalV, layoutV, Ty.zero]
      have hmid : Mid false .none [] fs fs.zero sv := by
        refine ⟨by rw [Fields.zero_keys, hkeys], by rw [hkeys]; exact hnodup, by simp, fresh_zero fs hnodup, ?_⟩
        intro n hn _
        rw [SV.get_none_iff.mpr (by rw [Fields.zero_keys]; exact hn),
          SV.get_none_iff.mpr (by rw [hkeys]; exact hn)]
      rw [structInternal]
      by_cases hsz : fi.size ≠ 0 ∧ fi.size % 8 = 0
      · rw [if_pos hsz] at hf ⊢
        simp only [Bool.and_eq_true, beq_iff_eq, decide_eq_true_eq] at hf
        obtain ⟨⟨⟨hl8, hlen⟩, hsl⟩, hf⟩ := hf
        have hmod : fi.size % U64 = fi.size := by
          simp only [maxAlloc, U64] at *
          omega
        have key := (decode_fields hd e supp hloc fs sv fs.zero fi.size fi.size root rk [] false .none c
          hok hal.2 hal.1 (by simp) (by simpa using hroot) hmid (by simp) hsz.2 (by omega) (by omega) hf).map
            (k := fun sv' => Val.struct sv')
        intro s tl hw hl ha hr hlen'
        obtain ⟨s', e1, r1, w1, c1⟩ := key ⟨s.r, 0⟩ tl hw (by simp) (by simp only; omega) hr (by omega)
        simp only at c1
        refine ⟨{ s' with rbits := s.rbits + s'.rbits }, ?_, r1, w1, ?_⟩
        · rw [hmod]
          simp only [uenvOf] at e1 ⊢
          simp only [sizedStruct, e1]
          rw [if_neg (by omega)]
        · simp only; omega
      · rw [if_neg hsz] at hf ⊢
        exact (decode_fields hd e supp hloc fs sv fs.zero size8 left root rk [] false .none c
          hok hal.2 hal.1 (by simp) (by simpa using hroot) hmid (by simp) h8 hmax hls hf).map
  | .arr n t, fi, v, size8, left, root, rk, hok, hal, hroot, h8, hmax, hls, hf => by
    cases v <;> simp only [fitsV] at hf <;> try contradiction
    case arr l =>
      simp only [okV] at hok
      simp only [Ty.AllLocal] at hal
      simp only [Bool.and_eq_true, beq_iff_eq] at hf
      obtain ⟨hn, hf⟩ := hf
      subst hn
      simp only [unmarshalV, layoutV, Ty.zero]
      exact (decodes_arrLoop (fun v left' hle hv =>
        decode_V hd e supp hloc t fi v size8 left' root rk hok hal hroot h8 hmax hle hv) l left hls hf).map
  | .slice t, fi, v, size8, left, root, rk, hok, hal, hroot, h8, hmax, hls, hf => by
    cases v <;> simp only [fitsV] at hf <;> try contradiction
    case slice l =>
      simp only [okV] at hok
      simp only [Ty.AllLocal] at hal
      rw [Bool.and_eq_true] at hf
      obtain ⟨hf, hlen⟩ := hf
      have hel := fun v left' hle hv =>
        decode_V hd e supp hloc t fi v size8 left' root rk hok hal hroot h8 hmax hle hv
      have hcnt : counted fi l = l := by
        unfold counted
        by_cases hh : fi.length = lengthUnlimited
        · rw [if_pos hh]
        · rw [if_neg hh] at hlen ⊢; rw [← beq_iff_eq.mp hlen]; exact List.take_length
      simp only [unmarshalV, layoutV, hcnt]
      intro s tl hw hl ha hr hle
      have hleft : Mp4.left size8 s.rbits = left := left_eq hl (by simp only [maxAlloc, U64] at *; omega)
      rw [unmarshalSlice, M.bind_ok (M.get_run s)]
      simp only [show (uenvOf e d supp size8 root).size8 = size8 from rfl,
        show (uenvOf e d supp size8 root).d = d from rfl, hleft]
      by_cases hun : fi.length = lengthUnlimited
      · simp only [hun, if_true] at hlen ⊢
        simp only [Bool.and_eq_true, beq_iff_eq, Bool.or_eq_true] at hlen
        obtain ⟨⟨hll, hne⟩, hdiv⟩ := hlen
        rw [if_neg (by rintro ⟨_, h1, h2⟩; rcases hdiv with h | h <;> contradiction)]
        by_cases hby : s.rbits % 8 = 0 ∧ t.isByte = true ∧ fi.size = 8
        · obtain ⟨hb1, hb2, hb3⟩ := hby
          rw [if_pos ⟨hb1, hb2, hb3⟩]
          simp only [hb3]
          have hbits := bytesBits_valBytes hb2 hb3 l left hf
          have hback := valBytes_back hb2 hb3 l left hf
          have hlb := congrArg List.length hbits
          rw [bytesBits_length] at hlb
          rw [← hbits] at hr hle ⊢
          have := decodes_byteSlice (d := d) (size8 := size8) (left := left) (p := valBytes l) (n := left / 8)
            (by omega) hd hmax (by omega) s tl hw hl ha hr hle
          rw [hback] at this
          simpa using this
        · rw [if_neg hby]
          exact (decodes_greedyLoop hel l left (size8 + 2) hls hf hne hll (by omega)).map s tl hw hl ha hr hle
      · simp only [hun, if_false, false_and, beq_iff_eq] at hlen ⊢
        by_cases hby : s.rbits % 8 = 0 ∧ t.isByte = true ∧ fi.size = 8
        · obtain ⟨hb1, hb2, hb3⟩ := hby
          rw [if_pos ⟨hb1, hb2, hb3⟩]
          have hbits := bytesBits_valBytes hb2 hb3 l left hf
          have hback := valBytes_back hb2 hb3 l left hf
          rw [← hbits] at hr hle ⊢
          have := decodes_byteSlice (d := d) (size8 := size8) (left := left) (p := valBytes l) (n := fi.length)
            (by rw [← hlen]; simp [valBytes]) hd hmax (by omega) s tl hw hl ha hr hle
          rw [hback] at this
          exact this
        · rw [if_neg hby, ← hlen]
          exact (decodes_countLoop hel l left hls hf).map s tl hw hl ha hr hle
  | .uint w, fi, v, size8, left, root, rk, hok, hal, hroot, h8, hmax, hls, hf => by
    cases v <;> simp only [fitsV] at hf <;> try contradiction
    case uint n =>
      simp only [unmarshalV, layoutV]
      cases hv : fi.varint with
      | true =>
        simp only [hv, if_true, decide_eq_true_eq] at hf ⊢
        exact decodes_varint hv hf.2.1 hf.2.2.1
      | false =>
        simp only [hv, Bool.false_eq_true, if_false, decide_eq_true_eq] at hf ⊢
        exact decodes_uint hmax hv hf.1 hf.2.2.1 hf.2.2.2.1 hf.2.2.2.2
  | .int w, fi, v, size8, left, root, rk, hok, hal, hroot, h8, hmax, hls, hf => by
    cases v <;> simp only [fitsV] at hf <;> try contradiction
    case int i =>
      simp only [Bool.and_eq_true, Bool.not_eq_true', decide_eq_true_eq] at hf
      obtain ⟨hv, h0, hl, hw, h64, hlo, hhi⟩ := hf
      simp only [unmarshalV, layoutV]
      exact decodes_int hmax hv h0 hw h64 hlo hhi
  | .bool, fi, v, size8, left, root, rk, hok, hal, hroot, h8, hmax, hls, hf => by
    cases v <;> simp only [fitsV] at hf <;> try contradiction
    case bool b =>
      simp only [decide_eq_true_eq] at hf
      simp only [unmarshalV, layoutV]
      exact decodes_bool hmax hf.1
  | .str, fi, v, size8, left, root, rk, hok, hal, hroot, h8, hmax, hls, hf => by
    cases v <;> simp only [fitsV] at hf <;> try contradiction
    case str b =>
      simp only [Bool.and_eq_true, Bool.not_eq_true'] at hf
      simp only [unmarshalV, layoutV]
      exact decodes_string hf.1.1 hf.1.2 (by
        have := hf.2
        split at this
        · next h => simp only [h, if_true]; simpa using this
        · next h => simp only [h]; simpa using this) hls

theorem decode_fields {d : Bytes} (hd : d.length < U64) (e : Env) (supp : Nat → Bool) (hloc : e.cfo.Local) :
    ∀ (fs : Fields) (sv cur : SV) (size8 left : Nat) (root : SV) (rk known : List String) (top : Bool)
      (h : Hook) (c : Option Cfo),
      okFields e.cfo rk top h c known fs = true → fs.AllLocal → (∀ c', c = some c' → c'.Local) →
      (top = true → e.root = sv ∧ c.isSome = true ∧ e.hook = h) →
      (top = false → ∀ n ∈ rk, root.get n = e.root.get n) →
      Mid top h known fs cur sv → (top = true → "FullBox" ∈ fs.names → supp sv.version = true) →
      size8 % 8 = 0 → size8 ≤ 8 * maxAlloc → left ≤ size8 → fitsFields e top c fs sv left = true →
      Decodes d size8 left (unmarshalFields (uenvOf e d supp size8 root) top c fs cur)
        (layoutFields e top c fs sv) sv
  | .nil, sv, cur, size8, left, root, rk, known, top, h, c, hok, hal, hcl, htop, hroot, hmid, hsupp, h8, hmax, hls, hf => by
    simp only [unmarshalFields, layoutFields]
    have : cur = sv := by
      apply SV.ext hmid.keys (by rw [hmid.keys]; exact hmid.nodup)
      intro n
      exact hmid.done n (by simp [Fields.names]) (by simp [Deferred, Fields.names])
    rw [this]
    exact Decodes.pure _
  | .cons f t fs, sv, cur, size8, left, root, rk, known, top, h, c, hok, hal, hcl, htop, hroot, hmid, hsupp, h8, hmax, hls, hf => by
    simp only [okFields] at hok
    rw [Bool.and_eq_true, Bool.and_eq_true, Bool.and_eq_true, Bool.and_eq_true, Bool.and_eq_true,
      Bool.and_eq_true, Bool.and_eq_true, Bool.and_eq_true, Bool.and_eq_true] at hok
    obtain ⟨⟨⟨⟨⟨⟨⟨⟨⟨kdep, kver⟩, knm⟩, kt⟩, kfull⟩, kemsg⟩, kmsg⟩, khdlr⟩, kavcc⟩, krec⟩ := hok
    simp only [Fields.AllLocal] at hal
    have hnf : f.name ∉ fs.names := by simpa using knm
    simp only [fitsFields] at hf
    rw [Bool.and_eq_true, Bool.and_eq_true] at hf
    obtain ⟨⟨hsz, hln⟩, hf⟩ := hf
    -- what the methods see
    have hrootk : ∀ n ∈ (if top then known else rk), (if top then cur else root).get n = e.root.get n := by
      cases top with
      | true =>
        intro n hn
        simp only [if_true] at hn ⊢
        rw [(htop rfl).1]
        exact hmid.known n hn
      | false =>
        intro n hn
        simp only [Bool.false_eq_true, if_false] at hn ⊢
        exact hroot rfl n hn
    have hmeth : (f.sizeDyn || f.lenDyn || f.optDyn) = true →
        (c.getD e.cfo).size f.name e.ctx (if c.isSome then cur else (if top then cur else root)) =
          (c.getD e.cfo).size f.name e.ctx (if c.isSome then sv else e.root) ∧
        (c.getD e.cfo).length f.name e.ctx (if c.isSome then cur else (if top then cur else root)) =
          (c.getD e.cfo).length f.name e.ctx (if c.isSome then sv else e.root) ∧
        (c.getD e.cfo).opt f.name e.ctx (if c.isSome then cur else (if top then cur else root)) =
          (c.getD e.cfo).opt f.name e.ctx (if c.isSome then sv else e.root) := by
      intro hdyn
      rw [hdyn] at kdep
      simp only [Bool.not_true, Bool.false_or, List.all_eq_true, List.contains_eq_mem, decide_eq_true_eq] at kdep
      cases c with
      | none =>
        simp only [Option.getD_none, Option.isSome_none, Bool.false_eq_true, if_false] at kdep ⊢
        exact hloc _ _ _ _ (fun m hm => hrootk m (kdep m hm))
      | some c' =>
        simp only [Option.getD_some, Option.isSome_some, if_true] at kdep ⊢
        exact hcl c' rfl _ _ _ _ (fun m hm => hmid.known m (kdep m hm))
    simp only [unmarshalFields, layoutFields]
    simp only [show (uenvOf e d supp size8 root).cfo = e.cfo from rfl,
      show (uenvOf e d supp size8 root).ctx = e.ctx from rfl,
      show (uenvOf e d supp size8 root).root = root from rfl,
      show (uenvOf e d supp size8 root).hook = e.hook from rfl,
      show (uenvOf e d supp size8 root).d = d from rfl,
      show (uenvOf e d supp size8 root).size8 = size8 from rfl,
      show (uenvOf e d supp size8 root).supported = supp from rfl]
    rw [resolve_congr hmeth, resolve_eq hsz hln]
    simp only [isTarget_eq]
    have hpres : present (c.getD e.cfo) e.ctx (if top then cur else root).version (if top then cur else root).flags
          (if c.isSome then cur else (if top then cur else root))
          (instField (c.getD e.cfo) e.ctx (if c.isSome then sv else e.root) f) =
        present (c.getD e.cfo) e.ctx e.root.version e.root.flags (if c.isSome then sv else e.root)
          (instField (c.getD e.cfo) e.ctx (if c.isSome then sv else e.root) f) := by
      apply present_congr
      · intro ho
        exact (hmeth (by simp [show f.optDyn = true from ho])).2.2
      · rw [Bool.or_eq_true] at kver
        rcases kver with kver | kver
        · left
          simp only [Bool.and_eq_true, beq_iff_eq] at kver
          exact ⟨kver.1.1.1, kver.1.1.2, kver.1.2, kver.2⟩
        · right
          have := hrootk "FullBox" (by simpa using kver)
          exact ⟨SV.version_congr this, SV.flags_congr this⟩
    rw [hpres]
    have halways : f.always = true → present (c.getD e.cfo) e.ctx e.root.version e.root.flags
        (if c.isSome then sv else e.root)
        (instField (c.getD e.cfo) e.ctx (if c.isSome then sv else e.root) f) = true :=
      fun ha => present_always ha
    have hfistr : (instField (c.getD e.cfo) e.ctx (if c.isSome then sv else e.root) f).boxString = f.boxString := rfl
    generalize instField (c.getD e.cfo) e.ctx (if c.isSome then sv else e.root) f = fi at *
    generalize hpe : present (c.getD e.cfo) e.ctx e.root.version e.root.flags
        (if c.isSome then sv else e.root) fi = pres at *
    cases hget : sv.get f.name with
    | none => rw [hget] at hf; simp at hf
    | some v =>
      rw [hget] at hf
      simp only at hf ⊢
      have hcurget : cur.get f.name ≠ none := by
        rcases hmid.fresh.1 with hh | ⟨_, _, hh⟩ <;> simp [hh]
      cases pres with
      | false =>
        simp only [Bool.false_eq_true, if_false, Bool.and_eq_true] at hf
        simp only [Bool.false_eq_true, not_false_eq_true, if_true, if_false, List.nil_append]
        have hcz : cur.get f.name = sv.get f.name := by
          rw [hget, isZero_eq t v hf.1]
          rcases hmid.fresh.1 with hh | ⟨ht, hfn, hh⟩
          · exact hh
          · simp only [ht, hfn, beq_self_eq_true, Bool.and_self, Bool.not_true, Bool.false_or,
              Bool.and_eq_true] at kfull
            exact absurd (halways kfull.1.1.1) (by simp)
        refine decode_fields hd e supp hloc fs sv cur size8 left root rk _ top h c krec hal.2 hcl htop hroot
          ⟨hmid.keys, hmid.nodup, ?_, hmid.fresh.2, ?_⟩
          (fun ht hn => hsupp ht (by simp [Fields.names, hn])) h8 hmax hls hf.2
        · intro n hn
          split at hn
          · exact hmid.known n hn
          · rcases List.mem_cons.mp hn with hn | hn
            · rw [hn]; exact hcz
            · exact hmid.known n hn
        · intro n hn hdef
          by_cases hnn : n = f.name
          · rw [hnn]; exact hcz
          · apply hmid.done n (by simp [Fields.names, hnn, hn])
            rintro ⟨ht, he, hv, hs, hm⟩
            simp only [Fields.names, List.mem_cons] at hm
            rcases hm with hm | hm
            · simp only [ht, he, ← hm, beq_self_eq_true, Bool.and_self, Bool.not_true, Bool.false_or,
                Bool.and_eq_true] at kmsg
              exact absurd (halways kmsg.1.1.2) (by simp)
            · exact hdef ⟨ht, he, hv, hs, hm⟩
      | true =>
        simp only [if_true] at hf
        simp only [not_true_eq_false, if_false, if_true]
        cases top with
        | false =>
          simp only [Bool.false_and, Bool.false_eq_true, if_false, List.length_nil, Nat.sub_zero,
            List.isEmpty_nil, Bool.true_or, Bool.not_false] at hf
          simp only [Bool.and_eq_true, decide_eq_true_eq] at hf
          obtain ⟨⟨⟨⟨_, hfv⟩, hnl⟩, _⟩, hff⟩ := hf
          simp only [Bool.false_and, Bool.false_eq_true, if_false, List.nil_append, false_and] at krec kt ⊢
          have hdec := decode_V hd e supp hloc t fi v size8 left root rk kt hal.1 (hroot rfl) h8 hmax hls hfv
          have key := decodes_field (c := c) (root := root) (known := known) (known' := f.name :: known)
            (h := h) (bs' := layoutFields e false c fs sv) hmid.keys hmid.nodup hmid.known hmid.fresh
            (fun n hn hd' => hmid.done n hn (by simp [Deferred])) hget hnf (by simp) (by simp) (by simp) hdec
            (fun cur2 hm2 hle => decode_fields hd e supp hloc fs sv cur2 size8 _ root rk _ false h c krec
              hal.2 hcl htop hroot hm2 (by simp) h8 hmax (by omega) hff)
          intro s tl hw hl ha hr hlen
          obtain ⟨s', e', r⟩ := key s tl hw hl ha hr hlen
          refine ⟨s', ?_, r⟩
          rw [M.bind_ok (M.get_run s), M.bind_ok (s' := s) (a := ((0 : Nat), false, cur)) (by simp)]
          simp only
          rw [M.bind_ok (s' := s) (a := ()) (by simp [addR])]
          simp only [uenvOf, Bool.false_eq_true, false_and, if_false] at e' ⊢
          exact e'
        | true =>
          obtain ⟨hrs, hcs, hhk⟩ := htop rfl
          subst hhk
          simp only [Bool.true_and, if_true] at hf kt hrootk kfull kemsg kmsg khdlr kavcc krec ⊢
          have hroot' : ∀ n ∈ rk, (true = false) → root.get n = e.root.get n := by simp
          have hsuppR : true = true → "FullBox" ∈ fs.names → supp sv.version = true :=
            fun ht hn => hsupp ht (by simp [Fields.names, hn])
          have hrec : ∀ cur2 lft, Mid true e.hook
                (if (e.hook == .emsg && (f.name == "SchemeIdUri" || f.name == "Value")) = true then known
                 else f.name :: known) fs cur2 sv → lft ≤ size8 → fitsFields e true c fs sv lft = true →
              Decodes d size8 lft (unmarshalFields (uenvOf e d supp size8 root) true c fs cur2)
                (layoutFields e true c fs sv) sv := fun cur2 lft hm2 hl2 hf2 =>
            decode_fields hd e supp hloc fs sv cur2 size8 lft root rk _ true e.hook c krec hal.2 hcl htop hroot
              hm2 hsuppR h8 hmax hl2 hf2
          have hsz64 : size8 < U64 := by simp only [maxAlloc, U64] at *; omega
          have hver : e.hook = .emsg → (f.name = "SchemeIdUri" ∨ f.name = "Value" ∨ f.name = "MessageData") →
              cur.version = sv.version := by
            intro he hn
            apply SV.version_congr
            apply hmid.known
            rcases hn with hn | hn | hn
            · simp [he, hn] at kemsg; exact kemsg.1
            · simp [he, hn] at kemsg; exact kemsg.1
            · simp [he, hn] at kmsg; exact kmsg.1.1.1
          cases hsil : silent e.hook f.name sv with
          | true =>
            simp only [hsil, if_true, Bool.and_eq_true] at hf
            obtain ⟨hb, hff⟩ := hf
            rw [before_of_silent hsil]
            simp only [if_true, List.append_nil, List.nil_append]
            simp only [silent, Bool.or_eq_true, Bool.and_eq_true, beq_iff_eq, bne_iff_ne] at hsil
            rcases hsil with ⟨⟨he, hv0⟩, hnm⟩ | ⟨he, hnm⟩
            · have hcv := hver he (by rcases hnm with h | h <;> simp [h])
              have hmsg : "MessageData" ∈ fs.names := by
                rcases hnm with h | h <;> simp [he, h] at kemsg <;> exact kemsg.2
              have hm2 : Mid true e.hook
                (if (e.hook == .emsg && (f.name == "SchemeIdUri" || f.name == "Value")) = true then known
                 else f.name :: known) fs cur sv := by
                rw [if_pos (by simp [he, hnm])]
                refine ⟨hmid.keys, hmid.nodup, hmid.known, hmid.fresh.2, ?_⟩
                intro n hn hdef
                apply hmid.done n
                · simp only [Fields.names, List.mem_cons, not_or]
                  refine ⟨?_, hn⟩
                  intro hnn
                  exact hdef ⟨rfl, he, hv0, by rw [hnn]; exact hnm, hmsg⟩
                · rintro ⟨a1, a2, a3, a4, _⟩
                  exact hdef ⟨a1, a2, a3, a4, hmsg⟩
              have key := hrec cur left hm2 hls hff
              intro s tl hw hl ha hr hlen
              obtain ⟨s', e', r⟩ := key s tl hw hl ha hr hlen
              refine ⟨s', ?_, r⟩
              have hon : onRead e.hook d f.name (Mp4.left size8 s.rbits) cur = Pure.pure (0, true, cur) := by
                rw [he]; simp only [onRead]; rw [if_neg (by rw [hcv]; exact hv0), if_pos hnm]
              rw [M.bind_ok (M.get_run s), M.bind_ok (s' := s) (a := ((0 : Nat), true, cur)) (by simp [liftR, hon])]
              simp only
              rw [M.bind_ok (s' := s) (a := ()) (by simp [addR])]
              exact e'
            · rw [if_neg (by simp [he])] at hrec
              simp only [he, bne_self_eq_false, Bool.false_or] at hb
              have hprof : "Profile" ∈ known := by simpa [he, hnm] using kavcc
              have hvb : v = .bool (decide (32 ≤ left) && highProfile (sv.uint "Profile")) := by
                unfold isBool at hb
                split at hb
                · next x => rw [beq_iff_eq.mp hb]
                · simp at hb
              have hm2 := Mid.step (h := e.hook) (known' := f.name :: known) hmid.keys hmid.nodup hmid.known hmid.fresh
                (fun n hn hdef => hmid.done n hn (by simp [Deferred, he])) hget hnf (by simp)
              have key := hrec _ left hm2 hls hff
              intro s tl hw hl ha hr hlen
              obtain ⟨s', e', r⟩ := key s tl hw hl ha hr hlen
              refine ⟨s', ?_, r⟩
              have hon : onRead e.hook d f.name (Mp4.left size8 s.rbits) cur =
                  Pure.pure (0, true, cur.set f.name v) := by
                rw [he, hvb, hnm, left_eq hl hsz64]
                simp only [onRead, if_true]
                rw [SV.uint_congr (hmid.known _ hprof)]
                rw [avccHigh_eq]
              rw [M.bind_ok (M.get_run s), M.bind_ok (s' := s) (a := ((0 : Nat), true, cur.set f.name v))
                (by simp [liftR, hon])]
              simp only
              rw [M.bind_ok (s' := s) (a := ()) (by simp [addR])]
              exact e'
          | false =>
            simp only [hsil, Bool.false_eq_true, if_false, Bool.and_eq_true, decide_eq_true_eq] at hf
            obtain ⟨⟨⟨⟨⟨hpre, hpl⟩, hfv⟩, hnl⟩, hname⟩, hff⟩ := hf
            simp only [Bool.false_eq_true, if_false]
            by_cases hname' : e.hook = .hdlr ∧ f.name = "Name"
            · obtain ⟨he, hnm⟩ := hname'
              rw [if_neg (by simp [he])] at hrec
              have hbe : before e.hook f.name sv = [] := by simp [before, he]
              rw [hbe] at hfv hnl hff ⊢
              simp only [List.length_nil, Nat.sub_zero, List.nil_append] at hfv hnl hff ⊢
              simp only [he, hnm, beq_self_eq_true, Bool.and_self, Bool.not_true, Bool.false_or,
                Bool.and_eq_true, beq_iff_eq] at hname
              obtain ⟨⟨hll, hl8⟩, hnp⟩ := hname
              simp only [he, hnm, beq_self_eq_true, Bool.and_self, Bool.not_true, Bool.false_or,
                Bool.and_eq_true, Bool.not_eq_true', List.contains_eq_mem, decide_eq_true_eq] at khdlr
              obtain ⟨⟨kpre, kbs⟩, kstr⟩ := khdlr
              have htt : t = .str := by
                unfold Ty.isStr at kstr
                split at kstr
                · rfl
                · simp at kstr
              subst htt
              cases v <;> simp only [fitsV] at hfv <;> try contradiction
              case str b =>
                simp only [Bool.and_eq_true] at hfv
                have hstr : sv.str "Name" = b := by rw [SV.str, ← hnm, hget]
                simp only [layoutV, hfistr, kbs, Bool.false_eq_true, if_false] at hll hff hnl ⊢
                have hc : (cstring b).length = 8 * (b.length + 1) := by simp [cstring]; omega
                have hm2 := Mid.step (h := e.hook) (known' := f.name :: known) hmid.keys hmid.nodup hmid.known hmid.fresh
                  (fun n hn hdef => hmid.done n hn (by simp [Deferred, he])) hget hnf (by simp)
                have key := hrec _ _ hm2 (by omega) hff
                intro s tl hw hl ha hr hlen
                rw [List.append_assoc] at hr
                rw [List.length_append] at hlen
                obtain ⟨r', e1, hr1, w1⟩ := hdlr_decodes (left := left) hd (SV.uint_congr (hmid.known _ kpre))
                  hfv.1.1 (by rw [hstr] at hnp; exact hnp) (by omega) (by omega) hw (by omega) hr
                have hwid := width_after (s' := ⟨r', s.rbits + left⟩) hw w1 ha hr hr1 hnl
                obtain ⟨s', e', r1, r2, r3⟩ := key ⟨r', s.rbits + left⟩ tl w1 (by simp only; omega)
                  hwid hr1 (by omega)
                refine ⟨s', ?_, r1, r2, by rw [r3, List.length_append]; simp only; omega⟩
                have hon : onRead e.hook d f.name (Mp4.left size8 s.rbits) cur s.r =
                    (.ok (left, true, cur.set f.name (.str b)), r') := by
                  rw [he, left_eq hl hsz64]
                  simp only [onRead, hnm, if_true]
                  exact e1
                rw [M.bind_ok (M.get_run s), M.bind_ok (s' := ⟨r', s.rbits⟩)
                  (a := ((left : Nat), true, cur.set f.name (.str b))) (by simp [liftR, hon])]
                simp only
                rw [M.bind_ok (s' := ⟨r', s.rbits + left⟩) (a := ()) (by simp [addR, M.modify])]
                exact e'
            · intro s tl hw hl ha hr hlen
              rw [List.append_assoc, List.append_assoc] at hr
              have hlen' := hlen
              rw [List.length_append, List.length_append] at hlen'
              obtain ⟨r', cur', hon, hr1, w1, hcase⟩ := onRead_before (lft := Mp4.left size8 s.rbits)
                hsil hname' hver hw ha (by
                  rw [Bool.or_eq_true] at hpre
                  rcases hpre with h | h
                  · left; simpa using h
                  · right; simp only [Bool.and_eq_true, beq_iff_eq] at h; exact ⟨h.1.1, h.1.2, h.2⟩) hr
              have hmid' : cur'.keys = sv.keys ∧ (∀ n ∈ known, cur'.get n = sv.get n) ∧
                  Fresh true cur' (.cons f t fs) ∧
                  (∀ n, n ∉ (Fields.cons f t fs).names → ¬ Deferred true e.hook sv fs n →
                    cur'.get n = sv.get n) := by
                rcases hcase with ⟨hb, rfl⟩ | ⟨he, hv0, hnm, rfl, g1, g2⟩
                · refine ⟨hmid.keys, hmid.known, hmid.fresh, ?_⟩
                  intro n hn hdef
                  apply hmid.done n hn
                  rintro ⟨a1, a2, a3, a4, a5⟩
                  simp only [Fields.names, List.mem_cons] at a5
                  rcases a5 with a5 | a5
                  · have : before e.hook f.name sv ≠ [] := by
                      simp [before, a2, a3, ← a5, cstring]
                    exact this hb
                  · exact hdef ⟨a1, a2, a3, a4, a5⟩
                · have hne : ∀ n, sv.get n ≠ none → cur.get n ≠ none := by
                    intro n h1 h2
                    rw [SV.get_none_iff, hmid.keys, ← SV.get_none_iff] at h2
                    exact h1 h2
                  have hgv : ∀ n, (n = "SchemeIdUri" ∨ n = "Value" ∨ cur.get n = sv.get n) →
                      ((cur.set "SchemeIdUri" (.str (sv.str "SchemeIdUri"))).set "Value"
                        (.str (sv.str "Value"))).get n = sv.get n := by
                    intro n hn
                    by_cases h1 : n = "Value"
                    · subst h1
                      rw [SV.get_set_eq, g2]
                      rw [SV.get_set_ne (by decide)]
                      exact hne _ (by simp [g2])
                    · rw [SV.get_set_ne h1]
                      by_cases h2 : n = "SchemeIdUri"
                      · subst h2
                        rw [SV.get_set_eq, g1]
                        exact hne _ (by simp [g1])
                      · rw [SV.get_set_ne h2]
                        simpa [h1, h2] using hn
                  simp only [he, hnm, beq_self_eq_true, Bool.and_self, Bool.not_true, Bool.false_or,
                    Bool.and_eq_true, Bool.not_eq_true', List.contains_eq_mem,
                    decide_eq_false_iff_not] at kmsg
                  refine ⟨by rw [SV.keys_set, SV.keys_set, hmid.keys],
                    fun n hn => hgv n (Or.inr (Or.inr (hmid.known n hn))), ?_, ?_⟩
                  · refine Fresh.set (Fresh.set hmid.fresh ?_) ?_
                    · simp only [Fields.names, List.mem_cons, not_or, hnm]
                      exact ⟨by decide, kmsg.1.2⟩
                    · simp only [Fields.names, List.mem_cons, not_or, hnm]
                      exact ⟨by decide, kmsg.2⟩
                  · intro n hn hdef
                    apply hgv
                    by_cases h1 : n = "SchemeIdUri"
                    · exact Or.inl h1
                    · by_cases h2 : n = "Value"
                      · exact Or.inr (Or.inl h2)
                      · right; right
                        apply hmid.done n hn
                        rintro ⟨_, _, _, a4, _⟩
                        rcases a4 with a4 | a4
                        · exact h1 a4
                        · exact h2 a4
              obtain ⟨m1, m2, m3, m4⟩ := hmid'
              have hdec := decode_V hd e supp hloc t fi v size8 (left - (before e.hook f.name sv).length)
                cur' known kt hal.1 (by rw [hrs]; exact m2) h8 hmax (by omega) hfv
              have key := decodes_field (c := c) (root := root) (known := known) (top := true)
                (known' := (if (e.hook == .emsg && (f.name == "SchemeIdUri" || f.name == "Value")) = true
                  then known else f.name :: known))
                (h := e.hook) (bs' := layoutFields e true c fs sv) m1 hmid.nodup m2 m3 m4 hget hnf
                (by intro n hn; split at hn
                    · exact Or.inr hn
                    · simpa using hn)
                (by intro _ hfn
                    simp only [hfn, beq_self_eq_true, Bool.not_true, Bool.false_or, Bool.and_eq_true] at kfull
                    exact kfull.2)
                (fun ht hfn => hsupp ht (by simp [Fields.names, hfn])) hdec
                (fun cur2 hm2 hle => hrec cur2 _ hm2 (by omega) hff)
              have hwid := width_after (s' := ⟨r', s.rbits + (before e.hook f.name sv).length⟩) hw w1 ha hr hr1 hpl
              obtain ⟨s', e', r1, r2, r3⟩ := key ⟨r', s.rbits + (before e.hook f.name sv).length⟩ tl w1
                (by simp only; omega) hwid (by rw [hr1, List.append_assoc]) (by rw [List.length_append]; omega)
              refine ⟨s', ?_, r1, r2, by rw [r3]; simp only [List.length_append]; omega⟩
              rw [M.bind_ok (M.get_run s), M.bind_ok (s' := ⟨r', s.rbits⟩)
                (a := ((before e.hook f.name sv).length, false, cur')) (by simp [liftR, hon])]
              simp only
              rw [M.bind_ok (s' := ⟨r', s.rbits + (before e.hook f.name sv).length⟩) (a := ())
                (by simp [addR, M.modify])]
              simp only [uenvOf, if_true, true_and] at e' ⊢
              exact e'
end

end Mp4
