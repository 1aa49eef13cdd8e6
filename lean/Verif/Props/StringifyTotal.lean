import Verif.Props.Stringify
import Verif.Props.Unmarshal
import Verif.Lemmas.MarshalPanic
import Verif.Lemmas.MarshalErr
import Verif.Lemmas.Decode
import Verif.Lemmas.Lookup
import Verif.Props.Marshal

/-!
# C60: `Stringify` does not panic
-/

namespace Mp4.Props

open Mp4 Mp4.Str Mp4.Spec

theorem total_root {rc : Cfo} {ok : SV → Prop} : ∀ fs : Fields, fs.Total rc ok true (some rc) → fs.Total rc ok false none
  | .nil, _ => by simp only [Fields.Total]
  | .cons f t fs, h => by
    simp only [Fields.Total] at h ⊢
    exact ⟨fun ctx sv hs => h.1 ctx sv (fun _ => hs (.inr trivial)), h.2.1, total_root fs h.2.2⟩

theorem noNil_root (e : Env) : ∀ fs : Fields, noNilFields e (some e.cfo) fs e.root = true → noNilFields e none fs e.root = true
  | .nil, _ => by simp only [noNilFields]
  | .cons f t fs, h => by
    simp only [noNilFields, Bool.and_eq_true] at h ⊢
    exact ⟨h.1, noNil_root e fs h.2⟩

theorem strLoop_some {f : Val → Text → Option Text} {sep : Text} {dash : Nat → Bool} : ∀ (l : List Val) (i : Nat) (buf : Text),
    (∀ v ∈ l, ∀ b, ∃ t, f v b = some t) → ∃ t, strLoop f sep dash i l buf = some t
  | [], _, buf, _ => ⟨buf, rfl⟩
  | v :: l, i, buf, h => by
    rw [strLoop]
    obtain ⟨t, ht⟩ := h v List.mem_cons_self (if i = 0 then buf else buf ++ sep)
    rw [ht]
    exact strLoop_some l (i + 1) _ (fun v hv => h v (List.mem_cons_of_mem _ hv))

theorem map_some {α β : Type} {o : Option α} (f : α → β) (h : ∃ t, o = some t) : ∃ t, o.map f = some t := by
  obtain ⟨t, rfl⟩ := h
  exact ⟨_, rfl⟩

/-- The values that remain are those of the struct. -/
def Part (sv rest : SV) : Prop := ∀ x ∈ rest, sv.get x.1 = some x.2

theorem part_all : ∀ (fs : Fields) (sv : SV), fs.names.Nodup → typedFields fs sv = true → Part sv sv
  | .nil, sv, _, h => by
    cases sv with
    | nil => intro x hx; cases hx
    | cons a l => simp [typedFields] at h
  | .cons f t fs, [], _, h => by simp [typedFields] at h
  | .cons f t fs, (n, v) :: rest, hnd, h => by
    simp only [typedFields] at h
    rw [Bool.and_eq_true, Bool.and_eq_true, beq_iff_eq] at h
    obtain ⟨⟨rfl, hv⟩, hr⟩ := h
    simp only [Fields.names, List.nodup_cons] at hnd
    intro x hx
    rcases List.mem_cons.1 hx with rfl | hx
    · simp [SV.get]
    · have h1 := part_all fs rest hnd.2 hr x hx
      have h2 : x.1 ∈ fs.names := names_of fs rest hr x hx
      have : f.name ≠ x.1 := fun e => hnd.1 (e ▸ h2)
      simp only [SV.get]
      rw [if_neg this]
      exact h1
where
  names_of : ∀ (fs : Fields) (sv : SV), typedFields fs sv = true → ∀ x ∈ sv, x.1 ∈ fs.names
    | .nil, [], _, x, hx => by cases hx
    | .nil, _ :: _, h, _, _ => by simp [typedFields] at h
    | .cons f t fs, [], h, _, _ => by simp [typedFields] at h
    | .cons f t fs, (n, v) :: rest, h, x, hx => by
      simp only [typedFields] at h
      rw [Bool.and_eq_true, Bool.and_eq_true, beq_iff_eq] at h
      rcases List.mem_cons.1 hx with rfl | hx
      · simp [Fields.names, h.1.1]
      · simp only [Fields.names]
        exact List.mem_cons_of_mem _ (names_of fs rest h.2 x hx)

mutual
theorem strV_some (e : SEnv) (field : String) (ok : SV → Prop) (hroot : ok e.root) :
    ∀ (t : Ty) (fi : Field) (depth : Nat) (v : Val) (buf : Text), t.Total e.bd.cfo ok → t.nodup = true → typedV t v = true →
      noNilV (env e.bd e.ctx e.root) t fi v = true → ∃ out, strV e field t fi depth v buf = some out
  | .uint w, fi, depth, v, buf, ht, hd, hty, hn => by
    cases v <;> simp only [typedV] at hty <;> try contradiction
    simp [strV]
  | .int w, fi, depth, v, buf, ht, hd, hty, hn => by
    cases v <;> simp only [typedV] at hty <;> try contradiction
    simp [strV]
  | .bool, fi, depth, v, buf, ht, hd, hty, hn => by
    cases v <;> simp only [typedV] at hty <;> try contradiction
    simp [strV]
  | .str, fi, depth, v, buf, ht, hd, hty, hn => by
    cases v <;> simp only [typedV] at hty <;> try contradiction
    simp [strV]
  | .ptr t, fi, depth, v, buf, ht, hd, hty, hn => by
    simp only [Ty.Total] at ht
    simp only [Ty.nodup] at hd
    cases v <;> simp only [typedV] at hty <;> try contradiction
    case ptr o =>
      cases o with
      | none => simp [noNilV] at hn
      | some x =>
        simp only [noNilV] at hn
        simp only at hty
        simp only [strV]
        exact strV_some e field ok hroot t fi depth x buf ht hd hty hn
  | .struct c fs, fi, depth, v, buf, ht, hd, hty, hn => by
    simp only [Ty.Total] at ht
    simp only [Ty.nodup] at hd
    cases v <;> simp only [typedV] at hty <;> try contradiction
    case struct sv =>
      simp only [noNilV] at hn
      simp only [strV]
      have hp := part_all fs sv (Fields.nodup_names fs hd) hty
      split
      · exact strFields_some e field ok hroot c fs depth sv sv buf ht hd hty hp hn
      · exact map_some _ (strFields_some e field ok hroot c fs (depth + 1) sv sv _ ht hd hty hp hn)
  | .arr _ t, fi, depth, v, buf, ht, hd, hty, hn => by
    simp only [Ty.Total] at ht
    simp only [Ty.nodup] at hd
    cases v <;> simp only [typedV] at hty <;> try contradiction
    case arr l =>
      rw [Bool.and_eq_true] at hty
      simp only [noNilV, List.all_eq_true] at hn
      have hty := List.all_eq_true.mp hty.2
      have hl : ∀ v ∈ l, ∀ b, ∃ t', strV e field t fi (depth + 1) v b = some t' := fun x hx b =>
        strV_some e field ok hroot t fi (depth + 1) x b ht hd (hty x hx) (hn x hx)
      simp only [strV]
      split
      · exact map_some _ (strLoop_some l 0 _ hl)
      split
      · exact map_some _ (strLoop_some l 0 _ hl)
      split
      · exact strLoop_some l 0 _ hl
      · exact map_some _ (strLoop_some l 0 _ hl)
  | .slice t, fi, depth, v, buf, ht, hd, hty, hn => by
    simp only [Ty.Total] at ht
    simp only [Ty.nodup] at hd
    cases v <;> simp only [typedV] at hty <;> try contradiction
    case slice l =>
      simp only [noNilV, List.all_eq_true] at hn
      have hty := List.all_eq_true.mp hty
      have hl : ∀ v ∈ (if fi.length = lengthUnlimited then l else l.take fi.length), ∀ b, ∃ t', strV e field t fi (depth + 1) v b = some t' := by
        intro x hx b
        have hx : x ∈ l := by
          split at hx
          · exact hx
          · exact List.mem_of_mem_take hx
        exact strV_some e field ok hroot t fi (depth + 1) x b ht hd (hty x hx) (hn x hx)
      simp only [strV]
      split
      · exact map_some _ (strLoop_some _ 0 _ hl)
      split
      · exact map_some _ (strLoop_some _ 0 _ hl)
      · exact map_some _ (strLoop_some _ 0 _ hl)
theorem strFields_some (e : SEnv) (field : String) (ok : SV → Prop) (hroot : ok e.root) (c : Option Cfo) :
    ∀ (fs : Fields) (depth : Nat) (sv rest : SV) (buf : Text), fs.Total e.bd.cfo ok false c → fs.nodup = true → typedFields fs rest = true →
      Part sv rest → noNilFields (env e.bd e.ctx e.root) c fs sv = true → ∃ out, strFields e field c fs depth sv rest buf = some out
  | .nil, depth, sv, rest, buf, _, _, _, _, _ => by simp [strFields]
  | .cons f t fs, depth, sv, [], buf, ht, hd, hty, hp, hn => by simp [typedFields] at hty
  | .cons f t fs, depth, sv, (n, v) :: rest, buf, ht, hd, hty, hp, hn => by
    simp only [Fields.Total] at ht
    simp only [Fields.nodup] at hd
    rw [Bool.and_eq_true, Bool.and_eq_true] at hd
    simp only [typedFields] at hty
    rw [Bool.and_eq_true, Bool.and_eq_true, beq_iff_eq] at hty
    obtain ⟨⟨rfl, hv⟩, hr⟩ := hty
    simp only [noNilFields] at hn
    rw [Bool.and_eq_true] at hn
    have hget : sv.get f.name = some v := hp _ List.mem_cons_self
    have hrec := fun buf => strFields_some e field ok hroot c fs depth sv rest buf ht.2.2 hd.2 hr
      (fun x hx => hp x (List.mem_cons_of_mem _ hx)) hn.2
    have hn1 := hn.1
    simp only [strFields]
    have hcsv : (false = true ∨ c = none) → ok (if c.isSome = true then sv else e.root) := by
      intro h
      rcases h with h | h
      · cases h
      · subst h; exact hroot
    change (!present (c.getD e.bd.cfo) e.ctx e.root.version e.root.flags (if c.isSome = true then sv else e.root)
      (instField (c.getD e.bd.cfo) e.ctx (if c.isSome = true then sv else e.root) f) || (match sv.get f.name with
        | some v => noNilV (env e.bd e.ctx e.root) t (instField (c.getD e.bd.cfo) e.ctx (if c.isSome = true then sv else e.root) f) v
        | none => true)) = true at hn1
    generalize (if c.isSome = true then sv else e.root) = csv at *
    have hans := ht.1 e.ctx csv hcsv
    have hres : resolve (c.getD e.bd.cfo) e.ctx csv f = some (instField (c.getD e.bd.cfo) e.ctx csv f) := by
      apply resolve_eq
      · cases h : f.sizeDyn with
        | false => simp
        | true => simp [hans.1 h]
      · cases h : f.lenDyn with
        | false => simp
        | true => simp [hans.2 h]
    rw [hres]
    simp only [isTarget_eq]
    generalize instField (c.getD e.bd.cfo) e.ctx csv f = fi at *
    split
    · exact hrec _
    · next hsk =>
      have hpres : present (c.getD e.bd.cfo) e.ctx e.root.version e.root.flags csv fi = true := by
        apply Classical.byContradiction
        intro h
        exact hsk (.inl h)
      rw [hpres, hget] at hn1
      simp only [Bool.not_true, Bool.false_or] at hn1
      generalize (if f.extend = true then buf else (if e.indent ≠ [] then buf ++ indentText e (depth + 1)
            else if buf ≠ [] ∧ buf.getLast? ≠ some 123 then buf ++ [32] else buf) ++ (lit f.name ++ [61])) = buf1
      generalize (if c.isSome = true then strNested e.beyond e.bd.goName field f.name csv
          else strRoot e.beyond e.bd.goName f.name csv) = custom
      obtain ⟨out, ho⟩ := strV_some e f.name ok hroot t fi depth v buf1 ht.2.1 hd.1.2 hv hn1
      cases custom with
      | some t => exact hrec _
      | none =>
        simp only
        split
        · exact hrec _
        split
        · exact hrec _
        rw [ho]
        exact hrec _
end

/-- **C60** (partial) — `Stringify` and `StringifyWithIndent` of every value of every box type return a text, except: for `elst` and `tfra` only
versions 0 and 1 are covered, for `esds` only values without nil pointers in descriptors that need them. -/
theorem stringify_returns_partial (beyond : Nat → Bool) (bd : BoxDef) (hbd : bd ∈ Cat.allDefs) (ctx : Ctx) (sv : SV)
    (hty : typedFields bd.fields sv = true)
    (hver : bd.goName = "Elst" ∨ bd.goName = "Tfra" → sv.version = 0 ∨ sv.version = 1)
    (hnil : bd.goName = "Esds" → noNilFields (env bd ctx sv) (some bd.cfo) bd.fields sv = true) (indent : Text) :
    ∃ t, stringify beyond bd sv indent ctx = some t := by
  have hd := allDefs_nodup bd hbd
  refine strFields_some ⟨beyond, bd, sv, ctx, indent⟩ "" _ hver none bd.fields 0 sv sv [] (total_root _ (allDefs_total bd hbd)) hd hty
    (part_all _ _ (Fields.nodup_names _ hd) hty) ?_
  refine noNil_root (env bd ctx sv) bd.fields ?_
  rcases allDefs_noPtr bd hbd with h | h
  · exact hnil h
  · exact noNilFields_of_noPtr _ _ _ _ h

/-! ## Decoded values -/

/-- one field of a struct below the box that has been decoded -/
theorem nested_inv {e : UEnv} {cf : Cfo} {f : Field} {t : Ty} {fs : Fields} {cur sv' : SV} {s s' : USt}
    (h : unmarshalFields e false (some cf) (.cons f t fs) cur s = (.ok sv', s')) :
    ∃ cur1 s1, unmarshalFields e false (some cf) fs cur1 s1 = (.ok sv', s') ∧
      ((cur1 = cur ∧ ∃ fi, resolve cf e.ctx cur f = some fi ∧ isTarget cf e.ctx e.root cur fi = false) ∨
        ∃ fi x v s0 s2, cur.get f.name = some x ∧ unmarshalV e t fi x s0 = (.ok v, s2) ∧ cur1 = cur.set f.name v) := by
  simp only [unmarshalFields, Option.getD_some, Option.isSome_some, if_true] at h
  cases hr : resolve cf e.ctx cur f with
  | none => rw [hr] at h; cases h
  | some fi =>
    rw [hr] at h
    simp only [Bool.false_eq_true, if_false] at h
    by_cases ht : isTarget cf e.ctx e.root cur fi = true
    · rw [if_neg (by simp [ht])] at h
      obtain ⟨a, s1, -, h⟩ := bind_ok_inv h
      obtain ⟨⟨r, o, c⟩, s2, e2, h⟩ := bind_ok_inv h
      cases e2
      obtain ⟨-, s3, -, h⟩ := bind_ok_inv h
      simp only [Bool.false_eq_true, if_false] at h
      cases hg : cur.get f.name with
      | none => rw [hg] at h; cases h
      | some x =>
        rw [hg] at h
        simp only at h
        obtain ⟨v, s4, e4, h⟩ := bind_ok_inv h
        rw [if_neg (by simp)] at h
        exact ⟨_, _, h, .inr ⟨fi, x, v, _, _, rfl, e4, rfl⟩⟩
    · rw [if_pos ht] at h
      exact ⟨_, _, h, .inl ⟨rfl, fi, rfl, eq_false_of_ne_true ht⟩⟩

/-- other fields stay as they are -/
theorem nested_keeps {e : UEnv} {cf : Cfo} : ∀ (fs : Fields) {cur sv' : SV} {s s' : USt},
    unmarshalFields e false (some cf) fs cur s = (.ok sv', s') → ∀ n, n ∉ fs.names → sv'.get n = cur.get n
  | .nil, cur, sv', s, s', h, n, hn => by
    simp only [unmarshalFields] at h
    cases h
    rfl
  | .cons f t fs, cur, sv', s, s', h, n, hn => by
    simp only [Fields.names, List.mem_cons, not_or] at hn
    obtain ⟨cur1, s1, h1, h2⟩ := nested_inv h
    rw [nested_keeps fs h1 n hn.2]
    rcases h2 with ⟨rfl, -⟩ | ⟨fi, x, v, s0, s2, hx, hv, rfl⟩
    · rfl
    · exact SV.get_set_ne hn.1

theorem ptr_inv {e : UEnv} {t : Ty} {fi : Field} {x v : Val} {s s' : USt} (h : unmarshalV e (.ptr t) fi x s = (.ok v, s')) :
    ∃ y, v = .ptr (some y) := by
  simp only [unmarshalV] at h
  obtain ⟨y, s1, -, h⟩ := bind_ok_inv h
  cases h
  exact ⟨y, rfl⟩

theorem int_get {sv sv' : SV} {n : String} (h : sv.get n = sv'.get n) : sv.int n = sv'.int n := by
  unfold SV.int
  rw [h]

/-- the pointers of a descriptor that has been decoded -/
theorem descriptor_pointers {e : UEnv} {cur sv' : SV} {s s' : USt}
    (h : unmarshalFields e false (some cfoDescriptor) Cat.fsDescriptor cur s = (.ok sv', s')) :
    (sv'.int "Tag" = 3 → ∃ y, sv'.get "ESDescriptor" = some (.ptr (some y))) ∧
    (sv'.int "Tag" = 4 → ∃ y, sv'.get "DecoderConfigDescriptor" = some (.ptr (some y))) := by
  simp only [Cat.fsDescriptor, Fields.ofList] at h
  obtain ⟨c1, s1, h, -⟩ := nested_inv h
  obtain ⟨c2, s2, h, -⟩ := nested_inv h
  have k2 := int_get (nested_keeps _ h "Tag" (by simp [Fields.names]))
  obtain ⟨c3, s3, h, h3⟩ := nested_inv h
  have k3 := int_get (nested_keeps _ h "Tag" (by simp [Fields.names]))
  have g3 := nested_keeps _ h "ESDescriptor" (by simp [Fields.names])
  obtain ⟨c4, s4, h, h4⟩ := nested_inv h
  have g4 := nested_keeps _ h "DecoderConfigDescriptor" (by simp [Fields.names])
  constructor
  · intro ht
    rcases h3 with ⟨rfl, fi, hf, hn⟩ | ⟨fi, x, v, s0, s5, hx, hv, rfl⟩
    · simp [resolve] at hf
      subst hf
      simp [isTarget, anyVersion, cfoDescriptor, ← k3, ht] at hn
    · obtain ⟨y, rfl⟩ := ptr_inv hv
      refine ⟨y, ?_⟩
      rw [g3, SV.get_set_eq (by rw [hx]; simp)]
  · intro ht
    rcases h4 with ⟨rfl, fi, hf, hn⟩ | ⟨fi, x, v, s0, s5, hx, hv, rfl⟩
    · simp [resolve] at hf
      subst hf
      simp [isTarget, anyVersion, cfoDescriptor, ← k3, ht] at hn
    · obtain ⟨y, rfl⟩ := ptr_inv hv
      refine ⟨y, ?_⟩
      rw [g4, SV.get_set_eq (by rw [hx]; simp)]

/-- a field whose option is off is not present -/
theorem present_off {c : Cfo} {ctx : Ctx} {v fl : Nat} {sv : SV} {f : Field} (h : f.optDyn = true) (h0 : c.opt f.name ctx sv = false) :
    present c ctx v fl sv f = false := by
  unfold present
  rw [h, h0]
  simp

theorem descriptor_noNil (E : Env) {sv : SV} (h3 : sv.int "Tag" = 3 → ∃ y, sv.get "ESDescriptor" = some (.ptr (some y)))
    (h4 : sv.int "Tag" = 4 → ∃ y, sv.get "DecoderConfigDescriptor" = some (.ptr (some y))) :
    noNilFields E (some cfoDescriptor) Cat.fsDescriptor sv = true := by
  have np : ∀ t : Ty, t.noPtr = true → ∀ (fi : Field) (v : Val), noNilV E t fi v = true := fun t ht fi v => noNilV_of_noPtr E t fi v ht
  have hp : ∀ (t : Ty) (ht : t.noPtr = true) (fi : Field) (name : String) (hy : ∃ y, sv.get name = some (.ptr (some y))),
      (match sv.get name with | some v => noNilV E (.ptr t) fi v | none => true) = true := by
    intro t ht fi name ⟨y, hy⟩
    rw [hy]
    simp only [noNilV]
    exact np t ht fi y
  have hq : ∀ (t : Ty) (ht : t.noPtr = true) (fi : Field) (name : String), (match sv.get name with | some v => noNilV E t fi v | none => true) = true := by
    intro t ht fi name
    cases sv.get name with
    | none => rfl
    | some v => exact np t ht fi v
  simp only [Cat.fsDescriptor, Fields.ofList, noNilFields, Bool.and_eq_true, Bool.or_eq_true, Bool.not_eq_true', Option.getD_some,
    Option.isSome_some, if_true]
  refine ⟨.inr (hq _ rfl _ _), .inr (hq _ rfl _ _), ?_, ?_, .inr (hq _ rfl _ _), trivial⟩
  · by_cases ht : sv.int "Tag" = 3
    · exact .inr (hp _ rfl _ _ (h3 ht))
    · refine .inl (present_off rfl ?_)
      show (if sv.int "Tag" = 3 then _ else if sv.int "Tag" = 4 then "ESDescriptor" == "DecoderConfigDescriptor" else "ESDescriptor" == "Data") = false
      rw [if_neg ht]
      split <;> rfl
  · by_cases ht : sv.int "Tag" = 4
    · exact .inr (hp _ rfl _ _ (h4 ht))
    · refine .inl (present_off rfl ?_)
      show (if sv.int "Tag" = 3 then "DecoderConfigDescriptor" == "ESDescriptor" else if sv.int "Tag" = 4 then _ else "DecoderConfigDescriptor" == "Data") = false
      rw [if_neg ht]
      split <;> rfl

/-- the elements of a slice that has been decoded -/
theorem countLoop_inv {size8 : Nat} {f : UM Val} : ∀ (n : Nat) {l : List Val} {s s' : USt}, countLoop size8 f n s = (.ok l, s') →
    ∀ v ∈ l, ∃ s0 s1, f s0 = (.ok v, s1)
  | 0, l, s, s', h, v, hv => by
    cases h
    cases hv
  | n + 1, l, s, s', h, v, hv => by
    rw [countLoop] at h
    obtain ⟨x, s1, e1, h⟩ := bind_ok_inv h
    obtain ⟨xs, s2, e2, h⟩ := bind_ok_inv h
    cases h
    rcases List.mem_cons.1 hv with rfl | hv
    · exact elem_inv e1
    · exact countLoop_inv n e2 v hv
where
  elem_inv {size8 : Nat} {f : UM Val} {v : Val} {s s' : USt} (h : sliceElem size8 f s = (.ok v, s')) : ∃ s0 s1, f s0 = (.ok v, s1) := by
    unfold sliceElem at h
    obtain ⟨x, s1, e1, h⟩ := bind_ok_inv h
    obtain ⟨y, s2, e2, h⟩ := bind_ok_inv h
    split at h
    · cases h
    · cases h
      exact ⟨_, _, e1⟩

theorem greedyLoop_inv {size8 : Nat} {f : UM Val} : ∀ (n : Nat) {l : List Val} {s s' : USt}, greedyLoop size8 f n s = (.ok l, s') →
    ∀ v ∈ l, ∃ s0 s1, f s0 = (.ok v, s1)
  | 0, l, s, s', h, v, hv => by cases h
  | n + 1, l, s, s', h, v, hv => by
    rw [greedyLoop] at h
    obtain ⟨st, s1, e1, h⟩ := bind_ok_inv h
    split at h
    · cases h
      cases hv
    · obtain ⟨x, s1, e1, h⟩ := bind_ok_inv h
      obtain ⟨xs, s2, e2, h⟩ := bind_ok_inv h
      cases h
      rcases List.mem_cons.1 hv with rfl | hv
      · exact countLoop_inv.elem_inv e1
      · exact greedyLoop_inv n e2 v hv

theorem slice_inv {d : Bytes} {size8 : Nat} {fi : Field} {f : UM Val} {v : Val} {s s' : USt}
    (h : unmarshalSlice d size8 false fi f s = (.ok v, s')) : ∃ l, v = .slice l ∧ ∀ v ∈ l, ∃ s0 s1, f s0 = (.ok v, s1) := by
  unfold unmarshalSlice at h
  obtain ⟨st, s1, e1, h⟩ := bind_ok_inv h
  simp only at h
  split at h
  · cases h
  rw [if_neg (by simp)] at h
  split at h
  · obtain ⟨l, s2, e2, h⟩ := bind_ok_inv h
    cases h
    exact ⟨l, rfl, greedyLoop_inv _ e2⟩
  · obtain ⟨l, s2, e2, h⟩ := bind_ok_inv h
    cases h
    exact ⟨l, rfl, countLoop_inv _ e2⟩

theorem descriptor_decoded (E : Env) {e : UEnv} {fi fi' : Field} {v : Val} {s s' : USt}
    (h : unmarshalV e Cat.tyDescriptor fi Cat.tyDescriptor.zero s = (.ok v, s')) : noNilV E Cat.tyDescriptor fi' v = true := by
  unfold Cat.tyDescriptor at h ⊢
  simp only [unmarshalV, Ty.zero] at h
  unfold structInternal at h
  have key : ∀ (e : UEnv) (cur : SV) (s s' : USt), (do
      let sv' ← unmarshalFields e false (some cfoDescriptor) Cat.fsDescriptor cur
      pure (Val.struct sv') : UM Val) s = (.ok v, s') → noNilV E (.struct (some cfoDescriptor) Cat.fsDescriptor) fi' v = true := by
    intro e cur s s' h
    obtain ⟨sv', s1, e1, h⟩ := bind_ok_inv h
    cases h
    simp only [noNilV]
    obtain ⟨h3, h4⟩ := descriptor_pointers e1
    exact descriptor_noNil E h3 h4
  split at h
  · unfold sizedStruct at h
    split at h
    · next hm =>
      split at h
      · cases h
      · cases h
        exact key _ _ _ _ hm
    · cases h
    · cases h
    · cases h
  · exact key _ _ _ _ h

theorem bd_esds : ∀ bd ∈ Cat.allDefs, bd.goName = "Esds" → bd = Cat.bdEsds := by
  unfold Cat.allDefs
  simp only [List.forall_mem_cons]
  repeat' apply And.intro
  all_goals first
    | (intro _; rfl)
    | (intro _; trivial)
    | (intro h; exact absurd h (by decide))
    | (intro _ h; cases h)

/-- one field of a box without hook that has been decoded -/
theorem top_inv {e : UEnv} {cf : Cfo} {f : Field} {t : Ty} {fs : Fields} {cur sv' : SV} {s s' : USt} (hook : e.hook = .none)
    (h : unmarshalFields e true (some cf) (.cons f t fs) cur s = (.ok sv', s')) :
    ∃ cur1 s1, unmarshalFields e true (some cf) fs cur1 s1 = (.ok sv', s') ∧
      ((cur1 = cur ∧ ∃ fi, resolve cf e.ctx cur f = some fi ∧ isTarget cf e.ctx cur cur fi = false) ∨
        ∃ fi x v s0 s2, cur.get f.name = some x ∧ unmarshalV { e with root := cur } t fi x s0 = (.ok v, s2) ∧ cur1 = cur.set f.name v) := by
  simp only [unmarshalFields, Option.getD_some, Option.isSome_some, if_true] at h
  cases hr : resolve cf e.ctx cur f with
  | none => rw [hr] at h; cases h
  | some fi =>
    rw [hr] at h
    simp only at h
    by_cases ht : isTarget cf e.ctx cur cur fi = true
    · rw [if_neg (by simp [ht])] at h
      obtain ⟨a, s1, -, h⟩ := bind_ok_inv h
      have hook0 : liftR (onRead e.hook e.d f.name (left e.size8 a.rbits) cur) = liftR (onRead .none e.d f.name (left e.size8 a.rbits) cur) := by
        rw [hook]
      rw [hook0] at h
      obtain ⟨⟨r, o, c⟩, s2, e2, h⟩ := bind_ok_inv h
      cases e2
      obtain ⟨-, s3, -, h⟩ := bind_ok_inv h
      simp only [Bool.false_eq_true, if_false] at h
      cases hg : cur.get f.name with
      | none => rw [hg] at h; cases h
      | some x =>
        rw [hg] at h
        simp only at h
        obtain ⟨v, s4, e4, h⟩ := bind_ok_inv h
        split at h
        · cases h
        · exact ⟨_, _, h, .inr ⟨fi, x, v, _, _, rfl, e4, rfl⟩⟩
    · rw [if_pos ht] at h
      exact ⟨_, _, h, .inl ⟨rfl, fi, rfl, eq_false_of_ne_true ht⟩⟩

/-- an `esds` box that has been decoded has no nil pointer where one is needed -/
theorem esds_decoded (E : Env) {d : Bytes} {ctx : Ctx} {ps : Nat} {dst sv : SV} {pos pos' n : Nat}
    (h : unmarshalBox Cat.bdEsds d ctx ps dst pos = (.ok (n, sv), pos')) : noNilFields E (some Cat.bdEsds.cfo) Cat.bdEsds.fields sv = true := by
  have h : unmarshalBody Cat.bdEsds d ctx ps (dst.setVersion anyVersion) pos = (.ok (n, sv), pos') := h
  unfold unmarshalBody at h
  split at h
  · next sv' st he =>
    have hsv : sv' = sv := by
      split at h
      · cases h
      split at h
      · cases h
      · cases h
        rfl
    subst hsv
    unfold Cat.bdEsds at he ⊢
    simp only [Cat.fsEsds, Fields.ofList] at he ⊢
    obtain ⟨c1, s1, he, -⟩ := top_inv rfl he
    obtain ⟨c2, s2, he, h2⟩ := top_inv rfl he
    simp only [unmarshalFields] at he
    cases he
    simp only [noNilFields, Bool.and_true, Bool.and_eq_true, Bool.or_eq_true]
    constructor
    · refine .inr ?_
      split
      · exact noNilV_of_noPtr _ _ _ _ rfl
      · rfl
    · refine .inr ?_
      rcases h2 with ⟨rfl, fi, hf, hn⟩ | ⟨fi, x, v, s0, s5, hx, hv, rfl⟩
      · simp [resolve] at hf
        subst hf
        simp [isTarget, anyVersion] at hn
      · rw [SV.get_set_eq (by rw [hx]; simp)]
        simp only [unmarshalV] at hv
        obtain ⟨l, rfl, hl⟩ := slice_inv hv
        simp only [noNilV, List.all_eq_true]
        intro v hv
        obtain ⟨s0, s1, e1⟩ := hl v hv
        exact descriptor_decoded E e1
  all_goals cases h

theorem fullBox_elst : "FullBox" ∈ Cat.bdElst.fields.names := by decide
theorem fullBox_tfra : "FullBox" ∈ Cat.bdTfra.fields.names := by decide

/-- what is needed about a decoded box so that it can be printed and written -/
theorem decoded_fit {bd : BoxDef} (hbd : bd ∈ Cat.allDefs) {d : Bytes} (hd : d.length ≤ maxAlloc) {pos : Nat} (hpos : pos ≤ d.length)
    {ctx : Ctx} {ps : Nat} {dst : SV} (hty : typedFields bd.fields dst = true) {n : Nat} {sv : SV} {pos' : Nat}
    (h : unmarshalBox bd d ctx ps dst pos = (.ok (n, sv), pos')) :
    typedFields bd.fields sv = true ∧ (bd.goName = "Elst" ∨ bd.goName = "Tfra" → sv.version = 0 ∨ sv.version = 1) ∧
      ∀ ctx', bd.goName = "Esds" → noNilFields (env bd ctx' sv) (some bd.cfo) bd.fields sv = true := by
  have hp := unmarshalBox_post hbd hd hpos ctx ps hty
  rw [h] at hp
  obtain ⟨-, -, -, h1, h2⟩ := hp
  refine ⟨h1, ?_, ?_⟩
  · intro hg
    refine verOk_supports hbd ?_ hg
    rcases hg with hg | hg
    · have := bd_elst bd hbd hg
      subst this
      exact h2 fullBox_elst rfl
    · have := bd_tfra bd hbd hg
      subst this
      exact h2 fullBox_tfra rfl
  · intro ctx' hg
    have := bd_esds bd hbd hg
    subst this
    exact esds_decoded _ h

/-- **C60** — whatever `Unmarshal` has read from whatever bytes, into whatever box, can be printed: `Stringify` and `StringifyWithIndent`
return a text, under every indentation and context. -/
theorem stringify_decoded (beyond : Nat → Bool) (bd : BoxDef) (hbd : bd ∈ Cat.allDefs) (d : Bytes) (hd : d.length ≤ maxAlloc) (pos : Nat)
    (hpos : pos ≤ d.length) (ctx : Ctx) (ps : Nat) (dst : SV) (hty : typedFields bd.fields dst = true) (n : Nat) (sv : SV) (pos' : Nat)
    (h : unmarshalBox bd d ctx ps dst pos = (.ok (n, sv), pos')) (indent : Text) (ctx' : Ctx) :
    ∃ t, stringify beyond bd sv indent ctx' = some t := by
  obtain ⟨h1, h2, h3⟩ := decoded_fit hbd hd hpos hty h
  exact stringify_returns_partial beyond bd hbd ctx' sv h1 h2 (h3 ctx') indent

/-- **C60** — the same for `UnmarshalAny`. -/
theorem stringify_any (beyond : Nat → Bool) (d : Bytes) (hd : d.length ≤ maxAlloc) (pos : Nat) (hpos : pos ≤ d.length) (t : BoxType) (ctx : Ctx)
    (ps : Nat) (box : BoxVal) (n pos' : Nat) (h : BoxMap.std.unmarshalAny d t ps ctx pos = (.ok (box, n), pos')) (indent : Text) (ctx' : Ctx) :
    ∃ s, stringify beyond box.bd box.sv indent ctx' = some s := by
  unfold BoxMap.unmarshalAny BoxMap.new at h
  cases hl : BoxMap.std.getBoxDef t ctx with
  | none => rw [hl] at h; cases h
  | some bd =>
    rw [hl] at h
    simp only at h
    split at h
    · next hr =>
      cases h
      exact stringify_decoded beyond bd (std_mem hl) d hd pos hpos ctx ps _ (zero_typedFields bd.fields) _ _ _ hr indent ctx'
    all_goals cases h

/-- **C60** — and it can be written again: `Marshal` of a box that has been read does not panic, whatever the destination does. -/
theorem marshal_decoded {σ : Type} (bd : BoxDef) (hbd : bd ∈ Cat.allDefs) (d : Bytes) (hd : d.length ≤ maxAlloc) (pos : Nat)
    (hpos : pos ≤ d.length) (ctx : Ctx) (ps : Nat) (dst : SV) (hty : typedFields bd.fields dst = true) (n : Nat) (sv : SV) (pos' : Nat)
    (h : unmarshalBox bd d ctx ps dst pos = (.ok (n, sv), pos')) (k : Sink σ) (ctx' : Ctx) (s : σ) :
    (marshalBox bd k ctx' sv s).1 ≠ .panic ∧ (marshalBox bd k ctx' sv s).1 ≠ .hang := by
  obtain ⟨h1, h2, h3⟩ := decoded_fit hbd hd hpos hty h
  exact marshal_never_panics_partial bd hbd k ctx' sv h1 h2 (h3 ctx') s

/-- **C60** fails for values made by hand: an `elst` box of version 2, … -/
theorem stringify_elst_panics : stringify (fun _ => false) Cat.bdElst [fullBox 2 0 0 0, ("EntryCount", .uint 0), ("Entries", .slice [])] [] {} = none := by
  decide +kernel

/-- … and an `esds` box with a decoder configuration that is nil. -/
theorem stringify_esds_panics : stringify (fun _ => false) Cat.bdEsds [fullBox 0 0 0 0,
    ("Descriptors", .slice [.struct [("Tag", .int 4), ("Size", .uint 13), ("ESDescriptor", .ptr none),
      ("DecoderConfigDescriptor", .ptr none), ("Data", .slice [])]])] [] {} = none := by decide +kernel

/-- the hypotheses are met: the `esds` box of `Verif.Props.RoundTrip` -/
example : Cat.bdEsds ∈ Cat.allDefs ∧ typedFields Cat.bdEsds.fields exEsds = true ∧
    noNilFields (env Cat.bdEsds {} exEsds) (some Cat.bdEsds.cfo) Cat.bdEsds.fields exEsds = true ∧
    stringify (fun _ => false) Cat.bdEsds exEsds [] {} ≠ none := by
  refine ⟨by simp [Cat.allDefs], by decide +kernel, by decide +kernel, by decide +kernel⟩

/-- … and an `elst` box of version 1 is read -/
example : (unmarshalBox Cat.bdElst ([1, 0, 0, 0, 0, 0, 0, 1] ++ List.replicate 20 7) {} 28 Cat.bdElst.fields.zero 0).1 =
    .ok (28, [fullBox 1 0 0 0, ("EntryCount", .uint 1), ("Entries", .slice [.struct [("SegmentDurationV0", .uint 0), ("MediaTimeV0", .int 0),
      ("SegmentDurationV1", .uint 0x0707070707070707), ("MediaTimeV1", .int 0x0707070707070707), ("MediaRateInteger", .int 0x0707),
      ("MediaRateFraction", .int 0x0707)]])]) := by decide +kernel

end Mp4.Props
