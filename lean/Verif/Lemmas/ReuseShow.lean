import Verif.Lemmas.ReuseWrite

/-!
# Showing what has been decoded into a struct that has been used before
-/

namespace Mp4.Str

open Mp4 Spec

/-- the fields that `StringifyField` of a box looks at -/
def strDeps (goName name : String) : List String :=
  if (goName = "Mvhd" ∧ name = "Rate") ∨ (goName = "VisualSampleEntry" ∧ name = "Compressorname") ∨
    (goName = "AudioSampleEntry" ∧ name = "SampleRate") ∨ (goName = "Smhd" ∧ name = "Balance") ∨
    (goName = "Tkhd" ∧ (name = "Width" ∨ name = "Height")) ∨ (goName = "Pssh" ∧ name = "KIDs") ∨
    (goName = "StringData" ∧ name = "Data") ∨ (goName = "Item" ∧ name = "ItemName") then [name]
  else if goName = "Data" ∧ (name = "DataType" ∨ name = "Data") then ["DataType", name]
  else []

theorem strRoot_congr (beyond : Nat → Bool) {gn n : String} {a b : SV} (h : ∀ m ∈ strDeps gn n, a.get m = b.get m) :
    strRoot beyond gn n a = strRoot beyond gn n b := by
  unfold strDeps at h
  unfold strRoot
  split
  · next q => rw [if_pos (Or.inl q)] at h; have h := h n (by simp); rw [q.2] at h; unfold SV.int; rw [h]
  split
  · next q => rw [if_pos (Or.inr (Or.inl q))] at h; have h := h n (by simp); rw [q.2] at h; unfold SV.byteArr; rw [h]
  split
  · next q => rw [if_pos (Or.inr (Or.inr (Or.inl q)))] at h; have h := h n (by simp); rw [q.2] at h; unfold SV.uint; rw [h]
  split
  · next q => rw [if_pos (Or.inr (Or.inr (Or.inr (Or.inl q))))] at h; have h := h n (by simp); rw [q.2] at h; unfold SV.int; rw [h]
  split
  · next q => rw [if_pos (Or.inr (Or.inr (Or.inr (Or.inr (Or.inl q)))))] at h; have h := h n (by simp); unfold SV.uint; rw [h]
  split
  · next q =>
    rw [if_pos (Or.inr (Or.inr (Or.inr (Or.inr (Or.inr (Or.inl q))))))] at h; have h := h n (by simp); rw [q.2] at h; rw [h]
  split
  · next q =>
    subst q
    unfold strData
    by_cases h1 : n = "DataType"
    · subst h1
      have h := h "DataType" (by simp)
      rw [if_pos rfl, if_pos rfl]
      unfold SV.uint
      rw [h]
    · by_cases h2 : n = "Data"
      · subst h2
        have h' := h "DataType" (by simp)
        have h := h "Data" (by simp)
        unfold SV.uint byteSlice
        rw [h, h']
      · rw [if_neg h1, if_neg h1, if_neg (fun q => h2 q.1), if_neg (fun q => h2 q.1)]
  split
  · next q =>
    rw [if_pos (Or.inr (Or.inr (Or.inr (Or.inr (Or.inr (Or.inr (Or.inl q)))))))] at h
    have h := h n (by simp); rw [q.2] at h; unfold byteSlice; rw [h]
  split
  · next q =>
    rw [if_pos (Or.inr (Or.inr (Or.inr (Or.inr (Or.inr (Or.inr (Or.inr q)))))))] at h
    have h := h n (by simp); rw [q.2] at h; unfold byteSlice; rw [h]
  · rfl

mutual
/-- Does `Stringify` look at no other fields of the box than these while it shows a value of the type? -/
def showV (gn : String) (K : List String) : Ty → Bool
  | .ptr t => showV gn K t
  | .struct c fs => showFields gn K c fs
  | .arr _ t => showV gn K t
  | .slice t => showV gn K t
  | _ => true
/-- the same for the fields of a nested struct -/
def showFields (gn : String) (K : List String) (c : Option Cfo) : Fields → Bool
  | .nil => true
  | .cons f t fs =>
    (c.isSome || (strDeps gn f.name).all K.contains) && (!(f.name == "Version" || f.name == "Flags") || K.contains "FullBox") &&
    showV gn K t && showFields gn K c fs
end

theorem strLoop_congr {f g : Val → Text → Option Text} (h : ∀ v b, f v b = g v b) (sep : Text) (dash : Nat → Bool) (i : Nat)
    (l : List Val) (buf : Text) : strLoop f sep dash i l buf = strLoop g sep dash i l buf := by
  rw [show f = g from funext fun v => funext fun b => h v b]

mutual
theorem ssameV : ∀ (t : Ty) (e : SEnv) (K rk : List String) (r1 r2 : SV) (field : String) (fi : Field) (depth : Nat) (x : Val) (buf : Text),
    e.bd.cfo.Local → okV e.bd.cfo rk t = true → showV e.bd.goName K t = true → RootAgree rk r1 r2 → RootAgree K r1 r2 →
    strV { e with root := r1 } field t fi depth x buf = strV { e with root := r2 } field t fi depth x buf
  | .ptr t, e, K, rk, r1, r2, field, fi, depth, x, buf, hl, hok, hs, hr, hk => by
    simp only [okV] at hok
    simp only [showV] at hs
    simp only [strV]
    split
    · exact ssameV t e K rk r1 r2 field fi depth _ buf hl hok hs hr hk
    · rfl
  | .struct c fs, e, K, rk, r1, r2, field, fi, depth, x, buf, hl, hok, hs, hr, hk => by
    simp only [okV] at hok
    simp only [showV] at hs
    simp only [strV]
    split
    · rw [ssameFields fs e K rk [] r1 r2 field c depth _ _ _ hl hok hs hr hk,
        ssameFields fs e K rk [] r1 r2 field c (depth + 1) _ _ _ hl hok hs hr hk]
      rfl
    · rfl
  | .arr n t, e, K, rk, r1, r2, field, fi, depth, x, buf, hl, hok, hs, hr, hk => by
    simp only [okV] at hok
    simp only [showV] at hs
    simp only [strV]
    rw [show (fun v b => strV { e with root := r1 } field t fi (depth + 1) v b) =
      fun v b => strV { e with root := r2 } field t fi (depth + 1) v b from
      funext fun x => funext fun b => ssameV t e K rk r1 r2 field fi (depth + 1) x b hl hok hs hr hk]
  | .slice t, e, K, rk, r1, r2, field, fi, depth, x, buf, hl, hok, hs, hr, hk => by
    simp only [okV] at hok
    simp only [showV] at hs
    simp only [strV]
    rw [show (fun v b => strV { e with root := r1 } field t fi (depth + 1) v b) =
      fun v b => strV { e with root := r2 } field t fi (depth + 1) v b from
      funext fun x => funext fun b => ssameV t e K rk r1 r2 field fi (depth + 1) x b hl hok hs hr hk]
  | .int w, _, _, _, _, _, _, _, _, _, _, _, _, _, _, _ => by simp only [strV]
  | .uint w, _, _, _, _, _, _, _, _, _, _, _, _, _, _, _ => by simp only [strV]
  | .bool, _, _, _, _, _, _, _, _, _, _, _, _, _, _, _ => by simp only [strV]
  | .str, _, _, _, _, _, _, _, _, _, _, _, _, _, _, _ => by simp only [strV]

theorem ssameFields : ∀ (fs : Fields) (e : SEnv) (K rk kn : List String) (r1 r2 : SV) (field : String) (c : Option Cfo) (depth : Nat)
    (sv rest : SV) (buf : Text), e.bd.cfo.Local → okFields e.bd.cfo rk false .none c kn fs = true →
    showFields e.bd.goName K c fs = true → RootAgree rk r1 r2 → RootAgree K r1 r2 →
    strFields { e with root := r1 } field c fs depth sv rest buf = strFields { e with root := r2 } field c fs depth sv rest buf
  | .nil, e, K, rk, kn, r1, r2, field, c, depth, sv, rest, buf, hl, hok, hs, hr, hk => by simp only [strFields]
  | .cons f t fs, e, K, rk, kn, r1, r2, field, c, depth, sv, rest, buf, hl, hok, hs, hr, hk => by
    obtain ⟨hres, htg, hokt, hokf⟩ := nested_decided (ctx := e.ctx) (sv := sv) hl hok hr
    simp only [showFields, Bool.and_eq_true] at hs
    obtain ⟨⟨⟨h1, h2⟩, h3⟩, h4⟩ := hs
    have hcust : (if c.isSome = true then strNested e.beyond e.bd.goName field f.name (if c.isSome = true then sv else r1)
        else strRoot e.beyond e.bd.goName f.name (if c.isSome = true then sv else r1)) =
        (if c.isSome = true then strNested e.beyond e.bd.goName field f.name (if c.isSome = true then sv else r2)
        else strRoot e.beyond e.bd.goName f.name (if c.isSome = true then sv else r2)) := by
      cases c with
      | some c' => rfl
      | none =>
        simp only [Option.isSome_none, Bool.false_eq_true, if_false]
        refine strRoot_congr _ fun m hm => hk m ?_
        simp only [Option.isSome_none, Bool.false_or] at h1
        simpa using List.all_eq_true.mp h1 m hm
    have hver : (if f.name = "Version" then r1.version else 0) = (if f.name = "Version" then r2.version else 0) := by
      split
      · next hn =>
        rw [hn] at h2
        exact SV.version_congr (hk _ (by simpa using h2))
      · rfl
    have hfl : (if f.name = "Flags" then r1.flags else 0) = (if f.name = "Flags" then r2.flags else 0) := by
      split
      · next hn =>
        rw [hn] at h2
        exact SV.flags_congr (hk _ (by simpa using h2))
      · rfl
    simp only [strFields]
    rw [hres]
    cases hfi : resolve (c.getD e.bd.cfo) e.ctx (if c.isSome = true then sv else r2) f with
    | none => rfl
    | some fi =>
      cases rest with
      | nil => rfl
      | cons p rest =>
        obtain ⟨m, v⟩ := p
        simp only
        rw [isTarget_resolved hfi, isTarget_resolved hfi, htg, hcust,
          show strFields { e with root := r1 } field c fs depth sv rest = strFields { e with root := r2 } field c fs depth sv rest from
            funext fun b => ssameFields fs e K rk (f.name :: kn) r1 r2 field c depth sv rest b hl hokf h4 hr hk,
          show strV { e with root := r1 } f.name t fi depth v = strV { e with root := r2 } f.name t fi depth v from
            funext fun b => ssameV t e K rk r1 r2 f.name fi depth v b hl hokt h3 hr hk]
        by_cases hv : f.name = "Version"
        · rw [if_pos hv, if_pos hv] at hver
          simp only [if_pos hv, hver]
          rfl
        · by_cases hf : f.name = "Flags"
          · rw [if_pos hf, if_pos hf] at hfl
            simp only [if_neg hv, if_pos hf, hfl]
            rfl
          · simp only [if_neg hv, if_neg hf]
            rfl
end


/-- the fields of the box that are the same after any two decodings -/
def knownEnd (bd : BoxDef) : List String := reuseK bd ++ (bd.fields.toList.filter (·.1.uncond)).map (·.1.name)

theorem twin_known {bd : BoxDef} {ctx : Ctx} {a b : SV} (ht : Twin bd ctx a b) : RootAgree (knownEnd bd) a b := by
  intro n hn
  unfold knownEnd at hn
  rw [List.mem_append] at hn
  rcases hn with h | h
  · exact ht.known n h
  · obtain ⟨p, hp, rfl⟩ := List.mem_map.1 h
    obtain ⟨h1, h2⟩ := List.mem_filter.1 hp
    exact twin_uncond (t := p.2) ht h1 h2

/-- `Stringify` looks at nothing else, for each box type -/
theorem allDefs_show : ∀ bd ∈ Cat.allDefs, ∀ f t, (f, t) ∈ bd.fields.toList →
    showV bd.goName (knownEnd bd) t = true ∧ (∀ m ∈ strDeps bd.goName f.name, m = f.name ∨ m ∈ knownEnd bd) ∧
    (f.name = "Version" ∨ f.name = "Flags" → "FullBox" ∈ knownEnd bd) := by
  have h : Cat.allDefs.all (fun bd => bd.fields.toList.all fun p =>
      showV bd.goName (knownEnd bd) p.2 && (strDeps bd.goName p.1.name).all (fun m => m == p.1.name || (knownEnd bd).contains m) &&
      (!(p.1.name == "Version" || p.1.name == "Flags") || (knownEnd bd).contains "FullBox")) = true := by decide +kernel
  intro bd hbd f t hm
  have := List.all_eq_true.mp (List.all_eq_true.mp h bd hbd) (f, t) hm
  rw [Bool.and_eq_true, Bool.and_eq_true, List.all_eq_true, Bool.or_eq_true] at this
  obtain ⟨⟨h1, h2⟩, h3⟩ := this
  refine ⟨h1, fun m hm => by have := h2 m hm; simpa using this, fun hn => ?_⟩
  rcases h3 with h | h
  · rcases hn with hn | hn <;> rw [hn] at h <;> simp at h
  · simpa using h

theorem stop_same {bd : BoxDef} (hbd : bd ∈ Cat.allDefs) {ctx : Ctx} {a b : SV} (ht : Twin bd ctx a b) (beyond : Nat → Bool)
    (indent : Text) (sa sb : SV) : ∀ (fs : Fields) (ra rb : SV) (buf : Text), (∀ f t, (f, t) ∈ fs.toList → (f, t) ∈ bd.fields.toList) →
    fs.names.Nodup → SV.keys ra = fs.names → SV.keys rb = fs.names → (∀ n ∈ fs.names, ra.get n = a.get n ∧ rb.get n = b.get n) →
    strFields ⟨beyond, bd, a, ctx, indent⟩ "" none fs 0 sa ra buf = strFields ⟨beyond, bd, b, ctx, indent⟩ "" none fs 0 sb rb buf
  | .nil, ra, rb, buf, _, _, _, _, _ => by simp only [strFields]
  | .cons f t fs, [], rb, buf, _, _, ha, _, _ => by simp [SV.keys, Fields.names] at ha
  | .cons f t fs, _ :: _, [], buf, _, _, _, hb, _ => by simp [SV.keys, Fields.names] at hb
  | .cons f t fs, (n, v) :: ra, (n', v') :: rb, buf, hsub, hnd, ha, hb, hg => by
    have hmem := hsub f t (by simp [Fields.toList])
    rw [SV.keys_cons, Fields.names, List.cons.injEq] at ha hb
    obtain ⟨rfl, ha⟩ := ha
    obtain ⟨rfl, hb⟩ := hb
    simp only [Fields.names, List.nodup_cons] at hnd
    have hva : a.get f.name = some v := by rw [← (hg f.name (by simp [Fields.names])).1]; simp [SV.get]
    have hvb : b.get f.name = some v' := by rw [← (hg f.name (by simp [Fields.names])).2]; simp [SV.get]
    have ih : ∀ buf, strFields ⟨beyond, bd, a, ctx, indent⟩ "" none fs 0 sa ra buf =
        strFields ⟨beyond, bd, b, ctx, indent⟩ "" none fs 0 sb rb buf := fun buf =>
      stop_same hbd ht beyond indent sa sb fs ra rb buf (fun g u h => hsub g u (by simp [Fields.toList, h])) hnd.2 ha hb fun m hm => by
        obtain ⟨h1, h2⟩ := hg m (by simp [Fields.names, hm])
        have hne : f.name ≠ m := fun e => hnd.1 (e ▸ hm)
        simp only [SV.get] at h1 h2 ⊢
        rw [if_neg hne] at h1 h2
        exact ⟨h1, h2⟩
    obtain ⟨⟨h1, h2, h3⟩, K, hK, hok, -, -⟩ := twin_decided hbd ht bd.fields [] (reuseK bd) (fun _ _ h => h) (fun _ h => by simp at h)
      (allDefs_reusable bd hbd) ht.known f t hmem
    obtain ⟨hshow, hdeps, hvf⟩ := allDefs_show bd hbd f t hmem
    have hend := twin_known ht
    simp only [strFields, Option.getD_none, Option.isSome_none, Bool.false_eq_true, if_false]
    cases hra : resolve bd.cfo ctx a f with
    | none =>
      rw [hra] at h3
      cases hrb : resolve bd.cfo ctx b f with
      | none => rfl
      | some fi => rw [hrb] at h3; cases h3
    | some fi =>
      cases hrb : resolve bd.cfo ctx b f with
      | none => rw [hra, hrb] at h3; cases h3
      | some fi' =>
        simp only
        have e1 : isTarget bd.cfo ctx a a fi = tgt bd.cfo ctx a f := isTarget_resolved hra
        have e2 : isTarget bd.cfo ctx b b fi' = tgt bd.cfo ctx b f := isTarget_resolved hrb
        rw [e1, e2, ← h1]
        simp only [ih]
        cases htg : tgt bd.cfo ctx a f with
        | false => simp
        | true =>
          have hfi := h2 htg
          rw [hra, hrb] at hfi
          cases hfi
          have hget : a.get f.name = b.get f.name := by
            rcases ht.past f t hmem with h | h
            · exact h
            · rw [htg] at h; cases h.1
          have hvv : v = v' := by
            rw [hva, hvb] at hget
            exact Option.some.inj hget
          subst hvv
          rw [strRoot_congr beyond (gn := bd.goName) (n := f.name) (a := a) (b := b) fun m hm => by
              rcases hdeps m hm with rfl | h
              · exact hget
              · exact hend m h]
          rw [show strV ⟨beyond, bd, a, ctx, indent⟩ f.name t fi 0 v = strV ⟨beyond, bd, b, ctx, indent⟩ f.name t fi 0 v from
            funext fun buf => ssameV t ⟨beyond, bd, a, ctx, indent⟩ (knownEnd bd) K a b f.name fi 0 v buf
              (allDefs_local bd hbd).1 hok hshow hK hend]
          by_cases hv : f.name = "Version"
          · simp only [if_pos hv, SV.version_congr (hend _ (hvf (Or.inl hv)))]
            rfl
          · by_cases hf : f.name = "Flags"
            · simp only [if_neg hv, if_pos hf, SV.flags_congr (hend _ (hvf (Or.inr hf)))]
              rfl
            · simp only [if_neg hv, if_neg hf]
              rfl

/-- `Stringify` cannot tell the twins apart. -/
theorem stringify_twin {bd : BoxDef} (hbd : bd ∈ Cat.allDefs) {ctx : Ctx} {a b : SV} (ht : Twin bd ctx a b)
    (ha : SV.keys a = bd.fields.names) (beyond : Nat → Bool) (indent : Text) :
    stringify beyond bd a indent ctx = stringify beyond bd b indent ctx :=
  stop_same hbd ht beyond indent a b bd.fields a b [] (fun _ _ h => h) (Fields.nodup_names _ (allDefs_nodup bd hbd)) ha
    (ht.keys ▸ ha) fun _ _ => ⟨rfl, rfl⟩

end Mp4.Str
