import Verif.Lemmas.Lookup
import Verif.Lemmas.SoundUnmarshal

/-! # What a decoded `ftyp` says about the bytes -/

namespace Mp4

open Mp4.Spec

theorem bd_ftyp : ∀ bd ∈ Cat.allDefs, bd.goName = "Ftyp" → bd = Cat.bdFtyp := by
  unfold Cat.allDefs
  simp only [List.forall_mem_cons]
  repeat' apply And.intro
  all_goals first
    | (intro _; rfl)
    | (intro _; trivial)
    | (intro h; exact absurd h (by decide))
    | (intro x hx; exact absurd hx (by simp))

/-- the definition found for `ftyp` -/
theorem std_ftyp_def (ctx : Ctx) : BoxMap.std.getBoxDef tFtyp ctx = some Cat.bdFtyp := by
  obtain ⟨bd, h1, h2⟩ := lookup_single std_ftyp ctx
  rw [h1, bd_ftyp bd (std_mem h1) h2]

theorem greedyLoop_end {size8 : Nat} {f : UM Val} : ∀ {fuel : Nat} {s s' : USt} {l : List Val},
    greedyLoop size8 f fuel s = (.ok l, s') → size8 ≤ s'.rbits
  | 0, _, _, _, h => by cases h
  | fuel + 1, s, s', l, h => by
    rw [greedyLoop, M.bind_ok (M.get_run s)] at h
    split at h
    · next hc => cases h; exact hc
    · obtain ⟨v, s1, _, h⟩ := bind_ok_inv h
      obtain ⟨vs, s2, h2, h⟩ := bind_ok_inv h
      cases h
      exact greedyLoop_end h2

/-- the value of a `[4]byte` field -/
theorem typed_four {v : Val} (h : typedV (.arr 4 (.uint 8)) v = true) : ∃ a b c e, a < 256 ∧ b < 256 ∧ c < 256 ∧ e < 256 ∧
    v = .arr [.uint a, .uint b, .uint c, .uint e] := by
  unfold typedV at h
  split at h
  · next l =>
    simp only [Bool.and_eq_true, beq_iff_eq, List.all_eq_true] at h
    obtain ⟨hl, ha⟩ := h
    have hu : ∀ x ∈ l, ∃ n, n < 256 ∧ x = .uint n := by
      intro x hx
      have := ha x hx
      unfold typedV at this
      split at this
      · next n => exact ⟨n, by simpa using this, rfl⟩
      · cases this
    match l, hl, hu with
    | [w, x, y, z], _, hu =>
      obtain ⟨a, ha', rfl⟩ := hu w (by simp)
      obtain ⟨b, hb, rfl⟩ := hu x (by simp)
      obtain ⟨c, hc, rfl⟩ := hu y (by simp)
      obtain ⟨e, he, rfl⟩ := hu z (by simp)
      exact ⟨a, b, c, e, ha', hb, hc, he, rfl⟩
  · cases h

theorem typedFields_cons {f : Field} {t : Ty} {fs : Fields} {sv : SV} (h : typedFields (.cons f t fs) sv = true) :
    ∃ v rest, sv = (f.name, v) :: rest ∧ typedV t v = true ∧ typedFields fs rest = true := by
  unfold typedFields at h
  split at h
  · cases h
  · simp only [Bool.and_eq_true, beq_iff_eq] at h
    obtain ⟨⟨rfl, h1⟩, h2⟩ := h
    exact ⟨_, _, rfl, h1, h2⟩

theorem typedFields_nil {sv : SV} (h : typedFields .nil sv = true) : sv = [] := by
  unfold typedFields at h
  simpa using h

/-- an element of the list of brands -/
theorem typed_brand {v : Val} (h : typedV Cat.tyCompatibleBrandElem v = true) : ∃ a b c e, a < 256 ∧ b < 256 ∧ c < 256 ∧
    e < 256 ∧ v = .struct [("CompatibleBrand", .arr [.uint a, .uint b, .uint c, .uint e])] := by
  unfold Cat.tyCompatibleBrandElem typedV at h
  split at h
  · obtain ⟨v, rest, rfl, h1, h2⟩ := typedFields_cons h
    obtain rfl := typedFields_nil h2
    obtain ⟨a, b, c, e, ha, hb, hc, he, rfl⟩ := typed_four h1
    exact ⟨a, b, c, e, ha, hb, hc, he, rfl⟩
  · cases h

theorem typed_ftyp {sv : SV} (h : typedFields Cat.fsFtyp sv = true) : ∃ a b c e m l,
    (∀ v ∈ l, typedV Cat.tyCompatibleBrandElem v = true) ∧
    sv = [("MajorBrand", .arr [.uint a, .uint b, .uint c, .uint e]), ("MinorVersion", .uint m),
      ("CompatibleBrands", .slice l)] := by
  obtain ⟨v1, r1, rfl, h1, h⟩ := typedFields_cons h
  obtain ⟨v2, r2, rfl, h2, h⟩ := typedFields_cons h
  obtain ⟨v3, r3, rfl, h3, h⟩ := typedFields_cons h
  obtain rfl := typedFields_nil h
  obtain ⟨a, b, c, e, -, -, -, -, rfl⟩ := typed_four h1
  unfold typedV at h2 h3
  split at h2
  · split at h3
    · refine ⟨a, b, c, e, _, _, ?_, rfl⟩
      simpa using h3
    · cases h3
  · cases h2

/-- a field of a box without hooks -/
theorem unmarshalFields_plain {e : UEnv} {c : Option Cfo} {f : Field} {t : Ty} {fs : Fields} {cur sv : SV} {s s' : USt}
    (hh : e.hook = .none) (hres : resolve (c.getD e.cfo) e.ctx cur f = some f)
    (htg : isTarget (c.getD e.cfo) e.ctx cur cur f = true)
    (h : unmarshalFields e true c (.cons f t fs) cur s = (.ok sv, s')) :
    ∃ x v s1, unmarshalV { e with root := cur } t f x s = (.ok v, s1) ∧
      unmarshalFields e true c fs (cur.set f.name v) s1 = (.ok sv, s') := by
  rw [unmarshalFields_top e c f t fs cur s hres, if_neg (by simp [htg])] at h
  unfold runHook at h
  rw [M.bind_ok (M.get_run s), hh] at h
  have h0 : (liftR (onRead .none e.d f.name (left e.size8 s.rbits) cur) : UM _) s = (.ok (0, false, cur), s) := rfl
  rw [M.bind_ok h0] at h
  have h1 : (addR 0 : UM _) s = (.ok (), s) := rfl
  rw [M.bind_ok h1] at h
  simp only [afterHook, Bool.false_eq_true, if_false] at h
  cases hx : cur.get f.name with
  | none => rw [hx] at h; cases h
  | some x =>
    rw [hx] at h
    obtain ⟨v, s1, e1, e2⟩ := bind_ok_inv h
    split at e2
    · cases e2
    · exact ⟨x, v, s1, e1, e2⟩

theorem ftyp_full {d : Bytes} {ctx : Ctx} {ps : Nat} {dst : SV} {pos : Nat} {n : Nat} {sv : SV} {pos' : Nat}
    (h : unmarshalBox Cat.bdFtyp d ctx ps dst pos = (.ok (n, sv), pos')) : n = ps * 8 % U64 / 8 := by
  unfold unmarshalBox at h
  rw [if_neg (by decide)] at h
  unfold unmarshalBody at h
  generalize dst.setVersion anyVersion = dst at h
  split at h
  · next sv' st hf =>
    split at h
    · cases h
    · split at h
      · cases h
      · next h8 hle =>
        simp only [Prod.mk.injEq, Out.ok.injEq] at h
        obtain ⟨⟨rfl, -⟩, -⟩ := h
        obtain ⟨x, v, s1, -, hf⟩ := unmarshalFields_plain (by rfl) (by rfl) (by simp [isTarget, anyVersion]) hf
        obtain ⟨x, v, s2, -, hf⟩ := unmarshalFields_plain (by rfl) (by rfl) (by simp [isTarget, anyVersion]) hf
        obtain ⟨x, v, s3, hv, hf⟩ := unmarshalFields_plain (by rfl) (by rfl) (by simp [isTarget, anyVersion]) hf
        have e3 : s3 = st := by cases hf; rfl
        subst e3
        have hge : ps * 8 % U64 ≤ s3.rbits := by
          unfold unmarshalV unmarshalSlice at hv
          rw [M.bind_ok (M.get_run s2)] at hv
          split at hv
          · cases hv
          · rw [if_neg (fun hc => absurd hc.2.1 (by decide))] at hv
            obtain ⟨l, s4, h4, hv⟩ := bind_ok_inv hv
            cases hv
            exact greedyLoop_end h4
        omega
  all_goals cases h

/-- the bytes of four numbers -/
theorem bytesBits_four (a b c e : Nat) : natBits 8 a ++ (natBits 8 b ++ (natBits 8 c ++ natBits 8 e)) =
    bytesBits (BoxType.bytes ⟨BitVec.ofNat 8 a, BitVec.ofNat 8 b, BitVec.ofNat 8 c, BitVec.ofNat 8 e⟩) := by
  simp only [BoxType.bytes, bytesBits_cons, bytesBits_nil, byteBits_ofNat, List.append_nil]

/-- an element of the list of brands, as a brand -/
def brandOf (v : Val) : BoxType :=
  match v with
  | .struct e =>
    match SV.byteArr e "CompatibleBrand" with
    | [a, b, c, x] => ⟨BitVec.ofNat 8 a, BitVec.ofNat 8 b, BitVec.ofNat 8 c, BitVec.ofNat 8 x⟩
    | _ => BoxType.any
  | _ => BoxType.any

theorem layout_brand {e : Env} {fi : Field} {v : Val} (h : typedV Cat.tyCompatibleBrandElem v = true) :
    layoutV e Cat.tyCompatibleBrandElem fi v = bytesBits (brandOf v).bytes := by
  obtain ⟨a, b, c, x, -, -, -, -, rfl⟩ := typed_brand h
  have hb : brandOf (.struct [("CompatibleBrand", .arr [.uint a, .uint b, .uint c, .uint x])]) =
      ⟨BitVec.ofNat 8 a, BitVec.ofNat 8 b, BitVec.ofNat 8 c, BitVec.ofNat 8 x⟩ := rfl
  rw [hb, ← bytesBits_four]
  simp [Cat.tyCompatibleBrandElem, Cat.fsCompatibleBrandElem, Fields.ofList, layoutV, layoutFields, instField, present,
    SV.get, anyVersion]

theorem layout_brands {e : Env} {fi : Field} : ∀ {l : List Val}, (∀ v ∈ l, typedV Cat.tyCompatibleBrandElem v = true) →
    l.flatMap (fun v => layoutV e Cat.tyCompatibleBrandElem fi v) = bytesBits ((l.map brandOf).flatMap BoxType.bytes)
  | [], _ => rfl
  | v :: l, h => by
    rw [List.flatMap_cons, List.map_cons, List.flatMap_cons, bytesBits_append, layout_brand (h v (by simp)),
      layout_brands (fun v hv => h v (by simp [hv]))]

/-- **The bytes of a decoded `ftyp`.** -/
theorem ftyp_bytes {d : Bytes} (hd : d.length ≤ maxAlloc) {ctx : Ctx} {ps : Nat} {dst : SV}
    (hty : typedFields Cat.fsFtyp dst = true) {pos : Nat} (hpos : pos ≤ d.length) {n : Nat} {sv : SV} {pos' : Nat}
    (h : unmarshalBox Cat.bdFtyp d ctx ps dst pos = (.ok (n, sv), pos')) :
    8 ≤ n ∧ (d.drop (pos + 8)).take (n - 8) = (ftypBrands sv).flatMap BoxType.bytes := by
  have hm : Cat.bdFtyp ∈ Cat.allDefs := std_mem (std_ftyp_def {})
  have hp := unmarshalBox_post hm hd hpos ctx ps hty
  rw [h] at hp
  have htv : typedFields Cat.fsFtyp sv = true := hp.2.2.2.1
  rcases unmarshalBox_exact_noStr hm (by decide) (by decide) hd hty hpos h with ⟨hb, -⟩ | ⟨-, hlen, hbits⟩
  · exact absurd (congrArg BoxDef.goName hb) (by decide)
  · have hbits' : layout Cat.bdFtyp ctx sv = bytesBits ((d.drop pos).take n) := by
      rw [← hbits, bytesBits_bitsBytes _ (by omega)]
    obtain ⟨a, b, c, e, m, l, hl, rfl⟩ := typed_ftyp htv
    have hlay : layout Cat.bdFtyp ctx [("MajorBrand", .arr [.uint a, .uint b, .uint c, .uint e]),
        ("MinorVersion", .uint m), ("CompatibleBrands", .slice l)] =
        (natBits 8 a ++ (natBits 8 b ++ (natBits 8 c ++ natBits 8 e)) ++ natBits 32 m) ++
          bytesBits ((l.map brandOf).flatMap BoxType.bytes) := by
      rw [← layout_brands (e := env Cat.bdFtyp ctx [("MajorBrand", .arr [.uint a, .uint b, .uint c, .uint e]),
        ("MinorVersion", .uint m), ("CompatibleBrands", .slice l)]) (fi := { name := "CompatibleBrands", size := 32 }) hl]
      simp [layout, Cat.bdFtyp, Cat.fsFtyp, Fields.ofList, layoutV, layoutFields, instField, present, SV.get, before,
        silent, env, counted, anyVersion]
    have hbr : ftypBrands [("MajorBrand", .arr [.uint a, .uint b, .uint c, .uint e]),
        ("MinorVersion", .uint m), ("CompatibleBrands", .slice l)] = l.map brandOf := rfl
    rw [hbr]
    rw [hlay] at hbits' hlen
    have h64 : (natBits 8 a ++ (natBits 8 b ++ (natBits 8 c ++ natBits 8 e)) ++ natBits 32 m).length = 64 := by
      simp
    have hn : 8 ≤ n := by
      rw [List.length_append, h64] at hlen
      omega
    refine ⟨hn, ?_⟩
    apply bytesBits_inj
    have e1 : (d.drop pos).take n = ((d.drop pos).take n).take 8 ++ (d.drop (pos + 8)).take (n - 8) := by
      conv => lhs; rw [← List.take_append_drop 8 ((d.drop pos).take n)]
      rw [List.drop_take, List.drop_drop]
    have hlen8 : (((d.drop pos).take n).take 8).length = 8 := by
      have hc := congrArg List.length hbits'
      rw [List.length_append, h64, bytesBits_length, bytesBits_length] at hc
      rw [List.length_take]
      omega
    rw [e1, bytesBits_append] at hbits'
    have := List.append_inj hbits' (by rw [h64, bytesBits_length, hlen8])
    exact this.2.symm

theorem unmarshalAny_ok_inv {d : Bytes} {t : BoxType} {ctx : Ctx} {ps pos n p : Nat} {box : BoxVal} {bd : BoxDef}
    (hl : BoxMap.std.getBoxDef t ctx = some bd) (h : BoxMap.std.unmarshalAny d t ps ctx pos = (.ok (box, n), p)) :
    unmarshalBox bd d ctx ps bd.fields.zero pos = (.ok (n, box.sv), p) := by
  unfold BoxMap.unmarshalAny BoxMap.new at h
  rw [hl] at h
  simp only at h
  cases hr : unmarshalBox bd d ctx ps bd.fields.zero pos with
  | mk o p' =>
    rw [hr] at h
    match o, h with
    | .ok (n', sv), h => cases h; rfl

end Mp4
