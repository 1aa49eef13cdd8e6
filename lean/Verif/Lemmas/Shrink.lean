import Verif.Lemmas.Golden
import Verif.Lemmas.Catalog

/-!
# Values that fit a payload fit a shorter one, as long as it has room for them
-/

namespace Mp4

open Spec

theorem fitsList_shrink {ok : Val → Nat → Bool} {bits : Val → List Bool} {k : Nat}
    (h : ∀ v left, ok v (left + k) = true → (bits v).length ≤ left → ok v left = true) :
    ∀ (l : List Val) (left : Nat), fitsList ok bits l (left + k) = true → (l.flatMap bits).length ≤ left → fitsList ok bits l left = true
  | [], _, _, _ => rfl
  | v :: vs, left, hf, hl => by
    simp only [fitsList, Bool.and_eq_true, decide_eq_true_eq] at hf ⊢
    rw [List.flatMap_cons, List.length_append] at hl
    refine ⟨⟨h v left hf.1.1 (by omega), by omega⟩, fitsList_shrink h vs _ ?_ (by omega)⟩
    rw [show left - (bits v).length + k = left + k - (bits v).length by omega]
    exact hf.2

/-- the fields behind the flag of `avcC`, if it is set, have 32 bits at least -/
def Tail32 (e : Env) (c : Option Cfo) (sv : SV) : Fields → Prop
  | .nil => True
  | .cons f _ fs => (f.name = "HighProfileFieldsEnabled" → ∀ left, fitsFields e true c fs sv left = true → sv.get f.name = some (.bool true) →
      32 ≤ (layoutFields e true c fs sv).length) ∧ Tail32 e c sv fs

mutual
theorem fitsV_shrink (e : Env) {k : Nat} (hk : k % 8 = 0) : ∀ (t : Ty) (fi : Field) (v : Val) (left : Nat), fitsV e t fi v (left + k) = true →
    (layoutV e t fi v).length ≤ left → fitsV e t fi v left = true
  | .ptr t, fi, v, left, hf, hl => by
    cases v with
    | ptr o =>
      cases o with
      | none => simp [fitsV] at hf
      | some x =>
        rw [fitsV] at hf ⊢
        rw [layoutV] at hl
        exact fitsV_shrink e hk t fi x left hf hl
    | _ => simp [fitsV] at hf
  | .struct c fs, fi, v, left, hf, hl => by
    cases v with
    | struct sv =>
      rw [fitsV] at hf ⊢
      rw [layoutV] at hl
      simp only [Bool.and_eq_true] at hf ⊢
      refine ⟨hf.1, ?_⟩
      have h2 := hf.2
      by_cases hc : fi.size ≠ 0 ∧ fi.size % 8 = 0
      · rw [if_pos hc] at h2 ⊢
        simp only [Bool.and_eq_true, beq_iff_eq, decide_eq_true_eq] at h2 ⊢
        exact ⟨⟨⟨by omega, h2.1.1.2⟩, by omega⟩, h2.2⟩
      · rw [if_neg hc] at h2 ⊢
        exact fitsFields_shrink e hk false c fs sv left (fun h => by cases h) h2 hl
    | _ => simp [fitsV] at hf
  | .arr n t, fi, v, left, hf, hl => by
    cases v with
    | arr l =>
      rw [fitsV] at hf ⊢
      rw [layoutV] at hl
      simp only [Bool.and_eq_true] at hf ⊢
      exact ⟨hf.1, fitsList_shrink (fun v left h1 h2 => fitsV_shrink e hk t fi v left h1 h2) l left hf.2 hl⟩
    | _ => simp [fitsV] at hf
  | .slice t, fi, v, left, hf, hl => by
    cases v with
    | slice l =>
      rw [fitsV] at hf ⊢
      rw [layoutV] at hl
      simp only [Bool.and_eq_true] at hf ⊢
      have h2 := hf.2
      by_cases hc : fi.length = lengthUnlimited
      · rw [if_pos hc] at h2 ⊢
        unfold counted at hl
        rw [if_pos hc] at hl
        simp only [Bool.and_eq_true, beq_iff_eq] at h2 ⊢
        have h3 := h2.1.1
        have h0 : k = 0 := by omega
        subst h0
        exact ⟨hf.1, h2⟩
      · rw [if_neg hc] at h2 ⊢
        unfold counted at hl
        rw [if_neg hc, List.take_of_length_le (by simp only [beq_iff_eq] at h2; omega)] at hl
        exact ⟨fitsList_shrink (fun v left h1 h2 => fitsV_shrink e hk t fi v left h1 h2) l left hf.1 hl, h2⟩
    | _ => simp [fitsV] at hf
  | .uint w, fi, v, left, hf, hl => by
    cases v with
    | uint n =>
      rw [fitsV] at hf ⊢
      rw [layoutV] at hl
      split at hf
      · next hv =>
        rw [if_pos hv] at hl ⊢
        simp only [decide_eq_true_eq] at hf ⊢
        have : (uvarint n).length = 32 := by simp [uvarint, natBits_length]
        omega
      · next hv =>
        rw [if_neg hv] at hl ⊢
        rw [natBits_length] at hl
        simp only [decide_eq_true_eq] at hf ⊢
        omega
    | _ => simp [fitsV] at hf
  | .int w, fi, v, left, hf, hl => by
    cases v with
    | int i =>
      rw [fitsV] at hf ⊢
      rw [layoutV, natBits_length] at hl
      simp only [Bool.and_eq_true, decide_eq_true_eq] at hf ⊢
      exact ⟨hf.1, hf.2.1, hl, hf.2.2.2⟩
    | _ => simp [fitsV] at hf
  | .bool, fi, v, left, hf, hl => by
    cases v with
    | bool b =>
      rw [fitsV] at hf ⊢
      rw [layoutV, List.length_replicate] at hl
      simp only [decide_eq_true_eq] at hf ⊢
      omega
    | _ => simp [fitsV] at hf
  | .str, fi, v, left, hf, hl => by
    cases v with
    | str b =>
      rw [fitsV] at hf ⊢
      rw [layoutV] at hl
      simp only [Bool.and_eq_true] at hf ⊢
      refine ⟨hf.1, ?_⟩
      have h2 := hf.2
      split at h2
      · next hv =>
        rw [if_pos hv] at hl ⊢
        rw [bytesBits_length] at hl
        simp only [beq_iff_eq] at h2 ⊢
        omega
      · next hv =>
        rw [if_neg hv] at hl ⊢
        have : (cstring b).length = 8 * (b.length + 1) := by simp [cstring, bytesBits_length]; omega
        simp only [decide_eq_true_eq]
        omega
    | _ => simp [fitsV] at hf

theorem fitsFields_shrink (e : Env) {k : Nat} (hk : k % 8 = 0) (top : Bool) (c : Option Cfo) : ∀ (fs : Fields) (sv : SV) (left : Nat),
    (top = true → e.hook = .avcc → Tail32 e c sv fs) → fitsFields e top c fs sv (left + k) = true →
    (layoutFields e top c fs sv).length ≤ left → fitsFields e top c fs sv left = true
  | .nil, _, _, _, _, _ => by rw [fitsFields]
  | .cons f t fs, sv, left, ht, hf, hl => by
    have ht' : top = true → e.hook = .avcc → Tail32 e c sv fs := fun h1 h2 => (ht h1 h2).2
    rw [fitsFields] at hf ⊢
    rw [layoutFields] at hl
    simp only [Bool.and_eq_true] at hf hl ⊢
    refine ⟨hf.1, ?_⟩
    have h2 := hf.2
    cases hg : sv.get f.name with
    | none => rw [hg] at h2; cases h2
    | some v =>
      simp only [hg] at h2 hl ⊢
      generalize hfi : instField (c.getD e.cfo) e.ctx (if c.isSome = true then sv else e.root) f = fi at h2 hl ⊢
      by_cases hp : present (c.getD e.cfo) e.ctx e.root.version e.root.flags (if c.isSome = true then sv else e.root) fi = true
      · rw [if_pos hp] at h2 hl ⊢
        by_cases hs : top = true ∧ silent e.hook f.name sv = true
        · rw [if_pos hs] at h2 hl ⊢
          simp only [List.append_nil, List.length_append] at hl
          simp only [Bool.and_eq_true, Bool.or_eq_true] at h2 ⊢
          refine ⟨?_, fitsFields_shrink e hk top c fs sv left ht' h2.2 (by omega)⟩
          rcases h2.1 with h | h
          · exact .inl h
          · by_cases ha : e.hook = .avcc
            · refine .inr ?_
              have hn : f.name = "HighProfileFieldsEnabled" := by
                have := hs.2
                unfold silent at this
                rw [ha] at this
                simpa using this
              cases hb : highProfile (sv.uint "Profile") with
              | false => simpa [hb] using h
              | true =>
                by_cases h32 : 32 ≤ left + k
                · have hv : v = .bool true := by
                    cases v <;> simp [isBool, hb, h32] at h
                    rw [h]
                  have := (ht hs.1 ha).1 hn _ (hs.1 ▸ h2.2) (by rw [hg, hv])
                  rw [← hs.1] at this
                  rw [hv]
                  have h33 : 32 ≤ left := by omega
                  simp [isBool, h33]
                · have h33 : ¬ 32 ≤ left := by omega
                  simpa [h32, h33, hb] using h
            · exact .inl (by simpa using ha)
        · rw [if_neg hs] at h2 hl ⊢
          generalize (if top = true then before e.hook f.name sv else []) = pre at h2 hl ⊢
          simp only [List.length_append] at hl
          simp only [Bool.and_eq_true, decide_eq_true_eq] at h2 ⊢
          obtain ⟨⟨⟨⟨⟨a1, a2⟩, a3⟩, a4⟩, a5⟩, a6⟩ := h2
          have hL : left + k - pre.length = (left - pre.length) + k := by omega
          rw [hL] at a3 a6
          refine ⟨⟨⟨⟨⟨?_, by omega⟩, fitsV_shrink e hk t fi v _ a3 (by omega)⟩, by omega⟩, ?_⟩, ?_⟩
          · simp only [Bool.or_eq_true, Bool.and_eq_true, beq_iff_eq] at a1 ⊢
            rcases a1 with a1 | a1
            · exact .inl a1
            · exact .inr ⟨⟨by omega, a1.1.2⟩, a1.2⟩
          · simp only [Bool.or_eq_true, Bool.and_eq_true, beq_iff_eq] at a5 ⊢
            rcases a5 with a5 | a5
            · exact .inl a5
            · exact .inr ⟨⟨by omega, by omega⟩, a5.2⟩
          · refine fitsFields_shrink e hk top c fs sv _ ht' ?_ (by omega)
            rw [show left - pre.length - (layoutV e t fi v).length + k = left - pre.length + k - (layoutV e t fi v).length by omega]
            exact a6
      · rw [if_neg hp] at h2 hl ⊢
        simp only [List.nil_append] at hl
        simp only [Bool.and_eq_true] at h2 ⊢
        exact ⟨h2.1, fitsFields_shrink e hk top c fs sv left ht' h2.2 hl⟩
end

theorem uint_bits {e : Env} {w : Nat} {fi : Field} {v : Val} {left : Nat} (h : fitsV e (.uint w) fi v left = true) (hv : fi.varint = false) :
    (layoutV e (.uint w) fi v).length = fi.size := by
  cases v with
  | uint n => rw [layoutV, hv]; simp [natBits_length]
  | _ => simp [fitsV] at h

/-- a number that is there -/
theorem present_uint {e : Env} {c : Cfo} {f : Field} {w : Nat} {fs : Fields} {sv : SV} {left : Nat}
    (h : fitsFields e true (some c) (.cons f (.uint w) fs) sv left = true)
    (hs : silent e.hook f.name sv = false) (hp : present c e.ctx e.root.version e.root.flags sv (instField c e.ctx sv f) = true)
    (hv : (instField c e.ctx sv f).varint = false) : ∃ left', fitsFields e true (some c) fs sv left' = true ∧
      (layoutFields e true (some c) (.cons f (.uint w) fs) sv).length ≥ (instField c e.ctx sv f).size + (layoutFields e true (some c) fs sv).length := by
  rw [fitsFields] at h
  rw [layoutFields]
  simp only [Option.getD_some, Option.isSome_some, if_true, Bool.true_and, hs, hp, Bool.false_eq_true, if_false, Bool.and_eq_true] at h ⊢
  cases hg : sv.get f.name with
  | none => rw [hg] at h; cases h.2
  | some v =>
    rw [hg] at h
    simp only [Bool.and_eq_true] at h
    refine ⟨_, h.2.2, ?_⟩
    have := uint_bits h.2.1.1.1.2 hv
    simp only [List.length_append]
    omega

theorem avcc_tail {bd : BoxDef} (hbd : bd ∈ Cat.allDefs) (hh : bd.hook = .avcc) (ctx : Ctx) (sv : SV) :
    Tail32 (env bd ctx sv) (some bd.cfo) sv bd.fields := by
  have hb : bd = Cat.bdAVCDecoderConfiguration := by
    revert hh
    revert bd
    unfold Cat.allDefs
    simp only [List.forall_mem_cons]
    repeat' apply And.intro
    all_goals first
      | (intro _; rfl)
      | (intro _; trivial)
      | (intro h; exact absurd h (by decide))
      | (intro x hx; exact absurd hx (by simp))
  subst hb
  show Tail32 _ _ _ Cat.fsAVCDecoderConfiguration
  unfold Cat.fsAVCDecoderConfiguration
  simp only [Fields.ofList, Tail32, and_true]
  have hcfo : Cat.bdAVCDecoderConfiguration.cfo = cfoAVCDecoderConfiguration := rfl
  have key : ∀ f : Field, sv.get "HighProfileFieldsEnabled" = some (.bool true) → f.name ∈ avccOptNames → f.optDyn = true → f.lenDyn = false → f.sizeDyn = false →
      f.version = anyVersion → f.nVersion = anyVersion → f.optFlag = 0 → f.nOptFlag = 0 →
      present cfoAVCDecoderConfiguration ctx sv.version sv.flags sv (instField cfoAVCDecoderConfiguration ctx sv f) = true ∧
        instField cfoAVCDecoderConfiguration ctx sv f = f := by
    intro f hg hn h1 h2 h3 h4 h5 h6 h7
    have hi : instField cfoAVCDecoderConfiguration ctx sv f = f := by
      unfold instField
      cases f
      simp only at h2 h3
      subst h2 h3
      rfl
    have hb : sv.bool "HighProfileFieldsEnabled" = true := by unfold SV.bool; rw [hg]
    rw [hi]
    refine ⟨?_, rfl⟩
    simp [present, h1, h4, h5, h6, h7, cfoAVCDecoderConfiguration, hb, hn, anyVersion]
  repeat' apply And.intro
  all_goals first
    | (intro h; exact absurd h (by decide))
    | skip
  intro _ left hf hg
  rw [hcfo] at hf ⊢
  have step : ∀ (f : Field) (w : Nat) (fs : Fields) (left : Nat), f.name ∈ avccOptNames → f.optDyn = true → f.lenDyn = false → f.sizeDyn = false →
      f.version = anyVersion → f.nVersion = anyVersion → f.optFlag = 0 → f.nOptFlag = 0 → f.varint = false → f.name ≠ "HighProfileFieldsEnabled" →
      fitsFields (env Cat.bdAVCDecoderConfiguration ctx sv) true (some cfoAVCDecoderConfiguration) (.cons f (.uint w) fs) sv left = true →
      ∃ left', fitsFields (env Cat.bdAVCDecoderConfiguration ctx sv) true (some cfoAVCDecoderConfiguration) fs sv left' = true ∧
        f.size + (layoutFields (env Cat.bdAVCDecoderConfiguration ctx sv) true (some cfoAVCDecoderConfiguration) fs sv).length ≤
          (layoutFields (env Cat.bdAVCDecoderConfiguration ctx sv) true (some cfoAVCDecoderConfiguration) (.cons f (.uint w) fs) sv).length := by
    intro f w fs left hn h1 h2 h3 h4 h5 h6 h7 h8 h9 h
    obtain ⟨k1, k2⟩ := key f hg hn h1 h2 h3 h4 h5 h6 h7
    have k3 : instField cfoAVCDecoderConfiguration (env Cat.bdAVCDecoderConfiguration ctx sv).ctx sv f = f := k2
    obtain ⟨l', e1, e2⟩ := present_uint h (by simp [silent, env, Cat.bdAVCDecoderConfiguration, h9]) k1 (by rw [k3]; exact h8)
    rw [k3] at e2
    exact ⟨l', e1, e2⟩
  obtain ⟨_, g1, l1⟩ := step _ _ _ _ (by decide) rfl rfl rfl rfl rfl rfl rfl rfl (by decide) hf
  obtain ⟨_, g2, l2⟩ := step _ _ _ _ (by decide) rfl rfl rfl rfl rfl rfl rfl rfl (by decide) g1
  obtain ⟨_, g3, l3⟩ := step _ _ _ _ (by decide) rfl rfl rfl rfl rfl rfl rfl rfl (by decide) g2
  obtain ⟨_, g4, l4⟩ := step _ _ _ _ (by decide) rfl rfl rfl rfl rfl rfl rfl rfl (by decide) g3
  obtain ⟨_, g5, l5⟩ := step _ _ _ _ (by decide) rfl rfl rfl rfl rfl rfl rfl rfl (by decide) g4
  obtain ⟨_, g6, l6⟩ := step _ _ _ _ (by decide) rfl rfl rfl rfl rfl rfl rfl rfl (by decide) g5
  obtain ⟨_, g7, l7⟩ := step _ _ _ _ (by decide) rfl rfl rfl rfl rfl rfl rfl rfl (by decide) g6
  simp only at l1 l2 l3 l4 l5 l6 l7
  omega

/-- A value that fits into a payload fits into a shorter one, if its encoding does. -/
theorem fitsIn_shrink {bd : BoxDef} (hbd : bd ∈ Cat.allDefs) {ctx : Ctx} {sv : SV} {size size' : Nat} (h : fitsIn bd ctx sv size = true)
    (hs : size' ≤ size) (hl : (bitsBytes (layout bd ctx sv)).length ≤ size') : fitsIn bd ctx sv size' = true := by
  unfold fitsIn at h ⊢
  simp only [Bool.and_eq_true, beq_iff_eq, decide_eq_true_eq] at h ⊢
  obtain ⟨⟨⟨⟨⟨⟨h1, h2⟩, h3⟩, h4⟩, h5⟩, h6⟩, h7⟩ := h
  have hlen : (layout bd ctx sv).length ≤ 8 * size' := by
    have := bitsBytes_length _ h2
    omega
  refine ⟨⟨⟨⟨⟨⟨h1, h2⟩, hlen⟩, by omega⟩, ?_⟩, h6⟩, h7⟩
  refine fitsFields_shrink _ (k := 8 * size - 8 * size') (by omega) true _ _ _ _ (fun _ h => avcc_tail hbd h ctx sv) ?_ hlen
  rw [show 8 * size' + (8 * size - 8 * size') = 8 * size by omega]
  exact h5


end Mp4
