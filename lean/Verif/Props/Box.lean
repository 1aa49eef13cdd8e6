import Verif.Model.Box

/-!
# C17, C18, C38, C39: flags, brands, box types
-/

namespace Mp4.Props

/-! ## C17 -/

/-- Bit `i` of the flags of a box. -/
def flagBit (b : FullBox) (i : Nat) : Bool := b.getFlags.getLsbD i

/-- The bits of `SetFlags`. -/
private theorem getFlags_setFlags (b : FullBox) (f : W32) (i : Nat) :
    flagBit (b.setFlags f) i = (decide (i < 24) && f.getLsbD i) := by
  unfold flagBit FullBox.getFlags FullBox.setFlags
  simp only [BitVec.getLsbD_xor, BitVec.getLsbD_shiftLeft, BitVec.getLsbD_setWidth,
    BitVec.getLsbD_ushiftRight]
  by_cases h8 : i < 8
  · have : i < 16 := by omega
    have : i < 24 := by omega
    have : i < 32 := by omega
    simp [*]
  · by_cases h16 : i < 16
    · have h1 : 8 + (i - 8) = i := by omega
      have h2 : i - 8 < 8 := by omega
      have h3 : i < 32 := by omega
      have h4 : i < 24 := by omega
      have h5 : i - 8 < 32 := by omega
      simp [*]
    · by_cases h24 : i < 24
      · have h1 : 16 + (i - 16) = i := by omega
        have h2 : i - 16 < 8 := by omega
        have h3 : i < 32 := by omega
        have h5 : i - 16 < 32 := by omega
        have h6 : ¬ i - 8 < 8 := by omega
        simp [*]
      · have h2 : ¬ i - 16 < 8 := by omega
        have h6 : ¬ i - 8 < 8 := by omega
        simp [*]

private theorem flagBit_high (b : FullBox) (i : Nat) (h : 24 ≤ i) : flagBit b i = false := by
  unfold flagBit FullBox.getFlags
  simp only [BitVec.getLsbD_xor, BitVec.getLsbD_shiftLeft, BitVec.getLsbD_setWidth]
  have g0 : b.flags0.getLsbD (i - 16) = false := BitVec.getLsbD_of_ge _ _ (by omega)
  have g1 : b.flags1.getLsbD (i - 8) = false := BitVec.getLsbD_of_ge _ _ (by omega)
  have g2 : b.flags2.getLsbD i = false := BitVec.getLsbD_of_ge _ _ (by omega)
  simp [g0, g1, g2]

/-- A flag operation of the API. -/
inductive FlagOp where
  | set (f : W32)
  | add (f : W32)
  | remove (f : W32)

/-- The operation on a box. -/
def FlagOp.run : FlagOp → FullBox → FullBox
  | .set f, b => b.setFlags f
  | .add f, b => b.addFlag f
  | .remove f, b => b.removeFlag f

/-- Specification: the flags are a set of bits 0..23; effect on one bit. -/
def FlagOp.spec (i : Nat) : FlagOp → Bool → Bool
  | .set f, _ => decide (i < 24) && f.getLsbD i
  | .add f, old => old || (decide (i < 24) && f.getLsbD i)
  | .remove f, old => old && !(f.getLsbD i)

private theorem run_bit (o : FlagOp) (b : FullBox) (i : Nat) :
    flagBit (o.run b) i = o.spec i (flagBit b i) := by
  cases o with
  | set f => exact getFlags_setFlags b f i
  | add f =>
    rw [FlagOp.run, FullBox.addFlag, getFlags_setFlags, BitVec.getLsbD_or, FlagOp.spec]
    by_cases h : i < 24
    · simp [h, flagBit]
    · simp [h, flagBit_high b i (by omega)]
  | remove f =>
    rw [FlagOp.run, FullBox.removeFlag, getFlags_setFlags, BitVec.getLsbD_and, FlagOp.spec]
    by_cases h : i < 24
    · have : i < 32 := by omega
      simp [h, flagBit, this]
    · simp [h, flagBit_high b i (by omega)]

private theorem run_version (o : FlagOp) (b : FullBox) : (o.run b).getVersion = b.getVersion := by
  cases o <;> rfl

/-- **C17** — After any history of flag operations on any box: the version is unchanged
and every bit of `GetFlags` is what the set specification says (`SetFlags` installs the
low 24 bits, `AddFlag` sets exactly the given ones, `RemoveFlag` clears exactly the
given ones). -/
theorem flags_history (b : FullBox) (ops : List FlagOp) :
    (ops.foldl (fun b o => o.run b) b).getVersion = b.getVersion ∧
    ∀ i, (ops.foldl (fun b o => o.run b) b).getFlags.getLsbD i =
      ops.foldl (fun v o => o.spec i v) (b.getFlags.getLsbD i) := by
  induction ops generalizing b with
  | nil => exact ⟨rfl, fun _ => rfl⟩
  | cons o ops ih =>
    obtain ⟨h1, h2⟩ := ih (o.run b)
    refine ⟨by rw [List.foldl_cons, h1, run_version], fun i => ?_⟩
    rw [List.foldl_cons, h2 i, List.foldl_cons]
    have := run_bit o b i
    unfold flagBit at this
    rw [this]

/-- **C17** — `GetFlags` after `SetFlags f` is `f` modulo 2^24. -/
theorem getFlags_after_setFlags (b : FullBox) (f : W32) :
    (b.setFlags f).getFlags = f &&& 0x00ffffff#32 := by
  apply BitVec.eq_of_getLsbD_eq
  intro i hi
  have := getFlags_setFlags b f i
  unfold flagBit at this
  rw [this, BitVec.getLsbD_and]
  have h : (0x00ffffff#32).getLsbD i = decide (i < 24) := by
    have : ∀ i < 32, (0x00ffffff#32).getLsbD i = decide (i < 24) := by decide
    exact this i hi
  rw [h, Bool.and_comm]

/-- **C17** — `CheckFlag f` holds iff some bit of `f` is set in the flags; `SetVersion`
does not touch the flags. -/
theorem checkFlag_iff (b : FullBox) (f : W32) (v : Byte) :
    (b.checkFlag f = true ↔ ∃ i, b.getFlags.getLsbD i = true ∧ f.getLsbD i = true) ∧
    (b.setVersion v).getFlags = b.getFlags ∧ (b.setVersion v).getVersion = v := by
  refine ⟨?_, rfl, rfl⟩
  unfold FullBox.checkFlag
  constructor
  · intro h
    simp only [bne_iff_ne, ne_eq] at h
    by_cases hex : ∃ i, b.getFlags.getLsbD i = true ∧ f.getLsbD i = true
    · exact hex
    · exfalso
      apply h
      apply BitVec.eq_of_getLsbD_eq
      intro i _
      rw [BitVec.getLsbD_and]
      simp only [not_exists, not_and, Bool.not_eq_true] at hex
      cases hg : b.getFlags.getLsbD i with
      | false => simp
      | true => simp [hex i hg]
  · rintro ⟨i, h1, h2⟩
    simp only [bne_iff_ne, ne_eq]
    intro h0
    have := congrArg (fun x => x.getLsbD i) h0
    simp [BitVec.getLsbD_and, h1, h2] at this

/-- a box and a history on which all three operations do something -/
example : let b : FullBox := ⟨1, 0, 0, 5⟩
    ([FlagOp.add 0x10000#32, .remove 1#32].foldl (fun b o => o.run b) b).getFlags = 0x010004#32 := by
  decide

/-! ## C18 -/

private theorem has_iff (l : Brands) (b : BoxType) : l.has b = true ↔ b ∈ l := by
  induction l with
  | nil => simp [Brands.has]
  | cons x xs ih =>
    unfold Brands.has
    by_cases h : x = b
    · simp [h]
    · rw [if_neg h, ih]
      simp only [List.mem_cons]
      constructor
      · intro h'; exact .inr h'
      · rintro (h' | h')
        · exact absurd h'.symm h
        · exact h'

private theorem removeLoop_spec (cb : BoxType) (fuel : Nat) : ∀ (i : Nat) (l : Brands),
    l.length < fuel + i → i ≤ l.length → (∀ j (h : j < l.length), j < i → l[j] ≠ cb) →
    ∃ out, Brands.removeLoop cb fuel i l = some out ∧
      ∀ b, b ∈ out ↔ b ∈ l ∧ b ≠ cb := by
  induction fuel with
  | zero => intro i l h h2; omega
  | succ fuel ih =>
    intro i l hf hi hinv
    unfold Brands.removeLoop
    by_cases h : i < l.length
    · rw [dif_pos h]
      by_cases he : l[i] ≠ cb
      · rw [if_pos he]
        apply ih (i + 1) l (by omega) (by omega)
        intro j hj hji
        by_cases hj2 : j = i
        · subst hj2; exact he
        · exact hinv j hj (by omega)
      · rw [if_neg he]
        simp only [ne_eq, Decidable.not_not] at he
        have hlast : l.getD (l.length - 1) BoxType.any = l[l.length - 1] := by
          rw [List.getD_eq_getElem?_getD, List.getElem?_eq_getElem (by omega)]; rfl
        rw [hlast]
        have hl' : ((l.set i l[l.length - 1]).take (l.length - 1)).length = l.length - 1 := by simp
        have hget : ∀ j (hj : j < l.length - 1),
            ((l.set i l[l.length - 1]).take (l.length - 1))[j]'(by omega) =
              if i = j then l[l.length - 1] else l[j] := by
          intro j hj
          simp [List.getElem_set]
        obtain ⟨out, ho, hm⟩ := ih i ((l.set i l[l.length - 1]).take (l.length - 1))
          (by rw [hl']; omega) (by rw [hl']; omega) (by
            intro j hj hji
            rw [hget j (by omega), if_neg (by omega)]
            exact hinv j (by omega) hji)
        refine ⟨out, ho, fun b => ?_⟩
        rw [hm]
        constructor
        · rintro ⟨hb, hne⟩
          refine ⟨?_, hne⟩
          obtain ⟨j, hj, rfl⟩ := List.mem_iff_getElem.mp hb
          rw [hget j (by omega)]
          split <;> exact List.getElem_mem _
        · rintro ⟨hb, hne⟩
          refine ⟨?_, hne⟩
          obtain ⟨j, hj, rfl⟩ := List.mem_iff_getElem.mp hb
          by_cases hji : j = i
          · subst hji; exact absurd he hne
          · by_cases hjl : j = l.length - 1
            · subst hjl
              have : ((l.set i l[l.length - 1]).take (l.length - 1))[i]'(by omega) =
                  l[l.length - 1] := by rw [hget i (by omega), if_pos rfl]
              exact List.mem_of_getElem this
            · have : ((l.set i l[l.length - 1]).take (l.length - 1))[j]'(by omega) = l[j] := by
                rw [hget j (by omega), if_neg (fun h => hji h.symm)]
              rw [← this]
              exact List.getElem_mem _
    · rw [dif_neg h]
      refine ⟨l, rfl, fun b => ⟨fun hb => ⟨hb, ?_⟩, fun hb => hb.1⟩⟩
      obtain ⟨j, hj, rfl⟩ := List.mem_iff_getElem.mp hb
      exact hinv j hj (by omega)

/-- **C18** (removal) — `RemoveCompatibleBrand` terminates on every brand list, without an
out-of-range access, and afterwards exactly the other brands are present. -/
theorem removeBrand_spec (l : Brands) (cb : BoxType) :
    ∃ out, l.remove cb = some out ∧
      ∀ b, out.has b = (l.has b && decide (b ≠ cb)) := by
  obtain ⟨out, h, hm⟩ := removeLoop_spec cb (l.length + 1) 0 l (by omega) (by omega)
    (by intro j _ h; omega)
  refine ⟨out, h, fun b => ?_⟩
  rw [Bool.eq_iff_iff, has_iff, hm, Bool.and_eq_true, has_iff, decide_eq_true_eq]

/-- **C18** (addition) — `AddCompatibleBrand` makes the brand present, changes no other
brand, keeps the existing entries in place, and adding twice is adding once. -/
theorem addBrand_spec (l : Brands) (cb : BoxType) :
    (∀ b, (l.add cb).has b = (l.has b || decide (b = cb))) ∧
    (∃ t, l.add cb = l ++ t) ∧
    (l.add cb).add cb = l.add cb := by
  have h1 : ∀ b, (l.add cb).has b = (l.has b || decide (b = cb)) := by
    intro b
    rw [Bool.eq_iff_iff, has_iff, Bool.or_eq_true, has_iff, decide_eq_true_eq]
    unfold Brands.add
    split
    · simp
    · rename_i h
      simp only [Bool.not_eq_true, Bool.not_eq_false] at h
      rw [has_iff] at h
      constructor
      · exact .inl
      · rintro (h' | rfl)
        · exact h'
        · exact h
  refine ⟨h1, ?_, ?_⟩
  · unfold Brands.add
    split
    · exact ⟨_, rfl⟩
    · exact ⟨[], by simp⟩
  · have := h1 cb
    simp only [decide_true, Bool.or_true] at this
    generalize l.add cb = m at this
    unfold Brands.add
    rw [this]
    simp

/-- A brand operation. -/
inductive BrandOp where
  | add (b : BoxType)
  | remove (b : BoxType)

/-- Run a history of brand operations; `none` if one of them did not terminate. -/
def runBrands : List BrandOp → Brands → Option Brands
  | [], l => some l
  | .add b :: ops, l => runBrands ops (l.add b)
  | .remove b :: ops, l => (l.remove b).bind (runBrands ops)

/-- Specification of a history on one brand: the last operation on it decides. -/
def brandPresent (b : BoxType) : List BrandOp → Bool → Bool
  | [], v => v
  | .add c :: ops, v => brandPresent b ops (v || decide (b = c))
  | .remove c :: ops, v => brandPresent b ops (v && decide (b ≠ c))

/-- **C18** — Every history of brand operations on every brand list runs to completion, and a
brand is present at the end exactly as the operations on that brand alone dictate. -/
theorem brands_history (ops : List BrandOp) (l : Brands) :
    ∃ out, runBrands ops l = some out ∧
      ∀ b, out.has b = brandPresent b ops (l.has b) := by
  induction ops generalizing l with
  | nil => exact ⟨l, rfl, fun _ => rfl⟩
  | cons o ops ih =>
    cases o with
    | add c =>
      obtain ⟨out, h, hb⟩ := ih (l.add c)
      refine ⟨out, h, fun b => ?_⟩
      rw [hb, (addBrand_spec l c).1]; rfl
    | remove c =>
      obtain ⟨l', hl, hs⟩ := removeBrand_spec l c
      obtain ⟨out, h, hb⟩ := ih l'
      refine ⟨out, by simp [runBrands, hl, h], fun b => ?_⟩
      rw [hb, hs]; rfl

/-- removing a brand that occurs twice, first and last -/
example : Brands.remove [⟨1, 1, 1, 1⟩, ⟨2, 2, 2, 2⟩, ⟨1, 1, 1, 1⟩] ⟨1, 1, 1, 1⟩ =
    some [⟨2, 2, 2, 2⟩] := by decide

/-! ## C38 -/

/-- Printable ASCII. -/
def Printable (b : Byte) : Prop := 0x20 ≤ b.toNat ∧ b.toNat ≤ 0x7e

private theorem hexDigit_printable : ∀ n < 16, Printable (BoxType.hexDigit n) := by
  unfold Printable
  decide

private theorem isASCII_iff (c : Byte) : BoxType.isASCII c = true ↔ Printable c := by
  unfold BoxType.isASCII Printable
  simp [BitVec.le_def]

/-- **C38** — `BoxType.String` consists of printable ASCII for every type; for types whose
four bytes are printable ASCII it is those four bytes, so `StrToBoxType` inverts it.
`StrToBoxType` accepts exactly the strings of four bytes. -/
theorem boxType_string (t : BoxType) :
    (∀ b ∈ t.toStr, Printable b) ∧
    ((∀ b ∈ t.bytes, Printable b) → t.toStr = t.bytes ∧ BoxType.ofStr t.toStr = some t) ∧
    (∀ s : Bytes, (BoxType.ofStr s).isSome = decide (s.length = 4)) ∧
    (∀ s : Bytes, ∀ u, BoxType.ofStr s = some u → u.bytes = s) := by
  refine ⟨?_, ?_, ?_, ?_⟩
  · intro b hb
    unfold BoxType.toStr at hb
    split at hb
    · rename_i h
      simp only [Bool.and_eq_true] at h
      rw [List.mem_flatMap] at hb
      obtain ⟨c, hc, hb⟩ := hb
      have hp : BoxType.isPrintable c = true := by
        simp only [BoxType.bytes, List.mem_cons, List.not_mem_nil, or_false] at hc
        rcases hc with rfl | rfl | rfl | rfl
        · exact h.1.1.1
        · exact h.1.1.2
        · exact h.1.2
        · exact h.2
      split at hb
      · simp only [List.mem_cons, List.not_mem_nil, or_false] at hb
        rcases hb with rfl | rfl | rfl <;> exact ⟨by decide, by decide⟩
      · rename_i hne
        simp only [List.mem_cons, List.not_mem_nil, or_false] at hb
        subst hb
        unfold BoxType.isPrintable at hp
        simp only [Bool.or_eq_true, beq_iff_eq, hne, or_false] at hp
        exact (isASCII_iff b).mp hp
    · have hx : ∀ x : Byte, ∀ y ∈ BoxType.hex2 x, Printable y := by
        intro x y hy
        have := x.isLt
        simp only [BoxType.hex2, List.mem_cons, List.not_mem_nil, or_false] at hy
        rcases hy with rfl | rfl
        · exact hexDigit_printable _ (by omega)
        · exact hexDigit_printable _ (by omega)
      simp only [List.mem_append, List.mem_cons, List.not_mem_nil, or_false] at hb
      rcases hb with ((((rfl | rfl) | h) | h) | h) | h
      · exact ⟨by decide, by decide⟩
      · exact ⟨by decide, by decide⟩
      · exact hx _ _ h
      · exact hx _ _ h
      · exact hx _ _ h
      · exact hx _ _ h
  · intro h
    have ha : ∀ b ∈ t.bytes, BoxType.isPrintable b = true ∧ b ≠ 0xa9#8 := by
      intro b hb
      have := h b hb
      refine ⟨by unfold BoxType.isPrintable; rw [(isASCII_iff b).mpr this]; rfl, ?_⟩
      rintro rfl
      exact absurd this.2 (by decide)
    have h0 := ha t.b0 (by simp [BoxType.bytes])
    have h1 := ha t.b1 (by simp [BoxType.bytes])
    have h2 := ha t.b2 (by simp [BoxType.bytes])
    have h3 := ha t.b3 (by simp [BoxType.bytes])
    have e : t.toStr = t.bytes := by
      unfold BoxType.toStr
      rw [h0.1, h1.1, h2.1, h3.1]
      simp [BoxType.bytes, h0.2, h1.2, h2.2, h3.2]
    refine ⟨e, ?_⟩
    rw [e]
    rfl
  · intro s
    match s with
    | [] => rfl
    | [_] => rfl
    | [_, _] => rfl
    | [_, _, _] => rfl
    | [_, _, _, _] => rfl
    | a :: b :: c :: d :: e :: t => simp [BoxType.ofStr]
  · intro s u h
    match s, h with
    | [a, b, c, d], h =>
      simp only [BoxType.ofStr, Option.some.injEq] at h
      subst h; rfl

/-- **C38** — `Uint32ToBoxType` is a bijection, and it is the big-endian one. -/
theorem uint32ToBoxType_bij :
    (∀ i : W32, (BoxType.ofUint32 i).b0.toNat * 2 ^ 24 + (BoxType.ofUint32 i).b1.toNat * 2 ^ 16 +
      (BoxType.ofUint32 i).b2.toNat * 2 ^ 8 + (BoxType.ofUint32 i).b3.toNat = i.toNat) ∧
    (∀ i j : W32, BoxType.ofUint32 i = BoxType.ofUint32 j → i = j) ∧
    (∀ t : BoxType, ∃ i : W32, BoxType.ofUint32 i = t) := by
  have h1 : ∀ i : W32, (BoxType.ofUint32 i).b0.toNat * 2 ^ 24 +
      (BoxType.ofUint32 i).b1.toNat * 2 ^ 16 +
      (BoxType.ofUint32 i).b2.toNat * 2 ^ 8 + (BoxType.ofUint32 i).b3.toNat = i.toNat := by
    intro i
    have := i.isLt
    simp only [BoxType.ofUint32, BitVec.toNat_setWidth, BitVec.toNat_ushiftRight,
      Nat.shiftRight_eq_div_pow]
    omega
  refine ⟨h1, ?_, ?_⟩
  · intro i j h
    apply BitVec.eq_of_toNat_eq
    rw [← h1 i, ← h1 j, h]
  · intro t
    have a0 := t.b0.isLt; have a1 := t.b1.isLt; have a2 := t.b2.isLt; have a3 := t.b3.isLt
    refine ⟨BitVec.ofNat 32 (t.b0.toNat * 2 ^ 24 + t.b1.toNat * 2 ^ 16 + t.b2.toNat * 2 ^ 8 +
      t.b3.toNat), ?_⟩
    cases t
    simp only at a0 a1 a2 a3 ⊢
    simp only [BoxType.ofUint32, BoxType.mk.injEq]
    refine ⟨?_, ?_, ?_, ?_⟩ <;> apply BitVec.eq_of_toNat_eq <;>
      simp only [BitVec.toNat_setWidth, BitVec.toNat_ushiftRight, BitVec.toNat_ofNat,
        Nat.shiftRight_eq_div_pow] <;> omega

/-- `String` is not injective on all types: 0xa9 and the text "(c)" look the same. -/
example : BoxType.toStr ⟨0xa9, 0x28, 0x63, 0x29⟩ = BoxType.toStr ⟨0x28, 0x63, 0x29, 0xa9⟩ := by decide

/-- a type with printable ASCII bytes: "moov" -/
example : ∀ b ∈ (⟨0x6d, 0x6f, 0x6f, 0x76⟩ : BoxType).bytes, Printable b := by
  unfold Printable; decide

/-! ## C39 -/

/-- **C39** — `MatchWith` is reflexive and symmetric, `BoxTypeAny` matches everything, and
two types other than it match iff they are equal. -/
theorem matchWith_laws (a b : BoxType) :
    a.matchWith a = true ∧ a.matchWith b = b.matchWith a ∧
    BoxType.any.matchWith a = true ∧ a.matchWith BoxType.any = true ∧
    (a ≠ BoxType.any → b ≠ BoxType.any → (a.matchWith b = true ↔ a = b)) ∧
    BoxType.any.bytes = [0, 0, 0, 0] := by
  refine ⟨?_, ?_, ?_, ?_, ?_, rfl⟩
  · unfold BoxType.matchWith; split <;> simp
  · unfold BoxType.matchWith
    by_cases h : a = BoxType.any ∨ b = BoxType.any
    · rw [if_pos h, if_pos h.symm]
    · rw [if_neg h, if_neg (fun h' => h h'.symm)]
      simp only [decide_eq_decide]
      exact eq_comm
  · simp [BoxType.matchWith]
  · simp [BoxType.matchWith]
  · intro ha hb
    simp [BoxType.matchWith, ha, hb]

example : (⟨0x6d, 0x6f, 0x6f, 0x76⟩ : BoxType) ≠ BoxType.any := by decide

end Mp4.Props
