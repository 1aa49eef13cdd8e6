import Verif.Props.Box

/-!
# The text of a box type identifies the type

* C38 `boxType_string_injective`
-/

namespace Mp4.Props
open Mp4

/-- the text of one byte -/
private def one (c : Byte) : Bytes := if c = 0xa9#8 then [0x28#8, 0x63#8, 0x29#8] else [c]

private theorem hex2_inj : ∀ a b : Byte, BoxType.hex2 a = BoxType.hex2 b → a = b := by
  have h : ∀ m < 16, ∀ n < 16, BoxType.hexDigit m = BoxType.hexDigit n → m = n := by decide
  intro a b e
  simp only [BoxType.hex2, List.cons.injEq, and_true] at e
  have h1 := h _ (by have := a.isLt; omega) _ (by have := b.isLt; omega) e.1
  have h2 := h _ (by have := a.isLt; omega) _ (by have := b.isLt; omega) e.2
  exact BitVec.eq_of_toNat_eq (by omega)

set_option maxHeartbeats 4000000 in
/-- **C38** — `BoxType.String` gives different texts for different types, with one exception among all pairs of types: a copyright sign followed by the
characters "(c)", and these characters followed by a copyright sign, both give "(c)(c)".  So the types that `-drop` and `-full` of `mp4tool` name are
those meant. -/
theorem boxType_string_injective (t u : BoxType) (h : t.toStr = u.toStr) :
    t = u ∨ t = ⟨0xa9, 0x28, 0x63, 0x29⟩ ∧ u = ⟨0x28, 0x63, 0x29, 0xa9⟩ ∨ t = ⟨0x28, 0x63, 0x29, 0xa9⟩ ∧ u = ⟨0xa9, 0x28, 0x63, 0x29⟩ := by
  obtain ⟨a, b, c, d⟩ := t
  obtain ⟨a', b', c', d'⟩ := u
  have key : ∀ a b c d x1 x2 x3 x4 x5 x6 x7 x8 : Byte, one a ++ one b ++ one c ++ one d ≠ [0x30, 0x78, x1, x2, x3, x4, x5, x6, x7, x8] := by
    intro a b c d x1 x2 x3 x4 x5 x6 x7 x8
    unfold one
    by_cases h1 : a = 0xa9#8 <;> by_cases h2 : b = 0xa9#8 <;> by_cases h3 : c = 0xa9#8 <;> by_cases h4 : d = 0xa9#8 <;> simp [h1, h2, h3, h4]
  have shape : ∀ a b c d : Byte, BoxType.toStr ⟨a, b, c, d⟩ = one a ++ one b ++ one c ++ one d ∨
      BoxType.toStr ⟨a, b, c, d⟩ = [0x30, 0x78] ++ (BoxType.hex2 a ++ BoxType.hex2 b ++ BoxType.hex2 c ++ BoxType.hex2 d) := by
    intro a b c d
    unfold BoxType.toStr
    simp only
    split
    · exact .inl (by simp only [BoxType.bytes, List.flatMap_cons, List.flatMap_nil, List.append_nil, List.append_assoc]; rfl)
    · exact .inr (by simp only [List.append_assoc]; rfl)
  rcases shape a b c d with e1 | e1 <;> rcases shape a' b' c' d' with e2 | e2 <;> rw [e1, e2] at h
  · clear e1 e2 key shape
    unfold one at h
    by_cases h1 : a = 0xa9#8 <;> by_cases h2 : b = 0xa9#8 <;> by_cases h3 : c = 0xa9#8 <;> by_cases h4 : d = 0xa9#8 <;>
    by_cases k1 : a' = 0xa9#8 <;> by_cases k2 : b' = 0xa9#8 <;> by_cases k3 : c' = 0xa9#8 <;> by_cases k4 : d' = 0xa9#8 <;>
    simp_all
  · exact absurd h (key a b c d _ _ _ _ _ _ _ _)
  · exact absurd h.symm (key a' b' c' d' _ _ _ _ _ _ _ _)
  · have e := List.append_cancel_left h
    have hl : ∀ x, (BoxType.hex2 x).length = 2 := fun _ => rfl
    obtain ⟨e, e4⟩ := List.append_inj' e (by simp [hl])
    obtain ⟨e, e3⟩ := List.append_inj' e (by simp [hl])
    obtain ⟨e1, e2⟩ := List.append_inj' e (by simp [hl])
    rw [hex2_inj _ _ e1, hex2_inj _ _ e2, hex2_inj _ _ e3, hex2_inj _ _ e4]
    exact .inl rfl

/-- types with unprintable bytes, with a copyright sign and with neither -/
example : BoxType.toStr ⟨0, 0x6f, 0x6f, 0x76⟩ ≠ BoxType.toStr ⟨0xa9, 0x6f, 0x6f, 0x76⟩ ∧ BoxType.toStr ⟨0xa9, 0x6f, 0x6f, 0x76⟩ ≠ BoxType.toStr ⟨0x6d, 0x6f, 0x6f, 0x76⟩ := by
  decide

end Mp4.Props
