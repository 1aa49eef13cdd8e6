import Verif.Lemmas.Hdlr

/-!
# C43: names of handlers

The box `hdlr` ends with the name of the handler.  An ISO file has zero in the field `pre_defined` and a name ended by NUL; a
QuickTime file has the type of the component in that field, and a Pascal string: a byte with the length, and the name.
-/

namespace Mp4.Props

open Mp4 Mp4.Spec

/-- The name read from an `hdlr` box with this value of `pre_defined` and these bytes for the name, whatever the other
fields and wherever the box is. -/
def NameRead (preDefined : Nat) (field name : Bytes) : Prop :=
  ∀ (f0 f1 f2 r0 r1 r2 : Nat) (type p : Bytes) (ctx : Ctx) (before after : Bytes), f0 < 256 ∧ f1 < 256 ∧ f2 < 256 → type.length = 4 →
    r0 < 2 ^ 32 ∧ r1 < 2 ^ 32 ∧ r2 < 2 ^ 32 →
    bytesBits p = verFlags 0 f0 f1 f2 ++ ints [(32, preDefined)] ++ bytesBits type ++ ints [(32, r0), (32, r1), (32, r2)] ++
      bytesBits field → (before ++ p ++ after).length < 2 ^ 64 →
    ∃ sv, unmarshalBox Cat.bdHdlr (before ++ p ++ after) ctx p.length Cat.bdHdlr.fields.zero before.length =
        (.ok (p.length, sv), before.length + p.length) ∧ sv.str "Name" = name ∧
      sv.uint "PreDefined" = preDefined ∧ sv.get "HandlerType" = some (.arr (goBytes type))

theorem NameRead.of {preDefined : Nat} {field : Bytes} (h : preDefined < 2 ^ 32) (hq : field.length < 2 ^ 47) :
    NameRead preDefined field (nameOf preDefined field) :=
  fun f0 f1 f2 r0 r1 r2 type p ctx before after hf ht hr hpb hl =>
    ⟨_, hdlr_reads f0 f1 f2 preDefined r0 r1 r2 type field p hf h ht hr hq ctx before after hpb hl, rfl, rfl, rfl⟩

theorem takeWhile_append_nul (name rest : Bytes) (h : 0#8 ∉ name) :
    (name ++ 0#8 :: rest).takeWhile (fun c => c != 0#8) = name := by
  induction name with
  | nil => rfl
  | cons x l ih =>
    simp only [List.mem_cons, not_or] at h
    rw [List.cons_append, List.takeWhile_cons, if_pos (by simp [Ne.symm h.1]), ih h.2]

theorem takeWhile_noNul' (name : Bytes) (h : 0#8 ∉ name) : name.takeWhile (fun c => c != 0#8) = name := by
  induction name with
  | nil => rfl
  | cons x l ih =>
    simp only [List.mem_cons, not_or] at h
    rw [List.takeWhile_cons, if_pos (by simp [Ne.symm h.1]), ih h.2]

/-- An ISO name, ended by NUL, whatever follows. -/
theorem hdlr_name_iso (name rest : Bytes) (h : 0#8 ∉ name) (hq : (name ++ 0#8 :: rest).length < 2 ^ 47) :
    NameRead 0 (name ++ 0#8 :: rest) name := by
  have := NameRead.of (preDefined := 0) (by decide) hq
  rwa [nameOf, if_neg (by simp), takeWhile_append_nul name rest h] at this

/-- An ISO name without the NUL. -/
theorem hdlr_name_unterminated (name : Bytes) (h : 0#8 ∉ name) (hq : name.length < 2 ^ 47) : NameRead 0 name name := by
  have := NameRead.of (preDefined := 0) (by decide) hq
  rwa [nameOf, if_neg (by simp), takeWhile_noNul' name h] at this

/-- A QuickTime name of up to 254 bytes, which may be any bytes.  Missing: 255 bytes, see `hdlr_name_255`. -/
theorem hdlr_name_quicktime_partial (preDefined : Nat) (hp : preDefined < 2 ^ 32) (h0 : preDefined ≠ 0) (len : Byte) (name : Bytes)
    (hlen : len.toNat = name.length) (hn : name.length ≤ 254) : NameRead preDefined (len :: name) name := by
  have := NameRead.of hp (field := len :: name) (by simp; omega)
  cases name with
  | nil =>
    have : len = 0#8 := BitVec.eq_of_toNat_eq hlen
    subst this
    rwa [nameOf, if_neg (by simp)] at this
  | cons x l =>
    rw [nameOf, if_pos] at this
    · simpa [hlen] using this
    · simp only [List.length_cons] at hlen hn
      simp [hlen, h0]
      omega

/-- A name ended by NUL in a QuickTime file is read as in an ISO file unless its first byte is its length, so that it
looks like a Pascal string. -/
theorem hdlr_name_quicktime_c (preDefined : Nat) (hp : preDefined < 2 ^ 32) (x : Byte) (name : Bytes) (h : 0#8 ∉ x :: name)
    (hx : x.toNat ≠ (x :: name).length) (hq : name.length < 2 ^ 46) : NameRead preDefined (x :: name ++ [0#8]) (x :: name) := by
  have := NameRead.of hp (field := x :: name ++ [0#8]) (by simp; omega)
  rwa [nameOf, if_neg, takeWhile_append_nul _ _ h] at this
  simp only [List.cons_append, List.length_cons, List.length_append, List.headD_cons, not_and]
  simp only [List.length_cons] at hx
  have := x.isLt
  intro _ _ h3
  simp at h3
  omega

/-- The code violates the claim for a QuickTime name of 255 bytes, the longest of a Pascal string: the byte with the length
becomes part of the name. -/
theorem hdlr_name_255 (preDefined : Nat) (hp : preDefined < 2 ^ 32) (name : Bytes) (hn : name.length = 255) (h : 0#8 ∉ name) :
    NameRead preDefined (255#8 :: name) (255#8 :: name) ∧ ¬ NameRead preDefined (255#8 :: name) name := by
  have h1 : NameRead preDefined (255#8 :: name) (255#8 :: name) := by
    have := NameRead.of hp (field := 255#8 :: name) (by simp; omega)
    rwa [nameOf, if_neg, takeWhile_noNul' _ (by simp [h])] at this
    simp
  refine ⟨h1, fun h2 => ?_⟩
  have hb : bytesBits ([0, 0, 0, 0] ++ bitsBytes (natBits 32 preDefined) ++ [109, 100, 105, 114] ++ [0, 0, 0, 0, 0, 0, 0, 0, 0, 0, 0, 0] ++
      255#8 :: name) = verFlags 0 0 0 0 ++ ints [(32, preDefined)] ++ bytesBits [109, 100, 105, 114] ++ ints [(32, 0), (32, 0), (32, 0)] ++
      bytesBits (255#8 :: name) := by
    rw [bytesBits_append, bytesBits_append, bytesBits_append, bytesBits_append, bytesBits_bitsBytes _ (by simp)]
    simp only [ints, List.append_nil]
    rfl
  have hl : ([0, 0, 0, 0] ++ bitsBytes (natBits 32 preDefined) ++ [109, 100, 105, 114] ++ [0, 0, 0, 0, 0, 0, 0, 0, 0, 0, 0, 0] ++
      255#8 :: name).length < 2 ^ 64 := by
    have := bitsBytes_length (natBits 32 preDefined) (by simp)
    simp at this ⊢
    omega
  obtain ⟨sv, e1, n1, _⟩ := h1 0 0 0 0 0 0 [109, 100, 105, 114] _ {} [] [] (by decide) rfl (by decide) hb (by simpa using hl)
  obtain ⟨sv', e2, n2, _⟩ := h2 0 0 0 0 0 0 [109, 100, 105, 114] _ {} [] [] (by decide) rfl (by decide) hb (by simpa using hl)
  rw [e1] at e2
  cases e2
  rw [n1] at n2
  have := congrArg List.length n2
  simp at this

/-! Concrete cases. -/

example := hdlr_name_iso [83, 111, 117, 110, 100] [] (by decide) (by decide)
example := hdlr_name_unterminated [83, 111, 117, 110, 100] (by decide) (by decide)
example := hdlr_name_quicktime_partial 0x6d686c72 (by decide) (by decide) 5 [83, 111, 0, 110, 100] rfl (by decide)
example := hdlr_name_quicktime_c 0x6d686c72 (by decide) 83 [111, 117, 110, 100] (by decide) (by decide) (by decide)
example := hdlr_name_255 0x6d686c72 (by decide) (List.replicate 255 65#8) List.length_replicate (by decide +kernel)

end Mp4.Props
