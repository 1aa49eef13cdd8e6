import Verif.Lemmas.ReuseShow

/-!
# C69: decoding into a struct that has been used before

`Unmarshal` writes into the struct the caller passes.  Programs pass one that has been used before.  The outcome does not depend on
what was in it, with one exception (`Sgpd`); what the decoded box holds afterwards is the same except for optional fields that are
absent, and neither `Marshal` nor `Stringify` looks at those.
-/

namespace Mp4.Props

open Mp4 Spec

theorem agreeFields_of_twin {bd : BoxDef} {ctx : Ctx} {a b : SV} (h : Twin bd ctx a b) : ∀ fs : Fields,
    (∀ f t, (f, t) ∈ fs.toList → (f, t) ∈ bd.fields.toList) → agreeFields bd.cfo ctx a b fs
  | .nil, _ => trivial
  | .cons f t fs, hs => by
    refine ⟨?_, agreeFields_of_twin h fs fun g u hg => hs g u (by simp [Fields.toList, hg])⟩
    have := h.past f t (hs f t (by simp [Fields.toList]))
    unfold tgt at this
    rw [isTarget_eq, isTarget_eq] at this
    exact this

/-- **C69** — `Unmarshal` of any box type from any bytes, at any position, with any payload size, ends in the same way whatever the
struct it is given held before: the same position, the same error, or the same number of bytes and boxes that differ only in optional
fields that are absent from both.

Partial: for `Sgpd` the two structs must have held the same `DefaultLength` (see `reuse_sgpd_refuted`). -/
theorem reuse_partial (bd : BoxDef) (hbd : bd ∈ Cat.allDefs) (d : Bytes) (ctx : Ctx) (payloadSize pos : Nat) (dst dst' : SV)
    (hty : typedFields bd.fields dst = true) (hty' : typedFields bd.fields dst' = true)
    (hsgpd : bd.goName = "Sgpd" → dst.get "DefaultLength" = dst'.get "DefaultLength") :
    sameDecoding bd ctx (unmarshalBox bd d ctx payloadSize dst pos) (unmarshalBox bd d ctx payloadSize dst' pos) := by
  have h := unmarshal_same hbd d ctx payloadSize hty hty' hsgpd pos
  generalize unmarshalBox bd d ctx payloadSize dst pos = x at h ⊢
  generalize unmarshalBox bd d ctx payloadSize dst' pos = y at h ⊢
  obtain ⟨o, s⟩ := x
  obtain ⟨o', s'⟩ := y
  obtain ⟨h1, h2⟩ := h
  refine ⟨h1, ?_⟩
  cases o <;> cases o' <;> simp only at h2 <;> first | exact h2.elim | skip
  · exact ⟨h2.1, agreeFields_of_twin h2.2 bd.fields fun _ _ h => h⟩
  · exact h2
  · trivial
  · trivial

/-- **C69** — what has been decoded is written out the same, byte for byte and call for call, to any destination, and printed the
same, whatever the structs held before.

Partial: as above. -/
theorem reuse_encodes_partial {σ : Type} (bd : BoxDef) (hbd : bd ∈ Cat.allDefs) (d : Bytes) (hd : d.length ≤ maxAlloc) (ctx : Ctx)
    (payloadSize pos : Nat) (hpos : pos ≤ d.length) (dst dst' : SV)
    (hty : typedFields bd.fields dst = true) (hty' : typedFields bd.fields dst' = true)
    (hsgpd : bd.goName = "Sgpd" → dst.get "DefaultLength" = dst'.get "DefaultLength")
    (n n' : Nat) (sv sv' : SV) (p p' : Nat) (h : unmarshalBox bd d ctx payloadSize dst pos = (.ok (n, sv), p))
    (h' : unmarshalBox bd d ctx payloadSize dst' pos = (.ok (n', sv'), p')) :
    (∀ (k : Sink σ) (s : σ), marshalBox bd k ctx sv s = marshalBox bd k ctx sv' s) ∧
    ∀ (beyond : Nat → Bool) (indent : Str.Text), Str.stringify beyond bd sv indent ctx = Str.stringify beyond bd sv' indent ctx := by
  have hs := unmarshal_same hbd d ctx payloadSize hty hty' hsgpd pos
  have hp := unmarshalBox_post hbd hd hpos ctx payloadSize hty
  rw [h] at hp
  obtain ⟨-, -, -, h1, -⟩ := hp
  rw [h, h'] at hs
  obtain ⟨-, -, ht⟩ := hs
  exact ⟨fun k s => marshal_twin hbd ht k s, fun beyond indent => Str.stringify_twin hbd ht (typed_keys h1) beyond indent⟩

/-- two structs with the same fields and the same values -/
theorem sv_ext : ∀ {a b : SV}, a.keys = b.keys → a.keys.Nodup → (∀ n ∈ a.keys, a.get n = b.get n) → a = b
  | [], [], _, _, _ => rfl
  | [], _ :: _, h, _, _ => by simp [SV.keys] at h
  | _ :: _, [], h, _, _ => by simp [SV.keys] at h
  | (n, v) :: a, (m, w) :: b, h, hnd, hg => by
    rw [SV.keys_cons, SV.keys_cons, List.cons.injEq] at h
    obtain ⟨rfl, h⟩ := h
    rw [SV.keys_cons, List.nodup_cons] at hnd
    have h0 := hg n (by simp [SV.keys])
    simp only [SV.get, if_true, Option.some.injEq] at h0
    subst h0
    rw [sv_ext h hnd.2 fun m hm => ?_]
    have := hg m (by rw [SV.keys_cons]; exact List.mem_cons_of_mem _ hm)
    simp only [SV.get] at this
    have hne : n ≠ m := fun e => hnd.1 (e ▸ hm)
    rw [if_neg hne, if_neg hne] at this
    exact this

theorem allPresent_mem : ∀ {fs : Fields}, allPresent fs = true → ∀ f t, (f, t) ∈ fs.toList → f.uncond = true
  | .nil, _, f, t, h => by simp [Fields.toList] at h
  | .cons g u fs, hp, f, t, h => by
    simp only [allPresent, Bool.and_eq_true, beq_iff_eq, Bool.not_eq_true'] at hp
    obtain ⟨⟨⟨⟨⟨h1, h2⟩, h3⟩, h4⟩, h5⟩, h6⟩ := hp
    simp only [Fields.toList, List.mem_cons, Prod.mk.injEq] at h
    rcases h with ⟨rfl, rfl⟩ | h
    · simp [Field.uncond, h1, h2, h3, h4, h5, anyVersion]
    · exact allPresent_mem h6 f t h

theorem names_mem : ∀ {fs : Fields} {n : String}, n ∈ fs.names → ∃ f t, (f, t) ∈ fs.toList ∧ f.name = n
  | .nil, n, h => by simp [Fields.names] at h
  | .cons g u fs, n, h => by
    simp only [Fields.names, List.mem_cons] at h
    rcases h with rfl | h
    · exact ⟨g, u, by simp [Fields.toList], rfl⟩
    · obtain ⟨f, t, hf, hn⟩ := names_mem h
      exact ⟨f, t, by simp [Fields.toList, hf], hn⟩

/-- **C69** — a box type without optional fields (there are 71 such) is read as if the struct had been new: nothing of what it held
before is left, and nothing of it has an effect. -/
theorem reuse_whole (bd : BoxDef) (hbd : bd ∈ Cat.allDefs) (hall : allPresent bd.fields = true) (d : Bytes) (hd : d.length ≤ maxAlloc)
    (ctx : Ctx) (payloadSize pos : Nat) (hpos : pos ≤ d.length) (dst dst' : SV) (hty : typedFields bd.fields dst = true)
    (hty' : typedFields bd.fields dst' = true) :
    unmarshalBox bd d ctx payloadSize dst pos = unmarshalBox bd d ctx payloadSize dst' pos := by
  have hsg : bd.goName = "Sgpd" → dst.get "DefaultLength" = dst'.get "DefaultLength" := by
    intro hg
    have : Cat.allDefs.all (fun bd => !(bd.goName == "Sgpd") || !allPresent bd.fields) = true := by decide +kernel
    have := List.all_eq_true.mp this bd hbd
    rw [hg, hall] at this
    simp at this
  have hs := unmarshal_same hbd d ctx payloadSize hty hty' hsg pos
  have hp := unmarshalBox_post hbd hd hpos ctx payloadSize hty
  generalize unmarshalBox bd d ctx payloadSize dst pos = x at hs hp ⊢
  generalize unmarshalBox bd d ctx payloadSize dst' pos = y at hs ⊢
  obtain ⟨o, s⟩ := x
  obtain ⟨o', s'⟩ := y
  obtain ⟨h1, h2⟩ := hs
  simp only at h1
  subst h1
  cases o <;> cases o' <;> simp only at h2 <;> first | exact h2.elim | skip
  · rename_i p q
    obtain ⟨n, sv⟩ := p
    obtain ⟨n', sv'⟩ := q
    obtain ⟨hn, ht⟩ := h2
    change n = n' at hn
    change Twin bd ctx sv sv' at ht
    subst hn
    obtain ⟨-, -, -, htyped, -⟩ := hp
    rw [sv_ext ht.keys (by rw [typed_keys htyped]; exact Fields.nodup_names _ (allDefs_nodup bd hbd)) fun m hm => ?_]
    rw [typed_keys htyped] at hm
    obtain ⟨f, t, hf, rfl⟩ := names_mem hm
    exact twin_uncond ht hf (allPresent_mem hall f t hf)
  · subst h2; rfl
  · rfl
  · rfl

/-! ## Cases that meet the hypotheses -/

/-- a `tfhd` payload without optional fields -/
def reuseTfhd : Bytes := [0, 0, 0, 0, 0, 0, 0, 1]

/-- a `tfhd` that held a base data offset -/
def usedTfhd : SV := SV.set Cat.bdTfhd.fields.zero "BaseDataOffset" (.uint 7)

/-- what the field holds after decoding into the struct -/
def tfhdLeft (dst : SV) : Option Nat :=
  match unmarshalBox Cat.bdTfhd reuseTfhd {} 8 dst 0 with
  | (.ok (_, sv), _) => some (sv.uint "BaseDataOffset")
  | _ => none

example : Cat.bdTfhd ∈ Cat.allDefs ∧ typedFields Cat.bdTfhd.fields usedTfhd = true ∧
    typedFields Cat.bdTfhd.fields Cat.bdTfhd.fields.zero = true ∧ reuseTfhd.length ≤ maxAlloc := by
  exact ⟨by simp [Cat.allDefs], by decide +kernel, by decide +kernel, by decide⟩

example : allPresent Cat.bdStts.fields = true ∧ Cat.bdStts ∈ Cat.allDefs ∧ Cat.bdStts.goName ≠ "Sgpd" := by
  exact ⟨by decide +kernel, by simp [Cat.allDefs], by decide⟩

/-- 71 of the 94 box types have no optional fields. -/
theorem reuse_whole_count : (Cat.allDefs.filter fun bd => allPresent bd.fields).length = 71 ∧ Cat.allDefs.length = 94 := by
  decide +kernel

/-! ## What does depend on the past -/

/-- **C69, refuted in full** — an optional field that is absent from the bytes keeps what the struct held before: a `tfhd` without
a base data offset, read into a struct that had one, has the old one afterwards. -/
theorem reuse_stale_refuted : tfhdLeft Cat.bdTfhd.fields.zero = some 0 ∧ tfhdLeft usedTfhd = some 7 := by
  decide +kernel

/-- an `sgpd` payload, version 2, grouping type `alst`, with one entry of eight bytes -/
def reuseSgpd : Bytes := [2, 0, 0, 0, 97, 108, 115, 116, 0, 0, 0, 1, 0, 0, 0, 1, 0, 0, 0, 0, 0, 1, 0, 1]

/-- the bytes that are read, into a struct that held this default length; `none`: an error -/
def sgpdRead (len : Nat) : Option (Nat × Nat) :=
  match unmarshalBox Cat.bdSgpd reuseSgpd {} 24 (SV.set Cat.bdSgpd.fields.zero "DefaultLength" (.uint len)) 0 with
  | (.ok (n, _), pos) => some (n, pos)
  | _ => none

/-- **C69, refuted for `Sgpd`** — in version 2 the field `DefaultLength` is not read but still decides how long the entries of
grouping type `alst` are: the same bytes are read to the end into a new struct, in part into a struct that held 4, and not at all
into one that held 3. -/
theorem reuse_sgpd_refuted : sgpdRead 0 = some (24, 24) ∧ sgpdRead 4 = some (20, 20) ∧ sgpdRead 3 = none := by
  decide +kernel

end Mp4.Props
