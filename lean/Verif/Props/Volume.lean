import Verif.Lemmas.Volume
import Verif.Lemmas.Lookup
import Verif.Props.Unmarshal
import Verif.Props.IsoTrun

/-!
# C66: what is decoded is no larger than what was read
-/

namespace Mp4.Props

open Mp4 Mp4.Spec

/-- **C66**, partial — When `Unmarshal` succeeds, the box holds at most as many list elements and string bytes (at all depths, taken
together) as bytes have been read for it, in addition to those it held before.  This does not depend on the counts and sizes that the
payload claims.

Missing: `trun` boxes without any of the four per-sample fields, for which it is false (`run_unbounded`). -/
theorem unmarshal_volume_partial (bd : BoxDef) (hbd : bd ∈ Cat.allDefs) (d : Bytes) (ctx : Ctx) (ps : Nat) (dst : SV) (pos pos' n : Nat)
    (sv : SV) (h : unmarshalBox bd d ctx ps dst pos = (.ok (n, sv), pos')) (ht : bd.goName = "Trun" → sv.flags &&& 0xf00 ≠ 0) :
    volFields sv ≤ n + volFields dst := by
  by_cases hn : bd.goName = "Trun"
  · have := bd_trun bd hbd hn
    subst this
    exact trun_vol h (ht rfl)
  · exact box_vol hbd hn h

/-- The same for `UnmarshalAny`, which starts from an empty box: the box holds no more than the bytes of the payload, and the
payload bytes that were read are in the stream. -/
theorem unmarshalAny_volume_partial (d : Bytes) (hd : d.length ≤ 2 ^ 48) (t : BoxType) (ps : Nat) (ctx : Ctx) (pos pos' n : Nat)
    (hpos : pos ≤ d.length) (v : BoxVal) (h : BoxMap.std.unmarshalAny d t ps ctx pos = (.ok (v, n), pos'))
    (ht : v.bd.goName = "Trun" → v.sv.flags &&& 0xf00 ≠ 0) :
    volFields v.sv ≤ n ∧ n ≤ ps ∧ pos + n ≤ d.length := by
  unfold BoxMap.unmarshalAny at h
  cases hn : BoxMap.std.new t ctx with
  | error e => rw [hn] at h; cases h
  | ok box =>
    rw [hn] at h
    simp only at h
    have hnew : ∃ bd, BoxMap.std.getBoxDef t ctx = some bd ∧ box.bd = bd ∧ box.sv = bd.fields.zero := by
      unfold BoxMap.new at hn
      cases hg : BoxMap.std.getBoxDef t ctx with
      | none => rw [hg] at hn; cases hn
      | some bd => rw [hg] at hn; cases hn; exact ⟨bd, rfl, rfl, rfl⟩
    obtain ⟨bd, h1, h2, h3⟩ := hnew
    have hbd := std_mem h1
    rw [h2, h3] at h
    generalize hu : unmarshalBox bd d ctx ps bd.fields.zero pos = r at h
    obtain ⟨o, p⟩ := r
    cases o with
    | ok x =>
      obtain ⟨k, sv⟩ := x
      cases h
      have hv := unmarshal_volume_partial bd hbd d ctx ps _ _ _ _ _ hu ht
      rw [volFields_zero] at hv
      obtain ⟨i1, i2, i3, -⟩ := unmarshal_stays_inside bd hbd d hd pos hpos ctx ps _ (zero_typedFields _) _ _ _ hu
      exact ⟨hv, i1, by omega⟩
    | err e => cases h
    | panic => cases h
    | hang => cases h

/-- Where C66 fails: eight bytes of a `trun` box are decoded to any number of samples below 2^32-1. -/
theorem run_unbounded (k : Nat) (hk : k < 2 ^ 32 - 1) (ctx : Ctx) : ∃ p : Bytes, p.length = 8 ∧ ∃ sv,
    unmarshalBox Cat.bdTrun p ctx 8 Cat.bdTrun.fields.zero 0 = (.ok (8, sv), 8) ∧
    ∃ l, sv.get "Entries" = some (.slice l) ∧ l.length = k := by
  obtain ⟨p, h1, -, h3⟩ := trun_iso 0 0 0 0 (List.replicate k ⟨0, 0, 0, 0⟩) (Or.inl rfl) (by decide) (by decide) (by intro; rfl) (by decide)
    (by intro; rfl) (fun x hx => by rw [(List.mem_replicate.1 hx).2]; constructor <;> decide) (by simpa using hk) ctx
  have hl : p.length = 8 := by
    have := congrArg List.length h1
    rw [bytesBits_length] at this
    have hz : (List.replicate k (⟨0, 0, 0, 0⟩ : RunSample)).flatMap (RunSample.bits 0) = [] := by
      rw [List.flatMap_eq_nil_iff]
      intro x hx
      rw [(List.mem_replicate.1 hx).2]
      decide
    rw [hz] at this
    simp [ints, optInt] at this
    omega
  have := h3 [] [] (by simp [hl])
  simp only [List.nil_append, List.append_nil, hl, List.length_nil, Nat.zero_add] at this
  exact ⟨p, hl, _, this, _, rfl, by simp⟩

/-- a sample table with two runs -/
def twoRuns : SV := [("FullBox", fullBoxVal 0#8 0#8 0#8 0#8), ("EntryCount", .uint 2), ("Entries", .slice [
  .struct [("SampleCount", .uint 2), ("SampleDelta", .uint 10)], .struct [("SampleCount", .uint 1), ("SampleDelta", .uint 20)]])]

theorem twoRuns_decoded : unmarshalBox Cat.bdStts [0, 0, 0, 0, 0, 0, 0, 2, 0, 0, 0, 2, 0, 0, 0, 10, 0, 0, 0, 1, 0, 0, 0, 20] {} 24
    Cat.bdStts.fields.zero 0 = (.ok (24, twoRuns), 24) := by decide +kernel

/-- The hypotheses are met: the table (two elements) has been decoded from 24 bytes. -/
example := unmarshal_volume_partial Cat.bdStts (by simp [Cat.allDefs]) _ {} 24 _ 0 24 24 twoRuns twoRuns_decoded (by decide)
example : volFields twoRuns = 2 := by decide

/-- A count that is not backed by bytes is refused. -/
example : (match unmarshalBox Cat.bdStts [0, 0, 0, 0, 0xff, 0xff, 0xff, 0xf0, 0, 0, 0, 2, 0, 0, 0, 10] {} 16 Cat.bdStts.fields.zero 0 with
    | (.ok _, _) => true | _ => false) = false := by decide +kernel

end Mp4.Props
