import Verif.Lemmas.SimBox
import Verif.Props.Unmarshal
import Verif.Props.RoundTrip

/-!
# C10, C46: what `Unmarshal` looks at
-/

namespace Mp4.Props

open Mp4 Mp4.Spec

/-- **C10**, partial — If `Unmarshal` succeeds on a payload, it returns the same number of bytes, the same box and the
same position whatever follows the payload in the stream. (Missing: `meta` boxes with a payload of less than four
bytes, for which it is false, see `meta_looks_behind_payload`.) -/
theorem unmarshal_is_local_partial (bd : BoxDef) (hbd : bd ∈ Cat.allDefs) (pre payload rest rest' : Bytes)
    (hd : (pre ++ payload ++ rest).length ≤ 2 ^ 48) (hd' : (pre ++ payload ++ rest').length ≤ 2 ^ 48) (ctx : Ctx) (dst : SV)
    (hty : typedFields bd.fields dst = true) (hmeta : bd.metaHook = true → 4 ≤ payload.length)
    (r : Nat × SV) (pos' : Nat)
    (hok : unmarshalBox bd (pre ++ payload ++ rest) ctx payload.length dst pre.length = (.ok r, pos')) :
    unmarshalBox bd (pre ++ payload ++ rest') ctx payload.length dst pre.length = (.ok r, pos') := by
  have ha : Agree (pre ++ payload).length (pre ++ payload ++ rest) (pre ++ payload ++ rest') := by
    refine ⟨by rw [List.take_left, List.take_left], by simp, by simp, ?_⟩
    simp only [U64]; omega
  have hin := unmarshal_stays_inside bd hbd _ hd pre.length (by simp) ctx _ dst hty r.1 r.2 pos' hok
  refine box_sim hbd ha ctx _ dst ?_ hok ?_
  · intro hm
    left
    have := hmeta hm
    rw [List.length_append]; omega
  · rw [List.length_append]; omega

/-- `meta` with an empty payload: the result depends on the four bytes behind it. -/
theorem meta_looks_behind_payload :
    (unmarshalBox Cat.bdMeta [1#8, 0#8, 0#8, 0#8] {} 0 Cat.bdMeta.fields.zero 0).1 = .ok (0, Cat.bdMeta.fields.zero) ∧
    (unmarshalBox Cat.bdMeta [0#8, 0#8, 0#8, 0#8] {} 0 Cat.bdMeta.fields.zero 0).1 = .err .overrun ∧
    (unmarshalBox Cat.bdMeta [] {} 0 Cat.bdMeta.fields.zero 0).1 = .err .eof := by decide +kernel

/-- **C46** — If the stream ends before the end of the encoding of a value, `Unmarshal` returns an error. -/
theorem truncated_payload_is_error (bd : BoxDef) (hbd : bd ∈ Cat.allDefs) (ctx : Ctx) (sv : SV)
    (hfit : fits bd ctx sv = true) (p : Bytes) (hp : bytesBits p = layout bd ctx sv) (pre : Bytes)
    (hlen : (pre ++ p).length ≤ 2 ^ 48) (k : Nat) (hk : k < p.length) :
    ∃ e pos', unmarshalBox bd (pre ++ p.take k) ctx p.length bd.fields.zero pre.length = (.err e, pos') := by
  obtain ⟨q, hq, -, hdec⟩ := box_round_trip bd hbd ctx sv hfit [] pre []
  have hpq : q = p := bytesBits_inj (hq.trans hp.symm)
  subst hpq
  rw [List.append_nil] at hdec
  have hfull := hdec (by omega)
  have htl : (pre ++ q.take k).length = pre.length + k := by
    rw [List.length_append, List.length_take, Nat.min_eq_left (by omega)]
  have hpl : (pre ++ q).length = pre.length + q.length := List.length_append
  have ha : Agree (pre ++ q.take k).length (pre ++ q.take k) (pre ++ q) := by
    refine ⟨?_, Nat.le_refl _, by omega, by simp only [U64]; omega⟩
    rw [List.take_length, htl, List.take_append, List.take_of_length_le (l := pre) (by omega)]
    rw [show pre.length + k - pre.length = k by omega]
  have hzero := zero_typedFields bd.fields
  have hpost := unmarshalBox_post hbd (d := pre ++ q.take k) (by rw [htl]; unfold maxAlloc; omega) (pos := pre.length)
    (by omega) ctx q.length hzero
  cases hr : unmarshalBox bd (pre ++ q.take k) ctx q.length bd.fields.zero pre.length with
  | mk o pos' =>
    rw [hr] at hpost
    cases o with
    | ok r =>
      exfalso
      have hin : pos' ≤ (pre ++ q.take k).length := hpost.2.2.1
      have := box_sim hbd ha ctx q.length bd.fields.zero (pos := pre.length) (by intro _; omega) hr hin
      rw [hfull] at this
      simp only [Prod.mk.injEq] at this
      omega
    | err e => exact ⟨e, pos', rfl⟩
    | panic => exact hpost.elim
    | hang =>
      exfalso
      have := box_sim_hang hbd ha ctx q.length bd.fields.zero (pos := pre.length) (by omega) (Nat.le_refl _) (by rw [hr])
      rw [hfull] at this
      cases this

/-- The hypotheses are met: the `emsg` box of `RoundTrip` in a stream, cut inside the message; another stream with the whole
payload and something behind it. -/
example : Cat.bdEmsg ∈ Cat.allDefs ∧ fits Cat.bdEmsg {} exEmsg = true ∧
    bytesBits (bitsBytes (layout Cat.bdEmsg {} exEmsg)) = layout Cat.bdEmsg {} exEmsg ∧
    20 < (bitsBytes (layout Cat.bdEmsg {} exEmsg)).length ∧
    unmarshalBox Cat.bdEmsg ([7#8] ++ bitsBytes (layout Cat.bdEmsg {} exEmsg) ++ [1#8, 2#8]) {}
      (bitsBytes (layout Cat.bdEmsg {} exEmsg)).length Cat.bdEmsg.fields.zero [7#8].length =
        (.ok ((bitsBytes (layout Cat.bdEmsg {} exEmsg)).length, exEmsg), 33) := by
  refine ⟨by simp [Cat.allDefs], by decide +kernel, by decide +kernel, by decide +kernel, by decide +kernel⟩

end Mp4.Props
