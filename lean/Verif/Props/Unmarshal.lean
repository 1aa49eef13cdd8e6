import Verif.Lemmas.SafeUnmarshal
import Verif.Model.ValEq

/-!
# C08, C09, C11, C12: every run of `Unmarshal`

`d` is the whole stream (at most 2^48 bytes, the largest allocation possible in Go on 64-bit machines), `pos` the
position where the payload is supposed to start, `ps` the payload size that was announced (any
number: it need not agree with the stream), `dst` the previous contents of the destination, of which only
is known that it has the Go type of the box.
-/

namespace Mp4.Props

open Mp4 Mp4.Spec

/-- **C08** — `Unmarshal` never panics. -/
theorem unmarshal_never_panics (bd : BoxDef) (hbd : bd ∈ Cat.allDefs) (d : Bytes) (hd : d.length ≤ 2 ^ 48)
    (pos : Nat) (hpos : pos ≤ d.length) (ctx : Ctx) (ps : Nat) (dst : SV) (hty : typedFields bd.fields dst = true) :
    (unmarshalBox bd d ctx ps dst pos).1 ≠ .panic := by
  have := unmarshalBox_post hbd hd hpos ctx ps hty
  intro h
  cases hr : unmarshalBox bd d ctx ps dst pos with
  | mk o p =>
    rw [hr] at this h
    simp only at h
    subst h
    exact this

/-- The position has to be in the stream: 17 bytes behind the end of a one-byte stream, the check for the remaining
length (`readerHasSize`) wraps around, and `Unmarshal` of a `free` box with a large payload size panics. -/
theorem unmarshal_outside_stream_panics :
    (unmarshalBox Cat.bdFree [0#8] {} (2 ^ 50) Cat.bdFree.fields.zero 18).1 = .panic := by decide +kernel

/-- **C09** — When `Unmarshal` succeeds, it reports at most the payload size, and the stream has advanced by exactly the
reported number of bytes, staying inside the stream; the result has the Go type of the box. -/
theorem unmarshal_stays_inside (bd : BoxDef) (hbd : bd ∈ Cat.allDefs) (d : Bytes) (hd : d.length ≤ 2 ^ 48)
    (pos : Nat) (hpos : pos ≤ d.length) (ctx : Ctx) (ps : Nat) (dst : SV) (hty : typedFields bd.fields dst = true)
    (n : Nat) (sv : SV) (pos' : Nat) (hok : unmarshalBox bd d ctx ps dst pos = (.ok (n, sv), pos')) :
    n ≤ ps ∧ pos' = pos + n ∧ pos' ≤ d.length ∧ typedFields bd.fields sv = true := by
  have := unmarshalBox_post hbd hd hpos ctx ps hty
  rw [hok] at this
  exact ⟨this.1, this.2.1, this.2.2.1, this.2.2.2.1⟩

/-- **C11**, partial — `Unmarshal` returns for every box type, unless the box is a `trun` box that announces
2^32-1 samples. (Missing: that case; and a bound of the number of steps by the number of bits, which does not
hold: see `unmarshal_trun_entries`.) -/
theorem unmarshal_terminates_partial (bd : BoxDef) (hbd : bd ∈ Cat.allDefs) (d : Bytes) (hd : d.length ≤ 2 ^ 48)
    (pos : Nat) (hpos : pos ≤ d.length) (ctx : Ctx) (ps : Nat) (dst : SV) (hty : typedFields bd.fields dst = true)
    (htr : bd.goName = "Trun" → (d.drop (pos + 4)).take 4 ≠ [0xff#8, 0xff#8, 0xff#8, 0xff#8]) :
    (unmarshalBox bd d ctx ps dst pos).1 ≠ .hang := by
  have := unmarshalBox_post hbd hd hpos ctx ps hty
  intro h
  cases hr : unmarshalBox bd d ctx ps dst pos with
  | mk o p =>
    rw [hr] at this h
    simp only at h
    subst h
    exact this htr

/-- A `trun` box of 9 bytes on which `Unmarshal` never returns: 2^32-1 samples, none of the fields of an entry present,
one byte left over. -/
theorem unmarshal_trun_hangs :
    (unmarshalBox Cat.bdTrun [0#8, 0#8, 0#8, 0#8, 0xff#8, 0xff#8, 0xff#8, 0xff#8, 0#8] {} 9
      Cat.bdTrun.fields.zero 0).1 = .hang := by decide +kernel

/-- The number of passes is not bounded by the number of bits either: from the 64 bits of this `trun` box, `Unmarshal` makes
300 entries. -/
theorem unmarshal_trun_entries :
    unmarshalBox Cat.bdTrun [0#8, 0#8, 0#8, 0#8, 0#8, 0#8, 1#8, 44#8] {} 8 Cat.bdTrun.fields.zero 0 =
      (.ok (8, [("FullBox", fullBoxVal 0#8 0#8 0#8 0#8), ("SampleCount", .uint 300), ("DataOffset", .int 0),
        ("FirstSampleFlags", .uint 0), ("Entries", .slice (List.replicate 300 Cat.tyTrunEntry.zero))]), 8) := by
  decide +kernel

/-- **C12**, partial — `Unmarshal` of a box with `FullBox` other than `meta` whose version byte is not
among the registered versions returns `ErrUnsupportedBoxVersion` and leaves the position where it was. (Missing: `meta`,
for which it is false, see `meta_version_accepted`.) -/
theorem unsupported_version_rewinds_partial (bd : BoxDef) (hbd : bd ∈ Cat.allDefs)
    (hfull : "FullBox" ∈ bd.fields.names) (hmeta : bd.metaHook = false) (pre : Bytes) (ver f0 f1 f2 : Byte)
    (rest : Bytes) (hv : bd.versions ≠ []) (hver : ver.toNat ∉ bd.versions) (ctx : Ctx) (ps : Nat) (dst : SV)
    (hty : typedFields bd.fields dst = true) :
    unmarshalBox bd (pre ++ [ver, f0, f1, f2] ++ rest) ctx ps dst pre.length =
      (.err .unsupportedVersion, pre.length) := by
  obtain ⟨hfb, -⟩ := allDefs_static bd hbd
  have hnd := Fields.nodup_names _ (allDefs_nodup bd hbd)
  have htv := typed_setVersion hbd hty (v := anyVersion) (by decide)
  unfold fbShape at hfb
  split at hfb
  · next f t fs hs =>
    simp only [Bool.or_eq_true, Bool.and_eq_true, beq_iff_eq, Bool.not_eq_true', List.contains_eq_mem,
      decide_eq_false_iff_not] at hfb
    rcases hfb with ⟨⟨hf, hft⟩, hnf⟩ | ⟨⟨⟨hf, hnf⟩, hgn⟩, _⟩
    · obtain ⟨x, hget, hx⟩ := full_of_typed hs (by rw [hf]) hnd htv
      have hrem : (RSt.fresh pre.length).rem (pre ++ [ver, f0, f1, f2] ++ rest) =
          bytesBits [ver, f0, f1, f2] ++ bytesBits rest := by
        rw [rem_fresh, List.append_assoc, List.drop_left, bytesBits_append]
      obtain ⟨s', r1, w1, c1, he⟩ := fullBox_step (e := bd.uenv (pre ++ [ver, f0, f1, f2] ++ rest) ctx ps) (fs := fs)
        (s := ⟨RSt.fresh pre.length, 0⟩) hft hget hx
        ⟨by simp [RSt.fresh], by simp [RSt.fresh, BoxDef.uenv]⟩ hrem
      have hsup : bd.supports ver.toNat = false := by
        unfold BoxDef.supports
        rw [Bool.or_eq_false_iff]
        refine ⟨by simpa using hv, ?_⟩
        rw [List.any_eq_false]
        intro v hvm
        simp only [beq_iff_eq]
        intro h
        exact hver (h ▸ hvm)
      rw [if_pos (by change ¬ bd.supports ver.toNat = true; simp [hsup])] at he
      unfold unmarshalBox
      simp only [hmeta, Bool.false_eq_true, if_false]
      unfold unmarshalBody
      rw [hs, hf]
      change (match unmarshalFields (bd.uenv (pre ++ [ver, f0, f1, f2] ++ rest) ctx ps) true
        (some (bd.uenv (pre ++ [ver, f0, f1, f2] ++ rest) ctx ps).cfo) _ _ _ with
        | (.ok sv', st) => _ | (.err .unsupportedVersion, _) => _ | (.err e, st) => _ | (.panic, st) => _
        | (.hang, st) => _) = _
      rw [he]
    · exfalso
      rw [hs] at hfull
      simp only [Fields.names, List.mem_cons] at hfull
      rcases hfull with h | h
      · simp [← h] at hf
      · exact hnf h
  · next hs =>
    rw [hs] at hfull
    simp [Fields.names] at hfull

/-- `meta` with version 1 (registered: 0 only) is accepted: it is taken for a QuickTime `meta` without version. -/
theorem meta_version_accepted :
    Cat.bdMeta.versions = [0] ∧
    unmarshalBox Cat.bdMeta [1#8, 0#8, 0#8, 0#8] {} 4 Cat.bdMeta.fields.zero 0 =
      (.ok (0, Cat.bdMeta.fields.zero), 0) := by decide +kernel

/-- The hypotheses are met: a `tfhd` box whose previous contents are not zero, decoded from the middle of a
stream. -/
example : Cat.bdTfhd ∈ Cat.allDefs ∧ typedFields Cat.bdTfhd.fields
    [("FullBox", .struct [("Version", .uint 7), ("Flags", .arr [.uint 1, .uint 2, .uint 3])]), ("TrackID", .uint 5),
      ("BaseDataOffset", .uint 1), ("SampleDescriptionIndex", .uint 2), ("DefaultSampleDuration", .uint 3),
      ("DefaultSampleSize", .uint 4), ("DefaultSampleFlags", .uint 6)] = true ∧
    (unmarshalBox Cat.bdTfhd [9#8, 0#8, 0#8, 0#8, 0x10#8, 0#8, 0#8, 0#8, 1#8, 0#8, 0#8, 1#8, 0#8, 7#8] {} 12
      Cat.bdTfhd.fields.zero 1).1 = .ok (12, [("FullBox", .struct [("Version", .uint 0), ("Flags", .arr [.uint 0, .uint 0,
        .uint 0x10])]), ("TrackID", .uint 1),
      ("BaseDataOffset", .uint 0), ("SampleDescriptionIndex", .uint 0), ("DefaultSampleDuration", .uint 0),
      ("DefaultSampleSize", .uint 256), ("DefaultSampleFlags", .uint 0)]) := by
  refine ⟨by simp [Cat.allDefs], by decide +kernel, by decide +kernel⟩
example : Cat.bdMvhd ∈ Cat.allDefs ∧ "FullBox" ∈ Cat.bdMvhd.fields.names ∧ Cat.bdMvhd.metaHook = false ∧
    Cat.bdMvhd.versions ≠ [] ∧ (2#8 : Byte).toNat ∉ Cat.bdMvhd.versions := by
  refine ⟨by simp [Cat.allDefs], by decide, by decide, by decide, by decide⟩

end Mp4.Props
