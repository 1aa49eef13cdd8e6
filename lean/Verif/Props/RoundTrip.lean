import Verif.Lemmas.Box

/-!
# C05: `Marshal` followed by `Unmarshal`
-/

namespace Mp4.Props

open Mp4 Mp4.Spec

/-- **C05** — For every box type of the library, every context and every value of it that the format can
represent, `Marshal` appends the bytes given by the layout and reports their number; `Unmarshal` of
these bytes into a fresh box, wherever they are in a stream and whatever follows them, with the number of
bytes as payload size returns the same value, the same number of bytes, and leaves the stream
behind the payload. -/
theorem box_round_trip (bd : BoxDef) (hbd : bd ∈ Cat.allDefs) (ctx : Ctx) (sv : SV)
    (hfit : fits bd ctx sv = true) (out pre rest : Bytes) :
    ∃ p : Bytes, bytesBits p = layout bd ctx sv ∧
      marshalBox bd memSink ctx sv out = (.ok p.length, out ++ p) ∧
      ((pre ++ p ++ rest).length < 2 ^ 64 →
        unmarshalBox bd (pre ++ p ++ rest) ctx p.length bd.fields.zero pre.length =
          (.ok (p.length, sv), pre.length + p.length)) := by
  have h8 : (layout bd ctx sv).length % 8 = 0 := by
    unfold fits at hfit
    simp only [Bool.and_eq_true, beq_iff_eq] at hfit
    exact hfit.1.1.1.1.2
  refine ⟨bitsBytes (layout bd ctx sv), bytesBits_bitsBytes _ h8, marshalBox_layout hfit out, ?_⟩
  intro hlen
  obtain ⟨hl1, hl2⟩ := allDefs_local bd hbd
  exact unmarshalBox_layout (allDefs_ok bd hbd) hl1 hl2 hfit pre rest hlen

/-- a `trun` box of version 1 with two entries, each with a size and a (negative) composition offset -/
def exTrun : SV :=
  [("FullBox", .struct [("Version", .uint 1), ("Flags", .arr [.uint 0, .uint 0x0a, .uint 1])]),
   ("SampleCount", .uint 2), ("DataOffset", .int (-5)), ("FirstSampleFlags", .uint 0),
   ("Entries", .slice [
     .struct [("SampleDuration", .uint 0), ("SampleSize", .uint 100), ("SampleFlags", .uint 0),
       ("SampleCompositionTimeOffsetV0", .uint 0), ("SampleCompositionTimeOffsetV1", .int (-1))],
     .struct [("SampleDuration", .uint 0), ("SampleSize", .uint 7), ("SampleFlags", .uint 0),
       ("SampleCompositionTimeOffsetV0", .uint 0), ("SampleCompositionTimeOffsetV1", .int 3)]])]

/-- an `emsg` box of version 1 -/
def exEmsg : SV :=
  [("FullBox", .struct [("Version", .uint 1), ("Flags", .arr [.uint 0, .uint 0, .uint 0])]),
   ("SchemeIdUri", .str [0x75#8, 0x72#8]), ("Value", .str [0x66#8]), ("Timescale", .uint 1000),
   ("PresentationTimeDelta", .uint 0), ("PresentationTime", .uint 123456789012), ("EventDuration", .uint 5),
   ("Id", .uint 9), ("MessageData", .slice [.uint 1, .uint 2, .uint 3])]

/-- an `esds` box with a decoder configuration and an opaque descriptor -/
def exEsds : SV :=
  [("FullBox", .struct [("Version", .uint 0), ("Flags", .arr [.uint 0, .uint 0, .uint 0])]),
   ("Descriptors", .slice [
     .struct [("Tag", .int 4), ("Size", .uint 300), ("ESDescriptor", .ptr none),
       ("DecoderConfigDescriptor", .ptr (some (.struct [("ObjectTypeIndication", .uint 0x40),
         ("StreamType", .int 5), ("UpStream", .bool true), ("Reserved", .bool false),
         ("BufferSizeDB", .uint 70000), ("MaxBitrate", .uint 1), ("AvgBitrate", .uint 2)]))),
       ("Data", .slice [])],
     .struct [("Tag", .int 5), ("Size", .uint 2), ("ESDescriptor", .ptr none),
       ("DecoderConfigDescriptor", .ptr none), ("Data", .slice [.uint 0x12, .uint 0x34])]])]

/-- the hypotheses of `box_round_trip` are met by non-trivial values -/
example : Cat.bdTrun ∈ Cat.allDefs ∧ fits Cat.bdTrun {} exTrun = true := by
  constructor
  · simp [Cat.allDefs]
  · decide +kernel
example : fits Cat.bdEmsg {} exEmsg = true := by decide +kernel
example : fits Cat.bdEsds {} exEsds = true := by decide +kernel

end Mp4.Props
