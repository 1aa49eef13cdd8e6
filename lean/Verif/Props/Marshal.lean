import Verif.Lemmas.Counts
import Verif.Lemmas.Encode
import Verif.Lemmas.MarshalErr
import Verif.Lemmas.MarshalPanic
import Verif.Props.RoundTrip

/-!
# C06, C14, C15, C16: what `Marshal` reports
-/

namespace Mp4.Props

open Mp4 Mp4.Spec

/-- version and flags -/
def fullBox (v : Nat) (f0 f1 f2 : Nat) : String × Val :=
  ("FullBox", .struct [("Version", .uint v), ("Flags", .arr [.uint f0, .uint f1, .uint f2])])

/-! ## C06 -/

/-- **C06** (count) — Whatever the value, representable or not: if `Marshal` succeeds, it has appended
exactly the number of bytes it reports, and left what was there before as it was. -/
theorem marshal_reports_written (bd : BoxDef) (hbd : bd ∈ Cat.allDefs) (ctx : Ctx) (sv : SV)
    (out out' : Bytes) (n : Nat) (h : marshalBox bd memSink ctx sv out = (.ok n, out')) :
    ∃ p : Bytes, out' = out ++ p ∧ p.length = n :=
  marshalBox_counts (allDefs_boolsOk bd hbd) h

/-- **C06** (contents) — The bytes appended are the encodings of the fields in order, most significant bit
first.  The value need not be representable: of a list that is longer than its
count only the counted elements are written, of a number that is too large only the low bits. -/
theorem marshal_writes_layout (bd : BoxDef) (ctx : Ctx) (sv : SV) (hw : writable bd ctx sv = true)
    (out out' : Bytes) (n : Nat) (h : marshalBox bd memSink ctx sv out = (.ok n, out')) :
    ∃ p : Bytes, out' = out ++ p ∧ p.length = n ∧ bytesBits p = layout bd ctx sv := by
  obtain ⟨hl, ho⟩ := marshalBox_writable hw h
  have h8 : (layout bd ctx sv).length % 8 = 0 := by omega
  refine ⟨bitsBytes (layout bd ctx sv), ho, ?_, bytesBits_bitsBytes _ h8⟩
  have := bitsBytes_length (layout bd ctx sv) h8
  omega

/-- an `stts` box that says it has one entry, but has two -/
def exLong : SV :=
  [fullBox 0 0 0 0, ("EntryCount", .uint 1),
   ("Entries", .slice [.struct [("SampleCount", .uint 5), ("SampleDelta", .uint 1024)],
     .struct [("SampleCount", .uint 6), ("SampleDelta", .uint 1024)]])]

/-- a value that is written but cannot be represented -/
example : writable Cat.bdStts {} exLong = true ∧ fits Cat.bdStts {} exLong = false ∧
    (marshalBox Cat.bdStts memSink {} exLong []).1 = .ok 16 := by decide +kernel

/-! ## C14 -/

/-- A destination with room for the given number of bytes. -/
def roomFor : Sink Nat := ⟨fun p r => if p.length ≤ r then (true, r - p.length) else (false, 0)⟩

/-- **C14** (partial) — For every box type without lists of anything but bytes (and other than `colr`), for every
value and every destination: if `Marshal` succeeds, none of its writes has failed.
Missing: the 23 types in `mayLoseErrors`.  For those with lists it is
false, as the next theorem shows (marshaller.go:154 drops the error). -/
theorem marshal_reports_write_failure_partial {σ : Type} (bd : BoxDef) (hbd : bd ∈ Cat.allDefs)
    (hl : bd.goName ∉ mayLoseErrors) (k : Sink σ) (ctx : Ctx) (sv : SV) (hty : typedFields bd.fields sv = true)
    (s t : σ) (failed : Bool) (n : Nat)
    (h : marshalBox bd (watch k) ctx sv (s, false) = (.ok n, (t, failed))) : failed = false :=
  marshalBox_honest (allDefs_nodup bd hbd) (allDefs_honest bd hbd hl) hty h

/-- **C14** fails: an `stts` box with one entry is written to a destination that has room for 12 bytes;
`Marshal` reports success (and 12 bytes) although a write has failed. -/
theorem marshal_loses_write_failure :
    marshalBox Cat.bdStts (watch roomFor) {} [fullBox 0 0 0 0, ("EntryCount", .uint 1),
      ("Entries", .slice [.struct [("SampleCount", .uint 5), ("SampleDelta", .uint 1024)]])] (12, false) =
    (.ok 12, (0, true)) := by decide +kernel

/-- the hypotheses are met by `mdat`, and the destination can fail -/
example : Cat.bdMdat ∈ Cat.allDefs ∧ Cat.bdMdat.goName ∉ mayLoseErrors ∧
    typedFields Cat.bdMdat.fields [("Data", .slice [.uint 1, .uint 2])] = true ∧
    marshalBox Cat.bdMdat (watch roomFor) {} [("Data", .slice [.uint 1, .uint 2])] (2, false) = (.ok 2, (0, false)) ∧
    (marshalBox Cat.bdMdat (watch roomFor) {} [("Data", .slice [.uint 1, .uint 2])] (1, false)).2 = (0, true) := by
  refine ⟨by simp [Cat.allDefs], by decide, by decide, by decide, by decide⟩

/-! ## C15 -/

/-- **C15** (partial) — If a list field of a box that is part of the encoding has fewer elements than the count
in force, `Marshal` does not succeed, whatever the destination.
Missing: lists inside the elements of other lists, for which it is false (next theorem); and the count
0xFFFFFFFF, which the code takes for "unlimited". -/
theorem marshal_rejects_short_list_partial {σ : Type} (bd : BoxDef) (hbd : bd ∈ Cat.allDefs) (k : Sink σ) (ctx : Ctx)
    (sv : SV) (f : Field) (t : Ty) (hf : (f, Ty.slice t) ∈ bd.fields.toList) (hdyn : f.lenDyn = true)
    (hp : present bd.cfo ctx sv.version sv.flags sv f = true)
    (l : List Val) (hl : sv.get f.name = some (.slice l))
    (count : Nat) (hc : bd.cfo.length f.name ctx sv = some count) (hshort : l.length < count)
    (hu : count ≠ 0xFFFFFFFF) (s : σ) (n : Nat) :
    (marshalBox bd k ctx sv s).1 ≠ .ok n := by
  intro h
  have hlen : (instField bd.cfo ctx sv f).length = count := by
    unfold instField
    simp [hdyn, hc]
  have hp' : present bd.cfo ctx sv.version sv.flags sv (instField bd.cfo ctx sv f) = true := by
    unfold instField
    exact hp
  have := marshalBox_slices hbd (s' := (marshalBox bd k ctx sv s).2) (n := n) (by rw [← h]) hf hp' hl
  rw [hlen] at this
  rcases this with this | this
  · exact hu this
  · omega

/-- **C15** fails for nested lists: an `hvcC` box with an array of NAL units that says it has one, but has none,
is written without an error, as 26 bytes that do not contain a NAL unit. -/
theorem marshal_accepts_short_nested_list :
    (marshalBox Cat.bdHvcC memSink {} [
      ("ConfigurationVersion", .uint 1), ("GeneralProfileSpace", .uint 0), ("GeneralTierFlag", .bool false),
      ("GeneralProfileIdc", .uint 1), ("GeneralProfileCompatibility", .arr (List.replicate 32 (.bool false))),
      ("GeneralConstraintIndicator", .arr (List.replicate 6 (.uint 0))), ("GeneralLevelIdc", .uint 0),
      ("Reserved1", .uint 15), ("MinSpatialSegmentationIdc", .uint 0), ("Reserved2", .uint 63),
      ("ParallelismType", .uint 0), ("Reserved3", .uint 63), ("ChromaFormatIdc", .uint 0),
      ("Reserved4", .uint 31), ("BitDepthLumaMinus8", .uint 0), ("Reserved5", .uint 31),
      ("BitDepthChromaMinus8", .uint 0), ("AvgFrameRate", .uint 0), ("ConstantFrameRate", .uint 0),
      ("NumTemporalLayers", .uint 0), ("TemporalIdNested", .uint 0), ("LengthSizeMinusOne", .uint 3),
      ("NumOfNaluArrays", .uint 1),
      ("NaluArrays", .slice [.struct [("Completeness", .bool false), ("Reserved", .bool false),
        ("NaluType", .uint 32), ("NumNalus", .uint 1), ("Nalus", .slice [])]])] []).1 = .ok 26 := by decide +kernel

/-- the hypotheses are met: an `stts` box that says it has two entries, but has one -/
example : ∃ f t, (f, Ty.slice t) ∈ Cat.bdStts.fields.toList ∧ f.lenDyn = true ∧ f.name = "Entries" ∧
    present Cat.bdStts.cfo {} 0 0 [] f = true ∧
    Cat.bdStts.cfo.length f.name {} [fullBox 0 0 0 0, ("EntryCount", .uint 2),
      ("Entries", .slice [.struct [("SampleCount", .uint 5), ("SampleDelta", .uint 1024)]])] = some 2 := by
  refine ⟨{ name := "Entries", lenDyn := true, size := 64 }, Cat.tySttsEntry, ?_, rfl, rfl, by decide, by decide⟩
  simp [Cat.bdStts, Cat.fsStts, Fields.ofList, Fields.toList]

/-! ## C16 -/

/-- **C16** (partial) — `Marshal` of every value of every box type returns, with a result or an error, and does
not panic, whatever the destination does, except: for `elst` and `tfra` only versions 0 and 1 are
covered, for `esds` only values without nil pointers in descriptors that need them.
In these cases it is false (next theorems). -/
theorem marshal_never_panics_partial {σ : Type} (bd : BoxDef) (hbd : bd ∈ Cat.allDefs) (k : Sink σ) (ctx : Ctx)
    (sv : SV) (hty : typedFields bd.fields sv = true)
    (hver : bd.goName = "Elst" ∨ bd.goName = "Tfra" → sv.version = 0 ∨ sv.version = 1)
    (hnil : bd.goName = "Esds" → noNilFields (env bd ctx sv) (some bd.cfo) bd.fields sv = true) (s : σ) :
    (marshalBox bd k ctx sv s).1 ≠ .panic ∧ (marshalBox bd k ctx sv s).1 ≠ .hang := by
  refine marshalBox_noPanic hbd k hty hver ?_ s
  rcases allDefs_noPtr bd hbd with h | h
  · exact hnil h
  · exact noNilFields_of_noPtr _ _ _ _ h

/-- **C16** fails for an `elst` box of version 2, … -/
theorem marshal_elst_panics : (marshalBox Cat.bdElst memSink {} [fullBox 2 0 0 0, ("EntryCount", .uint 0),
    ("Entries", .slice [])] []).1 = .panic := by decide +kernel

/-- … and for an `esds` box with a decoder configuration that is nil. -/
theorem marshal_esds_panics : (marshalBox Cat.bdEsds memSink {} [fullBox 0 0 0 0,
    ("Descriptors", .slice [.struct [("Tag", .int 4), ("Size", .uint 13), ("ESDescriptor", .ptr none),
      ("DecoderConfigDescriptor", .ptr none), ("Data", .slice [])]])] []).1 = .panic := by decide +kernel

/-- the hypotheses are met by the `esds` box in `Verif.Props.RoundTrip` -/
example : Cat.bdEsds ∈ Cat.allDefs ∧ typedFields Cat.bdEsds.fields exEsds = true ∧
    noNilFields (env Cat.bdEsds {} exEsds) (some Cat.bdEsds.cfo) Cat.bdEsds.fields exEsds = true := by
  refine ⟨by simp [Cat.allDefs], by decide +kernel, by decide +kernel⟩

end Mp4.Props
