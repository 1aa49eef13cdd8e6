import Verif.Lemmas.SoundUnmarshal
import Verif.Props.RoundTrip
import Verif.Model.ValEq

/-!
# C07: `Unmarshal` followed by `Marshal`

A payload is in canonical form if the library would write it like this: either literally
(`reencode_canonical`), or — for all types that do not have several encodings of the same length — if its
length is that of the encoding of what was decoded (`reencode`).  The second form is a much weaker demand: it only
excludes payloads in which a string is not terminated.  Box types without strings have no further
condition at all (`reencode_noStr`).
-/

namespace Mp4.Props

open Mp4 Mp4.Spec

/-- **C07**, first part — For every box type other than `esds` and `hdlr`, every stream, position, announced payload size and
previous contents of the destination: if `Unmarshal` succeeds having consumed `n` bytes, and the encoding of the result has
`n` bytes, then `Marshal` of the result succeeds, reports `n`, and writes the very bytes that were consumed. -/
theorem reencode (bd : BoxDef) (hbd : bd ∈ Cat.allDefs) (he : bd.goName ≠ "Esds") (hh : bd.goName ≠ "Hdlr")
    (d : Bytes) (hd : d.length ≤ 2 ^ 48) (pos : Nat) (hpos : pos ≤ d.length) (ctx : Ctx) (ps : Nat) (dst : SV)
    (hty : typedFields bd.fields dst = true) (n : Nat) (sv : SV) (pos' : Nat)
    (hu : unmarshalBox bd d ctx ps dst pos = (.ok (n, sv), pos')) (hl : (layout bd ctx sv).length = 8 * n)
    (out : Bytes) : marshalBox bd memSink ctx sv out = (.ok n, out ++ (d.drop pos).take n) := by
  have ha : ambiguous bd = false := by simp [ambiguous, he, hh]
  obtain ⟨hw, hb⟩ := unmarshalBox_exact hbd ha hd hty hpos hu hl
  rw [marshalBox_writes hw (by omega) (allDefs_emsg bd hbd) out, hb, hl, Nat.mul_div_cancel_left _ (by decide)]

/-- The same, without reference to the layout: if `Marshal` reports as many bytes as `Unmarshal` did, they are the same
bytes. -/
theorem reencode_same_size (bd : BoxDef) (hbd : bd ∈ Cat.allDefs) (he : bd.goName ≠ "Esds") (hh : bd.goName ≠ "Hdlr")
    (d : Bytes) (hd : d.length ≤ 2 ^ 48) (pos : Nat) (hpos : pos ≤ d.length) (ctx : Ctx) (ps : Nat) (dst : SV)
    (hty : typedFields bd.fields dst = true) (n : Nat) (sv : SV) (pos' : Nat)
    (hu : unmarshalBox bd d ctx ps dst pos = (.ok (n, sv), pos')) (out out' : Bytes)
    (hm : marshalBox bd memSink ctx sv out = (.ok n, out')) : out' = out ++ (d.drop pos).take n := by
  have ha : ambiguous bd = false := by simp [ambiguous, he, hh]
  have hw := unmarshalBox_result_writable hbd ha hd hty hpos hu
  have h1 := (marshalBox_writable hw hm).1
  rw [reencode bd hbd he hh d hd pos hpos ctx ps dst hty n sv pos' hu h1 out] at hm
  exact (Prod.mk.inj hm).2.symm

/-- For a box type without strings no condition is needed: whatever `Unmarshal` accepts, `Marshal` of the result writes the very bytes
that were consumed.  (The exception is a `meta` box in the form of QuickTime, without version and flags, of which
`Unmarshal` consumes nothing.) -/
theorem reencode_noStr (bd : BoxDef) (hbd : bd ∈ Cat.allDefs) (he : bd.goName ≠ "Esds") (hs : bd.fields.hasStr = false)
    (d : Bytes) (hd : d.length ≤ 2 ^ 48) (pos : Nat) (hpos : pos ≤ d.length) (ctx : Ctx) (ps : Nat) (dst : SV)
    (hty : typedFields bd.fields dst = true) (n : Nat) (sv : SV) (pos' : Nat)
    (hu : unmarshalBox bd d ctx ps dst pos = (.ok (n, sv), pos')) (hm : bd.goName = "Meta" → n ≠ 0) (out : Bytes) :
    marshalBox bd memSink ctx sv out = (.ok n, out ++ (d.drop pos).take n) := by
  rcases unmarshalBox_exact_noStr hbd hs he hd hty hpos hu with ⟨rfl, h0⟩ | ⟨hw, hl, hb⟩
  · exact absurd h0 (hm rfl)
  · rw [marshalBox_writes hw (by omega) (allDefs_emsg bd hbd) out, hb, hl, Nat.mul_div_cancel_left _ (by decide)]

/-- **C07**, second part — for every box type (also `esds` and `hdlr`): a payload that is the encoding of a value that can be
represented is consumed completely and written again identically. -/
theorem reencode_canonical (bd : BoxDef) (hbd : bd ∈ Cat.allDefs) (ctx : Ctx) (pre p rest : Bytes)
    (hlen : (pre ++ p ++ rest).length < 2 ^ 64) (sv : SV) (hfit : fits bd ctx sv = true)
    (hp : bytesBits p = layout bd ctx sv) (out : Bytes) :
    unmarshalBox bd (pre ++ p ++ rest) ctx p.length bd.fields.zero pre.length =
      (.ok (p.length, sv), pre.length + p.length) ∧
    marshalBox bd memSink ctx sv out = (.ok p.length, out ++ p) := by
  obtain ⟨p', h1, h2, h3⟩ := box_round_trip bd hbd ctx sv hfit out pre rest
  have : p' = p := bytesBits_inj (by rw [h1, hp])
  subst this
  exact ⟨h3 hlen, h2⟩

/-! ## the hypotheses are met, and needed -/

/-- the payload of a `stsc` box with one entry -/
def exStsc : Bytes := [0#8, 0#8, 0#8, 0#8, 0#8, 0#8, 0#8, 1#8, 0#8, 0#8, 0#8, 1#8, 0#8, 0#8, 0#8, 2#8, 0#8, 0#8, 0#8, 3#8]

/-- `reencode_noStr` applies to it -/
example : Cat.bdStsc ∈ Cat.allDefs ∧ Cat.bdStsc.fields.hasStr = false ∧
    (unmarshalBox Cat.bdStsc exStsc {} 20 Cat.bdStsc.fields.zero 0).2 = 20 ∧
    (∃ sv, unmarshalBox Cat.bdStsc exStsc {} 20 Cat.bdStsc.fields.zero 0 = (.ok (20, sv), 20)) := by
  refine ⟨by simp [Cat.allDefs], by decide +kernel, by decide +kernel,
    [("FullBox", fullBoxVal 0#8 0#8 0#8 0#8), ("EntryCount", .uint 1), ("Entries", .slice [
      .struct [("FirstChunk", .uint 1), ("SamplesPerChunk", .uint 2), ("SampleDescriptionIndex", .uint 3)]])],
    by decide +kernel⟩

/-- the payload of a `url ` box that is not in the same file -/
def exUrl : Bytes := [0#8, 0#8, 0#8, 0#8, 0x61#8, 0x62#8, 0#8]

/-- what is decoded from it -/
def exUrlSV : SV := [("FullBox", fullBoxVal 0#8 0#8 0#8 0#8), ("Location", .str [0x61#8, 0x62#8])]

/-- `reencode` applies to a `url ` box with a terminated string -/
example : Cat.bdUrl ∈ Cat.allDefs ∧ unmarshalBox Cat.bdUrl exUrl {} 7 Cat.bdUrl.fields.zero 0 = (.ok (7, exUrlSV), 7) ∧
    (layout Cat.bdUrl {} exUrlSV).length = 8 * 7 := by
  refine ⟨by simp [Cat.allDefs], by decide +kernel, by decide +kernel⟩

/-- Without the terminating NUL, the same value is decoded from six bytes, and `Marshal` writes seven. -/
theorem reencode_unterminated_differs :
    unmarshalBox Cat.bdUrl (exUrl.take 6) {} 6 Cat.bdUrl.fields.zero 0 = (.ok (6, exUrlSV), 6) ∧
    marshalBox Cat.bdUrl memSink {} exUrlSV [] = (.ok 7, exUrl) := by
  refine ⟨by decide +kernel, by decide +kernel⟩

/-- the payload of a `hdlr` box of QuickTime, with a Pascal string as name -/
def exHdlr : Bytes := [0#8, 0#8, 0#8, 0#8, 0x6d#8, 0x68#8, 0x6c#8, 0x72#8, 0x76#8, 0x69#8, 0x64#8, 0x65#8,
  0#8, 0#8, 0#8, 0#8, 0#8, 0#8, 0#8, 0#8, 0#8, 0#8, 0#8, 0#8, 2#8, 0x61#8, 0x62#8]

/-- what is decoded from it -/
def exHdlrSV : SV := [("FullBox", fullBoxVal 0#8 0#8 0#8 0#8), ("PreDefined", .uint 0x6d686c72),
  ("HandlerType", .arr [.uint 0x76, .uint 0x69, .uint 0x64, .uint 0x65]),
  ("Reserved", .arr [.uint 0, .uint 0, .uint 0]), ("Name", .str [0x61#8, 0x62#8])]

/-- For `hdlr` the length of the encoding does not decide: the name of a QuickTime `hdlr` box is a Pascal string and is
written as a NUL-terminated one. -/
theorem reencode_hdlr_differs :
    unmarshalBox Cat.bdHdlr exHdlr {} 27 Cat.bdHdlr.fields.zero 0 = (.ok (27, exHdlrSV), 27) ∧
    marshalBox Cat.bdHdlr memSink {} exHdlrSV [] = (.ok 27, exHdlr.take 24 ++ [0x61#8, 0x62#8, 0#8]) := by
  refine ⟨by decide +kernel, by decide +kernel⟩

/-- the payload of an `esds` box with two descriptors, whose sizes take three and five bytes -/
def exEsdsLong : Bytes := [0#8, 0#8, 0#8, 0#8, 5#8, 0x80#8, 0x80#8, 1#8, 0x11#8, 6#8, 0x80#8, 0x80#8, 0x80#8, 0x80#8, 1#8, 0x22#8]

/-- what is decoded from it -/
def exEsdsLongSV : SV := [("FullBox", fullBoxVal 0#8 0#8 0#8 0#8), ("Descriptors", .slice [
  .struct [("Tag", .int 5), ("Size", .uint 1), ("ESDescriptor", .ptr none), ("DecoderConfigDescriptor", .ptr none),
    ("Data", .slice [.uint 0x11])],
  .struct [("Tag", .int 6), ("Size", .uint 1), ("ESDescriptor", .ptr none), ("DecoderConfigDescriptor", .ptr none),
    ("Data", .slice [.uint 0x22])]])]

/-- For `esds` it does not decide either: the sizes of descriptors are always written with four bytes. -/
theorem reencode_esds_differs :
    unmarshalBox Cat.bdEsds exEsdsLong {} 16 Cat.bdEsds.fields.zero 0 = (.ok (16, exEsdsLongSV), 16) ∧
    marshalBox Cat.bdEsds memSink {} exEsdsLongSV [] =
      (.ok 16, [0#8, 0#8, 0#8, 0#8, 5#8, 0x80#8, 0x80#8, 0x80#8, 1#8, 0x11#8, 6#8, 0x80#8, 0x80#8, 0x80#8, 1#8, 0x22#8]) := by
  refine ⟨by decide +kernel, by decide +kernel⟩

end Mp4.Props
