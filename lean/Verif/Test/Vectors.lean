import Verif.Model.Catalog
import Verif.Model.Stringify
import Verif.Spec.Layout

/-!
# The test vectors of the repository

Generated by tools/gen_vectors.py from /repo/box_types_*_test.go.  These are tests of the
fidelity of the model, not proofs: `Marshal` and `Unmarshal` of the model agree with
the expected bytes of the repository's own tests, and `Stringify` with the expected text.
-/

namespace Mp4.Cat.Test

open Mp4 Mp4.Cat

/-- test cases -/
def vectors0 : List (String × BoxDef × Ctx × SV × Bytes) := [
  ("udta 3gpp string", bdUdta3GppString, { underUdta := true }, [("FullBox", (.struct [("Version", (.uint 0)), ("Flags", (.arr [(.uint 0), (.uint 0), (.uint 0)]))])), ("Pad", (.bool false)), ("Language", (.arr [(.uint 5), (.uint 14), (.uint 7)])), ("Data", (.slice [(.uint 83), (.uint 73), (.uint 78), (.uint 71)]))],
    [0x00#8, 0x00#8, 0x00#8, 0x00#8, 0x15#8, 0xc7#8, 0x53#8, 0x49#8, 0x4e#8, 0x47#8]),
  ("Av1C", bdAv1C, {  }, [("Marker", (.uint 1)), ("Version", (.uint 1)), ("SeqProfile", (.uint 2)), ("SeqLevelIdx0", (.uint 1)), ("SeqTier0", (.uint 1)), ("HighBitdepth", (.uint 1)), ("TwelveBit", (.uint 0)), ("Monochrome", (.uint 0)), ("ChromaSubsamplingX", (.uint 1)), ("ChromaSubsamplingY", (.uint 1)), ("ChromaSamplePosition", (.uint 0)), ("Reserved", (.uint 0)), ("InitialPresentationDelayPresent", (.uint 0)), ("InitialPresentationDelayMinusOne", (.uint 0)), ("ConfigOBUs", (.slice [(.uint 8), (.uint 0), (.uint 0), (.uint 0), (.uint 66), (.uint 167), (.uint 191), (.uint 228), (.uint 96), (.uint 13), (.uint 0), (.uint 64)]))],
    [0x81#8, 0x41#8, 0xcc#8, 0x00#8, 0x08#8, 0x00#8, 0x00#8, 0x00#8, 0x42#8, 0xa7#8, 0xbf#8, 0xe4#8, 0x60#8, 0x0d#8, 0x00#8, 0x40#8]),
  ("dac3", bdDac3, {  }, [("Fscod", (.uint 0)), ("Bsid", (.uint 8)), ("Bsmod", (.uint 0)), ("Acmod", (.uint 7)), ("LfeOn", (.uint 1)), ("BitRateCode", (.uint 7)), ("Reserved", (.uint 0))],
    [0x10#8, 0x3c#8, 0xe0#8]),
  ("btrt", bdBtrt, {  }, [("BufferSizeDB", (.uint 305419896)), ("MaxBitrate", (.uint 878082202)), ("AvgBitrate", (.uint 1450744508))],
    [0x12#8, 0x34#8, 0x56#8, 0x78#8, 0x34#8, 0x56#8, 0x78#8, 0x9a#8, 0x56#8, 0x78#8, 0x9a#8, 0xbc#8]),
  ("co64", bdCo64, {  }, [("FullBox", (.struct [("Version", (.uint 0)), ("Flags", (.arr [(.uint 0), (.uint 0), (.uint 0)]))])), ("EntryCount", (.uint 2)), ("ChunkOffset", (.slice [(.uint 81985529216486895), (.uint 9920249030613615975)]))],
    [0x00#8, 0x00#8, 0x00#8, 0x00#8, 0x00#8, 0x00#8, 0x00#8, 0x02#8, 0x01#8, 0x23#8, 0x45#8, 0x67#8, 0x89#8, 0xab#8, 0xcd#8, 0xef#8, 0x89#8, 0xab#8, 0xcd#8, 0xef#8, 0x01#8, 0x23#8, 0x45#8, 0x67#8]),
  ("colr: nclx", bdColr, {  }, [("ColourType", (.arr [(.uint 110), (.uint 99), (.uint 108), (.uint 120)])), ("ColourPrimaries", (.uint 291)), ("TransferCharacteristics", (.uint 9029)), ("MatrixCoefficients", (.uint 17767)), ("FullRangeFlag", (.bool true)), ("Reserved", (.uint 103)), ("Profile", (.slice [])), ("Unknown", (.slice []))],
    [0x6e#8, 0x63#8, 0x6c#8, 0x78#8, 0x01#8, 0x23#8, 0x23#8, 0x45#8, 0x45#8, 0x67#8, 0xe7#8]),
  ("colr: rICC", bdColr, {  }, [("ColourType", (.arr [(.uint 114), (.uint 73), (.uint 67), (.uint 67)])), ("ColourPrimaries", (.uint 0)), ("TransferCharacteristics", (.uint 0)), ("MatrixCoefficients", (.uint 0)), ("FullRangeFlag", (.bool false)), ("Reserved", (.uint 0)), ("Profile", (.slice [(.uint 18), (.uint 52), (.uint 86), (.uint 120), (.uint 171)])), ("Unknown", (.slice []))],
    [0x72#8, 0x49#8, 0x43#8, 0x43#8, 0x12#8, 0x34#8, 0x56#8, 0x78#8, 0xab#8]),
  ("colr: nclc", bdColr, {  }, [("ColourType", (.arr [(.uint 110), (.uint 99), (.uint 108), (.uint 99)])), ("ColourPrimaries", (.uint 0)), ("TransferCharacteristics", (.uint 0)), ("MatrixCoefficients", (.uint 0)), ("FullRangeFlag", (.bool false)), ("Reserved", (.uint 0)), ("Profile", (.slice [])), ("Unknown", (.slice [(.uint 1), (.uint 35), (.uint 69)]))],
    [0x6e#8, 0x63#8, 0x6c#8, 0x63#8, 0x01#8, 0x23#8, 0x45#8]),
  ("cslg: version 0", bdCslg, {  }, [("FullBox", (.struct [("Version", (.uint 0)), ("Flags", (.arr [(.uint 0), (.uint 0), (.uint 0)]))])), ("CompositionToDTSShiftV0", (.int (305419896))), ("LeastDecodeToDisplayDeltaV0", (.int (-305419896))), ("GreatestDecodeToDisplayDeltaV0", (.int (305419896))), ("CompositionStartTimeV0", (.int (-305419896))), ("CompositionEndTimeV0", (.int (305419896))), ("CompositionToDTSShiftV1", (.int (0))), ("LeastDecodeToDisplayDeltaV1", (.int (0))), ("GreatestDecodeToDisplayDeltaV1", (.int (0))), ("CompositionStartTimeV1", (.int (0))), ("CompositionEndTimeV1", (.int (0)))],
    [0x00#8, 0x00#8, 0x00#8, 0x00#8, 0x12#8, 0x34#8, 0x56#8, 0x78#8, 0xed#8, 0xcb#8, 0xa9#8, 0x88#8, 0x12#8, 0x34#8, 0x56#8, 0x78#8, 0xed#8, 0xcb#8, 0xa9#8, 0x88#8, 0x12#8, 0x34#8, 0x56#8, 0x78#8]),
  ("ctts: version 0", bdCtts, {  }, [("FullBox", (.struct [("Version", (.uint 0)), ("Flags", (.arr [(.uint 0), (.uint 0), (.uint 0)]))])), ("EntryCount", (.uint 2)), ("Entries", (.slice [(.struct [("SampleCount", (.uint 19088743)), ("SampleOffsetV0", (.uint 305419896)), ("SampleOffsetV1", (.int (0)))]), (.struct [("SampleCount", (.uint 2309737967)), ("SampleOffsetV0", (.uint 2023406814)), ("SampleOffsetV1", (.int (0)))])]))],
    [0x00#8, 0x00#8, 0x00#8, 0x00#8, 0x00#8, 0x00#8, 0x00#8, 0x02#8, 0x01#8, 0x23#8, 0x45#8, 0x67#8, 0x12#8, 0x34#8, 0x56#8, 0x78#8, 0x89#8, 0xab#8, 0xcd#8, 0xef#8, 0x78#8, 0x9a#8, 0xbc#8, 0xde#8]),
  ("ctts: version 1", bdCtts, {  }, [("FullBox", (.struct [("Version", (.uint 1)), ("Flags", (.arr [(.uint 0), (.uint 0), (.uint 0)]))])), ("EntryCount", (.uint 2)), ("Entries", (.slice [(.struct [("SampleCount", (.uint 19088743)), ("SampleOffsetV0", (.uint 0)), ("SampleOffsetV1", (.int (305419896)))]), (.struct [("SampleCount", (.uint 2309737967)), ("SampleOffsetV0", (.uint 0)), ("SampleOffsetV1", (.int (-2023406814)))])]))],
    [0x01#8, 0x00#8, 0x00#8, 0x00#8, 0x00#8, 0x00#8, 0x00#8, 0x02#8, 0x01#8, 0x23#8, 0x45#8, 0x67#8, 0x12#8, 0x34#8, 0x56#8, 0x78#8, 0x89#8, 0xab#8, 0xcd#8, 0xef#8, 0x87#8, 0x65#8, 0x43#8, 0x22#8]),
  ("dinf", bdDinf, {  }, [],
    [])]

/-- test cases -/
def vectors1 : List (String × BoxDef × Ctx × SV × Bytes) := [
  ("dref", bdDref, {  }, [("FullBox", (.struct [("Version", (.uint 0)), ("Flags", (.arr [(.uint 0), (.uint 0), (.uint 0)]))])), ("EntryCount", (.uint 305419896))],
    [0x00#8, 0x00#8, 0x00#8, 0x00#8, 0x12#8, 0x34#8, 0x56#8, 0x78#8]),
  ("edts", bdEdts, {  }, [],
    []),
  ("elst: version 0", bdElst, {  }, [("FullBox", (.struct [("Version", (.uint 0)), ("Flags", (.arr [(.uint 0), (.uint 0), (.uint 0)]))])), ("EntryCount", (.uint 2)), ("Entries", (.slice [(.struct [("SegmentDurationV0", (.uint 16777226)), ("MediaTimeV0", (.int (16777227))), ("SegmentDurationV1", (.uint 0)), ("MediaTimeV1", (.int (0))), ("MediaRateInteger", (.int (268))), ("MediaRateFraction", (.int (269)))]), (.struct [("SegmentDurationV0", (.uint 33554442)), ("MediaTimeV0", (.int (33554443))), ("SegmentDurationV1", (.uint 0)), ("MediaTimeV1", (.int (0))), ("MediaRateInteger", (.int (524))), ("MediaRateFraction", (.int (525)))])]))],
    [0x00#8, 0x00#8, 0x00#8, 0x00#8, 0x00#8, 0x00#8, 0x00#8, 0x02#8, 0x01#8, 0x00#8, 0x00#8, 0x0a#8, 0x01#8, 0x00#8, 0x00#8, 0x0b#8, 0x01#8, 0x0c#8, 0x01#8, 0x0d#8, 0x02#8, 0x00#8, 0x00#8, 0x0a#8, 0x02#8, 0x00#8, 0x00#8, 0x0b#8, 0x02#8, 0x0c#8, 0x02#8, 0x0d#8]),
  ("elst: version 1", bdElst, {  }, [("FullBox", (.struct [("Version", (.uint 1)), ("Flags", (.arr [(.uint 0), (.uint 0), (.uint 0)]))])), ("EntryCount", (.uint 2)), ("Entries", (.slice [(.struct [("SegmentDurationV0", (.uint 0)), ("MediaTimeV0", (.int (0))), ("SegmentDurationV1", (.uint 72057594037927946)), ("MediaTimeV1", (.int (72057594037927947))), ("MediaRateInteger", (.int (268))), ("MediaRateFraction", (.int (269)))]), (.struct [("SegmentDurationV0", (.uint 0)), ("MediaTimeV0", (.int (0))), ("SegmentDurationV1", (.uint 144115188075855882)), ("MediaTimeV1", (.int (144115188075855883))), ("MediaRateInteger", (.int (524))), ("MediaRateFraction", (.int (525)))])]))],
    [0x01#8, 0x00#8, 0x00#8, 0x00#8, 0x00#8, 0x00#8, 0x00#8, 0x02#8, 0x01#8, 0x00#8, 0x00#8, 0x00#8, 0x00#8, 0x00#8, 0x00#8, 0x0a#8, 0x01#8, 0x00#8, 0x00#8, 0x00#8, 0x00#8, 0x00#8, 0x00#8, 0x0b#8, 0x01#8, 0x0c#8, 0x01#8, 0x0d#8, 0x02#8, 0x00#8, 0x00#8, 0x00#8, 0x00#8, 0x00#8, 0x00#8, 0x0a#8, 0x02#8, 0x00#8, 0x00#8, 0x00#8, 0x00#8, 0x00#8, 0x00#8, 0x0b#8, 0x02#8, 0x0c#8, 0x02#8, 0x0d#8]),
  ("emsg: version 0", bdEmsg, {  }, [("FullBox", (.struct [("Version", (.uint 0)), ("Flags", (.arr [(.uint 0), (.uint 0), (.uint 0)]))])), ("SchemeIdUri", (.str [0x75#8, 0x72#8, 0x6e#8, 0x3a#8, 0x74#8, 0x65#8, 0x73#8, 0x74#8])), ("Value", (.str [0x66#8, 0x6f#8, 0x6f#8])), ("Timescale", (.uint 1000)), ("PresentationTimeDelta", (.uint 123)), ("PresentationTime", (.uint 0)), ("EventDuration", (.uint 3000)), ("Id", (.uint 43981)), ("MessageData", (.slice [(.uint 97), (.uint 98), (.uint 101), (.uint 109), (.uint 97)]))],
    [0x00#8, 0x00#8, 0x00#8, 0x00#8, 0x75#8, 0x72#8, 0x6e#8, 0x3a#8, 0x74#8, 0x65#8, 0x73#8, 0x74#8, 0x00#8, 0x66#8, 0x6f#8, 0x6f#8, 0x00#8, 0x00#8, 0x00#8, 0x03#8, 0xe8#8, 0x00#8, 0x00#8, 0x00#8, 0x7b#8, 0x00#8, 0x00#8, 0x0b#8, 0xb8#8, 0x00#8, 0x00#8, 0xab#8, 0xcd#8, 0x61#8, 0x62#8, 0x65#8, 0x6d#8, 0x61#8]),
  ("emsg: version 1", bdEmsg, {  }, [("FullBox", (.struct [("Version", (.uint 1)), ("Flags", (.arr [(.uint 0), (.uint 0), (.uint 0)]))])), ("SchemeIdUri", (.str [0x75#8, 0x72#8, 0x6e#8, 0x3a#8, 0x74#8, 0x65#8, 0x73#8, 0x74#8])), ("Value", (.str [0x66#8, 0x6f#8, 0x6f#8])), ("Timescale", (.uint 1000)), ("PresentationTimeDelta", (.uint 0)), ("PresentationTime", (.uint 123)), ("EventDuration", (.uint 3000)), ("Id", (.uint 43981)), ("MessageData", (.slice [(.uint 97), (.uint 98), (.uint 101), (.uint 109), (.uint 97)]))],
    [0x01#8, 0x00#8, 0x00#8, 0x00#8, 0x00#8, 0x00#8, 0x03#8, 0xe8#8, 0x00#8, 0x00#8, 0x00#8, 0x00#8, 0x00#8, 0x00#8, 0x00#8, 0x7b#8, 0x00#8, 0x00#8, 0x0b#8, 0xb8#8, 0x00#8, 0x00#8, 0xab#8, 0xcd#8, 0x75#8, 0x72#8, 0x6e#8, 0x3a#8, 0x74#8, 0x65#8, 0x73#8, 0x74#8, 0x00#8, 0x66#8, 0x6f#8, 0x6f#8, 0x00#8, 0x61#8, 0x62#8, 0x65#8, 0x6d#8, 0x61#8]),
  ("fiel", bdFiel, {  }, [("FieldCount", (.uint 233)), ("FieldOrdering", (.uint 112))],
    [0xe9#8, 0x70#8]),
  ("free", bdFree, {  }, [("Data", (.slice [(.uint 18), (.uint 52), (.uint 86)]))],
    [0x12#8, 0x34#8, 0x56#8]),
  ("skip", bdSkip, {  }, [("Data", (.slice [(.uint 18), (.uint 52), (.uint 86)]))],
    [0x12#8, 0x34#8, 0x56#8]),
  ("frma", bdFrma, {  }, [("DataFormat", (.arr [(.uint 116), (.uint 101), (.uint 115), (.uint 116)]))],
    [0x74#8, 0x65#8, 0x73#8, 0x74#8]),
  ("ftyp", bdFtyp, {  }, [("MajorBrand", (.arr [(.uint 97), (.uint 98), (.uint 101), (.uint 109)])), ("MinorVersion", (.uint 305419896)), ("CompatibleBrands", (.slice [(.struct [("CompatibleBrand", (.arr [(.uint 97), (.uint 98), (.uint 99), (.uint 100)]))]), (.struct [("CompatibleBrand", (.arr [(.uint 101), (.uint 102), (.uint 103), (.uint 104)]))])]))],
    [0x61#8, 0x62#8, 0x65#8, 0x6d#8, 0x12#8, 0x34#8, 0x56#8, 0x78#8, 0x61#8, 0x62#8, 0x63#8, 0x64#8, 0x65#8, 0x66#8, 0x67#8, 0x68#8]),
  ("hdlr", bdHdlr, {  }, [("FullBox", (.struct [("Version", (.uint 0)), ("Flags", (.arr [(.uint 0), (.uint 0), (.uint 0)]))])), ("PreDefined", (.uint 305419896)), ("HandlerType", (.arr [(.uint 97), (.uint 98), (.uint 101), (.uint 109)])), ("Reserved", (.arr [(.uint 0), (.uint 0), (.uint 0)])), ("Name", (.str [0x41#8, 0x62#8, 0x65#8, 0x6d#8, 0x61#8]))],
    [0x00#8, 0x00#8, 0x00#8, 0x00#8, 0x12#8, 0x34#8, 0x56#8, 0x78#8, 0x61#8, 0x62#8, 0x65#8, 0x6d#8, 0x00#8, 0x00#8, 0x00#8, 0x00#8, 0x00#8, 0x00#8, 0x00#8, 0x00#8, 0x00#8, 0x00#8, 0x00#8, 0x00#8, 0x41#8, 0x62#8, 0x65#8, 0x6d#8, 0x61#8, 0x00#8])]

/-- test cases -/
def vectors2 : List (String × BoxDef × Ctx × SV × Bytes) := [
  ("hvcC", bdHvcC, {  }, [("ConfigurationVersion", (.uint 1)), ("GeneralProfileSpace", (.uint 0)), ("GeneralTierFlag", (.bool false)), ("GeneralProfileIdc", (.uint 1)), ("GeneralProfileCompatibility", (.arr [(.bool false), (.bool true), (.bool true), (.bool false), (.bool false), (.bool false), (.bool false), (.bool false), (.bool false), (.bool false), (.bool false), (.bool false), (.bool false), (.bool false), (.bool false), (.bool false), (.bool false), (.bool false), (.bool false), (.bool false), (.bool false), (.bool false), (.bool false), (.bool false), (.bool false), (.bool false), (.bool false), (.bool false), (.bool false), (.bool false), (.bool false), (.bool false)])), ("GeneralConstraintIndicator", (.arr [(.uint 144), (.uint 0), (.uint 0), (.uint 0), (.uint 0), (.uint 0)])), ("GeneralLevelIdc", (.uint 120)), ("Reserved1", (.uint 14)), ("MinSpatialSegmentationIdc", (.uint 0)), ("Reserved2", (.uint 63)), ("ParallelismType", (.uint 0)), ("Reserved3", (.uint 63)), ("ChromaFormatIdc", (.uint 1)), ("Reserved4", (.uint 31)), ("BitDepthLumaMinus8", (.uint 0)), ("Reserved5", (.uint 31)), ("BitDepthChromaMinus8", (.uint 0)), ("AvgFrameRate", (.uint 0)), ("ConstantFrameRate", (.uint 0)), ("NumTemporalLayers", (.uint 0)), ("TemporalIdNested", (.uint 3)), ("LengthSizeMinusOne", (.uint 3)), ("NumOfNaluArrays", (.uint 4)), ("NaluArrays", (.slice [(.struct [("Completeness", (.bool false)), ("Reserved", (.bool false)), ("NaluType", (.uint 32)), ("NumNalus", (.uint 1)), ("Nalus", (.slice [(.struct [("Length", (.uint 24)), ("NALUnit", (.slice [(.uint 64), (.uint 1), (.uint 12), (.uint 1), (.uint 255), (.uint 255), (.uint 1), (.uint 96), (.uint 0), (.uint 0), (.uint 3), (.uint 0), (.uint 144), (.uint 0), (.uint 0), (.uint 3), (.uint 0), (.uint 0), (.uint 3), (.uint 0), (.uint 120), (.uint 153), (.uint 152), (.uint 9)]))])]))]), (.struct [("Completeness", (.bool false)), ("Reserved", (.bool false)), ("NaluType", (.uint 33)), ("NumNalus", (.uint 1)), ("Nalus", (.slice [(.struct [("Length", (.uint 42)), ("NALUnit", (.slice [(.uint 6), (.uint 1), (.uint 1), (.uint 1), (.uint 96), (.uint 0), (.uint 0), (.uint 3), (.uint 0), (.uint 144), (.uint 0), (.uint 0), (.uint 3), (.uint 0), (.uint 0), (.uint 3), (.uint 0), (.uint 120), (.uint 160), (.uint 3), (.uint 192), (.uint 128), (.uint 16), (.uint 229), (.uint 150), (.uint 102), (.uint 105), (.uint 36), (.uint 202), (.uint 224), (.uint 16), (.uint 0), (.uint 0), (.uint 3), (.uint 0), (.uint 16), (.uint 0), (.uint 0), (.uint 3), (.uint 1), (.uint 224), (.uint 128)]))])]))]), (.struct [("Completeness", (.bool false)), ("Reserved", (.bool false)), ("NaluType", (.uint 34)), ("NumNalus", (.uint 1)), ("Nalus", (.slice [(.struct [("Length", (.uint 7)), ("NALUnit", (.slice [(.uint 68), (.uint 1), (.uint 193), (.uint 114), (.uint 180), (.uint 98), (.uint 64)]))])]))]), (.struct [("Completeness", (.bool false)), ("Reserved", (.bool false)), ("NaluType", (.uint 39)), ("NumNalus", (.uint 1)), ("Nalus", (.slice [(.struct [("Length", (.uint 11)), ("NALUnit", (.slice [(.uint 78), (.uint 1), (.uint 5), (.uint 255), (.uint 255), (.uint 255), (.uint 166), (.uint 44), (.uint 162), (.uint 222), (.uint 9)]))])]))])]))],
    [0x01#8, 0x01#8, 0x60#8, 0x00#8, 0x00#8, 0x00#8, 0x90#8, 0x00#8, 0x00#8, 0x00#8, 0x00#8, 0x00#8, 0x78#8, 0xe0#8, 0x00#8, 0xfc#8, 0xfd#8, 0xf8#8, 0xf8#8, 0x00#8, 0x00#8, 0x0f#8, 0x04#8, 0x20#8, 0x00#8, 0x01#8, 0x00#8, 0x18#8, 0x40#8, 0x01#8, 0x0c#8, 0x01#8, 0xff#8, 0xff#8, 0x01#8, 0x60#8, 0x00#8, 0x00#8, 0x03#8, 0x00#8, 0x90#8, 0x00#8, 0x00#8, 0x03#8, 0x00#8, 0x00#8, 0x03#8, 0x00#8, 0x78#8, 0x99#8, 0x98#8, 0x09#8, 0x21#8, 0x00#8, 0x01#8, 0x00#8, 0x2a#8, 0x06#8, 0x01#8, 0x01#8, 0x01#8, 0x60#8, 0x00#8, 0x00#8, 0x03#8, 0x00#8, 0x90#8, 0x00#8, 0x00#8, 0x03#8, 0x00#8, 0x00#8, 0x03#8, 0x00#8, 0x78#8, 0xa0#8, 0x03#8, 0xc0#8, 0x80#8, 0x10#8, 0xe5#8, 0x96#8, 0x66#8, 0x69#8, 0x24#8, 0xca#8, 0xe0#8, 0x10#8, 0x00#8, 0x00#8, 0x03#8, 0x00#8, 0x10#8, 0x00#8, 0x00#8, 0x03#8, 0x01#8, 0xe0#8, 0x80#8, 0x22#8, 0x00#8, 0x01#8, 0x00#8, 0x07#8, 0x44#8, 0x01#8, 0xc1#8, 0x72#8, 0xb4#8, 0x62#8, 0x40#8, 0x27#8, 0x00#8, 0x01#8, 0x00#8, 0x0b#8, 0x4e#8, 0x01#8, 0x05#8, 0xff#8, 0xff#8, 0xff#8, 0xa6#8, 0x2c#8, 0xa2#8, 0xde#8, 0x09#8]),
  ("mdat", bdMdat, {  }, [("Data", (.slice [(.uint 17), (.uint 34), (.uint 51)]))],
    [0x11#8, 0x22#8, 0x33#8]),
  ("mdhd: version 0", bdMdhd, {  }, [("FullBox", (.struct [("Version", (.uint 0)), ("Flags", (.arr [(.uint 0), (.uint 0), (.uint 0)]))])), ("CreationTimeV0", (.uint 305419896)), ("ModificationTimeV0", (.uint 591751049)), ("CreationTimeV1", (.uint 0)), ("ModificationTimeV1", (.uint 0)), ("Timescale", (.uint 16909060)), ("DurationV0", (.uint 33752069)), ("DurationV1", (.uint 0)), ("Pad", (.bool true)), ("Language", (.arr [(.uint 10), (.uint 16), (.uint 14)])), ("PreDefined", (.uint 0))],
    [0x00#8, 0x00#8, 0x00#8, 0x00#8, 0x12#8, 0x34#8, 0x56#8, 0x78#8, 0x23#8, 0x45#8, 0x67#8, 0x89#8, 0x01#8, 0x02#8, 0x03#8, 0x04#8, 0x02#8, 0x03#8, 0x04#8, 0x05#8, 0xaa#8, 0x0e#8, 0x00#8, 0x00#8]),
  ("mdhd: version 1", bdMdhd, {  }, [("FullBox", (.struct [("Version", (.uint 1)), ("Flags", (.arr [(.uint 0), (.uint 0), (.uint 0)]))])), ("CreationTimeV0", (.uint 0)), ("ModificationTimeV0", (.uint 0)), ("CreationTimeV1", (.uint 1311768467463790320)), ("ModificationTimeV1", (.uint 2541551405711093505)), ("Timescale", (.uint 16909060)), ("DurationV0", (.uint 0)), ("DurationV1", (.uint 144964032628459529)), ("Pad", (.bool true)), ("Language", (.arr [(.uint 10), (.uint 16), (.uint 14)])), ("PreDefined", (.uint 0))],
    [0x01#8, 0x00#8, 0x00#8, 0x00#8, 0x12#8, 0x34#8, 0x56#8, 0x78#8, 0x9a#8, 0xbc#8, 0xde#8, 0xf0#8, 0x23#8, 0x45#8, 0x67#8, 0x89#8, 0xab#8, 0xcd#8, 0xef#8, 0x01#8, 0x01#8, 0x02#8, 0x03#8, 0x04#8, 0x02#8, 0x03#8, 0x04#8, 0x05#8, 0x06#8, 0x07#8, 0x08#8, 0x09#8, 0xaa#8, 0x0e#8, 0x00#8, 0x00#8]),
  ("mdia", bdMdia, {  }, [],
    []),
  ("mehd: version 0", bdMehd, {  }, [("FullBox", (.struct [("Version", (.uint 0)), ("Flags", (.arr [(.uint 0), (.uint 0), (.uint 0)]))])), ("FragmentDurationV0", (.uint 19088743)), ("FragmentDurationV1", (.uint 0))],
    [0x00#8, 0x00#8, 0x00#8, 0x00#8, 0x01#8, 0x23#8, 0x45#8, 0x67#8]),
  ("mehd: version 1", bdMehd, {  }, [("FullBox", (.struct [("Version", (.uint 1)), ("Flags", (.arr [(.uint 0), (.uint 0), (.uint 0)]))])), ("FragmentDurationV0", (.uint 0)), ("FragmentDurationV1", (.uint 81985529216486895))],
    [0x01#8, 0x00#8, 0x00#8, 0x00#8, 0x01#8, 0x23#8, 0x45#8, 0x67#8, 0x89#8, 0xab#8, 0xcd#8, 0xef#8]),
  ("meta", bdMeta, {  }, [("FullBox", (.struct [("Version", (.uint 0)), ("Flags", (.arr [(.uint 0), (.uint 0), (.uint 0)]))]))],
    [0x00#8, 0x00#8, 0x00#8, 0x00#8]),
  ("mfhd", bdMfhd, {  }, [("FullBox", (.struct [("Version", (.uint 0)), ("Flags", (.arr [(.uint 0), (.uint 0), (.uint 0)]))])), ("SequenceNumber", (.uint 305419896))],
    [0x00#8, 0x00#8, 0x00#8, 0x00#8, 0x12#8, 0x34#8, 0x56#8, 0x78#8]),
  ("mfra", bdMfra, {  }, [],
    []),
  ("mfro", bdMfro, {  }, [("FullBox", (.struct [("Version", (.uint 0)), ("Flags", (.arr [(.uint 0), (.uint 0), (.uint 0)]))])), ("Size", (.uint 305419896))],
    [0x00#8, 0x00#8, 0x00#8, 0x00#8, 0x12#8, 0x34#8, 0x56#8, 0x78#8]),
  ("minf", bdMinf, {  }, [],
    [])]

/-- test cases -/
def vectors3 : List (String × BoxDef × Ctx × SV × Bytes) := [
  ("moof", bdMoof, {  }, [],
    []),
  ("moov", bdMoov, {  }, [],
    []),
  ("mvex", bdMvex, {  }, [],
    []),
  ("mvhd: version 0", bdMvhd, {  }, [("FullBox", (.struct [("Version", (.uint 0)), ("Flags", (.arr [(.uint 0), (.uint 0), (.uint 0)]))])), ("CreationTimeV0", (.uint 19088743)), ("ModificationTimeV0", (.uint 591751049)), ("CreationTimeV1", (.uint 0)), ("ModificationTimeV1", (.uint 0)), ("Timescale", (.uint 1164413355)), ("DurationV0", (.uint 1737075661)), ("DurationV1", (.uint 0)), ("Rate", (.int (-19088743))), ("Volume", (.int (291))), ("Reserved", (.int (0))), ("Reserved2", (.arr [(.uint 0), (.uint 0)])), ("Matrix", (.arr [(.int (0)), (.int (0)), (.int (0)), (.int (0)), (.int (0)), (.int (0)), (.int (0)), (.int (0)), (.int (0))])), ("PreDefined", (.arr [(.int (0)), (.int (0)), (.int (0)), (.int (0)), (.int (0)), (.int (0))])), ("NextTrackID", (.uint 2882400001))],
    [0x00#8, 0x00#8, 0x00#8, 0x00#8, 0x01#8, 0x23#8, 0x45#8, 0x67#8, 0x23#8, 0x45#8, 0x67#8, 0x89#8, 0x45#8, 0x67#8, 0x89#8, 0xab#8, 0x67#8, 0x89#8, 0xab#8, 0xcd#8, 0xfe#8, 0xdc#8, 0xba#8, 0x99#8, 0x01#8, 0x23#8, 0x00#8, 0x00#8, 0x00#8, 0x00#8, 0x00#8, 0x00#8, 0x00#8, 0x00#8, 0x00#8, 0x00#8, 0x00#8, 0x00#8, 0x00#8, 0x00#8, 0x00#8, 0x00#8, 0x00#8, 0x00#8, 0x00#8, 0x00#8, 0x00#8, 0x00#8, 0x00#8, 0x00#8, 0x00#8, 0x00#8, 0x00#8, 0x00#8, 0x00#8, 0x00#8, 0x00#8, 0x00#8, 0x00#8, 0x00#8, 0x00#8, 0x00#8, 0x00#8, 0x00#8, 0x00#8, 0x00#8, 0x00#8, 0x00#8, 0x00#8, 0x00#8, 0x00#8, 0x00#8, 0x00#8, 0x00#8, 0x00#8, 0x00#8, 0x00#8, 0x00#8, 0x00#8, 0x00#8, 0x00#8, 0x00#8, 0x00#8, 0x00#8, 0x00#8, 0x00#8, 0x00#8, 0x00#8, 0x00#8, 0x00#8, 0x00#8, 0x00#8, 0x00#8, 0x00#8, 0x00#8, 0x00#8, 0xab#8, 0xcd#8, 0xef#8, 0x01#8]),
  ("mvhd: version 1", bdMvhd, {  }, [("FullBox", (.struct [("Version", (.uint 1)), ("Flags", (.arr [(.uint 0), (.uint 0), (.uint 0)]))])), ("CreationTimeV0", (.uint 0)), ("ModificationTimeV0", (.uint 0)), ("CreationTimeV1", (.uint 81985529216486895)), ("ModificationTimeV1", (.uint 2541551405711093505)), ("Timescale", (.uint 2309737967)), ("DurationV0", (.uint 0)), ("DurationV1", (.uint 5001117282205630755)), ("Rate", (.int (-19088743))), ("Volume", (.int (291))), ("Reserved", (.int (0))), ("Reserved2", (.arr [(.uint 0), (.uint 0)])), ("Matrix", (.arr [(.int (0)), (.int (0)), (.int (0)), (.int (0)), (.int (0)), (.int (0)), (.int (0)), (.int (0)), (.int (0))])), ("PreDefined", (.arr [(.int (0)), (.int (0)), (.int (0)), (.int (0)), (.int (0)), (.int (0))])), ("NextTrackID", (.uint 2882400001))],
    [0x01#8, 0x00#8, 0x00#8, 0x00#8, 0x01#8, 0x23#8, 0x45#8, 0x67#8, 0x89#8, 0xab#8, 0xcd#8, 0xef#8, 0x23#8, 0x45#8, 0x67#8, 0x89#8, 0xab#8, 0xcd#8, 0xef#8, 0x01#8, 0x89#8, 0xab#8, 0xcd#8, 0xef#8, 0x45#8, 0x67#8, 0x89#8, 0xab#8, 0xcd#8, 0xef#8, 0x01#8, 0x23#8, 0xfe#8, 0xdc#8, 0xba#8, 0x99#8, 0x01#8, 0x23#8, 0x00#8, 0x00#8, 0x00#8, 0x00#8, 0x00#8, 0x00#8, 0x00#8, 0x00#8, 0x00#8, 0x00#8, 0x00#8, 0x00#8, 0x00#8, 0x00#8, 0x00#8, 0x00#8, 0x00#8, 0x00#8, 0x00#8, 0x00#8, 0x00#8, 0x00#8, 0x00#8, 0x00#8, 0x00#8, 0x00#8, 0x00#8, 0x00#8, 0x00#8, 0x00#8, 0x00#8, 0x00#8, 0x00#8, 0x00#8, 0x00#8, 0x00#8, 0x00#8, 0x00#8, 0x00#8, 0x00#8, 0x00#8, 0x00#8, 0x00#8, 0x00#8, 0x00#8, 0x00#8, 0x00#8, 0x00#8, 0x00#8, 0x00#8, 0x00#8, 0x00#8, 0x00#8, 0x00#8, 0x00#8, 0x00#8, 0x00#8, 0x00#8, 0x00#8, 0x00#8, 0x00#8, 0x00#8, 0x00#8, 0x00#8, 0x00#8, 0x00#8, 0x00#8, 0x00#8, 0x00#8, 0x00#8, 0xab#8, 0xcd#8, 0xef#8, 0x01#8]),
  ("saio: version 0: no aux info type", bdSaio, {  }, [("FullBox", (.struct [("Version", (.uint 0)), ("Flags", (.arr [(.uint 0), (.uint 0), (.uint 0)]))])), ("AuxInfoType", (.arr [(.uint 0), (.uint 0), (.uint 0), (.uint 0)])), ("AuxInfoTypeParameter", (.uint 0)), ("EntryCount", (.uint 3)), ("OffsetV0", (.slice [(.uint 19088743), (.uint 591751049), (.uint 1164413355)])), ("OffsetV1", (.slice []))],
    [0x00#8, 0x00#8, 0x00#8, 0x00#8, 0x00#8, 0x00#8, 0x00#8, 0x03#8, 0x01#8, 0x23#8, 0x45#8, 0x67#8, 0x23#8, 0x45#8, 0x67#8, 0x89#8, 0x45#8, 0x67#8, 0x89#8, 0xab#8]),
  ("saio: version 0: with aux info type", bdSaio, {  }, [("FullBox", (.struct [("Version", (.uint 0)), ("Flags", (.arr [(.uint 0), (.uint 0), (.uint 1)]))])), ("AuxInfoType", (.arr [(.uint 116), (.uint 101), (.uint 115), (.uint 116)])), ("AuxInfoTypeParameter", (.uint 2309737967)), ("EntryCount", (.uint 3)), ("OffsetV0", (.slice [(.uint 19088743), (.uint 591751049), (.uint 1164413355)])), ("OffsetV1", (.slice []))],
    [0x00#8, 0x00#8, 0x00#8, 0x01#8, 0x74#8, 0x65#8, 0x73#8, 0x74#8, 0x89#8, 0xab#8, 0xcd#8, 0xef#8, 0x00#8, 0x00#8, 0x00#8, 0x03#8, 0x01#8, 0x23#8, 0x45#8, 0x67#8, 0x23#8, 0x45#8, 0x67#8, 0x89#8, 0x45#8, 0x67#8, 0x89#8, 0xab#8]),
  ("saio: version 1: no aux info type", bdSaio, {  }, [("FullBox", (.struct [("Version", (.uint 1)), ("Flags", (.arr [(.uint 0), (.uint 0), (.uint 0)]))])), ("AuxInfoType", (.arr [(.uint 0), (.uint 0), (.uint 0), (.uint 0)])), ("AuxInfoTypeParameter", (.uint 0)), ("EntryCount", (.uint 2)), ("OffsetV0", (.slice [])), ("OffsetV1", (.slice [(.uint 81985529216486895), (.uint 81985529216486895)]))],
    [0x01#8, 0x00#8, 0x00#8, 0x00#8, 0x00#8, 0x00#8, 0x00#8, 0x02#8, 0x01#8, 0x23#8, 0x45#8, 0x67#8, 0x89#8, 0xab#8, 0xcd#8, 0xef#8, 0x01#8, 0x23#8, 0x45#8, 0x67#8, 0x89#8, 0xab#8, 0xcd#8, 0xef#8]),
  ("saiz: no aux info type; with default size", bdSaiz, {  }, [("FullBox", (.struct [("Version", (.uint 0)), ("Flags", (.arr [(.uint 0), (.uint 0), (.uint 0)]))])), ("AuxInfoType", (.arr [(.uint 0), (.uint 0), (.uint 0), (.uint 0)])), ("AuxInfoTypeParameter", (.uint 0)), ("DefaultSampleInfoSize", (.uint 1)), ("SampleCount", (.uint 19088743)), ("SampleInfoSize", (.slice []))],
    [0x00#8, 0x00#8, 0x00#8, 0x00#8, 0x01#8, 0x01#8, 0x23#8, 0x45#8, 0x67#8]),
  ("saiz: no aux info type; no default size", bdSaiz, {  }, [("FullBox", (.struct [("Version", (.uint 0)), ("Flags", (.arr [(.uint 0), (.uint 0), (.uint 0)]))])), ("AuxInfoType", (.arr [(.uint 0), (.uint 0), (.uint 0), (.uint 0)])), ("AuxInfoTypeParameter", (.uint 0)), ("DefaultSampleInfoSize", (.uint 0)), ("SampleCount", (.uint 3)), ("SampleInfoSize", (.slice [(.uint 1), (.uint 2), (.uint 3)]))],
    [0x00#8, 0x00#8, 0x00#8, 0x00#8, 0x00#8, 0x00#8, 0x00#8, 0x00#8, 0x03#8, 0x01#8, 0x02#8, 0x03#8]),
  ("saiz: with aux info type; with default size", bdSaiz, {  }, [("FullBox", (.struct [("Version", (.uint 0)), ("Flags", (.arr [(.uint 0), (.uint 0), (.uint 1)]))])), ("AuxInfoType", (.arr [(.uint 116), (.uint 101), (.uint 115), (.uint 116)])), ("AuxInfoTypeParameter", (.uint 2309737967)), ("DefaultSampleInfoSize", (.uint 1)), ("SampleCount", (.uint 19088743)), ("SampleInfoSize", (.slice []))],
    [0x00#8, 0x00#8, 0x00#8, 0x01#8, 0x74#8, 0x65#8, 0x73#8, 0x74#8, 0x89#8, 0xab#8, 0xcd#8, 0xef#8, 0x01#8, 0x01#8, 0x23#8, 0x45#8, 0x67#8]),
  ("VisualSampleEntry", bdVisualSampleEntry, {  }, [("SampleEntry", (.struct [("Reserved", (.arr [(.uint 0), (.uint 0), (.uint 0), (.uint 0), (.uint 0), (.uint 0)])), ("DataReferenceIndex", (.uint 4660))])), ("PreDefined", (.uint 257)), ("Reserved", (.uint 0)), ("PreDefined2", (.arr [(.uint 16777217), (.uint 16777218), (.uint 16777219)])), ("Width", (.uint 258)), ("Height", (.uint 259)), ("Horizresolution", (.uint 16777220)), ("Vertresolution", (.uint 16777221)), ("Reserved2", (.uint 16777222)), ("FrameCount", (.uint 260)), ("Compressorname", (.arr [(.uint 8), (.uint 97), (.uint 98), (.uint 101), (.uint 109), (.uint 97), (.uint 0), (.uint 116), (.uint 118), (.uint 0), (.uint 0), (.uint 0), (.uint 0), (.uint 0), (.uint 0), (.uint 0), (.uint 0), (.uint 0), (.uint 0), (.uint 0), (.uint 0), (.uint 0), (.uint 0), (.uint 0), (.uint 0), (.uint 0), (.uint 0), (.uint 0), (.uint 0), (.uint 0), (.uint 0), (.uint 0)])), ("Depth", (.uint 261)), ("PreDefined3", (.int (1001)))],
    [0x00#8, 0x00#8, 0x00#8, 0x00#8, 0x00#8, 0x00#8, 0x12#8, 0x34#8, 0x01#8, 0x01#8, 0x00#8, 0x00#8, 0x01#8, 0x00#8, 0x00#8, 0x01#8, 0x01#8, 0x00#8, 0x00#8, 0x02#8, 0x01#8, 0x00#8, 0x00#8, 0x03#8, 0x01#8, 0x02#8, 0x01#8, 0x03#8, 0x01#8, 0x00#8, 0x00#8, 0x04#8, 0x01#8, 0x00#8, 0x00#8, 0x05#8, 0x01#8, 0x00#8, 0x00#8, 0x06#8, 0x01#8, 0x04#8, 0x08#8, 0x61#8, 0x62#8, 0x65#8, 0x6d#8, 0x61#8, 0x00#8, 0x74#8, 0x76#8, 0x00#8, 0x00#8, 0x00#8, 0x00#8, 0x00#8, 0x00#8, 0x00#8, 0x00#8, 0x00#8, 0x00#8, 0x00#8, 0x00#8, 0x00#8, 0x00#8, 0x00#8, 0x00#8, 0x00#8, 0x00#8, 0x00#8, 0x00#8, 0x00#8, 0x00#8, 0x00#8, 0x01#8, 0x05#8, 0x03#8, 0xe9#8])]

/-- test cases -/
def vectors4 : List (String × BoxDef × Ctx × SV × Bytes) := [
  ("AudioSampleEntry", bdAudioSampleEntry, {  }, [("SampleEntry", (.struct [("Reserved", (.arr [(.uint 0), (.uint 0), (.uint 0), (.uint 0), (.uint 0), (.uint 0)])), ("DataReferenceIndex", (.uint 4660))])), ("EntryVersion", (.uint 291)), ("Reserved", (.arr [(.uint 0), (.uint 0), (.uint 0)])), ("ChannelCount", (.uint 9029)), ("SampleSize", (.uint 17767)), ("PreDefined", (.uint 26505)), ("Reserved2", (.uint 0)), ("SampleRate", (.uint 19088743)), ("QuickTimeData", (.slice []))],
    [0x00#8, 0x00#8, 0x00#8, 0x00#8, 0x00#8, 0x00#8, 0x12#8, 0x34#8, 0x01#8, 0x23#8, 0x00#8, 0x00#8, 0x00#8, 0x00#8, 0x00#8, 0x00#8, 0x23#8, 0x45#8, 0x45#8, 0x67#8, 0x67#8, 0x89#8, 0x00#8, 0x00#8, 0x01#8, 0x23#8, 0x45#8, 0x67#8]),
  ("AudioSampleEntry", bdAudioSampleEntry, {  }, [("SampleEntry", (.struct [("Reserved", (.arr [(.uint 0), (.uint 0), (.uint 0), (.uint 0), (.uint 0), (.uint 0)])), ("DataReferenceIndex", (.uint 4660))])), ("EntryVersion", (.uint 291)), ("Reserved", (.arr [(.uint 0), (.uint 0), (.uint 0)])), ("ChannelCount", (.uint 9029)), ("SampleSize", (.uint 17767)), ("PreDefined", (.uint 26505)), ("Reserved2", (.uint 0)), ("SampleRate", (.uint 19088743)), ("QuickTimeData", (.slice []))],
    [0x00#8, 0x00#8, 0x00#8, 0x00#8, 0x00#8, 0x00#8, 0x12#8, 0x34#8, 0x01#8, 0x23#8, 0x00#8, 0x00#8, 0x00#8, 0x00#8, 0x00#8, 0x00#8, 0x23#8, 0x45#8, 0x45#8, 0x67#8, 0x67#8, 0x89#8, 0x00#8, 0x00#8, 0x01#8, 0x23#8, 0x45#8, 0x67#8]),
  ("AudioSampleEntry (QuickTime v0)", bdAudioSampleEntry, { isQuickTimeCompatible := true }, [("SampleEntry", (.struct [("Reserved", (.arr [(.uint 0), (.uint 0), (.uint 0), (.uint 0), (.uint 0), (.uint 0)])), ("DataReferenceIndex", (.uint 4660))])), ("EntryVersion", (.uint 0)), ("Reserved", (.arr [(.uint 0), (.uint 0), (.uint 0)])), ("ChannelCount", (.uint 9029)), ("SampleSize", (.uint 17767)), ("PreDefined", (.uint 26505)), ("Reserved2", (.uint 0)), ("SampleRate", (.uint 19088743)), ("QuickTimeData", (.slice []))],
    [0x00#8, 0x00#8, 0x00#8, 0x00#8, 0x00#8, 0x00#8, 0x12#8, 0x34#8, 0x00#8, 0x00#8, 0x00#8, 0x00#8, 0x00#8, 0x00#8, 0x00#8, 0x00#8, 0x23#8, 0x45#8, 0x45#8, 0x67#8, 0x67#8, 0x89#8, 0x00#8, 0x00#8, 0x01#8, 0x23#8, 0x45#8, 0x67#8]),
  ("AudioSampleEntry (QuickTime v1)", bdAudioSampleEntry, { isQuickTimeCompatible := true }, [("SampleEntry", (.struct [("Reserved", (.arr [(.uint 0), (.uint 0), (.uint 0), (.uint 0), (.uint 0), (.uint 0)])), ("DataReferenceIndex", (.uint 4660))])), ("EntryVersion", (.uint 1)), ("Reserved", (.arr [(.uint 0), (.uint 0), (.uint 0)])), ("ChannelCount", (.uint 9029)), ("SampleSize", (.uint 17767)), ("PreDefined", (.uint 26505)), ("Reserved2", (.uint 0)), ("SampleRate", (.uint 19088743)), ("QuickTimeData", (.slice [(.uint 0), (.uint 17), (.uint 34), (.uint 51), (.uint 68), (.uint 85), (.uint 102), (.uint 119), (.uint 136), (.uint 153), (.uint 170), (.uint 187), (.uint 204), (.uint 221), (.uint 238), (.uint 255)]))],
    [0x00#8, 0x00#8, 0x00#8, 0x00#8, 0x00#8, 0x00#8, 0x12#8, 0x34#8, 0x00#8, 0x01#8, 0x00#8, 0x00#8, 0x00#8, 0x00#8, 0x00#8, 0x00#8, 0x23#8, 0x45#8, 0x45#8, 0x67#8, 0x67#8, 0x89#8, 0x00#8, 0x00#8, 0x01#8, 0x23#8, 0x45#8, 0x67#8, 0x00#8, 0x11#8, 0x22#8, 0x33#8, 0x44#8, 0x55#8, 0x66#8, 0x77#8, 0x88#8, 0x99#8, 0xaa#8, 0xbb#8, 0xcc#8, 0xdd#8, 0xee#8, 0xff#8]),
  ("AudioSampleEntry (QuickTime v2)", bdAudioSampleEntry, { isQuickTimeCompatible := true }, [("SampleEntry", (.struct [("Reserved", (.arr [(.uint 0), (.uint 0), (.uint 0), (.uint 0), (.uint 0), (.uint 0)])), ("DataReferenceIndex", (.uint 4660))])), ("EntryVersion", (.uint 2)), ("Reserved", (.arr [(.uint 0), (.uint 0), (.uint 0)])), ("ChannelCount", (.uint 9029)), ("SampleSize", (.uint 17767)), ("PreDefined", (.uint 26505)), ("Reserved2", (.uint 0)), ("SampleRate", (.uint 19088743)), ("QuickTimeData", (.slice [(.uint 0), (.uint 17), (.uint 34), (.uint 51), (.uint 68), (.uint 85), (.uint 102), (.uint 119), (.uint 136), (.uint 153), (.uint 170), (.uint 187), (.uint 204), (.uint 221), (.uint 238), (.uint 255), (.uint 0), (.uint 17), (.uint 34), (.uint 51), (.uint 68), (.uint 85), (.uint 102), (.uint 119), (.uint 136), (.uint 153), (.uint 170), (.uint 187), (.uint 204), (.uint 221), (.uint 238), (.uint 255), (.uint 0), (.uint 17), (.uint 34), (.uint 51)]))],
    [0x00#8, 0x00#8, 0x00#8, 0x00#8, 0x00#8, 0x00#8, 0x12#8, 0x34#8, 0x00#8, 0x02#8, 0x00#8, 0x00#8, 0x00#8, 0x00#8, 0x00#8, 0x00#8, 0x23#8, 0x45#8, 0x45#8, 0x67#8, 0x67#8, 0x89#8, 0x00#8, 0x00#8, 0x01#8, 0x23#8, 0x45#8, 0x67#8, 0x00#8, 0x11#8, 0x22#8, 0x33#8, 0x44#8, 0x55#8, 0x66#8, 0x77#8, 0x88#8, 0x99#8, 0xaa#8, 0xbb#8, 0xcc#8, 0xdd#8, 0xee#8, 0xff#8, 0x00#8, 0x11#8, 0x22#8, 0x33#8, 0x44#8, 0x55#8, 0x66#8, 0x77#8, 0x88#8, 0x99#8, 0xaa#8, 0xbb#8, 0xcc#8, 0xdd#8, 0xee#8, 0xff#8, 0x00#8, 0x11#8, 0x22#8, 0x33#8]),
  ("AVCDecoderConfiguration main profile", bdAVCDecoderConfiguration, {  }, [("ConfigurationVersion", (.uint 18)), ("Profile", (.uint 77)), ("ProfileCompatibility", (.uint 64)), ("Level", (.uint 31)), ("Reserved", (.uint 63)), ("LengthSizeMinusOne", (.uint 2)), ("Reserved2", (.uint 7)), ("NumOfSequenceParameterSets", (.uint 2)), ("SequenceParameterSets", (.slice [(.struct [("Length", (.uint 2)), ("NALUnit", (.slice [(.uint 18), (.uint 52)]))]), (.struct [("Length", (.uint 3)), ("NALUnit", (.slice [(.uint 18), (.uint 52), (.uint 86)]))])])), ("NumOfPictureParameterSets", (.uint 2)), ("PictureParameterSets", (.slice [(.struct [("Length", (.uint 2)), ("NALUnit", (.slice [(.uint 171), (.uint 205)]))]), (.struct [("Length", (.uint 3)), ("NALUnit", (.slice [(.uint 171), (.uint 205), (.uint 239)]))])])), ("HighProfileFieldsEnabled", (.bool false)), ("Reserved3", (.uint 0)), ("ChromaFormat", (.uint 0)), ("Reserved4", (.uint 0)), ("BitDepthLumaMinus8", (.uint 0)), ("Reserved5", (.uint 0)), ("BitDepthChromaMinus8", (.uint 0)), ("NumOfSequenceParameterSetExt", (.uint 0)), ("SequenceParameterSetsExt", (.slice []))],
    [0x12#8, 0x4d#8, 0x40#8, 0x1f#8, 0xfe#8, 0xe2#8, 0x00#8, 0x02#8, 0x12#8, 0x34#8, 0x00#8, 0x03#8, 0x12#8, 0x34#8, 0x56#8, 0x02#8, 0x00#8, 0x02#8, 0xab#8, 0xcd#8, 0x00#8, 0x03#8, 0xab#8, 0xcd#8, 0xef#8]),
  ("AVCDecoderConfiguration high profile old spec", bdAVCDecoderConfiguration, {  }, [("ConfigurationVersion", (.uint 18)), ("Profile", (.uint 100)), ("ProfileCompatibility", (.uint 0)), ("Level", (.uint 40)), ("Reserved", (.uint 63)), ("LengthSizeMinusOne", (.uint 2)), ("Reserved2", (.uint 7)), ("NumOfSequenceParameterSets", (.uint 2)), ("SequenceParameterSets", (.slice [(.struct [("Length", (.uint 2)), ("NALUnit", (.slice [(.uint 18), (.uint 52)]))]), (.struct [("Length", (.uint 3)), ("NALUnit", (.slice [(.uint 18), (.uint 52), (.uint 86)]))])])), ("NumOfPictureParameterSets", (.uint 2)), ("PictureParameterSets", (.slice [(.struct [("Length", (.uint 2)), ("NALUnit", (.slice [(.uint 171), (.uint 205)]))]), (.struct [("Length", (.uint 3)), ("NALUnit", (.slice [(.uint 171), (.uint 205), (.uint 239)]))])])), ("HighProfileFieldsEnabled", (.bool false)), ("Reserved3", (.uint 0)), ("ChromaFormat", (.uint 0)), ("Reserved4", (.uint 0)), ("BitDepthLumaMinus8", (.uint 0)), ("Reserved5", (.uint 0)), ("BitDepthChromaMinus8", (.uint 0)), ("NumOfSequenceParameterSetExt", (.uint 0)), ("SequenceParameterSetsExt", (.slice []))],
    [0x12#8, 0x64#8, 0x00#8, 0x28#8, 0xfe#8, 0xe2#8, 0x00#8, 0x02#8, 0x12#8, 0x34#8, 0x00#8, 0x03#8, 0x12#8, 0x34#8, 0x56#8, 0x02#8, 0x00#8, 0x02#8, 0xab#8, 0xcd#8, 0x00#8, 0x03#8, 0xab#8, 0xcd#8, 0xef#8]),
  ("AVCDecoderConfiguration high profile new spec", bdAVCDecoderConfiguration, {  }, [("ConfigurationVersion", (.uint 18)), ("Profile", (.uint 100)), ("ProfileCompatibility", (.uint 0)), ("Level", (.uint 40)), ("Reserved", (.uint 63)), ("LengthSizeMinusOne", (.uint 2)), ("Reserved2", (.uint 7)), ("NumOfSequenceParameterSets", (.uint 2)), ("SequenceParameterSets", (.slice [(.struct [("Length", (.uint 2)), ("NALUnit", (.slice [(.uint 18), (.uint 52)]))]), (.struct [("Length", (.uint 3)), ("NALUnit", (.slice [(.uint 18), (.uint 52), (.uint 86)]))])])), ("NumOfPictureParameterSets", (.uint 2)), ("PictureParameterSets", (.slice [(.struct [("Length", (.uint 2)), ("NALUnit", (.slice [(.uint 171), (.uint 205)]))]), (.struct [("Length", (.uint 3)), ("NALUnit", (.slice [(.uint 171), (.uint 205), (.uint 239)]))])])), ("HighProfileFieldsEnabled", (.bool true)), ("Reserved3", (.uint 63)), ("ChromaFormat", (.uint 1)), ("Reserved4", (.uint 31)), ("BitDepthLumaMinus8", (.uint 2)), ("Reserved5", (.uint 31)), ("BitDepthChromaMinus8", (.uint 3)), ("NumOfSequenceParameterSetExt", (.uint 2)), ("SequenceParameterSetsExt", (.slice [(.struct [("Length", (.uint 2)), ("NALUnit", (.slice [(.uint 18), (.uint 52)]))]), (.struct [("Length", (.uint 3)), ("NALUnit", (.slice [(.uint 18), (.uint 52), (.uint 86)]))])]))],
    [0x12#8, 0x64#8, 0x00#8, 0x28#8, 0xfe#8, 0xe2#8, 0x00#8, 0x02#8, 0x12#8, 0x34#8, 0x00#8, 0x03#8, 0x12#8, 0x34#8, 0x56#8, 0x02#8, 0x00#8, 0x02#8, 0xab#8, 0xcd#8, 0x00#8, 0x03#8, 0xab#8, 0xcd#8, 0xef#8, 0xfd#8, 0xfa#8, 0xfb#8, 0x02#8, 0x00#8, 0x02#8, 0x12#8, 0x34#8, 0x00#8, 0x03#8, 0x12#8, 0x34#8, 0x56#8]),
  ("PixelAspectRatioBox", bdPixelAspectRatioBox, {  }, [("HSpacing", (.uint 19088743)), ("VSpacing", (.uint 591751049))],
    [0x01#8, 0x23#8, 0x45#8, 0x67#8, 0x23#8, 0x45#8, 0x67#8, 0x89#8]),
  ("XMLSubtitleSampleEntry", bdXMLSubtitleSampleEntry, {  }, [("SampleEntry", (.struct [("Reserved", (.arr [(.uint 0), (.uint 0), (.uint 0), (.uint 0), (.uint 0), (.uint 0)])), ("DataReferenceIndex", (.uint 4660))])), ("Namespace", (.str [0x68#8, 0x74#8, 0x74#8, 0x70#8, 0x3a#8, 0x2f#8, 0x2f#8, 0x66#8, 0x6f#8, 0x6f#8, 0x2e#8, 0x6f#8, 0x72#8, 0x67#8, 0x2f#8, 0x62#8, 0x61#8, 0x72#8, 0x20#8, 0x68#8, 0x74#8, 0x74#8, 0x70#8, 0x3a#8, 0x2f#8, 0x2f#8, 0x62#8, 0x61#8, 0x7a#8, 0x2e#8, 0x6f#8, 0x72#8, 0x67#8, 0x2f#8, 0x71#8, 0x75#8, 0x78#8])), ("SchemaLocation", (.str [0x68#8, 0x74#8, 0x74#8, 0x70#8, 0x3a#8, 0x2f#8, 0x2f#8, 0x71#8, 0x75#8, 0x75#8, 0x78#8, 0x2e#8, 0x6f#8, 0x72#8, 0x67#8, 0x2f#8, 0x63#8, 0x6f#8, 0x72#8, 0x67#8, 0x65#8])), ("AuxiliaryMIMETypes", (.str [0x78#8, 0x78#8, 0x78#8, 0x2f#8, 0x79#8, 0x79#8, 0x79#8]))],
    [0x00#8, 0x00#8, 0x00#8, 0x00#8, 0x00#8, 0x00#8, 0x12#8, 0x34#8, 0x68#8, 0x74#8, 0x74#8, 0x70#8, 0x3a#8, 0x2f#8, 0x2f#8, 0x66#8, 0x6f#8, 0x6f#8, 0x2e#8, 0x6f#8, 0x72#8, 0x67#8, 0x2f#8, 0x62#8, 0x61#8, 0x72#8, 0x20#8, 0x68#8, 0x74#8, 0x74#8, 0x70#8, 0x3a#8, 0x2f#8, 0x2f#8, 0x62#8, 0x61#8, 0x7a#8, 0x2e#8, 0x6f#8, 0x72#8, 0x67#8, 0x2f#8, 0x71#8, 0x75#8, 0x78#8, 0x00#8, 0x68#8, 0x74#8, 0x74#8, 0x70#8, 0x3a#8, 0x2f#8, 0x2f#8, 0x71#8, 0x75#8, 0x75#8, 0x78#8, 0x2e#8, 0x6f#8, 0x72#8, 0x67#8, 0x2f#8, 0x63#8, 0x6f#8, 0x72#8, 0x67#8, 0x65#8, 0x00#8, 0x78#8, 0x78#8, 0x78#8, 0x2f#8, 0x79#8, 0x79#8, 0x79#8, 0x00#8]),
  ("TextSubtitleSampleEntry", bdTextSubtitleSampleEntry, {  }, [("SampleEntry", (.struct [("Reserved", (.arr [(.uint 0), (.uint 0), (.uint 0), (.uint 0), (.uint 0), (.uint 0)])), ("DataReferenceIndex", (.uint 4660))])), ("ContentEncoding", (.str [0x66#8, 0x6f#8, 0x6f#8])), ("MIMEFormat", (.str [0x62#8, 0x61#8, 0x72#8, 0x2f#8, 0x62#8, 0x61#8, 0x7a#8]))],
    [0x00#8, 0x00#8, 0x00#8, 0x00#8, 0x00#8, 0x00#8, 0x12#8, 0x34#8, 0x66#8, 0x6f#8, 0x6f#8, 0x00#8, 0x62#8, 0x61#8, 0x72#8, 0x2f#8, 0x62#8, 0x61#8, 0x7a#8, 0x00#8]),
  ("sbgp: version 0", bdSbgp, {  }, [("FullBox", (.struct [("Version", (.uint 0)), ("Flags", (.arr [(.uint 0), (.uint 0), (.uint 0)]))])), ("GroupingType", (.uint 19088743)), ("GroupingTypeParameter", (.uint 0)), ("EntryCount", (.uint 2)), ("Entries", (.slice [(.struct [("SampleCount", (.uint 591751049)), ("GroupDescriptionIndex", (.uint 878082202))]), (.struct [("SampleCount", (.uint 1164413355)), ("GroupDescriptionIndex", (.uint 1450744508))])]))],
    [0x00#8, 0x00#8, 0x00#8, 0x00#8, 0x01#8, 0x23#8, 0x45#8, 0x67#8, 0x00#8, 0x00#8, 0x00#8, 0x02#8, 0x23#8, 0x45#8, 0x67#8, 0x89#8, 0x34#8, 0x56#8, 0x78#8, 0x9a#8, 0x45#8, 0x67#8, 0x89#8, 0xab#8, 0x56#8, 0x78#8, 0x9a#8, 0xbc#8])]

/-- test cases -/
def vectors5 : List (String × BoxDef × Ctx × SV × Bytes) := [
  ("sbgp: version 1", bdSbgp, {  }, [("FullBox", (.struct [("Version", (.uint 1)), ("Flags", (.arr [(.uint 0), (.uint 0), (.uint 0)]))])), ("GroupingType", (.uint 19088743)), ("GroupingTypeParameter", (.uint 2309737967)), ("EntryCount", (.uint 2)), ("Entries", (.slice [(.struct [("SampleCount", (.uint 591751049)), ("GroupDescriptionIndex", (.uint 878082202))]), (.struct [("SampleCount", (.uint 1164413355)), ("GroupDescriptionIndex", (.uint 1450744508))])]))],
    [0x01#8, 0x00#8, 0x00#8, 0x00#8, 0x01#8, 0x23#8, 0x45#8, 0x67#8, 0x89#8, 0xab#8, 0xcd#8, 0xef#8, 0x00#8, 0x00#8, 0x00#8, 0x02#8, 0x23#8, 0x45#8, 0x67#8, 0x89#8, 0x34#8, 0x56#8, 0x78#8, 0x9a#8, 0x45#8, 0x67#8, 0x89#8, 0xab#8, 0x56#8, 0x78#8, 0x9a#8, 0xbc#8]),
  ("schi", bdSchi, {  }, [],
    []),
  ("schm: no scheme uri", bdSchm, {  }, [("FullBox", (.struct [("Version", (.uint 0)), ("Flags", (.arr [(.uint 0), (.uint 0), (.uint 0)]))])), ("SchemeType", (.arr [(.uint 116), (.uint 101), (.uint 115), (.uint 116)])), ("SchemeVersion", (.uint 305419896)), ("SchemeUri", (.slice []))],
    [0x00#8, 0x00#8, 0x00#8, 0x00#8, 0x74#8, 0x65#8, 0x73#8, 0x74#8, 0x12#8, 0x34#8, 0x56#8, 0x78#8]),
  ("schm: with scheme uri", bdSchm, {  }, [("FullBox", (.struct [("Version", (.uint 0)), ("Flags", (.arr [(.uint 0), (.uint 0), (.uint 1)]))])), ("SchemeType", (.arr [(.uint 116), (.uint 101), (.uint 115), (.uint 116)])), ("SchemeVersion", (.uint 305419896)), ("SchemeUri", (.slice [(.uint 102), (.uint 111), (.uint 111), (.uint 58), (.uint 47), (.uint 47), (.uint 98), (.uint 97), (.uint 114), (.uint 47), (.uint 98), (.uint 97), (.uint 122)]))],
    [0x00#8, 0x00#8, 0x00#8, 0x01#8, 0x74#8, 0x65#8, 0x73#8, 0x74#8, 0x12#8, 0x34#8, 0x56#8, 0x78#8, 0x66#8, 0x6f#8, 0x6f#8, 0x3a#8, 0x2f#8, 0x2f#8, 0x62#8, 0x61#8, 0x72#8, 0x2f#8, 0x62#8, 0x61#8, 0x7a#8]),
  ("sdtp", bdSdtp, {  }, [("FullBox", (.struct [("Version", (.uint 0)), ("Flags", (.arr [(.uint 0), (.uint 0), (.uint 0)]))])), ("Samples", (.slice [(.struct [("IsLeading", (.uint 0)), ("SampleDependsOn", (.uint 0)), ("SampleIsDependedOn", (.uint 0)), ("SampleHasRedundancy", (.uint 0))]), (.struct [("IsLeading", (.uint 0)), ("SampleDependsOn", (.uint 1)), ("SampleIsDependedOn", (.uint 2)), ("SampleHasRedundancy", (.uint 3))]), (.struct [("IsLeading", (.uint 3)), ("SampleDependsOn", (.uint 2)), ("SampleIsDependedOn", (.uint 1)), ("SampleHasRedundancy", (.uint 0))])]))],
    [0x00#8, 0x00#8, 0x00#8, 0x00#8, 0x00#8, 0x1b#8, 0xe4#8]),
  ("sgpd: version 1 roll", bdSgpd, {  }, [("FullBox", (.struct [("Version", (.uint 1)), ("Flags", (.arr [(.uint 0), (.uint 0), (.uint 0)]))])), ("GroupingType", (.arr [(.uint 114), (.uint 111), (.uint 108), (.uint 108)])), ("DefaultLength", (.uint 2)), ("DefaultSampleDescriptionIndex", (.uint 0)), ("EntryCount", (.uint 2)), ("RollDistances", (.slice [(.int (4369)), (.int (8738))])), ("RollDistancesL", (.slice [])), ("AlternativeStartupEntries", (.slice [])), ("AlternativeStartupEntriesL", (.slice [])), ("VisualRandomAccessEntries", (.slice [])), ("VisualRandomAccessEntriesL", (.slice [])), ("TemporalLevelEntries", (.slice [])), ("TemporalLevelEntriesL", (.slice [])), ("Unsupported", (.slice []))],
    [0x01#8, 0x00#8, 0x00#8, 0x00#8, 0x72#8, 0x6f#8, 0x6c#8, 0x6c#8, 0x00#8, 0x00#8, 0x00#8, 0x02#8, 0x00#8, 0x00#8, 0x00#8, 0x02#8, 0x11#8, 0x11#8, 0x22#8, 0x22#8]),
  ("sgpd: version 1 prol", bdSgpd, {  }, [("FullBox", (.struct [("Version", (.uint 1)), ("Flags", (.arr [(.uint 0), (.uint 0), (.uint 0)]))])), ("GroupingType", (.arr [(.uint 112), (.uint 114), (.uint 111), (.uint 108)])), ("DefaultLength", (.uint 2)), ("DefaultSampleDescriptionIndex", (.uint 0)), ("EntryCount", (.uint 2)), ("RollDistances", (.slice [(.int (4369)), (.int (8738))])), ("RollDistancesL", (.slice [])), ("AlternativeStartupEntries", (.slice [])), ("AlternativeStartupEntriesL", (.slice [])), ("VisualRandomAccessEntries", (.slice [])), ("VisualRandomAccessEntriesL", (.slice [])), ("TemporalLevelEntries", (.slice [])), ("TemporalLevelEntriesL", (.slice [])), ("Unsupported", (.slice []))],
    [0x01#8, 0x00#8, 0x00#8, 0x00#8, 0x70#8, 0x72#8, 0x6f#8, 0x6c#8, 0x00#8, 0x00#8, 0x00#8, 0x02#8, 0x00#8, 0x00#8, 0x00#8, 0x02#8, 0x11#8, 0x11#8, 0x22#8, 0x22#8]),
  ("sgpd: version 1 alst no-opts", bdSgpd, {  }, [("FullBox", (.struct [("Version", (.uint 1)), ("Flags", (.arr [(.uint 0), (.uint 0), (.uint 0)]))])), ("GroupingType", (.arr [(.uint 97), (.uint 108), (.uint 115), (.uint 116)])), ("DefaultLength", (.uint 12)), ("DefaultSampleDescriptionIndex", (.uint 0)), ("EntryCount", (.uint 2)), ("RollDistances", (.slice [])), ("RollDistancesL", (.slice [])), ("AlternativeStartupEntries", (.slice [(.struct [("RollCount", (.uint 2)), ("FirstOutputSample", (.uint 291)), ("SampleOffset", (.slice [(.uint 19088743), (.uint 2309737967)])), ("Opts", (.slice []))]), (.struct [("RollCount", (.uint 2)), ("FirstOutputSample", (.uint 17767)), ("SampleOffset", (.slice [(.uint 1164413355), (.uint 3454992675)])), ("Opts", (.slice []))])])), ("AlternativeStartupEntriesL", (.slice [])), ("VisualRandomAccessEntries", (.slice [])), ("VisualRandomAccessEntriesL", (.slice [])), ("TemporalLevelEntries", (.slice [])), ("TemporalLevelEntriesL", (.slice [])), ("Unsupported", (.slice []))],
    [0x01#8, 0x00#8, 0x00#8, 0x00#8, 0x61#8, 0x6c#8, 0x73#8, 0x74#8, 0x00#8, 0x00#8, 0x00#8, 0x0c#8, 0x00#8, 0x00#8, 0x00#8, 0x02#8, 0x00#8, 0x02#8, 0x01#8, 0x23#8, 0x01#8, 0x23#8, 0x45#8, 0x67#8, 0x89#8, 0xab#8, 0xcd#8, 0xef#8, 0x00#8, 0x02#8, 0x45#8, 0x67#8, 0x45#8, 0x67#8, 0x89#8, 0xab#8, 0xcd#8, 0xef#8, 0x01#8, 0x23#8]),
  ("sgpd: version 1 alst default-length", bdSgpd, {  }, [("FullBox", (.struct [("Version", (.uint 1)), ("Flags", (.arr [(.uint 0), (.uint 0), (.uint 0)]))])), ("GroupingType", (.arr [(.uint 97), (.uint 108), (.uint 115), (.uint 116)])), ("DefaultLength", (.uint 20)), ("DefaultSampleDescriptionIndex", (.uint 0)), ("EntryCount", (.uint 2)), ("RollDistances", (.slice [])), ("RollDistancesL", (.slice [])), ("AlternativeStartupEntries", (.slice [(.struct [("RollCount", (.uint 2)), ("FirstOutputSample", (.uint 291)), ("SampleOffset", (.slice [(.uint 19088743), (.uint 2309737967)])), ("Opts", (.slice [(.struct [("NumOutputSamples", (.uint 291)), ("NumTotalSamples", (.uint 17767))]), (.struct [("NumOutputSamples", (.uint 35243)), ("NumTotalSamples", (.uint 52719))])]))]), (.struct [("RollCount", (.uint 2)), ("FirstOutputSample", (.uint 17767)), ("SampleOffset", (.slice [(.uint 1164413355), (.uint 3454992675)])), ("Opts", (.slice [(.struct [("NumOutputSamples", (.uint 291)), ("NumTotalSamples", (.uint 17767))]), (.struct [("NumOutputSamples", (.uint 35243)), ("NumTotalSamples", (.uint 52719))])]))])])), ("AlternativeStartupEntriesL", (.slice [])), ("VisualRandomAccessEntries", (.slice [])), ("VisualRandomAccessEntriesL", (.slice [])), ("TemporalLevelEntries", (.slice [])), ("TemporalLevelEntriesL", (.slice [])), ("Unsupported", (.slice []))],
    [0x01#8, 0x00#8, 0x00#8, 0x00#8, 0x61#8, 0x6c#8, 0x73#8, 0x74#8, 0x00#8, 0x00#8, 0x00#8, 0x14#8, 0x00#8, 0x00#8, 0x00#8, 0x02#8, 0x00#8, 0x02#8, 0x01#8, 0x23#8, 0x01#8, 0x23#8, 0x45#8, 0x67#8, 0x89#8, 0xab#8, 0xcd#8, 0xef#8, 0x01#8, 0x23#8, 0x45#8, 0x67#8, 0x89#8, 0xab#8, 0xcd#8, 0xef#8, 0x00#8, 0x02#8, 0x45#8, 0x67#8, 0x45#8, 0x67#8, 0x89#8, 0xab#8, 0xcd#8, 0xef#8, 0x01#8, 0x23#8, 0x01#8, 0x23#8, 0x45#8, 0x67#8, 0x89#8, 0xab#8, 0xcd#8, 0xef#8]),
  ("sgpd: version 1 alst no-default-length", bdSgpd, {  }, [("FullBox", (.struct [("Version", (.uint 1)), ("Flags", (.arr [(.uint 0), (.uint 0), (.uint 0)]))])), ("GroupingType", (.arr [(.uint 97), (.uint 108), (.uint 115), (.uint 116)])), ("DefaultLength", (.uint 0)), ("DefaultSampleDescriptionIndex", (.uint 0)), ("EntryCount", (.uint 2)), ("RollDistances", (.slice [])), ("RollDistancesL", (.slice [])), ("AlternativeStartupEntries", (.slice [])), ("AlternativeStartupEntriesL", (.slice [(.struct [("DescriptionLength", (.uint 16)), ("AlternativeStartupEntry", (.struct [("RollCount", (.uint 2)), ("FirstOutputSample", (.uint 291)), ("SampleOffset", (.slice [(.uint 19088743), (.uint 2309737967)])), ("Opts", (.slice [(.struct [("NumOutputSamples", (.uint 291)), ("NumTotalSamples", (.uint 17767))])]))]))]), (.struct [("DescriptionLength", (.uint 20)), ("AlternativeStartupEntry", (.struct [("RollCount", (.uint 2)), ("FirstOutputSample", (.uint 17767)), ("SampleOffset", (.slice [(.uint 1164413355), (.uint 3454992675)])), ("Opts", (.slice [(.struct [("NumOutputSamples", (.uint 291)), ("NumTotalSamples", (.uint 17767))]), (.struct [("NumOutputSamples", (.uint 35243)), ("NumTotalSamples", (.uint 52719))])]))]))])])), ("VisualRandomAccessEntries", (.slice [])), ("VisualRandomAccessEntriesL", (.slice [])), ("TemporalLevelEntries", (.slice [])), ("TemporalLevelEntriesL", (.slice [])), ("Unsupported", (.slice []))],
    [0x01#8, 0x00#8, 0x00#8, 0x00#8, 0x61#8, 0x6c#8, 0x73#8, 0x74#8, 0x00#8, 0x00#8, 0x00#8, 0x00#8, 0x00#8, 0x00#8, 0x00#8, 0x02#8, 0x00#8, 0x00#8, 0x00#8, 0x10#8, 0x00#8, 0x02#8, 0x01#8, 0x23#8, 0x01#8, 0x23#8, 0x45#8, 0x67#8, 0x89#8, 0xab#8, 0xcd#8, 0xef#8, 0x01#8, 0x23#8, 0x45#8, 0x67#8, 0x00#8, 0x00#8, 0x00#8, 0x14#8, 0x00#8, 0x02#8, 0x45#8, 0x67#8, 0x45#8, 0x67#8, 0x89#8, 0xab#8, 0xcd#8, 0xef#8, 0x01#8, 0x23#8, 0x01#8, 0x23#8, 0x45#8, 0x67#8, 0x89#8, 0xab#8, 0xcd#8, 0xef#8]),
  ("sgpd: version 1 rap", bdSgpd, {  }, [("FullBox", (.struct [("Version", (.uint 1)), ("Flags", (.arr [(.uint 0), (.uint 0), (.uint 0)]))])), ("GroupingType", (.arr [(.uint 114), (.uint 97), (.uint 112), (.uint 32)])), ("DefaultLength", (.uint 1)), ("DefaultSampleDescriptionIndex", (.uint 0)), ("EntryCount", (.uint 2)), ("RollDistances", (.slice [])), ("RollDistancesL", (.slice [])), ("AlternativeStartupEntries", (.slice [])), ("AlternativeStartupEntriesL", (.slice [])), ("VisualRandomAccessEntries", (.slice [(.struct [("NumLeadingSamplesKnown", (.bool true)), ("NumLeadingSamples", (.uint 39))]), (.struct [("NumLeadingSamplesKnown", (.bool false)), ("NumLeadingSamples", (.uint 26))])])), ("VisualRandomAccessEntriesL", (.slice [])), ("TemporalLevelEntries", (.slice [])), ("TemporalLevelEntriesL", (.slice [])), ("Unsupported", (.slice []))],
    [0x01#8, 0x00#8, 0x00#8, 0x00#8, 0x72#8, 0x61#8, 0x70#8, 0x20#8, 0x00#8, 0x00#8, 0x00#8, 0x01#8, 0x00#8, 0x00#8, 0x00#8, 0x02#8, 0xa7#8, 0x1a#8]),
  ("sgpd: version 1 tele", bdSgpd, {  }, [("FullBox", (.struct [("Version", (.uint 1)), ("Flags", (.arr [(.uint 0), (.uint 0), (.uint 0)]))])), ("GroupingType", (.arr [(.uint 116), (.uint 101), (.uint 108), (.uint 101)])), ("DefaultLength", (.uint 1)), ("DefaultSampleDescriptionIndex", (.uint 0)), ("EntryCount", (.uint 2)), ("RollDistances", (.slice [])), ("RollDistancesL", (.slice [])), ("AlternativeStartupEntries", (.slice [])), ("AlternativeStartupEntriesL", (.slice [])), ("VisualRandomAccessEntries", (.slice [])), ("VisualRandomAccessEntriesL", (.slice [])), ("TemporalLevelEntries", (.slice [(.struct [("LevelIndependentlyDecodable", (.bool true)), ("Reserved", (.uint 0))]), (.struct [("LevelIndependentlyDecodable", (.bool false)), ("Reserved", (.uint 0))])])), ("TemporalLevelEntriesL", (.slice [])), ("Unsupported", (.slice []))],
    [0x01#8, 0x00#8, 0x00#8, 0x00#8, 0x74#8, 0x65#8, 0x6c#8, 0x65#8, 0x00#8, 0x00#8, 0x00#8, 0x01#8, 0x00#8, 0x00#8, 0x00#8, 0x02#8, 0x80#8, 0x00#8])]

/-- test cases -/
def vectors6 : List (String × BoxDef × Ctx × SV × Bytes) := [
  ("sgpd: version 2 roll", bdSgpd, {  }, [("FullBox", (.struct [("Version", (.uint 2)), ("Flags", (.arr [(.uint 0), (.uint 0), (.uint 0)]))])), ("GroupingType", (.arr [(.uint 114), (.uint 111), (.uint 108), (.uint 108)])), ("DefaultLength", (.uint 0)), ("DefaultSampleDescriptionIndex", (.uint 5)), ("EntryCount", (.uint 2)), ("RollDistances", (.slice [(.int (4369)), (.int (8738))])), ("RollDistancesL", (.slice [])), ("AlternativeStartupEntries", (.slice [])), ("AlternativeStartupEntriesL", (.slice [])), ("VisualRandomAccessEntries", (.slice [])), ("VisualRandomAccessEntriesL", (.slice [])), ("TemporalLevelEntries", (.slice [])), ("TemporalLevelEntriesL", (.slice [])), ("Unsupported", (.slice []))],
    [0x02#8, 0x00#8, 0x00#8, 0x00#8, 0x72#8, 0x6f#8, 0x6c#8, 0x6c#8, 0x00#8, 0x00#8, 0x00#8, 0x05#8, 0x00#8, 0x00#8, 0x00#8, 0x02#8, 0x11#8, 0x11#8, 0x22#8, 0x22#8]),
  ("sidx: version=0", bdSidx, {  }, [("FullBox", (.struct [("Version", (.uint 0)), ("Flags", (.arr [(.uint 0), (.uint 0), (.uint 0)]))])), ("ReferenceID", (.uint 19088743)), ("Timescale", (.uint 591751049)), ("EarliestPresentationTimeV0", (.uint 1164413355)), ("FirstOffsetV0", (.uint 1737075661)), ("EarliestPresentationTimeV1", (.uint 0)), ("FirstOffsetV1", (.uint 0)), ("Reserved", (.uint 0)), ("ReferenceCount", (.uint 2)), ("References", (.slice [(.struct [("ReferenceType", (.bool false)), ("ReferencedSize", (.uint 19088743)), ("SubsegmentDuration", (.uint 591751049)), ("StartsWithSAP", (.bool true)), ("SAPType", (.uint 6)), ("SAPDeltaTime", (.uint 162254319))]), (.struct [("ReferenceType", (.bool true)), ("ReferencedSize", (.uint 19088743)), ("SubsegmentDuration", (.uint 591751049)), ("StartsWithSAP", (.bool false)), ("SAPType", (.uint 5)), ("SAPDeltaTime", (.uint 162254319))])]))],
    [0x00#8, 0x00#8, 0x00#8, 0x00#8, 0x01#8, 0x23#8, 0x45#8, 0x67#8, 0x23#8, 0x45#8, 0x67#8, 0x89#8, 0x45#8, 0x67#8, 0x89#8, 0xab#8, 0x67#8, 0x89#8, 0xab#8, 0xcd#8, 0x00#8, 0x00#8, 0x00#8, 0x02#8, 0x01#8, 0x23#8, 0x45#8, 0x67#8, 0x23#8, 0x45#8, 0x67#8, 0x89#8, 0xe9#8, 0xab#8, 0xcd#8, 0xef#8, 0x81#8, 0x23#8, 0x45#8, 0x67#8, 0x23#8, 0x45#8, 0x67#8, 0x89#8, 0x59#8, 0xab#8, 0xcd#8, 0xef#8]),
  ("sidx: version=1", bdSidx, {  }, [("FullBox", (.struct [("Version", (.uint 1)), ("Flags", (.arr [(.uint 0), (.uint 0), (.uint 0)]))])), ("ReferenceID", (.uint 19088743)), ("Timescale", (.uint 591751049)), ("EarliestPresentationTimeV0", (.uint 0)), ("FirstOffsetV0", (.uint 0)), ("EarliestPresentationTimeV1", (.uint 81985529216486895)), ("FirstOffsetV1", (.uint 2541551405711093505)), ("Reserved", (.uint 0)), ("ReferenceCount", (.uint 2)), ("References", (.slice [(.struct [("ReferenceType", (.bool false)), ("ReferencedSize", (.uint 19088743)), ("SubsegmentDuration", (.uint 591751049)), ("StartsWithSAP", (.bool true)), ("SAPType", (.uint 6)), ("SAPDeltaTime", (.uint 162254319))]), (.struct [("ReferenceType", (.bool true)), ("ReferencedSize", (.uint 19088743)), ("SubsegmentDuration", (.uint 591751049)), ("StartsWithSAP", (.bool false)), ("SAPType", (.uint 5)), ("SAPDeltaTime", (.uint 162254319))])]))],
    [0x01#8, 0x00#8, 0x00#8, 0x00#8, 0x01#8, 0x23#8, 0x45#8, 0x67#8, 0x23#8, 0x45#8, 0x67#8, 0x89#8, 0x01#8, 0x23#8, 0x45#8, 0x67#8, 0x89#8, 0xab#8, 0xcd#8, 0xef#8, 0x23#8, 0x45#8, 0x67#8, 0x89#8, 0xab#8, 0xcd#8, 0xef#8, 0x01#8, 0x00#8, 0x00#8, 0x00#8, 0x02#8, 0x01#8, 0x23#8, 0x45#8, 0x67#8, 0x23#8, 0x45#8, 0x67#8, 0x89#8, 0xe9#8, 0xab#8, 0xcd#8, 0xef#8, 0x81#8, 0x23#8, 0x45#8, 0x67#8, 0x23#8, 0x45#8, 0x67#8, 0x89#8, 0x59#8, 0xab#8, 0xcd#8, 0xef#8]),
  ("sinf", bdSinf, {  }, [],
    []),
  ("smhd", bdSmhd, {  }, [("FullBox", (.struct [("Version", (.uint 0)), ("Flags", (.arr [(.uint 0), (.uint 0), (.uint 0)]))])), ("Balance", (.int (291))), ("Reserved", (.uint 0))],
    [0x00#8, 0x00#8, 0x00#8, 0x00#8, 0x01#8, 0x23#8, 0x00#8, 0x00#8]),
  ("stbl", bdStbl, {  }, [],
    []),
  ("stco", bdStco, {  }, [("FullBox", (.struct [("Version", (.uint 0)), ("Flags", (.arr [(.uint 0), (.uint 0), (.uint 0)]))])), ("EntryCount", (.uint 2)), ("ChunkOffset", (.slice [(.uint 19088743), (.uint 2309737967)]))],
    [0x00#8, 0x00#8, 0x00#8, 0x00#8, 0x00#8, 0x00#8, 0x00#8, 0x02#8, 0x01#8, 0x23#8, 0x45#8, 0x67#8, 0x89#8, 0xab#8, 0xcd#8, 0xef#8]),
  ("stsc", bdStsc, {  }, [("FullBox", (.struct [("Version", (.uint 0)), ("Flags", (.arr [(.uint 0), (.uint 0), (.uint 0)]))])), ("EntryCount", (.uint 2)), ("Entries", (.slice [(.struct [("FirstChunk", (.uint 19088743)), ("SamplesPerChunk", (.uint 591751049)), ("SampleDescriptionIndex", (.uint 1164413355))]), (.struct [("FirstChunk", (.uint 1737075661)), ("SamplesPerChunk", (.uint 2309737967)), ("SampleDescriptionIndex", (.uint 2882400001))])]))],
    [0x00#8, 0x00#8, 0x00#8, 0x00#8, 0x00#8, 0x00#8, 0x00#8, 0x02#8, 0x01#8, 0x23#8, 0x45#8, 0x67#8, 0x23#8, 0x45#8, 0x67#8, 0x89#8, 0x45#8, 0x67#8, 0x89#8, 0xab#8, 0x67#8, 0x89#8, 0xab#8, 0xcd#8, 0x89#8, 0xab#8, 0xcd#8, 0xef#8, 0xab#8, 0xcd#8, 0xef#8, 0x01#8]),
  ("stsd", bdStsd, {  }, [("FullBox", (.struct [("Version", (.uint 0)), ("Flags", (.arr [(.uint 0), (.uint 0), (.uint 0)]))])), ("EntryCount", (.uint 19088743))],
    [0x00#8, 0x00#8, 0x00#8, 0x00#8, 0x01#8, 0x23#8, 0x45#8, 0x67#8]),
  ("stss", bdStss, {  }, [("FullBox", (.struct [("Version", (.uint 0)), ("Flags", (.arr [(.uint 0), (.uint 0), (.uint 0)]))])), ("EntryCount", (.uint 2)), ("SampleNumber", (.slice [(.uint 19088743), (.uint 2309737967)]))],
    [0x00#8, 0x00#8, 0x00#8, 0x00#8, 0x00#8, 0x00#8, 0x00#8, 0x02#8, 0x01#8, 0x23#8, 0x45#8, 0x67#8, 0x89#8, 0xab#8, 0xcd#8, 0xef#8]),
  ("stsz: common sample size", bdStsz, {  }, [("FullBox", (.struct [("Version", (.uint 0)), ("Flags", (.arr [(.uint 0), (.uint 0), (.uint 0)]))])), ("SampleSize", (.uint 19088743)), ("SampleCount", (.uint 2)), ("EntrySize", (.slice []))],
    [0x00#8, 0x00#8, 0x00#8, 0x00#8, 0x01#8, 0x23#8, 0x45#8, 0x67#8, 0x00#8, 0x00#8, 0x00#8, 0x02#8]),
  ("stsz: sample size array", bdStsz, {  }, [("FullBox", (.struct [("Version", (.uint 0)), ("Flags", (.arr [(.uint 0), (.uint 0), (.uint 0)]))])), ("SampleSize", (.uint 0)), ("SampleCount", (.uint 2)), ("EntrySize", (.slice [(.uint 19088743), (.uint 591751049)]))],
    [0x00#8, 0x00#8, 0x00#8, 0x00#8, 0x00#8, 0x00#8, 0x00#8, 0x00#8, 0x00#8, 0x00#8, 0x00#8, 0x02#8, 0x01#8, 0x23#8, 0x45#8, 0x67#8, 0x23#8, 0x45#8, 0x67#8, 0x89#8])]

/-- test cases -/
def vectors7 : List (String × BoxDef × Ctx × SV × Bytes) := [
  ("stts", bdStts, {  }, [("FullBox", (.struct [("Version", (.uint 0)), ("Flags", (.arr [(.uint 0), (.uint 0), (.uint 0)]))])), ("EntryCount", (.uint 2)), ("Entries", (.slice [(.struct [("SampleCount", (.uint 19088743)), ("SampleDelta", (.uint 591751049))]), (.struct [("SampleCount", (.uint 1164413355)), ("SampleDelta", (.uint 1737075661))])]))],
    [0x00#8, 0x00#8, 0x00#8, 0x00#8, 0x00#8, 0x00#8, 0x00#8, 0x02#8, 0x01#8, 0x23#8, 0x45#8, 0x67#8, 0x23#8, 0x45#8, 0x67#8, 0x89#8, 0x45#8, 0x67#8, 0x89#8, 0xab#8, 0x67#8, 0x89#8, 0xab#8, 0xcd#8]),
  ("styp", bdStyp, {  }, [("MajorBrand", (.arr [(.uint 97), (.uint 98), (.uint 101), (.uint 109)])), ("MinorVersion", (.uint 305419896)), ("CompatibleBrands", (.slice [(.struct [("CompatibleBrand", (.arr [(.uint 97), (.uint 98), (.uint 99), (.uint 100)]))]), (.struct [("CompatibleBrand", (.arr [(.uint 101), (.uint 102), (.uint 103), (.uint 104)]))])]))],
    [0x61#8, 0x62#8, 0x65#8, 0x6d#8, 0x12#8, 0x34#8, 0x56#8, 0x78#8, 0x61#8, 0x62#8, 0x63#8, 0x64#8, 0x65#8, 0x66#8, 0x67#8, 0x68#8]),
  ("tfdt: version 0", bdTfdt, {  }, [("FullBox", (.struct [("Version", (.uint 0)), ("Flags", (.arr [(.uint 0), (.uint 0), (.uint 0)]))])), ("BaseMediaDecodeTimeV0", (.uint 19088743)), ("BaseMediaDecodeTimeV1", (.uint 0))],
    [0x00#8, 0x00#8, 0x00#8, 0x00#8, 0x01#8, 0x23#8, 0x45#8, 0x67#8]),
  ("tfdt: version 1", bdTfdt, {  }, [("FullBox", (.struct [("Version", (.uint 1)), ("Flags", (.arr [(.uint 0), (.uint 0), (.uint 0)]))])), ("BaseMediaDecodeTimeV0", (.uint 0)), ("BaseMediaDecodeTimeV1", (.uint 81985529216486895))],
    [0x01#8, 0x00#8, 0x00#8, 0x00#8, 0x01#8, 0x23#8, 0x45#8, 0x67#8, 0x89#8, 0xab#8, 0xcd#8, 0xef#8]),
  ("tfhd: no flags", bdTfhd, {  }, [("FullBox", (.struct [("Version", (.uint 0)), ("Flags", (.arr [(.uint 0), (.uint 0), (.uint 0)]))])), ("TrackID", (.uint 138430025)), ("BaseDataOffset", (.uint 0)), ("SampleDescriptionIndex", (.uint 0)), ("DefaultSampleDuration", (.uint 0)), ("DefaultSampleSize", (.uint 0)), ("DefaultSampleFlags", (.uint 0))],
    [0x00#8, 0x00#8, 0x00#8, 0x00#8, 0x08#8, 0x40#8, 0x46#8, 0x49#8]),
  ("tfhd: base data offset & default sample duration", bdTfhd, {  }, [("FullBox", (.struct [("Version", (.uint 0)), ("Flags", (.arr [(.uint 0), (.uint 0), (.uint 9)]))])), ("TrackID", (.uint 138430025)), ("BaseDataOffset", (.uint 81985529216486895)), ("SampleDescriptionIndex", (.uint 0)), ("DefaultSampleDuration", (.uint 591751049)), ("DefaultSampleSize", (.uint 0)), ("DefaultSampleFlags", (.uint 0))],
    [0x00#8, 0x00#8, 0x00#8, 0x09#8, 0x08#8, 0x40#8, 0x46#8, 0x49#8, 0x01#8, 0x23#8, 0x45#8, 0x67#8, 0x89#8, 0xab#8, 0xcd#8, 0xef#8, 0x23#8, 0x45#8, 0x67#8, 0x89#8]),
  ("tfra: version 0", bdTfra, {  }, [("FullBox", (.struct [("Version", (.uint 0)), ("Flags", (.arr [(.uint 0), (.uint 0), (.uint 0)]))])), ("TrackID", (.uint 286331153)), ("Reserved", (.uint 0)), ("LengthSizeOfTrafNum", (.uint 1)), ("LengthSizeOfTrunNum", (.uint 2)), ("LengthSizeOfSampleNum", (.uint 3)), ("NumberOfEntry", (.uint 2)), ("Entries", (.slice [(.struct [("TimeV0", (.uint 572662306)), ("MoofOffsetV0", (.uint 858993459)), ("TimeV1", (.uint 0)), ("MoofOffsetV1", (.uint 0)), ("TrafNumber", (.uint 17476)), ("TrunNumber", (.uint 5592405)), ("SampleNumber", (.uint 1717986918))]), (.struct [("TimeV0", (.uint 2004318071)), ("MoofOffsetV0", (.uint 2290649224)), ("TimeV1", (.uint 0)), ("MoofOffsetV1", (.uint 0)), ("TrafNumber", (.uint 39321)), ("TrunNumber", (.uint 11184810)), ("SampleNumber", (.uint 3149642683))])]))],
    [0x00#8, 0x00#8, 0x00#8, 0x00#8, 0x11#8, 0x11#8, 0x11#8, 0x11#8, 0x00#8, 0x00#8, 0x00#8, 0x1b#8, 0x00#8, 0x00#8, 0x00#8, 0x02#8, 0x22#8, 0x22#8, 0x22#8, 0x22#8, 0x33#8, 0x33#8, 0x33#8, 0x33#8, 0x44#8, 0x44#8, 0x55#8, 0x55#8, 0x55#8, 0x66#8, 0x66#8, 0x66#8, 0x66#8, 0x77#8, 0x77#8, 0x77#8, 0x77#8, 0x88#8, 0x88#8, 0x88#8, 0x88#8, 0x99#8, 0x99#8, 0xaa#8, 0xaa#8, 0xaa#8, 0xbb#8, 0xbb#8, 0xbb#8, 0xbb#8]),
  ("tfra: version 1", bdTfra, {  }, [("FullBox", (.struct [("Version", (.uint 1)), ("Flags", (.arr [(.uint 0), (.uint 0), (.uint 0)]))])), ("TrackID", (.uint 286331153)), ("Reserved", (.uint 0)), ("LengthSizeOfTrafNum", (.uint 1)), ("LengthSizeOfTrunNum", (.uint 2)), ("LengthSizeOfSampleNum", (.uint 3)), ("NumberOfEntry", (.uint 2)), ("Entries", (.slice [(.struct [("TimeV0", (.uint 0)), ("MoofOffsetV0", (.uint 0)), ("TimeV1", (.uint 2459565876494606882)), ("MoofOffsetV1", (.uint 3689348814741910323)), ("TrafNumber", (.uint 17476)), ("TrunNumber", (.uint 5592405)), ("SampleNumber", (.uint 1717986918))]), (.struct [("TimeV0", (.uint 0)), ("MoofOffsetV0", (.uint 0)), ("TimeV1", (.uint 8608480567731124087)), ("MoofOffsetV1", (.uint 9838263505978427528)), ("TrafNumber", (.uint 39321)), ("TrunNumber", (.uint 11184810)), ("SampleNumber", (.uint 3149642683))])]))],
    [0x01#8, 0x00#8, 0x00#8, 0x00#8, 0x11#8, 0x11#8, 0x11#8, 0x11#8, 0x00#8, 0x00#8, 0x00#8, 0x1b#8, 0x00#8, 0x00#8, 0x00#8, 0x02#8, 0x22#8, 0x22#8, 0x22#8, 0x22#8, 0x22#8, 0x22#8, 0x22#8, 0x22#8, 0x33#8, 0x33#8, 0x33#8, 0x33#8, 0x33#8, 0x33#8, 0x33#8, 0x33#8, 0x44#8, 0x44#8, 0x55#8, 0x55#8, 0x55#8, 0x66#8, 0x66#8, 0x66#8, 0x66#8, 0x77#8, 0x77#8, 0x77#8, 0x77#8, 0x77#8, 0x77#8, 0x77#8, 0x77#8, 0x88#8, 0x88#8, 0x88#8, 0x88#8, 0x88#8, 0x88#8, 0x88#8, 0x88#8, 0x99#8, 0x99#8, 0xaa#8, 0xaa#8, 0xaa#8, 0xbb#8, 0xbb#8, 0xbb#8, 0xbb#8]),
  ("tkhd version 0", bdTkhd, {  }, [("FullBox", (.struct [("Version", (.uint 0)), ("Flags", (.arr [(.uint 0), (.uint 0), (.uint 0)]))])), ("CreationTimeV0", (.uint 19088743)), ("ModificationTimeV0", (.uint 305419896)), ("CreationTimeV1", (.uint 0)), ("ModificationTimeV1", (.uint 0)), ("TrackID", (.uint 591751049)), ("Reserved0", (.uint 878082202)), ("DurationV0", (.uint 1164413355)), ("DurationV1", (.uint 0)), ("Reserved1", (.arr [(.uint 0), (.uint 0)])), ("Layer", (.int (23456))), ("AlternateGroup", (.int (-23456))), ("Volume", (.int (256))), ("Reserved2", (.uint 0)), ("Matrix", (.arr [(.int (65536)), (.int (0)), (.int (0)), (.int (0)), (.int (65536)), (.int (0)), (.int (0)), (.int (0)), (.int (1073741824))])), ("Width", (.uint 125829120)), ("Height", (.uint 70778880))],
    [0x00#8, 0x00#8, 0x00#8, 0x00#8, 0x01#8, 0x23#8, 0x45#8, 0x67#8, 0x12#8, 0x34#8, 0x56#8, 0x78#8, 0x23#8, 0x45#8, 0x67#8, 0x89#8, 0x34#8, 0x56#8, 0x78#8, 0x9a#8, 0x45#8, 0x67#8, 0x89#8, 0xab#8, 0x00#8, 0x00#8, 0x00#8, 0x00#8, 0x00#8, 0x00#8, 0x00#8, 0x00#8, 0x5b#8, 0xa0#8, 0xa4#8, 0x60#8, 0x01#8, 0x00#8, 0x00#8, 0x00#8, 0x00#8, 0x01#8, 0x00#8, 0x00#8, 0x00#8, 0x00#8, 0x00#8, 0x00#8, 0x00#8, 0x00#8, 0x00#8, 0x00#8, 0x00#8, 0x00#8, 0x00#8, 0x00#8, 0x00#8, 0x01#8, 0x00#8, 0x00#8, 0x00#8, 0x00#8, 0x00#8, 0x00#8, 0x00#8, 0x00#8, 0x00#8, 0x00#8, 0x00#8, 0x00#8, 0x00#8, 0x00#8, 0x40#8, 0x00#8, 0x00#8, 0x00#8, 0x07#8, 0x80#8, 0x00#8, 0x00#8, 0x04#8, 0x38#8, 0x00#8, 0x00#8]),
  ("tkhd version 1", bdTkhd, {  }, [("FullBox", (.struct [("Version", (.uint 1)), ("Flags", (.arr [(.uint 0), (.uint 0), (.uint 0)]))])), ("CreationTimeV0", (.uint 0)), ("ModificationTimeV0", (.uint 0)), ("CreationTimeV1", (.uint 81985529216486895)), ("ModificationTimeV1", (.uint 1311768467463790320)), ("TrackID", (.uint 591751049)), ("Reserved0", (.uint 878082202)), ("DurationV0", (.uint 0)), ("DurationV1", (.uint 5001117282205630755)), ("Reserved1", (.arr [(.uint 0), (.uint 0)])), ("Layer", (.int (23456))), ("AlternateGroup", (.int (-23456))), ("Volume", (.int (256))), ("Reserved2", (.uint 0)), ("Matrix", (.arr [(.int (65536)), (.int (0)), (.int (0)), (.int (0)), (.int (65536)), (.int (0)), (.int (0)), (.int (0)), (.int (1073741824))])), ("Width", (.uint 125829120)), ("Height", (.uint 70778880))],
    [0x01#8, 0x00#8, 0x00#8, 0x00#8, 0x01#8, 0x23#8, 0x45#8, 0x67#8, 0x89#8, 0xab#8, 0xcd#8, 0xef#8, 0x12#8, 0x34#8, 0x56#8, 0x78#8, 0x9a#8, 0xbc#8, 0xde#8, 0xf0#8, 0x23#8, 0x45#8, 0x67#8, 0x89#8, 0x34#8, 0x56#8, 0x78#8, 0x9a#8, 0x45#8, 0x67#8, 0x89#8, 0xab#8, 0xcd#8, 0xef#8, 0x01#8, 0x23#8, 0x00#8, 0x00#8, 0x00#8, 0x00#8, 0x00#8, 0x00#8, 0x00#8, 0x00#8, 0x5b#8, 0xa0#8, 0xa4#8, 0x60#8, 0x01#8, 0x00#8, 0x00#8, 0x00#8, 0x00#8, 0x01#8, 0x00#8, 0x00#8, 0x00#8, 0x00#8, 0x00#8, 0x00#8, 0x00#8, 0x00#8, 0x00#8, 0x00#8, 0x00#8, 0x00#8, 0x00#8, 0x00#8, 0x00#8, 0x01#8, 0x00#8, 0x00#8, 0x00#8, 0x00#8, 0x00#8, 0x00#8, 0x00#8, 0x00#8, 0x00#8, 0x00#8, 0x00#8, 0x00#8, 0x00#8, 0x00#8, 0x40#8, 0x00#8, 0x00#8, 0x00#8, 0x07#8, 0x80#8, 0x00#8, 0x00#8, 0x04#8, 0x38#8, 0x00#8, 0x00#8]),
  ("traf", bdTraf, {  }, [],
    []),
  ("trak", bdTrak, {  }, [],
    [])]

/-- test cases -/
def vectors8 : List (String × BoxDef × Ctx × SV × Bytes) := [
  ("trep", bdTrep, {  }, [("FullBox", (.struct [("Version", (.uint 0)), ("Flags", (.arr [(.uint 0), (.uint 0), (.uint 0)]))])), ("TrackID", (.uint 19088743))],
    [0x00#8, 0x00#8, 0x00#8, 0x00#8, 0x01#8, 0x23#8, 0x45#8, 0x67#8]),
  ("trex", bdTrex, {  }, [("FullBox", (.struct [("Version", (.uint 0)), ("Flags", (.arr [(.uint 0), (.uint 0), (.uint 0)]))])), ("TrackID", (.uint 19088743)), ("DefaultSampleDescriptionIndex", (.uint 591751049)), ("DefaultSampleDuration", (.uint 1164413355)), ("DefaultSampleSize", (.uint 1737075661)), ("DefaultSampleFlags", (.uint 2309737967))],
    [0x00#8, 0x00#8, 0x00#8, 0x00#8, 0x01#8, 0x23#8, 0x45#8, 0x67#8, 0x23#8, 0x45#8, 0x67#8, 0x89#8, 0x45#8, 0x67#8, 0x89#8, 0xab#8, 0x67#8, 0x89#8, 0xab#8, 0xcd#8, 0x89#8, 0xab#8, 0xcd#8, 0xef#8]),
  ("trun: version=0 flag=0x101", bdTrun, {  }, [("FullBox", (.struct [("Version", (.uint 0)), ("Flags", (.arr [(.uint 0), (.uint 1), (.uint 1)]))])), ("SampleCount", (.uint 3)), ("DataOffset", (.int (50))), ("FirstSampleFlags", (.uint 0)), ("Entries", (.slice [(.struct [("SampleDuration", (.uint 100)), ("SampleSize", (.uint 0)), ("SampleFlags", (.uint 0)), ("SampleCompositionTimeOffsetV0", (.uint 0)), ("SampleCompositionTimeOffsetV1", (.int (0)))]), (.struct [("SampleDuration", (.uint 101)), ("SampleSize", (.uint 0)), ("SampleFlags", (.uint 0)), ("SampleCompositionTimeOffsetV0", (.uint 0)), ("SampleCompositionTimeOffsetV1", (.int (0)))]), (.struct [("SampleDuration", (.uint 102)), ("SampleSize", (.uint 0)), ("SampleFlags", (.uint 0)), ("SampleCompositionTimeOffsetV0", (.uint 0)), ("SampleCompositionTimeOffsetV1", (.int (0)))])]))],
    [0x00#8, 0x00#8, 0x01#8, 0x01#8, 0x00#8, 0x00#8, 0x00#8, 0x03#8, 0x00#8, 0x00#8, 0x00#8, 0x32#8, 0x00#8, 0x00#8, 0x00#8, 0x64#8, 0x00#8, 0x00#8, 0x00#8, 0x65#8, 0x00#8, 0x00#8, 0x00#8, 0x66#8]),
  ("trun: version=0 flag=0x204", bdTrun, {  }, [("FullBox", (.struct [("Version", (.uint 0)), ("Flags", (.arr [(.uint 0), (.uint 2), (.uint 4)]))])), ("SampleCount", (.uint 3)), ("DataOffset", (.int (0))), ("FirstSampleFlags", (.uint 38177486)), ("Entries", (.slice [(.struct [("SampleDuration", (.uint 0)), ("SampleSize", (.uint 100)), ("SampleFlags", (.uint 0)), ("SampleCompositionTimeOffsetV0", (.uint 0)), ("SampleCompositionTimeOffsetV1", (.int (0)))]), (.struct [("SampleDuration", (.uint 0)), ("SampleSize", (.uint 101)), ("SampleFlags", (.uint 0)), ("SampleCompositionTimeOffsetV0", (.uint 0)), ("SampleCompositionTimeOffsetV1", (.int (0)))]), (.struct [("SampleDuration", (.uint 0)), ("SampleSize", (.uint 102)), ("SampleFlags", (.uint 0)), ("SampleCompositionTimeOffsetV0", (.uint 0)), ("SampleCompositionTimeOffsetV1", (.int (0)))])]))],
    [0x00#8, 0x00#8, 0x02#8, 0x04#8, 0x00#8, 0x00#8, 0x00#8, 0x03#8, 0x02#8, 0x46#8, 0x8a#8, 0xce#8, 0x00#8, 0x00#8, 0x00#8, 0x64#8, 0x00#8, 0x00#8, 0x00#8, 0x65#8, 0x00#8, 0x00#8, 0x00#8, 0x66#8]),
  ("trun: version=0 flag=0xc00", bdTrun, {  }, [("FullBox", (.struct [("Version", (.uint 0)), ("Flags", (.arr [(.uint 0), (.uint 12), (.uint 0)]))])), ("SampleCount", (.uint 3)), ("DataOffset", (.int (0))), ("FirstSampleFlags", (.uint 0)), ("Entries", (.slice [(.struct [("SampleDuration", (.uint 0)), ("SampleSize", (.uint 0)), ("SampleFlags", (.uint 100)), ("SampleCompositionTimeOffsetV0", (.uint 200)), ("SampleCompositionTimeOffsetV1", (.int (0)))]), (.struct [("SampleDuration", (.uint 0)), ("SampleSize", (.uint 0)), ("SampleFlags", (.uint 101)), ("SampleCompositionTimeOffsetV0", (.uint 201)), ("SampleCompositionTimeOffsetV1", (.int (0)))]), (.struct [("SampleDuration", (.uint 0)), ("SampleSize", (.uint 0)), ("SampleFlags", (.uint 102)), ("SampleCompositionTimeOffsetV0", (.uint 202)), ("SampleCompositionTimeOffsetV1", (.int (0)))])]))],
    [0x00#8, 0x00#8, 0x0c#8, 0x00#8, 0x00#8, 0x00#8, 0x00#8, 0x03#8, 0x00#8, 0x00#8, 0x00#8, 0x64#8, 0x00#8, 0x00#8, 0x00#8, 0xc8#8, 0x00#8, 0x00#8, 0x00#8, 0x65#8, 0x00#8, 0x00#8, 0x00#8, 0xc9#8, 0x00#8, 0x00#8, 0x00#8, 0x66#8, 0x00#8, 0x00#8, 0x00#8, 0xca#8]),
  ("trun: version=1 flag=0x800", bdTrun, {  }, [("FullBox", (.struct [("Version", (.uint 1)), ("Flags", (.arr [(.uint 0), (.uint 8), (.uint 0)]))])), ("SampleCount", (.uint 3)), ("DataOffset", (.int (0))), ("FirstSampleFlags", (.uint 0)), ("Entries", (.slice [(.struct [("SampleDuration", (.uint 0)), ("SampleSize", (.uint 0)), ("SampleFlags", (.uint 0)), ("SampleCompositionTimeOffsetV0", (.uint 0)), ("SampleCompositionTimeOffsetV1", (.int (200)))]), (.struct [("SampleDuration", (.uint 0)), ("SampleSize", (.uint 0)), ("SampleFlags", (.uint 0)), ("SampleCompositionTimeOffsetV0", (.uint 0)), ("SampleCompositionTimeOffsetV1", (.int (201)))]), (.struct [("SampleDuration", (.uint 0)), ("SampleSize", (.uint 0)), ("SampleFlags", (.uint 0)), ("SampleCompositionTimeOffsetV0", (.uint 0)), ("SampleCompositionTimeOffsetV1", (.int (-202)))])]))],
    [0x01#8, 0x00#8, 0x08#8, 0x00#8, 0x00#8, 0x00#8, 0x00#8, 0x03#8, 0x00#8, 0x00#8, 0x00#8, 0xc8#8, 0x00#8, 0x00#8, 0x00#8, 0xc9#8, 0xff#8, 0xff#8, 0xff#8, 0x36#8]),
  ("udta", bdUdta, {  }, [],
    []),
  ("vmhd", bdVmhd, {  }, [("FullBox", (.struct [("Version", (.uint 0)), ("Flags", (.arr [(.uint 0), (.uint 0), (.uint 0)]))])), ("Graphicsmode", (.uint 291)), ("Opcolor", (.arr [(.uint 9029), (.uint 17767), (.uint 26505)]))],
    [0x00#8, 0x00#8, 0x00#8, 0x00#8, 0x01#8, 0x23#8, 0x23#8, 0x45#8, 0x45#8, 0x67#8, 0x67#8, 0x89#8]),
  ("esds", bdEsds, {  }, [("FullBox", (.struct [("Version", (.uint 0)), ("Flags", (.arr [(.uint 0), (.uint 0), (.uint 0)]))])), ("Descriptors", (.slice [(.struct [("Tag", (.int (3))), ("Size", (.uint 19088743)), ("ESDescriptor", (.ptr (some (.struct [("ESID", (.uint 4660)), ("StreamDependenceFlag", (.bool true)), ("UrlFlag", (.bool false)), ("OcrStreamFlag", (.bool true)), ("StreamPriority", (.int (3))), ("DependsOnESID", (.uint 9029)), ("URLLength", (.uint 0)), ("URLString", (.slice [])), ("OCRESID", (.uint 13398))])))), ("DecoderConfigDescriptor", (.ptr none)), ("Data", (.slice []))]), (.struct [("Tag", (.int (3))), ("Size", (.uint 19088743)), ("ESDescriptor", (.ptr (some (.struct [("ESID", (.uint 4660)), ("StreamDependenceFlag", (.bool false)), ("UrlFlag", (.bool true)), ("OcrStreamFlag", (.bool false)), ("StreamPriority", (.int (3))), ("DependsOnESID", (.uint 0)), ("URLLength", (.uint 11)), ("URLString", (.slice [(.uint 104), (.uint 116), (.uint 116), (.uint 112), (.uint 58), (.uint 47), (.uint 47), (.uint 104), (.uint 111), (.uint 103), (.uint 101)])), ("OCRESID", (.uint 0))])))), ("DecoderConfigDescriptor", (.ptr none)), ("Data", (.slice []))]), (.struct [("Tag", (.int (4))), ("Size", (.uint 19088743)), ("ESDescriptor", (.ptr none)), ("DecoderConfigDescriptor", (.ptr (some (.struct [("ObjectTypeIndication", (.uint 18)), ("StreamType", (.int (21))), ("UpStream", (.bool true)), ("Reserved", (.bool false)), ("BufferSizeDB", (.uint 1193046)), ("MaxBitrate", (.uint 305419896)), ("AvgBitrate", (.uint 591751049))])))), ("Data", (.slice []))]), (.struct [("Tag", (.int (5))), ("Size", (.uint 3)), ("ESDescriptor", (.ptr none)), ("DecoderConfigDescriptor", (.ptr none)), ("Data", (.slice [(.uint 17), (.uint 34), (.uint 51)]))]), (.struct [("Tag", (.int (6))), ("Size", (.uint 5)), ("ESDescriptor", (.ptr none)), ("DecoderConfigDescriptor", (.ptr none)), ("Data", (.slice [(.uint 17), (.uint 34), (.uint 51), (.uint 68), (.uint 85)]))])]))],
    [0x00#8, 0x00#8, 0x00#8, 0x00#8, 0x03#8, 0x89#8, 0x8d#8, 0x8a#8, 0x67#8, 0x12#8, 0x34#8, 0xa3#8, 0x23#8, 0x45#8, 0x34#8, 0x56#8, 0x03#8, 0x89#8, 0x8d#8, 0x8a#8, 0x67#8, 0x12#8, 0x34#8, 0x43#8, 0x0b#8, 0x68#8, 0x74#8, 0x74#8, 0x70#8, 0x3a#8, 0x2f#8, 0x2f#8, 0x68#8, 0x6f#8, 0x67#8, 0x65#8, 0x04#8, 0x89#8, 0x8d#8, 0x8a#8, 0x67#8, 0x12#8, 0x56#8, 0x12#8, 0x34#8, 0x56#8, 0x12#8, 0x34#8, 0x56#8, 0x78#8, 0x23#8, 0x45#8, 0x67#8, 0x89#8, 0x05#8, 0x80#8, 0x80#8, 0x80#8, 0x03#8, 0x11#8, 0x22#8, 0x33#8, 0x06#8, 0x80#8, 0x80#8, 0x80#8, 0x05#8, 0x11#8, 0x22#8, 0x33#8, 0x44#8, 0x55#8]),
  ("vttC", bdWebVTTConfigurationBox, {  }, [("Config", (.str [0x57#8, 0x45#8, 0x42#8, 0x56#8, 0x54#8, 0x54#8, 0x0a#8]))],
    [0x57#8, 0x45#8, 0x42#8, 0x56#8, 0x54#8, 0x54#8, 0x0a#8]),
  ("vlab", bdWebVTTSourceLabelBox, {  }, [("SourceLabel", (.str [0x53#8, 0x6f#8, 0x75#8, 0x72#8, 0x63#8, 0x65#8]))],
    [0x53#8, 0x6f#8, 0x75#8, 0x72#8, 0x63#8, 0x65#8]),
  ("wvtt", bdWVTTSampleEntry, {  }, [("SampleEntry", (.struct [("Reserved", (.arr [(.uint 0), (.uint 0), (.uint 0), (.uint 0), (.uint 0), (.uint 0)])), ("DataReferenceIndex", (.uint 4660))]))],
    [0x00#8, 0x00#8, 0x00#8, 0x00#8, 0x00#8, 0x00#8, 0x12#8, 0x34#8])]

/-- test cases -/
def vectors9 : List (String × BoxDef × Ctx × SV × Bytes) := [
  ("vttc", bdVTTCueBox, {  }, [],
    []),
  ("vsid", bdCueSourceIDBox, {  }, [("SourceId", (.uint 0))],
    [0x00#8, 0x00#8, 0x00#8, 0x00#8]),
  ("ctim", bdCueTimeBox, {  }, [("CueCurrentTime", (.str [0x30#8, 0x30#8, 0x3a#8, 0x30#8, 0x30#8, 0x3a#8, 0x30#8, 0x30#8, 0x2e#8, 0x30#8, 0x30#8, 0x30#8]))],
    [0x30#8, 0x30#8, 0x3a#8, 0x30#8, 0x30#8, 0x3a#8, 0x30#8, 0x30#8, 0x2e#8, 0x30#8, 0x30#8, 0x30#8]),
  ("iden", bdCueIDBox, {  }, [("CueId", (.str [0x65#8, 0x78#8, 0x61#8, 0x6d#8, 0x70#8, 0x6c#8, 0x65#8, 0x5f#8, 0x69#8, 0x64#8]))],
    [0x65#8, 0x78#8, 0x61#8, 0x6d#8, 0x70#8, 0x6c#8, 0x65#8, 0x5f#8, 0x69#8, 0x64#8]),
  ("sttg", bdCueSettingsBox, {  }, [("Settings", (.str [0x6c#8, 0x69#8, 0x6e#8, 0x65#8, 0x3d#8, 0x30#8]))],
    [0x6c#8, 0x69#8, 0x6e#8, 0x65#8, 0x3d#8, 0x30#8]),
  ("payl", bdCuePayloadBox, {  }, [("CueText", (.str [0x73#8, 0x61#8, 0x6d#8, 0x70#8, 0x6c#8, 0x65#8]))],
    [0x73#8, 0x61#8, 0x6d#8, 0x70#8, 0x6c#8, 0x65#8]),
  ("vtte", bdVTTEmptyCueBox, {  }, [],
    []),
  ("vtta", bdVTTAdditionalTextBox, {  }, [("CueAdditionalText", (.str [0x74#8, 0x65#8, 0x73#8, 0x74#8]))],
    [0x74#8, 0x65#8, 0x73#8, 0x74#8]),
  ("pcmC", bdPcmC, {  }, [("FullBox", (.struct [("Version", (.uint 0)), ("Flags", (.arr [(.uint 0), (.uint 0), (.uint 0)]))])), ("FormatFlags", (.uint 1)), ("PCMSampleSize", (.uint 32))],
    [0x00#8, 0x00#8, 0x00#8, 0x00#8, 0x01#8, 0x20#8]),
  ("pssh: version 0: no KIDs", bdPssh, {  }, [("FullBox", (.struct [("Version", (.uint 0)), ("Flags", (.arr [(.uint 0), (.uint 0), (.uint 0)]))])), ("SystemID", (.arr [(.uint 1), (.uint 2), (.uint 3), (.uint 4), (.uint 5), (.uint 6), (.uint 7), (.uint 8), (.uint 9), (.uint 10), (.uint 11), (.uint 12), (.uint 13), (.uint 14), (.uint 15), (.uint 16)])), ("KIDCount", (.uint 0)), ("KIDs", (.slice [])), ("DataSize", (.int (5))), ("Data", (.slice [(.uint 33), (.uint 34), (.uint 35), (.uint 36), (.uint 37)]))],
    [0x00#8, 0x00#8, 0x00#8, 0x00#8, 0x01#8, 0x02#8, 0x03#8, 0x04#8, 0x05#8, 0x06#8, 0x07#8, 0x08#8, 0x09#8, 0x0a#8, 0x0b#8, 0x0c#8, 0x0d#8, 0x0e#8, 0x0f#8, 0x10#8, 0x00#8, 0x00#8, 0x00#8, 0x05#8, 0x21#8, 0x22#8, 0x23#8, 0x24#8, 0x25#8]),
  ("pssh: version 1: with KIDs", bdPssh, {  }, [("FullBox", (.struct [("Version", (.uint 1)), ("Flags", (.arr [(.uint 0), (.uint 0), (.uint 0)]))])), ("SystemID", (.arr [(.uint 1), (.uint 2), (.uint 3), (.uint 4), (.uint 5), (.uint 6), (.uint 7), (.uint 8), (.uint 9), (.uint 10), (.uint 11), (.uint 12), (.uint 13), (.uint 14), (.uint 15), (.uint 16)])), ("KIDCount", (.uint 2)), ("KIDs", (.slice [(.struct [("KID", (.arr [(.uint 17), (.uint 18), (.uint 19), (.uint 20), (.uint 21), (.uint 22), (.uint 23), (.uint 24), (.uint 25), (.uint 26), (.uint 27), (.uint 28), (.uint 29), (.uint 30), (.uint 31), (.uint 16)]))]), (.struct [("KID", (.arr [(.uint 33), (.uint 34), (.uint 35), (.uint 36), (.uint 37), (.uint 38), (.uint 39), (.uint 40), (.uint 41), (.uint 42), (.uint 43), (.uint 44), (.uint 45), (.uint 46), (.uint 47), (.uint 32)]))])])), ("DataSize", (.int (5))), ("Data", (.slice [(.uint 33), (.uint 34), (.uint 35), (.uint 36), (.uint 37)]))],
    [0x01#8, 0x00#8, 0x00#8, 0x00#8, 0x01#8, 0x02#8, 0x03#8, 0x04#8, 0x05#8, 0x06#8, 0x07#8, 0x08#8, 0x09#8, 0x0a#8, 0x0b#8, 0x0c#8, 0x0d#8, 0x0e#8, 0x0f#8, 0x10#8, 0x00#8, 0x00#8, 0x00#8, 0x02#8, 0x11#8, 0x12#8, 0x13#8, 0x14#8, 0x15#8, 0x16#8, 0x17#8, 0x18#8, 0x19#8, 0x1a#8, 0x1b#8, 0x1c#8, 0x1d#8, 0x1e#8, 0x1f#8, 0x10#8, 0x21#8, 0x22#8, 0x23#8, 0x24#8, 0x25#8, 0x26#8, 0x27#8, 0x28#8, 0x29#8, 0x2a#8, 0x2b#8, 0x2c#8, 0x2d#8, 0x2e#8, 0x2f#8, 0x20#8, 0x00#8, 0x00#8, 0x00#8, 0x05#8, 0x21#8, 0x22#8, 0x23#8, 0x24#8, 0x25#8]),
  ("tenc: DefaultIsProtected=1 DefaultPerSampleIVSize=0", bdTenc, {  }, [("FullBox", (.struct [("Version", (.uint 1)), ("Flags", (.arr [(.uint 0), (.uint 0), (.uint 0)]))])), ("Reserved", (.uint 0)), ("DefaultCryptByteBlock", (.uint 10)), ("DefaultSkipByteBlock", (.uint 11)), ("DefaultIsProtected", (.uint 1)), ("DefaultPerSampleIVSize", (.uint 0)), ("DefaultKID", (.arr [(.uint 1), (.uint 35), (.uint 69), (.uint 103), (.uint 137), (.uint 171), (.uint 205), (.uint 239), (.uint 1), (.uint 35), (.uint 69), (.uint 103), (.uint 137), (.uint 171), (.uint 205), (.uint 239)])), ("DefaultConstantIVSize", (.uint 4)), ("DefaultConstantIV", (.slice [(.uint 1), (.uint 35), (.uint 69), (.uint 103)]))],
    [0x01#8, 0x00#8, 0x00#8, 0x00#8, 0x00#8, 0xab#8, 0x01#8, 0x00#8, 0x01#8, 0x23#8, 0x45#8, 0x67#8, 0x89#8, 0xab#8, 0xcd#8, 0xef#8, 0x01#8, 0x23#8, 0x45#8, 0x67#8, 0x89#8, 0xab#8, 0xcd#8, 0xef#8, 0x04#8, 0x01#8, 0x23#8, 0x45#8, 0x67#8])]

/-- test cases -/
def vectors10 : List (String × BoxDef × Ctx × SV × Bytes) := [
  ("tenc: DefaultIsProtected=0 DefaultPerSampleIVSize=0", bdTenc, {  }, [("FullBox", (.struct [("Version", (.uint 1)), ("Flags", (.arr [(.uint 0), (.uint 0), (.uint 0)]))])), ("Reserved", (.uint 0)), ("DefaultCryptByteBlock", (.uint 10)), ("DefaultSkipByteBlock", (.uint 11)), ("DefaultIsProtected", (.uint 0)), ("DefaultPerSampleIVSize", (.uint 0)), ("DefaultKID", (.arr [(.uint 1), (.uint 35), (.uint 69), (.uint 103), (.uint 137), (.uint 171), (.uint 205), (.uint 239), (.uint 1), (.uint 35), (.uint 69), (.uint 103), (.uint 137), (.uint 171), (.uint 205), (.uint 239)])), ("DefaultConstantIVSize", (.uint 0)), ("DefaultConstantIV", (.slice []))],
    [0x01#8, 0x00#8, 0x00#8, 0x00#8, 0x00#8, 0xab#8, 0x00#8, 0x00#8, 0x01#8, 0x23#8, 0x45#8, 0x67#8, 0x89#8, 0xab#8, 0xcd#8, 0xef#8, 0x01#8, 0x23#8, 0x45#8, 0x67#8, 0x89#8, 0xab#8, 0xcd#8, 0xef#8]),
  ("tenc: DefaultIsProtected=1 DefaultPerSampleIVSize=1", bdTenc, {  }, [("FullBox", (.struct [("Version", (.uint 1)), ("Flags", (.arr [(.uint 0), (.uint 0), (.uint 0)]))])), ("Reserved", (.uint 0)), ("DefaultCryptByteBlock", (.uint 10)), ("DefaultSkipByteBlock", (.uint 11)), ("DefaultIsProtected", (.uint 1)), ("DefaultPerSampleIVSize", (.uint 1)), ("DefaultKID", (.arr [(.uint 1), (.uint 35), (.uint 69), (.uint 103), (.uint 137), (.uint 171), (.uint 205), (.uint 239), (.uint 1), (.uint 35), (.uint 69), (.uint 103), (.uint 137), (.uint 171), (.uint 205), (.uint 239)])), ("DefaultConstantIVSize", (.uint 0)), ("DefaultConstantIV", (.slice []))],
    [0x01#8, 0x00#8, 0x00#8, 0x00#8, 0x00#8, 0xab#8, 0x01#8, 0x01#8, 0x01#8, 0x23#8, 0x45#8, 0x67#8, 0x89#8, 0xab#8, 0xcd#8, 0xef#8, 0x01#8, 0x23#8, 0x45#8, 0x67#8, 0x89#8, 0xab#8, 0xcd#8, 0xef#8]),
  ("ilst", bdIlst, {  }, [],
    []),
  ("ilst meta container", bdIlstMetaContainer, { underIlst := true }, [],
    []),
  ("ilst data (binary)", bdData, { underIlstMeta := true }, [("DataType", (.uint 0)), ("DataLang", (.uint 305419896)), ("Data", (.slice [(.uint 102), (.uint 111), (.uint 111)]))],
    [0x00#8, 0x00#8, 0x00#8, 0x00#8, 0x12#8, 0x34#8, 0x56#8, 0x78#8, 0x66#8, 0x6f#8, 0x6f#8]),
  ("ilst data (utf8)", bdData, { underIlstMeta := true }, [("DataType", (.uint 1)), ("DataLang", (.uint 305419896)), ("Data", (.slice [(.uint 102), (.uint 111), (.uint 111)]))],
    [0x00#8, 0x00#8, 0x00#8, 0x01#8, 0x12#8, 0x34#8, 0x56#8, 0x78#8, 0x66#8, 0x6f#8, 0x6f#8]),
  ("ilst data (utf8 escaped)", bdData, { underIlstMeta := true }, [("DataType", (.uint 1)), ("DataLang", (.uint 305419896)), ("Data", (.slice [(.uint 0), (.uint 102), (.uint 111), (.uint 111)]))],
    [0x00#8, 0x00#8, 0x00#8, 0x01#8, 0x12#8, 0x34#8, 0x56#8, 0x78#8, 0x00#8, 0x66#8, 0x6f#8, 0x6f#8]),
  ("ilst data (utf16)", bdData, { underIlstMeta := true }, [("DataType", (.uint 2)), ("DataLang", (.uint 305419896)), ("Data", (.slice [(.uint 102), (.uint 111), (.uint 111)]))],
    [0x00#8, 0x00#8, 0x00#8, 0x02#8, 0x12#8, 0x34#8, 0x56#8, 0x78#8, 0x66#8, 0x6f#8, 0x6f#8]),
  ("ilst data (mac string)", bdData, { underIlstMeta := true }, [("DataType", (.uint 3)), ("DataLang", (.uint 305419896)), ("Data", (.slice [(.uint 102), (.uint 111), (.uint 111)]))],
    [0x00#8, 0x00#8, 0x00#8, 0x03#8, 0x12#8, 0x34#8, 0x56#8, 0x78#8, 0x66#8, 0x6f#8, 0x6f#8]),
  ("ilst data (jpsg)", bdData, { underIlstMeta := true }, [("DataType", (.uint 14)), ("DataLang", (.uint 305419896)), ("Data", (.slice [(.uint 102), (.uint 111), (.uint 111)]))],
    [0x00#8, 0x00#8, 0x00#8, 0x0e#8, 0x12#8, 0x34#8, 0x56#8, 0x78#8, 0x66#8, 0x6f#8, 0x6f#8]),
  ("ilst data (int)", bdData, { underIlstMeta := true }, [("DataType", (.uint 21)), ("DataLang", (.uint 305419896)), ("Data", (.slice [(.uint 102), (.uint 111), (.uint 111)]))],
    [0x00#8, 0x00#8, 0x00#8, 0x15#8, 0x12#8, 0x34#8, 0x56#8, 0x78#8, 0x66#8, 0x6f#8, 0x6f#8]),
  ("ilst data (float32)", bdData, { underIlstMeta := true }, [("DataType", (.uint 22)), ("DataLang", (.uint 305419896)), ("Data", (.slice [(.uint 102), (.uint 111), (.uint 111)]))],
    [0x00#8, 0x00#8, 0x00#8, 0x16#8, 0x12#8, 0x34#8, 0x56#8, 0x78#8, 0x66#8, 0x6f#8, 0x6f#8])]

/-- test cases -/
def vectors11 : List (String × BoxDef × Ctx × SV × Bytes) := [
  ("ilst data (float64)", bdData, { underIlstMeta := true }, [("DataType", (.uint 23)), ("DataLang", (.uint 305419896)), ("Data", (.slice [(.uint 102), (.uint 111), (.uint 111)]))],
    [0x00#8, 0x00#8, 0x00#8, 0x17#8, 0x12#8, 0x34#8, 0x56#8, 0x78#8, 0x66#8, 0x6f#8, 0x6f#8]),
  ("ilst data (string)", bdStringData, { underIlstFreeMeta := true }, [("Data", (.slice [(.uint 0), (.uint 102), (.uint 111), (.uint 111)]))],
    [0x00#8, 0x66#8, 0x6f#8, 0x6f#8]),
  ("ilst numbered item", bdItem, { underIlst := true, quickTimeKeysMetaEntryCount := 1 }, [("Version", (.uint 0)), ("Flags", (.arr [(.uint 48), (.uint 0), (.uint 0)])), ("ItemName", (.slice [(.uint 100), (.uint 97), (.uint 116), (.uint 97)])), ("Data", (.struct [("DataType", (.uint 0)), ("DataLang", (.uint 305419896)), ("Data", (.slice [(.uint 102), (.uint 111), (.uint 111)]))]))],
    [0x00#8, 0x30#8, 0x00#8, 0x00#8, 0x64#8, 0x61#8, 0x74#8, 0x61#8, 0x00#8, 0x00#8, 0x00#8, 0x00#8, 0x12#8, 0x34#8, 0x56#8, 0x78#8, 0x66#8, 0x6f#8, 0x6f#8]),
  ("keys", bdKeys, {  }, [("FullBox", (.struct [("Version", (.uint 0)), ("Flags", (.arr [(.uint 0), (.uint 0), (.uint 0)]))])), ("EntryCount", (.int (2))), ("Entries", (.slice [(.struct [("KeySize", (.int (27))), ("KeyNamespace", (.slice [(.uint 109), (.uint 100), (.uint 116), (.uint 97)])), ("KeyValue", (.slice [(.uint 99), (.uint 111), (.uint 109), (.uint 46), (.uint 97), (.uint 110), (.uint 100), (.uint 114), (.uint 111), (.uint 105), (.uint 100), (.uint 46), (.uint 118), (.uint 101), (.uint 114), (.uint 115), (.uint 105), (.uint 111), (.uint 110)]))]), (.struct [("KeySize", (.int (25))), ("KeyNamespace", (.slice [(.uint 109), (.uint 100), (.uint 116), (.uint 97)])), ("KeyValue", (.slice [(.uint 99), (.uint 111), (.uint 109), (.uint 46), (.uint 97), (.uint 110), (.uint 100), (.uint 114), (.uint 111), (.uint 105), (.uint 100), (.uint 46), (.uint 109), (.uint 111), (.uint 100), (.uint 101), (.uint 108)]))])]))],
    [0x00#8, 0x00#8, 0x00#8, 0x00#8, 0x00#8, 0x00#8, 0x00#8, 0x02#8, 0x00#8, 0x00#8, 0x00#8, 0x1b#8, 0x6d#8, 0x64#8, 0x74#8, 0x61#8, 0x63#8, 0x6f#8, 0x6d#8, 0x2e#8, 0x61#8, 0x6e#8, 0x64#8, 0x72#8, 0x6f#8, 0x69#8, 0x64#8, 0x2e#8, 0x76#8, 0x65#8, 0x72#8, 0x73#8, 0x69#8, 0x6f#8, 0x6e#8, 0x00#8, 0x00#8, 0x00#8, 0x19#8, 0x6d#8, 0x64#8, 0x74#8, 0x61#8, 0x63#8, 0x6f#8, 0x6d#8, 0x2e#8, 0x61#8, 0x6e#8, 0x64#8, 0x72#8, 0x6f#8, 0x69#8, 0x64#8, 0x2e#8, 0x6d#8, 0x6f#8, 0x64#8, 0x65#8, 0x6c#8]),
  ("dOps", bdDOps, {  }, [("Version", (.uint 0)), ("OutputChannelCount", (.uint 2)), ("PreSkip", (.uint 312)), ("InputSampleRate", (.uint 48000)), ("OutputGain", (.int (0))), ("ChannelMappingFamily", (.uint 2)), ("StreamCount", (.uint 1)), ("CoupledCount", (.uint 1)), ("ChannelMapping", (.slice [(.uint 1), (.uint 2)]))],
    [0x00#8, 0x02#8, 0x01#8, 0x38#8, 0x00#8, 0x00#8, 0xbb#8, 0x80#8, 0x00#8, 0x00#8, 0x02#8, 0x01#8, 0x01#8, 0x01#8, 0x02#8]),
  ("vpcC", bdVpcC, {  }, [("FullBox", (.struct [("Version", (.uint 1)), ("Flags", (.arr [(.uint 0), (.uint 0), (.uint 0)]))])), ("Profile", (.uint 1)), ("Level", (.uint 50)), ("BitDepth", (.uint 10)), ("ChromaSubsampling", (.uint 3)), ("VideoFullRangeFlag", (.uint 1)), ("ColourPrimaries", (.uint 0)), ("TransferCharacteristics", (.uint 1)), ("MatrixCoefficients", (.uint 10)), ("CodecInitializationDataSize", (.uint 3)), ("CodecInitializationData", (.slice [(.uint 5), (.uint 4), (.uint 3)]))],
    [0x01#8, 0x00#8, 0x00#8, 0x00#8, 0x01#8, 0x32#8, 0xa7#8, 0x00#8, 0x01#8, 0x0a#8, 0x00#8, 0x03#8, 0x05#8, 0x04#8, 0x03#8])]

/-- all test cases -/
def vectors := vectors0 ++ vectors1 ++ vectors2 ++ vectors3 ++ vectors4 ++ vectors5 ++ vectors6 ++ vectors7 ++ vectors8 ++ vectors9 ++ vectors10 ++ vectors11

/-- the expected texts, in the same order -/
def texts : List String := [
  "Version=0 Flags=0x000000 Language=\"eng\" Data=\"SING\"",
  "SeqProfile=0x2 SeqLevelIdx0=0x1 SeqTier0=0x1 HighBitdepth=0x1 TwelveBit=0x0 Monochrome=0x0 ChromaSubsamplingX=0x1 ChromaSubsamplingY=0x1 ChromaSamplePosition=0x0 InitialPresentationDelayPresent=0x0 InitialPresentationDelayMinusOne=0x0 ConfigOBUs=[0x8, 0x0, 0x0, 0x0, 0x42, 0xa7, 0xbf, 0xe4, 0x60, 0xd, 0x0, 0x40]",
  "Fscod=0x0 Bsid=0x8 Bsmod=0x0 Acmod=0x7 LfeOn=0x1 BitRateCode=0x7",
  "BufferSizeDB=305419896 MaxBitrate=878082202 AvgBitrate=1450744508",
  "Version=0 Flags=0x000000 EntryCount=2 ChunkOffset=[81985529216486895, 9920249030613615975]",
  "ColourType=\"nclx\" ColourPrimaries=291 TransferCharacteristics=9029 MatrixCoefficients=17767 FullRangeFlag=true Reserved=0x67",
  "ColourType=\"rICC\" Profile=[0x12, 0x34, 0x56, 0x78, 0xab]",
  "ColourType=\"nclc\" Unknown=[0x1, 0x23, 0x45]",
  "Version=0 Flags=0x000000 CompositionToDTSShiftV0=305419896 LeastDecodeToDisplayDeltaV0=-305419896 GreatestDecodeToDisplayDeltaV0=305419896 CompositionStartTimeV0=-305419896 CompositionEndTimeV0=305419896",
  "Version=0 Flags=0x000000 EntryCount=2 Entries=[{SampleCount=19088743 SampleOffsetV0=305419896}, {SampleCount=2309737967 SampleOffsetV0=2023406814}]",
  "Version=1 Flags=0x000000 EntryCount=2 Entries=[{SampleCount=19088743 SampleOffsetV1=305419896}, {SampleCount=2309737967 SampleOffsetV1=-2023406814}]",
  "",
  "Version=0 Flags=0x000000 EntryCount=305419896",
  "",
  "Version=0 Flags=0x000000 EntryCount=2 Entries=[{SegmentDurationV0=16777226 MediaTimeV0=16777227 MediaRateInteger=268}, {SegmentDurationV0=33554442 MediaTimeV0=33554443 MediaRateInteger=524}]",
  "Version=1 Flags=0x000000 EntryCount=2 Entries=[{SegmentDurationV1=72057594037927946 MediaTimeV1=72057594037927947 MediaRateInteger=268}, {SegmentDurationV1=144115188075855882 MediaTimeV1=144115188075855883 MediaRateInteger=524}]",
  "Version=0 Flags=0x000000 SchemeIdUri=\"urn:test\" Value=\"foo\" Timescale=1000 PresentationTimeDelta=123 EventDuration=3000 Id=43981 MessageData=\"abema\"",
  "Version=1 Flags=0x000000 SchemeIdUri=\"urn:test\" Value=\"foo\" Timescale=1000 PresentationTime=123 EventDuration=3000 Id=43981 MessageData=\"abema\"",
  "FieldCount=0xe9 FieldOrdering=0x70",
  "Data=[0x12, 0x34, 0x56]",
  "Data=[0x12, 0x34, 0x56]",
  "DataFormat=\"test\"",
  "MajorBrand=\"abem\" MinorVersion=305419896 CompatibleBrands=[{CompatibleBrand=\"abcd\"}, {CompatibleBrand=\"efgh\"}]",
  "Version=0 Flags=0x000000 PreDefined=305419896 HandlerType=\"abem\" Name=\"Abema\"",
  "ConfigurationVersion=0x1 GeneralProfileSpace=0x0 GeneralTierFlag=false GeneralProfileIdc=0x1 GeneralProfileCompatibility=[false, true, true, false, false, false, false, false, false, false, false, false, false, false, false, false, false, false, false, false, false, false, false, false, false, false, false, false, false, false, false, false] GeneralConstraintIndicator=[0x90, 0x0, 0x0, 0x0, 0x0, 0x0] GeneralLevelIdc=0x78 MinSpatialSegmentationIdc=0 ParallelismType=0x0 ChromaFormatIdc=0x1 BitDepthLumaMinus8=0x0 BitDepthChromaMinus8=0x0 AvgFrameRate=0 ConstantFrameRate=0x0 NumTemporalLayers=0x0 TemporalIdNested=0x3 LengthSizeMinusOne=0x3 NumOfNaluArrays=0x4 NaluArrays=[{Completeness=false Reserved=false NaluType=0x20 NumNalus=1 Nalus=[{Length=24 NALUnit=[0x40, 0x1, 0xc, 0x1, 0xff, 0xff, 0x1, 0x60, 0x0, 0x0, 0x3, 0x0, 0x90, 0x0, 0x0, 0x3, 0x0, 0x0, 0x3, 0x0, 0x78, 0x99, 0x98, 0x9]}]}, {Completeness=false Reserved=false NaluType=0x21 NumNalus=1 Nalus=[{Length=42 NALUnit=[0x6, 0x1, 0x1, 0x1, 0x60, 0x0, 0x0, 0x3, 0x0, 0x90, 0x0, 0x0, 0x3, 0x0, 0x0, 0x3, 0x0, 0x78, 0xa0, 0x3, 0xc0, 0x80, 0x10, 0xe5, 0x96, 0x66, 0x69, 0x24, 0xca, 0xe0, 0x10, 0x0, 0x0, 0x3, 0x0, 0x10, 0x0, 0x0, 0x3, 0x1, 0xe0, 0x80]}]}, {Completeness=false Reserved=false NaluType=0x22 NumNalus=1 Nalus=[{Length=7 NALUnit=[0x44, 0x1, 0xc1, 0x72, 0xb4, 0x62, 0x40]}]}, {Completeness=false Reserved=false NaluType=0x27 NumNalus=1 Nalus=[{Length=11 NALUnit=[0x4e, 0x1, 0x5, 0xff, 0xff, 0xff, 0xa6, 0x2c, 0xa2, 0xde, 0x9]}]}]",
  "Data=[0x11, 0x22, 0x33]",
  "Version=0 Flags=0x000000 CreationTimeV0=305419896 ModificationTimeV0=591751049 Timescale=16909060 DurationV0=33752069 Language=\"jpn\" PreDefined=0",
  "Version=1 Flags=0x000000 CreationTimeV1=1311768467463790320 ModificationTimeV1=2541551405711093505 Timescale=16909060 DurationV1=144964032628459529 Language=\"jpn\" PreDefined=0",
  "",
  "Version=0 Flags=0x000000 FragmentDurationV0=19088743",
  "Version=1 Flags=0x000000 FragmentDurationV1=81985529216486895",
  "Version=0 Flags=0x000000",
  "Version=0 Flags=0x000000 SequenceNumber=305419896",
  "",
  "Version=0 Flags=0x000000 Size=305419896",
  "",
  "",
  "",
  "",
  "Version=0 Flags=0x000000 CreationTimeV0=19088743 ModificationTimeV0=591751049 Timescale=1164413355 DurationV0=1737075661 Rate=-291.27110 Volume=291 Matrix=[0x0, 0x0, 0x0, 0x0, 0x0, 0x0, 0x0, 0x0, 0x0] PreDefined=[0, 0, 0, 0, 0, 0] NextTrackID=2882400001",
  "Version=1 Flags=0x000000 CreationTimeV1=81985529216486895 ModificationTimeV1=2541551405711093505 Timescale=2309737967 DurationV1=5001117282205630755 Rate=-291.27110 Volume=291 Matrix=[0x0, 0x0, 0x0, 0x0, 0x0, 0x0, 0x0, 0x0, 0x0] PreDefined=[0, 0, 0, 0, 0, 0] NextTrackID=2882400001",
  "Version=0 Flags=0x000000 EntryCount=3 OffsetV0=[19088743, 591751049, 1164413355]",
  "Version=0 Flags=0x000001 AuxInfoType=\"test\" AuxInfoTypeParameter=0x89abcdef EntryCount=3 OffsetV0=[19088743, 591751049, 1164413355]",
  "Version=1 Flags=0x000000 EntryCount=2 OffsetV1=[81985529216486895, 81985529216486895]",
  "Version=0 Flags=0x000000 DefaultSampleInfoSize=1 SampleCount=19088743",
  "Version=0 Flags=0x000000 DefaultSampleInfoSize=0 SampleCount=3 SampleInfoSize=[1, 2, 3]",
  "Version=0 Flags=0x000001 AuxInfoType=\"test\" AuxInfoTypeParameter=0x89abcdef DefaultSampleInfoSize=1 SampleCount=19088743",
  "DataReferenceIndex=4660 PreDefined=257 PreDefined2=[16777217, 16777218, 16777219] Width=258 Height=259 Horizresolution=16777220 Vertresolution=16777221 FrameCount=260 Compressorname=\"abema.tv\" Depth=261 PreDefined3=1001",
  "DataReferenceIndex=4660 EntryVersion=291 ChannelCount=9029 SampleSize=17767 PreDefined=26505 SampleRate=291.27110",
  "DataReferenceIndex=4660 EntryVersion=291 ChannelCount=9029 SampleSize=17767 PreDefined=26505 SampleRate=291.27110",
  "DataReferenceIndex=4660 EntryVersion=0 ChannelCount=9029 SampleSize=17767 PreDefined=26505 SampleRate=291.27110",
  "DataReferenceIndex=4660 EntryVersion=1 ChannelCount=9029 SampleSize=17767 PreDefined=26505 SampleRate=291.27110 QuickTimeData=[0x0, 0x11, 0x22, 0x33, 0x44, 0x55, 0x66, 0x77, 0x88, 0x99, 0xaa, 0xbb, 0xcc, 0xdd, 0xee, 0xff]",
  "DataReferenceIndex=4660 EntryVersion=2 ChannelCount=9029 SampleSize=17767 PreDefined=26505 SampleRate=291.27110 QuickTimeData=[0x0, 0x11, 0x22, 0x33, 0x44, 0x55, 0x66, 0x77, 0x88, 0x99, 0xaa, 0xbb, 0xcc, 0xdd, 0xee, 0xff, 0x0, 0x11, 0x22, 0x33, 0x44, 0x55, 0x66, 0x77, 0x88, 0x99, 0xaa, 0xbb, 0xcc, 0xdd, 0xee, 0xff, 0x0, 0x11, 0x22, 0x33]",
  "ConfigurationVersion=0x12 Profile=0x4d ProfileCompatibility=0x40 Level=0x1f LengthSizeMinusOne=0x2 NumOfSequenceParameterSets=0x2 SequenceParameterSets=[{Length=2 NALUnit=[0x12, 0x34]}, {Length=3 NALUnit=[0x12, 0x34, 0x56]}] NumOfPictureParameterSets=0x2 PictureParameterSets=[{Length=2 NALUnit=[0xab, 0xcd]}, {Length=3 NALUnit=[0xab, 0xcd, 0xef]}]",
  "ConfigurationVersion=0x12 Profile=0x64 ProfileCompatibility=0x0 Level=0x28 LengthSizeMinusOne=0x2 NumOfSequenceParameterSets=0x2 SequenceParameterSets=[{Length=2 NALUnit=[0x12, 0x34]}, {Length=3 NALUnit=[0x12, 0x34, 0x56]}] NumOfPictureParameterSets=0x2 PictureParameterSets=[{Length=2 NALUnit=[0xab, 0xcd]}, {Length=3 NALUnit=[0xab, 0xcd, 0xef]}]",
  "ConfigurationVersion=0x12 Profile=0x64 ProfileCompatibility=0x0 Level=0x28 LengthSizeMinusOne=0x2 NumOfSequenceParameterSets=0x2 SequenceParameterSets=[{Length=2 NALUnit=[0x12, 0x34]}, {Length=3 NALUnit=[0x12, 0x34, 0x56]}] NumOfPictureParameterSets=0x2 PictureParameterSets=[{Length=2 NALUnit=[0xab, 0xcd]}, {Length=3 NALUnit=[0xab, 0xcd, 0xef]}] ChromaFormat=0x1 BitDepthLumaMinus8=0x2 BitDepthChromaMinus8=0x3 NumOfSequenceParameterSetExt=0x2 SequenceParameterSetsExt=[{Length=2 NALUnit=[0x12, 0x34]}, {Length=3 NALUnit=[0x12, 0x34, 0x56]}]",
  "HSpacing=19088743 VSpacing=591751049",
  "DataReferenceIndex=4660 Namespace=\"http://foo.org/bar http://baz.org/qux\" SchemaLocation=\"http://quux.org/corge\" AuxiliaryMIMETypes=\"xxx/yyy\"",
  "DataReferenceIndex=4660 ContentEncoding=\"foo\" MIMEFormat=\"bar/baz\"",
  "Version=0 Flags=0x000000 GroupingType=19088743 EntryCount=2 Entries=[{SampleCount=591751049 GroupDescriptionIndex=878082202}, {SampleCount=1164413355 GroupDescriptionIndex=1450744508}]",
  "Version=1 Flags=0x000000 GroupingType=19088743 GroupingTypeParameter=2309737967 EntryCount=2 Entries=[{SampleCount=591751049 GroupDescriptionIndex=878082202}, {SampleCount=1164413355 GroupDescriptionIndex=1450744508}]",
  "",
  "Version=0 Flags=0x000000 SchemeType=\"test\" SchemeVersion=0x12345678",
  "Version=0 Flags=0x000001 SchemeType=\"test\" SchemeVersion=0x12345678 SchemeUri=\"foo://bar/baz\"",
  "Version=0 Flags=0x000000 Samples=[{IsLeading=0x0 SampleDependsOn=0x0 SampleIsDependedOn=0x0 SampleHasRedundancy=0x0}, {IsLeading=0x0 SampleDependsOn=0x1 SampleIsDependedOn=0x2 SampleHasRedundancy=0x3}, {IsLeading=0x3 SampleDependsOn=0x2 SampleIsDependedOn=0x1 SampleHasRedundancy=0x0}]",
  "Version=1 Flags=0x000000 GroupingType=\"roll\" DefaultLength=2 EntryCount=2 RollDistances=[4369, 8738]",
  "Version=1 Flags=0x000000 GroupingType=\"prol\" DefaultLength=2 EntryCount=2 RollDistances=[4369, 8738]",
  "Version=1 Flags=0x000000 GroupingType=\"alst\" DefaultLength=12 EntryCount=2 AlternativeStartupEntries=[{RollCount=2 FirstOutputSample=291 SampleOffset=[19088743, 2309737967] Opts=[]}, {RollCount=2 FirstOutputSample=17767 SampleOffset=[1164413355, 3454992675] Opts=[]}]",
  "Version=1 Flags=0x000000 GroupingType=\"alst\" DefaultLength=20 EntryCount=2 AlternativeStartupEntries=[{RollCount=2 FirstOutputSample=291 SampleOffset=[19088743, 2309737967] Opts=[{NumOutputSamples=291 NumTotalSamples=17767}, {NumOutputSamples=35243 NumTotalSamples=52719}]}, {RollCount=2 FirstOutputSample=17767 SampleOffset=[1164413355, 3454992675] Opts=[{NumOutputSamples=291 NumTotalSamples=17767}, {NumOutputSamples=35243 NumTotalSamples=52719}]}]",
  "Version=1 Flags=0x000000 GroupingType=\"alst\" DefaultLength=0 EntryCount=2 AlternativeStartupEntriesL=[{DescriptionLength=16 RollCount=2 FirstOutputSample=291 SampleOffset=[19088743, 2309737967] Opts=[{NumOutputSamples=291 NumTotalSamples=17767}]}, {DescriptionLength=20 RollCount=2 FirstOutputSample=17767 SampleOffset=[1164413355, 3454992675] Opts=[{NumOutputSamples=291 NumTotalSamples=17767}, {NumOutputSamples=35243 NumTotalSamples=52719}]}]",
  "Version=1 Flags=0x000000 GroupingType=\"rap \" DefaultLength=1 EntryCount=2 VisualRandomAccessEntries=[{NumLeadingSamplesKnown=true NumLeadingSamples=0x27}, {NumLeadingSamplesKnown=false NumLeadingSamples=0x1a}]",
  "Version=1 Flags=0x000000 GroupingType=\"tele\" DefaultLength=1 EntryCount=2 TemporalLevelEntries=[{LevelIndependentlyDecodable=true}, {LevelIndependentlyDecodable=false}]",
  "Version=2 Flags=0x000000 GroupingType=\"roll\" DefaultSampleDescriptionIndex=5 EntryCount=2 RollDistances=[4369, 8738]",
  "Version=0 Flags=0x000000 ReferenceID=19088743 Timescale=591751049 EarliestPresentationTimeV0=1164413355 FirstOffsetV0=1737075661 ReferenceCount=2 References=[{ReferenceType=false ReferencedSize=19088743 SubsegmentDuration=591751049 StartsWithSAP=true SAPType=6 SAPDeltaTime=162254319}, {ReferenceType=true ReferencedSize=19088743 SubsegmentDuration=591751049 StartsWithSAP=false SAPType=5 SAPDeltaTime=162254319}]",
  "Version=1 Flags=0x000000 ReferenceID=19088743 Timescale=591751049 EarliestPresentationTimeV1=81985529216486895 FirstOffsetV1=2541551405711093505 ReferenceCount=2 References=[{ReferenceType=false ReferencedSize=19088743 SubsegmentDuration=591751049 StartsWithSAP=true SAPType=6 SAPDeltaTime=162254319}, {ReferenceType=true ReferencedSize=19088743 SubsegmentDuration=591751049 StartsWithSAP=false SAPType=5 SAPDeltaTime=162254319}]",
  "",
  "Version=0 Flags=0x000000 Balance=1.137",
  "",
  "Version=0 Flags=0x000000 EntryCount=2 ChunkOffset=[19088743, 2309737967]",
  "Version=0 Flags=0x000000 EntryCount=2 Entries=[{FirstChunk=19088743 SamplesPerChunk=591751049 SampleDescriptionIndex=1164413355}, {FirstChunk=1737075661 SamplesPerChunk=2309737967 SampleDescriptionIndex=2882400001}]",
  "Version=0 Flags=0x000000 EntryCount=19088743",
  "Version=0 Flags=0x000000 EntryCount=2 SampleNumber=[19088743, 2309737967]",
  "Version=0 Flags=0x000000 SampleSize=19088743 SampleCount=2 EntrySize=[]",
  "Version=0 Flags=0x000000 SampleSize=0 SampleCount=2 EntrySize=[19088743, 591751049]",
  "Version=0 Flags=0x000000 EntryCount=2 Entries=[{SampleCount=19088743 SampleDelta=591751049}, {SampleCount=1164413355 SampleDelta=1737075661}]",
  "MajorBrand=\"abem\" MinorVersion=305419896 CompatibleBrands=[{CompatibleBrand=\"abcd\"}, {CompatibleBrand=\"efgh\"}]",
  "Version=0 Flags=0x000000 BaseMediaDecodeTimeV0=19088743",
  "Version=1 Flags=0x000000 BaseMediaDecodeTimeV1=81985529216486895",
  "Version=0 Flags=0x000000 TrackID=138430025",
  "Version=0 Flags=0x000009 TrackID=138430025 BaseDataOffset=81985529216486895 DefaultSampleDuration=591751049",
  "Version=0 Flags=0x000000 TrackID=286331153 LengthSizeOfTrafNum=0x1 LengthSizeOfTrunNum=0x2 LengthSizeOfSampleNum=0x3 NumberOfEntry=2 Entries=[{TimeV0=572662306 MoofOffsetV0=858993459 TrafNumber=17476 TrunNumber=5592405 SampleNumber=1717986918}, {TimeV0=2004318071 MoofOffsetV0=2290649224 TrafNumber=39321 TrunNumber=11184810 SampleNumber=3149642683}]",
  "Version=1 Flags=0x000000 TrackID=286331153 LengthSizeOfTrafNum=0x1 LengthSizeOfTrunNum=0x2 LengthSizeOfSampleNum=0x3 NumberOfEntry=2 Entries=[{TimeV1=2459565876494606882 MoofOffsetV1=3689348814741910323 TrafNumber=17476 TrunNumber=5592405 SampleNumber=1717986918}, {TimeV1=8608480567731124087 MoofOffsetV1=9838263505978427528 TrafNumber=39321 TrunNumber=11184810 SampleNumber=3149642683}]",
  "Version=0 Flags=0x000000 CreationTimeV0=19088743 ModificationTimeV0=305419896 TrackID=591751049 DurationV0=1164413355 Layer=23456 AlternateGroup=-23456 Volume=256 Matrix=[0x10000, 0x0, 0x0, 0x0, 0x10000, 0x0, 0x0, 0x0, 0x40000000] Width=1920 Height=1080",
  "Version=1 Flags=0x000000 CreationTimeV1=81985529216486895 ModificationTimeV1=1311768467463790320 TrackID=591751049 DurationV1=5001117282205630755 Layer=23456 AlternateGroup=-23456 Volume=256 Matrix=[0x10000, 0x0, 0x0, 0x0, 0x10000, 0x0, 0x0, 0x0, 0x40000000] Width=1920 Height=1080",
  "",
  "",
  "Version=0 Flags=0x000000 TrackID=19088743",
  "Version=0 Flags=0x000000 TrackID=19088743 DefaultSampleDescriptionIndex=591751049 DefaultSampleDuration=1164413355 DefaultSampleSize=1737075661 DefaultSampleFlags=0x89abcdef",
  "Version=0 Flags=0x000101 SampleCount=3 DataOffset=50 Entries=[{SampleDuration=100}, {SampleDuration=101}, {SampleDuration=102}]",
  "Version=0 Flags=0x000204 SampleCount=3 FirstSampleFlags=0x2468ace Entries=[{SampleSize=100}, {SampleSize=101}, {SampleSize=102}]",
  "Version=0 Flags=0x000c00 SampleCount=3 Entries=[{SampleFlags=0x64 SampleCompositionTimeOffsetV0=200}, {SampleFlags=0x65 SampleCompositionTimeOffsetV0=201}, {SampleFlags=0x66 SampleCompositionTimeOffsetV0=202}]",
  "Version=1 Flags=0x000800 SampleCount=3 Entries=[{SampleCompositionTimeOffsetV1=200}, {SampleCompositionTimeOffsetV1=201}, {SampleCompositionTimeOffsetV1=-202}]",
  "",
  "Version=0 Flags=0x000000 Graphicsmode=291 Opcolor=[9029, 17767, 26505]",
  "Version=0 Flags=0x000000 Descriptors=[{Tag=ESDescr Size=19088743 ESID=4660 StreamDependenceFlag=true UrlFlag=false OcrStreamFlag=true StreamPriority=3 DependsOnESID=9029 OCRESID=13398}, {Tag=ESDescr Size=19088743 ESID=4660 StreamDependenceFlag=false UrlFlag=true OcrStreamFlag=false StreamPriority=3 URLLength=0xb URLString=\"http://hoge\"}, {Tag=DecoderConfigDescr Size=19088743 ObjectTypeIndication=0x12 StreamType=21 UpStream=true Reserved=false BufferSizeDB=1193046 MaxBitrate=305419896 AvgBitrate=591751049}, {Tag=DecSpecificInfo Size=3 Data=[0x11, 0x22, 0x33]}, {Tag=SLConfigDescr Size=5 Data=[0x11, 0x22, 0x33, 0x44, 0x55]}]",
  "Config=\"WEBVTT.\"",
  "SourceLabel=\"Source\"",
  "DataReferenceIndex=4660",
  "",
  "SourceId=0",
  "CueCurrentTime=\"00:00:00.000\"",
  "CueId=\"example_id\"",
  "Settings=\"line=0\"",
  "CueText=\"sample\"",
  "",
  "CueAdditionalText=\"test\"",
  "Version=0 Flags=0x000000 FormatFlags=0x1 PCMSampleSize=0x20",
  "Version=0 Flags=0x000000 SystemID=01020304-0506-0708-090a-0b0c0d0e0f10 DataSize=5 Data=[0x21, 0x22, 0x23, 0x24, 0x25]",
  "Version=1 Flags=0x000000 SystemID=01020304-0506-0708-090a-0b0c0d0e0f10 KIDCount=2 KIDs=[11121314-1516-1718-191a-1b1c1d1e1f10, 21222324-2526-2728-292a-2b2c2d2e2f20] DataSize=5 Data=[0x21, 0x22, 0x23, 0x24, 0x25]",
  "Version=1 Flags=0x000000 Reserved=0 DefaultCryptByteBlock=10 DefaultSkipByteBlock=11 DefaultIsProtected=1 DefaultPerSampleIVSize=0 DefaultKID=01234567-89ab-cdef-0123-456789abcdef DefaultConstantIVSize=4 DefaultConstantIV=[0x1, 0x23, 0x45, 0x67]",
  "Version=1 Flags=0x000000 Reserved=0 DefaultCryptByteBlock=10 DefaultSkipByteBlock=11 DefaultIsProtected=0 DefaultPerSampleIVSize=0 DefaultKID=01234567-89ab-cdef-0123-456789abcdef",
  "Version=1 Flags=0x000000 Reserved=0 DefaultCryptByteBlock=10 DefaultSkipByteBlock=11 DefaultIsProtected=1 DefaultPerSampleIVSize=1 DefaultKID=01234567-89ab-cdef-0123-456789abcdef",
  "",
  "",
  "DataType=BINARY DataLang=305419896 Data=[0x66, 0x6f, 0x6f]",
  "DataType=UTF8 DataLang=305419896 Data=\"foo\"",
  "DataType=UTF8 DataLang=305419896 Data=\".foo\"",
  "DataType=UTF16 DataLang=305419896 Data=[0x66, 0x6f, 0x6f]",
  "DataType=MAC_STR DataLang=305419896 Data=[0x66, 0x6f, 0x6f]",
  "DataType=JPEG DataLang=305419896 Data=[0x66, 0x6f, 0x6f]",
  "DataType=INT DataLang=305419896 Data=[0x66, 0x6f, 0x6f]",
  "DataType=FLOAT32 DataLang=305419896 Data=[0x66, 0x6f, 0x6f]",
  "DataType=FLOAT64 DataLang=305419896 Data=[0x66, 0x6f, 0x6f]",
  "Data=\".foo\"",
  "Version=0 Flags=0x000000 ItemName=\"data\" Data={DataType=BINARY DataLang=305419896 Data=[0x66, 0x6f, 0x6f]}",
  "Version=0 Flags=0x000000 EntryCount=2 Entries=[{KeySize=27 KeyNamespace=\"mdta\" KeyValue=\"com.android.version\"}, {KeySize=25 KeyNamespace=\"mdta\" KeyValue=\"com.android.model\"}]",
  "Version=0 OutputChannelCount=0x2 PreSkip=312 InputSampleRate=48000 OutputGain=0 ChannelMappingFamily=0x2 StreamCount=0x1 CoupledCount=0x1 ChannelMapping=[0x1, 0x2]",
  "Version=1 Flags=0x000000 Profile=0x1 Level=0x32 BitDepth=0xa ChromaSubsampling=0x3 VideoFullRangeFlag=0x1 ColourPrimaries=0x0 TransferCharacteristics=0x1 MatrixCoefficients=0xa CodecInitializationDataSize=3 CodecInitializationData=[0x5, 0x4, 0x3]"]

/-- `Marshal` yields the expected bytes. -/
def marshals : String × BoxDef × Ctx × SV × Bytes → Bool
  | (_, bd, ctx, sv, bin) =>
    match marshalBox bd memSink ctx sv [] with
    | (.ok n, out) => n == bin.length && out == bin
    | _ => false

/-- `Unmarshal` of the expected bytes yields the value (compared by its representation). -/
def unmarshals : String × BoxDef × Ctx × SV × Bytes → Bool
  | (_, bd, ctx, sv, bin) =>
    match unmarshalBox bd bin ctx bin.length bd.fields.zero 0 with
    | (.ok (n, sv'), pos) => n == bin.length && pos == n && reprStr sv' == reprStr sv
    | _ => false

/-- `Stringify` yields the expected text. -/
def stringifies : (String × BoxDef × Ctx × SV × Bytes) × String → Bool
  | ((_, bd, ctx, sv, _), text) => Str.stringify (fun _ => true) bd sv [] ctx == some (text.toList.map (·.toNat))

#guard texts.length == vectors.length
#guard ((vectors.zip texts).filter (fun v => !stringifies v)).map (·.1.1) == []
#guard (vectors.filter (fun v => !marshals v)).map (·.1) == []
#guard (vectors.filter (fun v => !unmarshals v)).map (·.1) == []
#guard (vectors.filter (fun (_, bd, ctx, sv, bin) =>
  !(Spec.fits bd ctx sv && Spec.layout bd ctx sv == bytesBits bin))).map (·.1) == []

end Mp4.Cat.Test
