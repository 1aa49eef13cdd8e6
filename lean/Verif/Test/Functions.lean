import Verif.Model.Catalog
import Verif.Model.Tags
import Verif.Model.Probe
import Verif.Model.Read
import Verif.Model.Write
import Verif.Model.Stringify
import Verif.Model.ToolJson

/-!
# Test cases of the repository for single functions

From `box_info_test.go`, `marshaller_test.go`, `write_test.go`, `probe_test.go`, `read_test.go`, `mp4_test.go`, `string_test.go`,
`box_types_iso14496_12_test.go` and `cmd/mp4tool/internal/probe/probe_test.go`.  These are tests of the fidelity of the model, not proofs.
-/

namespace Mp4.Test

open Mp4 Mp4.Cat

/-- the bytes of a string -/
def str (s : String) : Bytes := s.toList.map fun c => BitVec.ofNat 8 c.toNat

/-- a box type -/
def typ (s : String) : BoxType :=
  match str s with
  | [a, b, c, d] => ⟨a, b, c, d⟩
  | _ => ⟨0, 0, 0, 0⟩

/-- a struct with some fields given, the others zero -/
def withFields (z : SV) (l : SV) : SV := z.map fun p => (p.1, ((l.find? (·.1 == p.1)).map (·.2)).getD p.2)

/-! ## `TestWriteBoxInfo`, box_info_test.go:13-118 -/

/-- what `WriteBoxInfo` returns and the bytes then written -/
def written (pre : Bytes) (bi : BoxInfo) : Option (BoxInfo × Bytes) :=
  match writeBoxInfo noFaults bi ⟨pre, pre.length, 0⟩ with
  | (.ok r, s) => some (r, s.data)
  | _ => none

#guard written [] { size := 0x12345, headerSize := 8, type := typ "test" } =
  some ({ size := 0x12345, headerSize := 8, type := typ "test" }, [0, 1, 0x23, 0x45] ++ str "test")
#guard written [] { size := 0x123456789abc, headerSize := 8, type := typ "test" } =
  some ({ size := 0x123456789abc + 8, headerSize := 16, type := typ "test" }, [0, 0, 0, 1] ++ str "test" ++ [0, 0, 0x12, 0x34, 0x56, 0x78, 0x9a, 0xbc])
#guard written [] { size := 0x123, headerSize := 8, type := typ "test", extendToEOF := true } =
  some ({ size := 0x123, headerSize := 8, type := typ "test", extendToEOF := true }, [0, 0, 0, 0] ++ str "test")
#guard written [0, 0, 0] { size := 0x12345, headerSize := 8, type := typ "test" } =
  some ({ offset := 3, size := 0x12345, headerSize := 8, type := typ "test" }, [0, 0, 0, 0, 1, 0x23, 0x45] ++ str "test")

/-! ## `TestReadBoxInfo`, box_info_test.go:120-208 -/

#guard (readBoxInfo ([0, 1, 0x23, 0x45] ++ str "test") 0).1 = .ok { size := 0x12345, headerSize := 8, type := typ "test" }
#guard (readBoxInfo ([0, 0, 0, 1, 0x23, 0x45] ++ str "test") 2).1 = .ok { offset := 2, size := 0x12345, headerSize := 8, type := typ "test" }
#guard (readBoxInfo ([0, 0, 0, 1] ++ str "test" ++ [0x01, 0x23, 0x45, 0x67, 0x89, 0xab, 0xcd, 0xef]) 0).1 =
  .ok { size := 0x123456789abcdef, headerSize := 16, type := typ "test" }
#guard (readBoxInfo ([0, 0, 0, 0] ++ str "test" ++ List.replicate 12 0) 0).1 = .ok { size := 20, headerSize := 8, type := typ "test", extendToEOF := true }
#guard ((readBoxInfo ([0, 1, 0x23, 0x45] ++ str "tes") 0).1 matches .err _)

/-! ## `TestReadVarint`, `TestWriteVarint`, marshaller_test.go:287-345 -/

/-- a field with the tag `varint` -/
def varintDef : BoxDef := { goName := "t", fields := .cons { name := "V", varint := true } (.uint 64) .nil }

/-- the number read -/
def varintRead (b : Bytes) : Option Nat :=
  match unmarshalBox varintDef b {} b.length varintDef.fields.zero 0 with
  | (.ok (_, [(_, .uint n)]), _) => some n
  | _ => none

#guard [[0x0], [0x6c], [0xac, 0x52], [0xac, 0xd2, 0x43], [0xac, 0xd2, 0xef], [0x80, 0x80, 0x80, 0x6c], [0x80, 0x80, 0x81, 0x0c]].map varintRead =
  [some 0, some 0x6c, some 0x1652, some 0xb2943, none, some 0x6c, some 0x8c]
#guard [0x0, 0x6c, 0x8c, 0x1652, 0xb2943].map (fun n => (marshalBox varintDef memSink {} [("V", .uint n)] []).2) =
  [[0x80, 0x80, 0x80, 0x00], [0x80, 0x80, 0x80, 0x6c], [0x80, 0x80, 0x81, 0x0c], [0x80, 0x80, 0xac, 0x52], [0x80, 0xac, 0xd2, 0x43]]

/-! ## `TestMarshal`, marshaller_test.go:12-176: the struct with its tags, its value, its bytes -/

/-- `inner`, marshaller_test.go:13-15 -/
def inner : Ty := .struct none (Fields.ofList [({ name := "Array", size := 8, isString := true }, .arr 4 (.uint 8))])

/-- `testBox`, marshaller_test.go:17-76 -/
def testBox : Tag.Decl := [
  ("FullBox", "0,extend", fullBoxTy),
  ("Int32", "1,size=32", .int 32), ("Uint32", "2,size=32", .uint 32), ("Int64", "3,size=64", .int 64), ("Uint64", "4,size=64", .uint 64),
  ("Int32l", "5,size=29", .int 32), ("Padding0", "6,size=3,const=0", .uint 8),
  ("Uint32l", "7,size=29", .uint 32), ("Padding1", "8,size=3,const=0", .uint 8),
  ("Int64l", "9,size=59", .int 64), ("Padding2", "10,size=5,const=0", .uint 8),
  ("Uint64l", "11,size=59", .uint 64), ("Padding3", "12,size=5,const=0", .uint 8),
  ("Padding4", "13,size=3,const=0", .uint 8), ("Int32r", "14,size=29", .int 32),
  ("Padding5", "15,size=3,const=0", .uint 8), ("Uint32r", "16,size=29", .uint 32),
  ("Padding6", "17,size=5,const=0", .uint 8), ("Int64r", "18,size=59", .int 64),
  ("Padding7", "19,size=5,const=0", .uint 8), ("Uint64r", "20,size=59", .uint 64),
  ("Varint", "21,varint", .uint 16),
  ("String", "22,string", .str), ("StringCP", "23,string=c_p", .str), ("Bytes", "24,size=8,len=5", .slice (.uint 8)),
  ("Uints", "25,size=16,len=dynamic", .slice (.uint 64)), ("Ptr", "26,extend", .ptr inner),
  ("Bool", "27,size=1", .bool), ("Padding8", "28,size=7,const=0", .uint 8),
  ("DynUint", "29,size=dynamic", .uint 64),
  ("OptUint1", "30,size=8,opt=0x0100", .uint 64), ("OptUint2", "31,size=8,opt=0x0200", .uint 64),
  ("OptUint3", "32,size=8,nopt=0x0400", .uint 64), ("OptUint4", "33,size=8,nopt=0x0800", .uint 64),
  ("NotSorted35", "35,size=8,dec", .uint 8), ("NotSorted36", "36,size=8,dec", .uint 8), ("NotSorted34", "34,size=8,dec", .uint 8)]

/-- its definition: `mockBox` answers 24 for the size of `DynUint` and 5 for the length of `Uints` -/
def testDef : BoxDef where
  goName := "testBox"
  fields := Fields.ofList ((Tag.buildFieldsStruct (fun _ t => Tag.parseFieldTag t) testBox).getD [])
  cfo := { size := fun n _ _ => if n = "DynUint" then some 24 else none, length := fun n _ _ => if n = "Uints" then some 5 else none }
  versions := [0]

/-- a list of numbers -/
def nums (l : List Nat) : List Val := l.map .uint

/-- `src`, marshaller_test.go:90-131 -/
def testSrc : SV := withFields testDef.fields.zero [
  ("FullBox", .struct [("Version", .uint 0), ("Flags", .arr (nums [0, 5, 0]))]),
  ("Int32", .int (-0x1234567)), ("Uint32", .uint 0x1234567), ("Int64", .int (-0x123456789abcdef)), ("Uint64", .uint 0x123456789abcdef),
  ("Int32l", .int (-0x123456)), ("Uint32l", .uint 0x123456), ("Int64l", .int (-0x123456789abcd)), ("Uint64l", .uint 0x123456789abcd),
  ("Int32r", .int (-0x123456)), ("Uint32r", .uint 0x123456), ("Int64r", .int (-0x123456789abcd)), ("Uint64r", .uint 0x123456789abcd),
  ("Varint", .uint 0x1234), ("String", .str (str "abema.tv")), ("StringCP", .str (str "CyberAgent, Inc.")),
  ("Bytes", .slice ((str "abema").map fun b => .uint b.toNat)), ("Uints", .slice (nums [1, 2, 3, 4, 5])),
  ("Ptr", .ptr (some (.struct [("Array", .arr ((str "hoge").map fun b => .uint b.toNat))]))),
  ("Bool", .bool true), ("DynUint", .uint 0x123456), ("OptUint1", .uint 0x11), ("OptUint4", .uint 0x44),
  ("NotSorted35", .uint 35), ("NotSorted36", .uint 36), ("NotSorted34", .uint 34)]

/-- `bin`, marshaller_test.go:133-162 -/
def testBin : Bytes := [
  0, 0x00, 0x05, 0x00, 0xfe, 0xdc, 0xba, 0x99, 0x01, 0x23, 0x45, 0x67, 0xfe, 0xdc, 0xba, 0x98, 0x76, 0x54, 0x32, 0x11,
  0x01, 0x23, 0x45, 0x67, 0x89, 0xab, 0xcd, 0xef, 0xff, 0x6e, 0x5d, 0x50, 0x00, 0x91, 0xa2, 0xb0,
  0xff, 0xdb, 0x97, 0x53, 0x0e, 0xca, 0x86, 0x60, 0x00, 0x24, 0x68, 0xAC, 0xF1, 0x35, 0x79, 0xA0,
  0x1f, 0xed, 0xcb, 0xaa, 0x00, 0x12, 0x34, 0x56, 0x07, 0xfe, 0xdc, 0xba, 0x98, 0x76, 0x54, 0x33, 0x00, 0x01, 0x23, 0x45, 0x67, 0x89, 0xab, 0xcd,
  0x80, 0x80, 0xa4, 0x34] ++ str "abema.tv" ++ [0] ++ str "CyberAgent, Inc." ++ [0] ++ str "abema" ++ [0, 1, 0, 2, 0, 3, 0, 4, 0, 5] ++ str "hoge" ++
  [0x80, 0x12, 0x34, 0x56, 0x11, 0x44, 34, 35, 36]

#guard testDef.fields.names.length = 37
#guard marshalBox testDef memSink {} testSrc [] = (.ok testBin.length, testBin)
#guard (match unmarshalBox testDef testBin {} (testBin.length + 8) testDef.fields.zero 0 with
  | (.ok (n, sv), _) => n == testBin.length && reprStr sv == reprStr testSrc
  | _ => false)

/-! ## `TestUnsupportedBoxVersionErr`, marshaller_test.go:178-224 -/

/-- a `FullBox` with versions 0, 1 and 2 -/
def versioned : BoxDef := { goName := "t", fields := .cons { name := "FullBox", extend := true } fullBoxTy .nil, versions := [0, 1, 2] }

#guard [0, 1, 2, 3, 4].map (fun v => (unmarshalBox versioned [v, 0, 0, 0] {} 12 versioned.fields.zero 0).1.isOk) = [true, true, true, false, false]

/-! ## `TestReadPString`, marshaller_test.go:226-285 (`IsPString` answers true) -/

/-- `testBox`, marshaller_test.go:227-233 -/
def pDef : BoxDef := { goName := "t", fields := Fields.ofList [({ name := "String", isString := true }, .str), ({ name := "StringCP", isString := true, strCP := true }, .str), ({ name := "Uint32", size := 32 }, .uint 32)] }

/-- the two strings and the number -/
def pRead (s : Bytes) : Option (Bytes × Bytes × Nat) :=
  let b := str "hello" ++ [0] ++ s ++ [0x01, 0x23, 0x45, 0x67]
  match unmarshalBox pDef b {} b.length pDef.fields.zero 0 with
  | (.ok (n, [(_, .str x), (_, .str y), (_, .uint z)]), _) => if n = b.length then some (x, y, z) else none
  | _ => none

#guard pRead (5 :: str "abema") = some (str "hello", str "abema", 0x01234567)
#guard pRead (str "abema" ++ [0]) = some (str "hello", str "abema", 0x01234567)
#guard pRead (10 :: str "abema12345") = some (str "hello", str "abema12345", 0x01234567)

/-! ## `TestWriter`, write_test.go:14-144 -/

/-- `ftyp`, write_test.go:26-33 -/
def ftypWith (brand : String) : SV := [
  ("MajorBrand", .arr ((str "abem").map fun b => .uint b.toNat)), ("MinorVersion", .uint 0x12345678),
  ("CompatibleBrands", .slice (["abcd", brand].map fun s => .struct [("CompatibleBrand", .arr ((str s).map fun b => .uint b.toNat))]))]

/-- the calls up to the last `EndBox` -/
def writerOps : List WOp := [
  .start { type := typ "ftyp" }, .marshal bdFtyp {} (ftypWith "efgh"), .close,
  .start { type := typ "moov" },
  .copy ([0, 0, 0, 0, 0, 0, 0, 0, 0, 0x0a] ++ str "udta" ++ [1, 2, 3, 4, 5, 6, 7, 8]) { offset := 6, size := 15, type := typ "\x00\x00\x00\x00" },
  .start { type := typ "trak" }, .start { type := typ "tkhd" },
  .marshal bdTkhd {} (withFields bdTkhd.fields.zero [("CreationTimeV0", .uint 1), ("ModificationTimeV0", .uint 2), ("TrackID", .uint 3),
    ("DurationV0", .uint 4), ("Layer", .int 5), ("AlternateGroup", .int 6), ("Volume", .int 7), ("Width", .uint 8), ("Height", .uint 9)]),
  .close, .close, .close]

/-- what the calls return (offset and size), and the file at the end -/
def writerRun : Option (List (Nat × Nat) × Bytes) :=
  match runOps noFaults writerOps (WrSt.new ⟨[], 0, 0⟩) with
  | (.ok rs, s) =>
    match (do let _ ← liftF (fSeekStart noFaults 8); (WOp.marshal bdFtyp {} (ftypWith "EFGH")).run noFaults : WrM _) s with
    | (.ok _, s') => some (rs.filterMap fun r => r.map fun bi => (bi.offset, bi.size), s'.file.data)
    | _ => none
  | _ => none

#guard writerRun = some ([(0, 8), (0, 24), (24, 8), (47, 8), (55, 8), (55, 92), (47, 100), (24, 123)],
  [0, 0, 0, 0x18] ++ str "ftypabem" ++ [0x12, 0x34, 0x56, 0x78] ++ str "abcdEFGH" ++ [0, 0, 0, 0x7b] ++ str "moov" ++
  [0, 0, 0, 0x0a] ++ str "udta" ++ [1, 2, 3, 4, 5, 6, 7] ++ [0, 0, 0, 0x64] ++ str "trak" ++ [0, 0, 0, 0x5c] ++ str "tkhd" ++
  [0, 0, 0, 0, 0, 0, 0, 1, 0, 0, 0, 2, 0, 0, 0, 3, 0, 0, 0, 0, 0, 0, 0, 4, 0, 0, 0, 0, 0, 0, 0, 0, 0, 5, 0, 6, 0, 7, 0, 0] ++
  List.replicate 36 0 ++ [0, 0, 0, 8, 0, 0, 0, 9])

/-! ## `TestDetectAACProfile`, probe_test.go:217-329 -/

/-- an `esds` box with the given audio configuration -/
def esdsWith (data : Bytes) : SV := [("Descriptors", .slice [
  .struct [("Tag", .int 4), ("DecoderConfigDescriptor", .ptr (some (.struct [("ObjectTypeIndication", .uint 0x40)])))],
  .struct [("Tag", .int 5), ("Data", .slice (data.map fun b => .uint b.toNat))]])]

#guard [[0x10, 0x00], [0x10, 0x02, 0xb7, 0x2c, 0x00], [0x10, 0x02, 0xb7, 0x2f, 0xc0, 0x00, 0x00, 0x2a, 0x44],
    [0x10, 0x02, 0xb7, 0x2f, 0xc0, 0x00, 0x00, 0x2a, 0x40], [0x17, 0x80, 0x00, 0x00, 0x00], [0xf9, 0x40]].map (fun d => detectAACProfile (esdsWith d)) =
  [.ok (0x40, 2), .ok (0x40, 5), .ok (0x40, 29), .ok (0x40, 5), .ok (0x40, 2), .ok (0x40, 42)]

/-! ## Bit rates, probe_test.go:331-389 -/

/-- probe_test.go:335-340 -/
def someSamples : List Sample := [100, 200, 300, 100, 200].map fun n => { timeDelta := 10, size := n }
/-- probe_test.go:361-370 -/
def someSegments : List Segment :=
  [(1, 300), (2, 100), (2, 200), (1, 200), (2, 300), (3, 700), (2, 100), (1, 800), (2, 200)].map fun p =>
    { trackID := p.1, moofOffset := 0, defaultSampleDuration := 0, duration := 10, size := p.2 }

#guard samplesBitrate [] 100 = 0 ∧ samplesBitrate someSamples 100 = 14400
#guard samplesMaxBitrate [] 100 20 100 = .ok 0 ∧ samplesMaxBitrate someSamples 100 20 100 = .ok 20000
#guard segmentsBitrate [] 2 100 = 0 ∧ segmentsBitrate someSegments 2 100 = 14400
#guard segmentsMaxBitrate 2 100 [] 0 = 0 ∧ segmentsMaxBitrate 2 100 someSegments 0 = 24000

/-! ## `TestReadBoxStructureZeroSize`, read_test.go:254-261 -/

#guard ((readBoxStructure BoxMap.std ([0, 0, 0, 1] ++ List.replicate 15 0 ++ [1]) (fun _ => (.ret () : Prog Unit Unit Unit)) 100 () ⟨0, (), []⟩).1 matches .err _)

/-! ## `TestHdlrUnmarshalHandlerName`, `TestMetaMarshalAppleQuickTime`, box_types_iso14496_12_test.go:2832-2922 -/

/-- the name of a handler -/
def hdlrName (component name : Bytes) : Option Val :=
  let b := [0, 0, 0, 0] ++ component ++ str "vide" ++ List.replicate 12 0 ++ name
  match unmarshalBox bdHdlr b {} b.length bdHdlr.fields.zero 0 with
  | (.ok (n, sv), _) => if n = b.length then (sv.find? (·.1 == "Name")).map (·.2) else none
  | _ => none

#guard [hdlrName [0, 0, 0, 0] (str "abema"), hdlrName [0, 0, 0, 0] [], hdlrName [0, 0, 0, 0] (str " a 1st byte equals to this length"),
    hdlrName (str "mhlr") (5 :: str "abema"), hdlrName (str "mhlr") [0, 0], hdlrName (str "mhlr") (str " a 1st byte equals to this length")].map reprStr =
  [some (Val.str (str "abema")), some (Val.str []), some (Val.str (str " a 1st byte equals to this length")), some (Val.str (str "abema")), some (Val.str []),
    some (Val.str (str "a 1st byte equals to this length"))].map reprStr

#guard (match unmarshalBox bdMeta ([0, 0, 1, 0] ++ str "hdlr" ++ [0, 0, 0, 0]) {} 12 bdMeta.fields.zero 0 with
  | (.ok (n, sv), pos) => n == 0 && pos == 0 && reprStr sv == reprStr bdMeta.fields.zero
  | _ => false)

/-! ## mp4_test.go:10-34 -/

#guard ["1234", "abcd", "xx x", "xx~x"].map (fun s => (typ s).toStr) = ["1234", "abcd", "xx x", "xx~x"].map str
#guard BoxType.toStr ⟨0x78, 0x78, 0xa9, 0x78⟩ = str "xx(c)x" ∧ BoxType.toStr ⟨0x78, 0x78, 0xab, 0x78⟩ = str "0x7878ab78"
#guard BoxMap.std.isSupported (typ "pssh") {} ∧ !BoxMap.std.isSupported (typ "1234") {}
#guard BoxMap.std.getSupportedVersions (typ "pssh") {} matches .ok [0, 1]

/-! ## `TestStringify`, string_test.go:10-100 -/

/-- `inner`, string_test.go:11-13 -/
def innerHex : Ty := .struct none (Fields.ofList [({ name := "Uint64", size := 64, hex := true }, .uint 64)])

/-- `testBox`, string_test.go:15-34 -/
def showBox : Tag.Decl := [
  ("FullBox", "0,extend", fullBoxTy), ("String", "1,string", .str), ("Int32", "2,size=32", .int 32), ("Int32Hex", "3,size=32,hex", .int 32),
  ("Int32HexMinus", "4,size=32,hex", .int 32), ("Uint32", "5,size=32", .uint 32), ("Bytes", "6,size=8,string", .slice (.uint 8)),
  ("Ptr", "7", .ptr innerHex), ("PtrEx", "8,extend", .ptr innerHex), ("Struct", "9", innerHex), ("StructEx", "10,extend", innerHex),
  ("Array", "11,size=8,string", .arr 7 (.uint 8)), ("Bool", "12,size=1", .bool), ("UUID", "13,size=8,uuid", .arr 16 (.uint 8)),
  ("NotSorted15", "15,size=8,dec", .uint 8), ("NotSorted16", "16,size=8,dec", .uint 8), ("NotSorted14", "14,size=8,dec", .uint 8)]

/-- its definition -/
def showDef : BoxDef where
  goName := "testBox"
  fields := Fields.ofList ((Tag.buildFieldsStruct (fun _ t => Tag.parseFieldTag t) showBox).getD [])
  anyType := true

/-- `box`, string_test.go:38-71 -/
def showSrc : SV := withFields showDef.fields.zero [
  ("String", .str (str "abema.tv")), ("Int32", .int (-1234567890)), ("Int32Hex", .int 0x12345678), ("Int32HexMinus", .int (-0x12345678)),
  ("Uint32", .uint 1234567890), ("Bytes", .slice ((str "ABEMA\x00TV").map fun b => .uint b.toNat)),
  ("Ptr", .ptr (some (.struct [("Uint64", .uint 0x1234567890)]))), ("PtrEx", .ptr (some (.struct [("Uint64", .uint 0x1234567890)]))),
  ("Struct", .struct [("Uint64", .uint 0x1234567890)]), ("StructEx", .struct [("Uint64", .uint 0x1234567890)]),
  ("Array", .arr ((str "foo\x00bar").map fun b => .uint b.toNat)), ("Bool", .bool true),
  ("UUID", .arr (nums [0x01, 0x23, 0x45, 0x67, 0x89, 0xab, 0xcd, 0xef, 0x01, 0x23, 0x45, 0x67, 0x89, 0xab, 0xcd, 0xef])),
  ("NotSorted15", .uint 15), ("NotSorted16", .uint 16), ("NotSorted14", .uint 14)]

#guard Str.stringify (fun _ => true) showDef showSrc [] {} = some (Str.lit "Version=0 Flags=0x000000 String=\"abema.tv\" Int32=-1234567890 Int32Hex=0x12345678 Int32HexMinus=-0x12345678 Uint32=1234567890 Bytes=\"ABEMA.TV\" Ptr={Uint64=0x1234567890} Uint64=0x1234567890 Struct={Uint64=0x1234567890} Uint64=0x1234567890 Array=\"foo.bar\" Bool=true UUID=01234567-89ab-cdef-0123-456789abcdef NotSorted14=14 NotSorted15=15 NotSorted16=16")
#guard Str.stringify (fun _ => true) showDef showSrc (Str.lit " ") {} = some (Str.lit " Version=0\n Flags=0x000000\n String=\"abema.tv\"\n Int32=-1234567890\n Int32Hex=0x12345678\n Int32HexMinus=-0x12345678\n Uint32=1234567890\n Bytes=\"ABEMA.TV\"\n Ptr={\n  Uint64=0x1234567890\n }\n Uint64=0x1234567890\n Struct={\n  Uint64=0x1234567890\n }\n Uint64=0x1234567890\n Array=\"foo.bar\"\n Bool=true\n UUID=01234567-89ab-cdef-0123-456789abcdef\n NotSorted14=14\n NotSorted15=15\n NotSorted16=16\n")

/-! ## `sampleMP4JSONOutput`, cmd/mp4tool/internal/probe/probe_test.go:55-97 -/

/-- the report about `sample.mp4` -/
def sampleReport : Tool.Report where
  majorBrand := Str.lit "isom"
  minorVersion := 512
  compatibleBrands := [Str.lit "isom", Str.lit "iso2", Str.lit "avc1", Str.lit "mp41"]
  fastStart := false
  timescale := 1000
  duration := 1024
  tracks := [
    { trackID := 1, timescale := 10240, duration := 10240, codec := Str.lit "avc1.64000C", encrypted := false, width := 320, height := 180, sampleNum := 10, chunkNum := 9, idrFrameNum := 1, bitrate := 40336, maxBitrate := 40336 },
    { trackID := 2, timescale := 44100, duration := 45124, codec := Str.lit "mp4a.40.2", encrypted := false, sampleNum := 44, chunkNum := 9, bitrate := 10570, maxBitrate := 10632 }]

/-- the durations in seconds -/
def sampleSecs (_ timescale : Nat) : Str.Text := Str.lit (if timescale = 1000 then "1.024" else if timescale = 10240 then "1" else "1.02322")

#guard sampleReport.json true sampleSecs = Str.lit "{\n  \"MajorBrand\": \"isom\",\n  \"MinorVersion\": 512,\n  \"CompatibleBrands\": [\n    \"isom\",\n    \"iso2\",\n    \"avc1\",\n    \"mp41\"\n  ],\n  \"FastStart\": false,\n  \"Timescale\": 1000,\n  \"Duration\": 1024,\n  \"DurationSeconds\": 1.024,\n  \"Tracks\": [\n    {\n      \"TrackID\": 1,\n      \"Timescale\": 10240,\n      \"Duration\": 10240,\n      \"DurationSeconds\": 1,\n      \"Codec\": \"avc1.64000C\",\n      \"Encrypted\": false,\n      \"Width\": 320,\n      \"Height\": 180,\n      \"SampleNum\": 10,\n      \"ChunkNum\": 9,\n      \"IDRFrameNum\": 1,\n      \"Bitrate\": 40336,\n      \"MaxBitrate\": 40336\n    },\n    {\n      \"TrackID\": 2,\n      \"Timescale\": 44100,\n      \"Duration\": 45124,\n      \"DurationSeconds\": 1.02322,\n      \"Codec\": \"mp4a.40.2\",\n      \"Encrypted\": false,\n      \"SampleNum\": 44,\n      \"ChunkNum\": 9,\n      \"Bitrate\": 10570,\n      \"MaxBitrate\": 10632\n    }\n  ]\n}\n"
#guard sampleReport.json false sampleSecs = sampleReport.json true sampleSecs

end Mp4.Test
