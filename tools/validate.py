#!/usr/bin/env python3
"""Run the model on the files of /repo/testdata and compare with what the tests of /repo (read as text) expect:
the four outputs of `mp4tool dump`, the reports of `mp4tool probe`, the outputs of `mp4tool psshdump`, the sizes of `mp4tool extract`, the results
of Probe and of ExtractBoxes.  A test of the model, not a proof.  Run `lake build` in /verif/lean first."""
import json, os, re, subprocess, tempfile

REPO = "/repo"
LEAN = os.path.join(os.path.dirname(os.path.abspath(__file__)), "..", "lean")

PROGRAM = r'''
import Verif
open Mp4

def load (p : String) : IO Bytes := do
  let b ← IO.FS.readBinFile p
  return b.toList.map (fun x => BitVec.ofNat 8 x.toNat)
def txt (t : Str.Text) : String := String.ofList (t.map Char.ofNat)
def bt (s : String) : Bytes := s.toList.map (fun c => BitVec.ofNat 8 c.toNat)
def boxType (s : String) : BoxType :=
  match bt s with
  | [x, y, z, w] => ⟨x, y, z, w⟩
  | _ => ⟨0, 0, 0, 0⟩
def out {α} : Out α → String
  | .ok _ => "ok"
  | .err _ => "err"
  | .panic => "panic"
  | .hang => "hang"
def arr (l : List String) : String := "[" ++ String.intercalate ", " l ++ "]"
def obj (l : List (String × String)) : String := "{" ++ String.intercalate ", " (l.map fun p => s!"\"{p.1}\": {p.2}") ++ "}"
def quoted (t : List Nat) : String := "\"" ++ txt t ++ "\""
def avcJson (a : AvcInfo) : String := obj [("ConfigurationVersion", s!"{a.configurationVersion}"), ("Profile", s!"{a.profile}"),
  ("ProfileCompatibility", s!"{a.profileCompatibility}"), ("Level", s!"{a.level}"), ("LengthSize", s!"{a.lengthSize}"), ("Width", s!"{a.width}"),
  ("Height", s!"{a.height}")]
def mp4aJson (a : Mp4aInfo) : String := obj [("OTI", s!"{a.oti}"), ("AudOTI", s!"{a.audOTI}"), ("ChannelCount", s!"{a.channelCount}")]
def codecJson : Codec → String
  | .unknown => "\"CodecUnknown\""
  | .avc1 => "\"CodecAVC1\""
  | .mp4a => "\"CodecMP4A\""
def trackJson (t : Track) : String := obj [("TrackID", s!"{t.trackID}"), ("Timescale", s!"{t.timescale}"), ("Duration", s!"{t.duration}"),
  ("Codec", codecJson t.codec), ("Encrypted", s!"{t.encrypted}"),
  ("EditList", arr (t.editList.map fun e => obj [("MediaTime", s!"{e.mediaTime}"), ("SegmentDuration", s!"{e.segmentDuration}")])),
  ("Samples", arr (t.samples.map fun e => obj [("Size", s!"{e.size}"), ("TimeDelta", s!"{e.timeDelta}"), ("CompositionTimeOffset", s!"{e.offset}")])),
  ("Chunks", arr (t.chunks.map fun e => obj [("DataOffset", s!"{e.dataOffset}"), ("SamplesPerChunk", s!"{e.samplesPerChunk}")])),
  ("AVC", (t.avc.map avcJson).getD "null"), ("MP4A", (t.mp4a.map mp4aJson).getD "null")]
def segJson (s : Segment) : String := obj [("TrackID", s!"{s.trackID}"), ("MoofOffset", s!"{s.moofOffset}"),
  ("BaseMediaDecodeTime", s!"{s.baseMediaDecodeTime}"), ("DefaultSampleDuration", s!"{s.defaultSampleDuration}"),
  ("SampleCount", s!"{s.sampleCount}"), ("Duration", s!"{s.duration}"), ("CompositionTimeOffset", s!"{s.compositionTimeOffset}"), ("Size", s!"{s.size}")]
def infoJson (i : ProbeInfo) : String := obj [("MajorBrand", quoted i.majorBrand), ("MinorVersion", s!"{i.minorVersion}"),
  ("CompatibleBrands", arr (i.compatibleBrands.map quoted)), ("FastStart", s!"{i.fastStart}"), ("Timescale", s!"{i.timescale}"),
  ("Duration", s!"{i.duration}"), ("Tracks", arr (i.tracks.map trackJson)), ("Segments", arr (i.segments.map segJson))]
def reportJson (r : Tool.Report) : String := obj [("MajorBrand", quoted r.majorBrand), ("MinorVersion", s!"{r.minorVersion}"),
  ("CompatibleBrands", arr (r.compatibleBrands.map quoted)), ("FastStart", s!"{r.fastStart}"), ("Timescale", s!"{r.timescale}"),
  ("Duration", s!"{r.duration}"), ("Tracks", arr (r.tracks.map fun t => obj [("TrackID", s!"{t.trackID}"), ("Timescale", s!"{t.timescale}"),
    ("Duration", s!"{t.duration}"), ("Codec", quoted t.codec), ("Encrypted", s!"{t.encrypted}"), ("Width", s!"{t.width}"), ("Height", s!"{t.height}"),
    ("SampleNum", s!"{t.sampleNum}"), ("ChunkNum", s!"{t.chunkNum}"), ("IDRFrameNum", s!"{t.idrFrameNum}"), ("Bitrate", s!"{t.bitrate}"),
    ("MaxBitrate", s!"{t.maxBitrate}")]))]
def biJson (b : BoxInfo) : String := obj [("Offset", s!"{b.offset}"), ("Size", s!"{b.size}"), ("HeaderSize", s!"{b.headerSize}"),
  ("Type", quoted (Tool.nameText b.type)), ("plain", s!"{decide (b.ctx = {})} ")]
def say (s : String) : IO Unit := IO.println s
def t : String := "/repo/testdata/"

def runDump (f : String) (cfg : Tool.DumpCfg) : IO Unit := do
  let d ← load (t ++ f)
  let (r, ls) := Tool.dump d cfg (d.length + 1)
  say s!"=== dump {out r}"
  for l in ls do say (txt l)

def paths (s : String) : List (List BoxType) :=
  (s.splitOn "|").map fun p => if p = "" then [] else ((p.splitOn "/").map fun x => if x = "*" then BoxType.any else boxType x)

def main (args : List String) : IO Unit := do
  let c : Tool.DumpCfg := ⟨[], false, false, false, 180, fun _ => true⟩
  match args with
  | ["dump"] =>
    runDump "sample.mp4" c
    runDump "sample.mp4" {c with full := [bt "mvhd", bt "loci"]}
    runDump "sample.mp4" {c with offset := true}
    runDump "sample.mp4" {c with hex := true}
    runDump "sample_qt.mp4" {c with full := [bt "mp4a"], width := 240}      -- the comment comes from a wider terminal
  | ["probe", f] =>
    let d ← load (t ++ f)
    match probe BoxMap.std d (d.length + 1) 0 with
    | (.ok i, _) => say (infoJson i)
    | (r, _) => say (out r)
  | ["report", f] =>
    let d ← load (t ++ f)
    match Tool.buildReport BoxMap.std d (d.length + 1) 0 with
    | (.ok i, _) => say (reportJson i)
    | (r, _) => say (out r)
  | ["pssh", f] =>
    let d ← load (t ++ f)
    match Tool.psshdump BoxMap.std d (d.length + 1) 0 with
    | (.ok i, _) =>
      for e in i do
        say s!"{e.index}:\n  offset: {e.offset}\n  size: {e.size}\n  version: {e.version}\n  flags: 0x{txt e.flags}\n  systemId: {txt e.systemId}\n  dataSize: {e.dataSize}\n  base64: \"{txt e.base64}\"\n"
    | (r, _) => say (out r)
  | ["extract", f, b] =>
    let d ← load (t ++ f)
    let (r, o) := Tool.extract d (boxType b) (d.length + 1)
    say s!"{out r} {o.length} {txt ((o.drop 4).take 4 |>.map (·.toNat))}"
  | ["boxes", f, ps] =>
    let d ← load (t ++ f)
    match extractBoxes BoxMap.std d (d.length + 1) none (paths ps) 0 with
    | (.ok r, _) => say (arr (r.1.map biJson))
    | (r, _) => say (out r)
  | _ => pure ()
'''

failures = 0
def check(what, ok, detail=""):
    global failures
    if not ok: failures += 1
    print(("ok    " if ok else "WRONG ") + what + ("" if ok else "  " + str(detail)[:400]))

with tempfile.TemporaryDirectory() as tmp:
    prog = os.path.join(tmp, "Run.lean")
    open(prog, "w").write(PROGRAM)
    def run(*args):
        return subprocess.run(["lake", "env", "lean", "--run", prog, *args], cwd=LEAN, stdout=subprocess.PIPE, check=True).stdout.decode()

    # mp4tool dump
    src = open(REPO + "/cmd/mp4tool/internal/dump/dump_test.go").read()
    wants = []
    for name in ["sampleMP4Output", "sampleMP4OutputFullMvhdLoci", "sampleMP4OutputOffset", "sampleMP4OutputHex"]:
        m = re.search(r'var ' + name + r' = "" \+\n(.*?)(?=\n\nvar |\Z)', src, re.S)
        wants.append((name, "".join(x + "\n" for x in re.findall(r'`(.*?)` \+ "\\n"', m.group(1)))))
    tail = open(REPO + "/read_test.go").read().split("sample_qt.mp4 | cat -n\n")[1]
    wants.append(("sample_qt.mp4, in a comment", "".join(re.sub(r"^// *\d+\t", "", l) + "\n" for l in tail.split("\n\n")[0].splitlines())))
    got = run("dump").split("=== dump ")[1:]
    for (name, want), g in zip(wants, got):
        outcome, text = g.split("\n", 1)
        diff = [(a, b) for a, b in zip(want.splitlines(), text.splitlines()) if a != b]
        check("dump " + name, outcome == "ok" and text == want, diff[:3])

    # mp4tool probe
    src = open(REPO + "/cmd/mp4tool/internal/probe/probe_test.go").read()
    m = re.search(r'var sampleMP4JSONOutput = "" \+\n(.*?)\n\n', src, re.S)
    want = json.loads("".join(re.findall(r'`(.*?)` \+ "\\n"', m.group(1))))
    rep = json.loads(run("report", "sample.mp4"))
    want.pop("DurationSeconds")
    for tr in want["Tracks"]: tr.pop("DurationSeconds")
    for tr in rep["Tracks"]:
        for k in ["Width", "Height", "IDRFrameNum"]:      # omitempty
            if tr[k] == 0: tr.pop(k)
    check("mp4tool probe sample.mp4", want == rep, (want, rep))

    # mp4tool psshdump
    src = open(REPO + "/cmd/mp4tool/internal/psshdump/psshdump_test.go").read()
    for f, w in re.findall(r'testdata/(sample_init\.\w+\.mp4)",\s*wants: (.*?),\n\t\t\}', src, re.S):
        want = "".join(eval('"' + x + '"') for x in re.findall(r'"((?:\\.|[^"\\])*)"', w))
        check("mp4tool psshdump " + f, run("pssh", f) == want)

    # mp4tool extract
    src = open(REPO + "/cmd/mp4tool/internal/extract/extract_test.go").read()
    for f, b, n in re.findall(r'testdata/([\w.]+)",\s*boxType:\s*"(\w+)",\s*expectedSize:\s*(\d+)', src):
        check(f"mp4tool extract {b} {f}", run("extract", f, b).split() == ["ok", n, b])

    # Probe
    src = open(REPO + "/probe_test.go").read()
    brands = {"BrandISOM()": "isom", "BrandISO2()": "iso2", "BrandAVC1()": "avc1", "BrandMP41()": "mp41"}
    for fn in re.findall(r"func (Test\w+)\(t \*testing\.T\) \{\n(.*?)\n\}\n", src, re.S):
        f = re.search(r"testdata/([\w.]+)", fn[1])
        if not f: continue
        info = json.loads(run("probe", f.group(1)))
        n = bad = 0
        def value(path):
            v = info
            for p in re.findall(r"\w+", path): v = v[int(p)] if p.isdigit() else v[p]
            return v
        for line in fn[1].splitlines():
            if m := re.match(r"\s*assert\.Equal\(t, (.*), info\.(.*)\)$", line):
                w = m.group(1)
                if c := re.match(r"u?int\d+\((.*)\)$", w): w = int(c.group(1), 0)
                want, got = brands.get(w, w), value(m.group(2))
            elif m := re.match(r"\s*assert\.(True|False)\(t, info\.(.*)\)$", line): want, got = m.group(1) == "True", value(m.group(2))
            elif m := re.match(r"\s*require\.Len\(t, info\.(.*), (\d+)\)$", line): want, got = int(m.group(2)), len(value(m.group(1)))
            elif m := re.match(r"\s*require\.Equal\(t, (\d+), len\(info\.(.*)\)\)$", line): want, got = int(m.group(1)), len(value(m.group(2)))
            else: continue
            n += 1
            if want != got: bad += 1; print("   ", line.strip(), got)
        check(f"{fn[0]}: {n} assertions", n > 3 and bad == 0)

    # ExtractBox, ExtractBoxes
    src = open(REPO + "/extract_test.go").read()
    src = src[src.index("func TestExtractBox("):src.index("func TestExtractDescendantBox")]
    def names(s): return "/".join("*" if x == "Any" else x.lower() for x in re.findall(r"BoxType(\w+)\(\)", s))
    for case in re.findall(r"\n\t\t\{\n(.*?)\n\t\t\},", src, re.S):
        name = re.search(r'name:\s*"(.*?)"', case).group(1)
        ps = re.search(r"paths: \[\]BoxPath\{(.*?)\n?\t*\},(?=\n\t\t\t\w|\Z)", case, re.S)
        if ps:
            if not ps.group(1).strip(): continue
            arg = "|".join(names(x) for x in re.findall(r"\{(.*?)\}", ps.group(1)))
        else: arg = names(re.search(r"path:\s*BoxPath\{(.*)\}", case).group(1))
        got = run("boxes", "sample.mp4", arg).strip()
        if "hasError" in case: check("ExtractBoxes, " + name, got == "err", got)
        else:
            want = [{"Offset": int(a), "Size": int(b), "HeaderSize": int(c), "Type": d.lower(), "plain": True}
                    for a, b, c, d in re.findall(r"\{Offset: (\d+), Size: (\d+), HeaderSize: (\d+), Type: BoxType(\w+)\(\)\}", case)]
            check(f"ExtractBoxes, {name}: {len(want)} boxes", json.loads(got) == want, got)

print("failures:", failures)
