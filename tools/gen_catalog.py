#!/usr/bin/env python3
"""Generate lean/Verif/Model/Catalog.lean from the struct declarations and the
registrations in /repo (read as text)."""
import re, glob, os

REPO = os.environ.get("REPO", "/repo")
files = [f for f in sorted(glob.glob(REPO + "/box_types_*.go")) if not f.endswith("_test.go")]

structs = {}      # name -> dict(file, l0, l1, embeds, fields)
alias = {}        # type X Y
gettype = {}      # Go type -> function name of box type
btfun = {}        # BoxTypeXxx -> 4 bytes
lists = {}        # var name -> list of 4 bytes
regs = []         # (boxtype bytes, go name, versions, target, any, file, line)

def quad(s):
    s = s.strip()
    m = re.match(r'StrToBoxType\("(....)"\)', s)
    if m:
        return [ord(c) for c in m.group(1)]
    m = re.match(r"\{(.*)\}", s)
    out = []
    for p in m.group(1).split(","):
        p = p.strip()
        out.append(int(p, 16) if p.startswith("0x") else ord(p[1]))
    return out

for path in files + [REPO + "/box.go"]:
    short = os.path.basename(path)
    lines = open(path).read().split("\n")
    i = 0
    while i < len(lines):
        ln = lines[i]
        m = re.match(r"func (BoxType\w+)\(\) BoxType +\{ return (StrToBoxType\(.*\)) \}", ln)
        if m:
            btfun[m.group(1)] = quad(m.group(2))
        m = re.match(r"func \((?:\w+ )?\*?(\w+)\) GetType\(\) BoxType \{", ln)
        if m:
            r = re.search(r"return (BoxType\w+)\(\)", lines[i + 1])
            if r:
                gettype[m.group(1)] = r.group(1)
        m = re.match(r"type (\w+) (\w+)$", ln)
        if m and m.group(2) not in ("uint32",):
            alias[m.group(1)] = (m.group(2), short, i + 1)
        m = re.match(r"var (\w+) = \[\]BoxType\{", ln)
        if m:
            l = []
            j = i + 1
            while lines[j].strip() != "}":
                l.append(quad(lines[j].strip().rstrip(",")))
                j += 1
            lists[m.group(1)] = l
        m = re.match(r"type (\w+) struct \{", ln)
        if m:
            name = m.group(1)
            l0 = i + 1
            emb, flds = [], []
            j = i + 1
            while lines[j].strip() != "}":
                s = lines[j].strip()
                s = re.sub(r"\s*//.*$", "", s)
                if s:
                    t = re.search(r'`mp4:"(.*)"`', s)
                    if t:
                        head = s[: t.start()].split()
                        if len(head) == 1:
                            flds.append((head[0], head[0], t.group(1), True))
                            emb.append(head[0])
                        else:
                            flds.append((head[0], head[1], t.group(1), False))
                    else:
                        head = s.split()
                        if len(head) == 1:
                            emb.append(head[0])
                j += 1
            structs[name] = dict(file=short, l0=l0, l1=j + 1, embeds=emb, fields=flds)
            i = j
        i += 1

# registrations, in the order of files and lines
for path in files:
    short = os.path.basename(path)
    lines = open(path).read().split("\n")
    loop = None
    for n, ln in enumerate(lines, 1):
        m = re.match(r"\tfor _, bt := range (\w+) \{", ln)
        if m:
            loop = m.group(1)
            continue
        if ln == "\t}":
            loop = None
        m = re.match(r"\s+Add(AnyType)?BoxDef(Ex)?\(&(\w+)\{\}(?:, (.*?))?\)(?: //.*)?$", ln)
        if not m:
            assert "BoxDef(" not in ln and "BoxDefEx(" not in ln, ln
            continue
        any_, ex, go, rest = bool(m.group(1)), bool(m.group(2)), m.group(3), m.group(4)
        args = [a.strip() for a in rest.split(", ")] if rest else []
        if any_:
            t = args.pop(0)
            if t == "bt":
                types = lists[loop]
            elif t.startswith("StrToBoxType"):
                types = [quad(t)]
            else:
                types = [btfun[t.rstrip("()")]]
        else:
            types = [btfun[gettype[go]]]
        target = args.pop(0) if ex else None
        vers = [int(a) for a in args]
        for t in types:
            regs.append((t, go, vers, target, any_, short, n))

CUSTOM = set("""Co64 Colr Ctts Elst HEVCNalu HEVCNaluArray HvcC Saio Saiz AudioSampleEntry
AVCDecoderConfiguration AVCParameterSet Sbgp Sgpd AlternativeStartupEntry
AlternativeStartupEntryL Sidx Stco Stsc Stss Stsz Stts Tfra Trun Descriptor ESDescriptor
Pssh Tenc Keys Key DOps VpcC""".split())
HOOK = {"Emsg": ".emsg", "Hdlr": ".hdlr", "AVCDecoderConfiguration": ".avcc"}

def is_cfo(name):
    if name in ("Box", "FullBox", "AnyTypeBox", "BaseCustomFieldObject"):
        return True
    if name not in structs:
        return False
    return any(is_cfo(e) for e in structs[name]["embeds"])

def cfo(name):
    return f"cfo{name}" if name in CUSTOM else "Cfo.base"

def ty(t):
    if t == "FullBox":
        return "fullBoxTy"
    m = re.match(r"^\[(\d+)\](.*)$", t)
    if m:
        return f"(.arr {m.group(1)} {ty(m.group(2))})"
    if t.startswith("[]"):
        return f"(.slice {ty(t[2:])})"
    if t.startswith("*"):
        return f"(.ptr {ty(t[1:])})"
    if t == "byte":
        return "(.uint 8)"
    m = re.match(r"^uint(\d+)$", t)
    if m:
        return f"(.uint {m.group(1)})"
    m = re.match(r"^int(\d+)$", t)
    if m:
        return f"(.int {m.group(1)})"
    if t == "bool":
        return ".bool"
    if t == "string":
        return ".str"
    assert t in structs, t
    return f"ty{t}"

def num(s):
    return int(s, 16) if s.startswith("0x") else int(s)

def field(name, tag):
    """the contents of a tag: (order, Lean record)"""
    parts = [f'name := "{name}"']
    order = 0
    for p in tag.split(","):
        k, eq, v = p.partition("=")
        if not eq and k.isdigit():
            order = int(k)
        elif k == "size":
            parts.append("sizeDyn := true" if v == "dynamic" else f"size := {v}")
        elif k == "len":
            parts.append("lenDyn := true" if v == "dynamic" else f"length := {v}")
        elif k == "opt":
            parts.append("optDyn := true" if v == "dynamic" else f"optFlag := {num(v)}")
        elif k == "nopt":
            parts.append(f"nOptFlag := {num(v)}")
        elif k == "ver":
            parts.append(f"version := {v}")
        elif k == "nver":
            parts.append(f"nVersion := {v}")
        elif k == "varint":
            parts.append("varint := true")
        elif k == "boxstring":
            parts.append("boxString := true")
        elif k == "string":
            assert v == ""
            parts.append("isString := true")
        elif k == "iso639-2":
            parts.append("iso639 := true")
        elif k in ("extend", "dec", "hex", "uuid", "hidden"):
            parts.append(f"{k} := true")
        elif k == "const":
            parts.append(f'cnst := "{v}"')
        elif k == "array":
            pass  # not interpreted by buildField
        else:
            raise Exception(tag)
    return order, "{ " + ", ".join(parts) + " }"

out = []
w = out.append
w("import Verif.Model.Cfos\nimport Verif.Model.Unmarshal\n")
w("/-!\n# The box types of the library\n\nGenerated by tools/gen_catalog.py from the struct declarations and `init` functions\n"
  "of /repo/box_types_*.go.  Every definition names the declaration it was made from.\n-/\n")
w("namespace Mp4.Cat\n\nopen Mp4\n")

used = []
def visit(name):
    if name in used or name in ("FullBox",):
        return
    s = structs[name]
    for (_, t, _, _) in s["fields"]:
        b = re.sub(r"^(\[\d*\]|\*)+", "", t)
        if b in structs:
            visit(b)
    used.append(name)

gonames = []
for r in regs:
    g = r[1]
    if g not in gonames:
        gonames.append(g)
gonames.append("Item")

def base(g):
    return alias[g][0] if g in alias else g

for g in gonames:
    visit(base(g))

nested = set()
for n in used:
    for (_, t, _, _) in structs[n]["fields"]:
        b = re.sub(r"^(\[\d*\]|\*)+", "", t)
        if b in structs:
            nested.add(b)

ntags = 0
for n in used:
    s = structs[n]
    fl = []
    for (fn, t, tag, embedded) in s["fields"]:
        order, rec = field(fn, tag)
        fl.append((order, fn, t, rec, tag))
    st = sorted(fl, key=lambda x: x[0])  # stable, as sort.SliceStable
    w(f"/-- `{n}`, {s['file']}:{s['l0']}-{s['l1']} -/")
    w(f"def fs{n} : Fields := Fields.ofList [")
    w(",\n".join(f"  ({rec}, {ty(t)})" for (_, fn, t, rec, _) in st))
    w("  ]\n")
    if n in nested and n != "FullBox":
        own = f"(some {cfo(n)})" if is_cfo(n) else "none"
        w(f"/-- `{n}` as the type of a field -/")
        w(f"def ty{n} : Ty := .struct {own} fs{n}\n")

deflines = []
seen = {}
targets = {"isUnderUdta": "(·.underUdta)", "isUnderIlstMeta": "(·.underIlstMeta)",
           "isIlstMetaContainer": "fun c => c.underIlst && !c.underIlstMeta",
           "isUnderIlstFreeFormat": "(·.underIlstFreeMeta)"}
names = []
for (bt, g, vers, target, any_, short, n) in regs:
    key = (g, tuple(vers), target, any_)
    if key in seen:
        continue
    seen[key] = g
    assert g not in names, g
    names.append(g)
    b = base(g)
    s = structs[b]
    parts = [f'goName := "{g}"', f"fields := fs{b}"]
    if g in CUSTOM:
        parts.append(f"cfo := cfo{g}")
    if g in HOOK:
        parts.append(f"hook := {HOOK[g]}")
    if g == "Meta":
        parts.append("metaHook := true")
    if vers:
        parts.append(f"versions := {vers}")
    if target:
        parts.append(f"target := some ({targets[target]})")
    if any_:
        parts.append("anyType := true")
    assert is_cfo(b)
    w(f"/-- `{g}`, registered at {short}:{n} -/")
    w(f"def bd{g} : BoxDef := {{ {', '.join(parts)} }}\n")

w("/-- the definition made for numbered items, mp4.go:102, 113-121 -/")
w('def bdItem : BoxDef := { goName := "Item", fields := fsItem, anyType := true, '
  f"target := some ({targets['isIlstMetaContainer']}) }}\n")

w("/-- `boxMap` (mp4.go:67-101) after the `init` functions: all registrations in order (files in\nalphabetical order, as the Go tool presents them to the compiler). -/")
w("def registry : List (BoxType × BoxDef) := [")
w(",\n".join("  (⟨" + ", ".join(f"0x{c:02x}#8" for c in bt) + f"⟩, bd{g})" for (bt, g, *_r) in regs))
w("  ]\n")
w("/-- all definitions -/")
w("def allDefs : List BoxDef := [" )
w(",\n".join(f"  bd{g}" for g in names + ["Item"]))
w("  ]\n")
w("end Mp4.Cat")
open("/verif/lean/Verif/Model/Catalog.lean", "w").write("\n".join(out) + "\n")

# the declarations with their tags as they are, for Verif/Props/Field.lean
out = []
w = out.append
w("import Verif.Model.Catalog\nimport Verif.Model.Field\n")
w("/-!\n# The struct declarations of the box types, with their tags\n\nGenerated by tools/gen_catalog.py: name, tag and type of every tagged field, in the\n"
  "order of the declaration and not interpreted.\n-/\n")
w("namespace Mp4.Tag\n\nopen Mp4 Mp4.Cat\n")
w("/-- `FullBox`, box.go:144-148 -/")
w("def declFullBox : Decl := [")
w(",\n".join(f'  ("{fn}", "{tag}", {ty(t)})' for (fn, t, tag, _) in structs["FullBox"]["fields"]))
w("  ]\n")
for n in used:
    s = structs[n]
    w(f"/-- `{n}`, {s['file']}:{s['l0']}-{s['l1']} -/")
    w(f"def decl{n} : Decl := [")
    w(",\n".join(f'  ("{fn}", "{tag}", {ty(t)})' for (fn, t, tag, _) in s["fields"]))
    w("  ]\n")
w("/-- every declaration with the layout the codec uses for it -/")
w("def decls : List (Decl × Fields) := [")
w(",\n".join(f"  (decl{n}, fs{n})" for n in used))
w("  ]\n")
w("end Mp4.Tag")
open("/verif/lean/Verif/Model/Tags.lean", "w").write("\n".join(out) + "\n")
print(len(used), "structs", len(names), "defs", len(regs), "registrations")
