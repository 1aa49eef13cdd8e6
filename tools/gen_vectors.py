#!/usr/bin/env python3
"""Turn the test cases of /repo/box_types_*_test.go (read as text) into a Lean file that
compares the model with the expected bytes."""
import re, glob, os, sys, io, contextlib
sys.path.insert(0, os.path.dirname(__file__))
with contextlib.redirect_stdout(io.StringIO()):
    import gen_catalog as g

TOK = re.compile(r"""\s+|//[^\n]*|(?P<raw>`[^`]*`)|(?P<str>"(?:\\.|[^"\\])*")|(?P<chr>'(?:\\.[0-9a-f]*|[^'])')|
 (?P<num>0x[0-9a-fA-F]+|\d+)|(?P<id>[A-Za-z_][\w.]*)|(?P<op>[{}\[\]():,&*+\-|])""", re.X)

CONST = {}
for path in g.files:
    for m in re.finditer(r"^\s*(?:const )?(\w+)\s+(?:uint8\s+)?= (0x[0-9a-f]+|\d+)\s*(?://.*)?$", open(path).read(), re.M):
        CONST[m.group(1)] = int(m.group(2), 0)

def lex(s):
    out, i = [], 0
    while i < len(s):
        m = TOK.match(s, i)
        assert m, s[i:i+50]
        i = m.end()
        k = m.lastgroup
        if k:
            out.append((k, m.group()))
    return out

class P:
    def __init__(self, toks): self.t, self.i = toks, 0
    def peek(self): return self.t[self.i][1]
    def next(self): self.i += 1; return self.t[self.i-1]
    def expect(self, x):
        k, v = self.next(); assert v == x, (v, x, self.t[self.i-5:self.i+5])
    def typ(self):
        if self.peek() == "[":
            self.next()
            n = ""
            if self.peek() != "]": n = self.next()[1]
            self.expect("]")
            return f"[{n}]" + self.typ()
        if self.peek() == "*":
            self.next(); return "*" + self.typ()
        return self.next()[1]
    def expr(self):
        v = self.unary()
        while self.peek() in "+-|" :
            op = self.next()[1]
            w = self.unary()
            if op == "|": v = num(v) | num(w)
            elif op == "+": v = v + w if not isinstance(v, tuple) else (v[0], v[1] + w[1])
            else: v = v - w
        return v
    def unary(self):
        k, v = self.t[self.i]
        if v == "&": self.next(); return self.unary()
        if v == "-": self.next(); return -self.unary()
        if k == "num": self.next(); return int(v, 0)
        if k == "chr":
            self.next(); return ord(eval(v)) if len(v) > 3 else ord(v[1])
        if k == "str":
            self.next(); return ("s", eval("b" + v) if all(ord(c) < 128 for c in v) else eval(v).encode())
        if k == "raw": self.next(); return ("s", v[1:-1].encode())
        if v == "true": self.next(); return True
        if v == "false": self.next(); return False
        if v == "nil": self.next(); return None
        if v == "(":
            self.next(); e = self.expr(); self.expect(")"); return e
        if v == "{": return ("lit", "", self.body())
        t = self.typ()
        if self.peek() == "{":
            return ("lit", t, self.body())
        if self.peek() == "(":
            self.next(); a = self.expr(); self.expect(")"); return ("call", t, a)
        return ("id", t)
    def body(self):
        self.expect("{")
        items = []
        while self.peek() != "}":
            e = self.expr()
            key = None
            if self.peek() == ":":
                self.next(); key = e; e = self.expr()
            items.append((key, e))
            if self.peek() == ",": self.next()
        self.expect("}")
        return items

def bytes_(e):
    if e is None: return b""
    if e[0] == "lit": return bytes(int(x) & 255 for (_, x) in e[2])
    if e[0] == "call": return e[2][1] if e[2] else b""
    raise Exception(e)

def zero(t): return val(t, None)

def bl(b): return "[" + ", ".join(f"0x{x:02x}#8" for x in b) + "]"

def num(e):
    if isinstance(e, tuple):
        if e[0] == "call": return num(e[2])
        if e[1] in CONST: return CONST[e[1]]
        raise Exception(e)
    return int(e)

def val(t, e):
    m = re.match(r"^\[(\d+)\](.*)$", t)
    if m:
        n, et = int(m.group(1)), m.group(2)
        items = [x for (_, x) in e[2]] if e is not None else []
        if e is not None and e[2] and e[2][0][0] is not None:
            # indexed or struct literal
            raise Exception(e)
        items = items + [None] * (n - len(items))
        return "(.arr [" + ", ".join(val(et, x) for x in items) + "])"
    if t.startswith("[]"):
        if e is None: return "(.slice [])"
        if e[0] == "call": items = list(e[2][1])
        else: items = [x for (_, x) in e[2]]
        return "(.slice [" + ", ".join(val(t[2:], x) for x in items) + "])"
    if t.startswith("*"):
        return "(.ptr none)" if e is None else "(.ptr (some " + val(t[1:], e) + "))"
    if t == "byte" or t.startswith("uint"):
        return f"(.uint {num(e) if e is not None else 0})"
    if t.startswith("int"):
        return f"(.int ({num(e) if e is not None else 0}))"
    if t == "bool":
        return f"(.bool {'true' if e else 'false'})"
    if t == "string":
        return f"(.str {bl(e[1] if e is not None else b'')})"
    return "(.struct " + sv(t, e) + ")"

def sv(t, e):
    items = {}
    if e is not None:
        for (k, x) in e[2]:
            items[k[1]] = x
    s = g.structs[g.base(t)]
    fl = sorted(((g.field(fn, tag)[0], fn, ft) for (fn, ft, tag, _) in s["fields"]), key=lambda x: x[0])
    return "[" + ", ".join(f'("{fn}", {val(ft, items.get(fn))})' for (_, fn, ft) in fl) + "]"

CTX = {"UnderIlst": "underIlst", "UnderIlstMeta": "underIlstMeta", "UnderIlstFreeMeta": "underIlstFreeMeta",
       "UnderWave": "underWave", "UnderUdta": "underUdta", "IsQuickTimeCompatible": "isQuickTimeCompatible",
       "QuickTimeKeysMetaEntryCount": "quickTimeKeysMetaEntryCount"}
def lean_str(b):
    return '"' + "".join("\\" + c if c in '"\\' else c if 32 <= ord(c) < 127 else "\\x%02x" % ord(c) for c in b.decode()) + '"'

rows = []
strs = []
for path in sorted(glob.glob(g.REPO + "/box_types_*_test.go")):
    src = open(path).read()
    m = re.search(r"testCases := \[\]struct \{.*?\n\t\}\{\n(.*?)\n\t\}\n", src, re.S)
    if not m: print("skip", path); continue
    p = P(lex("{" + m.group(1) + "}"))
    for (_, e) in p.body():
        d = {k[1]: x for (k, x) in e[2]}
        if "src" not in d: continue
        go = d["src"][1]
        ctx = []
        if "ctx" in d:
            for (k, x) in d["ctx"][2]:
                ctx.append(f"{CTX[k[1]]} := {str(x).lower()}")
        name = d["name"][1].decode()
        strs.append(d["str"][1])
        rows.append(f'  ("{name}", bd{go}, {{ {", ".join(ctx)} }}, {sv(go, d["src"])},\n    {bl(bytes_(d.get("bin")))})')
out = ["import Verif.Model.Catalog\nimport Verif.Model.Stringify\nimport Verif.Spec.Layout\n",
"/-!\n# The test vectors of the repository\n\nGenerated by tools/gen_vectors.py from /repo/box_types_*_test.go.  These are tests of the\nfidelity of the model, not proofs: `Marshal` and `Unmarshal` of the model agree with\nthe expected bytes of the repository's own tests, and `Stringify` with the expected text.\n-/\n",
"namespace Mp4.Cat.Test\n\nopen Mp4 Mp4.Cat\n"]
CH = 12
names = []
for i in range(0, len(rows), CH):
    n = f"vectors{i//CH}"
    names.append(n)
    out.append(f"/-- test cases -/\ndef {n} : List (String × BoxDef × Ctx × SV × Bytes) := [\n" + ",\n".join(rows[i:i+CH]) + "]\n")
out.append("/-- all test cases -/\ndef vectors := " + " ++ ".join(names) + "\n")
out.append("/-- the expected texts, in the same order -/\ndef texts : List String := [\n" + ",\n".join("  " + lean_str(x) for x in strs) + "]\n")
out.append('''/-- `Marshal` yields the expected bytes. -/
def marshals : String × BoxDef × Ctx × SV × Bytes → Bool
  | (_, bd, ctx, sv, bin) =>
    match marshalBox bd memSink ctx sv [] with
    | (.ok n, out) => n == bin.length && out == bin
    | _ => false

/-- `Unmarshal` of the expected bytes yields the value (compared by its representation). -/
def unmarshals : String × BoxDef × Ctx × SV × Bytes → Bool
  | (_, bd, ctx, sv, bin) =>
    match unmarshalBox bd bin ctx bin.length bd.fields.zero 0 with
    | (.ok (n, sv'), pos) => n == bin.length && pos == n && reprStr sv' == reprStr sv
    | _ => false

/-- `Stringify` yields the expected text. -/
def stringifies : (String × BoxDef × Ctx × SV × Bytes) × String → Bool
  | ((_, bd, ctx, sv, _), text) => Str.stringify (fun _ => true) bd sv [] ctx == some (text.toList.map (·.toNat))

#guard texts.length == vectors.length
#guard ((vectors.zip texts).filter (fun v => !stringifies v)).map (·.1.1) == []
#guard (vectors.filter (fun v => !marshals v)).map (·.1) == []
#guard (vectors.filter (fun v => !unmarshals v)).map (·.1) == []
#guard (vectors.filter (fun (_, bd, ctx, sv, bin) =>
  !(Spec.fits bd ctx sv && Spec.layout bd ctx sv == bytesBits bin))).map (·.1) == []
''')
out.append("end Mp4.Cat.Test")
os.makedirs("/verif/lean/Verif/Test", exist_ok=True)
open("/verif/lean/Verif/Test/Vectors.lean", "w").write("\n".join(out) + "\n")
print(len(rows), "vectors")
