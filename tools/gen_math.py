#!/usr/bin/env python3
"""Generate lean/Verif/Model/MathTables.lean: the cfg_if! tables of /repo/src/codegen/math/float/*.rs as Lean data."""
import re, os
R = "/repo/src/codegen/math/float/"
OUT = os.path.join(os.path.dirname(os.path.dirname(os.path.abspath(__file__))), "lean/Verif/Model/MathTables.lean")
FILES = ["abs", "cos", "cos_pi", "exp", "ln", "mul_add", "mul_adde", "powf", "sin", "sin_pi", "sqrt", "sqrte", "tanh", "sin_cos_pi"]

def strip(s):
    s = re.sub(r"/\*.*?\*/", "", s, flags=re.S)
    return re.sub(r"//[^\n]*", "", s)

def fvty(n):
    m = re.fullmatch(r"f(32|64)x(\d+)", n); assert m, n
    return f"⟨.f{m.group(1)}, {m.group(2)}⟩"

COND = {'target_arch = "s390x"': "c.s390x", 'all(target_arch = "x86_64", feature = "sleef-sys")': "c.x64Sleef",
        'target_feature = "avx2"': "c.avx2", 'target_feature = "avx"': "c.avx", 'target_feature = "sse4.2"': "c.sse42", 'target_feature = "sse2"': "c.sse2"}

class Parser:
    def __init__(self, text, externs, file):
        self.s, self.p, self.ext, self.file = text, 0, externs, file
    def ws(self):
        while self.p < len(self.s) and self.s[self.p].isspace(): self.p += 1
    def lit(self, x):
        self.ws(); assert self.s.startswith(x, self.p), (x, self.s[self.p:self.p+60]); self.p += len(x)
    def peek(self, x):
        self.ws(); return self.s.startswith(x, self.p)
    def block(self):
        self.lit("{"); rows = []; inner = None; macros = {}
        while not self.peek("}"):
            if self.peek("use "): self.p = self.s.index(";", self.p) + 1
            elif self.peek("cfg_if!"): inner = self.cfgif()
            elif self.peek("macro_rules!"):
                d, i = 0, self.s.index("{", self.p)
                while True:
                    if self.s[i] == "{": d += 1
                    if self.s[i] == "}":
                        d -= 1
                        if d == 0: break
                    i += 1
                self.p = i + 1
            else:
                m = re.compile(r"\s*(\w+)!\((.*?)\);", re.S).match(self.s, self.p)
                assert m, self.s[self.p:self.p+80]
                rows.append(self.row(m.group(1), m.group(2))); self.p = m.end()
        self.lit("}")
        assert (inner is None) or not rows
        return inner if inner else rows
    def cfgif(self):
        self.lit("cfg_if!"); self.lit("{"); r = self.chain(); self.lit("}"); return r
    def chain(self):
        self.lit("if"); self.lit("#[cfg(")
        e = self.s.index(")]", self.p); cond = COND[self.s[self.p:e].strip()]; self.p = e + 2
        a = self.block()
        self.lit("else")
        b = self.chain() if self.peek("if") else self.block()
        return (cond, a, b)
    def fn(self, name, n):
        m = re.fullmatch(r"Sleef_([a-z]+?)([fd])(\d+)_(?:u(\d+))?(avx2128|avx2|avx|sse4|sse2)", name)
        if m:
            return f"⟨{'.f32' if m.group(2)=='f' else '.f64'}, ⟨.{m.group(1)}, .{m.group(5)}, {int(m.group(4) or 0)}, {m.group(3)}⟩⟩"
        if name == "simd_fsqrt": return f"⟨.f{n[0]}, ⟨.sqrt, .llvm, 0, {n[1]}⟩⟩"
        m = re.fullmatch(r"tanh_(?:v(\d+))?f(32|64)", name)
        if m and self.file == "tanh": return f"⟨.f{m.group(2)}, ⟨.tanh, .std, 0, {m.group(1) or 1}⟩⟩"
        l = re.fullmatch(r"llvm\.(\w+)\.(?:v(\d+))?f(32|64)", self.ext[name]); assert l, name
        return f"⟨.f{l.group(3)}, ⟨.{l.group(1)}, .llvm, 0, {l.group(2) or 1}⟩⟩"
    def row(self, mac, body):
        body = body.strip()
        if mac in ("impl_def32", "impl_def64"):
            return f"⟨{fvty(body)}, .timesPi .{mac[4:]}⟩".replace("._def32", ".f32").replace("._def64", ".f64")
        if mac == "impl_broken": return f"⟨{fvty(body)}, .mulThenAdd⟩"
        m = re.fullmatch(r"(f\d+x\d+)(?:\[(.*?)\])?\s*:\s*(\w+)", body); assert m, body
        vid, opt, f = m.groups()
        n = re.fullmatch(r"f(\d+)x(\d+)", vid).groups()
        F = self.fn(f, n)
        if opt is None: st = f".vec {F}"
        elif opt == "g": st = f".vec {F}"
        elif opt.startswith("f"):
            e, c = re.fullmatch(r"(f\d+);\s*(\d+)", opt).groups(); st = f".scalar .{e} {c} {F}"
        else:
            k, v = re.fullmatch(r"([htq])\s*=>\s*(\w+)", opt).groups()
            st = f".{dict(h='halves', t='twice', q='quarters')[k]} {fvty(v)} {F}"
        return f"⟨{fvty(vid)}, {st}⟩"

def show(r, ind):
    if isinstance(r, list):
        return "[" + (",\n" + " " * (ind + 1)).join(r) + "]"
    c, a, b = r
    return f"if {c} then\n{' '*(ind+2)}{show(a, ind+2)}\n{' '*ind}else {show(b, ind)}"

out = ['''import Verif.Model.MathTypes
/-
GENERATED by tools/gen_math.py from the cfg_if! tables in /repo/src/codegen/math/float.  Do not edit.
-/
namespace PackedSimd.MathTables
''']
NAMES = dict(cos_pi="cosPi", mul_add="mulAdd", mul_adde="mulAdde", sin_pi="sinPi", sin_cos_pi="sinCosPi")
for f in FILES:
    raw = open(R + f + ".rs").read()
    t = strip(raw)
    ext = {b: a for a, b in re.findall(r'link_name\s*=\s*"([^"]+)"\]\s*fn (\w+)\(', t)}
    # declared argument types agree with the linked name
    for a, b, d in re.findall(r'link_name\s*=\s*"([^"]+)"\]\s*fn (\w+)\(x: (\w+)', t):
        l = re.fullmatch(r"llvm\.\w+\.(?:v(\d+))?f(32|64)", a)
        assert d == (f"f{l.group(2)}x{l.group(1)}" if l.group(1) else f"f{l.group(2)}"), (a, d)
    if f == "mul_adde":
        P = Parser("", ext, f)
        rows = [P.row("impl_mul_adde", b) for b in re.findall(r"impl_mul_adde!\((f.*?)\);", t)]
        tree = ("c.s390x", [re.sub(r"⟨(⟨.*?⟩),.*", r"⟨\1, .mulThenAdd⟩", r) for r in rows], rows)
    else:
        i = t.index("cfg_if!")
        tree = Parser(t[i:], ext, f).cfgif()
    lines = raw.count("\n")
    out.append(f"/-- src/codegen/math/float/{f}.rs -/\ndef {NAMES.get(f, f)} (c : Cfg) : List MathRow :=\n  {show(tree, 2)}\n")
out.append("end PackedSimd.MathTables")
open(OUT, "w").write("\n".join(out) + "\n")
