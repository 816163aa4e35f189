#!/usr/bin/env python3
"""Generate lean/Verif/Model/Tables.lean: the impl tables of /repo as Lean data.

Reads the macro invocations impl_i!/impl_u!/impl_f!/impl_m! (src/v*.rs), impl_from_cast!/impl_from_cast_mask! (src/api/cast/v*.rs),
impl_from_bits! (src/api/into_bits/v*.rs), impl_arch! (src/api/into_bits/arch_specific.rs), impl_shuffle! (src/codegen/shuffle.rs) and
impl_simd_array! (src/codegen/v*.rs).
"""
import re, os, sys
R = "/repo/src/"
OUT = os.path.join(os.path.dirname(os.path.dirname(os.path.abspath(__file__))), "lean/Verif/Model/Tables.lean")

def strip(s):
    """Remove comments (Rust block comments nest)."""
    o, d, i = [], 0, 0
    while i < len(s):
        if s.startswith("/*", i): d += 1; i += 2
        elif d and s.startswith("*/", i): d -= 1; i += 2
        elif not d and s.startswith("//", i):
            i = s.find("\n", i) if "\n" in s[i:] else len(s)
        else:
            if not d: o.append(s[i])
            i += 1
    return "".join(o)

def vty(n):
    n = n.strip()
    m = re.fullmatch(r"([iufm])(8|16|32|64|128|size)x(\d+)", n)
    assert m, n
    return f"⟨.{m.group(1)}{m.group(2)}, {m.group(3)}⟩"

def invocations(text, mac):
    return re.findall(r"(?<![\w])" + mac + r"!\s*[({](.*?)[)}];?", text, flags=re.S)

W = ["16", "32", "64", "128", "256", "512"]
out = []
def emit(s): out.append(s)

emit('''import Verif.Model.Types
/-
GENERATED by tools/gen_tables.py from the macro invocations in /repo/src.  Do not edit.
-/
namespace PackedSimd.Tables
''')

# 1. vector types
rows = []
frm = []
for f in [f"v{w}" for w in W] + ["vSize"]:
    t = strip(open(R + f + ".rs").read())
    for mac, kind in (("impl_i", "int"), ("impl_u", "int"), ("impl_f", "float"), ("impl_m", "mask")):
        for b in re.findall(mac + r"!\s*\((.*?)\);", t, flags=re.S):
            parts = [p.strip() for p in b.split("|")]
            h = re.match(r"\[(\w+);\s*(\d+)\]\s*:\s*(.*)", parts[0], flags=re.S)
            elem, n, names = h.group(1), h.group(2), [x.strip() for x in h.group(3).split(",")]
            store = [x.strip() for x in parts[1].split(",")]
            args = [x.strip() for x in parts[3].split(",") if x.strip()]
            src = [x.strip() for x in parts[4].split(":", 1)[1].split(",") if x.strip()]
            assert args == [f"x{i}" for i in range(len(args))], args  # `new` stores its arguments in order
            mask = names[1] if len(names) > 1 else names[0]
            bm = store[1] if len(store) > 1 else None
            rows.append((f, names[0], elem, n, mask, store[0], bm, len(args)))
            frm.append((f, names[0], src))
emit("/-- `impl_i!`, `impl_u!`, `impl_f!`, `impl_m!` (src/v16.rs .. v512.rs, vSize.rs): the vector type, the declared element type and count, its mask")
emit("type, the number of constructor arguments of `new`, and the width of the bitmask type (0: none). -/")
emit("def vectorTypes : List VectorRow := [")
L = []
for f, name, elem, n, mask, store, bm, na in rows:
    w = {"u8": 8, "u16": 16, "u32": 32, "u64": 64, None: 0}[bm]
    L.append(f"  ⟨{vty(name)}, .{elem}, {n}, {vty(mask)}, {na}, {w}⟩")
emit(",\n".join(L) + "]\n")

def table(name, doc, rows):
    emit(f"/-- {doc} -/")
    emit(f"def {name} : List (VTy × List VTy) := [")
    emit(",\n".join(f"  ({vty(d)}, [{', '.join(vty(s) for s in ss)}])" for d, ss in rows) + "]\n")

table("fromTable", "`From` between vector types (the `From:` lists of src/v*.rs): target, sources.", [(n, s) for _, n, s in frm if s])

# 2. casts
cast, castm = [], []
for w in W:
    t = strip(open(R + f"api/cast/v{w}.rs").read())
    for m in re.finditer(r"impl_from_cast(_mask)?!\s*\((.*?)\);", t, flags=re.S):
        h = re.match(r"\s*(\w+)\[(\w+)\]\s*:\s*(.*)", m.group(2), flags=re.S)
        srcs = [x.strip() for x in h.group(3).split(",") if x.strip()]
        (castm if m.group(1) else cast).append((h.group(1), srcs))
table("castTable", "`impl_from_cast!` (src/api/cast/v*.rs): target, sources; implemented by `simd_cast`.", cast)
table("castMaskTable", "`impl_from_cast_mask!` (src/api/cast/v*.rs): target mask, sources; implemented by comparing with zero.", castm)

# 3. bits
bits = []
for w in W:
    t = strip(open(R + f"api/into_bits/v{w}.rs").read())
    for m in re.finditer(r"impl_from_bits!\s*\((.*?)\);", t, flags=re.S):
        h = re.match(r"\s*(\w+)\[(\w+)\]\s*:\s*(.*)", m.group(1), flags=re.S)
        bits.append((h.group(1), [x.strip() for x in h.group(3).split(",") if x.strip()]))
table("bitsTable", "`impl_from_bits!` (src/api/into_bits/v*.rs): target, sources; implemented by `transmute`.", bits)

# 4. arch
def arch(n):
    if n.startswith("__m"):
        return int(re.match(r"__m(\d+)", n).group(1)) // 8, 0
    if n.startswith("vector_"):
        b = {"vector_bool_char": 1, "vector_bool_short": 2, "vector_bool_int": 4, "vector_bool_long": 8}.get(n, 0)
        return 16, b
    m = re.fullmatch(r"[a-z]+(\d+)x(\d+)_t", n)
    return int(m.group(1)) * int(m.group(2)) // 8, 0
t = strip(open(R + "api/into_bits/arch_specific.rs").read())
t = t[t.index("macro_rules"):]
d, k = 0, t.index("{")
for i in range(k, len(t)):
    d += {"{": 1, "}": -1}.get(t[i], 0)
    if d == 0: t = t[i + 1:]; break
A = []
for m in re.finditer(r"impl_arch!\s*\((.*?)\);", t, flags=re.S):
    heads, f, into, test = [x.strip() for x in m.group(1).split("|")]
    fs = [x.strip() for x in f.split(":")[1].split(",") if x.strip()]
    ins = [x.strip() for x in into.split(":")[1].split(",") if x.strip()]
    for h in re.finditer(r"\[\s*(\w+)\[\"(\w+)\"\]\s*:\s*(.*?)\]", heads, flags=re.S):
        for ty in [x.strip() for x in h.group(3).split(",") if x.strip()]:
            sz, b = arch(ty)
            A.append((h.group(2), ty, sz, b, fs, ins))
emit("/-- `impl_arch!` (src/api/into_bits/arch_specific.rs:79-345): architecture, architecture type (name, size in bytes, lane size if it is a Boolean")
emit("vector, else 0), portable types convertible into it (`from:`), portable types it converts into (`into:`). -/")
emit("def archTable : List ArchRow := [")
emit(",\n".join(f'  ⟨"{a}", "{ty}", {sz}, {b}, [{", ".join(vty(x) for x in fs)}], [{", ".join(vty(x) for x in ins)}]⟩' for a, ty, sz, b, fs, ins in A) + "]\n")

# 5. shuffle output types
t = strip(open(R + "codegen/shuffle.rs").read())
S = re.findall(r"impl_shuffle!\s*\{\s*\[u32;\s*(\d+)\],\s*([\w:]+),\s*(?:crate::)?codegen::(\w+)\s*\}", t)
assert S
emit("/-- `impl_shuffle!` (src/codegen/shuffle.rs): number of indices, element type, resulting vector type. -/")
emit("def shuffleTable : List (Nat × Elem × VTy) := [")
emit(",\n".join(f"  ({n}, .{e.split('::')[-1]}, {vty(ty)})" for n, e, ty in S) + "]\n")

# 6. simd arrays
SA = []
for f in [f"v{w}" for w in W] + ["vSize"]:
    t = strip(open(R + f"codegen/{f}.rs").read())
    for m in re.finditer(r"impl_simd_array!\s*\((.*?)\);", t, flags=re.S):
        h = re.match(r"\s*\[(\w+);\s*(\d+)\]\s*:\s*(\w+)\s*\|\s*(.*)", m.group(1), flags=re.S)
        st = [x.strip() for x in h.group(4).split(",") if x.strip()]
        SA.append((h.group(1), h.group(2), h.group(3), st))
        assert len(set(st)) == 1, st
emit("/-- `impl_simd_array!` (src/codegen/v*.rs): element type, count, vector type, stored lane type, number of stored lanes. -/")
emit("def storageTable : List (Elem × Nat × VTy × Elem × Nat) := [")
emit(",\n".join(f"  (.{e}, {n}, {vty(ty)}, .{st[0].rstrip('_').replace('crate::','') if not st[0].endswith('_') else st[0][:-1]}, {len(st)})" for e, n, ty, st in SA) + "]\n")

emit("end PackedSimd.Tables")
open(OUT, "w").write("\n".join(out) + "\n")
print(len(rows), "types", sum(len(s) for _, _, s in frm), "from", sum(len(s) for _, s in cast), "casts", sum(len(s) for _, s in castm), "mask casts", sum(len(s) for _, s in bits), "bits", len(A), "arch", len(S), "shuffle", len(SA), "storage")
