#!/usr/bin/env python3
"""Copies the constant tables of /repo/algorithm/detail/constants/*.hpp into lean/Verif/Model/Tables/*.lean.

Usage: gen_tables.py [repo] [outdir]"""
import os, re, sys

repo = sys.argv[1] if len(sys.argv) > 1 else "/repo"
out = sys.argv[2] if len(sys.argv) > 2 else os.path.join(os.path.dirname(__file__), "../lean/Verif/Model/Tables")
src = os.path.join(repo, "algorithm/detail/constants")
DEF = re.compile(r"const (?:static )?(uint64_t|uint32_t|unsigned char|unsigned|int) (\w+)<\w+>::(\w+)((?:\[\d+\])+)\s*=\s*\{(.*?)\};", re.S)

def nums(text):
    text = re.sub(r"//.*", "", text)
    return [int(x.rstrip("uUlL"), 0) for x in re.findall(r"0x[0-9a-fA-F]+[uUlL]*|\d+[uUlL]*", text)]

for fn in sorted(os.listdir(src)):
    text = open(os.path.join(src, fn)).read()
    alg = fn.split("_")[0].capitalize()
    o = ["import Verif.Vocab", "", f"/-! Tables of algorithm/detail/constants/{fn}, copied by tools/gen_tables.py. -/", "",
         "namespace Digestpp.Model", ""]
    for m in DEF.finditer(text):
        ty, cls, name, dims, body = m.groups()
        dims = [int(x) for x in re.findall(r"\d+", dims)]
        v = nums(body)
        n = 1
        for d in dims: n *= d
        assert len(v) == n, (fn, name, len(v), n)
        l1 = text[:m.start()].count("\n") + 1
        l2 = text[:m.end()].count("\n") + 1
        w = {"uint64_t": 64, "uint32_t": 32}.get(ty)
        fmt = (lambda x: f"0x{x:0{w//4}x}") if w else str
        base = cls.replace("_constants", "") + "_" + name
        def row(r, ind):
            per = {64: 5, 32: 9}.get(w, 20)
            lines = [", ".join(fmt(x) for x in r[i:i+per]) for i in range(0, len(r), per)]
            s = ("[" + (",\n" + ind + " ").join(lines) + "]")
            return s + (f".map (BitVec.ofNat {w})" if w else "")
        elt = f"BitVec {w}" if w else "Nat"
        o.append(f"/-- constants/{fn} {l1}-{l2}: `{cls}::{name}`. -/")
        if len(dims) == 1:
            o.append(f"def {base} : List {'(' + elt + ')' if w else elt} :=\n  " + row(v, "  "))
        else:
            rows = [v[i*dims[1]:(i+1)*dims[1]] for i in range(dims[0])]
            if dims[1] > 64:
                doc = o.pop()
                for i, r in enumerate(rows):
                    o += [f"/-- constants/{fn} {l1}-{l2}: `{cls}::{name}[{i}]`. -/",
                          f"def {base}{i} : List ({elt}) :=\n  " + row(r, "  "), ""]
                o += [doc, f"def {base} : List (List ({elt})) := [" + ", ".join(f"{base}{i}" for i in range(dims[0])) + "]", ""]
                continue
            o.append(f"def {base} : List (List {'(' + elt + ')' if w else elt}) :=\n  [" + ",\n   ".join(row(r, "   ") for r in rows) + "]")
        o.append("")
    o.append("end Digestpp.Model")
    open(os.path.join(out, alg + ".lean"), "w").write("\n".join(o) + "\n")
