#!/usr/bin/env python3
"""Writes lean/Verif/Proofs/PermRows.lean: for each provider with lookup tables T[i], the rows of a linear map that takes T[i][b] to a
byte in position i, the map from b to that byte, and the inverse of the latter. The properties claimed are checked by the kernel, not here."""
import re

def tables(name, n):
    s = open(f'/verif/lean/Verif/Model/Tables/{name.capitalize()}.lean').read()
    out = []
    for i in range(n):
        body = re.search(rf'def {name}_T{i} .*?\[(.*?)\]', s, re.S).group(1)
        out.append([int(x, 16) for x in body.replace('\n', ' ').split(',')])
    return out

def basis(t):
    """Eight independent entries of a table."""
    piv, out = {}, []
    for v in t:
        x = v
        while x and x.bit_length() - 1 in piv:
            x ^= piv[x.bit_length() - 1]
        if x:
            piv[x.bit_length() - 1] = x
            out.append(v)
    assert len(out) == 8
    return out

def inverse_rows(images, n):
    """images[j] is the image of bit j; the result lists the preimages of the bits."""
    a = [(v, 1 << j) for j, v in enumerate(images)]
    for c in range(n):
        p = next(k for k in range(c, n) if a[k][0] >> c & 1)
        a[c], a[p] = a[p], a[c]
        for k in range(n):
            if k != c and a[k][0] >> c & 1:
                a[k] = (a[k][0] ^ a[c][0], a[k][1] ^ a[c][1])
    return [a[c][1] for c in range(n)]

def lin(rows, x):
    r = 0
    for v in rows:
        if x & 1: r ^= v
        x >>= 1
    return r

def block(vals, fmt, per):
    ls = [', '.join(fmt(v) for v in vals[k:k + per]) for k in range(0, len(vals), per)]
    return '  [' + ',\n   '.join(ls) + ']'

out = ['import Verif.Vocab', '',
  '/-! C56: written by tools/gen_inverse.py. Nothing is assumed about these numbers: what is claimed of them is checked where they are used. -/',
  '', 'namespace Digestpp.Proofs.Perm', '']
for name, n in [('groestl', 8), ('whirlpool', 8), ('kupyna', 8), ('streebog', 8), ('echo', 4)]:
    T = tables(name, n)
    rows = inverse_rows([v for t in T for v in basis(t)], 8 * n)
    boxes, invs = [], []
    for i in range(n):
        box = []
        for b in range(256):
            y = lin(rows, T[i][b])
            assert y >> (8 * i) < 256 and y == (y >> (8 * i)) << (8 * i)
            box.append(y >> (8 * i))
        boxes.append(box)
    out += [f'def {name}Rows : List Nat :=', block(rows, lambda v: f'0x{v:0{2*n}x}', 5 if n == 8 else 8), '']
    uniq = []
    for v in boxes:
        if v not in uniq: uniq.append(v)
    for k, v in enumerate(uniq):
        out += [f'def {name}Box{k} : List Nat :=', block(v, str, 25), '']
        inv = [0] * 256
        for b in range(256): inv[v[b]] = b
        out += [f'def {name}Inv{k} : List Nat :=', block(inv, str, 25), '']
    out += [f'def {name}Box : List (List Nat) := [' + ', '.join(f'{name}Box{uniq.index(v)}' for v in boxes) + ']', '']
    print(name, len(uniq))
out += ['end Digestpp.Proofs.Perm', '']
open('/verif/lean/Verif/Proofs/PermRows.lean', 'w').write('\n'.join(out))
