#!/usr/bin/env python3
"""Run the Lean model on the test vectors of /repo/test/testvectors.

Nothing here is part of the proofs. It is a check that the model computes what the library is documented to compute: the
model is evaluated by Lean's interpreter, not the C++ code. The calls are those of /repo/test/test_vectors.hpp.

    python3 modeltest/run.py [--per-file N] [--max-bytes N] [--max-out N] [file names without .txt ...]
"""
import argparse, os, re, subprocess, sys, tempfile

HERE = os.path.dirname(os.path.abspath(__file__))
LEAN = os.path.join(HERE, '..', 'lean')
VECTORS = '/repo/test/testvectors'

PRELUDE = r'''
import Verif
open Digestpp Digestpp.Model Digestpp.Properties

/-- which of `set_customization`/`set_personalization`, `set_salt`, `set_key` there are -/
structure Setters (P : Type) where
  c : Bytes → Option P
  s : Bytes → Option P
  k : Bytes → Option P

def noSet : Setters Empty := ⟨fun _ => none, fun _ => none, fun _ => none⟩
def cshakeSet : Setters CShakeParam := ⟨some ∘ .customization, fun _ => none, fun _ => none⟩
def kmacSet : Setters KmacParam := ⟨some ∘ .customization, fun _ => none, some ∘ .key⟩
def custSet : Setters CustomizationParam := ⟨some ∘ .customization, fun _ => none, fun _ => none⟩
def saltSet : Setters SaltParam := ⟨fun _ => none, some ∘ .salt, fun _ => none⟩
def blake2Set : Setters Blake2Param := ⟨some ∘ .personalization, some ∘ .salt, some ∘ .key⟩
def skeinSet : Setters SkeinParam := ⟨some ∘ .personalization, fun _ => none, some ∘ .key⟩

def nibbleOf (c : Char) : Nat := if c.isDigit then c.toNat - 48 else c.toNat - 87
def ofHex : List Char → Bytes
  | a :: b :: r => BitVec.ofNat 8 (16 * nibbleOf a + nibbleOf b) :: ofHex r
  | _ => []

def drive {σ op P : Type} (step : op → σ → M (Obs × σ)) (absorb : Source → op) (out : Nat → op) (reset : Bool → op)
    (set : P → op) (st : Setters P) (start : σ) (lines : List String) : IO (Nat × Nat) := do
  let mut s := start
  let mut good := 0
  let mut bad := 0
  for l in lines do
    let b := ofHex (l.toList.drop 2)
    let call : op ⊕ Option P := match l.toList.headD ' ' with
      | 'M' => .inl (absorb (.str b))
      | 'D' => .inl (out b.length)
      | 'R' => .inl (reset false)
      | 'C' => .inr (st.c b)
      | 'S' => .inr (st.s b)
      | _ => .inr (st.k b)
    match call with
    | .inr none => pure ()
    | .inr (some p) =>
      match step (set p) s with
      | .error _ => bad := bad + 1
      | .ok (_, s') => s := s'
    | .inl o =>
      match step o s with
      | .error _ => bad := bad + 1
      | .ok (r, s') =>
        s := s'
        if l.toList.headD ' ' == 'D' then
          if r = .text (l.toList.drop 2) then good := good + 1 else bad := bad + 1
  return (good, bad)

def linesOf (file : String) : IO (List String) := do
  let a ← IO.FS.lines file
  return a.toList

def testHash (c : HashClass) (mem : c.S) (st : Setters c.P) (name file : String) : IO Unit := do
  match c.construct mem with
  | .ok (some s) =>
    let (g, b) ← drive c.pr.step .absorb (fun _ => .hexdigest) .reset .set st s (← linesOf file)
    IO.println s!"{name} {g} {b}"
  | _ => IO.println s!"{name} 0 1"

def testXof (c : XofClass) (mem : c.S) (st : Setters c.P) (name file : String) : IO Unit := do
  match c.construct mem with
  | .ok (some s) =>
    let (g, b) ← drive c.pr.step .absorb (fun n => .hexsqueeze n) .reset .set st s (← linesOf file)
    IO.println s!"{name} {g} {b}"
  | _ => IO.println s!"{name} 0 1"

def main : IO Unit := do
'''

def target(name):
    """Lean text: tester, class, memory before construction, setters."""
    fixed = {
        'md5': ('testHash', 'HashName.md5.cls', 'md5Mem', 'noSet'),
        'sha1': ('testHash', 'HashName.sha1.cls', 'sha1Mem', 'noSet'),
        'sha224': ('testHash', 'HashName.sha224.cls', 'sha2Mem', 'noSet'),
        'sha256': ('testHash', 'HashName.sha256.cls', 'sha2Mem', 'noSet'),
        'sha384': ('testHash', '(HashName.sha512 .static 384).cls', 'sha2Mem', 'noSet'),
        'sha512': ('testHash', '(HashName.sha512 .runtime 512).cls', 'sha2Mem', 'noSet'),
        'sm3': ('testHash', 'HashName.sm3.cls', 'sm3Mem', 'noSet'),
        'whirlpool': ('testHash', 'HashName.whirlpool.cls', 'whirlpoolMem', 'noSet'),
        'ascon_hash256': ('testHash', 'HashName.ascon.cls', 'asconMem', 'noSet'),
        'ascon_xof128': ('testXof', 'XofName.ascon.cls', 'asconMem', 'noSet'),
        'ascon_cxof128': ('testXof', 'XofName.asconCxof.cls', 'asconMem', 'custSet'),
        'shake128': ('testXof', '(XofName.shake 128).cls', 'shakeMem', 'noSet'),
        'shake256': ('testXof', '(XofName.shake 256).cls', 'shakeMem', 'noSet'),
        'cshake256': ('testXof', '(XofName.cshake 256).cls', 'shakeMem', 'cshakeSet'),
        'k12': ('testXof', 'XofName.k12.cls', 'k12Mem', 'custSet'),
        'kt256': ('testXof', 'XofName.kt256.cls', 'k12Mem', 'custSet'),
        'kmac128': ('testHash', '(HashName.kmac .runtime 128 256).cls', 'kmacMem', 'kmacSet'),
        'kmac256': ('testHash', '(HashName.kmac .runtime 256 512).cls', 'kmacMem', 'kmacSet'),
        'blake2xb_xof': ('testXof', 'XofName.blake2xb.cls', '(blake2Mem 64)', 'blake2Set'),
        'blake2xs_xof': ('testXof', 'XofName.blake2xs.cls', '(blake2Mem 32)', 'blake2Set'),
        'skein256_xof': ('testXof', 'XofName.skein256.cls', '(skeinMem 32)', 'skeinSet'),
        'skein512_xof': ('testXof', 'XofName.skein512.cls', '(skeinMem 64)', 'skeinSet'),
    }
    if name in fixed:
        return fixed[name]
    m = re.fullmatch(r'(blake2[bs]p|blake2x[bs]|blake2[bs]|skein256|skein512|skein1024|lsh256|lsh512|sha512|sha3|blake|echo|esch|'
                     r'groestl|jh|kupyna|streebog)_?(\d+)(salt|param)?', name)
    a, n = m.group(1), m.group(2)
    mem = {'blake2b': 'blake2Mem 64', 'blake2xb': 'blake2Mem 64', 'blake2s': 'blake2Mem 32', 'blake2xs': 'blake2Mem 32',
           'blake2bp': 'blake2pMem 64', 'blake2sp': 'blake2pMem 32', 'skein256': 'skeinMem 32', 'skein512': 'skeinMem 64',
           'skein1024': 'skeinMem 128', 'sha512': 'sha2Mem', 'echo': 'echoMem ' + n}.get(a, a + 'Mem')
    st = 'blake2Set' if a.startswith('blake2') else 'saltSet' if a in ('blake', 'echo') else \
        'skeinSet' if a.startswith('skein') else 'noSet'
    return 'testHash', f'(HashName.{a} .runtime {n}).cls', f'({mem})', st

def calls(path, per_file, max_bytes, max_out):
    """The calls of test_vectors.hpp for a selection of the vectors, evenly spread; setter calls are all kept."""
    vectors, setters, msgs, nbytes = [], [], [], 0
    for line in open(path, encoding='latin-1'):
        if '=' not in line:
            continue
        k, v = (x.strip() for x in line.split('=', 1))
        if k == 'Bytes':
            nbytes = int(v)
        elif k in ('C', 'Salt', 'Key'):
            setters.append(k[0] + ' ' + v.lower())
        elif k == 'Msg':
            v = v.lower()
            if not nbytes:
                msgs.append('M ' + v)
            elif nbytes > max_bytes:
                msgs.append(None)
                nbytes = 0
            while nbytes:
                n = min(len(v) // 2, nbytes)
                msgs.append('M ' + v[:2 * n])
                nbytes -= n
        elif k == 'MD':
            ok = None not in msgs and sum(len(m) // 2 - 1 for m in msgs) <= max_bytes and len(v) // 2 <= max_out
            vectors.append((setters, msgs, v.lower(), ok))
            setters, msgs = [], []
    good = [i for i, x in enumerate(vectors) if x[3]]
    if per_file and len(good) > per_file:
        good = sorted({good[j * (len(good) - 1) // (per_file - 1)] for j in range(per_file)})
    chosen, out = set(good), []
    for i, (s, m, d, _) in enumerate(vectors):
        out += s
        if i in chosen:
            out += m + ['D ' + d, 'R ']
    return out, len(chosen), len(vectors)

def main():
    ap = argparse.ArgumentParser()
    ap.add_argument('--per-file', type=int, default=12)
    ap.add_argument('--max-bytes', type=int, default=2500)
    ap.add_argument('--max-out', type=int, default=2500)
    ap.add_argument('names', nargs='*')
    a = ap.parse_args()
    names = a.names or sorted(f[:-4] for f in os.listdir(VECTORS) if f.endswith('.txt'))
    with tempfile.TemporaryDirectory() as d:
        text = PRELUDE
        for n in names:
            c, k, total = calls(os.path.join(VECTORS, n + '.txt'), a.per_file, a.max_bytes, a.max_out)
            p = os.path.join(d, n)
            open(p, 'w').write('\n'.join(c) + '\n')
            f, cls, mem, st = target(n)
            text += f'  {f} {cls} {mem} {st} "{n} ({k} of {total} vectors): right, wrong =" "{p}"\n  (← IO.getStdout).flush\n'
        main_file = os.path.join(d, 'Main.lean')
        open(main_file, 'w').write(text)
        sys.exit(subprocess.call(['lake', 'env', 'lean', '--run', main_file], cwd=LEAN))

main()
