#!/usr/bin/env python3
"""Random mutants of the model, for mutate.py: one or two small edits in every definition under Verif/Model.

usage: genmutants.py seed per_definition out.json [directory or file under Verif/Model ...]
Without further arguments: the files directly in Verif/Model.
"""
import json, os, random, re, sys

ROOT = '/verif/lean/Verif/Model'
CLAIM = {'Absorb': 'C01', 'Ascon': 'C25', 'Basic': 'C38', 'Blake': 'C11', 'Blake2': 'C12, C13', 'Blake2p': 'C14', 'BlakeRound': 'C11, C12',
         'Echo': 'C23', 'Esch': 'C24', 'Functions': 'all conformance properties', 'Groestl': 'C16', 'Hasher': 'C26-C37', 'Jh': 'C17', 'K12': 'C10',
         'Kmac': 'C09', 'Kupyna': 'C19', 'Lsh': 'C22', 'Md5': 'C02', 'MdFinal': 'C02-C05', 'Sha1': 'C03', 'Sha2': 'C04, C05', 'Sha3': 'C06',
         'Shake': 'C07, C08', 'Skein': 'C15', 'Sm3': 'C21', 'Streebog': 'C20', 'Validate': 'C35', 'Whirlpool': 'C18',
         'Faults': 'C65', 'Threads': 'C63', 'Width': 'C62', 'Pointers': 'C59', 'Locals': 'C58', 'Leak': 'C66', 'Arrays': 'C58'}
OPS = [(r'\^\^\^', '|||'), (r'&&&', '|||'), (r'\|\|\|', '&&&'), (r'(?<= )\+(?= )', '-'), (r'(?<= )-(?= )', '+'), (r'(?<= )<(?= )', '≤'),
       (r'(?<= )≥(?= )', '>'), (r'(?<= )≤(?= )', '<'), (r'(?<= )>(?= )', '≥'), (r'<<<', '>>>'), (r'>>>', '<<<'), (r'\btrue\b', 'false'), (r'\bfalse\b', 'true'),
       (r'\.take\b', '.drop'), (r'\.drop\b', '.take'), (r'(?<= )/(?= )', '%'), (r'(?<= )%(?= )', '/'), (r'(?<= )\*(?= )', '+'), (r'≠', '='),
       (r'\brotr\b', 'rotl'), (r'\brotl\b', 'rotr'), (r'\bif !', 'if '), (r'~~~', ''),]

def literal(rng, s):
    if s.startswith('0x'):
        v = int(s, 16) ^ (1 << rng.randrange(max(1, 4 * (len(s) - 2))))
        return '0x%0*x' % (len(s) - 2, v)
    v = int(s)
    return str(rng.choice([v + 1, v + 1, max(v - 1, 0) if v else v + 1]))

def main():
    seed, per, out = int(sys.argv[1]), int(sys.argv[2]), sys.argv[3]
    rng = random.Random(seed)
    res = []
    files = []
    for a in sys.argv[4:] or ['']:
        p = os.path.join(ROOT, a)
        files += [os.path.join(a, f) for f in sorted(os.listdir(p))] if os.path.isdir(p) else [a]
    for f in files:
        if not f.endswith('.lean'): continue
        base = f[:-5]
        claim = CLAIM.get(base.split('/')[0], '?')
        t = open(os.path.join(ROOT, f)).read()
        # blank out comments, keeping positions
        bl = re.sub(r'/-.*?-/', lambda m: ' ' * len(m.group()), t, flags=re.S)
        bl = re.sub(r'--[^\n]*', lambda m: ' ' * len(m.group()), bl)
        defs = list(re.finditer(r'^(?:private )?def (\S+)', bl, re.M))
        for d in defs:
            a = d.end()
            nxt = re.search(r'^\S', bl[a:], re.M)
            b = a + nxt.start() if nxt else len(t)
            body = re.search(r':=|\n  \||where', bl[a:b])
            a = a + (body.end() if body else 0)
            c = []
            for pat, rep in OPS:
                c += [(m.start() + a, m.end() + a, rep) for m in re.finditer(pat, bl[a:b])]
            lits = [(m.start() + a, m.end() + a, None) for m in re.finditer(r'(?<![\w.#])(0x[0-9a-fA-F]+|\d+)(?![\w.#])', bl[a:b])]
            if len(lits) > 40: lits = rng.sample(lits, 40)
            c += lits
            rng.shuffle(c)
            for s, e, rep in c[:per]:
                old = t[s:e]
                new = rep if rep is not None else literal(rng, old)
                # context: widen until unique
                l, r = s, e
                while t.count(t[l:r]) > 1 and (r - l) < 400:
                    l = max(0, l - 8); r = min(len(t), r + 8)
                if t.count(t[l:r]) > 1: continue
                res.append({'file': 'Verif/Model/' + f, 'definition': 'Model.%s: %s' % (base.replace('/', '.'), d.group(1)), 'old': t[l:r], 'new': t[l:s] + new + t[e:r],
                            'claim': '%s: %s computes something else (`%s` became `%s`)' % (claim, d.group(1), old, new), 'check': 'Verif.Model.' + base.replace('/', '.')})
    rng.shuffle(res)
    json.dump(res, open(out, 'w'), ensure_ascii=False, indent=1)
    print(len(res))
main()
