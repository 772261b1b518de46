#!/usr/bin/env python3
"""Lists, for every Rust function of the modelled crates, whether a definition of the Lean model cites lines
of its body. Usage: coverage.py [-u] [prefix]; -u prints the uncited functions only.
A function also counts as cited ("t") when a cited function of the same file has the same text up to the word size
(32, 64) and views of the same entity: the repository writes such functions out once per type."""
import os, re, sys
REPO = '/repo'
ROOT = os.path.join(os.path.dirname(os.path.abspath(__file__)), '..', 'lean', 'Verif')
CRATES = ['concrete-core/src', 'concrete-csprng/src', 'concrete-cpu/src']
AREA = {'Csprng': ['concrete-csprng/src/generators/aes_ctr'], 'Aes': ['concrete-csprng/src/generators/implem'],
        'Decomp': ['commons/math/decomposition'],
        'Random': ['commons/math/random', 'secret/generators'], 'Lwe': ['commons/crypto/lwe', 'commons/crypto/secret', 'default_engine'],
        'Poly': ['commons/math/polynomial', 'commons/math/tensor'],
        'Glwe': ['commons/crypto/glwe', 'commons/crypto/ggsw', 'commons/crypto/bootstrap', 'commons/crypto/secret'],
        'Pbs': ['fft/private/crypto', 'fft/private', 'ntt/private'], 'Ntt': ['ntt/private/math', 'ntt/private'],
        'Pks': ['commons/crypto/glwe', 'default_engine'], 'Wop': ['wop_pbs', 'fft/private'],
        'Engine': ['specification', 'default_engine', 'commons/crypto'], 'Serde': ['default_serialization_engine', 'fft/private', 'commons'],
        'Gsw': ['commons/crypto/gsw'], 'Entity': ['commons/crypto', 'default_engine'], 'Encode': ['commons/crypto/encoding', 'default_engine'], 'Util': ['commons']}
files = []
for c in CRATES:
    for d, _, fs in os.walk(os.path.join(REPO, c)):
        for f in fs:
            if f.endswith('.rs') and '/tests' not in d and 'test' not in f and '/cuda/' not in d:
                files.append(os.path.relpath(os.path.join(d, f), REPO))
cited = {f: [] for f in files}
amb = []
rx = re.compile(r'([A-Za-z_0-9/]+\.rs)(?::| lines? | )((?:\d+(?:-\d+)?)(?:(?:, | and |, and )\d+(?:-\d+)?(?![0-9]*\.rs))*)')
for d, _, fs in os.walk(ROOT):
    for f in sorted(fs):
        if not f.endswith('.lean'): continue
        area = os.path.relpath(os.path.join(d, f), ROOT).split('/')[0]
        text = open(os.path.join(d, f)).read()
        text = re.sub(r'\s*\n\s*', ' ', text)
        last = None
        for m in rx.finditer(text):
            p = m.group(1).lstrip('/')
            p = p[5:] if p.startswith('repo/') else p
            p = re.sub(r'^spec/', 'specification/engines/', p)
            p = re.sub(r'^fft/crypto', 'fft/private/crypto', p)
            p = re.sub(r'^fft/(ggsw|bootstrap)', r'fft/private/crypto/\1', p)
            p = re.sub(r'^fft/math', 'fft/private/math', p)
            p = re.sub(r'^ntt/bootstrap', 'ntt/private/crypto/bootstrap', p)
            if area == 'Pbs' and p == 'ntt.rs': p = 'ntt/private/crypto/ggsw/ntt.rs'
            if p.startswith('core/src'): p = 'concrete-' + p
            cand = [x for x in files if x == p or x.endswith('/' + p)]
            if len(cand) > 1:
                for a in AREA.get(area, []):
                    c2 = [x for x in cand if a in x]
                    if c2:
                        cand = c2
                        break
            if len(cand) != 1:
                amb.append((f, m.group(0), len(cand)))
            for x in cand:
                for r in re.findall(r'\d+(?:-\d+)?', m.group(2)):
                    a, _, b = r.partition('-')
                    cited[x].append((int(a), int(b or a)))
def functions(path):
    src = open(os.path.join(REPO, path)).read().split('\n')
    i, out, n = 0, [], len(src)
    while i < n:
        l = src[i]
        if re.match(r'\s*#\[cfg\((all\()?(test|feature = "__)', l): pass
        if re.match(r'\s*#\[cfg\(test\)\]', l): break
        m = re.match(r'\s*(?:pub(?:\([^)]*\))? )?(?:const )?(?:unsafe )?(?:extern "C" )?fn (\w+)', l)
        if m and not l.lstrip().startswith('//'):
            depth, j, seen = 0, i, False
            while j < n:
                s = re.sub(r'//.*', '', src[j])
                s = re.sub(r'"[^"]*"', '', s)
                if not seen and ';' in s and '{' not in s and depth == 0 and not re.search(r'\[.*;.*\]', s): break
                depth += s.count('{') - s.count('}')
                if '{' in s: seen = True
                if seen and depth <= 0: break
                j += 1
            if seen: out.append((m.group(1), i + 1, j + 1))
            i = i + 1
        else: i += 1
    return out
def text(path, a, b):
    t = '\n'.join(re.sub(r'//.*', '', l) for l in open(os.path.join(REPO, path)).read().split('\n')[a - 1:b])
    t = re.sub(r'(32|64)', 'W', t)
    t = re.sub(r'(Mut)?View(?=W)', '', t)
    t = re.sub(r"<'_>|&mut |&|'\w+|\[\.\.\]", '', t)
    return re.sub(r'[\s,]+', '', t)
if __name__ == '__main__':
    u = '-u' in sys.argv
    pre = [a for a in sys.argv[1:] if a != '-u']
    tot = cov = 0
    for f in sorted(files):
        if pre and not any(p in f for p in pre): continue
        fl = functions(f)
        if not fl: continue
        res = []
        for (nm, a, b) in fl:
            ok = any(x <= b and y >= a for (x, y) in cited[f])
            tot += 1; cov += ok
            res.append((ok, nm, a, b))
        done = {(nm, text(f, a, b)) for ok, nm, a, b in res if ok}
        twins = 0
        for i, (ok, nm, a, b) in enumerate(res):
            if not ok and (nm, text(f, a, b)) in done:
                res[i] = ('t', nm, a, b)
                twins += 1
        cov += twins
        k = sum(bool(r[0]) for r in res)
        print(f'{f}: {k}/{len(res)}')
        for ok, nm, a, b in res:
            if not u: print(f'  {" " if not ok else "t" if ok == "t" else "x"} {nm} {a}-{b}')
            elif not ok: print(f'    {nm} {a}-{b}')
    print('total', cov, '/', tot)
    if '-a' in sys.argv or os.environ.get('AMB'):
        for a in amb: print('AMBIGUOUS', a)
