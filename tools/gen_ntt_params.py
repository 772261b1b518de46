#!/usr/bin/env python3
"""Generates lean/Verif/Ntt/Params/P<w>_<N>.lean from the parameter tables of /repo."""
import re, os
SRC = '/repo/concrete-core/src/backends/ntt/private/math/params'
DST = os.path.join(os.path.dirname(os.path.abspath(__file__)), '..', 'lean', 'Verif', 'Ntt', 'Params')
os.makedirs(DST, exist_ok=True)
for w in (32, 64):
    for n in (128, 256, 512, 1024, 2048, 4096):
        text = open(f'{SRC}/params_{w}_{n}.rs').read()
        def scalar(name):
            return re.search(rf'\b{name}_{w}_{n}: u\d+ = (\d+)', text).group(1)
        def array(name):
            m = re.search(rf'\b{name}_{w}_{n}: \[u\d+; (\d+)\] = \[([^\]]*)\]', text)
            v = re.findall(r'\d+', m.group(2))
            assert len(v) == int(m.group(1)) == n
            first = text[:m.start()].count('\n') + 1
            last = text[:m.end()].count('\n') + 1
            return v, first, last
        def lean_list(name, v):
            out, parts = [], []
            for c in range(0, n, 256):
                ch = v[c:c + 256]
                rows = [', '.join(ch[i:i + 8]) for i in range(0, len(ch), 8)]
                parts.append(f'{name}{c // 256}')
                out.append(f'/-- Entries {c} to {c + len(ch) - 1}. -/\ndef {name}{c // 256} : List Nat := [\n  ' + ',\n  '.join(rows) + ']\n')
            return '\n'.join(out), ' ++ '.join(parts)
        r, r1, r2 = array('ROOTS')
        ri, i1, i2 = array('INVROOTS')
        rd, rp = lean_list('roots', r)
        id_, ip = lean_list('rootsInv', ri)
        log = n.bit_length() - 1
        W = 2 * w
        open(f'{DST}/P{w}_{n}.lean', 'w').write(f'''import Verif.Ntt.Check
/-
Generated by tools/gen_ntt_params.py from
/repo/concrete-core/src/backends/ntt/private/math/params/params_{w}_{n}.rs.
-/
namespace Verif.Ntt.P{w}_{n}

{rd}
{id_}
/-- params_{w}_{n}.rs:1 (`MOD`), 3 (`NINV`), {r1}-{r2} (`ROOTS`), {i1}-{i2} (`INVROOTS`). -/
def params : Params := ⟨{log}, {scalar('MOD')}, {scalar('NINV')}, {rp}, {ip}⟩

/-- C36 for polynomials of size {n} over {w}-bit tori. -/
theorem C36_table : TableCorrect {w} params := check_sound (by decide +kernel)

end Verif.Ntt.P{w}_{n}
''')
