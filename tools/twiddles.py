#!/usr/bin/env python3
"""Writes lean/Verif/Cuda/NsmTable.lean from the table of twiddle factors of /repo."""
import re

SRC = '/repo/concrete-cuda/cuda/src/fft/twiddles.cu'
OUT = '/verif/lean/Verif/Cuda/NsmTable.lean'
DIGITS = 33
CHUNK = 256

src = open(SRC).read()
body = src[src.index('negtwiddles[4096] = {') + len('negtwiddles[4096] = {'):]
ent = re.findall(r'\{\s*([-0-9.]+)\s*,\s*([-0-9.]+)\s*\}', body)
assert len(ent) == 4096


def scaled(x):
    neg = x.startswith('-')
    i, _, f = x.lstrip('-').partition('.')
    assert len(f) <= DIGITS
    return ('-' if neg else '') + str(int(i + f.ljust(DIGITS, '0')))


out = ['''/-
The twiddle factors of the Fourier transform of the GPU.

Source: /repo/concrete-cuda/cuda/src/fft/twiddles.cu.

The literals of the source times `10^33`, in the order of the source. Written by tools/twiddles.py.
-/
namespace Verif.Cuda.Nsm
''']
for k in range(0, 4096, CHUNK):
    out.append(f'/-- twiddles.cu:{k + 4}-{k + CHUNK + 3}, entries {k} to {k + CHUNK - 1} of `negtwiddles`. -/')
    out.append(f'def tw{k // CHUNK} : List (Int × Int) := [')
    out.append(',\n'.join(f'  ({scaled(a)}, {scaled(b)})' for a, b in ent[k:k + CHUNK]) + ']\n')
out.append('/-- twiddles.cu:3-4099 `negtwiddles`. -/')
out.append('def negtwiddles : List (Int × Int) :=\n  ' + ' ++ '.join(f'tw{i}' for i in range(4096 // CHUNK)))
out.append('\nend Verif.Cuda.Nsm')
open(OUT, 'w').write('\n'.join(out) + '\n')
