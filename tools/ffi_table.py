#!/usr/bin/env python3
"""Generates lean/Verif/Ffi/Table.lean from the text of /repo/concrete-core-ffi/src.

Every `extern "C"` function is a closure passed to `catch_panic`; each statement of the closure is translated
to at most two statements of the language of Verif/Ffi/Model.lean. The script fails on a statement it does not
know. Run: python3 tools/ffi_table.py > lean/Verif/Ffi/Table.lean
"""
import re, glob, sys

ROOT = '/repo/concrete-core-ffi/src/'
KINDS = {
    'SeederBuilder': 'seederBuilder', 'DefaultEngine': 'defaultEngine',
    'DefaultParallelEngine': 'defaultParallelEngine',
    'DefaultSerializationEngine': 'defaultSerializationEngine', 'FftEngine': 'fftEngine',
    'FftSerializationEngine': 'fftSerializationEngine', 'GlweCiphertextView64': 'glweView',
    'GlweCiphertextMutView64': 'glweMutView', 'LweCiphertextView64': 'lweView',
    'LweCiphertextMutView64': 'lweMutView', 'LweCiphertextVectorView64': 'lweVectorView',
    'LweCiphertextVectorMutView64': 'lweVectorMutView',
    'LweCircuitBootstrapPrivateFunctionalPackingKeyswitchKeys64': 'cbsPfpksk',
    'LweSecretKey64': 'lweSecretKey', 'GlweSecretKey64': 'glweSecretKey',
    'LweKeyswitchKey64': 'keyswitchKey', 'LweKeyswitchKeyMutView64': 'keyswitchKeyMutView',
    'LweSeededKeyswitchKey64': 'seededKeyswitchKey', 'LweBootstrapKey64': 'bootstrapKey',
    'LweBootstrapKeyMutView64': 'bootstrapKeyMutView', 'LweSeededBootstrapKey64': 'seededBootstrapKey',
    'FftFourierLweBootstrapKey64': 'fourierBootstrapKey',
}

def argty(fn, name, ty):
    m = re.fullmatch(r'\*mut \*mut (\w+)', ty)
    if m:
        k = KINDS[m.group(1)]
        return f'.result .{k}' if name == 'result' else f'.consumed .{k}'
    if ty == '*mut Buffer':
        return '.resultBuf' if name == 'result' else '.destroyedBuf'
    if ty == 'BufferView': return '.view'
    m = re.fullmatch(r'\*(mut|const) (\w+)', ty)
    if m:
        if m.group(2) == 'u64': return '.raw 8'
        if m.group(2) == 'bool': return '.raw 1'
        k = KINDS[m.group(2)]
        return f'.destroyed .{k}' if fn.startswith('destroy_') else f'.ref .{k}'
    assert ty in ('usize', 'u64', 'f64'), ty
    return '.int'

def split(body):
    """Top-level statements of the closure."""
    m = re.fullmatch(r'\s*catch_panic\(\|\| \{(.*)\}\)\s*', body, re.S)
    t = re.sub(r'//[^\n]*', '', m.group(1))
    out, cur, depth = [], '', 0
    for c in t:
        if c in '([{': depth += 1
        if c in ')]}': depth -= 1
        if c == ';' and depth == 0:
            out.append(' '.join(cur.split())); cur = ''
        else: cur += c
    assert not cur.strip(), cur
    return out

def translate(fn, args, body):
    pos = {n: i for i, (n, _) in enumerate(args)}
    ty = dict(args)
    loaded, res, state, pending = None, [], {'j': 0}, set()
    def compute():
        res.append(f'.compute {state["j"]}'); state['j'] += 1
    for s in split(body):
        m = re.fullmatch(r'check_ptr_is_non_null_and_aligned\((\w+)\)\.unwrap\(\)', s)
        if m:
            res.append(f'.checkLoaded {slot}' if m.group(1) == loaded else f'.check {pos[m.group(1)]}'); continue
        m = re.fullmatch(r'\*(\w+) = std::ptr::null_mut\(\)', s)
        if m: res.append(f'.nullSlot {pos[m.group(1)]}'); continue
        if fn.startswith('destroy_buffer'):
            if s == 'let buffer = get_mut_checked(buffer).unwrap()': res.append('.check 0')
            elif s == 'let pointer = get_mut_checked(buffer.pointer).unwrap()':
                res += ['.load 0', '.checkLoaded 0']
            elif s == 'let pointer = &mut (*buffer.pointer)': res.append('.load 0')
            elif s == 'Vec::from_raw_parts(pointer, length, length)': res.append('.freeBytes 0')
            elif s == 'buffer.pointer = std::ptr::null_mut()': res.append('.nullSlot 0')
            else: assert s in ('let buffer = &mut (*buffer)', 'let length = buffer.length', 'buffer.length = 0'), s
            continue
        m = re.fullmatch(r'let (\w+) = get_(?:mut|ref)_checked\((\w+)\)\.unwrap\(\)', s)
        if m:
            res.append(f'.check {pos[m.group(2)]}')
            # a reference to the first word of a buffer is followed by the slice it becomes
            if 'u64' not in ty[m.group(2)]: res.append(f'.deref {pos[m.group(2)]}')
            else: pending.add(m.group(2))
            continue
        m = re.fullmatch(r'let (\w+) = \*get_mut_checked\((\w+)\)\.unwrap\(\)', s)
        if m:
            loaded, slot = m.group(1), pos[m.group(2)]; res += [f'.check {pos[m.group(2)]}', f'.load {pos[m.group(2)]}']; continue
        m = re.fullmatch(r'let (\w+) = &(?:mut )?\(?\*(\w+)\)?', s)
        if m: res.append(f'.deref {pos[m.group(2)]}'); continue
        m = re.fullmatch(r'let (\w+) = \*(\w+)', s)
        if m: loaded, slot = m.group(1), pos[m.group(2)]; res.append(f'.load {pos[m.group(2)]}'); continue
        m = re.fullmatch(r'let (\w+) = Box::from_raw\((\w+)\)', s)
        if m: assert m.group(2) == loaded; res.append(f'.take {slot}'); continue
        m = re.fullmatch(r'drop\(Box::from_raw\((\w+)\)\)', s)
        if m: res.append(f'.free {pos[m.group(1)]}'); continue
        m = re.fullmatch(r'let (?:mut )?(\w+) = std::slice::from_raw_parts(?:_mut)?\( ?(\w+), (.*)\)', s)
        if m:
            if '*' in m.group(3): compute()
            pending.discard(m.group(2))
            res.append(f'.deref {pos[m.group(2)]}'); continue
        m = re.fullmatch(r'\*result = Box::into_raw\((.*)\)', s)
        if m:
            res.append(f'.give {pos["result"]}'); continue
        if s == '*result = buffer': res.append(f'.giveBytes {pos["result"]}'); continue
        m = re.fullmatch(r'let (\w+) = \w+\(\w+\)', s)
        if m: continue   # a constructor of a parameter type
        m = re.fullmatch(r'let (\w+)(?:: \w+)? = (.*)', s)
        if m:
            if 'get_mut_checked(seeder_builder)' in s:
                res.append(f'.check {pos["seeder_builder"]}')
                res.append(f'.deref {pos["seeder_builder"]}')
            elif '(*seeder_builder)' in s: res.append(f'.deref {pos["seeder_builder"]}')
            else: assert not re.search(r'_checked\(|\(\*(?!heap_allocated)|from_raw', s), (fn, s)
            if 'buffer.into()' in s: res.append(f'.deref {pos["buffer"]}')
            compute(); continue
        m = re.fullmatch(r'\*result = (.*)', s)
        if m: compute(); res.append(f'.deref {pos["result"]}'); continue
        if s.startswith('result_as_mut_slice.copy_from_slice'): compute(); continue
        if re.match(r'let mut \w+ = ', s) or re.match(r'\w*engine ?\.', s): compute(); continue
        raise SystemExit(f'{fn}: unknown statement {s}')
    assert not pending, (fn, pending)
    return res

HEAD = '''import Verif.Ffi.Model
/-
The functions of concrete-core-ffi, translated by /verif/tools/ffi_table.py from the text of
/repo/concrete-core-ffi/src (generated file).

`checked` is the list of the checked functions, `pairs` associates each of them with its unchecked version.
-/
namespace Verif.Ffi.Table
'''

def main():
    fns = []
    for f in sorted(glob.glob(ROOT + '**/*.rs', recursive=True)):
        t = open(f).read()
        for m in re.finditer(r'pub unsafe extern "C" fn (\w+)\(([^)]*)\)\s*->\s*c_int\s*\{(.*?)\n\}\n', t, re.S):
            args = [tuple(x.strip() for x in a.split(':', 1)) for a in m.group(2).split(',') if a.strip()]
            l1 = t[:m.start()].count('\n') + 1
            l2 = t[:m.end()].count('\n')
            fns.append((f[len(ROOT):], l1, l2, m.group(1), args, m.group(3)))
        assert t.count('extern "C" fn') == len([x for x in fns if x[0] == f[len(ROOT):]]), f
    print(HEAD)
    names = {x[3] for x in fns}
    for f, l1, l2, n, args, body in fns:
        sig = ', '.join(argty(n, a, b) for a, b in args)
        print(f'/-- {f}:{l1}-{l2}. -/')
        prog = ', '.join(translate(n, args, body))
        line = f'def {n} : Fn :=\n  ⟨[{sig}],\n   [{prog}]⟩'
        print(line + '\n')
    pairs = []
    for x in fns:
        n = x[3]
        if 'unchecked' in n: continue
        cands = [m for m in names if 'unchecked' in m and m.replace('_unchecked', '', 1) == n]
        assert len(cands) == 1, (n, cands)
        pairs.append((n, cands[0]))
    assert 2 * len(pairs) == len(fns)
    print('/-- The checked functions with their unchecked versions. -/')
    print('def pairs : List (Fn × Fn) := [')
    print(',\n'.join(f'  ({a},\n    {b})' for a, b in pairs) + ']\n')
    print('/-- The checked functions. -/\ndef checked : List Fn := pairs.map Prod.fst\n')
    print('end Verif.Ffi.Table')

main()
