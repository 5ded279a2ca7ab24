#!/usr/bin/env python3
"""Translate the vector tables of the crate's own unit tests (/repo/src/float/*.rs) into Lean.

Writes /verif/lean/Verif/Tests/Vectors.lean (all tables except powi) and Verif/Tests/VectorsPowi.lean.
Each table is copied number by number; the tests that use the tables are written by hand in
Verif/Tests/Float.lean and Verif/Tests/Powi.lean.
"""
import re
SRC = '/repo/src/float/'
OUT = '/verif/lean/Verif/Tests/'

CONSTS = {'f32::NAN': 'NAN', 'f32::INFINITY': 'INFINITY', '-f32::INFINITY': '-INFINITY',
          'MAX_ERROR': 'cosh_MAX_ERROR', **{f'MAX_ERROR_{i}': f'cosh_MAX_ERROR_{i}' for i in range(1, 6)}}

def num(tok):
    tok = tok.strip()
    if tok in CONSTS:
        return CONSTS[tok]
    neg = tok.startswith('-')
    t = tok.lstrip('-').replace('_', '')
    m = re.fullmatch(r'(\d+)(?:\.(\d*))?(?:[eE]([+-]?\d+))?', t)
    assert m, tok
    ip, fp, e = m.group(1), m.group(2) or '', int(m.group(3) or 0)
    man, ex = int(ip + fp), e - len(fp)
    s = f'd {man} {ex}' if ex >= 0 else f'd {man} ({ex})'
    return f'-({s})' if neg else s

def table(file, name):
    """(first line, last line, rows) of the constant `name` in `file`."""
    lines = open(SRC + file).read().split('\n')
    rows, on = [], False
    for i, l in enumerate(lines, 1):
        if re.search(r'\b' + name + r'\b\s*:', l):
            on, a = True, i
            continue
        if on:
            if l.strip().startswith(']'):
                return a, i, rows
            m = re.fullmatch(r'\s*\((.*)\),\s*', l)
            assert m, l
            rows.append([num(t) for t in m.group(1).split(',')])
    raise SystemExit(f'{file} {name}')

HEAD = '''import Verif.Tests.Decimal

/-!
# Vector tables of the crate's unit tests{what}

Generated by `tools/gen_tests.py` from the `TEST_VECTORS` constants of `/repo/src/float/*.rs`, number by
number.  `d m e` is the decimal literal `m·10^e`, correctly rounded to `f32` as rustc does.
-/

namespace Micromath.Tests
open F32
variable [Cfg]

'''

def emit(name, file, const, w, rows=None, span=None):
    a, b, r = table(file, const)
    if rows is not None: r = rows
    ty = ' × '.join(['F32'] * w)
    w_ = f'/-- `/repo/src/float/{file}:{a}-{b}` -/\n' if span is None else span
    return w_ + f'def {name} : List ({ty}) := [\n' + ',\n'.join('  (' + ', '.join(x) + ')' for x in r) + ']\n\n'

s = HEAD.format(what='')
for nm, f in [('MAX_ERROR_1', '1'), ]:
    pass
for i, v in [('_1', '1 (-3)'), ('_2', '2 (-3)'), ('_3', '3 (-3)'), ('_4', '5 (-3)'), ('_5', '2 (-2)'), ('', '92 (-3)')]:
    s += f'/-- `MAX_ERROR{i}` of `/repo/src/float/cosh.rs` -/\ndef cosh_MAX_ERROR{i} : F32 := d {v}\n'
s += '\n'
for name, file, const, w in [
    ('cosVectors', 'cos.rs', 'TEST_VECTORS', 2), ('coshVectors', 'cosh.rs', 'TEST_VECTORS', 3),
    ('expVectors', 'exp.rs', 'TEST_VECTORS', 2), ('lnVectors', 'ln.rs', 'TEST_VECTORS', 2),
    ('log3Vectors', 'log.rs', 'TEST_VECTORS_BASE3', 2), ('log5_5Vectors', 'log.rs', 'TEST_VECTORS_BASE5_5', 2),
    ('log12_7Vectors', 'log.rs', 'TEST_VECTORS_BASE12_7', 2), ('log10Vectors', 'log10.rs', 'TEST_VECTORS', 2),
    ('log2Vectors', 'log2.rs', 'TEST_VECTORS', 2), ('powf3Vectors', 'powf.rs', 'TEST_VECTORS_POW3', 2),
    ('powf150Vectors', 'powf.rs', 'TEST_VECTORS_POW150', 2), ('powfMiscVectors', 'powf.rs', 'TEST_VECTORS_MISC', 3),
    ('sinVectors', 'sin.rs', 'TEST_VECTORS', 2), ('sqrtVectors', 'sqrt.rs', 'TEST_VECTORS', 2),
    ('tanVectors', 'tan.rs', 'TEST_VECTORS', 2)]:
    s += emit(name, file, const, w)
s += 'end Micromath.Tests\n'
open(OUT + 'Vectors.lean', 'w').write(s)

a, b, rows = table('powi.rs', 'TEST_VECTORS')
CH = 200
parts = [rows[i:i + CH] for i in range(0, len(rows), CH)]
s = HEAD.format(what=': `powi`')
for k, p in enumerate(parts):
    lo = a + 1 + k * CH
    s += emit(f'powiVectors{k}', 'powi.rs', 'TEST_VECTORS', 3, p,
              f'/-- `/repo/src/float/powi.rs:{lo}-{lo + len(p) - 1}` -/\n')
s += 'end Micromath.Tests\n'
open(OUT + 'VectorsPowi.lean', 'w').write(s)
print(len(rows), len(parts))
