#!/usr/bin/env python3
"""Writes lean/Verif/Data/*.lean from the tables in /repo/Tables.

tools/tables-check.sh renders the texts from the Lean modules again and compares them with the files byte by
byte."""
import re, sys
SRC = '/repo/Tables/'
OUT = '/verif/lean/Verif/Data/'

def tok(s):
    m = re.fullmatch(r'(-?)(\d+)(?:(\.)(\d*))?(?:[eE](-)(\d+))?', s)
    assert m, s
    neg, i, pt, fr, es, e = m.groups()
    mant = int(i + (fr or ''))
    if len(i) == 1 and not neg:
        if pt is None and e is None: return f'n {mant}'
        if pt and e is None: return f'f {len(fr)} {mant}'
        if pt and e and len(e) == 2 and 'E' not in s: return f'x {len(fr)} {mant} {int(e)}'
    if len(i) == 1 and neg and pt and e is None: return f'g {len(fr)} {mant}'
    return "⟨%s, %d, %d, %s, %s, '%s'⟩" % ('true' if neg else 'false', len(i), mant,
        'none' if pt is None else f'some {len(fr)}', 'none' if e is None else f'some ({len(e)}, {int(e)})',
        'E' if 'E' in s else 'e')

def wrap(items, ind='  '):
    lines, cur = [], ind
    for k, it in enumerate(items):
        it = it + (', ' if k + 1 < len(items) else ']')
        if len(cur) + len(it) > 108:
            lines.append(cur.rstrip()); cur = ind
        cur += it
    lines.append(cur.rstrip())
    return '\n'.join(lines)

def tlist(ts):
    return '[\n' + wrap([tok(t) for t in ts], '  ')

def head(what):
    return f'''import Verif.Data.Tok

set_option autoImplicit false

/-! Generated by `tools/tables.py` from `Tables/{what}` in the repository. -/

namespace QED
namespace Shipped

'''

END = '''
end Shipped
end QED
'''

def write(name, body):
    open(OUT + name + '.lean', 'w').write(body)

def square(name, file, lname):
    lines = [l for l in open(SRC + file).read().split('\n') if l.strip()]
    rows = [l.split() for l in lines[1:]]
    assert all(len(r) == len(rows[0]) for r in rows)
    out = head(file)
    for i, r in enumerate(rows):
        out += f'/-- Row {i} of `{file}`. -/\ndef {lname}{i} : List Tok := {tlist(r)}\n\n'
    out += f'/-- The rows of `{file}`. -/\ndef {lname}Rows : List (List Tok) := [\n'
    out += wrap([f'{lname}{i}' for i in range(len(rows))]) + '\n'
    write(name, out + END)

def pairs(name, file, lname):
    ts = open(SRC + file).read().split()[1:]
    ps = list(zip(ts[::2], ts[1::2]))
    out = head(file)
    chunks = [ps[i:i + 100] for i in range(0, len(ps), 100)]
    for i, c in enumerate(chunks):
        items = [f'({tok(a)}, {tok(b)})' for a, b in c]
        out += f'/-- Pairs of `{file}` from number {100 * i}. -/\ndef {lname}{i} : List (Tok × Tok) := [\n'
        out += wrap(items) + '\n\n'
    out += f'/-- The pairs of `{file}`. -/\ndef {lname}Pairs : List (Tok × Tok) :=\n  '
    out += ' ++\n  '.join(f'{lname}{i}' for i in range(len(chunks))) + '\n'
    write(name, out + END)

def column(name, file, lname):
    ts = open(SRC + file).read().split()
    write(name, head(file) + f'/-- The numbers of `{file}`. -/\ndef {lname} : List Tok := {tlist(ts)}\n' + END)

square('ESplit', 'e_split.table', 'split')
square('Ksi', 'ksi_sokolov.table', 'ksi')
pairs('HSokolov', 'hsokolov.table', 'h')
pairs('PairProd', 'pairprod.table', 'rate')
column('ChiMin', 'chimin.table', 'chiMin')
column('Epsilon', 'epsilon.table', 'epsilon')
column('LogChi', 'log_chi.table', 'logChi')
