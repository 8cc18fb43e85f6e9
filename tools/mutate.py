#!/usr/bin/env python3
"""Mutation testing of the model.

Reads tools/mutations.jsonl, one mutation per line:
  {"id", "file", "old", "new", "definition", "edit", "claim"}
Each mutation not yet in seeded/LOG.jsonl is applied to a scratch copy of lean/, which is then built.
Declarations whose proofs break are replaced by `sorry` in the scratch copy and the build is repeated,
so that all broken proofs are found. Only the modules with theorems of the claim are built, and what they import. The property theorems whose proofs then rest on `sorry` are logged. A mutation whose claim has no failing theorem is reported as SURVIVED.
"""
import json, os, re, subprocess, sys, shutil

ROOT = '/verif'
SNAP = '/tmp/mut/snap'  # the last commit
SCRATCH = '/tmp/mut/lean'
LOG = f'{ROOT}/seeded/LOG.jsonl'

DEPS = r'''
open Lean
def isProp (n : Name) : Bool :=
  match n with
  | .str (.str .anonymous "QED") s =>
    s.length > 3 && s.startsWith "C" && (s.drop 1 |>.take 2).all Char.isDigit
  | _ => false
run_cmd do
  let env ← getEnv
  for (n, _) in env.constants.map₁.toList do
    if isProp n then
      if (← collectAxioms n).contains ``sorryAx then IO.println s!"BROKEN {n}"
'''

DECL = re.compile(r'^(?:@\[[^\]]*\]\s*)?(?:private |protected |noncomputable )*'
                  r'(theorem|lemma|example|def|instance|structure|inductive|abbrev)\b\s*([^\s:({\[]*)')

def targets(claims):
    """The modules with theorems of the claims. Only these and what they import are built."""
    out = []
    for f in sorted(os.listdir(f'{SNAP}/lean/Verif/Props')):
        text = open(f'{SNAP}/lean/Verif/Props/{f}').read()
        if any(re.search(rf'^theorem {c}_', text, re.M) for c in claims):
            out.append('Verif.Props.' + f[:-5])
    return out

def broken(mods):
    open('/tmp/mut/Deps.lean', 'w').write('import Lean.Elab.Command\n' + ''.join(f'import {m}\n' for m in mods) + DEPS)
    out = subprocess.run(['lake', 'env', 'lean', '/tmp/mut/Deps.lean'], cwd=SCRATCH,
                         capture_output=True, text=True).stdout
    return sorted(l.split()[1] for l in out.splitlines() if l.startswith('BROKEN '))

def decl_at(lines, i):
    """Index of the line that starts the declaration containing line i."""
    while i >= 0 and not DECL.match(lines[i]):
        i -= 1
    return i

def decl_end(lines, i):
    j = i + 1
    while j < len(lines):
        l = lines[j]
        if l and not l[0].isspace() and not l.startswith('|') and not l.startswith(')') \
                and not l.startswith('where') and not l.startswith('termination_by') \
                and not l.startswith('decreasing_by'):
            break
        j += 1
    return j

def stub(text):
    depth = 0
    i = 0
    line = ''  # the part of the current line outside brackets
    while i < len(text) - 1:
        c = text[i]
        if c == "'" and text[i + 2:i + 3] == "'":  # a character
            i += 3
            continue
        if c == '\n':
            line = ''
        elif depth == 0:
            line += c
        if c in '([{⟨':
            depth += 1
        elif c in ')]}⟩':
            depth -= 1
        elif depth == 0 and text.startswith(':=', i) and not re.search(r'\b(let|have)\s', line):
            return text[:i] + ':= sorry\n'
        elif depth == 0 and text.startswith(('\n  |', ' where\n'), i):
            return text[:i] + ' := sorry\n'
        i += 1
    return None

def build(mods):
    p = subprocess.run(['lake', 'build'] + mods, cwd=SCRATCH, capture_output=True, text=True)
    errs = {}
    for m in re.finditer(r'^error: (Verif/[\w/]+\.lean):(\d+):\d+: (.*)$', p.stdout, re.M):
        errs.setdefault(m.group(1), []).append((int(m.group(2)), m.group(3)))
    return p.returncode, errs, p.stdout

def run(mut):
    mods = targets(re.findall(r'C\d+', mut['claim']))
    src = f'{SNAP}/lean/{mut["file"]}'
    text = open(src).read()
    assert text.count(mut['old']) == 1, (mut['id'], 'old text occurs %d times' % text.count(mut['old']))
    shutil.rmtree(f'{SCRATCH}/Verif')
    shutil.copytree(f'{SNAP}/lean/Verif', f'{SCRATCH}/Verif')
    shutil.copy(f'{SNAP}/lean/Verif.lean', f'{SCRATCH}/Verif.lean')
    open(f'{SCRATCH}/{mut["file"]}', 'w').write(text.replace(mut['old'], mut['new']))
    failed, bad = [], []
    for _ in range(12):
        code, errs, out = build(mods)
        if code == 0:
            break
        if not errs:
            bad.append('no error lines: ' + out[-300:])
            break
        for f, es in errs.items():
            path = f'{SCRATCH}/{f}'
            lines = open(path).read().split('\n')
            starts = sorted({decl_at(lines, n - 1) for n, _ in es}, reverse=True)
            for s in starts:
                m = DECL.match(lines[s])
                e = decl_end(lines, s)
                body = '\n'.join(lines[s:e])
                name = m.group(2)
                if m.group(1) in ('theorem', 'lemma', 'example'):
                    failed.append(name or f'example in {f}')
                    st = stub(body) if m.group(1) != 'example' else '-- example removed\n'
                    if m.group(1) == 'example':
                        # drop the doc comment before the example
                        d = s - 1
                        if d >= 0 and lines[d].rstrip().endswith('-/'):
                            while d >= 0 and not lines[d].startswith('/--'):
                                d -= 1
                            s = d
                        if s > 0 and lines[s - 1].startswith('open ') and lines[s - 1].rstrip().endswith(' in'):
                            s -= 1
                    if st is None:
                        bad.append('cannot stub ' + name)
                        st = body
                    lines[s:e] = st.split('\n')
                else:
                    bad.append(f'{m.group(1)} {name}: {es[0][1]}')
            open(path, 'w').write('\n'.join(lines))
        if bad:
            break
    props = broken(mods) if code == 0 else []
    return failed, props, bad

def main():
    only = set(sys.argv[1:])
    done = set()
    if os.path.exists(LOG):
        done = {json.loads(l)['id'] for l in open(LOG) if l.strip()}
    muts = [json.loads(l) for l in open(f'{ROOT}/tools/mutations.jsonl') if l.strip()]
    shutil.rmtree(SNAP, ignore_errors=True)
    os.makedirs(SNAP)
    subprocess.run(f'git -C {ROOT} archive HEAD lean | tar x -C {SNAP}', shell=True, check=True)
    if not os.path.isdir(SCRATCH):
        shutil.copytree(f'{ROOT}/lean', SCRATCH, symlinks=True)
    if only:  # in the order given
        muts.sort(key=lambda m: sys.argv.index(m['id']) if m['id'] in only else 0)
    for m in muts:
        if m['id'] in done or (only and m['id'] not in only):
            continue
        failed, props, bad = run(m)
        claims = re.findall(r'C\d+', m['claim'])
        if bad:
            props = sorted(set(props) | {'QED.' + x for x in failed if re.match(r'C\d+_', x)})
        hit = [p for p in props if any(p.startswith('QED.' + c + '_') for c in claims)]
        status = 'invalid' if bad and not failed else 'killed' if hit else 'SURVIVED'
        print(m['id'], status, 'failed:', failed, 'props:', props[:8], len(props), 'bad:', bad, flush=True)
        if status == 'invalid':
            continue
        entry = {'id': m['id'], 'definition': m['definition'], 'edit': m['edit'], 'claim': m['claim'],
                 'theorems_failed': props, 'lemmas_failed': [x for x in failed if not re.match(r'C\d+', x)],
                 'killed': bool(hit), 'theorems_tightened': m.get('tightened', [])}
        if bad:
            entry['note'] = '; '.join(bad)
        if status == 'SURVIVED' and not os.environ.get('LOG_SURVIVORS'):
            continue
        with open(LOG, 'a') as f:
            f.write(json.dumps(entry) + '\n')

main()
