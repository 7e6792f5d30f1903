#!/usr/bin/env python3
"""Runs seeded bugs against the theorems. Usage: seed.py MUTANTS.json

Each mutant: {"id", "file", "def", "old", "new", "edit", "breaks": ["C01", ...], "claim"}. For each one, a fresh copy of
/verif/lean in /tmp/scratch gets the edit; the proofs that no longer go through are replaced by `sorry`, examples
that no longer hold are deleted, until the copy builds. The theorems of MANIFEST.json that then depend on `sorryAx` are those that
fail. One line per mutant is appended to /tmp/seed_results.jsonl."""
import json, re, shutil, subprocess, sys, os
SRC, DST = os.environ.get('PRISTINE', '/verif/lean'), os.environ.get('SCRATCH', '/tmp/scratch') + '/lean'
START = re.compile(r'^(?:@\[[^\]]*\]\s*)?(?:private\s+|protected\s+|noncomputable\s+)*(theorem|lemma|def|example|instance|abbrev|structure|inductive|mutual|end|namespace|open|section|set_option|/-|#)')
manifest = json.load(open('/verif/MANIFEST.json'))
# ONLY: the theorems of a part of the project, for a copy (PRISTINE) whose Verif.lean imports that part only
prop_of = {t: c['property'] for c in manifest['claims'] for t in c['theorems'] if t.startswith(tuple(os.environ.get('ONLY', '').split(',')))}

def decl_at(lines, n):
    """start and end (exclusive) of the declaration around line n (0-based), and its kind"""
    i = n
    if lines[i].startswith('/--'):
        while not re.match(r'(@\[|theorem|lemma|def|example|instance|abbrev|structure|inductive)', lines[i]): i += 1
    while i >= 0:
        m = START.match(lines[i])
        if m and m[1] in ('theorem', 'lemma', 'def', 'example', 'instance', 'abbrev', 'structure', 'inductive'): break
        i -= 1
    j = i + 1
    while j < len(lines) and not START.match(lines[j]): j += 1
    return i, j, START.match(lines[i])[1]

def sorry(text):
    depth = 0
    for k, c in enumerate(text):
        if c in '([{⟨': depth += 1
        elif c in ')]}⟩': depth -= 1
        elif depth == 0 and text.startswith(':=', k) and re.search(r'\blet \S+( : [^=]*)? $', text[:k]): continue
        elif depth == 0 and text.startswith(':=', k): return text[:k] + ':= by sorry\n\n'
        elif depth == 0 and text.startswith(' where\n', k): return text[:k] + ' := by sorry\n\n'
        elif depth == 0 and text.startswith('\n  | ', k): return text[:k] + ' := by sorry\n\n'
    return None

def run(m):
    shutil.rmtree(DST, ignore_errors=True)
    os.makedirs(os.path.dirname(DST), exist_ok=True)
    shutil.copytree(SRC, DST, symlinks=True)
    p = f'{DST}/Verif/{m["file"]}'
    s = open(p).read()
    if s.count(m['old']) != 1: return {'id': m['id'], 'status': 'BAD-EDIT', 'count': s.count(m['old'])}
    open(p, 'w').write(s.replace(m['old'], m['new']))
    failed, broken_defs = [], []
    for rnd in range(40):
        r = subprocess.run(['timeout', '1500', 'lake', 'build'], cwd=DST, capture_output=True, text=True)
        if r.returncode == 0: break
        errs = set(re.findall(r'^error: (Verif/\S+\.lean):(\d+):\d+', r.stdout + r.stderr, re.M))
        if not errs: return {'id': m['id'], 'status': 'BUILD', 'out': (r.stdout + r.stderr)[-2000:]}
        byfile = {}
        for f, n in errs: byfile.setdefault(f, set()).add(int(n) - 1)
        for f, ns in byfile.items():
            lines = open(f'{DST}/{f}').read().split('\n')
            spans = sorted({decl_at(lines, n) for n in ns}, reverse=True)
            for i, j, kind in spans:
                text = '\n'.join(lines[i:j])
                name = text.split()[1] if kind != 'example' else ''
                mm = re.match(r'.*?(?:theorem|lemma|def|instance|abbrev|structure|inductive)\s+(\S+)', text, re.S)
                if kind == 'example':
                    failed.append(f'{f}:{i+1} example')
                    if lines[i-1].rstrip().endswith('-/'):
                        while not lines[i].startswith('/-'): i -= 1
                    lines[i:j] = ['']
                elif kind in ('theorem', 'lemma'):
                    t = sorry(text)
                    if t is None or ':= by sorry' in text: return {'id': m['id'], 'status': 'CANT-REPAIR', 'decl': mm[1], 'out': (r.stdout+r.stderr)[-1500:]}
                    failed.append(mm[1]); lines[i:j] = t.split('\n')
                else:
                    broken_defs.append(mm[1] if mm else text[:60])
            open(f'{DST}/{f}', 'w').write('\n'.join(lines))
        if broken_defs: return {'id': m['id'], 'status': 'DEF-BROKEN', 'defs': broken_defs, 'failed': failed, 'out': (r.stdout+r.stderr)[-1500:]}
    open(f'{DST}/Ax.lean', 'w').write('import Verif\n' + ''.join(f'#print axioms {n}\n' for n in prop_of))
    r = subprocess.run(['lake', 'env', 'lean', 'Ax.lean'], cwd=DST, capture_output=True, text=True)
    txt = re.sub(r'\n\s+', ' ', r.stdout)
    bad = re.findall(r"^'(.*)' depends on axioms: \[.*sorryAx.*\]$", txt, re.M)
    missing = [b for b in m['breaks'] if not any(prop_of[t] == b for t in bad)]
    return {'id': m['id'], 'status': 'SURVIVED' if not failed else ('MISSED' if missing else 'caught'), 'missed': missing,
            'failed_claims': bad, 'failed_decls': failed}

for m in json.load(open(sys.argv[1])):
    if len(sys.argv) > 2 and m['id'] not in sys.argv[2:]: continue
    try: r = run(m)
    except Exception as e: r = {'id': m['id'], 'status': 'ERROR', 'out': repr(e)}
    open('/tmp/seed_results.jsonl', 'a').write(json.dumps(r | {'mutant': m}) + '\n')
    print(m['id'], r['status'], r.get('missed', ''), len(r.get('failed_claims', [])), len(r.get('failed_decls', [])), r.get('count', ''), r.get('defs', ''), flush=True)
