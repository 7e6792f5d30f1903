#!/usr/bin/env python3
"""Makes small changes to definitions of the model, one at a time, and looks whether any theorem notices.

mutate.py list SEED PER_DEF > MUTANTS.json    chooses changes at random, among the definitions whose comment cites the source
mutate.py run MUTANTS.json                    builds a copy with each; stops at the first error. env PRISTINE, SCRATCH as for seed.py

A change is "noticed" if a theorem or an example fails, "type" if the model itself does not compile, else "unnoticed"."""
import json, os, random, re, shutil, subprocess, sys, time
SRC, DST = os.environ.get('PRISTINE', '/verif/lean'), os.environ.get('SCRATCH', '/tmp/scratchm') + '/lean'
OPS = [(r' < ', ' ≤ '), (r' ≤ ', ' < '), (r' = ', ' ≠ '), (r' ≠ ', ' = '), (r' ∧ ', ' ∨ '), (r' ∨ ', ' ∧ '), (r' && ', ' || '), (r' \|\| ', ' && '),
       (r' \+ ', ' - '), (r' - ', ' + '), (r' \* ', ' + '), (r' / ', ' * '), (r' \+\+ \[[^\[\]]*\]', ''), (r'\bmin\b', 'max'), (r'\bmax\b', 'min'),
       (r'\btrue\b', 'false'), (r'\bfalse\b', 'true'), (r'(?<![\w.])(\d+)(?![\w.]|x)', lambda m: str(int(m[1]) + 1)), (r'0x([0-9a-fA-F]+)\b', lambda m: hex(int(m[1], 16) + 1)),
       (r'\btake\b', 'drop'), (r'\bdrop\b', 'take'), (r'\.none\b', '.some []'), (r'some (\w+)\b', 'none'), (r'\.map \w+', ''), (r'\.reverse\b', ''), (r'\.head\?', '.getLast?'),
       (r'ascii "([^"]{2,})"', lambda m: 'ascii "' + m[1][:-1] + '"'), (r'\.throws \.(\w+)', '.ub'), (r'\.tail\b', ''), (r'\.1\b', '.2'), (r'\.2\b', '.1'),
       (r'\bnot\b', ''), (r'¬ ?', ''), (r'!(?=\w)', ''), (r'\.all\b', '.any'), (r'\.any\b', '.all'), (r'\.fst\b', '.snd'), (r'nextReqId ', ''), (r'if (\S+) then', r'if ¬ \1 then')]

def definitions():
    for d, _, fs in sorted(os.walk(SRC + '/Verif')):
        for f in sorted(fs):
            if not f.endswith('.lean') or d.endswith('/Check'): continue
            p = os.path.join(d, f)
            lines = open(p).read().split('\n')
            i = 0
            while i < len(lines):
                if re.match(r'(def|abbrev) ', lines[i]) or re.match(r'/--.*-/ (def|abbrev) ', lines[i]):
                    j = i + 1
                    while j < len(lines) and (lines[j].startswith(' ') or lines[j] == '') and not lines[j].startswith('/-'): j += 1
                    k = i
                    while k > 0 and '/--' not in lines[k]: k -= 1
                    doc = '\n'.join(lines[k:i + 1])
                    if re.search(r'\.(cpp|h) \d+|lines? \d+|^/-- \d+', doc) and i - k < 8 and not re.search(r'namespace Spec', '\n'.join(lines[max(0, i - 400):i]).split('end Spec')[-1]):
                        yield p[len(SRC) + 7:], re.search(r'(?:def|abbrev) (\S+)', lines[i])[1], '\n'.join(lines[i:j]).rstrip()
                    i = j
                else: i += 1

def mutants(text):
    head = re.search(r':=|\n  \|', text)
    if not head: return
    out = set()
    for pat, new in OPS:
        for m in re.finditer(pat, text[head.start():]):
            a, b = head.start() + m.start(), head.start() + m.end()
            t = text[:a] + m.expand(new) + text[b:] if isinstance(new, str) else text[:a] + new(m) + text[b:]
            if pat == r' - ' and text[a - 1] == '-': continue
            out.add((t, m[0] + ' => ' + (m.expand(new) if isinstance(new, str) else new(m)) + ' in: ' + text[text.rfind('\n', 0, a) + 1:(text.find('\n', b) if text.find('\n', b) > 0 else len(text))].strip()))
    return sorted(out)

def users(cache={}):
    """How many modules are built again after a change to each module."""
    if not cache:
        imp = {}
        for d, _, fs in os.walk(SRC + '/Verif'):
            for f in fs:
                if f.endswith('.lean'):
                    p = os.path.join(d, f)
                    imp[p[len(SRC) + 1:-5]] = [x.replace('.', '/') for x in re.findall(r'^import (Verif\S+)', open(p).read(), re.M)]
        for m in imp:
            seen, todo = set(), [m]
            while todo:
                x = todo.pop()
                for y in imp:
                    if x in imp[y] and y not in seen: seen.add(y); todo.append(y)
            cache[m] = len(seen)
    return cache

def restore():
    for d, _, fs in os.walk(DST):
        e = SRC + d[len(DST):]
        for f in fs:
            a, b = os.path.join(d, f), os.path.join(e, f)
            if not os.path.exists(b): os.remove(a)
            elif os.stat(a).st_mtime_ns != os.stat(b).st_mtime_ns: shutil.copy2(b, a)
    for d, _, fs in os.walk(SRC):
        for f in fs:
            a, b = DST + d[len(SRC):] + '/' + f, os.path.join(d, f)
            if not os.path.exists(a): shutil.copy2(b, a)

if sys.argv[1] == 'list':
    rnd = random.Random(int(sys.argv[2]))
    res = []
    for f, name, text in definitions():
        ms = mutants(text) or []
        for t, e in rnd.sample(ms, min(int(sys.argv[3]), len(ms))): res.append({'file': f, 'def': name, 'old': text, 'new': t, 'edit': e})
    rnd.shuffle(res)
    res.sort(key=lambda m: users()['Verif/' + m['file'][:-5]])
    json.dump(res, sys.stdout, ensure_ascii=False, indent=0)
else:
    os.makedirs(os.path.dirname(DST), exist_ok=True)
    if not os.path.exists(DST): shutil.copytree(SRC, DST, symlinks=True)
    done = {(r['file'], r['def'], r['edit']) for r in map(json.loads, open('/tmp/mutate_results.jsonl'))} if os.path.exists('/tmp/mutate_results.jsonl') else set()
    for k, m in enumerate(json.load(open(sys.argv[2]))):
        if (m['file'], m['def'], m['edit']) in done: continue
        restore()
        p = f'{DST}/Verif/{m["file"]}'
        good = open(f'{SRC}/Verif/{m["file"]}').read()
        if good.count(m['old']) != 1: continue
        open(p, 'w').write(good.replace(m['old'], m['new']))
        start = good[:good.index(m['old'])].count('\n') + 1
        end = start + m['new'].count('\n')
        t0 = time.time()
        q = subprocess.Popen(['timeout', '2400', 'lake', 'build'], cwd=DST, stdout=subprocess.PIPE, stderr=subprocess.STDOUT, text=True, start_new_session=True)
        status, where = 'unnoticed', ''
        for l in q.stdout:
            e = re.match(r'error: (Verif/\S+\.lean):(\d+):', l)
            if e:
                own = e[1] == 'Verif/' + m['file'] and start <= int(e[2]) <= end
                status, where = ('type', '') if own else ('noticed', f'{e[1]}:{e[2]}')
                os.killpg(q.pid, 15)
                break
        q.wait()
        if status == 'unnoticed' and q.returncode != 0: status = 'timeout'
        if where:
            ls = open(DST + '/' + where.split(':')[0]).read().split('\n')
            n = int(where.split(':')[1]) - 1
            while n > 0 and not re.match(r'(theorem|lemma|example|def|instance|structure)\b', ls[n]): n -= 1
            where = where.split(':')[0] + ' ' + ' '.join(ls[n].split()[:2])
            if re.match(r'(def|instance|structure)\b', ls[n]): status = 'type'
        r = m | {'status': status, 'first_failing': where, 'seconds': round(time.time() - t0)}
        open('/tmp/mutate_results.jsonl', 'a').write(json.dumps(r, ensure_ascii=False) + '\n')
        print(k, status, m['file'], m['def'], '|', m['edit'][:150].replace('\n', ' '), '|', where, r['seconds'], flush=True)
