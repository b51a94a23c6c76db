#!/usr/bin/env python3
"""Small mechanical edits of the model, one at a time, in a scratch copy: does any proof notice?

usage: mutate.py [--list] FILE [FILE ...]      (files relative to the Lean project, e.g. Verif/Conn/Model.lean)

For each edit the scratch copy is built until the first error.  "invalid": the edited file itself is rejected;
"noticed": the first module in which something fails; "survived": everything still builds.  What survives is
either an edit without effect or something the theorems do not say.  Results are appended to $MUT_LOG.
"""
import json, os, re, shutil, subprocess, sys, random

SRC = '/verif/lean'
WORK = os.environ.get('MUT_DIR', '/tmp/mut/lean')
LOG = os.environ.get('MUT_LOG', '/tmp/mut/log.jsonl')

SWAPS = [(r' < ', ' ≤ '), (r' ≤ ', ' < '), (r' \+ ', ' - '), (r' - ', ' + '), (r' = ', ' ≠ '), (r' ≠ ', ' = '),
         (r' == ', ' != '), (r' != ', ' == '), (r' && ', ' || '), (r' \|\| ', ' && '), (r' ∧ ', ' ∨ '), (r' ∨ ', ' ∧ '),
         (r' ≥ ', ' > '), (r' > ', ' ≥ '), (r'\btrue\b', 'false'), (r'\bfalse\b', 'true'), (r'\.take\b', '.drop'),
         (r'\.drop\b', '.take'), (r'\belems\b', 'elems.reverse'), (r'\bisSome\b', 'isNone'), (r'\bisNone\b', 'isSome'),
         (r'\bnone\b', '(some default)')]


def definitions(lines):
    """Line numbers inside definitions."""
    inside = False
    comment = False
    for i, l in enumerate(lines):
        s = l.strip()
        if comment:
            if '-/' in s:
                comment = False
            continue
        if s.startswith('/-'):
            comment = '-/' not in s
            inside = inside and l.startswith(' ')
            continue
        if re.match(r'^(def|abbrev|private def|@\[reducible\] def)\b', l):
            inside = True
        elif l and not l[0].isspace():
            inside = False
        if inside:
            yield i


def mutants(path):
    lines = open(path).read().split('\n')
    for i in definitions(lines):
        l = lines[i]
        code = l.split('--')[0]
        start = code.index(':=') if re.match(r'^(def|abbrev)', l) and ':=' in code else (len(code) if re.match(r'^(def|abbrev)', l) else 0)
        seen = set()
        def put(new, what):
            if new != l and new not in seen:
                seen.add(new)
                return [(i, l, new, what)]
            return []
        for pat, rep in SWAPS:
            for m in re.finditer(pat, code):
                if m.start() < start:
                    continue
                if pat == r' = ' and not re.search(r'\bif\b|∧|∨', code[:m.start()]):
                    continue
                yield from put(l[:m.start()] + rep + l[m.end():], f'{m.group(0).strip()} -> {rep.strip()}')
        for m in re.finditer(r'(?<![\w.])(\d+)(?![\w.])', code):
            if m.start() < start:
                continue
            yield from put(l[:m.start()] + str(int(m.group(1)) + 1) + l[m.end():], f'{m.group(1)} -> {int(m.group(1)) + 1}')
        if re.match(r'^\s+(let (mut )?(\w+) := \3\b|advance\b|remains\b|let _ ←)', l):
            yield from put('', 'line left out')
        m = re.match(r'^(\s+)let (\w+) := \2\.', lines[i])
        if m and i + 1 < len(lines) and re.match(r'^' + m.group(1) + r'let ' + m.group(2) + r' := ' + m.group(2) + r'\.', lines[i + 1]) and lines[i + 1] != l:
            yield (i, l, lines[i + 1] + '\n' + l, 'next line done first too')
        for m in re.finditer(r'(\w+) := ([^,{}]+?)(?=,| \})', code):
            if ' with ' in code[:m.start()] or code[:m.start()].rstrip().endswith(','):
                if m.start() >= start:
                    # leave out one update of a record
                    new = l[:m.start()] + l[m.end():].lstrip(', ') if l[m.end():].lstrip().startswith(',') else \
                        re.sub(r',\s*$', '', l[:m.start()]) + l[m.end():]
                    yield from put(new, f'{m.group(0)} left out')


def restore():
    shutil.rmtree(WORK, ignore_errors=True)
    subprocess.run(['cp', '-a', SRC, WORK], check=True)
    with open(os.path.join(WORK, 'lakefile.toml'), 'a') as f:
        f.write('weakLeanArgs = ["-M6000"]\n')


def build(module):
    p = subprocess.Popen(['lake', 'build'], cwd=WORK, stdout=subprocess.PIPE, stderr=subprocess.STDOUT, text=True,
                         start_new_session=True)
    out = None
    for line in p.stdout:
        m = re.match(r'error: (Verif/\S+?\.lean):(\d+)', line)
        if m:
            out = (m.group(1), int(m.group(2)))
            break
    if out:
        os.killpg(p.pid, 9)
    p.wait()
    subprocess.run(['pkill', '-9', '-s', str(p.pid)])
    return out


def main():
    args = sys.argv[1:]
    only_list = args[0] == '--list'
    if only_list:
        args = args[1:]
    done = set()
    if os.path.exists(LOG):
        done = {(j['file'], j['line'], j['new']) for j in map(json.loads, open(LOG))}
    for f in args:
        src = os.path.join(SRC, f)
        text = open(src).read().split('\n')
        for i, old, new, what in mutants(src):
            if (f, old, new) in done:
                continue
            if only_list:
                print(f'{f}:{i + 1}: {what}\n  {old}\n  {new}')
                continue
            restore()
            edited = text[:i] + new.split('\n') + text[i + 1:]
            open(os.path.join(WORK, f), 'w').write('\n'.join(edited))
            own = subprocess.run(['lake', 'env', 'lean', '-M6000', f], cwd=WORK, capture_output=True, text=True)
            if own.returncode:
                r = 'invalid'
            else:
                e = build(f)
                r = 'survived' if e is None else f'noticed {e[0]}:{e[1]}'
            with open(LOG, 'a') as g:
                g.write(json.dumps(dict(file=f, at=i + 1, what=what, line=old, new=new, result=r), ensure_ascii=False) + '\n')
            print(f'{f}:{i + 1} {what}: {r}', flush=True)


main()
