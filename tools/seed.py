#!/usr/bin/env python3
"""Try wrong programs against the theorems, in a scratch copy of the Lean project.

usage: seed.py MUTATIONS.json [name ...]

Each mutation edits one definition of the model, or with "more" several that belong together.  The scratch
copy is rebuilt (with "targets": only these modules and what they import, and only their theorems are tried); a theorem whose proof no
longer goes through has its proof replaced by `sorry` (in the scratch copy only) so that the rest can be
tried; a declaration that no longer elaborates at all is removed.  Those of the claimed theorems that then
rest on `sorry`, or are gone, are the ones the edit broke.  One line per mutation is appended to
/verif/seeded/LOG.jsonl, unless the copy could not be built to the end or none of the claimed theorems was in it:
then nothing was tried.

"failed" says that a proof no longer goes through.  That a theorem has become false is stronger: a proof can also
break because it follows the text of the definition ("failed_other" has many such).
"""
import glob, json, os, re, shutil, subprocess, sys, time

SRC = os.environ.get('SEED_BASE', '/verif/lean')
WORK = os.environ.get('SEED_DIR', '/tmp/seed/lean')
START = re.compile(r'^(theorem|lemma|def|abbrev|structure|inductive|instance|example|private|protected|noncomputable|@\[|/--|/-!|set_option|namespace|end\b|section|open|variable|attribute|local|import|deriving|termination_by|decreasing_by|mutual)')


def sync():
    os.makedirs(WORK, exist_ok=True)
    subprocess.run(['rsync', '-a', '--delete', SRC + '/', WORK + '/'], check=True) if shutil.which('rsync') else \
        (shutil.rmtree(WORK), shutil.copytree(SRC, WORK))


    # a proof search that runs away is a failure of that theorem, not of the machine
    with open(os.path.join(WORK, 'lakefile.toml'), 'a') as f:
        f.write('weakLeanArgs = ["-M6000"]\n')


def blocks(lines):
    """Start lines of top level items, as (first line, last line) half open."""
    starts = [i for i, l in enumerate(lines) if START.match(l)]
    starts.append(len(lines))
    return starts


def item(lines, ln):
    """The theorem, example or definition around line ln (0-based): (start, end)."""
    starts = blocks(lines)
    s = max([x for x in starts if x <= ln], default=0)
    # walk back over modifiers to the declaration keyword is not needed: s is the keyword line or a modifier
    e = min([x for x in starts if x > ln])
    # a `set_option … in`, attribute or docstring line belongs to the next item
    while re.match(r'^(set_option .* in|@\[[^\]]*\]\s*$|/--)', lines[s]) and e < len(lines):
        ns = e
        if lines[s].startswith('/--') or True:
            s = ns
        e = min([x for x in starts if x > s])
    while e < len(lines) and re.match(r'^(termination_by|decreasing_by)', lines[e]):
        e = min([x for x in starts if x > e])
    return s, e


def cut(text):
    """Replace the proof in the text of a theorem by sorry; None if there is no proof to be found."""
    depth = 0
    i = 0
    while i < len(text):
        c = text[i]
        if c in '([{⟨':
            depth += 1
        elif c in ')]}⟩':
            depth -= 1
        elif depth == 0 and text.startswith(':=', i):
            pre = text[:i]
            if not re.search(r'(let|have)\s+[\w₀-₉\']+\s*(:[^=\n]*)?$', pre):
                return pre + ':= sorry\n\n'
        elif depth == 0 and text.startswith('\n  | ', i):
            return text[:i] + ' := sorry\n\n'
        i += 1
    return None


def name_of(text):
    m = re.search(r'(theorem|lemma|def|abbrev|instance|structure|inductive)\s+([^\s:({\[]+)', text)
    return m.group(2) if m else 'example'


def build(targets=()):
    try:
        r = subprocess.run(['lake', 'build', *targets], cwd=WORK, capture_output=True, text=True, timeout=3600)
        if 'failed to create thread' in r.stdout + r.stderr:
            # short of memory for a moment, nothing to do with the edit
            time.sleep(120)
            r = subprocess.run(['lake', 'build', *targets], cwd=WORK, capture_output=True, text=True, timeout=3600)
        return r.returncode, r.stdout + r.stderr
    except subprocess.TimeoutExpired as e:
        return 99, (e.stdout or b'').decode() if isinstance(e.stdout, bytes) else (e.stdout or '')


def died(p):
    """The line (0-based) of the declaration in which lean dies on file p, or None."""
    lines = open(p).read().split('\n')
    new, marks = [], []
    for i, l in enumerate(lines):
        if START.match(l) and (i == 0 or lines[i - 1].strip() == '') and not l.startswith('import'):
            new.append('#print "mark %d"' % len(marks))
            marks.append(i)
        new.append(l)
    q = os.path.join(WORK, 'Died.lean')
    open(q, 'w').write('\n'.join(new))
    with open(os.path.join(WORK, 'died.txt'), 'w') as g:
        r = subprocess.run(['stdbuf', '-oL', 'lake', 'env', 'lean', '-M6000', '-DElab.async=false', 'Died.lean'], cwd=WORK, stdout=g, stderr=g)
    ms = re.findall(r'mark (\d+)', open(os.path.join(WORK, 'died.txt')).read())
    if r.returncode in (0, 1) or not ms:
        return None
    return marks[int(ms[-1])]


def patch(out, failed, removed):
    errs = {}
    for m in re.finditer(r'^error: (Verif/[^:]+\.lean):(\d+):(\d+): (.*)$', out, re.M):
        errs.setdefault(m.group(1), set()).add(int(m.group(2)) - 1)
    for f, lns in errs.items():
        p = os.path.join(WORK, f)
        lines = open(p).read().split('\n')
        done = set()
        edits = []
        for ln in sorted(lns):
            s, e = item(lines, min(ln, len(lines) - 1))
            if s in done:
                continue
            done.add(s)
            text = '\n'.join(lines[s:e]) + '\n'
            nm = name_of(text)
            kind = re.search(r'\b(theorem|lemma|def|abbrev|instance|structure|inductive|example)\b', text)
            kind = kind.group(1) if kind else 'example'
            if kind in ('theorem', 'lemma') and ':= sorry' not in text and cut(text):
                edits.append((s, e, cut(text)))
                failed.append((f, nm))
            else:
                # remove it, with its docstring and modifiers
                b = s
                while b > 0 and (re.match(r'^(set_option .* in|@\[)', lines[b - 1])):
                    b -= 1
                if b > 0 and lines[b - 1].rstrip().endswith('-/'):
                    while b > 0 and not lines[b].startswith('/--'):
                        b -= 1
                edits.append((b, e, '\n'))
                removed.append((f, nm))
        for s, e, t in sorted(edits, reverse=True):
            lines[s:e] = t.rstrip('\n').split('\n') + ['']
        open(p, 'w').write('\n'.join(lines))
    # a module killed for lack of memory: find the declaration it died in
    for m in re.finditer(r'^✖ .* Building (Verif\.\S+)', out, re.M):
        f = m.group(1).replace('.', '/') + '.lean'
        p = os.path.join(WORK, f)
        if f in errs or not os.path.exists(p):
            continue
        ln = died(p)
        if ln is not None:
            errs[f] = set()
            lines = open(p).read().split('\n')
            s, e = item(lines, ln)
            text = '\n'.join(lines[s:e]) + '\n'
            if re.match(r'.*\b(theorem|lemma)\b', text, re.S) and ':= sorry' not in text and cut(text):
                lines[s:e] = cut(text).rstrip('\n').split('\n') + ['']
                failed.append((f, name_of(text)))
            else:
                lines[s:e] = ['']
                removed.append((f, name_of(text)))
            open(p, 'w').write('\n'.join(lines))
    return bool(errs)


AX = '''import Lean
%s
open Lean
#eval show CoreM Unit from do
  for s in %s do
    let n := s.toName
    match (← getEnv).find? n with
    | none => IO.println s!"GONE {s}"
    | some _ =>
      let ax ← collectAxioms n
      if ax.contains ``sorryAx then IO.println s!"SORRY {s}" else IO.println s!"HOLDS {s}"
'''


def run(mut):
    sync()
    targets = mut.get('targets', [])
    for e in [mut] + mut.get('more', []):
        p = os.path.join(WORK, e['file'])
        t = open(p).read()
        if t.count(e['old']) < 1:
            raise SystemExit('%s: text to edit not found in %s' % (mut['name'], e['file']))
        t = t.replace(e['old'], e['new'], e.get('count', 1))
        open(p, 'w').write(t)
    failed, removed, msg = [], [], ''
    for _ in range(40):
        code, out = build(targets)
        if code == 0:
            break
        if not patch(out, failed, removed):
            msg = out[-600:]
            break
    manifest = json.load(open('/verif/MANIFEST.json'))
    files = glob.glob(SRC + '/Verif/Props/*.lean')
    if targets:
        files = [f for f in files if 'Verif.Props.' + os.path.basename(f)[:-5] in targets]
    have = set(re.findall(r'^theorem (C\d\d\w*)', ''.join(open(f).read() for f in files), re.M))
    thms = [x for c in manifest['claims'] for x in c['theorems'] if x.replace('Kafka.Props.', '') in have]
    st = {}
    if code == 0:
        open(os.path.join(WORK, 'Ax.lean'), 'w').write(AX % ('\n'.join('import ' + x for x in targets or ['Verif']), '[' + ', '.join('"%s"' % x for x in thms) + ']'))
        r = subprocess.run(['lake', 'env', 'lean', 'Ax.lean'], cwd=WORK, capture_output=True, text=True)
        for m in re.finditer(r'^(GONE|SORRY|HOLDS) (\S+)$', r.stdout, re.M):
            st[m.group(2)] = m.group(1)
        if not st:
            msg = (r.stdout + r.stderr)[-600:]
    broke = [x.replace('Kafka.Props.', '') for x in thms if st.get(x) in ('GONE', 'SORRY')]
    named = lambda c, x: c['property'] in mut['claims'] or x.replace('Kafka.Props.', '') in mut['claims']
    mine = [x.replace('Kafka.Props.', '') for c in manifest['claims'] for x in c['theorems'] if named(c, x)]
    hit = [x for x in mine if x in broke]
    if not st:
        return {'name': mut['name'], 'invalid': 'the scratch copy was not built: ' + msg}
    if not any(x in st for c in manifest['claims'] for x in c['theorems'] if named(c, x)):
        return {'name': mut['name'], 'invalid': 'no theorem of %s is in %s' % (', '.join(mut['claims']), targets)}
    return {'name': mut['name'], 'definition': mut['definition'], 'file': mut['file'], 'edit': mut['edit'],
            'claim': ', '.join(mut['claims']) + ': ' + mut['breaks'],
            'failed': hit, 'failed_other': [x for x in broke if x not in hit],
            'lemmas_failed': len(failed), 'removed': [x[1] for x in removed],
            **({'tried': targets} if targets else {}), 'survived': not hit, 'tightened': [], 'message': msg}


def main():
    muts = json.load(open(sys.argv[1]))
    only = set(sys.argv[2:])
    for m in muts:
        if only and m['name'] not in only:
            continue
        r = run(m)
        if 'invalid' in r:
            # nothing was tried: not a result, and not logged
            print(json.dumps(r), flush=True)
            continue
        if not r['message']:
            del r['message']
        print(json.dumps({k: r[k] for k in ('name', 'failed', 'survived', 'lemmas_failed', 'removed') if k in r}), r.get('message', ''), flush=True)
        out = os.environ.get('SEED_LOG', '/verif/seeded/LOG.jsonl')
        with open(out, 'a') as f:
            f.write(json.dumps(r, ensure_ascii=False) + '\n')


if __name__ == '__main__':
    main()
