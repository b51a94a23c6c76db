#!/usr/bin/env python3
"""Show that theorems are false, not only unproved, of wrong programs.

usage: refute.py [name ...]

seed.py says which proofs no longer go through when the model is edited.  A proof can break although what it proves is
still true, so a weak theorem could pass that test.  Here every entry of /verif/seeded/refutations.json names a
mutation of /verif/seeded/mutations.json, a theorem, and a proof of

    theorem refuted (h : type_of% @THEOREM) : False

which has to go through in the scratch copy with the edit made, and may depend on nothing but propext,
Classical.choice and Quot.sound: from the statement alone, as it reads of the wrong program, a contradiction follows.
The scratch copy is a skeleton, in which all proofs are left out (statements and definitions are kept), so that it
builds whatever the edit.  Results go into the field "refuted" of the line of that mutation in
/verif/seeded/LOG.jsonl.
"""
import glob, json, os, re, shutil, subprocess, sys
sys.path.insert(0, os.path.dirname(os.path.abspath(__file__)))
os.environ.setdefault('SEED_BASE', '/tmp/skel/base')
os.environ.setdefault('SEED_DIR', '/tmp/skel/lean')
import seed

BASE = os.environ['SEED_BASE']
WORK = os.environ['SEED_DIR']
LOG = '/verif/seeded/LOG.jsonl'

PRELUDE = '''
theorem isValid (raw : List Byte) (n o : Int) (h : 0 ≤ o ∧ o ≤ n ∧ n ≤ raw.length ∧ raw.length < 2 ^ 62) :
    Decoder.Valid ⟨raw, n, o⟩ := ⟨h.1, h.2.1, h.2.2.1, h.2.2.2⟩
def ifOk {α β : Type} (f : α → β) (b : β) : Res α → β
  | .ok a _ => f a
  | _ => b
def isPanic {α : Type} : Res α → Bool
  | .panic => true
  | _ => false
def isErr {α : Type} : Res α → Bool
  | .err _ _ => true
  | _ => false
theorem reliable : Reliable (newEncoder fun _ => none) := ⟨rfl, fun _ => rfl⟩
'''


def skeleton():
    """A copy of the project without proofs, built."""
    if os.path.exists(BASE):
        shutil.rmtree(BASE)
    shutil.copytree('/verif/lean', BASE, ignore=shutil.ignore_patterns('.lake'))
    for p in glob.glob(BASE + '/Verif/**/*.lean', recursive=True):
        lines = open(p).read().split('\n')
        starts = seed.blocks(lines)
        out = lines[:starts[0]]
        for s, e in zip(starts, starts[1:]):
            text = '\n'.join(lines[s:e]) + '\n'
            if text.startswith('theorem fill_buf'):  # functions terminate because of it
                out += lines[s:e]
            elif re.match(r'(private |protected )*(theorem|lemma)\b', text):
                w = re.search(r'\s+where\n', text)
                c = text[:w.start()] + ' := sorry\n' if w else seed.cut(text)
                out += (c or text).rstrip('\n').split('\n') + ['']
            elif re.match(r'example\b', text):
                out += ['example : True := trivial', '']
            elif re.match(r'(termination_by|decreasing_by)', text):
                if not out or ':= sorry' not in '\n'.join(out[-3:]):
                    out += lines[s:e]
            else:
                out += lines[s:e]
        open(p, 'w').write('\n'.join(out))
    r = subprocess.run(['lake', 'build'], cwd=BASE, capture_output=True, text=True)
    errs = re.findall(r'^error: .*$', r.stdout + r.stderr, re.M)
    print('skeleton:', 'built' if r.returncode == 0 else errs[:20], flush=True)
    return r.returncode == 0


def edit(mut):
    for e in [mut] + mut.get('more', []):
        p = os.path.join(WORK, e['file'])
        t = open(p).read()
        if t.count(e['old']) < 1:
            raise SystemExit('%s: text to edit not found in %s' % (mut['name'], e['file']))
        open(p, 'w').write(t.replace(e['old'], e['new'], e.get('count', 1)))


def main():
    args = [a for a in sys.argv[1:] if a != '--skeleton']
    if '--skeleton' in sys.argv or not os.path.exists(BASE):
        if not skeleton():
            raise SystemExit(1)
    muts = {m['name']: m for m in json.load(open('/verif/seeded/mutations.json'))}
    refs = json.load(open('/verif/seeded/refutations.json'))
    names = []
    for r in refs:
        if r['name'] not in names and (not args or r['name'] in args):
            names.append(r['name'])
    mods = {}
    for f in glob.glob(BASE + '/Verif/Props/*.lean'):
        for t in re.findall(r'^theorem (C\d\d\w*)', open(f).read(), re.M):
            mods[t] = 'Verif.Props.' + os.path.basename(f)[:-5]
    for name in names:
        mine = [r for r in refs if r['name'] == name]
        seed.sync()
        edit(muts[name])
        targets = sorted({'Verif.Message.EncLemmas', 'Verif.Message.DecLemmas'} | {mods[r['theorem']] for r in mine} | {i for r in mine for i in r.get('imports', [])})
        removed = []
        for _ in range(10):
            code, out = seed.build(targets)
            if code == 0 or not seed.patch(out, removed, removed):
                break
        done = []
        for r in mine:
            if code != 0:
                print(name, 'not built', out[-500:], flush=True)
                break
            src = ''.join('import %s\n' % t for t in targets + r.get('std', []))
            src += 'open Kafka Kafka.Props\n%s\n' % r.get('open', '')
            src += 'set_option maxRecDepth 100000\n%s\n%s\n' % (PRELUDE, r.get('before', ''))
            src += 'theorem refuted (h : type_of%% @Kafka.Props.%s) : False := by\n' % r['theorem']
            src += '\n'.join('  ' + l for l in r['proof'].split('\n')) + '\n#print axioms refuted\n'
            open(os.path.join(WORK, 'Refuted.lean'), 'w').write(src)
            q = subprocess.run(['bash', '-c', 'timeout 600 lake env lean -M7000 Refuted.lean'], cwd=WORK, capture_output=True, text=True)
            ok = q.returncode == 0 and 'sorryAx' not in q.stdout and ("'refuted' depends on axioms" in q.stdout
                                                                     or 'does not depend on any axioms' in q.stdout)
            print(name, r['theorem'], 'refuted' if ok else 'NOT refuted: ' + (q.stdout + q.stderr)[:1500], flush=True)
            if ok:
                done.append(r['theorem'])
        if os.path.exists(LOG):
            lines = [json.loads(l) for l in open(LOG)]
            for l in lines:
                if l['name'] == name:
                    l['refuted'] = sorted(set(l.get('refuted', [])) | set(done))
            open(LOG, 'w').write(''.join(json.dumps(l, ensure_ascii=False) + '\n' for l in lines))


if __name__ == '__main__':
    main()
