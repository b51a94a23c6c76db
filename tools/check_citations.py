#!/usr/bin/env python3
"""Checks the citations of Go code in the Lean files: the file exists and has the lines, and where a name in backquotes follows
(``client.go:32-37 `NewClient` ``), it occurs in them (for a method, the part after the last dot)."""
import glob
import os
import re
import sys

REPO = sys.argv[1] if len(sys.argv) > 1 else '/repo'
HERE = os.path.dirname(os.path.dirname(os.path.abspath(__file__)))
cache = {}


def lines(f):
    if f not in cache:
        p = os.path.join(REPO, f)
        cache[f] = open(p).read().split('\n') if os.path.exists(p) else None
    return cache[f]


n = bad = 0
for path in sorted(glob.glob(os.path.join(HERE, 'lean/Verif/**/*.lean'), recursive=True)):
    text = open(path).read()
    for m in re.finditer(r'([\w./]+\.go):((?:\d+(?:-\d+)?(?:, )?)+)(?: `([^`]+)`)?', text):
        n += 1
        src = lines(m[1])
        where = '%s:%d' % (os.path.relpath(path, HERE), text.count('\n', 0, m.start()) + 1)
        if src is None:
            bad += 1
            print('%s: no file %s' % (where, m[1]))
            continue
        body = ''
        for r in re.findall(r'(\d+)(?:-(\d+))?', m[2]):
            a, b = int(r[0]), int(r[1] or r[0])
            if not (1 <= a <= b <= len(src)):
                bad += 1
                print('%s: no lines %s in %s' % (where, r, m[1]))
            body += '\n'.join(src[a - 1:b]) + '\n'
        if m[3]:
            name = m[3].split(' := ')[0]
            last = re.findall(r'\w+', name)
            key = name if name in body else (last[-1] if last else name)
            if name.startswith('type '):
                key = last[1]
            if key not in body:
                bad += 1
                print('%s: %s not at %s:%s' % (where, m[3], m[1], m[2]))
print('%d citations, %d wrong' % (n, bad))
sys.exit(bad != 0)
