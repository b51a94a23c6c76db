"""Write AXIOMS.md: the axioms each theorem of MANIFEST.json depends on, as Lean prints them."""
import json
import os
import re
import subprocess
import tempfile

ROOT = os.path.join(os.path.dirname(os.path.abspath(__file__)), '..')


def main():
    claims = json.load(open(os.path.join(ROOT, 'MANIFEST.json')))['claims']
    with tempfile.NamedTemporaryFile('w', suffix='.lean', delete=False) as f:
        f.write('import Verif\n')
        for c in claims:
            for t in c['theorems']:
                f.write('#print axioms %s\n' % t)
    out = subprocess.run(['lake', 'env', 'lean', f.name], cwd=os.path.join(ROOT, 'lean'), capture_output=True, text=True).stdout
    os.unlink(f.name)
    ax = {}
    for m in re.finditer(r"'([^']+)' (depends on axioms: \[([^\]]*)\]|does not depend on any axioms)", out):
        ax[m.group(1)] = re.sub(r'\s+', ' ', m.group(3)) if m.group(3) else 'none'
    with open(os.path.join(ROOT, 'AXIOMS.md'), 'w') as g:
        g.write('# Axioms of the theorems\n\nOutput of `#print axioms`, written by `tools/write_axioms.py`.\n\n')
        g.write('| property | theorem | axioms |\n|---|---|---|\n')
        for c in claims:
            for t in c['theorems']:
                g.write('| %s | `%s` | %s |\n' % (c['property'], t, ax[t]))


main()
