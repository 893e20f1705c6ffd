#!/usr/bin/env python3
"""Write AXIOMS.md: the axioms each theorem of MANIFEST.json depends on.  Run after `lake build`."""
import json
import os
import re
import subprocess
import tempfile

ROOT = os.path.join(os.path.dirname(os.path.abspath(__file__)), '..')


def main():
    names = [t for c in json.load(open(os.path.join(ROOT, 'MANIFEST.json')))['claims'] for t in c['theorems']]
    with tempfile.NamedTemporaryFile('w', suffix='.lean', delete=False) as f:
        f.write('import Verif\n' + ''.join('#print axioms %s\n' % t for t in names))
    out = subprocess.run(['lake', 'env', 'lean', f.name], cwd=os.path.join(ROOT, 'lean'), capture_output=True,
                         text=True, check=True).stdout
    os.unlink(f.name)
    groups = {}
    for line in re.sub(r'\n\s+', ' ', out).strip().split('\n'):
        m = re.match(r"'(.*)' (?:depends on axioms: \[(.*)\]|does not depend on any axioms)", line)
        groups.setdefault(m.group(2) or 'no axioms', []).append(m.group(1))
    with open(os.path.join(ROOT, 'AXIOMS.md'), 'w') as f:
        f.write('# Axioms\n\nThe axioms each theorem of MANIFEST.json depends on, as printed by `#print axioms`.\n'
                'Generated by tools/gen_axioms.py.\n')
        for k in sorted(groups):
            f.write('\n## %s\n\n' % k)
            for t in groups[k]:
                f.write('* `%s`\n' % t)


main()
