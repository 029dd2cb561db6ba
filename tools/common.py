#!/usr/bin/env python3
"""Check that the wrapper code of the nine field modules is the same text.

usage: common.py [repo]     (default /repo)

From each src/field/mod_e*.rs the test module, the comments and the line ranges that the Lean
model quotes verbatim (see verbatim.py) are removed.  The rest is split into top-level items,
the type name and `Self` are replaced by `T`, one local variable is renamed, numbers are replaced by
`#`, and runs of equal lines (one per word) by one line.  The sets of items must agree between the
nine files, and the numbers must be among the parameters the model gives to the module.
"""
import glob, os, re, sys

repo = sys.argv[1] if len(sys.argv) > 1 else '/repo'
model = os.path.join(os.path.dirname(os.path.abspath(__file__)), '..', 'lean', 'Verif', 'Model')

quoted, params = {}, {}
for path in glob.glob(model + '/Fields/*.lean'):
    s = open(path).read()
    for m in re.finditer(r'/repo(/\S+?\.rs):(\d+)-(\d+)\. -/\ndef \w+ : (?:\w+|List \w+) :=\s*(?:rust_\w+%|\[)', s):
        quoted.setdefault(m.group(1), []).append((int(m.group(2)), int(m.group(3))))
        file = m.group(1)
    code = s[s.index('def code : FieldCode'):]
    params[file] = {k: int(v) for k, v in re.findall(r'^  (\w+) := (\d+)$', code, re.M)}

items = {}
for file in sorted(quoted):
    lines = open(repo + file).read().split('\n')
    for a, b in quoted[file]:
        for i in range(a - 1, b):
            lines[i] = ''
    out, cur, depth = [], [], 0
    for l in lines:
        if 'cfg(test)' in l:
            break
        l = re.sub(r'//.*', '', l)
        l = re.sub(r'[Mm]od_e\d+_\d+|\bSelf\b(?!::)', 'T', l).replace('plusone', 'plusc')
        l = re.sub(r'\s+', ' ', l).strip()
        if not l:
            continue
        cur.append(l)
        depth += l.count('{') - l.count('}')
        if depth == 0 and l[-1] in ';}':
            out.append(cur)
            cur = []
    def squash(item):
        r = []
        for l in item:
            l = re.sub(r'(?<![iu\w])\d+(?:u8|i64)?\b', '#', l)
            if not r or r[-1] != l:
                r.append(l)
        return '\n'.join(r)
    items[file] = {squash(i): i for i in out}

bad = 0
first = sorted(items)[0]
for file in sorted(items):
    for a, b in ((first, file), (file, first)):
        for k in items[a]:
            if k not in items[b]:
                bad += 1
                print('only in', a, '(not in', b + '):', k.split('\n')[0][:80])
    p = params[file]
    allowed = {0, 1, 2, 4, 8, 16, 32, p['limbs'], p['nbytes'], p['nbytes'] - 1, p['nbits'], p['cval'],
               p['carryLimb'], p['carryShift'], p['limbBits']}
    for k, item in items[file].items():
        for l in item:
            for x in re.findall(r'(?<![iu\w])\d+', re.sub(r'\[\d+\]', '', l)):
                if int(x) not in allowed:
                    bad += 1
                    print('number', x, 'in', file, ':', l)
print(f'{len(items)} files, {len(items[first])} items, {bad} differences')
sys.exit(1 if bad else 0)
