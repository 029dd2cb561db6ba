#!/usr/bin/env python3
"""Compare the Rust text and the constants inside the Lean model with the sources.

usage: verbatim.py [repo]     (default /repo)

For every definition of lean/Verif/Model whose comment ends in a reference FILE:FIRST-LAST, the
text between the quotes of `rust_*% "..."` must occur, line by line, inside those lines of FILE,
and the numbers of a constant must be the numbers of those lines, in order.

The texts of whole files in lean/Verif/Rust/Source must be the first lines of those files, character
by character.
"""
import glob, os, re, sys

repo = sys.argv[1] if len(sys.argv) > 1 else '/repo'
here = os.path.join(os.path.dirname(os.path.abspath(__file__)), '..', 'lean', 'Verif', 'Model')

def source(path, a, b):
    with open(repo + path) as f:
        return f.read().split('\n')[a - 1:b]

def numbers(text):
    text = re.sub(r'//.*', '', text)
    return [int(x, 0) for x in re.findall(r'\b0x[0-9a-fA-F]+\b|\b\d+\b', text)]

bad = texts = consts = 0
for path in sorted(glob.glob(here + '/**/*.lean', recursive=True)):
    s = open(path).read()
    for m in re.finditer(r'/-- ((?!-/)[^\x00])*?/repo(/\S+?\.rs):(\d+)-(\d+)\. -/\n'
                         r'def (\w+) : (\w+|List \w+) :=\s*(rust_\w+%[^"\n]*"([^"]*)"|\[[^\]]*\])', s):
        file, a, b, name, body = m.group(2), int(m.group(3)), int(m.group(4)), m.group(5), m.group(7)
        src = source(file, a, b)
        if body.startswith('rust_'):
            texts += 1
            want = [l.rstrip() for l in m.group(8).strip('\n').split('\n')]
            have = [l.rstrip() for l in src]
            ok = any(have[i:i + len(want)] == want for i in range(len(have)))
        else:
            consts += 1
            text = '\n'.join(src)
            text = text[text.index('=') + 1:]
            text = re.sub(r'Mod_e\d+_\d+', '', text)
            ok = numbers(text) == numbers(body)
        if not ok:
            bad += 1
            print('differs:', os.path.basename(path), name, file, a, b)
files = 0
for path in sorted(glob.glob(here + '/../Rust/Source/*.lean')):
    s = open(path).read()
    for m in re.finditer(r'/-- `/repo(/\S+?\.rs):1-(\d+)`\. -/\nnoncomputable def (\w+)Text : List String := '
                         r'rust_lines% r##"(.*?)"##\n', s, re.S):
        files += 1
        with open(repo + m.group(1)) as f:
            text = f.read()
        rest = text[len(m.group(4)):]
        if not text.startswith(m.group(4)) or m.group(4).count('\n') != int(m.group(2)) \
                or not (rest == '' or rest.startswith('#[cfg(test)]')):
            bad += 1
            print('differs:', os.path.basename(path), m.group(3), m.group(1))
if files != 15:
    bad += 1
    print('expected 15 whole files, found', files)
print(f'{files} whole files, {texts} texts, {consts} constants, {bad} differences')
sys.exit(1 if bad else 0)
