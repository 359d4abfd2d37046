#!/usr/bin/env python3
"""Which lines of the .rs files in /repo does no comment in lean/Verif cite? Blank lines, comments, attributes, imports and closing
brackets are left out. An aid for checking what the model covers, no proof."""
import collections, glob, os, re

ROOT = os.path.join(os.path.dirname(os.path.abspath(__file__)), '../lean/Verif')
files = [os.path.relpath(os.path.join(r, f), '/repo') for r, _, fs in os.walk('/repo') for f in fs if f.endswith('.rs')]
cited = collections.defaultdict(set)
pattern = re.compile(r'((?:[\w./-]+/)?[\w-]+\.rs)\s+((?:\d+(?:-\d+)?)(?:\s*(?:,|and)\s*\d+(?:-\d+)?)*)')
for g in glob.glob(ROOT + '/**/*.lean', recursive=True):
    for m in pattern.finditer(open(g).read()):
        named = [f for f in files if f == m.group(1) or f.endswith('/' + m.group(1))]
        for r in re.findall(r'\d+(?:-\d+)?', m.group(2)):
            first, last = r.split('-') if '-' in r else (r, r)
            for f in named:
                cited[f] |= set(range(int(first), int(last) + 1))
for f in sorted(files):
    lines = open('/repo/' + f).read().split('\n')
    rest = [i + 1 for i, l in enumerate(lines) if i + 1 not in cited[f] and l.strip()
            and not re.match(r'\s*(//|use |pub use|extern crate|mod |pub mod |[})\]];?,?\s*$|#!?\[)', l)]
    ranges = []
    for i in rest:
        if ranges and i - ranges[-1][1] <= 2:
            ranges[-1][1] = i
        else:
            ranges.append([i, i])
    print(f, len(lines), 'lines, not cited', len(rest), ' '.join(f'{a}-{b}' if a != b else str(a) for a, b in ranges))
