#!/usr/bin/env python3
"""Render every class table back to Java (lean/Verif/Tests/Render.lean) and compare with the files in /repo, character by character apart from
white space (white space between two words and inside string literals counts).  Needs a built project."""
import glob, os, re, subprocess, sys, tempfile
sys.path.insert(0, os.path.dirname(os.path.abspath(__file__)))
import extract

LEAN = os.path.join(os.path.dirname(os.path.abspath(__file__)), '..', 'lean')


def norm(text):
    # string literals stay as they are; elsewhere white space is dropped unless it separates two words
    out = []
    for piece in re.split(r'("(?:[^"\\]|\\.)*")', text):
        if piece.startswith('"'):
            out.append(piece)
        else:
            piece = re.sub(r'\s+', ' ', piece)
            out.append(re.sub(r'(?<=\W) | (?=\W)', '', piece.strip() if not out else piece))
    return ''.join(out).strip()


def render(module):
    with tempfile.TemporaryDirectory() as d:
        f = os.path.join(d, 'R.lean')
        open(f, 'w').write(f'import Verif.Tests.{module}\n#eval FinProto.{module}.main\n')
        r = subprocess.run(['lake', 'env', 'lean', f], cwd=LEAN, capture_output=True, text=True)
    if r.returncode:
        sys.exit(r.stdout + r.stderr)
    lines = r.stdout.strip().split('\n')
    return dict(zip(lines[::2], lines[1::2]))


def check(f, source, text):
    a, b = norm(source), norm(text)
    if a == b:
        return 0
    i = next((i for i, (x, y) in enumerate(zip(a, b)) if x != y), min(len(a), len(b)))
    print(f'{f}: differs at: {a[max(0, i-40):i+60]!r} rendered: {b[max(0, i-40):i+60]!r}')
    return 1


# the message classes
rendered = render('Render')
seen = bad = 0
for mod, path in extract.MODULES.items():
    for f in sorted(glob.glob(f'{extract.REPO}/{path}/*.java')):
        seen += 1
        bad += check(f, open(f).read(), rendered.pop(mod + '_' + os.path.basename(f)[:-5], ''))
# the module codec, without its comments
codec = render('RenderCodec')
for name, text in codec.items():
    f = f'{extract.REPO}/codec/src/main/java/com/finproto/{name}.java'
    seen += 1
    bad += check(f, re.sub(r'/\*.*?\*/', '', open(f).read(), flags=re.S), text)
print(f'{seen} files, {bad} differ, {len(rendered)} rendered classes without a file')
sys.exit(1 if bad or rendered else 0)
