#!/usr/bin/env python3
"""Transcribes the unit tests of the messages (/repo/*/src/test) into checks of the model, lean/Verif/Tests/<Protocol>.lean.
Every test fills a message with setters, encodes it, decodes the bytes into a new object and asserts that it equals the original."""
import glob, os, re, struct, sys
sys.path.insert(0, os.path.dirname(os.path.abspath(__file__)))
from layout import REPO, DIRS
OUT = os.path.join(os.path.dirname(os.path.abspath(__file__)), '..', 'lean', 'Verif', 'Tests')
names = open(os.path.join(OUT, '..', 'Model', 'Names.lean')).read()
classes = re.findall(r'^  \| (\w+_\w+)  --', names, re.M)

def cls(mod, main, c):
    c = c.replace('.', '_')
    for k in (f'{mod}_{main}_{c}', f'{mod}_{c}'):
        if k in classes: return k
    sys.exit(f'{mod} {main} {c}')

def value(x, var):
    x = x.strip()
    m = re.fullmatch(r'\((byte|short|int)\) (\d+)', x)
    if m: return '.num ⟨.%s, %s⟩' % ({'byte': 'i8', 'short': 'i16', 'int': 'i32'}[m.group(1)], m.group(2))
    if re.fullmatch(r'\d+', x): return f'.num ⟨.i32, {x}⟩'
    if re.fullmatch(r'\d+L', x): return f'.num ⟨.i64, {x[:-1]}⟩'
    if re.fullmatch(r'\d+F', x): return '.num ⟨.f32, %#x⟩' % struct.unpack('>I', struct.pack('>f', float(x[:-1])))[0]
    if re.fullmatch(r'\d+D', x): return '.num ⟨.f64, %#x⟩' % struct.unpack('>Q', struct.pack('>d', float(x[:-1])))[0]
    m = re.fullmatch(r'"(\w*)"', x)
    if m: return f'.str (js "{m.group(1)}")'
    m = re.fullmatch(r'Arrays\.asList\( ?(.*)\)', x)
    if m: return '.list [%s]' % ', '.join(value(y, var) for y in m.group(1).split(','))
    if x in var: return x
    sys.exit(x)

def main():
    mods = []
    for mod, d in DIRS.items():
        out = ['import Verif.Tests.Common', '/-', f'The unit tests of /repo/{d}, transcribed by tools/tests.py.', '-/',
               f'namespace FinProto.Tests.{mod.capitalize()}', '']
        for f in sorted(glob.glob(f'{REPO}/{d}/**/*Test.java', recursive=True)):
            t = open(f).read(); rel = os.path.relpath(f, REPO)
            mainc = os.path.basename(f)[:-len('Test.java')]
            i = t.index('testEncodeDecode')
            body = t[t.index('{', i):t.index('ByteBuf buffer')]
            line = t[:i].count('\n') + 1
            rest = ' '.join(t[t.index('ByteBuf buffer'):].split())
            want = f'ByteBuf buffer = Unpooled.buffer(); original.encode(buffer); {mainc} decoded = new {mainc}(); decoded.decode(buffer); assertEquals(original, decoded); }} }}'
            if rest != want: sys.exit(f'{f}: {rest}')
            var, defs = {}, []
            for s in re.findall(r'([^;{}]+);', body):
                s = ' '.join(s.split())
                m = re.fullmatch(r'([\w.]+) (\w+) = new ([\w.]+)\(\)', s)
                if m:
                    var[m.group(2)] = cls(mod, mainc, m.group(1))
                    defs.append(('new', m.group(2)))
                    continue
                m = re.fullmatch(r'(\w+)\.set(\w+)\( ?(.*)\)', s)
                if not m: sys.exit(f'{f}: {s}')
                defs.append(('set', m.group(1), m.group(2), m.group(3)))
            out.append(f'/-- {rel}:{line} -/')
            out.append('example : roundTrip (')
            for x in defs:
                if x[0] == 'new': out.append(f'    let {x[1]} := fresh .{var[x[1]]}')
                else: out.append(f'    let {x[1]} := {x[1]}.setter "{x[2]}" ({value(x[3], var)})')
            out.append('    original) = true := by decide +kernel')
            out.append('')
        out.append(f'end FinProto.Tests.{mod.capitalize()}')
        open(os.path.join(OUT, mod.capitalize() + '.lean'), 'w').write('\n'.join(out) + '\n')
main()
