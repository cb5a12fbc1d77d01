#!/usr/bin/env python3
"""Wire layout of every message class, derived from the *unit tests* of /repo
(src/test), never from src/main.

A test fills each field with a literal that shows its wire type:
  (byte) 1, (short) 2, 4, 8L, 4F, 8D   integers / floats
  "example"                            length-prefixed string
  "1", "11", ... , "010"               text of exactly that many bytes
  Arrays.asList(x)                     counted list
  object                               nested message / extension chosen by a key
Frames are written by hand in Verif/Spec/Layout.lean (their tests do not show the
length field), and so are the padding conventions of the sample protocol.
"""
import glob, json, os, re, sys
REPO = '/repo'
DIRS = {'sample': 'sample-bin/src/test', 'sse': 'sse-bin/src/test', 'szse': 'szse-bin/src/test',
        'bjse': 'bjse-bin/src/test', 'risk': 'risk-bin/src/test'}
FRAMES = {'RootPacket', 'SseBinary', 'SzseBinary', 'RcBinary', 'BjseBinary'}

def scalar(x):
    x = x.strip()
    if x.startswith('(byte)'): return ['num', 'i8']
    if x.startswith('(short)'): return ['num', 'i16']
    if x.startswith('(int)'): return ['num', 'i32']
    if re.fullmatch(r'\d+', x): return ['num', 'i32']
    if re.fullmatch(r'\d+L', x): return ['num', 'i64']
    if re.fullmatch(r'\d+F', x): return ['num', 'f32']
    if re.fullmatch(r'\d+D', x): return ['num', 'f64']
    m = re.fullmatch(r'"(\w*)"', x)
    if m: return ['vstr'] if m.group(1) == 'example' else ['text', len(m.group(1))]
    return None

def run():
    out, where = {}, {}
    for mod, d in DIRS.items():
        for f in sorted(glob.glob(f'{REPO}/{d}/**/*Test.java', recursive=True)):
            t = open(f).read(); rel = os.path.relpath(f, REPO)
            main = os.path.basename(f)[:-len('Test.java')]
            var, seq, key = {}, {}, {}
            body = t[t.index('{', t.index('testEncodeDecode')):t.index('ByteBuf buffer')]
            start = t[:t.index('testEncodeDecode')].count('\n') + 1
            stmts = re.findall(r'([^;{}]+);', body)
            for s in stmts:
                s = ' '.join(s.split())
                m = re.fullmatch(r'([\w.]+) (\w+) = new ([\w.]+)\(\)', s)
                if m:
                    var[m.group(2)] = m.group(1); seq[m.group(2)] = []; continue
                m = re.fullmatch(r'(\w+)\.set(\w+)\( ?(.*)\)', s)
                if not m: sys.exit(f'{f}: {s}')
                o, name, v = m.groups()
                v = v.strip()
                name = name[0].lower() + name[1:]
                ty = scalar(v)
                if ty is None:
                    m = re.fullmatch(r'Arrays\.asList\( ?(.*)\)', v)
                    if m:
                        e = scalar(m.group(1)) or ['sub', var[m.group(1)]]
                        ty = ['list', e]
                    else:
                        ty = ['obj', var[v]]
                        # an extension is set right after its key, whose literal is not all ones
                        if seq[o] and seq[o][-1][2] is not None and re.fullmatch(r'"\w+"', seq[o][-1][2]) and name == 'applExtend':
                            ty = ['ext', seq[o][-1][0]]
                        elif main not in FRAMES:
                            ty = ['sub', var[v]]
                seq[o].append([name, ty, v])
            for o, c in var.items():
                if c in FRAMES: continue
                lay = [[n, ty] for n, ty, _ in seq[o]]
                k = (mod, c)
                if k in out:
                    if out[k] != lay: sys.exit(f'conflict {k} {rel}')
                    if c == main: where[k] = (rel, start)
                else:
                    out[k] = lay; where[k] = (rel, start)
    return [{'mod': k[0], 'name': k[1], 'layout': v, 'src': where[k][0], 'line': where[k][1]} for k, v in out.items()]

if __name__ == '__main__':
    json.dump(run(), sys.stdout, indent=1)
