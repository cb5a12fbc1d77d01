#!/usr/bin/env python3
"""Emit the Lean class tables (from src/main via extract.py) and the layout tables (from src/test via layout.py)."""
import os, sys
sys.path.insert(0, os.path.dirname(os.path.abspath(__file__)))
import extract, layout
OUT = os.path.join(os.path.dirname(os.path.abspath(__file__)), '..', 'lean', 'Verif')
CAP = {'sample': 'Sample', 'sse': 'Sse', 'szse': 'Szse', 'bjse': 'Bjse', 'risk': 'Risk'}
classes = []
for c in extract.extract():
    classes.append(c)
    classes += c['inner']

def cname(c): return c['name'] if not c['outer'] else c['outer'] + '_' + c['name']
def ctor(c): return c['mod'] + '_' + cname(c)
byname = {(c['mod'], c['outer'], c['name']): c for c in classes}

def resolve(c, n):
    for k in ((c['mod'], c['name'], n), (c['mod'], c['outer'], n), (c['mod'], None, n)):
        if k in byname: return '.' + ctor(byname[k])
    sys.exit(f'unresolved {n} in {ctor(c)}')

def fty(c, t):
    if t[0] == 'prim': return f'.prim .{t[1]}'
    if t[0] == 'str': return '.str'
    if t[0] == 'codec': return '.codec'
    if t[0] == 'obj': return f'.obj {resolve(c, t[1])}'
    return f'.list ({fty(c, t[1])})'

def padl(p, l): return f'{hex(ord(p))} {"true" if l else "false"}'
def b(x): return 'true' if x else 'false'

def ee(e):
    if e[0] == 'num': return f'.num .{e[1]} .{e[2]}'
    if e[0] == 'fixed': return f'.fixed {e[1]} {padl(e[2], e[3])}'
    if e[0] == 'dyn': return f'.dyn .{e[1]} .{e[2]} .{e[3]}'
    return '.obj'

def de(c, e):
    if e[0] == 'num': return f'.num .{e[1]} .{e[2]}'
    if e[0] == 'fixed': return f'.fixed {e[1]} {padl(e[2], e[3])}'
    if e[0] == 'dyn': return f'.dyn .{e[1]} .{e[2]}'
    return f'.obj {resolve(c, e[1])}'

def emit_class(c, o):
    ix = {f[0]: i for i, f in enumerate(c['fields'])}
    fn = os.path.basename(c['file'])
    w = o.append
    w(f'/-! ### {c["file"]}:{c["line"]}-{c["endLine"]} -/')
    w(f'namespace {CAP[c["mod"]]}.{cname(c)}')
    fl = c['fieldLines']
    w(f'/-- Fields, {fn}:{fl[0]}-{fl[1]}. -/' if fl[0] else f'/-- Fields (none), {fn}:{c["line"]}. -/')
    w('def fields : List (String × FTy) := [' + ', '.join(f'("{f[0]}", {fty(c, f[1])})' for f in c['fields']) + ']')
    w(f'/-- Accessors (property, getter field, setter field), {fn}:' + (f'{c["acc"][0][3]}-{c["encLines"][0]}' if c['acc'] else f'{c["line"]}') + '. -/')
    w('def acc : List (String × Nat × Nat) := [' + ', '.join(f'("{a[0]}", {ix[a[1]]}, {ix[a[2]]})' for a in c['acc']) + ']')
    w(f'/-- `encode`, {fn}:{c["encLines"][0]}-{c["encLines"][1]}. -/')
    w('def enc : List EncStmt := [')
    loc = {}; rows = []
    for x, l in c['enc']:
        k = x[0]
        if k == 'num': s = f'.num {ix[x[1]]} .{x[2]} .{x[3]}'; f = x[1]
        elif k == 'fixed': s = f'.fixed {ix[x[1]]} {x[2]} {padl(x[3], x[4])}'; f = x[1]
        elif k == 'dyn': s = f'.dyn {ix[x[1]]} .{x[2]} .{x[3]} .{x[4]}'; f = x[1]
        elif k == 'list': s = f'.list {ix[x[1]]} .{x[2]} .{x[3]} .{x[4]} ({ee(x[5])})'; f = x[1]
        elif k == 'obj': s = f'.obj {ix[x[1]]}'; f = x[1]
        elif k == 'objOpt': s = f'.objOpt {ix[x[1]]}'; f = x[1]
        elif k == 'save':
            assert x[1] not in loc; loc[x[1]] = len(loc); s = f'.save {loc[x[1]]}'; f = 'int ' + x[1]
        elif k == 'zero': s = f'.zero .{x[1]} .{x[2]}'; f = 'write(0)'
        elif k == 'setLen': s = f'.setLen {ix[x[1]]} {loc[x[2]]} {loc[x[3]]}'; f = f'{x[1]} = {x[2]} - {x[3]}'
        elif k == 'patch': s = f'.patch {loc[x[1]]} {ix[x[2]]} .{x[3]} .{x[4]}'; f = f'set({x[1]}, {x[2]})'
        elif k == 'checksum': s = f'.checksum {ix[x[1]]} "{x[2]}"'; f = x[1]
        rows.append((s, f, l))
    for i, (s, f, l) in enumerate(rows):
        w(f'  {s}{"," if i + 1 < len(rows) else ""}  -- {l}: {f}')
    w(']')
    w(f'/-- `decode`, {fn}:{c["decLines"][0]}-{c["decLines"][1]}. -/')
    w('def dec : List DecStmt := [')
    rows = []
    for x, l in c['dec']:
        k = x[0]
        if k == 'num': s = f'.num {ix[x[1]]} .{x[2]} .{x[3]}'
        elif k == 'fixed': s = f'.fixed {ix[x[1]]} {x[2]} {padl(x[3], x[4])}'
        elif k == 'dyn': s = f'.dyn {ix[x[1]]} .{x[2]} .{x[3]}'
        elif k == 'list': s = f'.list {ix[x[1]]} .{x[2]} .{x[3]} ({de(c, x[4])})'
        elif k == 'obj': s = f'.obj {ix[x[1]]} {resolve(c, x[2])}'
        elif k == 'create': s = f'.create {ix[x[1]]} .{ctor(c)} {ix[x[4]]}'
        elif k == 'call': s = f'.call {ix[x[1]]}'
        rows.append((s, x[1], l))
    for i, (s, f, l) in enumerate(rows):
        w(f'  {s}{"," if i + 1 < len(rows) else ""}  -- {l}: {f}')
    w(']')
    w(f'/-- `hashCode`, {fn}:{c["hashLine"]}. -/')
    w('def hash : HashBody := ' + ('.self' if c['hash'] == 'self' else '.fields [' + ', '.join(str(ix[f]) for f in c['hash']) + ']'))
    w(f'/-- `equals`, {fn}:{c["eqLine"]}. -/')
    w('def eqs : List (Nat × Nat) := [' + ', '.join(f'({ix[a]}, {ix[d]})' for a, d in c['eq']) + ']')
    w(f'/-- `toString`, {fn}:{c["strLine"]}. -/')
    w('def str : List StrPart := [' + ', '.join((f'.lit "{p}"' if isinstance(p, str) else f'.field {ix[p[1]]}') for p in c['str']) + ']')
    w(f'/-- {c["file"]}:{c["line"]}-{c["endLine"]} -/')
    w(f'def decl : ClassDecl := ⟨"{c["name"]}", fields, acc, enc, dec, hash, eqs, str⟩')
    w(f'end {CAP[c["mod"]]}.{cname(c)}')
    w('')

def keylit(f, k):
    if f['key'] == 'str': return f'.str (js "{k}")'
    return f'.int {k}' if f['key'] == 'i32' else f'.short {k}'

HDR = '/- GENERATED by tools/gen.py from the Java sources in /repo; do not edit. -/\n'
def put(path, lines):
    open(os.path.join(OUT, path), 'w').write('\n'.join(lines) + '\n')

def main():
    o = [HDR, 'namespace FinProto', '', '/-- The message classes (one constructor per Java class; nested classes as Outer_Inner);\nfile and line stand beside each. -/', 'inductive Cls']
    for c in classes: o.append(f'  | {ctor(c)}  -- {c["file"]}:{c["line"]}')
    o += ['  deriving DecidableEq, Repr', '', '/-- All classes, in the order of `Cls` (file and line there). -/', 'def allCls : List Cls := [']
    o.append(',\n'.join('  .' + ctor(c) for c in classes)); o += [']', '']
    o += ['/-- The message factories, named by the class that owns them;\nfile and lines stand beside each. -/', 'inductive Fac']
    for c in classes:
        if c['factory']: o.append(f'  | {ctor(c)}  -- {c["factory"]["name"]}, {c["file"]}:{c["factory"]["lines"][0]}-{c["factory"]["lines"][1]}')
    o += ['  deriving DecidableEq, Repr', '', '/-- All factories, in the order of `Fac` (file and lines there). -/', 'def allFac : List Fac := [' + ', '.join('.' + ctor(c) for c in classes if c['factory']) + ']', '', 'end FinProto']
    put('Model/Names.lean', o)
    for mod, cap in CAP.items():
        o = [HDR.rstrip(), 'import Verif.Model.IR', '', 'namespace FinProto', '']
        for c in classes:
            if c['mod'] == mod: emit_class(c, o)
        o.append('end FinProto')
        # the header comment must follow imports
        o = [o[1], o[0]] + o[2:]
        put(f'Model/Classes/{cap}.lean', o)
    o = [f'import Verif.Model.Classes.{cap}' for cap in CAP.values()] + [HDR, 'namespace FinProto', '', '/-- The declaration of each class; the tables in `Classes/` cite file and lines. -/', 'def decl : Cls → ClassDecl']
    for c in classes: o.append(f'  | .{ctor(c)} => {CAP[c["mod"]]}.{cname(c)}.decl')
    o += ['', '/-- Which protocol module (Maven module / Java package) a class belongs to: the directory and package of its file\n(e.g. SseBinary.java:2, RootPacket.java:2). -/', 'inductive Mod', '  | sample | sse | szse | bjse | risk', '  deriving DecidableEq, Repr', '',
          '/-- The module of each class: the directory of its file (see `Cls`), e.g. SseBinary.java:2. -/',
          'def Cls.mod : Cls → Mod']
    for c in classes: o.append(f'  | .{ctor(c)} => .{c["mod"]}')
    o += ['', '/-- Default registrations of all message factories (the static initialisers), in source order; file\nand line stand beside each. -/', 'def defaultRegs : List Reg := [']
    rows = []
    for c in classes:
        f = c['factory']
        if not f: continue
        for t in f['table']:
            rows.append((f'  ⟨.{ctor(c)}, {keylit(f, t[0])}, {resolve(c, t[1])}⟩', f'{os.path.basename(c["file"])}:{t[2]}'))
    for i, (r, l) in enumerate(rows): o.append(r + (',' if i + 1 < len(rows) else '') + f'  -- {l}')
    o += [']', '']
    for c in classes:
        if 'messageType' in c:
            mt = c['messageType']
            o += [f'/-- `MessageType` constants, {c["file"]}:{mt["lines"][0]}-{mt["lines"][1]}. -/', 'inductive SseMessageType']
            for n, v, l in mt['values']: o.append(f'  | {n}  -- {l}')
            o += ['  deriving DecidableEq, Repr', '', '/-- `values()` with their constructor argument, in declaration order, SseBinary.java:135-148. -/', 'def sseMessageTypes : List (SseMessageType × BitVec 32) := [']
            o.append(', '.join(f'(.{n}, {v})' for n, v, l in mt['values'])); o += [']', '']
            o += [f'/-- The three-argument registrations `register(Class, MessageType.X.getValue(), supplier)`, {c["file"]}:{c["factory"]["table"][0][2]}-{c["factory"]["tabEnd"]}:', '(class literal, constant, constructed class). -/', 'def sseDefaultRegs : List (Cls × SseMessageType × Cls) := [']
            o.append(',\n'.join(f'  ({resolve(c, t[3])}, .{t[4]}, {resolve(c, t[1])})' for t in c['factory']['table'])); o += [']', '']
    o.append('end FinProto')
    put('Model/Classes.lean', o)
    # layouts
    lay = {(l['mod'], l['name'].replace('.', '_')): l for l in layout.run()}
    def wt(mod, n, ty):
        if ty[0] == 'num': return f'.num .{ty[1]}'
        # text is padded with blanks on the right, in the sample protocol with zeros on the left
        if ty[0] == 'text': return f'.text {ty[1]} ' + ('0x30 true' if mod == 'sample' else '0x20 false')
        if ty[0] == 'vstr': return '.vstr'
        if ty[0] == 'sub': return f'.sub .{mod}_{ty[1].replace(".", "_")}'
        if ty[0] == 'list': return f'.list ({wt(mod, n, ty[1])})'
        sys.exit(str(ty))
    for mod, cap in CAP.items():
        o = ['import Verif.Spec.LayoutTypes', '/- GENERATED by tools/gen.py from the unit tests in /repo/*/src/test; do not edit. -/', 'namespace FinProto.Layout', '']
        for c in classes:
            k = (mod, cname(c))
            if c['mod'] != mod or k not in lay: continue
            L = [list(x) for x in lay[k]['layout']]
            # protocol convention: the application id is the first field, or follows (partitionNo, reportIndex) in reports
            ap = [x for x in L if x[0] == 'applId']
            if ap:
                L = [x for x in L if x[0] != 'applId']
                pos = 2 if [x[0] for x in L[:2]] == ['partitionNo', 'reportIndex'] else 0
                L.insert(pos, ap[0])
            names = [x[0] for x in L]
            rows = []
            for n, ty in L:
                if ty[0] == 'ext': rows.append(f'("{n}", .ext .{ctor(c)} {names.index(ty[1])})')
                else:
                    s = wt(mod, n, ty)
                    # sample protocol: fields that demonstrate padding other than the default (zeros on the left)
                    ov = {'fieldFixedString10Pad': '0x20 true', 'fieldFixedString10ListPad': '0x30 false',
                          'fieldFixedString10PadWithNullTerminator': '0x00 false', 'fieldFixedString10PadWithNullTerminatorList': '0x00 false'}
                    if mod == 'sample' and n in ov: s = s.replace('.text 10 0x30 true', f'.text 10 {ov[n]}')
                    rows.append(f'("{n}", {s})')
            o.append(f'/-- {lay[k]["src"]}:{lay[k]["line"]} -/')
            o.append(f'def {ctor(c)} : List (String × WTy) := [' + ',\n  '.join(rows) + ']')
            o.append('')
        o.append('end FinProto.Layout')
        put(f'Spec/Layout{cap}.lean', o)
    o = [f'import Verif.Spec.Layout{cap}' for cap in CAP.values()] + ['import Verif.Spec.LayoutFrames', '/- GENERATED by tools/gen.py; do not edit. -/', 'namespace FinProto', '', '/-- The wire layout of every message class. -/', 'def layout : Cls → List (String × WTy)']
    for c in classes: o.append(f'  | .{ctor(c)} => Layout.{ctor(c)}')
    o += ['', 'end FinProto']
    put('Spec/Layout.lean', o)

main()
