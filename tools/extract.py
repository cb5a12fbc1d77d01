#!/usr/bin/env python3
"""Strict extractor: reads the generated message classes of /repo as text and
turns every class into a record (fields, accessors, encode, decode, hashCode,
equals, toString, factory table).

Every character of every message class must be matched by one of the patterns
below; anything unknown aborts the run.  Nothing is inferred: encode and decode
are translated independently of each other, statement by statement, with the
line number of each statement.
"""
import glob, json, os, re, sys

REPO = '/repo'
MODULES = {
    'sample': 'sample-bin/src/main/java/com/finproto/sample/messages',
    'sse': 'sse-bin/src/main/java/com/finproto/sse/bin/messages',
    'szse': 'szse-bin/src/main/java/com/finproto/szse/bin/messages',
    'bjse': 'bjse-bin/src/main/java/com/finproto/bjse/trade/messages',
    'risk': 'risk-bin/src/main/java/com/finproto/risk/bin/messages',
}
PRIM = {'byte': 'i8', 'short': 'i16', 'int': 'i32', 'long': 'i64', 'float': 'f32', 'double': 'f64'}
BOXED = {'Byte': 'i8', 'Short': 'i16', 'Integer': 'i32', 'Long': 'i64', 'Float': 'f32', 'Double': 'f64'}
JT = {'i8': 'byte', 'i16': 'short', 'i32': 'int', 'i64': 'long'}
# ByteBuf method suffix -> (kind, endian)
NUM = {'Byte': ('i8', 'be'), 'Short': ('i16', 'be'), 'ShortLE': ('i16', 'le'), 'Int': ('i32', 'be'),
       'IntLE': ('i32', 'le'), 'Long': ('i64', 'be'), 'LongLE': ('i64', 'le'), 'FloatLE': ('f32', 'le'),
       'DoubleLE': ('f64', 'le')}


class Src:
    """Whitespace-normalised text with a position -> line map."""

    def __init__(self, path):
        raw = open(path).read()
        self.path = path
        out, lines, line, ws = [], [], 1, True
        for ch in raw:
            if ch.isspace():
                if not ws:
                    out.append(' '); lines.append(line)
                ws = True
            else:
                out.append(ch); lines.append(line); ws = False
            if ch == '\n':
                line += 1
        self.t, self.l, self.p = ''.join(out), lines, 0

    def line(self, p=None):
        p = self.p if p is None else p
        return self.l[min(p, len(self.l) - 1)]

    def m(self, rx):
        r = re.compile(r'\s*' + rx).match(self.t, self.p)
        if r:
            s = r.start()
            while self.t[s] == ' ':
                s += 1
            self.lastline = self.line(s)
            self.p = r.end()
        return r

    def need(self, rx):
        r = self.m(rx)
        if not r:
            sys.exit(f'{self.path}:{self.line()}: expected /{rx}/ at: {self.t[self.p:self.p+160]!r}')
        return r


def lit(s):
    """regex for literal Java text, spaces optional around punctuation"""
    out = ''
    for tok in re.findall(r'[A-Za-z0-9_]+|\s+|.', s):
        if tok.isspace():
            out += r'\s*'
        else:
            out += re.escape(tok) + r'\s*'
    # keep a mandatory space between two words
    return out


def ftype(t, siblings):
    if t in PRIM: return ['prim', PRIM[t]]
    if t == 'String': return ['str']
    if t == 'BinaryCodec': return ['codec']
    mm = re.fullmatch(r'List<(\w+)>', t)
    if mm:
        e = mm.group(1)
        if e in BOXED: return ['list', ['prim', BOXED[e]]]
        if e == 'String': return ['list', ['str']]
        return ['list', ['obj', e]]
    return ['obj', t]


PADRX = r"(?:\s*,\s*'(\\?.)'\s*,\s*(true|false))?"


def pad(g1, g2):
    if g1 is None: return [' ', False]
    return [{'\\0': '\0'}.get(g1, g1), g2 == 'true']


def enc_stmt(s):
    """one encode statement; returns IR list"""
    # frame length block, statement by statement
    r = s.m(r'int (\w+) = byteBuf\.writerIndex\(\);')
    if r: return ['save', r.group(1)]
    r = s.m(r'byteBuf\.write(\w+)\(0\);')
    if r: k = NUM[r.group(1)]; return ['zero', k[0], k[1]]
    r = s.m(r'this\.(\w+) = \(int\) \((\w+) - (\w+)\);')
    if r: return ['setLen', r.group(1), r.group(2), r.group(3)]
    r = s.m(r'byteBuf\.set(\w+)\((\w+), this\.(\w+)\);')
    if r: k = NUM[r.group(1)]; return ['patch', r.group(2), r.group(3), k[0], k[1]]
    r = s.m(r'ChecksumService<ByteBuf, Integer> checksumService = ChecksumServiceFactory\.getInstance\(\)\.getChecksumService\("(\w+)"\); '
            r'if \(checksumService != null\) \{ this\.(\w+) = \(int\) checksumService\.calc\(byteBuf\); \}')
    if r: return ['checksum', r.group(2), r.group(1)]
    # plain numbers
    r = s.m(r'byteBuf\.write(\w+)\(this\.(\w+)\);')
    if r: k = NUM[r.group(1)]; return ['num', r.group(2), k[0], k[1]]
    r = s.m(r'writeFixedString\( ?byteBuf, this\.(\w+), (\d+)' + PADRX + r'\);')
    if r: return ['fixed', r.group(1), int(r.group(2))] + pad(r.group(3), r.group(4))
    r = s.m(r'if \(StringUtil\.isNullOrEmpty\(this\.(\w+)\)\) \{ byteBuf\.write(\w+)\(0\); \} else \{ '
            r'byte\[\] bytes = this\.(\w+)\.getBytes\(StandardCharsets\.UTF_8\); byteBuf\.write(\w+)\(bytes\.length\); '
            r'byteBuf\.writeBytes\(bytes\); \}')
    if r:
        assert r.group(1) == r.group(3)
        z, k = NUM[r.group(2)], NUM[r.group(4)]
        return ['dyn', r.group(1), z[0], k[0], k[1]]
    r = s.m(r'if \(null == this\.(\w+) \|\| this\.(\w+)\.size\(\) == 0\) \{ byteBuf\.write(\w+)\(0\); \} else \{ '
            r'byteBuf\.write(\w+)\(\((\w+)\) this\.(\w+)\.size\(\)\); for \(int i = 0; i < this\.(\w+)\.size\(\); i\+\+\) \{')
    if r:
        f = r.group(1)
        assert f == r.group(2) == r.group(6) == r.group(7)
        z, k = NUM[r.group(3)], NUM[r.group(4)]
        assert JT[k[0]] == r.group(5), 'cast width'
        elem = enc_elem(s, f)
        s.need(r'\} \}')
        return ['list', f, z[0], k[0], k[1], elem]
    r = s.m(r'if \((?:null != this\.(\w+)|this\.(\w+) != null)\) \{ this\.(\w+)\.encode\(byteBuf\); \}')
    if r:
        assert (r.group(1) or r.group(2)) == r.group(3)
        return ['objOpt', r.group(3)]
    r = s.m(r'this\.(\w+)\.encode\(byteBuf\);')
    if r: return ['obj', r.group(1)]
    return None


def enc_elem(s, f):
    F = re.escape(f)
    r = s.m(r'byteBuf\.write(\w+)\(this\.' + F + r'\.get\(i\)\);')
    if r: k = NUM[r.group(1)]; return ['num', k[0], k[1]]
    r = s.m(r'writeFixedString\( ?byteBuf, this\.' + F + r'\.get\(i\), (\d+)' + PADRX + r'\);')
    if r: return ['fixed', int(r.group(1))] + pad(r.group(2), r.group(3))
    r = s.m(r'if \(StringUtil\.isNullOrEmpty\(this\.' + F + r'\.get\(i\)\)\) \{ byteBuf\.write(\w+)\(0\); \} else \{ '
            r'byte\[\] bytes = this\.' + F + r'\.get\(i\)\.getBytes\(StandardCharsets\.UTF_8\); '
            r'byteBuf\.write(\w+)\(bytes\.length\); byteBuf\.writeBytes\(bytes\); \}')
    if r:
        z, k = NUM[r.group(1)], NUM[r.group(2)]
        return ['dyn', z[0], k[0], k[1]]
    s.need(r'this\.' + F + r'\.get\(i\)\.encode\(byteBuf\);')
    return ['obj']


RCS = r'byteBuf ?\.readCharSequence\((\w+)Len, StandardCharsets\.UTF_8\) ?\.toString\(\)'


def dec_stmt(s, cls):
    r = s.m(r'this\.(\w+) = byteBuf\.read(Byte|\w+?)\(\);')
    if r: k = NUM[r.group(2)]; return ['num', r.group(1), k[0], k[1]]
    r = s.m(r'this\.(\w+) = readFixedString\(byteBuf, (\d+)' + PADRX + r'\);')
    if r: return ['fixed', r.group(1), int(r.group(2))] + pad(r.group(3), r.group(4))
    r = s.m(r'(\w+) (\w+)Len = byteBuf\.read(\w+)\(\); if \((\w+)Len > 0\) \{ this\.(\w+) = ' + RCS + r'; \}')
    if r:
        assert r.group(2) == r.group(4) == r.group(5) == r.group(6)
        k = NUM[r.group(3)]; assert JT[k[0]] == r.group(1)
        return ['dyn', r.group(5), k[0], k[1]]
    r = s.m(r'(\w+) (\w+)Size = byteBuf\.read(\w+)\(\); if \((\w+)Size > 0\) \{ this\.(\w+) = new ArrayList<>\(\); '
            r'for \(int i = 0; i < (\w+)Size; i\+\+\) \{')
    if r:
        f = r.group(5)
        assert f == r.group(2) == r.group(4) == r.group(6)
        k = NUM[r.group(3)]; assert JT[k[0]] == r.group(1)
        e = dec_elem(s, f)
        s.need(r'\} \}')
        return ['list', f, k[0], k[1], e]
    r = s.m(r'if \(null == this\.(\w+)\) \{ this\.(\w+) = new (\w+)\(\); \} this\.(\w+)\.decode\(byteBuf\);')
    if r:
        assert r.group(1) == r.group(2) == r.group(4)
        return ['obj', r.group(1), r.group(3)]
    r = s.m(r'this\.(\w+) = (\w+MessageFactory)\.getInstance\(\)\.create\(this\.(\w+)\);')
    if r: return ['create', r.group(1), cls, r.group(2), r.group(3)]
    r = s.m(r'this\.(\w+) = createApplExtend\(this\.(\w+)\);')
    if r: return ['create', r.group(1), cls, 'applExtendMap', r.group(2)]
    r = s.m(r'this\.(\w+)\.decode\(byteBuf\);')
    if r: return ['call', r.group(1)]
    return None


def dec_elem(s, f):
    F = re.escape(f)
    r = s.m(r'this\.' + F + r'\.add\( ?byteBuf\.read(\w+)\(\)\);')
    if r: k = NUM[r.group(1)]; return ['num', k[0], k[1]]
    r = s.m(r'this\.' + F + r'\.add\( ?readFixedString\(byteBuf, (\d+)' + PADRX + r'\)\);')
    if r: return ['fixed', int(r.group(1))] + pad(r.group(2), r.group(3))
    r = s.m(r'(\w+) ' + F + r'Len = byteBuf\.read(\w+)\(\); if \(' + F + r'Len > 0\) \{ this\.' + F + r'\.add\( ?' + RCS + r'\); \}')
    if r:
        k = NUM[r.group(2)]; assert JT[k[0]] == r.group(1) and r.group(3) == f
        return ['dyn', k[0], k[1]]
    r = s.need(r'(\w+) ' + F + r'_ = new (\w+)\(\); ' + F + r'_\.decode\(byteBuf\); this\.' + F + r'\.add\(' + F + r'_\);')
    assert r.group(1) == r.group(2)
    return ['obj', r.group(1)]


def parse_class(s, mod, rel, outer=None):
    r = s.need(r'public (?:static )?class (\w+) implements BinaryCodec \{')
    name = r.group(1)
    c = {'mod': mod, 'name': name, 'outer': outer, 'file': rel, 'line': s.lastline, 'fields': [], 'get': {}, 'set': {},
         'factory': None, 'inner': []}
    first = last = None
    while True:
        r = s.m(r'private ([\w<>]+) (\w+);')
        if not r: break
        first = first or s.lastline; last = s.lastline
        c['fields'].append([r.group(2), ftype(r.group(1), None), r.group(1)])
    c['fieldLines'] = [first, last]
    types = {f[0]: f[2] for f in c['fields']}
    # accessors, in source order
    acc = []
    while True:
        r = s.m(r'public ([\w<>]+) get(\w+)\(\) \{ return this\.(\w+); \}')
        if r:
            l = s.lastline
            assert types[r.group(3)] == r.group(1)
            g = r.group(3); nm = r.group(2)
            r = s.need(r'public void set(\w+)\( ?([\w<>]+) (\w+)\) \{ this\.(\w+) = (\w+); \}')
            assert r.group(1) == nm and r.group(3) == r.group(5) and types[r.group(4)] == r.group(2)
            acc.append([nm, g, r.group(4), l])
            continue
        break
    c['acc'] = acc
    s.need(r'@Override public void encode\(ByteBuf byteBuf\) \{')
    a = s.lastline; enc = []
    while True:
        x = enc_stmt(s)
        if x is None: break
        enc.append([x, s.lastline])
    s.need(r'\}'); c['enc'] = enc; c['encLines'] = [a, s.line(s.p - 1)]
    s.need(r'@Override public void decode\(ByteBuf byteBuf\) \{')
    a = s.lastline; dec = []
    while True:
        x = dec_stmt(s, name)
        if x is None: break
        dec.append([x, s.lastline])
    s.need(r'\}'); c['dec'] = dec; c['decLines'] = [a, s.line(s.p - 1)]
    # TradeCaptureCofirm: private static map instead of an enum factory
    r = s.m(r'private static final Map<String, Supplier<BinaryCodec>> applExtendMap = new HashMap<>\(\); static \{')
    if r:
        fl = s.lastline; tab = []
        while True:
            r = s.m(r'applExtendMap\.put\("(\w+)", (\w+)::new\);')
            if not r: break
            tab.append([r.group(1), r.group(2), s.lastline])
        s.need(r'\} private BinaryCodec createApplExtend\(String applId\) \{ Supplier<BinaryCodec> supplier = applExtendMap\.get\(applId\); '
               r'if \(null == supplier\) \{ throw new IllegalArgumentException\("Unsupported ApplID:" \+ applId\); \} return supplier\.get\(\); \}')
        c['factory'] = {'name': 'applExtendMap', 'key': 'str', 'table': tab, 'lines': [fl, s.line(s.p - 1)], 'static': True}
    s.need(r'@Override public int hashCode\(\) \{')
    c['hashLine'] = s.lastline
    if s.m(r'return this\.hashCode\(\); \}'):
        c['hash'] = 'self'
    else:
        r = s.need(r'return Objects\.hash\( ?([\w, ]*?) ?\); \}')
        c['hash'] = [x.strip() for x in r.group(1).split(',') if x.strip()]
    s.need(r'@Override public boolean equals\(Object obj\) \{ if \(this == obj\) \{ return true; \} '
           r'if \(null == obj \|\| getClass\(\) != obj\.getClass\(\)\) \{ return false; \}')
    c['eqLine'] = s.lastline
    if s.m(r'return true; \}'):
        c['eq'] = []
    else:
        r = s.need(re.escape(name) + r' orther_ = \(' + re.escape(name) + r'\) obj; return ')
        eq = []
        while True:
            r = s.need(r'Objects\.equals\( ?(\w+), orther_\.(\w+)\)')
            eq.append([r.group(1), r.group(2)])
            if s.m(r'&&'): continue
            s.need(r'; \}'); break
        c['eq'] = eq
    s.need(r'@Override public String toString\(\) \{')
    c['strLine'] = s.lastline
    if s.m(r'return "' + re.escape(name) + r' \[\]"; \}'):
        c['str'] = [name + ' []']
    else:
        s.need('return ')
        parts = []
        while True:
            r = s.m(r'"([^"]*)"')
            if r: parts.append(r.group(1))
            else:
                r = s.need(r'this\.(\w+)'); parts.append(['f', r.group(1)])
            if s.m(r'\+'): continue
            s.need(r'; \}'); break
        c['str'] = parts
    c['strEnd'] = s.line(s.p - 1)
    while s.m(r'// Code generated by fin-protoc\. DO NOT EDIT\.'):
        c['inner'].append(parse_class(s, mod, rel, name))
    # enum factory
    r = s.m(r'public static enum (\w+MessageFactory) \{ INSTANCE; private final Map<(\w+), Supplier<BinaryCodec>> (\w+) = new HashMap<>\(\);')
    if r:
        fl = s.lastline; fname, kt, mp = r.group(1), r.group(2), r.group(3)
        rev = bool(s.m(r'private final Map<Class<\?>, Integer> reverseMap = new HashMap<>\(\);'))
        mt = None
        if s.m(r'public enum MessageType \{'):
            mtl = s.lastline; mt = []
            while True:
                r = s.need(r'(\w+)\((\d+)\)([,;])')
                mt.append([r.group(1), int(r.group(2)), s.lastline])
                if r.group(3) == ';': break
            s.need(r'private final int value; MessageType\(int value\) \{ this\.value = value; \} public int getValue\(\) \{ return value; \} '
                   r'public static MessageType fromValue\(int value\) \{ for \(MessageType type : values\(\)\) \{ if \(type\.value == value\) \{ return type; \} \} '
                   r'throw new IllegalArgumentException\("Unknown MessageType value: " \+ value\); \} \}')
            c['messageType'] = {'values': mt, 'lines': [mtl, s.line(s.p - 1)]}
        s.need(r'static \{')
        tab = []
        while True:
            r = s.m(r'getInstance\(\)\s*\.register\( ?\((?:int|short)\) (\d+), (\w+)::new\);')
            if r: tab.append([int(r.group(1)), r.group(2), s.lastline]); continue
            r = s.m(r'getInstance\(\)\s*\.register\( ?"(\w+)", (\w+)::new\);')
            if r: tab.append([r.group(1), r.group(2), s.lastline]); continue
            r = s.m(r'getInstance\(\)\s*\.register\( ?(\w+)\.class, MessageType\.(\w+)\.getValue\(\), (\w+)::new\);')
            if r:
                tab.append([{x[0]: x[1] for x in mt}[r.group(2)], r.group(3), s.lastline, r.group(1), r.group(2)]); continue
            break
        fe = s.line(s.p - 1)
        kv = {'Integer': 'msgType', 'Short': 'msgType', 'String': 'applId'}[kt]
        ks = {'Integer': 'MsgType', 'Short': 'MsgType', 'String': 'ApplID'}[kt]
        s.need(r'\} public BinaryCodec create\(' + kt + ' ' + kv + r'\) \{ Supplier<BinaryCodec> supplier = ' + mp + r'\.get\(' + kv + r'\); '
               r'if \(null == supplier\) \{ throw new IllegalArgumentException\("Unsupported ' + ks + r':" \+ ' + kv + r'\); \} return supplier\.get\(\); \}')
        if rev:
            s.need(r'public void register\(Class<\?> clazz, Integer msgType, Supplier<BinaryCodec> supplier\) \{ ' + mp +
                   r'\.put\(msgType, supplier\); reverseMap\.put\(clazz, msgType\); \}')
        else:
            s.need(r'public void register\(' + kt + ' ' + kv + r', Supplier<BinaryCodec> supplier\) \{ ' + mp + r'\.put\(' + kv + r', supplier\); \}')
        s.need(r'public boolean remove\(' + kt + ' ' + kv + r'\) \{ return null != ' + mp + r'\.remove\(' + kv + r'\); \}')
        if rev:
            s.need(r'public Integer getMsgType\(Class<\?> clazz\) \{ return reverseMap\.get\(clazz\); \}')
        s.need(r'public static ' + fname + r' getInstance\(\) \{ return INSTANCE; \} \}')
        c['factory'] = {'name': fname, 'key': {'Integer': 'i32', 'Short': 'i16', 'String': 'str'}[kt], 'table': tab,
                        'lines': [fl, s.line(s.p - 1)], 'tabEnd': fe, 'static': False, 'reverse': rev}
    while s.m(r'// Code generated by fin-protoc\. DO NOT EDIT\.'):
        c['inner'].append(parse_class(s, mod, rel, name))
    s.need(r'\}')
    c['endLine'] = s.line(s.p - 1)
    return c


def extract():
    out = []
    for mod, d in MODULES.items():
        for f in sorted(glob.glob(f'{REPO}/{d}/*.java')):
            rel = os.path.relpath(f, REPO)
            s = Src(f)
            s.need(r'// Code generated by fin-protoc\. DO NOT EDIT\. package [\w.]+;')
            while s.m(r'import [\w.]+;'): pass
            c = parse_class(s, mod, rel)
            if s.t[s.p:].strip(): sys.exit(f'{f}: trailing text')
            out.append(c)
    return out


if __name__ == '__main__':
    json.dump(extract(), sys.stdout, indent=1)
