#!/usr/bin/env python3
"""Translates functions of the repository from their text into the terms of Verif/Src/Lang.lean and writes Verif/Src/Code.lean.

The translation is syntax directed. Names are resolved by scope and become numbered variables; constants are folded; calls of functions of
the repository become statements of their own, in the order of evaluation; a method that assigns to its pointer receiver returns the receiver first;
calls of libraries become operations of Lang.lean. What it does not know it refuses.
"""
import sys, os
sys.path.insert(0, os.path.dirname(__file__))
from fractions import Fraction
from gosrc import Parser

REPO = '/repo'
LANGS = ['chinese_simplified', 'chinese_traditional', 'czech', 'english', 'french', 'italian', 'japanese', 'korean', 'portuguese', 'spanish']
FILES = ['bip32/path.go', 'bip32/utils.go', 'bip32/bip32.go', 'bip32/reg_ver_bytes.go', 'bip32/err.go', 'bip39/bip39.go',
         'util/util.go', 'util/key_path.go', 'util/err.go', 'bip44/coin.go', 'bip44/coins.go', 'examples/ui/one/slider.go',
         'examples/ui/one/main.go', 'bip44/script.go'] + [f'bip39/wordlists/{l}.go' for l in LANGS]
SKIP = {'main.main', 'main.loop'}
# fields of structs that are kept
KEEP = {'main.KeyPathTab': ['KeyPath']}
# The functions that assign to package variables take these as parameters, before the others, and return them, before the results. A text field
# is its text, an enum its value; the two fields of `keyPathTabs` are variables of their own.
WORDS = [('wordList', '[]string'), ('wordMap', 'map[string]int')]
VERSIONS = [('PathToHDBytesSlice', 'map[string][]VersionBytes'), ('HDVersionBytesSlice', '[]VersionBytes')] + [
    (n, 'map[uint32][]VersionBytes') for n in ('PvtFlagToHDBytesSlice', 'PubFlagToHDBytesSlice', 'PurposeToHDBytesSlice',
                                               'PurposeFullToHDBytesSlice', 'CoinTypeToHDBytesSlice')]
COINS = [('RegCoins', '[]Coin'), ('RegBip44CoinsTypeToValMap', 'map[uint32]Coin'), ('RegBip44CoinsNameToValMap', 'map[string]Coin'),
         ('RegBip44CoinsPathCompToValMap', 'map[uint32]Coin')]
TEXTS = ['mnemonicField', 'mnemonicPassphraseField', 'bip39SeedField', 'bip32RootKeyField', 'derivationField']
WINDOW = [(n, 'string') for n in TEXTS + ['radioGroupMnemonicWords', 'mnemonic', 'mnemonicPassPhrase', 'seed', 'rootKeyStr', 'derivationStr']] + [
    ('derivationPath', 'util.Path'), ('bps', 'util.Generator'), ('keyPathTabs.tabs', '[]KeyPathTab'), ('keyPathTabs.selected', 'int'),
    ('tabsSlider', 'Slider')]
GLOBALS = {'bip39.SetWordList': WORDS, 'bip39.init': WORDS, 'bip32.init': VERSIONS, 'bip44.init': COINS,
           # the embedded file, and the file that is written
           'bip44.generateFileFromSlip44MD': [('Slip044FS', 'embed.FS'), ('testing.go', '[]byte')],
           # the memory of operation buffers
           'main.Slider.Layout': [('bufs', '[]content')]}
OUT = os.path.join(os.path.dirname(__file__), '../lean/Verif/Src/Code.lean')

INTS = {'int': 'int', 'uint': 'uint', 'byte': 'u8', 'uint8': 'u8', 'uint16': 'u16', 'uint32': 'u32', 'uint64': 'u64', 'int64': 'i64', 'duration': 'int'}
FLOATS = {'float32': 'f32', 'float64': 'f64'}


class Unsupported(Exception): pass


# ---------------------------------------------------------------- declarations
funcs, types, consts, gvars = {}, {}, {'time.Millisecond': ('time', None, ('int', 1000000))}, {}


def load():
    for f in FILES:
        d = Parser(open(os.path.join(REPO, f)).read()).file()
        pkg = d['package']
        for n, t in d['types'].items():
            q = f'{pkg}.{n}'
            if q in KEEP: t = ('struct', [x for x in t[1] if x[0] in KEEP[q]])
            types[q] = (pkg, t)
        last = None
        for names, t, vs in d['consts']:
            for n, v in zip(names, vs): consts[f'{pkg}.{n}'] = (pkg, t, v)
        for names, t, vs in d['vars']:
            for i, n in enumerate(names): gvars[f'{pkg}.{n}'] = (pkg, t, vs[i] if vs else None)
        for fn in d['funcs']:
            fn['pkg'], fn['file'] = pkg, f
            if fn['recv']:
                rt = fn['recv'][1].lstrip('*')
                fn['key'] = f'{pkg}.{rt}.{fn["name"]}'
            else: fn['key'] = f'{pkg}.{fn["name"]}'
            if fn['key'] == 'main.Slider.Layout': slider(fn)
            if pkg == 'wordlists': wordlist(d, fn, f)
            else: add(fn)
        if f.endswith('/main.go'): window(d, open(os.path.join(REPO, f)).read().split('\n'), f)


def wordlist(d, fn, f):
    """a file with a list of words: the variable with the text is a parameter; `init`, and the value of the exported variable"""
    l = f.split('/')[-1][:-3]
    [x] = [ns[0] for ns, t, vs in d['vars'] if vs[0][0] == 'str']
    [(y, v)] = [(ns[0], vs[0]) for ns, t, vs in d['vars'] if vs[0][0] != 'str']
    n = next(i for i, t in enumerate(open(os.path.join(REPO, f)).read().split('\n')) if t.startswith(f'var {y} = ')) + 1
    add(dict(fn, key=f'wordlists.{l}.init', params=[(x, 'string')]))
    add(dict(fn, key=f'wordlists.{l}.{y}', name=y, params=[(x, 'string')], results=['[]string'], body=[('return', [v], n)], line=n, end=n))


def add(fn):
    if fn['key'] in SKIP: return
    fn['lean'] = fn['key'].replace('.', '_')
    fn['globals'] = GLOBALS.get(fn['key'], [])
    if fn['key'] == 'bip44.init':
        # the order the sort leaves is given; its comparison is a function of its own
        srt = fn['body'].pop(0)
        assert srt[:2][1][:2] == ('call', ('sel', ('id', 'sort'), 'Slice')) and srt[1][2][0] == ('id', 'RegCoins'), srt
        _, ps, rs, body = srt[1][2][1]
        less = dict(fn, key='bip44.less', name='init, the comparison of the sort', params=ps, results=rs, body=body, lean='bip44_less',
                    globals=COINS[:1], line=fn['line'] + 1, end=fn['line'] + 3)
        funcs[less['key']] = less
    funcs[fn['key']] = fn


# ---------------------------------------------------------------- the window
def walk(e, p):
    """all parts of `e` with property `p`"""
    if isinstance(e, tuple) and e and p(e): yield e
    if isinstance(e, (tuple, list)):
        for x in e: yield from walk(x, p)


def rewrite(e):
    """widgets as variables"""
    if isinstance(e, list): return [y for y in (rewrite(x) for x in e) if y is not None]
    if not isinstance(e, tuple) or not e: return e
    if e[0] == 'call' and e[1][0] == 'sel':
        f = e[1]
        if f[1][0] == 'id' and f[1][1] in TEXTS and f[2] == 'Text': return f[1]
        if f[2] == 'Clicked': return ('id', 'clicked')
    if e[0] == 'expr' and e[1][0] == 'call' and e[1][1][0] == 'sel':
        f, as_ = e[1][1], e[1][2]
        if f[1][0] == 'id' and f[1][1] in TEXTS and f[2] == 'SetText': return ('assign', '=', [f[1]], rewrite(as_), e[2])
        if f == ('sel', ('id', 'keyPathTabs'), 'ScrollTo'): return None
    if e == ('sel', ('id', 'radioGroupMnemonicWords'), 'Value'): return e[1]
    if e[0] == 'sel' and e[1] == ('id', 'keyPathTabs'): return ('id', f'keyPathTabs.{e[2]}')
    return tuple(rewrite(x) for x in e)


def window(d, lines, file):
    def at(text, start=0): return next(i for i, l in enumerate(lines) if i >= start and text in l) + 1
    def put(name, params, results, body, line, end, about=None):
        add(dict(pkg='main', file=file, key=f'main.{name}', name=about or name, recv=None, params=params, results=results, body=rewrite(body),
                 line=line, end=end))
    for names, t, vs in d['vars']:
        if vs and vs[0][0] == 'func':
            l = at(f'var {names[0]} = func')
            GLOBALS[f'main.{names[0]}'] = WINDOW
            put(names[0], [], [], vs[0][3], l, at('}', l) if lines[l - 1] == '' else next(i for i in range(l, len(lines)) if lines[i] == '}') + 1)
    loop = [f for f in d['funcs'] if f['name'] == 'loop'][0]['body']
    fragments = ['start', 'update', 'left', 'right', 'tab']
    for n in fragments + ['labels', 'tabText']: GLOBALS[f'main.{n}'] = WINDOW
    first = [s for s in loop if s[0] == 'assign' and s[2][0][0] == 'sel' and s[2][0][1] == ('id', 'radioGroupMnemonicWords')]
    put('start', [], [], first, first[0][-1], first[0][-1], 'loop, before the first frame')
    frame = [b for s in walk(loop, lambda e: e[0] == 'switch') for es, b in s[2] if es == [('sel', ('id', 'app'), 'FrameEvent')]][0]
    a = next(i for i, s in enumerate(frame) if s[0] == 'assign' and s[2] == [('id', 'derivationPath')])
    b = next(i for i, s in enumerate(frame) if s[0] == 'assign' and s[2][0][0] == 'sel')
    put('update', [('clicked', 'bool')], [], frame[a:b], frame[a][-1], frame[b][-1] - 1, 'loop, the checks of a frame')
    def clicked(w): return list(walk(frame, lambda e: e[0] == 'if' and e[2][0] == 'call' and e[2][1] == ('sel', ('id', w), 'Clicked')))
    for n, w in (('left', 'outputLeftBtn'), ('right', 'outputRightBtn')):
        [s] = clicked(w)
        l = at(f'if {w}.Clicked')
        put(n, [('clicked', 'bool')], [], [s], l, l + 6, f'loop, the {n} arrow')
    # the closure for one tab, up to the drawing
    [f] = [f for f in walk(frame, lambda e: e[0] == 'func' and [n for n, _ in e[1]] == ['gtx', 'tabIdx'])]
    k = next(i for i, s in enumerate(f[3]) if s[0] == 'var')
    l = at('t := &keyPathTabs.tabs[tabIdx]')
    put('tab', [('tabIdx', 'int'), ('clicked', 'bool')], [], f[3][:k], l, l + 8, 'loop, a tab')
    [txt] = [s for s in walk(f[3][k:], lambda e: e[0] == 'define' and e[1] == ['txt'])]
    put('tabText', [('tabIdx', 'int')], ['string'], f[3][:1] + [('return', txt[2], txt[-1])], txt[-1], txt[-1], 'loop, the text of a tab')
    # the labels: the children of the flex, one after the other
    [s] = [c for c in walk(frame, lambda e: e[0] == 'call' and e[1] == ('sel', ('id', 'tabsSlider'), 'Layout'))]
    body = s[2][1][3]
    out = [('var', [(['labels'], '[]string', None)])]
    for st in body:
        if st[0] == 'return':
            for ch in st[1][0][2][1:]:
                assert ch[1] == ('id', 'Rigid'), ch
                inner = []
                for t in ch[2][0][3]:
                    if t[0] == 'return':
                        label = t[1][0][1][1]
                        assert label[1] == ('sel', ('id', 'material'), 'Label'), label
                        inner.append(('assign', '=', [('id', 'labels')], [('call', ('id', 'append'), [('id', 'labels'), label[2][2]], False, 0)], 0))
                    else: inner.append(t)
                out.append(('block', inner))
            out.append(('return', [('id', 'labels')], 0))
        elif st[0] == 'if': out.append(st[:3] + ([('return', [('id', 'labels')], 0)],) + st[4:])
        elif st[0] == 'define' and st[1] == ['flex']: pass
        else: out.append(st)
    l = at('isValid := ')
    put('labels', [], ['[]string'], out, l, at('keyPath.AddrHex()'), 'loop, the labels')
    # the radio buttons
    [f] = [f for f in walk(frame, lambda e: e[0] == 'func' and [n for n, _ in e[1]] == ['gtx', 'i'])]
    l = at('var k, lbl string')
    put('radio', [('i', 'int')], ['string', 'string'], f[3][:2] + [('return', [('id', 'k'), ('id', 'lbl')], 0)], l, l + 17, 'loop, a radio button')


# ---------------------------------------------------------------- the slider
def slider(fn):
    """`Layout`: buffers of operations are contents at addresses, a recorded call is the address of its buffer, drawing appends to `draws` the shift
    and the content drawn, of dimensions only the width is kept, and offsets last until the function returns"""
    types['main.draw'] = ('main', ('struct', [('x', 'int', False), ('content', 'content', False)]))
    ops, bufs, draws, shift, nil = [('id', n) for n in ('gtx.Ops', 'bufs', 'draws', 'shift', 'nil')]
    call = lambda f, *as_: ('call', ('id', f), list(as_), False, 0)
    put = lambda l, v: ('assign', '=', [l], [v], 0)
    def rw(e):
        if isinstance(e, list): return [y for x in e for y in (st(x) or [rw(x)])]
        if not isinstance(e, tuple) or not e: return e
        if e[0] == 'sel' and e[1] == ('id', 'gtx'): return ('id', f'gtx.{e[2]}')
        if e == ('sel', ('sel', ('id', 'dims'), 'Size'), 'X'): return ('id', 'dims')
        if e[0] == 'call' and e[1] == ('sel', ('id', 'op'), 'Record'): return rw(e[2][0])
        if e[0] == 'call' and e[1] == ('sel', ('id', 'm'), 'Stop'): return ('id', 'm')
        return tuple(rw(x) for x in e)
    def st(e):
        if not isinstance(e, tuple) or not e: return None
        if e[0] == 'define' and e[1] == ['gtx']:
            assert e[2] == [('id', 'gtx')]
            return [('define', ['gtx.Ops'], [ops], 0)]
        if e[0] == 'assign' and e[3][0][0] == 'call':
            f, as_ = e[3][0][1:3]
            if f == ('id', 'new') and as_ == [('sel', ('id', 'op'), 'Ops')]: return [put(rw(e[2][0]), call('len', bufs)), put(bufs, call('append', bufs, nil))]
            if f == ('id', 'w'):
                assert as_ == [('id', 'gtx')]
                return [put(('idx', bufs, ops), ('id', 'w')), put(rw(e[2][0]), ('id', 'width'))]
        if e[0] == 'expr':
            _, (_, x, m), as_, _, _ = e[1]
            if m == 'Reset': return [put(('idx', bufs, rw(x)), nil)]
            if m == 'Execute' and as_ == [('comp', ('sel', ('id', 'op'), 'InvalidateCmd'), [])]: return [put(('id', 'again'), ('id', 'true'))]
            if m == 'Add' and as_ == [('sel', ('id', 'gtx'), 'Ops')]:
                c = ('comp', ('id', 'draw'), [(('id', 'x'), shift), (('id', 'content'), ('idx', bufs, rw(x)))])
                return [('if', None, ('bin', '!=', rw(x), nil), [put(draws, call('append', draws, c))], None)]
            raise Unsupported(str(e))
        if e[0] == 'defer':
            (pop, pas) = (e[1][1], e[1][2]); (push, uas) = (pop[1][1], pop[1][2]); (off, oas) = (push[1][1], push[1][2])
            assert pop[2] == 'Pop' and pas == [] and push[2] == 'Push' and uas == [('sel', ('id', 'gtx'), 'Ops')] and off == ('sel', ('id', 'op'), 'Offset'), e
            [(n, v)] = oas[0][2]
            assert oas[0][1] == ('sel', ('id', 'image'), 'Point') and n == ('id', 'X'), e
            return [put(shift, ('bin', '+', shift, rw(v)))]
        if e[0] == 'return': return [('return', [draws, ('id', 'again')] + rw(e[1]), e[2])]
        return None
    fn['params'] = [('w', 'content'), ('width', 'int'), ('gtx.Now', 'time.Time'), ('gtx.Ops', '*op.Ops')]
    fn['results'] = ['[]draw', 'bool', 'int']
    fn['body'] = [('var', [(['draws'], '[]draw', None), (['again'], 'bool', None), (['shift'], 'int', None)])] + rw(fn['body'])


LIBNAMES = {'time.Duration': 'duration', 'time.Time': 'time', 'op.Ops': 'ops', 'op.CallOp': 'ops', 'layout.Dimensions': 'int'}


def norm(pkg, t):
    """qualified name of a type"""
    if t is None: return None
    if t.startswith('...'): return '[]' + norm(pkg, t[3:])
    if t.startswith('[]'): return '[]' + norm(pkg, t[2:])
    if t.startswith('['):
        n, r = t[1:].split(']', 1); return f'[{n}]' + norm(pkg, r)
    if t.startswith('*'):
        r = norm(pkg, t[1:]); return r if r in ('big', 'ops') else '*' + r
    if t == 'big.Int': return 'big'
    if t == 'bytes.Buffer': return 'buffer'
    if t == 'embed.FS': return 'fs'
    if t in LIBNAMES: return LIBNAMES[t]
    if t.startswith('map['):
        k, v = t[4:].split(']', 1); return f'map[{norm(pkg, k)}]' + norm(pkg, v)
    if t in INTS or t in FLOATS or t in ('string', 'bool', 'error', 'content'): return 'byte' if t == 'uint8' else t
    q = t if '.' in t else f'{pkg}.{t}'
    if q in types:
        p, d = types[q]
        if isinstance(d, tuple) and d[0] == 'alias': return norm(p, d[1])
        return q
    raise Unsupported(f'type {t}')


def under(t):
    if t in types:
        p, d = types[t]
        if isinstance(d, tuple): return d
        return under(norm(p, d))
    return t


def fields(t):
    """(name, type, embedded) of a struct"""
    p, d = types[t]
    return [(n, norm(p, ft), e) for n, ft, e in d[1]]


def isstruct(t): return t in types and isinstance(types[t][1], tuple) and types[t][1][0] == 'struct'
def isbytes(t):
    u = under(t.lstrip('*'))
    return isinstance(u, str) and (u == '[]byte' or (u.startswith('[') and not u.startswith('[]') and u.endswith(']byte')))
def isptr(t): return t.startswith('*')


def leanstr(b):
    s = b.decode()
    return '"' + s.replace('\\', '\\\\').replace('"', '\\"').replace('\n', '\\n') + '"'


def intlit(v, t):
    u = under(t)
    if u in FLOATS:
        q = Fraction(v)
        return f'(.lit (.{FLOATS[u]} {q if q >= 0 and q.denominator == 1 else f"({q.numerator} / {q.denominator})"}))'
    if u not in INTS: raise Unsupported(f'constant of type {t}')
    return f'(.lit (.{INTS[u]} {v if v >= 0 else "(" + str(v) + ")"}))'


def zero(t):
    u = under(t)
    if isptr(t): return '(.lit .nil)'
    if isinstance(u, tuple):
        r = '.nilL'
        for n, ft, e in reversed(fields(t)): r = f'(.cons {zero(ft)} {r})'
        return r
    if u in ('ops', 'content'): return '(.lit .nil)'
    if u == 'time': return '(.lit (.int 0))'
    if u == 'big': return '(.lit (.big 0))'
    if u in ('buffer', '[]byte'): return '(.lit (.bytes []))'
    if u == 'string': return '(.lit (.str []))'
    if u == 'bool': return '(.lit (.bool false))'
    if u == 'error': return '(.lit (.err none))'
    if u in INTS or u in FLOATS: return intlit(0, t)
    if isinstance(u, str) and (u.startswith('[]') or u.startswith('map[')): return '(.lit (.list []))'
    if isbytes(t): return f'(.lit (.bytes (List.replicate {u[1:u.index("]")]} 0)))'
    raise Unsupported(f'zero of {t}')


def args(*l):
    return '⟪' + ', '.join(l) + '⟫'


def lib(f, *l): return f'(.lib .{f} {args(*l)})'


ERRNAME = {'util.ErrUnSupportedOrInvalidPath': 'utilUnSupportedOrInvalidPath'}
LIBTYPES = {'hash', 'regexp'}

# mutating methods, found by looking for assignments to the receiver
mutates = {}


def root(e):
    while e[0] in ('sel', 'idx', 'slice'): e = e[1]
    return e[1] if e[0] == 'id' else None


def assigned(stmts, name, typ, acc):
    def ex(e):
        if not isinstance(e, tuple): return
        if e[0] == 'call':
            f = e[1]
            if f == ('id', 'copy') and root(e[2][0]) == name: acc[0] = True
            if f[0] == 'sel' and f[1] == ('id', name):
                k = f'{typ}.{f[2]}'
                if mutates.get(k): acc[0] = True
        for x in e:
            if isinstance(x, tuple): ex(x)
            elif isinstance(x, list):
                for y in x:
                    ex(y)
    for s in stmts:
        if s[0] == 'assign':
            for l in s[2]:
                if l[0] in ('sel', 'idx') and root(l) == name: acc[0] = True
        for x in s:
            if isinstance(x, list):
                if x and isinstance(x[0], tuple) and x[0] and x[0][0] in ('assign', 'define', 'if', 'for', 'range', 'return', 'expr', 'var', 'switch', 'block'): assigned(x, name, typ, acc)
                else:
                    for y in x: ex(y)
            elif isinstance(x, tuple): ex(x)


def find_mutating():
    while True:
        change = False
        for k, f in funcs.items():
            if f['recv'] and f['recv'][1].startswith('*') and not mutates.get(k):
                acc = [False]
                assigned(f['body'], f['recv'][0], k.rsplit('.', 1)[0], acc)
                if acc[0]: mutates[k] = change = True
        if not change: return


def constval(pkg, e):
    """(value, type or None) of a constant expression"""
    k = e[0]
    if k == 'int': return e[1], None
    if k == 'un' and e[1] == '-':
        v = constval(pkg, e[2])
        return None if v is None else (-v[0], v[1])
    if k == 'id':
        c = consts.get(f'{pkg}.{e[1]}')
        if c is None: return None
        v = constval(c[0], c[2])
        if v is None: return None
        return (v[0], norm(c[0], c[1])) if c[1] else v
    if k == 'sel' and e[1][0] == 'id' and f'{e[1][1]}.{e[2]}' in consts: return constval(e[1][1], ('id', e[2]))
    if k == 'call' and e[1][0] == 'id' and e[1][1] in INTS and len(e[2]) == 1:
        v = constval(pkg, e[2][0])
        return None if v is None else (v[0], 'byte' if e[1][1] == 'uint8' else e[1][1])
    if k == 'bin':
        a, b = constval(pkg, e[2]), constval(pkg, e[3])
        if a is None or b is None: return None
        op = {'+': int.__add__, '-': int.__sub__, '*': int.__mul__, '<<': int.__lshift__}.get(e[1])
        return None if op is None else (op(a[0], b[0]), a[1] or b[1])
    return None


class Fn:
    def __init__(self, f):
        self.f, self.pkg = f, f['pkg']
        self.scopes, self.names = [{}], []
        self.out = []
        self.mut = mutates.get(f['key'], False)
        ps = f['globals'] + ([f['recv']] if f['recv'] else []) + f['params']
        for n, t in ps: self.declare(n, norm(self.pkg, t))
        self.nparams = len(ps)
        self.results = [norm(self.pkg, t) for t in f['results']]

    # ---- variables
    def declare(self, n, t):
        self.names.append((n, t))
        if n and n != '_': self.scopes[-1][n] = (len(self.names) - 1, t)
        return len(self.names) - 1
    def temp(self, t): return self.declare(None, t)
    def lookup(self, n):
        for s in reversed(self.scopes):
            if n in s: return s[n]
        return None

    # ---- expressions: (code, type)
    def coerce(self, e, want):
        """translate `e` for a place of type `want`"""
        if e == ('id', 'nil') and want is not None: return zero(want), want
        c = constval(self.pkg, e)
        if c is not None:
            t = c[1] or want or 'int'
            if under(t) == 'big': raise Unsupported('constant big')
            return intlit(c[0], t), t
        return self.expr(e, want)

    def many(self, es, wants): return [self.coerce(e, w)[0] for e, w in zip(es, wants)]

    def expr(self, e, want=None):
        k = e[0]
        c = constval(self.pkg, e)
        if c is not None and not (k == 'id' and self.lookup(e[1])):
            t = c[1] or want or 'int'
            return intlit(c[0], t), t
        if k == 'str': return f'(.lit (.str (str {leanstr(e[1])})))', (want if want and under(want) == 'string' else 'string')
        if k == 'id':
            v = self.lookup(e[1])
            if v: return f'(.var {v[0]})', v[1]
            if e[1] in ('true', 'false'): return f'(.lit (.bool {e[1]}))', 'bool'
            return self.globalvar(self.pkg, e[1])
        if k == 'un': return self.unary(e, want)
        if k == 'bin': return self.binary(e, want)
        if k == 'sel': return self.select(e)
        if k == 'idx': return self.index(e)
        if k == 'slice':
            x, t = self.expr(e[1])
            lo = self.coerce(e[2], 'int')[0] if e[2] else intlit(0, 'int')
            rt = 'string' if under(t) == 'string' else '[]byte' if isbytes(t) else under(t)
            if e[3] is None: return lib('sliceFrom', x, lo), rt
            return lib('slice', x, lo, self.coerce(e[3], 'int')[0]), rt
        if k == 'comp': return self.composite(e)
        if k == 'call':
            r = self.call(e, want)
            if len(r) != 1: raise Unsupported(f'{len(r)} values')
            return r[0]
        raise Unsupported(str(e))

    def globalvar(self, pkg, n):
        q = f'{pkg}.{n}'
        if q == 'wordlists.English': return '(.glob .english)', '[]string'
        if q not in gvars: raise Unsupported(f'name {q}')
        p, t, v = gvars[q]
        if n.startswith('Err'):
            assert v[0] == 'call' and v[1] == ('sel', ('id', 'errors'), 'New'), v
            c = ERRNAME.get(q, n[3].lower() + n[4:])
            return f'(.lit (.err (some .{c})))', 'error'
        if q == 'bip39.wordList': return '(.glob .wordList)', '[]string'
        if q == 'bip32.curve': return None, 'curve'
        if v is not None and v[0] == 'str': return self.expr(v)
        if v is not None and v[0] == 'id': return self.globalvar(p, v[1])
        if v is not None and v[0] == 'comp' and v[1] == ('id', 'VersionBytes'):
            return f'(.lit (.vb {n[0].lower() + n[1:]}))', 'bip32.VersionBytes'
        if v is not None and v[0] == 'call':
            if v[1] == ('sel', ('id', 'big'), 'NewInt'): return f'(.lit (.big {v[2][0][1]}))', 'big'
            if v[1] == ('sel', ('id', 'regexp'), 'MustCompile'): return f'(.lit (.str (str {leanstr(v[2][0][1])})))', 'regexp'
        raise Unsupported(f'variable {q}')

    def unary(self, e, want):
        op, x = e[1], e[2]
        if op == '!':
            a, t = self.expr(x); assert t == 'bool'
            return f'(.not {a})', 'bool'
        if op == '&':
            a, t = self.expr(x)
            if t == 'big': return a, t
            return a, '*' + t
        if op == '*':
            a, t = self.expr(x); assert isptr(t)
            return lib('deref', a), t[1:]
        if op == '-':
            a, t = self.expr(x)
            return lib('neg', a), t
        raise Unsupported(f'unary {op}')

    def hascall(self, e):
        """does evaluating `e` call a function of the repository?"""
        if isinstance(e, list): return any(self.hascall(x) for x in e)
        if not isinstance(e, tuple): return False
        if e and e[0] == 'call':
            try:
                if self.callee(e)[0] == 'fn': return True
            except Unsupported: pass
        return any(self.hascall(x) for x in e if isinstance(x, (tuple, list)))

    BIN = {'+': 'add', '-': 'sub', '*': 'mul', '/': 'div', '%': 'mod', '&': 'band', '<<': 'shl', '==': 'eq', '!=': 'ne', '<': 'lt', '<=': 'le',
           '>': 'gt', '>=': 'ge'}

    def binary(self, e, want):
        op, a, b = e[1:]
        if op in ('&&', '||'):
            ctor = 'and' if op == '&&' else 'or'
            x, _ = self.expr(a)
            if not self.hascall(b): return f'(.{ctor} {x} {self.expr(b)[0]})', 'bool'
            t = self.temp('bool')
            self.out.append(f'.set {t} {x}')
            saved, self.out = self.out, []
            y, _ = self.expr(b)
            self.out.append(f'.set {t} {y}')
            inner, self.out = self.out, saved
            yes, no = (inner, ['.skip']) if op == '&&' else (['.skip'], inner)
            self.out.append(('ite', f'(.var {t})', yes, no))
            return f'(.var {t})', 'bool'
        if b == ('id', 'nil') and op in ('==', '!='):
            x, t = self.expr(a)
            r = lib('isNil', x)
            return (r if op == '==' else f'(.not {r})'), 'bool'
        if op == '<<':
            x, t = self.coerce(a, want)
            y, _ = self.coerce(b, 'uint')
            return f'(.bin .shl {x} {y})', t
        ca, cb = constval(self.pkg, a), constval(self.pkg, b)
        arith = op not in ('==', '!=', '<', '<=', '>', '>=')
        untyped = lambda c, x: (c is not None and c[1] is None) or (x[0] == 'bin' and x[1] == '<<' and (constval(self.pkg, x[2]) or (0, 0))[1] is None)
        if untyped(ca, a) and not untyped(cb, b):
            y, t = self.expr(b); x, _ = self.coerce(a, t)
        else:
            x, t = self.coerce(a, want if arith else None)
            y, t2 = self.coerce(b, t)
            if under(t) != under(t2): raise Unsupported(f'{op} on {t}, {t2}')
        if under(t) not in INTS and under(t) not in FLOATS and under(t) != 'string': raise Unsupported(f'{op} on {t}')
        return f'(.bin .{self.BIN[op]} {x} {y})', (t if arith else 'bool')

    def field(self, x, t, n):
        """the field of a struct value, promoted ones included"""
        fs = fields(t)
        for i, (fn, ft, emb) in enumerate(fs):
            if fn == n: return lib(f'(field {i})', x).replace('..', '.').replace('.(field', '(.field'), ft
        for i, (fn, ft, emb) in enumerate(fs):
            if emb and isstruct(ft):
                r = self.field(lib(f'(field {i})', x).replace('.(field', '(.field'), ft, n)
                if r: return r
        return None

    def select(self, e):
        if e[1] == ('id', 'curveParams') or e[1] == ('call', ('sel', ('id', 'curve'), 'Params'), [], False, e[1][-1]):
            return f'(.glob .curve{e[2]})', 'big'
        if e[1][0] == 'id' and self.lookup(e[1][1]) is None and f'{e[1][1]}.{e[2]}' in gvars: return self.globalvar(e[1][1], e[2])
        if e == ('sel', ('id', 'wordlists'), 'English'): return self.globalvar('wordlists', 'English')
        x, t = self.expr(e[1])
        t = t.lstrip('*')
        if t == 'bip32.VersionBytes':
            ft = [ft for n, ft, _ in fields(t) if n == e[2]][0]
            return lib(f'vb{e[2]}', x), ft
        r = self.field(x, t, e[2]) if isstruct(t) else None
        if r is None: raise Unsupported(f'selector {e}')
        return r

    def elem(self, t):
        u = under(t.lstrip('*'))
        return u[u.index(']') + 1:]

    def index(self, e):
        g = self.globalmap(e[1])
        if g:
            f, kt, vt, lit = g
            if lit is None: raise Unsupported('map lookup without ok')
            return lib('mapGet', lit, self.coerce(e[2], kt)[0]), vt
        x, t = self.expr(e[1])
        if t.startswith('map['): return lib('(field 0)', self.tableget(x, t, e[2])).replace('.(field', '(.field'), self.elem(t)
        i, it = self.coerce(e[2], 'int')
        return lib('index', x, i), self.elem(t)

    def tableget(self, x, t, k): return lib('tableGet', x, self.coerce(k, t[4:t.index(']')])[0], zero(self.elem(t)))

    MAPS = {'bip39.wordMap': ('wordMapGet', 'string', 'int'),
            'bip32.PvtFlagToHDBytesSlice': ('pvtFlagGet', 'uint32', '[]bip32.VersionBytes'),
            'bip32.PubFlagToHDBytesSlice': ('pubFlagGet', 'uint32', '[]bip32.VersionBytes'),
            'bip32.PathToHDBytesSlice': ('pathTableGet', 'string', '[]bip32.VersionBytes')}

    def globalmap(self, e):
        if e[0] != 'id' or self.lookup(e[1]): return None
        q = f'{self.pkg}.{e[1]}'
        if q in self.MAPS: return self.MAPS[q] + (None,)
        if q in gvars:
            p, t, v = gvars[q]
            if v and v[0] == 'comp' and v[1] == ('type', 'map[int]*big.Int'):
                es = []
                for a, b in v[2]:
                    assert b[1] == ('sel', ('id', 'big'), 'NewInt'), b
                    es.append(f'.list [.int {a[1]}, .big {b[2][0][1]}]')
                return (None, 'int', 'big', f'(.lit (.list [{", ".join(es)}]))')
        return None

    def typeof(self, e):
        if e[0] == 'type': return norm(self.pkg, e[1])
        if e[0] == 'id': return norm(self.pkg, e[1])
        if e[0] == 'sel': return norm(self.pkg, f'{e[1][1]}.{e[2]}')
        raise Unsupported(f'type {e}')

    def composite(self, e):
        t = self.typeof(e[1])
        if isstruct(t):
            fs, vals = fields(t), {}
            for a, b in e[2]:
                ft = [x for x in fs if x[0] == a[1]][0][1]
                vals[a[1]] = self.coerce(b, ft)[0]
            return args(*[vals.get(n) or zero(ft) for n, ft, _ in fs]), t
        if not e[2]: return zero(t), t
        if isbytes(t): return lib('bytesOf', *[self.coerce(b, 'byte')[0] for _, b in e[2]]), t
        if t.startswith('[]'): return args(*[self.coerce(b, t[2:])[0] for _, b in e[2]]), t
        raise Unsupported(f'composite {t}')

    # ---- calls
    def istype(self, e):
        if e[0] == 'type': return True
        if e[0] == 'id' and self.lookup(e[1]) is None: return e[1] in INTS or e[1] in FLOATS or e[1] == 'string' or f'{self.pkg}.{e[1]}' in types
        if e[0] == 'sel' and e[1][0] == 'id' and self.lookup(e[1][1]) is None: return f'{e[1][1]}.{e[2]}' in types
        return False

    def callee(self, e):
        f = e[1]
        if self.istype(f): return ('conv',)
        if f[0] == 'id':
            if self.lookup(f[1]): raise Unsupported('call of a variable')
            if f'{self.pkg}.{f[1]}' in funcs: return ('fn', f'{self.pkg}.{f[1]}', None)
            return ('lib', f[1])
        if f[0] == 'sel':
            b = f[1]
            if b[0] == 'id' and self.lookup(b[1]) is None:
                if f'{b[1]}.{f[2]}' in funcs: return ('fn', f'{b[1]}.{f[2]}', None)
                if f'{self.pkg}.{b[1]}' not in gvars: return ('lib', f'{b[1]}.{f[2]}')
            if b[0] == 'sel' and b[1][0] == 'id' and b[1][1] == 'binary': return ('lib', f'binary.{f[2]}')
            t = self.peektype(b).lstrip('*')
            if f'{t}.{f[2]}' in funcs: return ('fn', f'{t}.{f[2]}', b)
            if isstruct(t):
                for n, ft, emb in fields(t):
                    if emb and f'{ft}.{f[2]}' in funcs: return ('fn', f'{ft}.{f[2]}', ('sel', b, n))
            return ('meth', t, f[2], b)
        raise Unsupported(f'call {f}')

    def peektype(self, e):
        n, o, sc = len(self.names), len(self.out), [dict(s) for s in self.scopes]
        t = self.expr(e)[1]
        del self.names[n:]; del self.out[o:]; self.scopes = sc
        return t

    def call(self, e, want=None):
        """list of (code, type), one per result"""
        c, as_ = self.callee(e), e[2]
        if c[0] == 'conv': return [self.convert(self.typeof(e[1]), as_[0])]
        if c[0] == 'fn': return self.progcall(c[1], c[2], as_, e[3])
        if c[0] == 'lib': return self.libcall(c[1], as_, e[3])
        return self.methcall(*c[1:], as_)

    def progcall(self, key, recv, as_, ell, dsts=None):
        f = funcs[key]
        pts = [norm(f['pkg'], t) for _, t in f['params']]
        xs = [self.expr(('id', n))[0] for n, _ in f['globals']]
        if recv is not None: xs.append(self.expr(recv)[0])
        if len(as_) == 1 and len(pts) > 1 and as_[0][0] == 'call':
            xs += [c for c, _ in self.call(as_[0])]
        else:
            variadic = f['params'] and f['params'][-1][1].startswith('...')
            n = len(pts) - 1 if variadic else len(pts)
            xs += self.many(as_[:n], pts[:n])
            if variadic:
                assert not ell
                xs.append(args(*[self.coerce(a, pts[-1][2:])[0] for a in as_[n:]]))
        rts = [norm(f['pkg'], t) for t in f['results']]
        ts = [self.temp(t) for t in rts]
        ds = [f'some {self.lookup(n)[0]}' for n, _ in f['globals']] + [f'some {t}' for t in ts]
        if mutates.get(key):
            assert recv[0] == 'id', recv
            ds = [f'some {self.lookup(recv[1])[0]}'] + ds
        self.out.append(f'.call [{", ".join(ds)}] .{f["lean"]} {args(*xs)}')
        return [(f'(.var {t})', rt) for t, rt in zip(ts, rts)]

    def convert(self, t, a):
        x, s = self.coerce(a, t if under(t) in INTS and constval(self.pkg, a) else None)
        u, us = under(t), under(s.lstrip('*'))
        if u in INTS and us in INTS: return lib(f'(conv .{INTS[u]})', x).replace('.(conv', '(.conv'), t
        if u == 'float32' and (us in FLOATS or us == 'int'): return lib('toF32', x), t
        if u == 'int' and us == 'float32': return lib('truncF', x), t
        if u == 'string' and us == 'string': return x, t
        if u == 'string' and isbytes(s): return lib('toStr', x), t
        if u == '[]byte' and us == 'string': return lib('toBytes', x), t
        if isbytes(t) and isbytes(s):
            if us == u: return x, t
            return lib('toArray', intlit(int(u[1:u.index(']')]), 'int'), x), t
        raise Unsupported(f'conversion of {s} to {t}')

    def tuple(self, code, *ts):
        vs = [self.temp(t) for t in ts]
        self.out.append(f'.setTuple [{", ".join(map(str, vs))}] {code}')
        return [(f'(.var {v})', t) for v, t in zip(vs, ts)]

    def assign_var(self, e, code):
        """`e` is a variable, possibly with `[:]` behind it or `&` before it"""
        if e[0] == 'slice' and e[2] is None and e[3] is None: e = e[1]
        if e[0] != 'id' or self.lookup(e[1]) is None: raise Unsupported(f'assignment to {e}')
        self.out.append(f'.set {self.lookup(e[1])[0]} {code}')

    SIMPLE = {'sha256.Sum256': ('sha256', ['[]byte'], '[32]byte'), 'chainhash.DoubleHashB': ('dblSha256', ['[]byte'], '[]byte'),
              'strings.Split': ('split', ['string', 'string'], '[]string'), 'strings.Contains': ('contains', ['string', 'string'], 'bool'),
              'strings.ReplaceAll': ('replaceAll', ['string'] * 3, 'string'), 'strings.Join': ('join', ['[]string', 'string'], 'string'),
              'strings.Repeat': ('repeatStr', ['string', 'int'], 'string'), 'strings.Fields': ('fields', ['string'], '[]string'),
              'strings.TrimSpace': ('trimSpace', ['string'], 'string'),
              'hex.EncodeToString': ('hexEncode', ['[]byte'], 'string'), 'base58.Encode': ('b58Encode', ['[]byte'], 'string'),
              'base58.Decode': ('b58Decode', ['string'], '[]byte'), 'binary.Uint32': ('getUint32', ['[]byte'], 'uint32'),
              'binary.Uint16': ('getUint16', ['[]byte'], 'uint16'), 'bytes.Compare': ('bytesCompare', ['[]byte', '[]byte'], 'int'),
              'big.NewInt': ('bigNew', ['int64'], 'big'), 'crc32.ChecksumIEEE': ('crc32', ['[]byte'], 'uint32')}

    def libcall(self, n, as_, ell):
        if n in self.SIMPLE:
            f, ts, r = self.SIMPLE[n]
            return [(lib(f, *self.many(as_, ts)), r)]
        if n == 'len':
            return [(lib('len', self.expr(as_[0])[0]), 'int')]
        if n == 'make':
            t = self.typeof(as_[0]); k = self.coerce(as_[1], 'int')[0]
            if t == '[]byte': return [(lib('makeBytes', k), t)]
            return [(lib('makeList', zero(t[2:]), k), t)]
        if n == 'new':
            assert as_ == [('sel', ('id', 'big'), 'Int')]
            return [('(.lit (.big 0))', 'big')]
        if n == 'append':
            x, t = self.expr(as_[0])
            if ell: return [(lib('append', x, self.expr(as_[1])[0]), under(t))]
            assert len(as_) == 2
            return [(lib('snoc', x, self.coerce(as_[1], self.elem(t))[0]), under(t))]
        if n == 'copy':
            d, src = as_
            assert d[0] == 'slice'
            x, t = self.expr(d[1])
            lo = self.coerce(d[2], 'int')[0] if d[2] else intlit(0, 'int')
            hi = self.coerce(d[3], 'int')[0] if d[3] else lib('len', x)
            self.assign_var(d[1], lib('copyInto', x, lo, hi, self.expr(src)[0]))
            return []
        if n in ('binary.PutUint32', 'binary.PutUint16'):
            x = self.expr(as_[0][1] if as_[0][0] == 'slice' and as_[0][2:] == (None, None) else as_[0])[0]
            v = self.coerce(as_[1], 'uint32' if n.endswith('32') else 'uint16')[0]
            self.assign_var(as_[0], lib('p' + n[8:], x, v))
            return []
        if n == 'strconv.ParseUint': return self.tuple(lib('parseUint', *self.many(as_, ['string', 'int', 'int'])), 'uint64', 'error')
        if n in ('panic', 'log.Fatal'):
            # the end of the process in either case
            self.out.append(f'.set {self.temp("bool")} ' + lib('goPanic', self.expr(as_[0])[0]))
            return []
        if n == 'os.WriteFile':
            self.assign_var(('id', as_[0][1].decode()), self.expr(as_[1])[0])
            return [('(.lit (.err none))', 'error')]
        if n == 'strconv.Atoi': return self.tuple(lib('atoi', self.expr(as_[0])[0]), 'int', 'error')
        if n == 'hex.DecodeString': return self.tuple(lib('hexDecode', self.expr(as_[0])[0]), '[]byte', 'error')
        if n in ('fmt.Sprintf', 'fmt.Errorf'):
            return [(lib(n[4:].lower(), *[self.expr(a)[0] for a in as_]), 'string' if n[4] == 'S' else 'error')]
        if n == 'regexp.MustCompile':
            assert as_[0][0] == 'str'
            return [(self.expr(as_[0])[0], 'regexp')]
        if n == 'ripemd160.New': return [('(.lit (.hash .ripemd160 [] []))', 'hash')]
        if n == 'sha3.NewLegacyKeccak256': return [('(.lit (.hash .keccak256 [] []))', 'hash')]
        if n == 'hmac.New':
            assert as_[0] == ('sel', ('id', 'sha512'), 'New')
            return [(lib('hmacNew', self.expr(as_[1])[0]), 'hash')]
        if n == 'io.WriteString': return self.write(as_[0], lib('toBytes', self.expr(as_[1])[0]))
        if n == 'rand.Read':
            self.assign_var(as_[0], lib('randRead', self.expr(as_[0])[0]))
            return [(None, 'int'), ('(.lit (.err none))', 'error')]
        if n == 'pbkdf2.Key':
            assert as_[4] == ('sel', ('id', 'sha512'), 'New')
            return [(lib('pbkdf2', *self.many(as_[:4], ['[]byte', '[]byte', 'int', 'int'])), '[]byte')]
        raise Unsupported(f'library {n}')

    def write(self, h, data):
        x, t = self.expr(h); assert t == 'hash'
        self.assign_var(h, lib('hashWrite', x, data))
        return [(lib('len', data), 'int'), ('(.lit (.err none))', 'error')]

    BIG = {'SetBytes': 'bigSetBytes', 'Mul': 'bigMul', 'Or': 'bigOr', 'And': 'bigAnd', 'Div': 'bigDiv', 'Add': 'bigAdd', 'Sub': 'bigSub', 'Mod': 'bigMod'}

    def methcall(self, t, m, b, as_):
        if t == 'curve':
            xs = [self.expr(a)[0] for a in as_]
            return self.tuple(lib({'Add': 'curveAdd', 'ScalarBaseMult': 'baseMult'}[m], *xs), 'big', 'big')
        if t == 'big':
            if m in ('Bytes', 'Uint64', 'Sign'):
                assert not as_
                return [(lib('big' + m, self.expr(b)[0]), {'Bytes': '[]byte', 'Uint64': 'uint64', 'Sign': 'int'}[m])]
            if m == 'Bit': return [(lib('bigBit', self.expr(b)[0], self.coerce(as_[0], 'int')[0]), 'uint')]
            if m == 'Cmp': return [(lib('bigCmp', self.expr(b)[0], self.expr(as_[0])[0]), 'int')]
            if m in self.BIG: code = lib(self.BIG[m], *[self.expr(a)[0] for a in as_])
            elif m == 'Exp':
                assert as_[2] == ('id', 'nil')
                code = lib('bigExp', *[self.expr(a)[0] for a in as_[:2]])
            elif m == 'ModSqrt': code = lib('bigModSqrt', self.expr(b)[0], *[self.expr(a)[0] for a in as_])
            else: raise Unsupported(f'big {m}')
            if b[0] == 'id':
                self.assign_var(b, code)
                return [self.expr(b)]
            if b[0] == 'call' and self.callee(b) in (('lib', 'big.NewInt'), ('lib', 'new')): return [(code, 'big')]
            raise Unsupported(f'big receiver {b}')
        if t == 'hash':
            if m == 'Write': return self.write(b, self.expr(as_[0])[0])
            if m == 'Sum':
                assert as_ == [('id', 'nil')]
                return [(lib('hashSum', self.expr(b)[0]), '[]byte')]
        if t == 'buffer':
            x = self.expr(b)[0]
            if m == 'WriteByte': self.assign_var(b, lib('snoc', x, self.coerce(as_[0], 'byte')[0])); return []
            if m == 'Write': self.assign_var(b, lib('append', x, self.expr(as_[0])[0])); return []
            if m == 'Bytes': return [(x, '[]byte')]
        if t == 'time' and m == 'IsZero': return [(f'(.bin .eq {self.expr(b)[0]} (.lit (.int 0)))', 'bool')]
        if t == 'time' and m == 'Sub': return [(lib('timeSub', self.expr(b)[0], self.expr(as_[0])[0]), 'duration')]
        if t == 'duration' and m == 'Seconds': return [(lib('seconds', self.expr(b)[0]), 'float64')]
        if t == 'fs' and m == 'ReadFile': return self.tuple(lib('readFile', self.expr(b)[0], self.expr(as_[0])[0]), '[]byte', 'error')
        if t == 'regexp':
            x = self.expr(b)[0]
            if m == 'MatchString': return [(lib('regexMatch', x, self.expr(as_[0])[0]), 'bool')]
            if m == 'ReplaceAllString': return [(lib('regexReplaceAll', x, *[self.expr(a)[0] for a in as_]), 'string')]
        raise Unsupported(f'method {t}.{m}')

    # ---- statements
    def block(self, stmts):
        saved, self.out = self.out, []
        self.scopes.append({})
        for s in stmts: self.stmt(s)
        self.scopes.pop()
        r, self.out = self.out, saved
        return r or ['.skip']

    def results_of(self, es, n):
        """n values of the right-hand side `es`"""
        if len(es) == n: return [self.coerce(e, None) for e in es]
        assert len(es) == 1
        e = es[0]
        if e[0] == 'idx':
            if self.globalmap(e[1]) is None:
                x, t = self.expr(e[1])
                return self.tuple(self.tableget(x, t, e[2]), self.elem(t), 'bool')
            f, kt, vt, lit = self.globalmap(e[1])
            return self.tuple(lib(f, self.coerce(e[2], kt)[0]), vt, 'bool')
        return self.call(e)

    def stmt(self, s):
        k = s[0]
        if k == 'define':
            first = len(self.names)
            rs = self.results_of(s[2], len(s[1]))
            for n, (c, t) in zip(s[1], rs):
                if n == '_': continue
                old = self.scopes[-1].get(n)
                if not old and c.startswith('(.var ') and int(c[6:-1]) >= first:
                    self.names[int(c[6:-1])] = (n, t)
                    self.scopes[-1][n] = (int(c[6:-1]), t)
                    continue
                i = old[0] if old else self.declare(n, t)
                self.out.append(f'.set {i} {c}')
        elif k == 'var':
            for names, t, vs in s[1]:
                t = norm(self.pkg, t)
                for i, n in enumerate(names):
                    c, ct = self.coerce(vs[i], t) if vs else (zero(t), t)
                    self.out.append(f'.set {self.declare(n, t or ct)} {c}')
        elif k == 'assign':
            op, ls, rs = s[1], s[2], s[3]
            if op != '=':
                assert len(ls) == 1
                c, t = self.binary(('bin', op[0], ls[0], rs[0]), None)
                self.store(ls[0], c)
            elif len(ls) == 1 and len(rs) == 1:
                l = ls[0]
                if l[0] == 'id': want = self.lookup(l[1])[1] if self.lookup(l[1]) else None
                else: want = self.peektype(l) if l[0] == 'sel' or rs[0] == ('id', 'nil') else None
                c = self.coerce(rs[0], want)[0]
                if l != ('id', '_'): self.store(l, c)
            else:
                vals = self.results_of(rs, len(ls))
                for l, (c, t) in zip(ls, vals):
                    if l != ('id', '_'): self.store(l, c)
        elif k == 'expr': self.call(s[1])
        elif k == 'return': self.ret(s[1])
        elif k == 'if':
            self.scopes.append({})
            if s[1]: self.stmt(s[1])
            c, _ = self.expr(s[2])
            a = self.block(s[3]); b = self.block(s[4]) if s[4] is not None else ['.skip']
            self.scopes.pop()
            self.out.append(('ite', c, a, b))
        elif k == 'switch':
            x, t = self.expr(s[1])
            default, arms = ['.skip'], []
            for es, body in s[2]:
                b = self.block(body)
                if es is None: default = b
                else: arms.append((es, b))
            r = default
            for es, b in reversed(arms):
                assert len(es) == 1
                r = [('ite', f'(.bin .eq {x} {self.coerce(es[0], t)[0]})', b, r)]
            self.out += r
        elif k == 'for':
            self.scopes.append({})
            if s[1]: self.stmt(s[1])
            n = len(self.out)
            c, _ = self.expr(s[2])
            assert len(self.out) == n, 'call in a loop condition'
            body = self.block(s[4])
            post = self.block([s[3]])
            self.scopes.pop()
            self.out.append(('for', c, post, body))
        elif k == 'range':
            x, t = self.expr(s[3])
            self.scopes.append({})
            et = self.elem(t)
            if t.startswith('map['):
                # the entries, in the order the map is ranged over
                assert s[1] == ('id', '_')
                e = self.temp(t)
                val = self.declare(s[2][1], et)
                body = [f'.set {val} ' + lib('(field 1)', f'(.var {e})').replace('.(field', '(.field')] + self.block(s[4])
                self.scopes.pop()
                self.out.append(('range', f'.range none (some {e}) {x}', body))
                return
            key = None if s[1] is None or s[1] == ('id', '_') else self.declare(s[1][1], 'int')
            val = None if s[2] is None or s[2] == ('id', '_') else self.declare(s[2][1], et)
            body = self.block(s[4])
            self.scopes.pop()
            o = lambda v: 'none' if v is None else f'(some {v})'
            self.out.append(('range', f'.range {o(key)} {o(val)} {x}', body))
        elif k == 'break': self.out.append('.brk')
        elif k == 'block': self.out += self.block(s[1])
        else: raise Unsupported(k)

    def store(self, l, c):
        if l[0] == 'id': self.assign_var(l, c)
        elif l[0] == 'idx':
            x, t = self.expr(l[1])
            if t.startswith('map['): self.store(l[1], lib('tableSet', x, self.coerce(l[2], t[4:t.index(']')])[0], c))
            else: self.store(l[1], lib('setIndex', x, self.coerce(l[2], 'int')[0], c))
        elif l[0] == 'sel':
            x, t = self.expr(l[1])
            i = [n for n, _, _ in fields(t.lstrip('*'))].index(l[2])
            self.store(l[1], lib(f'(setField {i})', x, c).replace('.(setField', '(.setField'))
        else: raise Unsupported(f'store {l}')

    def ret(self, es):
        if len(es) == 1 and len(self.results) > 1: cs = [c for c, _ in self.call(es[0])]
        else: cs = self.many(es, self.results)
        if self.mut: cs = [f'(.var {len(self.f["globals"])})'] + cs
        cs = [f'(.var {i})' for i, _ in enumerate(self.f['globals'])] + cs
        self.out.append(f'.ret {args(*cs)}')

    def translate(self):
        for s in self.f['body']: self.stmt(s)
        if not self.results: self.ret([])
        return self.out


bodies = []   # loop bodies of the function being written: (name, text)


def body_name(fn, body):
    text = show(body, 1, fn)
    name = f'{fn}_body{len([1 for n, _ in bodies if "_body" in n]) + 1}'
    bodies.append((name, text))
    return name


def show(stmts, ind, fn):
    pad = '  ' * ind
    parts = []
    for s in stmts:
        if isinstance(s, str): parts.append(pad + s)
        elif s[0] == 'ite':
            parts.append(f'{pad}.ite {s[1]} (\n{show(s[2], ind + 1, fn)}) (\n{show(s[3], ind + 1, fn)})')
        elif s[0] == 'for':
            body = body_name(fn, s[3])
            cond, post = body.replace('_body', '_cond'), body.replace('_body', '_post')
            bodies.append((cond, '  ' + s[1]))
            bodies.append((post, show(s[2], 1, fn)))
            parts.append(f'{pad}.for_ {cond} {post} {body}')
        elif s[0] == 'range':
            parts.append(f'{pad}{s[1]} {body_name(fn, s[2])}')
    return ' ;;\n'.join(parts)


def main():
    load(); find_mutating()
    o = ['import Verif.Src.Lang', '', '/-!', '# The functions of the repository as terms',
         '', 'Written by tools/gen_src.py from the text of the Go files; do not edit.', '-/', '', 'namespace Bips.Src', '',
         'open Bips (str)', '']
    o.append('/-- What each function does: its body and the number of its variables. -/')
    o2 = []
    for k, f in funcs.items():
        t = Fn(f)
        try: body = t.translate()
        except Unsupported as x:
            print(f'{k}: unsupported: {x}', file=sys.stderr); raise
        vs = ', '.join(f'{i} `{n}`' for i, (n, _) in enumerate(t.names) if n)
        bodies.clear()
        text = show(body, 1, f["lean"])
        for name, b in bodies:
            part = {'body': 'body', 'cond': 'condition', 'post': 'post statement'}[name[len(f["lean"]) + 1:][:4]]
            o2.append(f'/-- The {part} of loop {name[len(f["lean"]) + 5:]} of `{f["name"]}` ({f["file"]}:{f["line"]}-{f["end"]}). -/')
            o2.append(f'def {name} : {"Expr" if part == "condition" else "Stmt"} :=\n{b}\n')
        o2.append(f'/-- `{f["name"]}` ({f["file"]}:{f["line"]}-{f["end"]}). Variables: {vs or "none"}. -/')
        o2.append(f'def {f["lean"]} : Stmt :=\n{text}\n')
        f['nvars'] = len(t.names)
    o = o[:-1] + o2
    o.append('/-- The body of each function and the number of its variables. -/')
    o.append('def code : Fn → Stmt × Nat')
    for k, f in funcs.items(): o.append(f'  | .{f["lean"]} => ({f["lean"]}, {f["nvars"]})')
    o += ['', 'end Bips.Src', '']
    open(OUT, 'w').write('\n'.join(o))
    fn = ['import Mathlib.Init' if False else '/-!', '# Names of the functions', '', 'Written by tools/gen_src.py; do not edit.', '-/', '', 'namespace Bips.Src', '',
          '/-- The functions of the repository that are translated, each with its place in the text. -/', 'inductive Fn']
    for k, f in funcs.items(): fn.append(f'  | {f["lean"]} -- {f["file"]}:{f["line"]}')
    fn += ['  deriving DecidableEq', '', 'end Bips.Src', '']
    open(os.path.join(os.path.dirname(OUT), 'Names.lean'), 'w').write('\n'.join(fn))
    print(len(funcs), 'functions')
    print([k for k in mutates])


if __name__ == '__main__': main()
