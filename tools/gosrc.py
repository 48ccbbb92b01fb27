#!/usr/bin/env python3
"""A parser for the part of Go the repository uses (tokens, semicolons, declarations, statements, expressions)."""
import re

TOK = re.compile(r'''(?P<ws>[ \t\r]+)|(?P<nl>\n)|(?P<lc>//[^\n]*)|(?P<bc>/\*.*?\*/)|(?P<raw>`[^`]*`)|(?P<str>"(?:[^"\\]|\\.)*")|(?P<chr>'(?:[^'\\]|\\.)+')|(?P<num>0[xX][0-9a-fA-F]+|\d+(?:\.\d+)?)|(?P<id>[A-Za-z_]\w*)|(?P<op><<=|>>=|&\^|\.\.\.|:=|\+\+|--|&&|\|\||==|!=|<=|>=|<<|>>|\+=|-=|\*=|/=|%=|&=|\|=|[-+*/%&|^<>=!()\[\]{},;.:])''', re.S)
KEYWORDS = {'break', 'case', 'const', 'continue', 'default', 'else', 'for', 'func', 'if', 'import', 'map', 'package', 'range', 'return',
            'struct', 'switch', 'type', 'var', 'interface', 'go', 'select', 'defer'}


def tokens(src):
    out, i, line = [], 0, 1
    def ins():
        if out:
            k, v, _ = out[-1]
            if k in ('id', 'num', 'str', 'chr') or (k == 'kw' and v in ('break', 'continue', 'return')) or v in ('++', '--', ')', ']', '}'):
                if k != 'kw' or v in ('break', 'continue', 'return'):
                    out.append(('op', ';', line))
    while i < len(src):
        m = TOK.match(src, i)
        if not m: raise SyntaxError(f"line {line}: {src[i:i+20]!r}")
        k, v = m.lastgroup, m.group()
        if k == 'nl': ins()
        elif k == 'lc': pass
        elif k == 'bc':
            if '\n' in v: ins()
        elif k == 'ws': pass
        elif k == 'id': out.append(('kw' if v in KEYWORDS else 'id', v, line))
        elif k == 'raw': out.append(('str', v[1:-1].replace('\r', '').encode(), line))
        elif k == 'str': out.append(('str', unquote(v[1:-1]), line))
        elif k == 'num': out.append(('num', int(v, 0) if '.' not in v else float(v), line))
        elif k == 'chr': out.append(('num', ord(unquote(v[1:-1]).decode()), line))
        else: out.append(('op', v, line))
        line += v.count('\n'); i = m.end()
    ins(); out.append(('eof', '', line))
    return out


def unquote(s):
    esc = {'n': b'\n', 't': b'\t', 'r': b'\r', '"': b'"', '\\': b'\\', "'": b"'"}
    out, i = b'', 0
    while i < len(s):
        if s[i] == '\\':
            out += esc[s[i + 1]]; i += 2
        else: out += s[i].encode(); i += 1
    return out


PREC = {'||': 1, '&&': 2, '==': 3, '!=': 3, '<': 3, '<=': 3, '>': 3, '>=': 3, '+': 4, '-': 4, '|': 4, '^': 4,
        '*': 5, '/': 5, '%': 5, '<<': 5, '>>': 5, '&': 5, '&^': 5}


class Parser:
    def __init__(self, src): self.t = tokens(src); self.i = 0; self.nocomp = 0
    def peek(self, k=0): return self.t[self.i + k]
    def at(self, v): return self.t[self.i][0] in ('op', 'kw') and self.t[self.i][1] == v
    def take(self): self.i += 1; return self.t[self.i - 1]
    def accept(self, v):
        if self.at(v): self.i += 1; return True
        return False
    def expect(self, v):
        if not self.accept(v): raise SyntaxError(f"line {self.peek()[2]}: expected {v}, got {self.peek()}")
    def ident(self):
        k, v, l = self.take()
        if k != 'id': raise SyntaxError(f"line {l}: identifier expected, got {v}")
        return v

    # ---- types
    def type(self):
        if self.accept('*'): return '*' + self.type()
        if self.accept('['):
            if self.accept(']'): return '[]' + self.type()
            n = self.take()[1]; self.expect(']')
            return f'[{n}]' + self.type()
        if self.accept('map'):
            self.expect('['); k = self.type(); self.expect(']')
            return f'map[{k}]' + self.type()
        if self.accept('...'): return '...' + self.type()
        if self.accept('struct'):
            self.expect('{'); fs = []
            while not self.accept('}'):
                n = self.ident()
                if self.at(';'): fs.append((n, n, True))
                elif self.at('.'): self.take(); m = self.ident(); fs.append((m, n + '.' + m, True))
                else:
                    fs.append((n, self.type(), False))
                    if self.peek()[0] == 'str': self.take()
                self.accept(';')
            return ('struct', fs)
        n = self.ident()
        if self.accept('.'): n += '.' + self.ident()
        return n
    def params(self):
        """list of (name, type)"""
        self.expect('('); groups = []
        while not self.accept(')'):
            save = self.i
            names = []
            try:
                names = [self.ident()]
                while self.accept(','): names.append(self.ident())
                t = self.type()
                groups += [(n, t) for n in names]
            except SyntaxError:
                self.i = save; groups.append((None, self.type()))
            self.accept(',')
        return groups

    # ---- expressions
    def exprs(self):
        l = [self.expr()]
        while self.accept(','): l.append(self.expr())
        return l
    def expr(self, p=1):
        a = self.unary()
        while self.peek()[0] == 'op' and PREC.get(self.peek()[1], 0) >= p:
            op = self.take()[1]
            a = ('bin', op, a, self.expr(PREC[op] + 1))
        return a
    def unary(self):
        for o in ('!', '-', '&', '*', '^', '+'):
            if self.at(o): self.take(); return ('un', o, self.unary())
        return self.primary()
    def primary(self):
        k, v, l = self.peek()
        if k == 'num': self.take(); e = ('int', v)
        elif k == 'str': self.take(); e = ('str', v)
        elif v == '(' and k == 'op':
            self.take(); nc, self.nocomp = self.nocomp, 0; e = self.expr(); self.nocomp = nc; self.expect(')')
        elif v in ('[', 'map') and k in ('op', 'kw'): e = ('type', self.type())
        elif v == 'func' and k == 'kw':
            self.take(); ps = self.params(); rs = self.results(); e = ('func', ps, rs, self.block())
        elif k == 'id': self.take(); e = ('id', v)
        else: raise SyntaxError(f"line {l}: {v!r}")
        while True:
            if self.at('.') and self.peek(1)[1] == '(':
                self.take(); self.take(); e = ('assert', e, 'type' if self.accept('type') else self.type()); self.expect(')')
            elif self.accept('.'): e = ('sel', e, self.ident())
            elif self.at('('):
                self.take(); nc, self.nocomp = self.nocomp, 0
                args, ell = [], False
                while not self.accept(')'):
                    if self.at('[') or self.at('*') and False: args.append(self.expr())
                    else: args.append(self.expr())
                    if self.accept('...'): ell = True
                    self.accept(',')
                self.nocomp = nc; e = ('call', e, args, ell, l)
            elif self.at('['):
                self.take(); nc, self.nocomp = self.nocomp, 0
                lo = None if self.at(':') else self.expr()
                if self.accept(':'):
                    hi = None if self.at(']') else self.expr()
                    e = ('slice', e, lo, hi)
                else: e = ('idx', e, lo)
                self.nocomp = nc; self.expect(']')
            elif self.at('{') and (e[0] == 'type' or (not self.nocomp and e[0] in ('id', 'sel'))):
                e = ('comp', e, self.elements())
            else: return e
    def elements(self):
        self.expect('{'); nc, self.nocomp = self.nocomp, 0; out = []
        while not self.accept('}'):
            a = ('comp', None, self.elements()) if self.at('{') else self.expr()
            if self.accept(':'):
                b = ('comp', None, self.elements()) if self.at('{') else self.expr()
                out.append((a, b))
            else: out.append((None, a))
            self.accept(','); self.accept(';')
        self.nocomp = nc
        return out

    # ---- statements
    def block(self):
        self.expect('{'); out = []
        nc, self.nocomp = self.nocomp, 0
        while not self.accept('}'):
            if self.accept(';'): continue
            out.append(self.stmt())
        self.nocomp = nc
        return out
    def simple(self):
        lhs = self.exprs()
        line = self.peek()[2]
        if self.accept(':='):
            if self.accept('range'): return ('range', True, lhs, self.expr())
            return ('define', [x[1] for x in lhs], self.exprs(), line)
        for o in ('=', '+=', '-=', '*=', '/=', '%=', '|=', '&='):
            if self.accept(o):
                if o == '=' and self.accept('range'): return ('range', False, lhs, self.expr())
                return ('assign', o, lhs, self.exprs(), line)
        if self.accept('++'): return ('assign', '+=', lhs, [('int', 1)], line)
        if self.accept('--'): return ('assign', '-=', lhs, [('int', 1)], line)
        return ('expr', lhs[0], line)
    def stmt(self):
        k, v, l = self.peek()
        if k == 'kw':
            if v == 'return':
                self.take(); return ('return', [] if self.at(';') or self.at('}') else self.exprs(), l)
            if v == 'if': return self.if_()
            if v == 'for':
                self.take(); self.nocomp += 1
                if self.accept('range'):
                    e = self.expr(); self.nocomp -= 1
                    return ('range', None, None, e, self.block())
                init = cond = post = None
                if not self.at('{'):
                    if not self.at(';'): init = self.simple()
                    if init and init[0] == 'range':
                        self.nocomp -= 1
                        k_ = init[2][0]; v_ = init[2][1] if len(init[2]) > 1 else None
                        return ('range', k_, v_, init[3], self.block())
                    if self.accept(';'):
                        if not self.at(';'): cond = self.expr()
                        self.expect(';')
                        if not self.at('{'): post = self.simple()
                    else: cond, init = init[1], None
                self.nocomp -= 1
                return ('for', init, cond, post, self.block())
            if v == 'switch':
                self.take(); self.nocomp += 1; tag = self.simple(); self.nocomp -= 1
                tag = tag[1] if tag[0] == 'expr' else tag
                self.expect('{'); cases = []
                while not self.accept('}'):
                    if self.accept('default'): es = None
                    else: self.expect('case'); es = self.exprs()
                    self.expect(':'); body = []
                    while not (self.at('case') or self.at('default') or self.at('}')):
                        if self.accept(';'): continue
                        body.append(self.stmt())
                    cases.append((es, body))
                return ('switch', tag, cases)
            if v == 'var':
                self.take(); ds = self.vardecl(); return ('var', ds)
            if v == 'break': self.take(); return ('break',)
            if v in ('go', 'defer'): self.take(); return (v, self.expr(), l)
            raise SyntaxError(f"line {l}: statement {v}")
        if v == '{': return ('block', self.block())
        return self.simple()
    def if_(self):
        self.expect('if'); self.nocomp += 1
        init, c = None, self.simple()
        if self.accept(';'): init, c = c, self.simple()
        self.nocomp -= 1
        then = self.block(); els = None
        if self.accept('else'): els = [self.if_()] if self.at('if') else self.block()
        assert c[0] == 'expr', c
        return ('if', init, c[1], then, els)
    def vardecl(self):
        out = []
        def one():
            names = [self.ident()]
            while self.accept(','): names.append(self.ident())
            t = None if self.at('=') or self.at(';') or self.at(')') else self.type()
            vs = self.exprs() if self.accept('=') else None
            out.append((names, t, vs))
        if self.accept('('):
            while not self.accept(')'):
                if self.accept(';'): continue
                one()
        else: one()
        return out
    def results(self):
        if self.at('{') or self.at(';'): return []
        if self.at('('): return [t for _, t in self.params()]
        return [self.type()]

    # ---- a file
    def file(self):
        d = dict(funcs=[], vars=[], consts=[], types={})
        self.expect('package'); d['package'] = self.ident(); self.expect(';')
        while self.peek()[0] != 'eof':
            if self.accept(';'): continue
            k, v, l = self.peek()
            if v == 'import':
                self.take()
                if self.accept('('):
                    while not self.accept(')'): self.take()
                else: self.take()
            elif v == 'func':
                self.take(); recv = self.params()[0] if self.at('(') else None
                name = self.ident(); ps = self.params(); rs = self.results(); body = self.block()
                d['funcs'].append(dict(name=name, recv=recv, params=ps, results=rs, body=body, line=l, end=self.t[self.i - 1][2]))
            elif v == 'var': self.take(); d['vars'] += self.vardecl()
            elif v == 'const': self.take(); d['consts'] += self.vardecl()
            elif v == 'type':
                self.take(); n = self.ident(); alias = self.accept('=')
                d['types'][n] = ('alias', self.type()) if alias else self.type()
            else: raise SyntaxError(f"line {l}: {v}")
        return d


if __name__ == '__main__':
    import sys
    for f in sys.argv[1:]:
        d = Parser(open(f).read()).file()
        print(f, [x['name'] for x in d['funcs']], list(d['types']))
