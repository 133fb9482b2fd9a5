#!/usr/bin/env python3
"""Translate straight-line numpy functions of cryspy to Lean definitions.

The translation is symbolic execution of the function body on arrays of Lean expressions.  Leading axes (components of
a vector, matrix, ...) are kept; the trailing axes over reflections / points are dropped, because every operation used is
elementwise in them.  `if` conditions are resolved by the table `assume` (source text -> bool).  One Lean definition is
produced per requested output (the returned value, or an entry of the derivative dictionary); local names become `let`s.
The tool is not part of the trusted base of the proofs, but of the claim that the model is the code.
"""
import ast, sys, itertools

RES = set("at from by do end in open then with where have show let fun if else match def theorem example axiom variable "
          "universe namespace section import instance class structure λ π Σ".split())

class Arr:
    def __init__(self, shape, ents):  # ents: dict index tuple -> (code, prec)
        self.shape = tuple(shape); self.ents = ents
def scal(code, prec=100): return Arr((), {(): (code, prec)})
def idxs(shape): return itertools.product(*[range(n) for n in shape])

def paren(c, p):
    code, prec = c
    return code if prec >= p else "(" + code + ")"

def bin_code(op, a, b):
    # zero/one simplification is deliberately not done
    if op == '+': return (paren(a, 65) + " + " + paren(b, 66), 65)
    if op == '-': return (paren(a, 65) + " - " + paren(b, 66), 65)
    if op == '*': return (paren(a, 70) + " * " + paren(b, 71), 70)
    if op == '/': return (paren(a, 70) + " / " + paren(b, 71), 70)
    if op == '^': return (paren(a, 76) + " ^ " + paren(b, 75), 75)
    raise Exception(op)

def bcast(f, *xs):
    n = max(len(x.shape) for x in xs)
    shp = []
    for d in range(n):
        s = 1
        for x in xs:
            k = len(x.shape) - n + d   # numpy aligns trailing axes
            if k >= 0 and x.shape[k] != 1:
                assert s in (1, x.shape[k]), ("shape", [y.shape for y in xs])
                s = x.shape[k]
        shp.append(s)
    def get(x, I):
        J = I[n - len(x.shape):]
        return x.ents[tuple(0 if x.shape[k] == 1 else J[k] for k in range(len(x.shape)))]
    return Arr(shp, {I: f(*[get(x, I) for x in xs]) for I in idxs(shp)})

class Dder(dict): pass

class CArr:
    """A complex array: real and imaginary part."""
    def __init__(self, re, im): self.re = re; self.im = im
class CAbs:
    """Modulus of a complex array; only its square is used."""
    def __init__(self, z): self.z = z
def cre(v): return v.re if isinstance(v, CArr) else v
def cim(v): return v.im if isinstance(v, CArr) else None

class Tr:
    def __init__(self, path, assume=None, consts=None):
        self.path = path
        self.src = open('/repo/' + path).read()
        self.tree = ast.parse(self.src)
        self.funcs = {n.name: n for n in self.tree.body if isinstance(n, ast.FunctionDef)}
        self.assume = assume or {}
        self.known = {}   # python name -> dict(args=[positions], out lean name, shape, dder {key: (lean, shape)})

    def fn(self, name, args, outs, assume=None, rename=None, K='ℝ', inputs=None, alias=None, funcs=None, vals=None, drop=False):
        """args: list (python arg, shape or None to drop or ('c', shape) for a complex array).
        outs: list of (lean name, 'ret' | position | dder key | 'dict name/key').
        funcs: python callables passed as arguments: name -> (signature text, value code, {dder key: code}); a code is
        applied to the first argument of the call.  vals: python names bound to fixed values (strings).
        drop: every axis is dropped (all quantities are scalars); subscripts made of ':' and newaxis, and expand_dims, do nothing."""
        f = self.funcs[name]
        self.fpar = funcs or {}
        self.drop = drop
        self.A = dict(self.assume); self.A.update(assume or {})
        self.lets = []  # (name, Arr)
        self.env = {}
        self.cnt = {}
        self.deps = {}
        self.dder = {}
        self.K = K
        for a, sh in args:
            if isinstance(sh, str):   # scalar constant code
                self.env[a] = scal(sh); continue
            if isinstance(sh, tuple) and sh and sh[0] == 'c':
                mk = lambda ln: Arr(sh[1], {I: (ln if not I else ln + " " + " ".join(map(str, I)), 100 if not I else 90) for I in idxs(sh[1])})
                self.env[a] = CArr(mk(self.lname(a) + "_re"), mk(self.lname(a) + "_im")); continue
            if sh is None: continue
            ln = self.lname(a)
            self.env[a] = Arr(sh, {I: (ln if not I else ln + " " + " ".join(map(str, I)), 100 if not I else 90) for I in idxs(sh)})
        for a, v in (vals or {}).items(): self.env[a] = v
        self.ret = None
        self.block(f.body)
        res = []
        for lean, key in outs:
            if key == 'ret': v = self.ret if isinstance(self.ret, Arr) else self.ret[0]
            elif isinstance(key, int): v = self.ret[key]
            elif key.startswith('var:'): v = self.env[key[4:]]
            elif '/' in key: v = self.env[key.split('/')[0]][key.split('/')[1]]
            else: v = self.dder[key]
            res.append(self.emit(f, lean, args, v, key))
            info = self.known.setdefault(name, dict(args=[a for a, sh in args if sh is not None and not isinstance(sh, str)], dder={}))
            if isinstance(key, int): info.setdefault('rets', {})[key] = (lean, v.shape)
            if key == 'ret' or key == 0: info['ret'] = (lean, v.shape)
            elif not isinstance(key, int) and not key.startswith('var:'): info['dder'][key] = (lean, v.shape)
        return "\n".join(res)

    def lname(self, n):
        n = {'unit_cell_parameters': 'uc', 'index_hkl': 'hkl'}.get(n, n.replace('__', '_'))
        return n + "'" if n in RES else n

    def ty(self, shape):
        s = self.K
        for n in reversed(shape): s = f"Fin {n} → {s}" if '→' not in s else f"Fin {n} → {s}"
        return s

    def lit(self, v, pre=()):
        d = len(pre)
        if d == 0 and v.shape:
            b = self.base(v)
            if b: return b
        if d == len(v.shape): return v.ents[pre][0]
        parts = [self.lit(v, pre + (i,)) for i in range(v.shape[d])]
        if sum(map(len, parts)) > 100: return "![" + (",\n   " + "  " * d).join(parts) + "]"
        return "![" + ", ".join(parts) + "]"

    def emit(self, f, lean, args, v, key):
        import re
        def used(codes):
            s = set()
            for c in codes: s |= set(re.findall(r"[A-Za-z_][A-Za-z_0-9]*'?[₀-₉]*", c))
            return s
        need = used(c for c, _ in v.ents.values())
        keep = []
        for nm, a in reversed(self.lets):
            if nm in need:
                keep.append((nm, a)); need |= used(c for c, _ in a.ents.values())
        keep.reverse()
        gen = "" if self.K == 'ℝ' else "{K : Type} [Field K] "
        hdr = f"/-- `{f.name}`" + ("" if key == 'ret' else f", output `{key}`") + f", {self.path.replace('cryspy/','')}:{f.lineno}-{f.end_lineno}. -/\n"
        def one(a, sh):
            if sh and sh[0] == 'c': return f"({self.lname(a)}_re {self.lname(a)}_im : {self.ty(sh[1])})"
            return f"({self.lname(a)} : {self.ty(sh)})"
        sig = " ".join([x[0] for x in self.fpar.values()] + [one(a, sh) for a, sh in args if sh is not None and not isinstance(sh, str)])
        nc = "" if self.K != 'ℝ' else "noncomputable "
        body = ""
        for nm, a in keep:
            body += f"  let {nm} : {self.ty(a.shape)} := {self.lit(a)}\n"
        fin = self.lit(v)
        body += "  " + ("(" + fin + ")" if fin.startswith("-") else fin)
        return hdr + f"{nc}def {lean} {gen}{sig} : {self.ty(v.shape)} :=\n" + body + "\n"

    # ---- statements
    def block(self, body):
        for st in body:
            if self.stmt(st): return True
        return False

    def cond(self, t):
        s = ast.unparse(t)
        if s in self.A: return self.A[s]
        if s.startswith('flag_') and s.isidentifier(): return True
        raise Exception("condition " + s)

    def bind(self, name, v):
        if isinstance(v, (Dder, list, str)) or v is None:
            self.env[name] = v; return
        if isinstance(v, CArr):
            self.bind(name + "_re", v.re); self.bind(name + "_im", v.im)
            self.env[name] = CArr(self.env[name + "_re"], self.env[name + "_im"]); return
        import re
        simple = len(v.ents) == 1 and v.shape == () and v.ents[()][1] >= 90 and (
            re.fullmatch(r"[\w']+( \d+)*", v.ents[()][0]) is not None)
        if simple:
            self.env[name] = v; return
        ln = self.lname(name)
        k = self.cnt.get(ln, 0); self.cnt[ln] = k + 1
        if k: ln = ln + "".join("₀₁₂₃₄₅₆₇₈₉"[int(c)] for c in str(k))
        self.lets.append((ln, v))
        self.env[name] = Arr(v.shape, {I: (ln if not I else ln + " " + " ".join(map(str, I)), 100 if not I else 90) for I in idxs(v.shape)})

    def stmt(self, st):
        if ast.unparse(st) in self.A.get('skip', ()): return False
        if isinstance(st, ast.Expr): return False
        if isinstance(st, ast.Pass): return False
        if isinstance(st, ast.Assign):
            assert len(st.targets) == 1
            t = st.targets[0]
            if isinstance(t, ast.Tuple):
                if isinstance(st.value, ast.Tuple):
                    vals = [self.expr(e) for e in st.value.elts]
                else:
                    vals = self.expr(st.value)
                    assert isinstance(vals, list), ast.unparse(st)
                for tt, v in zip(t.elts, vals): self.bind(tt.id, v)
            elif isinstance(t, ast.Name):
                if isinstance(st.value, ast.Dict): self.env[t.id] = Dder(); return False
                if ast.unparse(st.value) in ('None',): self.env[t.id] = None; return False
                self.bind(t.id, self.expr(st.value))
            elif isinstance(t, ast.Subscript) and (isinstance(t.slice, ast.Constant) or isinstance(self.env.get(ast.unparse(t.slice)), str)):
                key = t.slice.value if isinstance(t.slice, ast.Constant) else self.env[ast.unparse(t.slice)]
                if ast.unparse(st.value) == 'None': return False
                self.dder[key] = self.expr(st.value)
                d = self.env.get(t.value.id)
                if isinstance(d, Dder): d[key] = self.dder[key]
            elif isinstance(t, ast.Subscript) and isinstance(t.slice, ast.Compare) and isinstance(t.value, ast.Name):
                c = self.expr_bool(t.slice)   # masked assignment
                self.bind(t.value.id, bcast(lambda a, b: (f"if {c} then {a[0]} else {b[0]}", 0), self.expr(st.value), self.env[t.value.id]))
            else: raise Exception("assign " + ast.unparse(st))
            return False
        if isinstance(st, ast.AugAssign):
            op = {ast.Add: '+', ast.Sub: '-', ast.Mult: '*', ast.Div: '/'}[type(st.op)]
            v = bcast(lambda a, b: bin_code(op, a, b), self.expr(st.target), self.expr(st.value))
            self.bind(st.target.id, v); return False
        if isinstance(st, ast.If):
            return self.block(st.body if self.cond(st.test) else st.orelse)
        if isinstance(st, ast.Return):
            v = st.value
            if isinstance(v, ast.Tuple): self.ret = [self.expr(e) for e in v.elts]
            else: self.ret = self.expr(v)
            return True
        if isinstance(st, ast.For) and ast.unparse(st.iter) in self.A:   # loop over symbolic dictionary keys
            for k in self.A[ast.unparse(st.iter)]:
                self.env[st.target.id] = k
                self.block(st.body)
            return False
        raise Exception("stmt " + ast.unparse(st))

    # ---- expressions
    def num(self, x):
        if isinstance(x, bool): raise Exception
        if isinstance(x, int): return scal(str(x)) if x >= 0 else scal(f"-{-x}", 75)
        if float(x).is_integer(): return scal(str(int(x)))
        from fractions import Fraction
        from decimal import Decimal
        q = Fraction(Decimal(repr(x)))
        return scal(f"({q.numerator} / {q.denominator})")

    def expr(self, e):
        if isinstance(e, ast.Constant): 
            if isinstance(e.value, str): return e.value
            if e.value is None or isinstance(e.value, bool): return None
            return self.num(e.value)
        if isinstance(e, ast.Name):
            if e.id not in self.env: raise Exception("name " + e.id)
            return self.env[e.id]
        if isinstance(e, ast.Attribute):
            s = ast.unparse(e)
            if s == 'numpy.pi': return scal('Real.pi')
            if s == 'numpy.finfo(float).eps': return scal('(1 / 4503599627370496)')
            if e.attr in ('real',): return cre(self.expr(e.value))
            if e.attr == 'imag':
                v = self.expr(e.value)
                return v.im if isinstance(v, CArr) else bcast(lambda a: ("0", 100), v)
            raise Exception(s)
        if isinstance(e, ast.UnaryOp):
            v = self.expr(e.operand)
            if isinstance(e.op, ast.UAdd): return v
            if isinstance(e.op, ast.USub): return bcast(lambda a: ("-" + paren(a, 75), 72) if False else ("-" + paren(a, 75), 74), v)
        if isinstance(e, ast.BinOp):
            if isinstance(e.op, ast.Pow):
                ex = e.right
                if isinstance(ex, ast.Constant) and isinstance(ex.value, int):
                    return bcast(lambda a: bin_code('^', a, (str(ex.value), 100)), self.expr(e.left))
                if isinstance(ex, ast.UnaryOp) and isinstance(ex.op, ast.USub) and isinstance(ex.operand, ast.Constant) and isinstance(ex.operand.value, int):
                    return bcast(lambda a: (bin_code('^', a, (str(ex.operand.value), 100))[0] + "", 0), self.expr(e.left)) if False else bcast(lambda a: ("1 / " + paren(bin_code('^', a, (str(ex.operand.value), 100)), 71), 70), self.expr(e.left))
                return bcast(lambda a, b: ("Real.rpow " + paren(a, 100) + " " + paren(b, 100), 90), self.expr(e.left), self.expr(e.right))
            op = {ast.Add: '+', ast.Sub: '-', ast.Mult: '*', ast.Div: '/'}[type(e.op)]
            L, R = self.expr(e.left), self.expr(e.right)
            if isinstance(L, CArr) or isinstance(R, CArr): return self.cbin(op, L, R)
            return bcast(lambda a, b: bin_code(op, a, b), L, R)
        if isinstance(e, ast.Subscript):
            v = self.expr(e.value)
            if isinstance(v, Dder): return v[e.slice.value if isinstance(e.slice, ast.Constant) else self.env[ast.unparse(e.slice)]]
            if isinstance(v, list): return v[e.slice.value]
            if isinstance(v, CArr):
                self.env['__re'] = v.re; self.env['__im'] = v.im
                mk = lambda n: self.expr(ast.Subscript(value=ast.Name(id=n), slice=e.slice))
                return CArr(mk('__re'), mk('__im'))
            sl = e.slice
            if self.drop and set(ast.unparse(sl).replace('(', '').replace(')', '').replace(' ', '').split(',')) <= {':', 'na'}: return v
            elts = list(sl.elts) if isinstance(sl, ast.Tuple) else [sl]
            out = v; ax = 0
            for s in elts:
                st = ast.unparse(s)
                if st in ('na', 'numpy.newaxis', 'np.newaxis'):
                    out = self.expand(out, ax); ax += 1
                elif isinstance(s, ast.Slice) and s.lower is None and s.upper is None: ax += 1
                elif isinstance(s, ast.Constant) and isinstance(s.value, int):
                    k = s.value
                    sh = out.shape[:ax] + out.shape[ax+1:]
                    out = Arr(sh, {I: out.ents[I[:ax] + (k,) + I[ax:]] for I in idxs(sh)})
                else: raise Exception("subscript " + ast.unparse(e))
            return out
        if isinstance(e, ast.BoolOp): return None   # flags
        if isinstance(e, ast.Dict) and not e.keys: return Dder()
        if isinstance(e, ast.Call): return self.call(e)
        if isinstance(e, (ast.List, ast.Tuple)):
            return [self.expr(x) for x in e.elts]
        raise Exception("expr " + ast.dump(e)[:200])

    def cbin(self, op, L, R):
        f = lambda o: (lambda a, b: bin_code(o, a, b))
        zero = lambda v: bcast(lambda a: ("0", 100), v)
        if op in '+-':
            return CArr(bcast(f(op), cre(L), cre(R)),
                (cim(L) if not isinstance(R, CArr) else bcast(f(op), cim(L), cim(R))) if isinstance(L, CArr) else
                (cim(R) if op == '+' else bcast(lambda a: ("-" + paren(a, 75), 74), cim(R))))
        if op in '*/' and not isinstance(R, CArr): return CArr(bcast(f(op), L.re, R), bcast(f(op), L.im, R))
        if op == '*' and not isinstance(L, CArr): return CArr(bcast(f(op), L, R.re), bcast(f(op), L, R.im))
        if op == '*':
            m = lambda a, b: bcast(f('*'), a, b)
            return CArr(bcast(f('-'), m(L.re, R.re), m(L.im, R.im)), bcast(f('+'), m(L.re, R.im), m(L.im, R.re)))
        raise Exception("complex " + op)

    def expand(self, v, ax):
        if ax < 0: ax += len(v.shape) + 1
        sh = v.shape[:ax] + (1,) + v.shape[ax:]
        return Arr(sh, {I: v.ents[I[:ax] + I[ax+1:]] for I in idxs(sh)})

    def stack(self, xs):
        xs = [self.stack(x) if isinstance(x, list) else x for x in xs]
        sh = xs[0].shape
        for x in xs: assert x.shape == sh, ("stack", [y.shape for y in xs])
        return Arr((len(xs),) + sh, {(i,) + I: xs[i].ents[I] for i in range(len(xs)) for I in idxs(sh)})

    def call(self, e):
        f = ast.unparse(e.func)
        if f.startswith('numpy.') or f.startswith('np.'): f = f.split('.', 1)[1]
        def fun1(lean):
            return bcast(lambda a: (lean + " " + paren(a, 91) if False else lean + " " + (a[0] if a[1] >= 100 else "(" + a[0] + ")"), 90), self.expr(e.args[0]))
        kw = {k.arg: k.value for k in e.keywords}
        if f == 'square':
            v = self.expr(e.args[0])
            if isinstance(v, CAbs):   # |z|² of a complex array
                sq = lambda x: bcast(lambda a: bin_code('^', a, ("2", 100)), x)
                return bcast(lambda a, b: bin_code('+', a, b), sq(v.z.re), sq(v.z.im))
            return bcast(lambda a: bin_code('^', a, ("2", 100)), v)
        if f in ('cos', 'sin', 'tan', 'sqrt', 'exp', 'log'): return fun1('Real.' + f)
        if f in ('arccos', 'arcsin', 'arctan'): return fun1('Real.' + f)
        if f == 'abs' and isinstance(self.expr(e.args[0]), CArr): return CAbs(self.expr(e.args[0]))
        if f in ('conjugate', 'conj'):
            v = self.expr(e.args[0])
            return CArr(v.re, bcast(lambda a: ("-" + paren(a, 75), 74), v.im)) if isinstance(v, CArr) else v
        if f in ('abs', 'fabs'): return bcast(lambda a: ("|" + a[0] + "|", 100), self.expr(e.args[0]))
        if f in ('ones_like', 'np_ol'): return bcast(lambda a: ("1", 100), self.expr(e.args[0]))
        if f in ('zeros_like', 'np_zl'): return bcast(lambda a: ("0", 100), self.expr(e.args[0]))
        if f in ('zeros', 'ones'):
            one = "0" if f == 'zeros' else "1"
            t = e.args[0] if e.args else kw['shape']
            if isinstance(t, ast.Attribute) and t.attr == 'shape': return bcast(lambda a: (one, 100), self.expr(t.value))
            if isinstance(t, ast.BinOp) and isinstance(t.left, ast.Tuple) and isinstance(t.right, ast.Attribute):
                v = self.expr(t.right.value)
                sh = tuple(x.value for x in t.left.elts) + v.shape
                return Arr(sh, {I: (one, 100) for I in idxs(sh)})
            raise Exception("zeros " + ast.unparse(e))
        if f == 'arctan2': return bcast(lambda a, b: ("arctan2 " + paren(a, 100) + " " + paren(b, 100), 90), self.expr(e.args[0]), self.expr(e.args[1]))
        if f in ('erfc', 'scipy.special.erfc'): return fun1('erfc')
        if f == 'float': return self.expr(e.args[0])
        if f == 'atleast_1d': return self.expr(e.args[0])
        if isinstance(e.func, ast.Attribute) and e.func.attr in ('conjugate', 'conj') and not f.startswith('conj'):
            v = self.expr(e.func.value)
            return CArr(v.re, bcast(lambda a: ("-" + paren(a, 75), 74), v.im)) if isinstance(v, CArr) else v
        if f == 'power' and isinstance(e.args[1], ast.Constant) and isinstance(e.args[1].value, int):
            return bcast(lambda a: bin_code('^', a, (str(e.args[1].value), 100)), self.expr(e.args[0]))
        if f == 'power':
            ex = self.expr(e.args[1])
            return bcast(lambda a, b: ("Real.rpow " + paren(a, 100) + " " + paren(b, 100), 90), self.expr(e.args[0]), ex)
        if f in self.fpar:
            _, y, dd = self.fpar[f]
            x = self.expr(e.args[0]); assert x.shape == ()
            app = lambda c: Arr((), {(): (c + " " + paren(x.ents[()], 100), 90)})
            d = Dder()
            for k, c in dd.items(): d[k] = app(c)
            return [app(y), d]
        if f.endswith('.keys'): return None
        if f in ('stack', 'array'): return self.stack(self.expr(e.args[0]))
        if f == 'expand_dims':
            ax = ast.literal_eval(kw['axis']) if 'axis' in kw else ast.literal_eval(e.args[1])
            v = self.expr(e.args[0])
            if self.drop: return v
            if isinstance(ax, tuple):
                for a in sorted(ax): v = self.expand(v, a)
                return v
            return self.expand(v, ax)
        if f in ('sum',) or (isinstance(e.func, ast.Attribute) and e.func.attr == 'sum'):
            v = self.expr(e.args[0]) if f == 'sum' else self.expr(e.func.value)
            ax = ast.literal_eval(kw['axis'])
            if isinstance(v, CArr):
                self.env['__re'] = v.re; self.env['__im'] = v.im
                mk = lambda n: self.call(ast.Call(func=ast.parse('numpy.sum', mode='eval').body, args=[ast.Name(id=n)], keywords=e.keywords))
                return CArr(mk('__re'), mk('__im'))
            sh = v.shape[:ax] + v.shape[ax+1:]
            def s(I):
                c = v.ents[I[:ax] + (0,) + I[ax:]]
                for k in range(1, v.shape[ax]): c = bin_code('+', c, v.ents[I[:ax] + (k,) + I[ax:]])
                return c
            return Arr(sh, {I: s(I) for I in idxs(sh)})
        if f == 'where':
            # numpy.where(cond, x, y)
            c = self.expr_bool(e.args[0])
            x, y = self.expr(e.args[1]), self.expr(e.args[2])
            return bcast(lambda a, b: (f"if {c} then {a[0]} else {b[0]}", 0), x, y)
        if f in self.known:
            info = self.known[f]
            fn = self.funcs.get(f) or info.get('fn')
            names = [a.arg for a in fn.args.args] if fn else info['params']
            vals = {}
            for n, a in zip(names, e.args): vals[n] = a
            for k, a in kw.items(): vals[k] = a
            codes = []
            for a in info['args']:
                v = self.expr(vals[a])
                if isinstance(v, CArr):
                    for w in (v.re, v.im):
                        codes.append((paren(w.ents[()], 100) if w.ents[()][1] < 100 else w.ents[()][0]) if w.shape == () else self.asvar(w))
                    continue
                if v.shape == (): codes.append(paren(v.ents[()], 100) if v.ents[()][1] < 100 else v.ents[()][0])
                else: codes.append(self.asvar(v))
            def mk(lean, shape):
                base = lean + " " + " ".join(codes)
                return Arr(shape, {I: (base + "".join(" %d" % i for i in I), 90) for I in idxs(shape)})
            d = Dder()
            for k, (lean, shape) in info['dder'].items(): d[k] = mk(lean, shape)
            if info.get('plusminus'):   # (plus, minus, derivatives of plus, derivatives of minus)
                dp, dm = Dder(), Dder()
                for k, x in d.items(): (dp if k.startswith('dder_plus/') else dm)[k.split('/')[1]] = x
                return [mk(*info['rets'][0]), mk(*info['rets'][1]), dp, dm]
            if info.get('multi'): return [mk(*info['rets'][i]) for i in range(info['multi'])]
            r = mk(*info['ret'])
            return [r, d] if not info.get('single') else r
        raise Exception("call " + ast.unparse(e)[:200])

    def base(self, v):
        # the code of v, when v is a whole variable (or a whole call)
        import re
        codes = [v.ents[I][0] for I in idxs(v.shape)]
        m = re.match(r"^(.*?)((?: \d+)+)$", codes[0])
        if m:
            b = m.group(1)
            if b.strip() and all(c[1] == 90 for c in v.ents.values()) and all(v.ents[I][0] == b + "".join(" %d" % i for i in I) for I in idxs(v.shape)):
                return b
        return None

    def asvar(self, v):
        b = self.base(v)
        if b: return b if ' ' not in b else "(" + b + ")"
        return "(" + self.lit(v) + " : " + self.ty(v.shape) + ")"

    def expr_bool(self, e):
        if isinstance(e, ast.Compare) and len(e.ops) == 1:
            op = {ast.Lt: '<', ast.Gt: '>', ast.LtE: '≤', ast.GtE: '≥', ast.Eq: '=', ast.NotEq: '≠'}[type(e.ops[0])]
            a, b = self.expr(e.left), self.expr(e.comparators[0])
            assert a.shape == () and b.shape == ()
            return f"{paren(a.ents[()], 51)} {op} {paren(b.ents[()], 51)}"
        raise Exception("bool " + ast.unparse(e))
