#!/usr/bin/env python3
"""Translates the class packages of /repo (CIM14/**, CIM15/**) into Lean tables.

The sources are only parsed (ast), never imported.  Every class must match the code templates
described in Verif/Cim/Obj.lean; the deviating declarations are recognised one by one below and
everything else aborts the translation.

Usage: tools/gen.py  (writes lean/Verif/Gen/*.lean)
"""
import ast, os, re, struct, collections

REPO = '/repo'
OUT = os.path.join(os.path.dirname(os.path.abspath(__file__)), '..', 'lean', 'Verif', 'Gen')
PROFILES = ['CIM15', 'CIM15.CDPSM.Connectivity', 'CIM15.CDPSM.Asset', 'CIM15.CDPSM.Geographical',
            'CIM15.CDPSM.Balanced', 'CIM14', 'CIM14.CDPSM.Unbalanced', 'CIM14.CDPSM.GIS_Connectivity',
            'CIM14.CDPSM.Balanced', 'CIM14.CPSM.StateVariables', 'CIM14.CPSM.Equipment',
            'CIM14.CPSM.Topology', 'CIM14.ENTSOE.StateVariables', 'CIM14.ENTSOE.Equipment',
            'CIM14.ENTSOE.Topology', 'CIM14.ENTSOE.Dynamics']
META = ('_attrs', '_attr_types', '_defaults', '_enums', '_refs', '_many_refs')


def strip_doc(f):
    b = f.body
    if isinstance(b[0], ast.Expr) and isinstance(b[0].value, ast.Constant):
        b = b[1:]
    return b


def src(stmts):
    return '\n'.join(ast.unparse(s) for s in stmts)


def fail(*a):
    raise SystemExit('gen.py: ' + ' '.join(map(str, a)))


def profile(mod):
    p = '.'.join(mod.split('.')[:3])
    return p if p in PROFILES else mod.split('.')[0]


# ---------------------------------------------------------------------------------------------
# loading

def load():
    classes, packages = {}, {}
    for root, _, fs in os.walk(REPO):
        if not root.startswith(REPO + '/CIM1'):
            continue
        for f in sorted(fs):
            if not f.endswith('.py'):
                continue
            p = os.path.join(root, f)
            t = ast.parse(open(p, encoding='utf-8').read())
            if f == '__init__.py':
                mod = root[len(REPO) + 1:].replace('/', '.')
                exp, pm, consts = [], None, {}
                for n in t.body:
                    if isinstance(n, ast.ImportFrom):
                        for a in n.names:
                            if a.asname:
                                fail('import as', p)
                            exp.append((a.name, n.module))
                    elif isinstance(n, ast.Assign):
                        k = ast.unparse(n.targets[0])
                        if k == 'packageMap':
                            keys = [ast.literal_eval(x) for x in n.value.keys]
                            vals = [ast.literal_eval(x) for x in n.value.values]
                            # a repeated key is kept: the later entry wins, as in Python
                            pm = list(zip(keys, vals))
                        elif k in ('nsURI', 'nsPrefix'):
                            consts[k] = ast.literal_eval(n.value)
                        else:
                            fail('unknown assignment', p, k)
                    elif isinstance(n, ast.ClassDef) and ast.unparse(n.bases[0]) in (
                            'str', 'float', 'int', 'bool', 'object') and all(
                            isinstance(x, ast.Pass) or (isinstance(x, ast.Expr) and isinstance(
                                x.value, ast.Constant)) for x in n.body):
                        # unit and enumeration names, not used by any class or by reader/writer
                        if n.name in [e[0] for e in exp]:
                            fail('shadowed export', p, n.name)
                    elif not isinstance(n, ast.Expr):
                        fail('unknown statement', p)
                packages[mod] = dict(exports=exp, pmap=pm, **consts)
                continue
            mod = p[len(REPO) + 1:-3].replace('/', '.')
            imps, cls = {}, []
            for n in t.body:
                if isinstance(n, ast.ImportFrom):
                    for a in n.names:
                        imps[a.asname or a.name] = n.module
                elif isinstance(n, ast.ClassDef):
                    cls.append(n)
                elif not (isinstance(n, ast.Expr) and isinstance(n.value, ast.Constant)):
                    fail('unknown statement', p, ast.unparse(n)[:80])
            if len(cls) != 1:
                fail('not exactly one class', p)
            n = cls[0]
            if len(n.bases) != 1 or n.decorator_list or n.keywords:
                fail('bases', p)
            b = ast.unparse(n.bases[0])
            base = None
            if b != 'object':
                m = imps[b]
                base = m if m.split('.')[-1] == b and os.path.exists(
                    REPO + '/' + m.replace('.', '/') + '.py') else m + '.' + b
            c = dict(mod=mod, name=n.name, base=base, path=p[len(REPO) + 1:], line=n.lineno,
                     meths={}, assigns={})
            for s in n.body:
                if isinstance(s, ast.FunctionDef):
                    if s.name in c['meths'] or s.decorator_list:
                        fail('method twice', p, s.name)
                    c['meths'][s.name] = s
                elif isinstance(s, ast.Assign):
                    k = ast.unparse(s.targets[0])
                    if k in c['assigns'] or len(s.targets) != 1:
                        fail('assignment twice', p, k)
                    c['assigns'][k] = s.value
                elif not (isinstance(s, ast.Expr) and isinstance(s.value, ast.Constant)):
                    fail('unknown class statement', p)
            classes[mod] = c
    return classes, packages


# ---------------------------------------------------------------------------------------------
# templates of reference accessors

SM = "for x in self._ME:\n    x.INV = None\nfor y in value:\n    y._INV = self\nself._ME = value"
AM = "for obj in ME:\n    obj.INV = self"
RM = "for obj in ME:\n    obj.INV = None"
AMD = AM + "\n    self.ME.append(obj)"
RMD = RM + "\n    self.ME.remove(obj)"
S1 = ("if self._ME is not None:\n    filtered = [x for x in self.ME.INV if x != self]\n"
      "    self._ME._INV = filtered\nself._ME = value\nif self._ME is not None:\n"
      "    if self not in self._ME._INV:\n        self._ME._INV.append(self)")
SO = ("if self._ME is not None:\n    self._ME._INV = None\nself._ME = value\n"
      "if self._ME is not None:\n    self._ME.INV = None\n    self._ME._INV = self")
SMM = ("for p in self._ME:\n    filtered = [q for q in p.INV if q != self]\n"
       "    self._ME._INV = filtered\nfor r in value:\n    if self not in r._INV:\n"
       "        r._INV.append(self)\nself._ME = value")
AMM = ("for obj in ME:\n    if self not in obj._INV:\n        obj._INV.append(self)\n"
       "    self._ME.append(obj)")
RMM = ("for obj in ME:\n    if self in obj._INV:\n        obj._INV.remove(self)\n"
       "    self._ME.remove(obj)")
PA = "for obj in ME:\n    self.ME.append(obj)"
PR = "for obj in ME:\n    self.ME.remove(obj)"
ALIAS_GET = ("if type(self.PerLengthImpedance) is CLS:\n    return self.PerLengthImpedance\n"
             "else:\n    return None")


def match(t, s, me):
    if s is None:
        return None
    pat = re.escape(t).replace('ME', re.escape(me)).replace('INV', r'(?P<i>\w+)', 1)
    pat = pat.replace('INV', r'(?P=i)')
    m = re.fullmatch(pat, s)
    return None if m is None else (m.group('i') if 'INV' in t else '-')


def ref(c, r, used):
    """(kind, inv, aux, addDup) of reference r, checking all methods; marks methods used."""
    ms = c['meths']

    def g(p, nargs='one'):
        n = p + r
        if n not in ms:
            return None
        used.add(n)
        a = ms[n].args
        ok = {'get': [x.arg for x in a.args] == ['self'] and a.vararg is None,
              'set': [x.arg for x in a.args] == ['self', 'value'] and a.vararg is None}.get(
            p, [x.arg for x in a.args] == ['self'] and a.vararg is not None and a.vararg.arg == r)
        if not ok or a.kwarg or a.defaults or a.kwonlyargs:
            fail('signature', c['mod'], n)
        return src(strip_doc(ms[n]))
    ge, s, ad, rm, pa, pr = g('get'), g('set'), g('add'), g('remove'), g('add_'), g('remove_')
    prop = c['assigns'].get(r)
    prop = None if prop is None else ast.unparse(prop)
    isprop = prop == 'property(get%s, set%s)' % (r, r)
    plain = ge == 'return self._' + r
    none = ad is None and rm is None and pa is None and pr is None
    if isprop and plain and none:
        i = match(S1, s, r)
        if i:
            return 'one2many', i, '', False
        i = match(SO, s, r)
        if i:
            return 'one2one', i, '', False
        if s == 'self._%s = value' % r:
            return 'oneNoInv', '', '', False
    if isprop and plain and pa is None and pr is None:
        i = match(SM, s, r)
        if i and match(AM, ad, r) == i and match(RM, rm, r) == i:
            return 'many2one', i, '', False
        if i and match(AMD, ad, r) == i and match(RMD, rm, r) == i:
            return 'many2one', i, '', True
        i = match(SMM, s, r)
        if i and match(AMM, ad, r) == i and match(RMM, rm, r) == i:
            return 'many2many', i, '', False
    if isprop and none and s == 'self.PerLengthImpedance = value':
        m = re.fullmatch(re.escape(ALIAS_GET).replace('CLS', r'(\w+)'), ge)
        if m:
            return 'alias', 'PerLengthImpedance', m.group(1), False
    if ge is None and s is None and ad is None and rm is None:
        if prop == 'None' and pa is None and pr is None:
            return 'plainOne', '', '', False
        if prop is None and match(PA, pa, r) and match(PR, pr, r):
            return 'plainMany', '', '', False
        if prop is None and pa is None and pr is None:
            return 'absent', '', '', False
    fail('unknown accessors', c['mod'], r, repr(ge), repr(s), repr(ad), repr(rm), repr(pa), prop)


IMPED = '''if SequenceImpedance is not None:
    if PhaseImpedance is not None or PerLengthImpedance is not None:
        raise ValueError('Too many impedance models specified!')
    else:
        self.SequenceImpedance = SequenceImpedance
elif PhaseImpedance is not None:
    if PerLengthImpedance is not None:
        raise ValueError('Too many impedance models specified!')
    else:
        self.PhaseImpedance = PhaseImpedance
elif PerLengthImpedance is not None:
    self.PerLengthImpedance = PerLengthImpedance'''


def init_ref(n, k):
    if k in ('one2many', 'one2one'):
        return ['self._%s = None' % n, 'self.%s = %s' % (n, n)]
    if k in ('many2one', 'many2many'):
        return ['self._%s = []' % n, 'self.%s = [] if %s is None else %s' % (n, n, n)]
    if k == 'plainOne':
        return ['self.%s = %s' % (n, n)]
    if k == 'oneNoInv':
        return ['self._%s = %s' % (n, n)]
    if k == 'plainMany':
        return ['self.%s = [] if %s is None else %s' % (n, n, n)]
    return []


def analyse(c):
    a = c['assigns']
    for k in META:
        if k not in a:
            fail('no', k, c['mod'])
    c['attrs'] = ast.literal_eval(a['_attrs'])
    c['refs'] = ast.literal_eval(a['_refs'])
    c['many'] = ast.literal_eval(a['_many_refs'])
    pairs = lambda d, f: [(ast.literal_eval(k), f(v)) for k, v in zip(d.keys, d.values)]
    c['enums'] = pairs(a['_enums'], ast.literal_eval)
    c['types'] = pairs(a['_attr_types'], ast.unparse)
    c['defaults'] = pairs(a['_defaults'], ast.literal_eval)
    used = {'__init__'}
    c['ends'] = [(r,) + ref(c, r, used) for r in c['refs']]
    if set(c['meths']) != used:
        fail('other methods', c['mod'], set(c['meths']) - used)
    if set(a) - set(META) - set(c['refs']):
        fail('other assignments', c['mod'])
    # __init__
    ini = c['meths']['__init__']
    ar = ini.args
    names = [x.arg for x in ar.args]
    if names[0] != 'self' or len(names) - 1 != len(ar.defaults) or ar.kwonlyargs:
        fail('init signature', c['mod'])
    names = names[1:]
    params = dict(zip(names, ar.defaults))
    kinds = {e[0]: e[1] for e in c['ends']}
    rp = [r for r in c['refs'] if kinds[r] != 'absent']
    plain = [n for n in names if n not in rp]
    if sorted(names) != sorted(plain + rp) or (names != plain + rp and c['name'] != 'EnergyConsumerPhase'):
        fail('init parameters', c['mod'])
    for r in rp:
        if ast.unparse(params[r]) != 'None':
            fail('reference default', c['mod'], r)
    if c['base'] is None:
        if ar.vararg or ar.kwarg:
            fail('init varargs', c['mod'])
    elif not (ar.vararg and ar.kwarg):
        fail('init varargs', c['mod'])
    c['init'] = [(n, ast.literal_eval(params[n])) for n in plain]
    exp = ['self.%s = %s' % (n, n) for n in plain]
    al = [e for e in c['ends'] if e[1] == 'alias']
    group = set(e[0] for e in al) | set(e[2] for e in al)
    if al:
        if group != {'SequenceImpedance', 'PhaseImpedance', 'PerLengthImpedance'}:
            fail('alias group', c['mod'])
        exp += ['self._SequenceImpedance = None', 'self._PhaseImpedance = None',
                'self._PerLengthImpedance = None', IMPED]
    for r in rp:
        if r not in group:
            exp += init_ref(r, kinds[r])
    if c['base'] is not None:
        exp.append('super(%s, self).__init__(*args, **kw_args)' % c['name'])
    got = [ast.unparse(s) for s in strip_doc(ini)]
    if got == ['pass'] and exp == []:
        got = []
    if got != exp and not (c['name'] == 'EnergyConsumerPhase' and sorted(got) == sorted(exp)):
        fail('init body', c['mod'], [x for x in got if x not in exp], [x for x in exp if x not in got])


# ---------------------------------------------------------------------------------------------
# output

def code(s):
    b = s.encode('ascii')
    if b[:1] == b'\0':
        fail('name', s)
    return '0x' + b.hex() if b else '0'


def lit(v):
    if v is None:
        return '.none'
    if isinstance(v, bool):
        return '.bool ' + str(v).lower()
    if isinstance(v, int):
        return '.int %d' % v if v >= 0 else '.int (%d)' % v
    if isinstance(v, float):
        return '.flt 0x%x' % struct.unpack('>Q', struct.pack('>d', v))[0]
    if isinstance(v, str):
        return '.str ' + code(v)
    fail('literal', v)


def lst(xs):
    return '[' + ', '.join(xs) + ']'


def ident(p):
    return p.replace('.', '_')


def emit(pkg, cs, packages, classes):
    by = {c['mod']: c for c in cs}
    depth = {}

    def dep(c):
        return 0 if c['base'] is None else 1 + dep(by[c['base']])
    out = ['import Verif.Gen.Types',
           '/-! Generated by tools/gen.py from /repo/%s: do not edit. -/' % pkg.replace('.', '/'),
           'namespace Verif.Gen.%s' % ident(pkg), 'set_option maxRecDepth 10000', '']
    for c in sorted(cs, key=lambda c: (dep(c), c['mod'])):
        refs = []
        for n, k, i, ac, dup in c['ends']:
            e = '⟨%s, .%s, %s, %s, %s⟩' % (code(n), k, code(i), code(ac), str(dup).lower())
            refs.append(e)
        out.append('/-- %s:%d -/' % (c['path'], c['line']))
        out.append('def d_%s : RClass := ⟨%s, %s, %s,' % (
            c['id'], code(c['name']), code(c['mod']),
            code(c['base']) if c['base'] else '0'))
        out.append('  %s,' % lst('(%s, %s)' % (code(n), lit(v)) for n, v in c['init']))
        out.append('  %s,' % lst(code(n) for n in c['attrs']))
        out.append('  %s,' % lst('(%s, %s)' % (code(n), lit(v)) for n, v in c['defaults']))
        out.append('  %s,' % lst('(%s, %s)' % (code(n), code(t)) for n, t in c['types']))
        out.append('  %s,' % lst('(%s, %s)' % (code(n), code(t)) for n, t in c['enums']))
        out.append('  %s,' % lst(refs))
        out.append('  %s⟩' % lst(code(n) for n in c['many']))
        out.append('def m_%s : List RClass := d_%s :: %s' % (
            c['id'], c['id'], 'm_' + by[c['base']]['id'] if c['base'] else '[]'))
        out.append('')
    out.append('def classes : List (List RClass) := [')
    out.append('  ' + ',\n  '.join('m_' + c['id'] for c in sorted(cs, key=lambda c: c['mod'])) + ']')
    pm = packages[pkg]['pmap']
    out.append('')
    out.append('/-- `packageMap` of %s/__init__.py -/' % pkg.replace('.', '/'))
    out.append('def pmap : List (Nat × Nat) := [')
    out.append('  ' + ',\n  '.join('(%s, %s)' % (code(k), code(v)) for k, v in pm) + ']')
    out.append('')
    out.append('/-- Names bound by `from m import C` in the `__init__.py` files of the packages '
               'occurring in `pmap`: (package, C, m). -/')
    out.append('def exports : List (Nat × Nat × Nat) := [')
    ex = [(p, n, m) for p in sorted(set(v for _, v in pm)) for n, m in packages[p]['exports']]
    out.append('  ' + ',\n  '.join('(%s, %s, %s)' % (code(p), code(n), code(m)) for p, n, m in ex) + ']')
    out.append('')
    out.append('def pkg : RPkg := ⟨%s, classes, pmap, exports⟩' % code(pkg))
    out.append('')
    out.append('end Verif.Gen.%s' % ident(pkg))
    with open(os.path.join(OUT, ident(pkg) + '.lean'), 'w') as f:
        f.write('\n'.join(out) + '\n')


def main():
    classes, packages = load()
    groups = collections.OrderedDict((p, []) for p in PROFILES)
    for c in classes.values():
        analyse(c)
        groups[profile(c['mod'])].append(c)
    total = collections.Counter()
    for p, cs in groups.items():
        names = [c['name'] for c in cs]
        for c in cs:
            c['id'] = c['name']
            if names.count(c['name']) > 1:
                print('class name twice:', c['mod'])
                c['id'] = '_'.join(c['mod'].split('.')[-2:])
            if c['base'] is not None and profile(classes[c['base']]['mod']) != p:
                fail('base outside profile', c['mod'])
            for e in c['ends']:
                total[e[1]] += 1
        # collections whose methods name the opposite end through a forwarding property
        al = {e[0]: e[2] for c in cs for e in c['ends'] if e[1] == 'alias'}
        back = {(e[0], e[2]) for c in cs for e in c['ends'] if e[1] == 'one2many'}
        for c in cs:
            c['ends'] = [e[:3] + (al[e[2]],) + e[4:]
                         if e[1] == 'many2one' and (al.get(e[2]), e[0]) in back else e for e in c['ends']]
        emit(p, cs, packages, classes)
        print(p, len(cs))
    print(dict(total))


if __name__ == '__main__':
    main()
