#!/usr/bin/env python3
"""Reads the oversampler classes of /repo with `ast` and writes lean/Verif/Model/Registry.lean.

Extracted per class: the constructor's parameters and defaults, whether it takes **kwargs, its range and membership
checks, the grids of parameter_combinations, the keys of get_params with the parameter each one reports, the
categories, the defaults of ss_params and the recorded runtime. Anything the script does not understand is an error.
"""
import ast, glob, os, re, sys
from decimal import Decimal

REPO = '/repo/smote_variants'
OUT = '/verif/lean/Verif/Model/Registry.lean'

classes = {}
for f in sorted(glob.glob(REPO + '/oversampling/_*.py')):
    src = open(f).read()
    for c in ast.parse(src).body:
        if isinstance(c, ast.ClassDef):
            classes[c.name] = (os.path.basename(f), c)

q = open(REPO + '/queries/_queries.py').read()
names = [x.strip().rstrip(',') for x in re.search(r'oversamplers = \[\n(.*?)\n    \]', q, re.S).group(1).split('\n')]
rt = open(REPO + '/queries/_runtimes.py').read()
runtimes = dict(re.findall(r'"(\w+)": ([0-9.e-]+),', rt))


def num(d):
    """A decimal literal of the source as an exact rational."""
    d = Decimal(str(d))
    n, m = d.as_integer_ratio()
    return str(n) if m == 1 else f'{n} / {m}' if n >= 0 else f'({n}) / {m}'


def gv(v):
    if v is None:
        return '.none'
    if isinstance(v, (bool, int, float)):
        return f'.num ({num(int(v) if isinstance(v, bool) else v)})'
    if isinstance(v, str):
        return f'.str "{v}"'
    if isinstance(v, tuple) and all(isinstance(x, (int, float)) for x in v):
        return '.tup [' + ', '.join(num(x) for x in v) + ']'
    return '.obj "' + repr(v).replace('"', '\\"') + '"'


def methods(c):
    return {m.name: m for m in c.body if isinstance(m, ast.FunctionDef)}


def bound_params(init):
    a = init.args
    res, n = [], len(a.args) - 1
    defaults = [None] * (n - len(a.defaults)) + list(a.defaults)
    for arg, d in zip(a.args[1:], defaults):
        res.append((arg.arg, d))
    for arg, d in zip(a.kwonlyargs, a.kw_defaults):
        res.append((arg.arg, d))
    out = []
    for p, d in res:
        assert d is not None, p
        out.append((p, ast.literal_eval(d)))
    return out, a.kwarg is not None


def checks_of(name, init):
    out = []
    for n in init.body:
        if isinstance(n, ast.If):
            s = ast.unparse(n.test)
            if name == 'ADG' and s.startswith("kernel != 'inner'"):
                out.append('.numSuffix "kernel" "inner" "rbf"')
            elif name == 'ADG' and s == "kernel.startswith('rbf')":
                pass  # second half of the same rule
            elif name == 'G_SMOTE' and s.startswith("method != 'linear'"):
                out.append('.numSuffix "method" "linear" "non-linear"')
            elif name == 'G_SMOTE' and s == "method.startswith('non-linear')":
                pass
            elif name == 'MOT2LD' and s.startswith('isinstance(d_cut'):
                out.append('.posOrAuto "d_cut"')
            elif name == 'polynom_fit_SMOTE' and s == "topology.startswith('poly')":
                out.append('.topology "topology"')
            else:
                sys.exit(f'{name}: condition {s}')
            continue
        if not (isinstance(n, ast.Expr) and isinstance(n.value, ast.Call)):
            continue
        call = n.value
        fn = ast.unparse(call.func)
        if not fn.startswith('self.check_'):
            assert fn in ('super().__init__', 'OverSamplingSimplex.__init__', 'OverSampling.__init__'), (name, fn)
            continue
        fn = fn[len('self.check_'):]
        a0 = call.args[0]
        if fn == 'n_jobs':
            assert isinstance(a0, ast.Name)
            out.append(f'.nJobs "{a0.id}"')
            continue
        third = ast.literal_eval(call.args[2])
        if isinstance(a0, ast.Subscript):
            assert fn == 'greater_or_equal'
            out.append(f'.elemGe "{a0.value.id}" {a0.slice.value} ({num(third)})')
            continue
        assert isinstance(a0, ast.Name), (name, ast.unparse(call))
        p = a0.id
        if fn == 'greater_or_equal':
            out.append(f'.ge "{p}" ({num(third)})')
        elif fn == 'greater':
            out.append(f'.gt "{p}" ({num(third)})')
        elif fn == 'in_range':
            out.append(f'.range "{p}" ({num(third[0])}) ({num(third[1])})')
        elif fn == 'isin':
            out.append(f'.isin "{p}" [' + ', '.join(f'"{x}"' for x in third) + ']')
        else:
            sys.exit(f'{name}: check {fn}')
    return out


def grids_of(name, pc):
    env = {}

    def ev(node):
        if isinstance(node, ast.Name):
            return env[node.id]
        if isinstance(node, ast.List):
            return [ev(x) for x in node.elts]
        if isinstance(node, ast.Dict):
            return {ast.literal_eval(k): ev(v) for k, v in zip(node.keys, node.values)}
        return ast.literal_eval(node)
    for n in pc.body:
        if isinstance(n, ast.Assign):
            t = n.targets[0].id
            if isinstance(n.value, ast.Call) and ast.unparse(n.value.func) == 'cls.generate_parameter_combinations':
                env[t] = [ev(n.value.args[0])]
            elif t != '_':
                env[t] = ev(n.value)
        elif isinstance(n, ast.Return):
            v = n.value
            if isinstance(v, ast.Call) and ast.unparse(v.func) == 'cls.generate_parameter_combinations':
                return [ev(v.args[0])]
            if isinstance(v, ast.Call) and ast.unparse(v.func) == 'SMOTE.parameter_combinations':
                return grids_of('SMOTE', methods(classes['SMOTE'][1])['parameter_combinations'])
            if isinstance(v, ast.List):
                return [{k: [x] for k, x in ev(d).items()} for d in v.elts]
        elif isinstance(n, ast.If) and ast.unparse(n.test) == 'not raw':
            if len(n.body) == 1 and isinstance(n.body[0], ast.Return):
                return [{k: [x] for k, x in ev(d).items()} for d in n.body[0].value.elts]
            assert [ast.unparse(x) for x in n.body] == ['bat_pc.extend(pso_pc)', 'return bat_pc'], name
            return env['bat_pc'] + env['pso_pc']
    sys.exit(f'{name}: grid')


def attrs_of(name, init, params):
    """attribute (or self.attr['key']) -> constructor parameter it holds."""
    res = {}
    for n in ast.walk(init):
        if not (isinstance(n, ast.Assign) and ast.unparse(n.targets[0]).startswith('self.')):
            continue
        a, v = ast.unparse(n.targets[0]), n.value
        s = ast.unparse(v)
        if s in params:
            res[a] = s
        elif s == 'coalesce(nn_params, {})' or s == 'nn_params or {}':
            res[a] = 'nn_params'
        elif s.startswith('coalesce_dict(ss_params,'):
            res[a] = 'ss_params'
        elif isinstance(v, ast.Dict):
            for k, x in zip(v.keys, v.values):
                x = ast.unparse(x)
                m = re.fullmatch(r'(\w+)\[(\d)\]', x)
                if x in params:
                    res[f"{a}[{k.value!r}]"] = x
                elif m:
                    res[f"{a}[{k.value!r}]"] = (m.group(1), int(m.group(2)))
        elif s.startswith('AMSCOParams('):
            fields = [b.target.id for b in classes['AMSCOParams'][1].body if isinstance(b, ast.AnnAssign)]
            for fld, arg in zip(fields, v.args):
                res[f'{a}.{fld}'] = arg.id
        elif s.startswith('Isomap('):
            for kw in v.keywords:
                res[f'{a}.{kw.arg}'] = ast.unparse(kw.value)
        elif (name, a, s) in [('ADASYN', 'self.beta', 'proportion or beta'), ('ADASYN', 'self.proportion', 'self.beta'),
                              ('MSYN', 'self.pressure', 'coalesce(proportion, pressure)'),
                              ('MSYN', 'self.proportion', 'self.pressure')]:
            res[a] = a[5:]  # the normalised pair; see Model/Registry.lean, `pickProportion`
    res['self._random_state_init'] = 'random_state'
    return res


def get_keys(name, c, params):
    ms = methods(c)
    attrs = attrs_of(name, ms['__init__'], params)
    keys, cls = [], False
    if name in ('polynom_fit_SMOTE_star', 'polynom_fit_SMOTE_bus', 'polynom_fit_SMOTE_poly'):
        if name.endswith('poly'):
            assert attrs['self.order'] == 'order'
            keys.append(('order', 'order'))
        return keys + [('proportion', 'proportion'), ('topology', ''), ('random_state', 'random_state')], True
    ret = [n for n in ast.walk(ms['get_params']) if isinstance(n, ast.Return)]
    assert len(ret) == 1 and isinstance(ret[0].value, ast.Dict), name
    for k, v in zip(ret[0].value.keys, ret[0].value.values):
        s = ast.unparse(v)
        if k is None:
            if s.startswith('OverSamplingSimplex.get_params('):
                keys.append(('ss_params', 'ss_params'))
            else:
                assert s.startswith('OverSampling.get_params('), (name, s)
            keys.append(('random_state', 'random_state'))
            cls = True
        elif k.value == 'class_name':
            cls = True
        elif isinstance(v, ast.Tuple):
            srcs = [attrs[ast.unparse(x)] for x in v.elts]
            assert srcs == [(srcs[0][0], i) for i in range(len(srcs))], name
            keys.append((k.value, srcs[0][0]))
        else:
            keys.append((k.value, attrs[s]))
    return keys, cls


def ss_of(name, c, params):
    init = methods(c)['__init__']
    if 'ss_params' not in params:
        return 'none'
    base = [ast.unparse(b) for b in c.bases]
    dflt = None
    for n in ast.walk(init):
        if isinstance(n, ast.Call) and ast.unparse(n.func) == 'coalesce_dict':
            a = n.args[1]
            if isinstance(a, ast.Name):
                a = [m.value for m in ast.walk(init) if isinstance(m, ast.Assign)
                     and ast.unparse(m.targets[0]) == a.id][0]
            dflt = {ast.literal_eval(k): ast.unparse(v) for k, v in zip(a.keys, a.values)}
    has = any(isinstance(n, ast.Assign) and ast.unparse(n.targets[0]) == 'self.ss_params' for n in ast.walk(init))
    attr = has or base == ['OverSamplingSimplex']
    s = {k: v.strip("'") for k, v in dflt.items()}
    g = 'false' if s['gaussian_component'] == 'None' else 'true'
    return (f'some ⟨{s["n_dim"]}, "{s["simplex_sampling"]}", "{s["within_simplex_sampling"]}", {g}, '
            f'{"true" if attr else "false"}⟩')


def cats_of(c):
    for n in c.body:
        if isinstance(n, ast.Assign) and n.targets[0].id == 'categories':
            return [ast.unparse(x).split('.cat_')[1] for x in n.value.elts]
    return []


out = []
for name in names:
    f, c = classes[name]
    ms = methods(c)
    init = ms['__init__']
    params, kw = bound_params(init)
    pn = [p for p, _ in params]
    checks = checks_of(name, init)
    if name in ('polynom_fit_SMOTE_star', 'polynom_fit_SMOTE_bus', 'polynom_fit_SMOTE_poly'):
        # the constructor builds a polynom_fit_SMOTE, whose checks run on the same proportion
        inner = checks_of('polynom_fit_SMOTE', methods(classes['polynom_fit_SMOTE'][1])['__init__'])
        assert inner == ['.ge "proportion" (0)', '.topology "topology"'], inner
        checks.append('.ge "proportion" (0)')
        if name.endswith('poly'):
            checks.append('.ge "order" (1)')
    grids = grids_of(name, ms['parameter_combinations'])
    keys, cls = get_keys(name, c, pn)
    txt = f'/-- oversampling/{f}:{init.lineno} (`__init__`), {ms["parameter_combinations"].lineno} '
    txt += f'(`parameter_combinations`), {ms["get_params"].lineno} (`get_params`). -/\n'
    txt += f'def spec{name} : OsSpec where\n  name := "{name}"\n'
    txt += '  params := [' + ', '.join(f'("{p}", {gv(d)})' for p, d in params) + ']\n'
    txt += f'  kwargs := {"true" if kw else "false"}\n'
    txt += '  checks := [' + ', '.join(checks) + ']\n'
    txt += '  grids := [' + ',\n    '.join('[' + ', '.join(
        f'("{k}", [' + ', '.join(gv(x) for x in v) + '])' for k, v in g.items()) + ']' for g in grids) + ']\n'
    txt += '  getKeys := [' + ', '.join(f'("{k}", "{v}")' for k, v in keys) + ']\n'
    txt += f'  hasClassName := {"true" if cls else "false"}\n'
    txt += '  categories := [' + ', '.join(f'"{x}"' for x in cats_of(c)) + ']\n'
    txt += f'  ss := {ss_of(name, c, pn)}\n'
    # unit: 1e-20 seconds
    r = Decimal(runtimes[name]) * (Decimal(10) ** 20)
    assert r == int(r), name
    txt += f'  runtime := {int(r)}\n'
    out.append(txt)

head = '''import Verif.Model.RegistryTypes

/-!
# The oversamplers of `get_all_oversamplers` (queries/_queries.py:159-251), in its order

Generated from /repo by tools/registry.py; see there for what is extracted and how. Floats are the exact decimals of the
source. `runtime` is queries/_runtimes.py in units of 1e-20 seconds.
-/

namespace Verif

'''
tail = '''/-- queries/_queries.py:159-251. -/
def registry : List OsSpec :=
  [''' + ',\n    '.join(f'spec{n}' for n in names) + ''']

end Verif
'''
open(OUT, 'w').write(head + '\n'.join(out) + '\n' + tail)
print(len(names), 'oversamplers')
