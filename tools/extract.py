"""Generate lean/Verif/Wiring/Tables.lean: signatures, calls, tuple unpackings and returns of the
stages of /repo, read as text with `ast` (nothing is imported or executed)."""
import ast, builtins, pathlib, textwrap

R = pathlib.Path("/repo/instancespace")
OUT = pathlib.Path(__file__).resolve().parent.parent / "lean/Verif/Wiring/Tables.lean"
TREES = {m: ast.parse((R / f"stages/{m}.py").read_text())
         for m in ("preprocessing", "prelim", "sifted", "pilot", "pythia", "cloister", "trace")}
TREES["filter"] = ast.parse((R / "utils/filter.py").read_text())
TREES["model"] = ast.parse((R / "data/model.py").read_text())


def where(mod):
    return {"filter": "utils/filter.py", "model": "data/model.py"}.get(mod, f"stages/{mod}.py")


def cls(mod, name):
    return next(n for n in TREES[mod].body if isinstance(n, ast.ClassDef) and n.name == name)


def fn(mod, c, name):
    return next(n for n in (cls(mod, c) if c else TREES[mod]).body if isinstance(n, ast.FunctionDef) and n.name == name)


def qual(c, name):
    return f"{c}.{name}" if c else name


def q(s):
    return '"' + s.replace("\\", "\\\\").replace('"', '\\"') + '"'


def strs(l):
    return "[" + ", ".join(map(q, l)) + "]"


MODULES = {"np", "pd", "stats"}


def free(e):
    """Names an expression reads, in order of appearance, without bound variables and modules."""
    bound = {t.id for c in ast.walk(e) if isinstance(c, ast.comprehension)
             for t in ast.walk(c.target) if isinstance(t, ast.Name)}
    out = []

    def go(n):
        if isinstance(n, ast.Attribute) and isinstance(n.value, ast.Name) and n.value.id in ("inputs", "self"):
            v = f"{n.value.id}.{n.attr}"
        elif isinstance(n, ast.Name):
            v = n.id
        else:
            for c in ast.iter_child_nodes(n):
                go(c)
            return
        if v not in out and v not in bound and v not in MODULES and not hasattr(builtins, v):
            out.append(v)

    go(e)
    return out


def expr(e):
    if isinstance(e, ast.Name) or (isinstance(e, ast.Attribute) and isinstance(e.value, ast.Name)
                                   and e.value.id in ("inputs", "self")):
        return f".var {q(ast.unparse(e))}"
    return f".app {q(ast.unparse(e))} {strs(free(e))}"


def exprs(l):
    return "[" + ", ".join(expr(e) for e in l) + "]"


def pairs(l):
    return "[" + ", ".join(f"({q(k)}, {expr(e)})" for k, e in l) + "]"


L = []


def define(name, ty, val, doc):
    body = textwrap.wrap(val, 94, break_long_words=False, break_on_hyphens=False)
    # never break inside a string literal
    lines, buf = [], ""
    for b in body:
        buf = f"{buf} {b}" if buf else b
        if buf.count('"') % 2 == 0:
            lines.append(buf)
            buf = ""
    assert not buf
    L.append(f"/-- {doc} -/\ndef {name} : {ty} :=\n  " + "\n    ".join(lines) + "\n")


def sig_fn(mod, c, name, as_):
    f = fn(mod, c, name)
    a = f.args
    assert not a.vararg and not a.kwarg and not a.kwonlyargs and not a.posonlyargs
    ps = [x.arg for x in a.args]
    opt = ps[len(ps) - len(a.defaults):]
    ps = [p for p in ps if p != "self"]
    define(as_, "Sig", f"⟨{strs(ps)}, {strs(opt)}⟩",
           f"Parameters of `{qual(c, name)}`, {where(mod)}:{f.lineno}-{f.returns.lineno if f.returns else f.lineno}.")


def sig_cls(mod, name, as_):
    c = cls(mod, name)
    fs = [a for a in c.body if isinstance(a, ast.AnnAssign)]
    opt = [a.target.id for a in fs if a.value is not None]
    define(as_, "Sig", f"⟨{strs([a.target.id for a in fs])}, {strs(opt)}⟩",
           f"Fields of `{name}`, {where(mod)}:{c.lineno}-{c.end_lineno}.")


def calls_in(mod, c, name, callee):
    return sorted((n for n in ast.walk(fn(mod, c, name))
                   if isinstance(n, ast.Call) and ast.unparse(n.func) == callee), key=lambda n: n.lineno)


def call(mod, c, name, callee, as_, k=0, total=1):
    cs = calls_in(mod, c, name, callee)
    assert len(cs) == total, (mod, name, callee, len(cs))
    n = cs[k]
    assert not any(isinstance(a, ast.Starred) for a in n.args) and all(x.arg for x in n.keywords)
    define(as_, "Args", f"⟨{exprs(n.args)}, {pairs((x.arg, x.value) for x in n.keywords)}⟩",
           f"Arguments of the call of `{callee}` in `{qual(c, name)}`, {where(mod)}:{n.lineno}-{n.end_lineno}.")


def targets(mod, c, name, callee, as_):
    [a] = [n for n in ast.walk(fn(mod, c, name)) if isinstance(n, ast.Assign)
           and isinstance(n.value, ast.Call) and ast.unparse(n.value.func) == callee]
    [t] = a.targets
    ts = t.elts if isinstance(t, ast.Tuple) else [t]
    define(as_, "List String", strs(ast.unparse(x) for x in ts),
           f"Targets of the assignment from `{callee}` in `{qual(c, name)}`, {where(mod)}:{a.lineno}-{t.end_lineno}.")


def returns(mod, c, name, as_):
    f = fn(mod, c, name)
    nested = [n for d in ast.walk(f) if isinstance(d, ast.FunctionDef) and d is not f for n in ast.walk(d)]
    rs = [n for n in ast.walk(f) if isinstance(n, ast.Return) and n not in nested]
    [r] = rs
    es = r.value.elts if isinstance(r.value, ast.Tuple) else [r.value]
    define(as_, "List Expr", exprs(es), f"What `{qual(c, name)}` returns, {where(mod)}:{r.lineno}-{r.end_lineno}.")


def attrs(mod, c, as_):
    f = fn(mod, c, "__init__")
    st = [n for n in f.body if isinstance(n, ast.Assign)]
    for n in st:
        assert len(n.targets) == 1 and ast.unparse(n.targets[0]).startswith("self.")
    define(as_, "List (String × Expr)", pairs((ast.unparse(n.targets[0]), n.value) for n in st),
           f"Attributes set by `{c}.__init__`, {where(mod)}:{st[0].lineno}-{st[-1].end_lineno}.")


def prefix(mod, c, name, as_):
    """The leading assignments `v = self.v` of a method."""
    f = fn(mod, c, name)
    st = []
    for n in f.body:
        if isinstance(n, ast.Expr):
            continue
        if isinstance(n, ast.Assign) and isinstance(n.value, ast.Attribute) and ast.unparse(n.value).startswith("self."):
            st.append(n)
        else:
            break
    define(as_, "List (String × Expr)", pairs((ast.unparse(n.targets[0]), n.value) for n in st),
           f"First assignments of `{qual(c, name)}`, {where(mod)}:{st[0].lineno}-{st[-1].end_lineno}.")
    return st


def root(t):
    while isinstance(t, (ast.Subscript, ast.Attribute)):
        if isinstance(t, ast.Attribute) and isinstance(t.value, ast.Name) and t.value.id == "self":
            return f"self.{t.attr}"
        t = t.value
    return t.id if isinstance(t, ast.Name) else None


def assigned(mod, c, name, as_, skip=(), part=None):
    """Names a function rebinds or updates in place: targets of any assignment, loop or comprehension
    statement, and receivers of method calls made for their effect."""
    f = part or fn(mod, c, name)
    out = []

    def add(t):
        if isinstance(t, (ast.Tuple, ast.List)):
            for e in t.elts:
                add(e)
        elif isinstance(t, ast.Starred):
            add(t.value)
        else:
            r = root(t)
            if r and r not in out:
                out.append(r)

    for n in ast.walk(f):
        if n in skip:
            continue
        if isinstance(n, ast.Assign):
            for t in n.targets:
                add(t)
        elif isinstance(n, (ast.AugAssign, ast.AnnAssign, ast.NamedExpr)):
            add(n.target)
        elif isinstance(n, ast.For):
            add(n.target)
        elif isinstance(n, ast.With):
            for i in n.items:
                if i.optional_vars is not None:
                    add(i.optional_vars)
        elif isinstance(n, ast.Expr) and isinstance(n.value, ast.Call) and isinstance(n.value.func, ast.Attribute):
            r = root(n.value.func.value)
            if r and r not in out and r not in ("logger",) and not r[0].isupper():
                out.append(r)
    define(as_, "List String", strs(out),
           f"Names rebound or updated in place by `{qual(c, name)}`, {where(mod)}:{f.lineno}-{f.end_lineno}.")


def before(stmts, target):
    """Statements that can have run when control reaches `target`: branches that end in a return or a
    raise are left out unless they contain it."""
    out = []
    for st in stmts:
        if target in ast.walk(st):
            if isinstance(st, ast.If):
                for br in (st.body, st.orelse):
                    if any(target in ast.walk(b) for b in br):
                        out += before(br, target)
            return out
        if isinstance(st, ast.If) and st.body and isinstance(st.body[-1], (ast.Return, ast.Raise)):
            out += st.orelse
        else:
            out.append(st)
    raise AssertionError


def assigned_before(mod, c, name, callee, as_, k, total, skip=()):
    """Like `assigned`, for the part of the function that leads to its k-th call of `callee`."""
    f = fn(mod, c, name)
    cs = calls_in(mod, c, name, callee)
    assert len(cs) == total
    part = ast.FunctionDef(name=name, args=f.args, body=before(f.body, cs[k]), decorator_list=[], lineno=f.lineno,
                           end_lineno=cs[k].lineno)
    assigned(mod, c, name, as_, skip, part)


def section(t):
    L.append(f"/-! ### {t} -/\n")


section("Filter")
sig_fn("filter", None, "do_filter", "doFilterSig")
sig_fn("filter", None, "filter_instance", "filterInstanceSig")
call("filter", None, "do_filter", "filter_instance", "filterInstanceCall")
targets("filter", None, "do_filter", "filter_instance", "filterInstanceTargets")
returns("filter", None, "filter_instance", "filterInstanceReturns")
sig_fn("filter", None, "compute_uniformity", "uniformitySig")
call("filter", None, "do_filter", "compute_uniformity", "uniformityCall")
targets("filter", None, "do_filter", "compute_uniformity", "uniformityTargets")
returns("filter", None, "compute_uniformity", "uniformityReturns")
returns("filter", None, "do_filter", "doFilterReturns")
call("prelim", "PrelimStage", "_filter", "do_filter", "doFilterCall")
call("sifted", "SiftedStage", "_sifted", "do_filter", "doFilterCallSifted")
targets("sifted", "SiftedStage", "_sifted", "do_filter", "doFilterTargetsSifted")

section("Preprocessing")
P = "PreprocessingStage"
for name, short in (("select_features_and_algorithms", "select"), ("remove_instances_with_many_missing_values", "remove")):
    sig_fn("preprocessing", P, name, f"{short}Sig")
    assigned("preprocessing", P, name, f"{short}Assigned")
    returns("preprocessing", P, name, f"{short}Returns")
    call("preprocessing", P, "_run", f"{P}.{name}", f"{short}Call")
    targets("preprocessing", P, "_run", f"{P}.{name}", f"{short}Targets")
sig_cls("preprocessing", "PreprocessingOutput", "preprocessingFields")
call("preprocessing", P, "_run", "PreprocessingOutput", "preprocessingOut")

section("PRELIM")
P = "PrelimStage"
sig_fn("prelim", P, "prelim", "prelimSig")
call("prelim", P, "_run", "PrelimStage.prelim", "prelimCall")
targets("prelim", P, "_run", "PrelimStage.prelim", "prelimTargets")
sig_fn("prelim", P, "__init__", "prelimInitSig")
attrs("prelim", P, "prelimAttrs")
call("prelim", P, "prelim", "PrelimStage", "prelimInitCall")
sig_fn("prelim", P, "_prelim", "innerPrelimSig")
call("prelim", P, "prelim", "prelim_stage._prelim", "innerPrelimCall")
assigned("prelim", P, "_prelim", "innerPrelimAssigned")
returns("prelim", P, "_prelim", "innerPrelimReturns")
sig_fn("prelim", P, "_select_best_algorithms", "bestSig")
call("prelim", P, "_prelim", "self._select_best_algorithms", "bestCall")
targets("prelim", P, "_prelim", "self._select_best_algorithms", "bestTargets")
returns("prelim", P, "_select_best_algorithms", "bestReturns")
call("prelim", P, "_run", "PrelimStage", "prelimInitCall2")
sig_fn("prelim", P, "_filter", "filterSig")
call("prelim", P, "_run", "prelim._filter", "filterCall")
targets("prelim", P, "_run", "prelim._filter", "filterTargets")
assigned("prelim", P, "_filter", "filterAssigned")
returns("prelim", P, "_filter", "filterReturns")
sig_cls("prelim", "PrelimOutput", "prelimFields")
call("prelim", P, "_run", "PrelimOutput", "prelimOut")

sig_cls("model", "DataDense", "denseFields")
call("prelim", P, "_filter", "DataDense", "denseCall")

section("SIFTED")
P = "SiftedStage"
sig_fn("sifted", P, "sifted", "siftedSig")
call("sifted", P, "_run", "SiftedStage.sifted", "siftedCall")
sig_fn("sifted", P, "__init__", "siftedInitSig")
attrs("sifted", P, "siftedAttrs")
call("sifted", P, "sifted", "SiftedStage", "siftedInitCall")
sig_fn("sifted", P, "sift", "siftSig")
call("sifted", P, "sifted", "sifted.sift", "siftCall")
sig_fn("sifted", P, "_sifted", "innerSiftedSig")
call("sifted", P, "sift", "self._sifted", "innerSiftedCall")
pre = prefix("sifted", P, "_sifted", "innerSiftedPrefix")
sig_cls("sifted", "SiftedOutput", "siftedFields")
for k in range(5):
    call("sifted", P, "_sifted", "SiftedOutput", f"siftedOut{k + 1}", k, 5)
    assigned_before("sifted", P, "_sifted", "SiftedOutput", f"siftedAssigned{k + 1}", k, 5, skip=pre)

section("PILOT")
P = "PilotStage"
sig_fn("pilot", P, "pilot", "pilotSig")
call("pilot", P, "_run", "PilotStage.pilot", "pilotCall")
assigned("pilot", P, "pilot", "pilotAssigned")
sig_cls("pilot", "PilotOutput", "pilotFields")
for k in range(2):
    call("pilot", P, "pilot", "PilotOutput", f"pilotOut{k + 1}", k, 2)
sig_fn("pilot", P, "analytic_solve", "analyticSig")
call("pilot", P, "pilot", "PilotStage.analytic_solve", "analyticCall")
targets("pilot", P, "pilot", "PilotStage.analytic_solve", "analyticTargets")
returns("pilot", P, "analytic_solve", "analyticReturns")
sig_fn("pilot", P, "numerical_solve", "numericalSig")
call("pilot", P, "pilot", "PilotStage.numerical_solve", "numericalCall")
targets("pilot", P, "pilot", "PilotStage.numerical_solve", "numericalTargets")
returns("pilot", P, "numerical_solve", "numericalReturns")

section("PYTHIA")
P = "PythiaStage"
sig_fn("pythia", P, "pythia", "pythiaSig")
call("pythia", P, "_run", "PythiaStage.pythia", "pythiaCall")
assigned("pythia", P, "pythia", "pythiaAssigned")
sig_fn("pythia", P, "_fitmatsvm", "fitSig")
call("pythia", P, "pythia", "PythiaStage._fitmatsvm", "fitCall")
sig_fn("pythia", P, "_determine_selections", "selectionsSig")
call("pythia", P, "pythia", "PythiaStage._determine_selections", "selectionsCall")
targets("pythia", P, "pythia", "PythiaStage._determine_selections", "selectionsTargets")
returns("pythia", P, "_determine_selections", "selectionsReturns")
sig_fn("pythia", P, "_generate_summary", "summarySig")
call("pythia", P, "pythia", "PythiaStage._generate_summary", "summaryCall")
sig_cls("pythia", "PythiaOutput", "pythiaFields")
call("pythia", P, "pythia", "PythiaOutput", "pythiaOut")

section("CLOISTER")
P = "CloisterStage"
sig_fn("cloister", P, "cloister", "cloisterSig")
call("cloister", P, "_run", "CloisterStage.cloister", "cloisterCall")
assigned("cloister", P, "cloister", "cloisterAssigned")
sig_cls("cloister", "CloisterOutput", "cloisterFields")
call("cloister", P, "cloister", "CloisterOutput", "cloisterOut")

section("TRACE")
P = "TraceStage"
sig_fn("trace", P, "trace", "traceSig")
for k in range(2):
    call("trace", P, "_run", "TraceStage.trace", f"traceCall{k + 1}", k, 2)
sig_fn("trace", P, "__init__", "traceInitSig")
attrs("trace", P, "traceAttrs")
call("trace", P, "trace", "TraceStage", "traceInitCall")
assigned("trace", P, "_trace", "innerTraceAssigned")
sig_cls("trace", "TraceOutputs", "traceFields")
call("trace", P, "_trace", "TraceOutputs", "traceOut")

OUT.write_text("""import Verif.Wiring.Model
/-!
# Signatures, calls and returns of the stages

Generated by `tools/extract.py` from the syntax trees of /repo/instancespace/stages; do not edit.
-/
set_option autoImplicit false

namespace Verif.Wiring

""" + "\n".join(L) + "\nend Verif.Wiring\n")
