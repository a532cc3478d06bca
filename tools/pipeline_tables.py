"""Generate lean/Verif/Pipeline/Tables.lean from the NamedTuples of /repo (read as text)."""
import ast, re, pathlib
R = pathlib.Path("/repo/instancespace")
stages = [("preprocessing","PreprocessingInput","PreprocessingOutput"),("prelim","PrelimInput","PrelimOutput"),
 ("sifted","SiftedInput","SiftedOutput"),("pilot","PilotInput","PilotOutput"),("pythia","PythiaInput","PythiaOutput"),
 ("cloister","CloisterInput","CloisterOutput"),("trace","TraceInputs","TraceOutputs")]
def fields(path, cls):
    for n in ast.parse(path.read_text()).body:
        if isinstance(n, ast.ClassDef) and n.name == cls:
            return n.lineno, n.end_lineno, [(a.target.id, ast.unparse(a.annotation)) for a in n.body if isinstance(a, ast.AnnAssign)]
def keys():
    out = []
    for n in ast.parse((R/"data/model.py").read_text()).body:
        if isinstance(n, ast.ClassDef):
            ks = [s.slice.value for s in ast.walk(n) if isinstance(s, ast.Subscript) and isinstance(s.slice, ast.Constant) and isinstance(s.slice.value, str) and "output" in ast.unparse(s.value)]
            if ks: out.append((n.name, n.lineno, n.end_lineno, ks))
    return out
names, types = [], []
def tyname(t):
    t = t.replace("NDArray[np.double] | None", "optArrayDouble").replace("NDArray[np.bool_] | None", "optArrayBool")
    t = {"NDArray[np.double]":"arrayDouble","NDArray[np.bool_]":"arrayBool","NDArray[np.int_]":"arrayInt","NDArray[np.intc]":"arrayIntc",
     "pd.Series | None":"optSeries","pd.Series":"series","list[str]":"listStr","list[float]":"listFloat","list[float] | None":"optListFloat",
     "pd.DataFrame":"dataFrame","list[SVC]":"listSVC","list[Footprint]":"listFootprint","DataDense | None":"optDataDense","float":"float"}.get(t, t)
    return t[0].lower()+t[1:]
def add(fs):
    for n, t in fs:
        if n not in names: names.append(n)
        if tyname(t) not in types: types.append(tyname(t))
def lean(fs): return "[" + ", ".join(f"(.{n}, .{tyname(t)})" for n, t in fs) + "]"
tables = []
for mod, i, o in stages:
    for cls in (i, o):
        r = fields(R/f"stages/{mod}.py", cls); add(r[2]); tables.append((mod, cls, *r))
init = fields(R/"instance_space.py", "_InstanceSpaceInputs"); add(init[2])
for _, _, _, ks in keys():
    for k in ks: assert k in names, k
def wrap(s, w=96):
    out, line = [], ""
    for tok in s.split(" "):
        if len(line) + len(tok) + 1 > w: out.append(line); line = "   " + tok
        else: line = (line + " " + tok) if line else tok
    return "\n".join(out + [line])
L = ["""/-!
# Tables of the default pipeline

Names and annotated types of the fields of the NamedTuples that the seven stages declare,
transcribed from the source (script `tools/pipeline_tables.py`).  Two annotations get the same
`Ty` exactly when they are written identically in the source.
-/
set_option autoImplicit false

namespace Verif.Pipeline

/-- The seven stages, instance_space.py:140-148. -/
inductive Stg
  | preprocessing | prelim | sifted | pilot | pythia | cloister | trace
  deriving DecidableEq, Repr
""",
"/-- Field names used by the stages, `_InstanceSpaceInputs` and the Model; see the tables below\nfor the files and lines. -/\ninductive Name"]
L[-1] += "\n" + wrap("  " + " ".join(f"| {n}" for n in names)) + "\n  deriving DecidableEq, Repr\n"
L.append("/-- Annotated types occurring in these classes, e.g. stages/prelim.py:28-62. -/\ninductive Ty\n" + wrap("  " + " ".join(f"| {n}" for n in types)) + "\n  deriving DecidableEq, Repr\n")
for d, suffix in (("Inputs","inputs"),("Outputs","outputs")):
    L.append(f"/-- The {suffix} declared by each stage:\n" + ";\n".join(f"stages/{m}.py:{a}-{b} ({c})" for m, c, a, b, _ in tables if c.endswith(("Input","Inputs")) == (d=="Inputs")) + ". -/")
    L.append(f"def {suffix} : Stg → List (Name × Ty)")
    for m, c, a, b, fs in tables:
        if c.endswith(("Input","Inputs")) == (d=="Inputs"):
            L.append(wrap(f"  | .{m} => " + lean(fs)))
    L.append("")
L.append(f"/-- `_InstanceSpaceInputs`, instance_space.py:{init[0]}-{init[0]+19}. -/\ndef initial : List (Name × Ty) :=\n" + wrap("  " + lean(init[2])) + "\n")
L.append("/-- The keys read by `Model.from_stage_runner_output`, model.py:48-78, through data/model.py:\n" + ";\n".join(f"{n} {a}-{b}" for n, a, b, _ in keys()) + ". -/\ndef modelKeys : List Name :=\n" + wrap("  [" + ", ".join("."+k for _,_,_,ks in keys() for k in ks) + "]") + "\n")
L.append("end Verif.Pipeline\n")
(pathlib.Path(__file__).resolve().parent.parent/"lean/Verif/Pipeline/Tables.lean").write_text("\n".join(L))
