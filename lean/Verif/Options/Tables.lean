import Verif.Options.Model
/-!
# The option groups of pyInstanceSpace
-/
set_option autoImplicit false

namespace Verif.Options

/-- Literals that occur as defaults, data/default_options.py:1-60.  A decimal fraction is
`dec m k`, meaning `m / 10 ^ k`. -/
inductive Lit
  | bool (b : Bool) | int (n : Nat) | dec (m k : Nat) | str (s : String) | none
  deriving DecidableEq, Repr

/-- `ParallelOptions`, options.py:78-93, 435-441. -/
def parallelGroup : Group Lit :=
  ⟨[("flag", .bool false), ("n_cores", .int 2)], [("ncores", "n_cores")]⟩

/-- `PerformanceOptions`, options.py:97-118, 442-450. -/
def perfGroup : Group Lit :=
  ⟨[("max_perf", .bool false), ("abs_perf", .bool true), ("epsilon", .dec 20 2),
    ("beta_threshold", .dec 55 2)],
   [("maxperf", "max_perf"), ("absperf", "abs_perf"), ("betathreshold", "beta_threshold")]⟩

/-- `AutoOptions`, options.py:122-134, 451-454. -/
def autoGroup : Group Lit := ⟨[("preproc", .bool true)], []⟩

/-- `BoundOptions`, options.py:138-150, 455-458. -/
def boundGroup : Group Lit := ⟨[("flag", .bool true)], []⟩

/-- `NormOptions`, options.py:154-166, 459-462. -/
def normGroup : Group Lit := ⟨[("flag", .bool true)], []⟩

/-- `SelvarsOptions`, options.py:170-206, 463-475. -/
def selvarsGroup : Group Lit :=
  ⟨[("small_scale_flag", .bool false), ("small_scale", .dec 50 2), ("file_idx_flag", .bool false),
    ("file_idx", .str ""), ("feats", .none), ("algos", .none), ("selvars_type", .str "Ftr&Good"),
    ("min_distance", .dec 1 1), ("density_flag", .bool false)],
   [("smallscaleflag", "small_scale_flag"), ("smallscale", "small_scale"),
    ("fileidxflag", "file_idx_flag"), ("fileidx", "file_idx"), ("densityflag", "density_flag"),
    ("mindistance", "min_distance"), ("type", "selvars_type")]⟩

/-- `SiftedOptions`, options.py:210-270, 476-485. -/
def siftedGroup : Group Lit :=
  ⟨[("flag", .bool true), ("rho", .dec 1 1), ("k", .int 6), ("n_trees", .int 50),
    ("max_iter", .int 1000), ("replicates", .int 100), ("num_generations", .int 100),
    ("num_parents_mating", .int 2), ("sol_per_pop", .int 50),
    ("parent_selection_type", .str "tournament"), ("k_tournament", .int 4),
    ("keep_elitism", .int 2), ("crossover_type", .str "scattered"),
    ("cross_over_probability", .dec 8 1), ("mutation_type", .str "random"),
    ("mutation_probability", .dec 5 2), ("stop_criteria", .str "saturate_5")],
   [("ntrees", "n_trees"), ("maxiter", "max_iter"), ("replicates", "replicates")]⟩

/-- `PilotOptions`, options.py:274-290, 486-493. -/
def pilotGroup : Group Lit :=
  ⟨[("x0", .none), ("alpha", .none), ("analytic", .bool false), ("n_tries", .int 5)],
   [("ntries", "n_tries")]⟩

/-- `CloisterOptions`, options.py:294-309, 494-501. -/
def cloisterGroup : Group Lit :=
  ⟨[("p_val", .dec 5 2), ("c_thres", .dec 7 1)], [("pval", "p_val"), ("cthres", "c_thres")]⟩

/-- `PythiaOptions`, options.py:313-336, 502-511. -/
def pythiaGroup : Group Lit :=
  ⟨[("cv_folds", .int 5), ("is_poly_krnl", .bool false), ("use_weights", .bool false),
    ("use_grid_search", .bool false), ("params", .none)],
   [("cvfolds", "cv_folds"), ("ispolykrnl", "is_poly_krnl"), ("useweights", "use_weights"),
    ("uselibsvm", "use_grid_search")]⟩

/-- `TraceOptions`, options.py:340-355, 512-519. -/
def traceGroup : Group Lit :=
  ⟨[("use_sim", .bool true), ("purity", .dec 55 2)], [("pi", "purity"), ("usesim", "use_sim")]⟩

/-- `OutputOptions`, options.py:359-377, 520-523. -/
def outputsGroup : Group Lit :=
  ⟨[("csv", .bool true), ("web", .bool false), ("png", .bool true)], []⟩

/-- The groups of `InstanceSpaceOptions` in the order of the dataclass, options.py:384-395. -/
def litGroups : List (String × Group Lit) :=
  [("parallel", parallelGroup), ("perf", perfGroup), ("auto", autoGroup), ("bound", boundGroup),
   ("norm", normGroup), ("selvars", selvarsGroup), ("sifted", siftedGroup), ("pilot", pilotGroup),
   ("cloister", cloisterGroup), ("pythia", pythiaGroup), ("trace", traceGroup),
   ("outputs", outputsGroup)]

/-- A group (one of the data classes data/options.py:78-378) with its defaults embedded into the type of
Python values. -/
def Group.embed {V : Type} (lit : Lit → V) (g : Group Lit) : Group V :=
  ⟨g.fields.map fun p => (p.1, lit p.2), g.mapping⟩

/-- All groups, options.py:384-395. -/
def groups {V : Type} (lit : Lit → V) : List (String × Group V) :=
  litGroups.map fun p => (p.1, p.2.embed lit)

end Verif.Options
