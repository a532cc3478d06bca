import Verif.Options.Spec
/-!
# The options a user can write, with their spellings and defaults

This table is written from data/default_options.py:1-60 and data/options.py:434-524, option by option,
without the tables of the model.
-/
set_option autoImplicit false

namespace Verif.Options

/-- An option: its group, its name, the other spelling of the MATILDA files if there is one, its default. -/
structure Documented where
  group : String
  name : String
  matilda : Option String
  default : Lit
  deriving DecidableEq

/-- A key of an options file that means this option, ignoring case. -/
def Documented.Spelt (lower : String → String) (o : Documented) (key : String) : Prop :=
  lower key = o.name ∨ some (lower key) = o.matilda

open Lit in
/-- All options. -/
def documented : List Documented := [
  ⟨"parallel", "flag", none, bool false⟩,
  ⟨"parallel", "n_cores", some "ncores", int 2⟩,
  ⟨"perf", "max_perf", some "maxperf", bool false⟩,
  ⟨"perf", "abs_perf", some "absperf", bool true⟩,
  ⟨"perf", "epsilon", none, dec 20 2⟩,
  ⟨"perf", "beta_threshold", some "betathreshold", dec 55 2⟩,
  ⟨"auto", "preproc", none, bool true⟩,
  ⟨"bound", "flag", none, bool true⟩,
  ⟨"norm", "flag", none, bool true⟩,
  ⟨"selvars", "small_scale_flag", some "smallscaleflag", bool false⟩,
  ⟨"selvars", "small_scale", some "smallscale", dec 50 2⟩,
  ⟨"selvars", "file_idx_flag", some "fileidxflag", bool false⟩,
  ⟨"selvars", "file_idx", some "fileidx", str ""⟩,
  ⟨"selvars", "feats", none, Lit.none⟩,
  ⟨"selvars", "algos", none, Lit.none⟩,
  ⟨"selvars", "selvars_type", some "type", str "Ftr&Good"⟩,
  ⟨"selvars", "min_distance", some "mindistance", dec 1 1⟩,
  ⟨"selvars", "density_flag", some "densityflag", bool false⟩,
  ⟨"sifted", "flag", none, bool true⟩,
  ⟨"sifted", "rho", none, dec 1 1⟩,
  ⟨"sifted", "k", none, int 6⟩,
  ⟨"sifted", "n_trees", some "ntrees", int 50⟩,
  ⟨"sifted", "max_iter", some "maxiter", int 1000⟩,
  ⟨"sifted", "replicates", none, int 100⟩,
  ⟨"sifted", "num_generations", none, int 100⟩,
  ⟨"sifted", "num_parents_mating", none, int 2⟩,
  ⟨"sifted", "sol_per_pop", none, int 50⟩,
  ⟨"sifted", "parent_selection_type", none, str "tournament"⟩,
  ⟨"sifted", "k_tournament", none, int 4⟩,
  ⟨"sifted", "keep_elitism", none, int 2⟩,
  ⟨"sifted", "crossover_type", none, str "scattered"⟩,
  ⟨"sifted", "cross_over_probability", none, dec 8 1⟩,
  ⟨"sifted", "mutation_type", none, str "random"⟩,
  ⟨"sifted", "mutation_probability", none, dec 5 2⟩,
  ⟨"sifted", "stop_criteria", none, str "saturate_5"⟩,
  ⟨"pilot", "x0", none, Lit.none⟩,
  ⟨"pilot", "alpha", none, Lit.none⟩,
  ⟨"pilot", "analytic", none, bool false⟩,
  ⟨"pilot", "n_tries", some "ntries", int 5⟩,
  ⟨"cloister", "p_val", some "pval", dec 5 2⟩,
  ⟨"cloister", "c_thres", some "cthres", dec 7 1⟩,
  ⟨"pythia", "cv_folds", some "cvfolds", int 5⟩,
  ⟨"pythia", "is_poly_krnl", some "ispolykrnl", bool false⟩,
  ⟨"pythia", "use_weights", some "useweights", bool false⟩,
  ⟨"pythia", "use_grid_search", some "uselibsvm", bool false⟩,
  ⟨"pythia", "params", none, Lit.none⟩,
  ⟨"trace", "use_sim", some "usesim", bool true⟩,
  ⟨"trace", "purity", some "pi", dec 55 2⟩,
  ⟨"outputs", "csv", none, bool true⟩,
  ⟨"outputs", "web", none, bool false⟩,
  ⟨"outputs", "png", none, bool true⟩]

/-- The names of the groups, in the order of the data class, options.py:384-395. -/
def documentedGroups : List String :=
  ["parallel", "perf", "auto", "bound", "norm", "selvars", "sifted", "pilot", "cloister", "pythia",
    "trace", "outputs"]

end Verif.Options
