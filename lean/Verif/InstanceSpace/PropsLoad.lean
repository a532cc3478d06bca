import Verif.InstanceSpace.Load
import Verif.Options.Props
import Verif.Metadata.Props
/-!
# C126: loading an instance space from files
-/
set_option autoImplicit false
set_option linter.unusedSectionVars false

namespace Verif.InstanceSpace

open Verif.Metadata (Meta Read Squeezed fromCsvFile fromDataFrame)
open Verif.Options (Dict FileRead Outcome Group Lit fromJsonFile groups litGroups GroupOK Loaded)

variable {V W : Type}

/-- The surroundings with the twelve groups of the code. -/
def shipped (lower : String → String) (numeric : Squeezed V → Bool) (str : V → V)
    (asDict : W → Option (Dict W)) (lit : Lit → W) : Env V W :=
  ⟨lower, numeric, str, asDict, groups lit⟩

/-- The full claim: loading returns an object or `None`, whatever the files are. -/
def LoadingReturns : Prop :=
  ∀ (csv : Read Nat) (json : FileRead Options.Py),
    ∃ r, (fromFiles (shipped Options.lowerAscii (fun _ => true) id Options.Py.asDict Options.Py.lit)
      csv json).1 = .returns r

/-- **C126** is false: with a good table, an options file that is a number raises `AttributeError`. -/
theorem C126_refuted : ¬ LoadingReturns := by
  intro h
  obtain ⟨r, hr⟩ := h (.table ⟨0, []⟩) (.value (.lit (.int 5)))
  have h2 : Outcome.raises = Outcome.returns r := hr
  cases h2

/-- **C126, success.** An object is returned exactly when the metadata file is a table and the options
file an object whose keys are group names and whose groups are acceptable.  It then holds the metadata of
that table and, group by group, the values of the file or the defaults. -/
theorem C126_success_partial (lower : String → String) (hlow : Options.LowerOK lower)
    (numeric : Squeezed V → Bool) (str : V → V) (asDict : W → Option (Dict W))
    (hdict : ∀ v d, asDict v = some d → (d.map Prod.fst).Nodup) (lit : Lit → W)
    (csv : Read V) (json : FileRead W) :
    ((∃ c, (fromFiles (shipped lower numeric str asDict lit) csv json).1 = .returns (some c)) ↔
      (∃ t, csv = .table t) ∧ ∃ v contents, json = .value v ∧ asDict v = some contents ∧
        (∀ p ∈ contents, p.1 ∈ litGroups.map Prod.fst) ∧
        ∀ p ∈ groups lit, GroupOK lower asDict contents p) ∧
    ∀ c, (fromFiles (shipped lower numeric str asDict lit) csv json).1 = .returns (some c) →
      ∃ t v contents, csv = .table t ∧ json = .value v ∧ asDict v = some contents ∧
        c.metadata = fromDataFrame lower numeric str t ∧
        List.Forall₂ (fun p q => p.1 = q.1 ∧ ∃ data,
          ((∃ v, (p.1, v) ∈ contents ∧ asDict v = some data) ∨
            ((∀ v, (p.1, v) ∉ contents) ∧ data = [])) ∧ Loaded lower p.2 data q.2)
          (groups lit) c.options := by
  have hres : ∀ c, (fromFiles (shipped lower numeric str asDict lit) csv json).1 =
      .returns (some c) → ∃ t v contents, csv = .table t ∧ json = .value v ∧
        asDict v = some contents ∧ c.metadata = fromDataFrame lower numeric str t ∧
        Options.fromDict lower asDict (groups lit) contents = .ok c.options := by
    intro c hc
    unfold fromFiles shipped at hc
    cases csv with
    | table t =>
      simp only [fromCsvFile] at hc
      cases json with
      | caught => simp [fromJsonFile] at hc
      | other => simp [fromJsonFile] at hc
      | value v =>
        simp only [fromJsonFile] at hc
        cases hv : asDict v with
        | none => simp [hv] at hc
        | some contents =>
          simp only [hv] at hc
          cases ho : Options.fromDict lower asDict (groups lit) contents with
          | error e =>
            simp only [ho] at hc
            cases he : e.isValueError <;> simp [he] at hc
          | ok o =>
            simp only [ho, Outcome.returns.injEq, Option.some.injEq] at hc
            subst hc
            exact ⟨t, v, contents, rfl, rfl, hv, rfl, ho⟩
    | _ => simp [fromCsvFile] at hc
  refine ⟨⟨?_, ?_⟩, ?_⟩
  · rintro ⟨c, hc⟩
    obtain ⟨t, v, contents, h1, h2, h3, -, h5⟩ := hres c hc
    have := (Options.C49_from_dict lower lit asDict contents (hdict _ _ h3)).1.1 ⟨_, h5⟩
    exact ⟨⟨t, h1⟩, v, contents, h2, h3, this.1, this.2⟩
  · rintro ⟨⟨t, rfl⟩, v, contents, rfl, h3, h4, h5⟩
    obtain ⟨o, ho⟩ := (Options.C49_from_dict lower lit asDict contents (hdict _ _ h3)).1.2 ⟨h4, h5⟩
    refine ⟨⟨fromDataFrame lower numeric str t, o⟩, ?_⟩
    simp [fromFiles, shipped, fromCsvFile, fromJsonFile, h3, ho]
  · intro c hc
    obtain ⟨t, v, contents, h1, h2, h3, h4, h5⟩ := hres c hc
    exact ⟨t, v, contents, h1, h2, h3, h4,
      Options.C50_from_dict lower hlow lit asDict contents (hdict _ _ h3) c.options h5⟩

/-- **C126, failure.** The options file is opened exactly when the metadata was read; loading raises
exactly when reading the metadata raises, or the metadata was read and reading the options raises.  Missing
for the full property: these cases. -/
theorem C126_partial (env : Env V W) (csv : Read V) (json : FileRead W) :
    ((fromFiles env csv json).2 = true ↔ ∃ t, csv = .table t) ∧
    ((fromFiles env csv json).1 = .raises ↔ csv = .unicodeDecode ∨ csv = .otherError ∨
      ((∃ t, csv = .table t) ∧ fromJsonFile env.lower env.asDict env.groups json = .raises)) ∧
    ((fromFiles env csv json).1 = .returns none ↔
      csv ∈ [.fileNotFound, .osError, .parserError, .emptyData] ∨
      ((∃ t, csv = .table t) ∧ fromJsonFile env.lower env.asDict env.groups json = .returns none)) := by
  unfold fromFiles
  cases csv with
  | table t =>
    simp only [fromCsvFile]
    cases fromJsonFile env.lower env.asDict env.groups json with
    | raises => simp
    | returns r => cases r <;> simp
  | _ => simp [fromCsvFile]

/-- **C126, directory.** Loading a directory reads `metadata.csv` and `options.json` in it and nothing
else. -/
theorem C126_directory (env : Env V W) (csvAt : String → Read V) (jsonAt : String → FileRead W)
    (directory : String) :
    fromDirectory env csvAt jsonAt directory =
      fromFiles env (csvAt (directory ++ "/metadata.csv")) (jsonAt (directory ++ "/options.json")) := by
  unfold fromDirectory inDirectory
  rw [String.append_assoc, String.append_assoc]
  rfl

/-- Non-vacuity for C126: a table with one feature and an options file with one group. -/
example : (∃ c, (fromFiles (shipped Options.lowerAscii (fun _ => true) id Options.Py.asDict Options.Py.lit)
      (.table ⟨2, [("Instances", [1, 2]), ("feature_a", [3, 4])]⟩)
      (.value (.dict [("trace", .dict [("PI", .lit (.int 1))])]))).1 = .returns (some c) ∧
    c.metadata.featureNames = ["feature_a"] ∧
    c.options[10]? =
      some ("trace", [("use_sim", Options.Py.lit (.bool true)), ("purity", .lit (.int 1))])) ∧
    (fromFiles (shipped Options.lowerAscii (fun _ => true) id Options.Py.asDict Options.Py.lit)
      (.fileNotFound : Read Nat) .other) = (.returns none, false) := by
  exact ⟨⟨_, rfl, by decide +kernel, rfl⟩, rfl⟩

end Verif.InstanceSpace
