import Verif.EndToEnd.Props
/-!
# Specification of the Model's data when a subset of the instances is taken
-/
set_option autoImplicit false

namespace Verif.EndToEnd

open Verif (Num)
open Verif.Pipeline (Name)
open Verif.Metadata (Table)
open Verif.Prelim (worst)
open Verif.Runner (Dict)

variable {V W : Type}

/-- The arrays of the Model with a row for each instance are about the rows `sub` of the table, in this
order; `rows` are the rows that preprocessing keeps. -/
structure AboutRows (lower : String → String) (num : V → Num) (env : Env V W) (t : Table V)
    (d : Dict Name (Val V W)) (algos feats : List String) (rows sub : List Nat) : Prop where
  /-- The sources. -/
  sources : (d .s = some (.sources none) ∧ ∀ c ∈ t.cols, lower c.1 ≠ "source") ∨
    ∃ ss, d .s = some (.sources (some ss)) ∧ ss.length = sub.length ∧
      ∀ k i : Nat, sub[k]? = some i → ∃ c ∈ t.cols, lower c.1 = "source" ∧ ss[k]? = c.2[i]?
  /-- The verdicts, with an absolute threshold: not beyond it. -/
  absolute : env.prelim.absPerf = true → ∀ e : ℚ, env.prelim.epsilon = .fin e →
    ∃ yb, d .y_bin = some (.verdicts yb) ∧ yb.length = sub.length ∧
      ∀ (k i j : Nat) (a : String) (v : V), sub[k]? = some i → algos[j]? = some a → Cell t a i v →
        (At yb k j true ↔ num v ≠ .nan ∧
          if env.prelim.maxPerf then Num.le (.fin e) (num v) = true else Num.le (num v) (.fin e) = true)
  /-- The verdicts, with a relative threshold: within the fraction of the best cell. -/
  relative : env.prelim.absPerf = false → ∀ e : ℚ, env.prelim.epsilon = .fin e → e < 1 →
    ∃ yb, d .y_bin = some (.verdicts yb) ∧ yb.length = sub.length ∧
      ∀ (k i j : Nat) (a : String) (v : V) (b : ℚ), sub[k]? = some i → algos[j]? = some a →
        Cell t a i v → BestCell num env.prelim.maxPerf t algos i (.fin b) → 0 < b →
        (At yb k j true ↔ Prelim.WithinFraction env.prelim.maxPerf e b (num v))
  /-- The best algorithms and their performances. -/
  best : ∃ ps bs, d .p = some (.counts ps) ∧ d .y_best = some (.numbers bs) ∧ ps.length = sub.length ∧
    bs.length = sub.length ∧
    ∀ (k i : Nat) (b : Num), sub[k]? = some i → BestCell num env.prelim.maxPerf t algos i b →
      b ≠ worst env.prelim.maxPerf →
      (env.prelim.maxPerf = true ∨ env.prelim.absPerf = true ∨ b ≠ 0) →
      ∃ j a v, ps[k]? = some (j + 1) ∧ algos[j]? = some a ∧ Cell t a i v ∧ num v = b ∧
        (∀ (j' : Nat) a' v', j' < j → algos[j']? = some a' → Cell t a' i v' → num v' ≠ b) ∧
        (env.prelim.absPerf = true ∨ b ≠ 0 → bs[k]? = some b)
  /-- The raw performances. -/
  rawY : ∃ yr, d .y_raw = some (.table yr) ∧ yr.rows.length = sub.length ∧ yr.ncols = algos.length ∧
    ∀ (k i j : Nat) (a : String) (v : V), sub[k]? = some i → algos[j]? = some a → Cell t a i v →
      At yr.rows k j (if env.prelim.absPerf = false ∧ num v = 0 then .fin Num.eps else num v)
  /-- The raw features, in the columns that `selvars` names. -/
  rawX : ∃ xr selvars, d .x_raw = some (.table xr) ∧ d .selvars = some (.counts selvars) ∧
    xr.rows.length = sub.length ∧
    ∀ (k i j : Nat) (a : String) (v : V), sub[k]? = some i → feats[j]? = some a → Cell t a i v →
      ∃ c, selvars[j]? = some c ∧ At xr.rows k c (num v)
  /-- The features: bounded and normalised together with all the rows preprocessing keeps. -/
  features : ∃ x, d .x = some (.table x) ∧ x.rows.length = sub.length ∧ x.ncols = feats.length ∧
    ∀ (j : Nat) (a : String) (col : List Num), feats[j]? = some a → col.length = rows.length →
      (∀ (q i : Nat) (v : V), rows[q]? = some i → Cell t a i v → col[q]? = some (num v)) →
      ∀ k q i : Nat, sub[k]? = some i → rows[q]? = some i →
        At x.rows k j ((featureStep env col).getD q .nan)
  /-- The counts of good algorithms, and the hard instances. -/
  counts : ∀ b : ℚ, env.prelim.betaThreshold = .fin b →
    ∃ yb ns bs, d .y_bin = some (.verdicts yb) ∧ d .num_good_algos = some (.counts ns) ∧
      d .beta = some (.flags bs) ∧ ns.length = sub.length ∧ bs.length = sub.length ∧
      ∀ (k : Nat) (r : List Bool), yb[k]? = some r → r.length = algos.length ∧
        ns[k]? = some (r.count true) ∧ ∃ hard, bs[k]? = some hard ∧
          (hard = true ↔ b * algos.length < r.count true)

end Verif.EndToEnd
