import Verif.EndToEnd.SpecPart
/-!
# Specification of builds on the features that were selected
-/
set_option autoImplicit false

namespace Verif.EndToEnd

open Verif.Pipeline (Name)

variable {V W : Type}

/-- The options with the features `sel` asked for, and no others. -/
def keepingOnly (sel : List String) (env : Env V W) : Env V W := { env with feats := some sel }

/-- What is about all features that SIFTED saw: the raw features, the quantities that PRELIM records of each
feature, and how SIFTED chose among them. -/
def ofAllFeatures : List Name :=
  [.x_raw, .med_val, .iq_range, .hi_bound, .lo_bound, .min_x, .lambda_x, .mu_x, .sigma_x, .selvars, .idx, .rho,
    .pval, .silhouette_scores, .clust]

end Verif.EndToEnd
