import Verif.EndToEnd.Model
/-!
# Specification of what the options of a stage can reach in a build (C225)
-/
set_option autoImplicit false

namespace Verif.EndToEnd

open Verif.Pipeline (Stg Name outputs)

/-- What the options of one of the last four stages can reach: the results of the stage and of the stages that
read from them.  Nobody reads the boundaries of CLOISTER and the footprints. -/
def downstream : Stg → List Name
  | .pilot => (outputs .pilot ++ outputs .cloister ++ outputs .pythia ++ outputs .trace).map Prod.fst
  | .pythia => (outputs .pythia ++ outputs .trace).map Prod.fst
  | s => (outputs s).map Prod.fst

/-- What the options of SIFTED can reach: the features, what is said about their selection, and the results of
the last four stages. -/
def bySelection : List Name :=
  [.x, .feat_labels, .selvars, .idx, .rho, .pval, .silhouette_scores, .clust] ++ downstream .pilot

end Verif.EndToEnd
