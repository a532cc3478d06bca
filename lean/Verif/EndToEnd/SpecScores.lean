import Verif.EndToEnd.SpecGrounds
/-!
# Specification of the silhouette scores in the Model
-/
set_option autoImplicit false

namespace Verif.EndToEnd

open Verif (Num)
open Verif.Pipeline (Name)
open Verif.Runner (Dict)

variable {V W : Type}

/-- The scores `l` are those of the clusterings of the features `pre` in 2, 3, … clusters, in this order, up to one
cluster less than there are features. -/
structure Scored (score : List Nat → Nat → ℚ) (pre : List Nat) (l : List Num) : Prop where
  number : l.length + 2 = pre.length
  entry : ∀ c, 2 ≤ c → c < pre.length → l[c - 2]? = some (.fin (score pre c))

/-- The property: the scores are about the features of the Model. -/
def ScoresOfFeatures (d : Dict Name (Val V W)) : Prop :=
  ∀ l feats, d .silhouette_scores = some (.numbers l) → d .feat_labels = some (.names feats) →
    l.length + 2 = feats.length

end Verif.EndToEnd
