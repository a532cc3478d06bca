import Verif.EndToEnd.SpecTally
import Verif.EndToEnd.SvmLemmas
import Verif.EndToEnd.ShapeLemmas
/-! What PYTHIA reports, in terms of the labels. -/
set_option autoImplicit false
set_option linter.unusedSectionVars false

namespace Verif.EndToEnd

open Verif (Num)
open Verif.Pipeline (Stg Name)
open Verif.Metadata (Table Squeezed)
open Verif.Runner (Dict)
open Verif.Pythia (Sized share Recommended AnyGood)

variable {V W : Type} {lower : String → String} {numeric : Squeezed V → Bool} {str : V → V}
  {num : V → Num} {env : Env V W} {le : Nat → Late V W} {t : Table V} {labels : List V}
  {d : Dict Name (Val V W)}

theorem shown_truth {name : Name} {l : List (List Bool)} {n m : Nat} (h : d name = some (.verdicts l))
    (hl : l.length = n) (hr : ∀ r ∈ l, r.length = m) : Shown d name n m (truth l) :=
  ⟨l, h, hl, hr, fun _ hi _ hj => truth_get hl hr hi hj⟩

theorem tally_zip {n : Nat} (f g : Nat → Bool) (P : Bool → Bool → Bool) (u v : Bool)
    (hP : ∀ x y, P x y = (x == u && y == v)) :
    ((((List.range n).map f).zip ((List.range n).map g)).filter fun q => P q.1 q.2).length =
      ((List.range n).filter fun i => f i == u && g i == v).length := by
  rw [List.zip_map', List.filter_map, List.length_map]
  congr 1
  apply List.filter_congr
  intro i _
  simp [hP]

theorem numGood_range {yb : List (List Bool)} {n m : Nat} (hb : yb.length = n)
    (hbr : ∀ r ∈ yb, r.length = m) {j : Nat} (hj : j < m) :
    Pythia.numGood yb j = ((List.range n).filter fun i => truth yb i j).length := by
  have : yb.map (fun r => decide (r[j]? = some true)) = (List.range n).map fun i => truth yb i j := by
    refine list_eq_range (by simp [hb]) fun i hi => ?_
    obtain ⟨r, h1, h2⟩ := truth_get hb hbr hi hj
    simp [h1, h2]
  have h2 := congrArg (fun l => (l.filter id).length) this
  simpa [List.filter_map, Pythia.numGood, Function.comp_def] using h2

/-- All that PYTHIA reports. -/
theorem reports (hc : Complete env le) (ho : Readable lower env t labels)
    (h : Succeeds lower numeric str num env t d)
    (hfit : ∀ k z y yb i res, (le k).fitted z y yb i = .ok res → Sized yb.length res) :
    ∃ n algos b c g, d .algo_labels = some (.names algos) ∧ Shown d .y_bin n algos.length b ∧
      Shown d .y_sub n algos.length c ∧ Shown d .y_hat n algos.length g ∧
      Reports d n algos.length b c g g := by
  obtain ⟨n, g, feats, algos, x, y, -, e2, -, -, -, -, -, -, -, -, e11, e12, -⟩ := data_sizes ho h
  obtain ⟨k, z, yr, yb, yBest, algos', w, o, -, q2, q3, -, q5, -, hp, q8⟩ := pythia_all hc h
  rw [e2] at q5
  cases q5
  obtain ⟨yr', y1, y2, -, -⟩ := e11
  rw [y1] at q2
  cases q2
  obtain ⟨yb', b1, b2, b3⟩ := e12
  rw [b1] at q3
  cases q3
  rw [y2] at hp
  have hf := hfit k z yr yb
  have hinv := Pythia.train_done hf (Pythia.pythia_ok hp).1
  have hh : o.trained.yHat.length = n := by rw [hinv.rows.2.1, b2]
  have hhr := hinv.rect.2.1
  have hs : o.trained.ySub.length = n := by rw [hinv.rows.1, b2]
  have hsr := hinv.rect.1
  have dsub := q8 .y_sub (.verdicts o.trained.ySub) (by simp [pythiaOut])
  have dhat := q8 .y_hat (.verdicts o.trained.yHat) (by simp [pythiaOut])
  have hcol : ∀ j < algos.length, Pythia.goodColumn yb j = (List.range n).map fun i => truth yb i j := by
    intro j hj
    refine list_eq_range (by simp [Pythia.goodColumn, b2]) fun i hi => ?_
    obtain ⟨r, h1, h2⟩ := truth_get b2 b3 hi hj
    simp [Pythia.goodColumn, h1, h2]
  have hmeas := fun j (hj : j < algos.length) => late_measures hp hf b2 b3 hh hhr hj
  obtain ⟨-, -, dd, -, s0, s1, -⟩ := Pythia.pythia_ok hp
  -- the recommendations in terms of the labels
  have hrow : ∀ i < n, ∃ row, o.trained.yHat[i]? = some row ∧
      (∀ j < algos.length, row[j]? = some (truth o.trained.yHat i j)) ∧ row.length = algos.length := by
    intro i hi
    have hi' : i < o.trained.yHat.length := by rw [hh]; exact hi
    refine ⟨_, List.getElem?_eq_getElem hi', ?_, hhr _ (List.getElem_mem hi')⟩
    intro j hj
    obtain ⟨r, h1, h2⟩ := truth_get hh hhr hi hj
    rw [List.getElem?_eq_getElem hi'] at h1
    cases h1
    exact h2
  have hgood : ∀ (i : Nat) (row : List Bool), (∀ j < algos.length, row[j]? = some (truth o.trained.yHat i j)) →
      row.length = algos.length → ∀ (j : Nat) (q : ℚ), Pythia.PredictedGood o.trained.precision row j q ↔
      j < algos.length ∧ truth o.trained.yHat i j = true ∧
        q = precisionOf n (truth yb) (truth o.trained.yHat) j := by
    intro i row hget hlen j q
    constructor
    · rintro ⟨h1, h2⟩
      have hj : j < algos.length := by
        rw [← hlen]
        exact (List.getElem?_eq_some_iff.1 h1).1
      rw [hget j hj] at h1
      rw [(hmeas j hj).1] at h2
      exact ⟨hj, by simpa using h1, by simpa using h2.symm⟩
    · rintro ⟨hj, h1, rfl⟩
      exact ⟨by rw [hget j hj, h1], (hmeas j hj).1⟩
  have hadv : ∀ (i : Nat) (row : List Bool), (∀ j < algos.length, row[j]? = some (truth o.trained.yHat i j)) →
      row.length = algos.length → ∀ s, Recommended o.trained.precision row s →
      Advised n algos.length (truth yb) (truth o.trained.yHat) i s := by
    rintro i row hget hlen s ⟨q, hq, hq0, hbest⟩
    obtain ⟨a1, a2, rfl⟩ := (hgood i row hget hlen s q).1 hq
    exact ⟨a1, a2, hq0, fun j hj hjt => hbest j _ ((hgood i row hget hlen j _).2 ⟨hj, hjt, rfl⟩)⟩
  have hno : ∀ (i : Nat) (row : List Bool), (∀ j < algos.length, row[j]? = some (truth o.trained.yHat i j)) →
      row.length = algos.length → ¬ AnyGood o.trained.precision row →
      NoAdvice n algos.length (truth yb) (truth o.trained.yHat) i := by
    intro i row hget hlen hg j hj hjt
    by_contra hne0
    refine hg ⟨j, _, (hgood i row hget hlen j _).2 ⟨hj, hjt, rfl⟩, lt_of_le_of_ne ?_ (Ne.symm hne0)⟩
    unfold precisionOf share
    positivity
  refine ⟨n, algos, truth yb, truth o.trained.ySub, truth o.trained.yHat, e2, shown_truth b1 b2 b3,
    shown_truth dsub hs hsr, shown_truth dhat hh hhr, ?_⟩
  constructor
  · refine ⟨_, q8 .cvcmat (.table _) (by simp [pythiaOut]; rfl), rfl,
      by simp [exactTable, hinv.lens.1], ?_⟩
    intro j hj
    obtain ⟨res, r1, tn, fp, fn, tp, c1, -, c2, c3, c4, c5⟩ := Pythia.C98_confusion hp hf hj
    obtain ⟨res', r2, r3, -⟩ := Pythia.C98_outputs hp hf hj
    rw [r1] at r2
    cases r2
    have hsub : res.ySub = (List.range n).map fun i => truth o.trained.ySub i j := by
      refine list_eq_range (by rw [(hf j res r1).2.1, b2]) fun i hi => ?_
      obtain ⟨r, h1, h2⟩ := truth_get hs hsr hi hj
      rw [← (r3 i).1, h1]
      simpa using h2
    rw [hcol j hj, hsub] at c2 c3 c4 c5
    rw [tally_zip _ _ (fun x y => !x && !y) false false (by decide)] at c2
    rw [tally_zip _ _ (fun x y => !x && y) false true (by decide)] at c3
    rw [tally_zip _ _ (fun x y => x && !y) true false (by decide)] at c4
    rw [tally_zip _ _ (fun x y => x && y) true true (by decide)] at c5
    subst c2 c3 c4 c5
    simp only [exactTable, List.getElem?_map, c1, Option.map_some, List.map_cons, List.map_nil]
    rfl
  · refine ⟨_, q8 _ _ (by simp [pythiaOut]; rfl), by simp [hinv.lens.2.2.2.1], fun j hj => ?_⟩
    rw [List.getElem?_map, (hmeas j hj).2.1]
    rfl
  · refine ⟨_, q8 _ _ (by simp [pythiaOut]; rfl), by simp [hinv.lens.2.2.2.2.1], fun j hj => ?_⟩
    rw [List.getElem?_map, (hmeas j hj).1]
    rfl
  · refine ⟨_, q8 _ _ (by simp [pythiaOut]; rfl), by simp [hinv.lens.2.2.2.2.2], fun j hj => ?_⟩
    rw [List.getElem?_map, (hmeas j hj).2.2]
    rfl
  · refine ⟨_, q8 _ _ (by simp [pythiaOut]; rfl), by simp [s0, Pythia.Sel.vals, hh], fun i hi => ?_⟩
    obtain ⟨row, hr, hget, hlen⟩ := hrow i hi
    by_cases hg : AnyGood o.trained.precision row
    · obtain ⟨s, h0, -, hrec⟩ := Pythia.C64_recommended hp hr hg
      exact ⟨s, h0, .inl (hadv i row hget hlen s hrec)⟩
    · exact ⟨0, ((Pythia.C65_partial (s := 0) hp hr).2).2 (Or.inr hg), .inr ⟨hno i row hget hlen hg, rfl⟩⟩
  · refine ⟨_, q8 _ _ (by simp [pythiaOut]; rfl), by simp [s1, Pythia.Sel.vals, hh], fun i hi => ?_⟩
    obtain ⟨row, hr, hget, hlen⟩ := hrow i hi
    by_cases hg : AnyGood o.trained.precision row
    · obtain ⟨s, -, h1, hrec⟩ := Pythia.C64_recommended hp hr hg
      exact ⟨s, h1, .inl (hadv i row hget hlen s hrec)⟩
    · obtain ⟨s, h1, hm, hmo⟩ := Pythia.C64_fallback hp hf hr hg
      refine ⟨s, h1, .inr ⟨hno i row hget hlen hg, hm, fun j hj => ?_⟩⟩
      have := hmo j hj
      rw [numGood_range b2 b3 hj, numGood_range b2 b3 hm] at this
      exact this

end Verif.EndToEnd
