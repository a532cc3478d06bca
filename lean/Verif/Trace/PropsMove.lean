import Verif.Trace.MoveLemmas
import Verif.Dbscan.PropsRadius
/-!
# C221: the footprints follow the picture
-/
set_option autoImplicit false
set_option linter.unusedSectionVars false

namespace Verif.Trace

variable {G K : Type} [Field K] [LinearOrder K] [IsStrictOrderedRing K]

/-- The full claim: whatever rigid motion the picture undergoes, the footprints undergo it too. -/
def FollowsPicture : Prop :=
  ∀ (G : Type) (geo : Geo G (Fin 2 → ℝ) ℚ), Laws geo → Orderless geo → DistinctRows geo →
    Measured geo → ∀ (φ : (Fin 2 → ℝ) → Fin 2 → ℝ) (Φ : G → G), Rigid φ → Follows geo φ Φ →
    ∀ (purity : ℚ) (n : Nat) (l : List (Instance (Fin 2 → ℝ))) (out : Out G ℚ),
    analyse geo purity n (List.range n) l = .ok out →
    analyse geo purity n (List.range n) (l.map fun a => { a with z := φ a.z }) =
      .ok (movedOut Φ out)

/-- **C221, what holds**: when the picture is shifted, mirrored on an axis or has its axes
exchanged, TRACE completes exactly if it did before, every footprint undergoes the same motion, and
all areas, counts, densities and purities stay as they are, in whatever order the threads finish.
Missing: the other rotations, see `C221_refuted`. -/
theorem C221_axes_partial (geo : Geo G (Fin 2 → ℝ) K) (laws : Laws geo) (hset : Orderless geo)
    (hrows : DistinctRows geo) (hnear : Measured geo) (φ : (Fin 2 → ℝ) → Fin 2 → ℝ) (Φ : G → G)
    (hφ : AxisMotion φ) (hfol : Follows geo φ Φ) (purity : K) (n : Nat) (order order' : List Nat)
    (ho : order.Perm (List.range n)) (ho' : order'.Perm (List.range n))
    (l : List (Instance (Fin 2 → ℝ))) :
    ((∃ out, analyse geo purity n order' (l.map fun a => { a with z := φ a.z }) = .ok out) ↔
      ∃ out, analyse geo purity n order l = .ok out) ∧
    ∀ out, analyse geo purity n order l = .ok out →
      analyse geo purity n order' (l.map fun a => { a with z := φ a.z }) = .ok (movedOut Φ out) :=
  analyse_move laws (axisMotion_injective hφ) hfol hset hrows (nearFollows_of_measured hnear hφ)
    purity n order order' ho ho' l

/-! ### A geometry -/

open Classical in
/-- Geometries are finite sets of points: a model of all that is assumed of the library. -/
noncomputable def dots : Geo (Finset (Fin 2 → ℝ)) (Fin 2 → ℝ) ℚ where
  empty := ∅
  isEmpty g := decide (g = ∅)
  contains g q := decide (q ∈ g)
  containsMulti g z := z.all fun q => decide (q ∈ g)
  area g := g.card
  inter a b := a ∩ b
  diff a b := a \ b
  union a b := a ∪ b
  geoms _ := none
  smooth g := g
  alpha l := l.toFinset
  triangulate g := g.toList.map fun q => {q}
  hull g := g
  unique l := l.dedup
  near l k i j :=
    Dbscan.nearReal (fun i => l.getD i 0) (Dbscan.epsilon (fun i => l.getD i 0) l.length k) i j

theorem dots_laws : Laws dots where
  area_nonneg g := by simp [dots]
  area_zero g p h := by
    have h : (g.card : ℚ) = 0 := h
    have : g = ∅ := Finset.card_eq_zero.1 (by exact_mod_cast h)
    simp [dots, this]
  inter_left a b h := by
    have : a = ∅ := by simpa [dots] using h
    simp [dots, this]
  inter_right a b h := by
    have : b = ∅ := by simpa [dots] using h
    simp [dots, this]
  diff_contains a b p h := by simpa [dots] using h
  unique_length l := by
    classical
    exact (List.dedup_sublist l).length_le
  hull_piece g t p _ := rfl

theorem dots_orderless : Orderless dots where
  alpha l l' h := by
    classical
    exact List.toFinset_eq_of_perm l l' h
  comm a b := by
    classical
    exact Finset.union_comm a b
  assoc a b c := by
    classical
    exact Finset.union_assoc a b c
  diff a b c := by
    classical
    show (a \ b) \ c = (a \ c) \ b
    rw [sdiff_sdiff_comm]

theorem dots_rows : DistinctRows dots where
  nodup l := by
    classical
    exact List.nodup_dedup l
  mem l q := by
    classical
    exact List.mem_dedup

theorem dots_measured : Measured dots := fun _ _ _ _ => rfl

open Classical in
theorem dots_follows (φ : (Fin 2 → ℝ) → Fin 2 → ℝ) (h : Function.Injective φ) :
    Follows dots φ (Finset.image φ) where
  empty := rfl
  isEmpty g := by simp [dots]
  contains g q := by simp [dots, h.eq_iff]
  area g := by simp [dots, Finset.card_image_of_injective g h]
  inter a b := (Finset.image_inter a b h).symm
  diff a b := (Finset.image_sdiff a b h).symm
  union a b := (Finset.image_union a b).symm
  smooth g := rfl
  hull g := rfl
  triangulate g := by
    have h1 : (g.image φ).toList.Perm (g.toList.map φ) := by
      rw [List.perm_ext_iff_of_nodup (Finset.nodup_toList _) ((Finset.nodup_toList _).map h)]
      simp
    have h2 := h1.map fun q => ({q} : Finset (Fin 2 → ℝ))
    rw [List.map_map] at h2
    show ((g.image φ).toList.map fun q => ({q} : Finset (Fin 2 → ℝ))).Perm
      ((g.toList.map fun q => ({q} : Finset (Fin 2 → ℝ))).map (Finset.image φ))
    rw [List.map_map]
    refine h2.trans (List.Perm.of_eq (List.map_congr_left fun q _ => ?_))
    simp
  alpha l := by
    ext q
    simp [dots]

/-! ### Twelve instances in a row -/

/-- Twelve instances at distance 5 in the direction (3, 4), all easy and all good. -/
noncomputable def row : List (Instance (Fin 2 → ℝ)) :=
  (List.range 12).map fun (i : Nat) => ⟨![3 * (i : ℝ), 4 * (i : ℝ)], [true], 0, true⟩

/-- The rotation that turns the row into the first axis. -/
noncomputable def turn (q : Fin 2 → ℝ) : Fin 2 → ℝ :=
  ![3 / 5 * q 0 + 4 / 5 * q 1, - (4 / 5) * q 0 + 3 / 5 * q 1]

theorem turn_rigid : Rigid turn := by
  intro a b
  congr 1
  simp only [Fin.sum_univ_two, turn, Matrix.cons_val_zero, Matrix.cons_val_one]
  ring

theorem turn_injective : Function.Injective turn := by
  intro a b h
  have h0 := congrFun h 0
  have h1 := congrFun h 1
  simp only [turn, Matrix.cons_val_zero, Matrix.cons_val_one] at h0 h1
  funext c
  fin_cases c
  · show a 0 = b 0
    linarith
  · show a 1 = b 1
    linarith

theorem row_z : row.map (·.z) = (List.range 12).map fun (i : Nat) => ![3 * (i : ℝ), 4 * (i : ℝ)] := by
  simp [row, Function.comp_def]

theorem row_nodup : (row.map (·.z)).Nodup := by
  rw [row_z]
  refine List.Nodup.map (fun a b h => ?_) List.nodup_range
  have := congrFun h 0
  simpa using this

theorem row_get {i : Nat} (hi : i < 12) : (row.map (·.z))[i]? = some ![3 * (i : ℝ), 4 * (i : ℝ)] := by
  rw [row_z, List.getElem?_map, List.getElem?_range hi]
  rfl

theorem row_masked (z : List (Fin 2 → ℝ)) (hz : z.length = 12) (hd : z.Nodup) :
    dots.unique (masked z (row.map fun _ => true)) = z := by
  have h : ∀ (l : List (Fin 2 → ℝ)), masked l (List.replicate l.length true) = l := by
    intro l
    induction l with
    | nil => rfl
    | cons a l ih => simp [List.replicate_succ, masked, ih]
  have h1 : (row.map fun _ => true) = List.replicate z.length true := by
    rw [hz, List.map_const']
    simp [row]
  rw [h1, h]
  classical
  exact List.dedup_eq_self.2 hd

theorem row_points : minPoints (row.map fun _ => true) = 3 := by
  have : (row.map fun _ => true) = List.replicate 12 true := by
    rw [List.map_const']
    simp [row]
  rw [this]
  decide

/-- Along an axis no instance is in a cluster, and the footprint is empty. -/
theorem row_flat (purity : ℚ) :
    (build dots purity ((row.map (·.z)).map turn) (row.map fun _ => true)).polygon = some ∅ := by
  have hlen : ((row.map (·.z)).map turn).length = 12 := by simp [row]
  have hd : ((row.map (·.z)).map turn).Nodup := row_nodup.map turn_injective
  have hget : ∀ i, i < 12 → ((row.map (·.z)).map turn).getD i 0 = ![5 * (i : ℝ), 0] := by
    intro i hi
    rw [List.getD_eq_getElem?_getD, List.getElem?_map, row_get hi]
    simp only [Option.map_some, Option.getD_some, turn, Matrix.cons_val_zero, Matrix.cons_val_one]
    congr 1
    · ring
    · congr 1
      ring
  have hall := fun p hp => Dbscan.C120_flat_partial (by norm_num)
    (fun i => ((row.map (·.z)).map turn).getD i 0) 12 12 1 0
    (by intro i hi; show (((row.map (·.z)).map turn).getD i 0) 1 = 0; rw [hget i hi]; rfl) (by
      intro i j hi hj hij
      simp only [hget i hi, hget j hj] at hij
      have := congrFun hij 0
      simpa using this) p hp
  unfold build
  simp only [row_masked _ hlen hd, row_points, hlen]
  rw [if_neg (by norm_num)]
  have hlab : Dbscan.dbscan (dots.near ((row.map (·.z)).map turn) 3) 12 3 =
      Dbscan.runDbscan (fun i => ((row.map (·.z)).map turn).getD i 0) 12 12 := by
    have hk : Dbscan.minPts 12 = 3 := rfl
    have hn : dots.near ((row.map (·.z)).map turn) 3 = Dbscan.nearReal
        (fun i => ((row.map (·.z)).map turn).getD i 0)
        (Dbscan.epsilon (fun i => ((row.map (·.z)).map turn).getD i 0) 12 3) := by
      funext i j
      rw [dots_measured, hlen]
    rw [Dbscan.runDbscan, hk, hn]
  have htop : (Dbscan.dbscan (dots.near ((row.map (·.z)).map turn) 3) 12 3).foldl max (-1) = -1 := by
    rw [hlab]
    rcases (foldl_max_spec (Dbscan.runDbscan (fun i => ((row.map (·.z)).map turn).getD i 0) 12 12)
      (-1)).2.2 with h | h
    · exact h
    · obtain ⟨p, hp⟩ := List.mem_iff_getElem?.1 h
      have hp12 : p < 12 := by
        have := (List.getElem?_eq_some_iff.1 hp).1
        simpa [Dbscan.runDbscan, Dbscan.dbscan] using this
      rw [hall p hp12, Option.some.injEq] at hp
      exact hp.symm
  rw [htop]
  rfl

/-- In the direction (3, 4) the instances are in a cluster, and the footprint is not empty. -/
theorem row_built (purity : ℚ) : ∃ g, g ≠ ∅ ∧
    (build dots purity (row.map (·.z)) (row.map fun _ => true)).polygon = some g := by
  have hlen : (row.map (·.z)).length = 12 := by simp [row]
  set z := row.map (·.z) with hz
  set x : Nat → Fin 2 → ℝ := fun i => z.getD i 0 with hx0
  have hx : ∀ i, i < 12 → x i = ![3 * (i : ℝ), 4 * (i : ℝ)] := by
    intro i hi
    show z.getD i 0 = _
    rw [List.getD_eq_getElem?_getD, hz, row_get hi]
    rfl
  have hs : ∀ c : Fin 2, Dbscan.spread x 12 c = ![33, 44] c := by
    intro c
    rw [Dbscan.spread_eq (lo := 0) (hi := ![33, 44] c)]
    · simp
    · refine ⟨⟨0, by norm_num, by rw [hx 0 (by norm_num)]; fin_cases c <;> simp⟩, ?_⟩
      rintro v ⟨i, hi, rfl⟩
      rw [hx i hi]
      fin_cases c <;> simp
    · refine ⟨⟨11, by norm_num, by rw [hx 11 (by norm_num)]; fin_cases c <;> simp <;> norm_num⟩, ?_⟩
      rintro v ⟨i, hi, rfl⟩
      rw [hx i hi]
      have : (i : ℝ) ≤ 11 := by exact_mod_cast Nat.le_of_lt_succ hi
      fin_cases c <;> simp <;> linarith
  have heps : 10 ≤ Dbscan.epsilon x 12 3 := by
    have h3 := Dbscan.epsilon_pow (by norm_num) x (m := 12) (by norm_num) 3
    have h4 : Dbscan.radicand x 12 3 = 363 / Real.pi := by
      unfold Dbscan.radicand
      have hg : Real.Gamma (0.5 * (2 : Nat) + 1) = 1 := by
        have : (0.5 : ℝ) * (2 : Nat) + 1 = 1 + 1 := by norm_num
        rw [this, Real.Gamma_add_one one_ne_zero, Real.Gamma_one, one_mul]
      rw [Fin.prod_univ_two, hs, hs, hg, Real.sqrt_sq Real.pi_pos.le]
      simp only [Matrix.cons_val_zero, Matrix.cons_val_one]
      have := Real.pi_pos
      field_simp
      norm_num
    rw [h4] at h3
    have h5 : (100 : ℝ) ≤ 363 / Real.pi := by
      rw [le_div_iff₀ Real.pi_pos]
      have := Real.pi_lt_d2
      linarith
    have h6 := Dbscan.epsilon_nonneg x (m := 12) (by norm_num) 3
    nlinarith
  have hnear : ∀ r, r < 4 → Dbscan.nearReal x (Dbscan.epsilon x 12 3) 2 r = true := by
    intro r hr
    have : Dbscan.dist x 2 r ≤ 10 := by
      unfold Dbscan.dist
      rw [Real.sqrt_le_iff, hx 2 (by norm_num), hx r (by omega)]
      refine ⟨by norm_num, ?_⟩
      simp only [Fin.sum_univ_two, Matrix.cons_val_zero, Matrix.cons_val_one]
      interval_cases r <;> norm_num
    simp only [Dbscan.nearReal, decide_eq_true_eq]
    linarith
  have hsym : ∀ a b, a < 12 → b < 12 → Dbscan.nearReal x (Dbscan.epsilon x 12 3) a b =
      Dbscan.nearReal x (Dbscan.epsilon x 12 3) b a := fun a b _ _ => Dbscan.nearReal_symm _ _ a b
  have hrefl : ∀ a, a < 12 → Dbscan.nearReal x (Dbscan.epsilon x 12 3) a a = true :=
    fun a _ => Dbscan.nearReal_refl x (Dbscan.epsilon_nonneg x (by norm_num) _) a
  have hcl : Dbscan.Clustered (Dbscan.nearReal x (Dbscan.epsilon x 12 3)) 12 3 2 := by
    refine ⟨2, Relation.ReflTransGen.refl, ?_⟩
    unfold Dbscan.Core
    have hsub : ({0, 1, 2, 3} : Finset Nat) ⊆ (Finset.range 12).filter fun r =>
        Dbscan.nearReal x (Dbscan.epsilon x 12 3) 2 r = true := by
      intro r hr
      have hr4 : r < 4 := by
        simp only [Finset.mem_insert, Finset.mem_singleton] at hr
        omega
      simp only [Finset.mem_filter, Finset.mem_range]
      exact ⟨by omega, hnear r hr4⟩
    have := Finset.card_le_card hsub
    simpa using this
  set D := Dbscan.dbscan (Dbscan.nearReal x (Dbscan.epsilon x 12 3)) 12 3 with hD
  have hsame : ∀ r, r < 4 → ∃ c, 1 ≤ c ∧ D[2]? = some c ∧ D[r]? = some c := fun r hr =>
    (Dbscan.C58_same_label hsym hrefl 2 r (by norm_num) (by omega)).2
      ⟨Relation.ReflTransGen.single ⟨by omega, hnear r hr⟩, hcl⟩
  obtain ⟨c, hc, h2, -⟩ := hsame 2 (by norm_num)
  have hlab : ∀ r, r < 4 → D[r]? = some c := by
    intro r hr
    obtain ⟨c', -, h3, h4⟩ := hsame r hr
    rw [h2] at h3
    rw [h4, ← h3]
  have hnat : ((c.toNat : Nat) : Int) = c := by omega
  have hmem : ∀ r : Nat, r < 4 → ![3 * (r : ℝ), 4 * (r : ℝ)] ∈ labelled z D c := fun r hr =>
    mem_labelled.2 ⟨r, row_get (by omega), hlab r hr⟩
  have h3 : 3 ≤ (labelled z D c).length := by
    classical
    have hsub : ((List.range 3).map fun (i : Nat) => ![3 * (i : ℝ), 4 * (i : ℝ)]) ⊆ labelled z D c := by
      intro q hq
      obtain ⟨r, hr, rfl⟩ := List.mem_map.1 hq
      exact hmem r (by have := List.mem_range.1 hr; omega)
    have hnd : ((List.range 3).map fun (i : Nat) => ![3 * (i : ℝ), 4 * (i : ℝ)]).Nodup := by
      refine List.Nodup.map (fun a b h => ?_) List.nodup_range
      have := congrFun h 0
      simpa using this
    simpa using (hnd.subperm hsub).length_le
  have hfit : fitPoly dots purity z (labelled z D ((c.toNat : Nat) : Int)) (row.map fun _ => true) =
      some (dots.alpha (labelled z D c)) := by
    rw [hnat]
    unfold fitPoly
    rw [if_neg (by omega), if_pos (by simp)]
  have hne : dots.isEmpty (dots.alpha (labelled z D c)) = false := by
    simp only [dots, decide_eq_false_iff_not, List.toFinset_eq_empty_iff]
    intro h
    rw [h] at h3
    simp at h3
  have hgrow : ∀ (gs : List (Finset (Fin 2 → ℝ))) (g : Finset (Fin 2 → ℝ)) (a : Finset (Fin 2 → ℝ)),
      a ∈ g :: gs → a ⊆ gs.foldl dots.union g := by
    classical
    intro gs
    induction gs with
    | nil =>
      intro g a ha
      rw [List.mem_singleton] at ha
      rw [ha]
      exact Finset.Subset.refl _
    | cons b gs ih =>
      intro g a ha
      rw [List.foldl_cons]
      have hu : dots.union g b = g ∪ b := by simp [dots]
      rcases List.mem_cons.1 ha with ha | ha
      · have h1 : a ⊆ dots.union g b := by rw [hu, ha]; exact Finset.subset_union_left
        exact h1.trans (ih _ _ List.mem_cons_self)
      · rcases List.mem_cons.1 ha with ha | ha
        · have h1 : a ⊆ dots.union g b := by rw [hu, ha]; exact Finset.subset_union_right
          exact h1.trans (ih _ _ List.mem_cons_self)
        · exact ih _ _ (List.mem_cons_of_mem _ ha)
  unfold build
  simp only [row_masked _ hlen row_nodup, row_points, hlen]
  rw [if_neg (by norm_num)]
  have hn : dots.near z 3 = Dbscan.nearReal x (Dbscan.epsilon x 12 3) := by
    funext i j
    rw [dots_measured, hlen]
  rw [hn, ← hD, body_union]
  have hin : dots.alpha (labelled z D c) ∈ (((List.range (D.foldl max (-1)).toNat).map (· + 1)).filterMap
      fun (i : Nat) => fitPoly dots purity z (labelled z D i) (row.map fun _ => true)).filter
        (fun g => !dots.isEmpty g) := by
    rw [List.mem_filter, List.mem_filterMap]
    refine ⟨⟨c.toNat, ?_, hfit⟩, by rw [hne]; rfl⟩
    rw [mem_numbers hsym hrefl]
    exact ⟨by omega, 2, by rw [hnat]; exact h2⟩
  simp only [Option.toList_none, List.nil_append]
  generalize (((List.range (D.foldl max (-1)).toNat).map (· + 1)).filterMap
      fun (i : Nat) => fitPoly dots purity z (labelled z D i) (row.map fun _ => true)).filter
        (fun g => !dots.isEmpty g) = L at hin ⊢
  cases L with
  | nil => cases hin
  | cons g gs =>
    refine ⟨gs.foldl dots.union g, ?_, rfl⟩
    intro he
    have hsub := hgrow gs g _ hin
    rw [he, Finset.subset_empty] at hsub
    rw [hsub] at hne
    simp [dots] at hne

theorem row_completes (purity : ℚ) : ∃ out, analyse dots purity 1 (List.range 1) row = .ok out ∧
    out.space = build dots purity (row.map (·.z)) (row.map fun _ => true) :=
  ⟨⟨_, _, _, _⟩, (analyse_spec dots dots_laws purity 1 (List.range 1) (List.Perm.refl _) row
    ⟨_, _, _, _⟩).2 ⟨fun i j b t h1 h2 => by omega, rfl, rfl, rfl, rfl⟩, rfl⟩

/-- **C221 is false for rotations**: the radius of the clustering is taken from the bounding box
of the picture (C120).  Twelve instances in a row in the direction (3, 4) form a cluster with a
footprint; turned into the first axis, the same instances have none. -/
theorem C221_refuted : ¬ FollowsPicture := by
  classical
  intro h
  obtain ⟨out, h1, h2⟩ := row_completes 0
  have h3 := h (Finset (Fin 2 → ℝ)) dots dots_laws dots_orderless dots_rows dots_measured turn
    (Finset.image turn) turn_rigid (dots_follows turn turn_injective) 0 1 row out h1
  rw [analyse_spec dots dots_laws 0 1 (List.range 1) (List.Perm.refl _)] at h3
  have h4 : (movedOut (Finset.image turn) out).space =
      build dots 0 ((row.map (·.z)).map turn) (row.map fun _ => true) := by
    rw [h3.2.1]
    simp [List.map_map, Function.comp_def]
  have h5 := row_flat 0
  rw [← h4] at h5
  obtain ⟨g, hg, h6⟩ := row_built 0
  rw [← h2] at h6
  simp only [movedOut, moved, h6, Option.map_some, Option.some.injEq, Finset.image_eq_empty] at h5
  exact hg h5

/-- Non-vacuity for C221: the row, with the axes exchanged, mirrored and shifted, has the moved
footprint, which is not empty. -/
example : ∃ (φ : (Fin 2 → ℝ) → Fin 2 → ℝ) (Φ : Finset (Fin 2 → ℝ) → Finset (Fin 2 → ℝ))
    (out : Out (Finset (Fin 2 → ℝ)) ℚ) (g : Finset (Fin 2 → ℝ)), φ ![1, 2] = ![5, 1] ∧
    AxisMotion φ ∧ Follows dots φ Φ ∧ out.space.polygon = some g ∧ g ≠ ∅ ∧ Φ g ≠ ∅ ∧
    analyse dots (1 / 2) 1 [0] row = .ok out ∧
    analyse dots (1 / 2) 1 [0] (row.map fun a => { a with z := φ a.z }) = .ok (movedOut Φ out) := by
  classical
  have hφ : AxisMotion (fun q => ![- q 1 + 7, q 0]) := by
    refine ⟨Equiv.swap 0 1, ![-1, 1], ![7, 0], fun c => ?_, fun q c => ?_⟩
    · fin_cases c <;> simp
    · fin_cases c <;> simp
  have hfol := dots_follows _ (axisMotion_injective hφ)
  obtain ⟨out, h1, h2⟩ := row_completes (1 / 2)
  obtain ⟨g, hg, h3⟩ := row_built (1 / 2)
  refine ⟨_, _, out, g, ?_, hφ, hfol, by rw [h2, h3], hg, ?_, h1,
    (C221_axes_partial dots dots_laws dots_orderless dots_rows dots_measured _ _ hφ hfol (1 / 2) 1
      [0] [0] (List.Perm.refl _) (List.Perm.refl _) row).2 out h1⟩
  · ext c
    fin_cases c <;> norm_num
  · rwa [Ne, Finset.image_eq_empty]

end Verif.Trace
