import Verif.Trace.Props
/-!
# Which instances the footprints are about (C155)
-/
set_option autoImplicit false
set_option linter.unusedSectionVars false

namespace Verif.Trace

variable {G P K : Type} [Field K] [LinearOrder K] [IsStrictOrderedRing K]

/-- `ks` lists, in increasing order, exactly the instances among the first `n` that satisfy `sel`. -/
structure Enumerates (ks : List Nat) (n : Nat) (sel : Nat → Prop) : Prop where
  increasing : ks.Pairwise (· < ·)
  exact : ∀ k, k ∈ ks ↔ k < n ∧ sel k

/-- Instance `k` lies in the geometry. -/
def LiesIn (geo : Geo G P K) (z : List P) (g : G) (k : Nat) : Prop :=
  ∃ pt, z[k]? = some pt ∧ geo.contains g pt = true

/-- The footprint is about the instances `sel`: it is missing exactly if fewer than three different
points belong to them, it counts the instances in its polygon as elements and those of them that
satisfy `sel` as good. -/
structure About (geo : Geo G P K) (z : List P) (sel : Nat → Prop) (f : Footprint G K) : Prop where
  missing : ∀ ks, Enumerates ks z.length sel →
    (f.polygon = none ↔ (geo.unique (ks.filterMap fun k => z[k]?)).length < 3)
  elements : ∀ g, f.polygon = some g → ∀ ks, Enumerates ks z.length (LiesIn geo z g) →
    f.elements = ks.length
  good : ∀ g, f.polygon = some g →
    ∀ ks, Enumerates ks z.length (fun k => LiesIn geo z g k ∧ sel k) → f.good = ks.length

theorem Enumerates.unique {ks js : List Nat} {n : Nat} {sel : Nat → Prop} (h : Enumerates ks n sel)
    (h' : Enumerates js n sel) : ks = js := by
  apply List.Perm.eq_of_pairwise (le := (· < ·))
  · intro a b _ _ h1 h2
    omega
  · exact h.increasing
  · exact h'.increasing
  · apply (List.perm_ext_iff_of_nodup _ _).2
    · intro a
      rw [h.exact, h'.exact]
    · exact h.increasing.imp (fun h => Nat.ne_of_lt h)
    · exact h'.increasing.imp (fun h => Nat.ne_of_lt h)

theorem enumerates_filter (n : Nat) (sel : Nat → Prop) (q : Nat → Bool)
    (h : ∀ k, k < n → (q k = true ↔ sel k)) : Enumerates ((List.range n).filter q) n sel where
  increasing := List.Pairwise.filter _ List.pairwise_lt_range
  exact k := by
    rw [List.mem_filter, List.mem_range]
    exact ⟨fun ⟨a, b⟩ => ⟨a, (h k a).1 b⟩, fun ⟨a, b⟩ => ⟨a, (h k a).2 b⟩⟩

/-- Filtering a list is filtering its positions. -/
theorem filter_positions {α : Type} (p : α → Bool) : ∀ l : List α,
    ((List.range l.length).filter fun k => (l[k]?).any p).filterMap (fun k => l[k]?) = l.filter p
  | [] => rfl
  | a :: l => by
    have ih := filter_positions p l
    rw [List.length_cons, List.range_succ_eq_map, List.filter_cons, List.filter_map,
      List.filter_cons]
    have e : (List.filter ((fun k => ((a :: l)[k]?).any p) ∘ Nat.succ) (List.range l.length)) =
        (List.range l.length).filter fun k => (l[k]?).any p := rfl
    rw [e]
    by_cases h : p a = true
    · simp only [List.getElem?_cons_zero, Option.any_some, h, if_true, List.filterMap_cons,
        List.filterMap_map]
      exact congrArg _ ih
    · simp only [List.getElem?_cons_zero, Option.any_some, h, Bool.false_eq_true, if_false,
        List.filterMap_map]
      exact ih

theorem filter_count {α : Type} (p : α → Bool) (l : List α) :
    ((List.range l.length).filter fun k => (l[k]?).any p).length = (l.filter p).length := by
  rw [← filter_positions p l]
  have : ∀ ks : List Nat, (∀ k ∈ ks, k < l.length) →
      (ks.filterMap fun k => l[k]?).length = ks.length := by
    intro ks
    induction ks with
    | nil => intro _; rfl
    | cons k ks ih =>
      intro h
      rw [List.filterMap_cons, List.getElem?_eq_getElem (h k (by simp))]
      simp only [List.length_cons]
      rw [ih fun k hk => h k (by simp [hk])]
  rw [this]
  intro k hk
  simpa using (List.mem_filter.1 hk).1

theorem build_about (geo : Geo G P K) (purity : K) (z : List P) (y : List Bool)
    (hl : y.length = z.length) (sel : Nat → Prop)
    (hs : ∀ k, k < z.length → (y[k]? = some true ↔ sel k)) :
    About geo z sel (build geo purity z y) := by
  have hzl : (z.zip y).length = z.length := by simp [hl]
  have hzg : ∀ k : Nat, (z.zip y)[k]? = (z[k]?).bind fun a => (y[k]?).map fun b => (a, b) := by
    intro k
    rw [List.zip, List.getElem?_zipWith]
    cases z[k]? <;> cases y[k]? <;> rfl
  refine ⟨?_, ?_, ?_⟩
  · intro ks hks
    have e : masked z y = ks.filterMap fun k => z[k]? := by
      rw [masked_eq_zip, ← filter_positions, List.map_filterMap, hzl]
      have : (List.range z.length).filter (fun k => ((z.zip y)[k]?).any fun q => q.2) = ks := by
        refine (enumerates_filter _ sel _ ?_).unique hks
        intro k hk
        rw [hzg, List.getElem?_eq_getElem hk, ← hs k hk, List.getElem?_eq_getElem (by omega)]
        simp
      rw [this]
      apply List.filterMap_congr
      intro k hk
      have hk' : k < z.length := ((hks.exact k).1 hk).1
      rw [hzg, List.getElem?_eq_getElem hk', List.getElem?_eq_getElem (by omega : k < y.length)]
      rfl
    rw [C96_missing, e]
  · intro g hg ks hks
    rcases build_madeFor geo purity z y with h | ⟨q, h⟩
    · rw [h] at hg; cases hg
    · rw [h, fromPolygon_polygon] at hg
      cases hg
      have e : (List.range z.length).filter (fun k => (z[k]?).any (geo.contains g)) = ks := by
        refine (enumerates_filter _ (LiesIn geo z g) _ ?_).unique hks
        intro k hk
        unfold LiesIn
        rw [List.getElem?_eq_getElem hk]
        simp
      rw [h, ← e, filter_count]
      simp [fromPolygon, count]
  · intro g hg ks hks
    rcases build_madeFor geo purity z y with h | ⟨q, h⟩
    · rw [h] at hg; cases hg
    · rw [h, fromPolygon_polygon] at hg
      cases hg
      have e : (List.range (z.zip y).length).filter
          (fun k => ((z.zip y)[k]?).any fun a => a.2 && geo.contains g a.1) = ks := by
        rw [hzl]
        refine (enumerates_filter _ (fun k => LiesIn geo z g k ∧ sel k) _ ?_).unique hks
        intro k hk
        unfold LiesIn
        rw [hzg, ← hs k hk, List.getElem?_eq_getElem hk, List.getElem?_eq_getElem (by omega)]
        simp [and_comm]
      rw [h, ← e, filter_count]
      have := inside_eq geo g z y
      unfold inside at this
      rw [this]
      simp [fromPolygon]

/-- **C155** Whatever the order in which the algorithms are finished, the footprint of the whole space is
about all instances, the hard one about those with beta false, the good footprint of algorithm `i`
about those whose row of `y_bin` marks `i`, and the best footprint about those whose entry of `p`
is `i`. -/
theorem C155_about (geo : Geo G P K) (laws : Laws geo) (purity : K) (z : List P)
    (yBin : List (List Bool)) (p : List Nat) (beta : List Bool) (n : Nat) (order : List Nat)
    (ho : order.Perm (List.range n)) (hy : yBin.length = z.length) (hp : p.length = z.length)
    (hb : beta.length = z.length) (quals : List (Footprint G K) × List (Footprint G K))
    (hq : computeQualities (E := Err) missing missing
      (fun i => .ok (processAlgorithm geo purity z yBin p i)) n order = .ok quals)
    (out : Out G K) (h : trace geo purity z p beta n quals = .ok out) :
    About geo z (fun _ => True) out.space ∧
    About geo z (fun k => beta[k]? = some false) out.hard ∧
    out.good.length = n ∧ out.best.length = n ∧
    ∀ i, i < n → ∃ f g, out.good[i]? = some f ∧ out.best[i]? = some g ∧
      About geo z (fun k => ∃ row, yBin[k]? = some row ∧ row[i]? = some true) f ∧
      About geo z (fun k => p[k]? = some i) g := by
  obtain ⟨quals', h1, -, h2⟩ := C94_completes geo laws purity z yBin p beta n order ho
  rw [hq] at h1
  cases h1
  obtain ⟨e1, e2, e3, e4⟩ := h2 out h
  refine ⟨?_, ?_, by rw [e3]; simp, by rw [e4]; simp, ?_⟩
  · rw [e1]
    apply build_about _ _ _ _ (by simp)
    intro k hk
    simp [hk]
  · rw [e2]
    apply build_about _ _ _ _ (by simp [hb])
    intro k hk
    rw [List.getElem?_map, List.getElem?_eq_getElem (by omega : k < beta.length)]
    simp
  · intro i hi
    refine ⟨build geo purity z (goodMask yBin i), build geo purity z (bestMask p i),
      by rw [e3]; simp [hi], by rw [e4]; simp [hi], ?_, ?_⟩
    · apply build_about _ _ _ _ (by simp [goodMask, hy])
      intro k hk
      have hk' : k < yBin.length := by omega
      simp only [goodMask, List.getElem?_map, List.getElem?_eq_getElem hk', Option.map_some,
        Option.some.injEq, exists_eq_left', List.getD_eq_getElem?_getD]
      cases yBin[k][i]? <;> simp
    · apply build_about _ _ _ _ (by simp [bestMask, hp])
      intro k hk
      have hk' : k < p.length := by omega
      simp [bestMask, List.getElem?_map, List.getElem?_eq_getElem hk']

/-- **C155** The good footprint of an algorithm depends on its own column of `y_bin` only: not on the
other algorithms, nor on `p` or beta, nor on the order in which the algorithms are finished. -/
theorem C155_own_column (geo : Geo G P K) (laws : Laws geo) (purity : K) (z : List P)
    (yBin yBin' : List (List Bool)) (p p' : List Nat) (beta beta' : List Bool) (n n' : Nat)
    (order order' : List Nat) (ho : order.Perm (List.range n)) (ho' : order'.Perm (List.range n'))
    (quals quals' : List (Footprint G K) × List (Footprint G K))
    (hq : computeQualities (E := Err) missing missing
      (fun i => .ok (processAlgorithm geo purity z yBin p i)) n order = .ok quals)
    (hq' : computeQualities (E := Err) missing missing
      (fun i => .ok (processAlgorithm geo purity z yBin' p' i)) n' order' = .ok quals')
    (out out' : Out G K) (h : trace geo purity z p beta n quals = .ok out)
    (h' : trace geo purity z p' beta' n' quals' = .ok out') (i j : Nat) (hi : i < n) (hj : j < n')
    (hlen : yBin.length = yBin'.length)
    (hrow : ∀ (k : Nat) (row row' : List Bool), yBin[k]? = some row → yBin'[k]? = some row' → ∃ b : Bool,
      row[i]? = some b ∧ row'[j]? = some b) :
    out.good[i]? = out'.good[j]? := by
  obtain ⟨q, h1, -, h2⟩ := C94_completes geo laws purity z yBin p beta n order ho
  rw [hq] at h1
  cases h1
  obtain ⟨q, h1, -, h2'⟩ := C94_completes geo laws purity z yBin' p' beta' n' order' ho'
  rw [hq'] at h1
  cases h1
  rw [(h2 out h).2.2.1, (h2' out' h').2.2.1]
  have e : goodMask yBin i = goodMask yBin' j := by
    unfold goodMask
    apply List.ext_getElem (by simp [hlen])
    intro k h1 h2
    simp only [List.length_map] at h1 h2
    obtain ⟨b, hb, hb'⟩ := hrow k _ _ (List.getElem?_eq_getElem h1) (List.getElem?_eq_getElem h2)
    simp [List.getD_eq_getElem?_getD, hb, hb']
  simp [hi, hj, e]

-- Seven instances, two algorithms; the first is good on the first four instances, the second on the last
-- four.  The hypotheses hold and the analysis completes.
example : Laws (cells fun _ _ _ _ => true) ∧ [1, 0].Perm (List.range 2) ∧
    (let geo := cells fun _ _ _ _ => true
     let z := [0, 1, 2, 3, 4, 5, 6]
     let yBin := [[true, false], [true, false], [true, false], [true, true], [false, true], [false, true],
       [false, true]]
     let p := [0, 0, 0, 0, 1, 1, 1]
     match computeQualities (E := Err) missing missing
       (fun i => .ok (processAlgorithm geo (1/2) z yBin p i)) 2 [1, 0] with
     | .error _ => none
     | .ok quals =>
       match trace geo (1/2) z p [true, true, false, false, false, false, true] 2 quals with
       | .error _ => none
       | .ok out => some (out.good.map (·.polygon), out.good.map (·.good), out.hard.polygon)) =
      some ([some [0, 1, 2, 3], some [3, 4, 5, 6]], [4, 4], some [2, 3, 4, 5]) :=
  ⟨cells_laws _, by decide, by decide +kernel⟩

end Verif.Trace
