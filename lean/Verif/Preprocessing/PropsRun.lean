import Verif.Preprocessing.Props
/-!
# The preprocessing stage as a whole

The output of `_run` described by positions in its input.
-/
set_option autoImplicit false
set_option linter.unusedSectionVars false

namespace Verif.Preprocessing

variable {V L I S : Type}

theorem idx_increasing [DecidableEq L] (labels w : List L) (hnd : labels.Nodup) :
    ((labels.filter fun l => l ∈ w).map fun l => labels.idxOf l).Pairwise (· < ·) := by
  rw [List.pairwise_map]
  apply List.Pairwise.filter
  rw [List.pairwise_iff_getElem]
  intro i j hi hj hij
  rw [hnd.idxOf_getElem i hi, hnd.idxOf_getElem j hj]
  exact hij

/-- Selection described by positions. -/
theorem select_pick [DecidableEq L] (x : Mat V) (labels : List L) (wanted : Option (List L))
    (hr : x.Rect) (hl : labels.length = x.ncols) (hnd : labels.Nodup) :
    ∃ x' labels' cols, select x labels wanted = .ok (x', labels') ∧
      Lists cols x.ncols (Chosen labels wanted) ∧
      x'.ncols = cols.length ∧
      x'.rows = x.rows.map (fun row => pick row cols) ∧
      labels' = pick labels cols := by
  have all : (∀ w, wanted = some w → ¬ ∃ l ∈ labels, l ∈ w) →
      select x labels wanted = .ok (x, labels) →
      ∃ x' labels' cols, select x labels wanted = .ok (x', labels') ∧
        Lists cols x.ncols (Chosen labels wanted) ∧ x'.ncols = cols.length ∧
        x'.rows = x.rows.map (fun row => pick row cols) ∧ labels' = pick labels cols := by
    intro hn hs
    refine ⟨x, labels, List.range x.ncols, hs, ⟨List.pairwise_lt_range, ?_⟩, by simp, ?_, ?_⟩
    · intro i
      simp only [List.mem_range]
      exact ⟨fun h => ⟨h, fun w hw he => absurd he (hn w hw)⟩, fun h => h.1⟩
    · conv_lhs => rw [← List.map_id x.rows]
      apply List.map_congr_left
      intro row hrow
      rw [pick_all row _ (by rw [hr row hrow])]
      rfl
    · rw [pick_all labels _ (by rw [hl])]
  cases wanted with
  | none => exact all (by intro w hw; cases hw) rfl
  | some w =>
    by_cases hex : ∃ l ∈ labels, l ∈ w
    · have hne : (labels.filter fun l => l ∈ w).isEmpty = false := by
        obtain ⟨l, h1, h2⟩ := hex
        have hm : l ∈ labels.filter fun l => l ∈ w := by simp [h1, h2]
        cases h : labels.filter fun l => l ∈ w with
        | nil => rw [h] at hm; simp at hm
        | cons => rfl
      have hall : ((labels.filter fun l => l ∈ w).map fun l => labels.idxOf l).all
          (fun i => i < x.ncols) = true := by
        rw [List.all_eq_true]
        intro i hi
        obtain ⟨l', hl', rfl⟩ := List.mem_map.1 hi
        rw [← hl]
        simpa using List.idxOf_lt_length_of_mem (List.mem_filter.1 hl').1
      refine ⟨_, _, (labels.filter fun l => l ∈ w).map fun l => labels.idxOf l,
        by simp only [select, hne, Bool.false_eq_true, if_false, hall, if_true]; rfl,
        ⟨idx_increasing labels w hnd, ?_⟩, by simp, rfl, ?_⟩
      · intro i
        constructor
        · intro hi
          obtain ⟨l, hl', rfl⟩ := List.mem_map.1 hi
          have hm := (List.mem_filter.1 hl').1
          have hw : l ∈ w := by simpa using (List.mem_filter.1 hl').2
          refine ⟨by rw [← hl]; exact List.idxOf_lt_length_of_mem hm, ?_⟩
          intro w' hw' _
          cases hw'
          refine ⟨l, hw, ?_⟩
          rw [List.getElem?_eq_getElem (List.idxOf_lt_length_of_mem hm)]
          simp
        · rintro ⟨hi, hc⟩
          obtain ⟨l, hlw, hli⟩ := hc w rfl hex
          obtain ⟨hi', rfl⟩ := List.getElem?_eq_some_iff.1 hli
          rw [List.mem_map]
          exact ⟨labels[i], by simp [hlw], hnd.idxOf_getElem i hi'⟩
      · have : ∀ l' : List L, (∀ l ∈ l', l ∈ labels) →
            pick labels (l'.map fun l => labels.idxOf l) = l' := by
          intro l'
          induction l' with
          | nil => intro _; rfl
          | cons a t ih =>
            intro h
            have hm := h a (by simp)
            have h0 : labels[labels.idxOf a]? = some a := by
              rw [List.getElem?_eq_getElem (List.idxOf_lt_length_of_mem hm)]
              simp
            simp only [pick, List.map_cons, List.filterMap_cons, h0]
            exact congrArg _ (ih fun l hl => h l (by simp [hl]))
        exact (this _ fun l hl => (List.mem_filter.1 hl).1).symm
    · apply all
      · intro w' hw'
        cases hw'
        exact hex
      · have : labels.filter (fun l => l ∈ w) = [] := by
          rw [List.filter_eq_nil_iff]
          intro l hl
          simpa using fun h => hex ⟨l, hl, h⟩
        simp [select, this]

/-- Choosing positions twice is choosing the positions chosen among the chosen. -/
theorem pick_pick {α : Type} (l : List α) (is js : List Nat) (h : ∀ i ∈ is, i < l.length)
    (hj : ∀ j ∈ js, j < is.length) : pick (pick l is) js = pick l (pick is js) := by
  induction js with
  | nil => rfl
  | cons j t ih =>
    have h1 := hj j (by simp)
    have h2 : (pick l is)[j]? = l[is[j]]? := by
      rw [pick_getElem? l is h, List.getElem?_eq_getElem h1]; rfl
    have h3 : is[j]? = some is[j] := List.getElem?_eq_getElem h1
    have h4 : is[j] < l.length := h _ (List.getElem_mem h1)
    have h5 : l[is[j]]? = some l[is[j]] := List.getElem?_eq_getElem h4
    have ih' := ih fun j hj' => hj j (by simp [hj'])
    simp only [pick] at ih' h2 ⊢
    simp only [List.filterMap_cons, h2, h3, h5, ih']

/-- **C27, C28, C29 for the stage as a whole**, with distinct labels (missing for the full property:
repeated labels).  The output is the input at certain rows, features and algorithms: the
algorithms are exactly the chosen ones, the features are exactly the chosen ones that fewer than
a fifth of the remaining instances miss, the instances are exactly those with a value among the
chosen features and among the chosen algorithms, all in the order of the input, and the labels, sources and performances are taken at the same
positions as the values. -/
theorem C27_run_partial [DecidableEq L] (nan : V → Bool) (d : Data V L I S) (algo : List L)
    (feats algos : Option (List L)) (out : Output V L I S) (hd : d.Fits)
    (ha : algo.length = d.y.ncols) (hf : d.feat.Nodup) (han : algo.Nodup)
    (h : run nan d algo feats algos = .ok out) :
    ∃ rows fcols acols : List Nat,
      Lists acols d.y.ncols (Chosen algo algos) ∧
      Lists fcols d.x.ncols (fun j => Chosen d.feat feats j ∧ ∀ ms,
        Lists ms rows.length (fun i => Missing nan ⟨d.x.ncols, pick d.x.rows rows⟩ i j) →
        5 * ms.length < rows.length) ∧
      Lists rows d.x.rows.length (fun i =>
        (∃ j v, j < d.x.ncols ∧ Chosen d.feat feats j ∧
          (d.x.rows[i]?.bind (·[j]?)) = some v ∧ nan v = false) ∧
        (∃ j v, j < d.y.ncols ∧ Chosen algo algos j ∧
          (d.y.rows[i]?.bind (·[j]?)) = some v ∧ nan v = false)) ∧
      out.data.x.rows = (pick d.x.rows rows).map (fun row => pick row fcols) ∧
      out.data.x.ncols = fcols.length ∧
      out.data.feat = pick d.feat fcols ∧
      out.data.y.rows = (pick d.y.rows rows).map (fun row => pick row acols) ∧
      out.data.y.ncols = acols.length ∧
      out.algo = pick algo acols ∧
      out.data.inst = pick d.inst rows ∧
      out.data.s = d.s.map (fun s => pick s rows) := by
  obtain ⟨x, feat, fc, hx, hfc, xn, xr, rfl⟩ := select_pick d.x d.feat feats hd.rectX hd.feat hf
  obtain ⟨y, al, ac, hy, hac, yn, yr, rfl⟩ := select_pick d.y algo algos hd.rectY ha han
  obtain ⟨hx1, hx2, hx3⟩ := select_fits hd.rectX hd.feat hx
  obtain ⟨hy1, hy2, hy3⟩ := select_fits hd.rectY ha hy
  have hd' : ({ d with x := x, y := y, feat := pick d.feat fc } : Data V L I S).Fits :=
    { rectX := hx1, rectY := hy1, feat := hx2, y := by rw [hy3, hx3, hd.y]
      inst := by rw [hd.inst, hx3], s := fun s hs => by rw [hd.s s hs, hx3] }
  unfold run at h
  simp only [hx, hy] at h
  cases hm : removeMissing nan { d with x := x, y := y, feat := pick d.feat fc } with
  | error e => simp [hm] at h
  | ok o =>
    simp only [hm] at h
    cases h
    obtain ⟨kept, hk, hk0, hk1⟩ := C28_rows_aligned nan _ hd'
    have hne : kept ≠ [] := by
      intro h0
      rw [hk0 h0] at hm
      cases hm
    obtain ⟨o', cols₀, ho, -, oy, oyn, oi, os0, os1⟩ := hk1 hne
    rw [hm] at ho
    cases ho
    classical
    obtain ⟨cols, hc, oc, on, ofe⟩ := C29_columns nan _ hd' o hm kept hk
      (fun j => (List.range kept.length).filter fun i =>
        decide (Missing nan ⟨x.ncols, pick x.rows kept⟩ i j))
      (fun j hj => lists_filter _ _ _ (by simp))
    simp only at hk oy oyn oi os0 os1 hc oc on ofe
    have hfl : ∀ j ∈ fc, j < d.x.ncols := fun j hj => ((hfc.exact j).1 hj).1
    have hal : ∀ j ∈ ac, j < d.y.ncols := fun j hj => ((hac.exact j).1 hj).1
    have hcl : ∀ j ∈ cols, j < fc.length := fun j hj => by
      rw [← xn]; exact ((hc.exact j).1 hj).1
    have hmp : ∀ {α β : Type} (f : α → β) (l : List α) (is : List Nat),
        pick (l.map f) is = (pick l is).map f := by
      intro α β f l is
      simp only [pick, List.getElem?_map, List.map_filterMap]
    have hv : ∀ (m : Mat V) (m' : Mat V) (cs : List Nat) (P : Nat → Prop), m.Rect →
        Lists cs m.ncols P → m'.rows = m.rows.map (fun row => pick row cs) → ∀ i,
        (HasValue nan m' i ↔ ∃ j v, j < m.ncols ∧ P j ∧
          (m.rows[i]?.bind (·[j]?)) = some v ∧ nan v = false) := by
      intro m m' cs P hrect hcs hm' i
      unfold HasValue
      rw [hm', List.getElem?_map]
      constructor
      · rintro ⟨row, v, h1, h2, h3⟩
        cases hr : m.rows[i]? with
        | none => simp [hr] at h1
        | some r =>
          rw [hr] at h1
          simp only [Option.map_some, Option.some.injEq] at h1
          subst h1
          obtain ⟨j, hj, hjv⟩ := List.mem_filterMap.1 h2
          exact ⟨j, v, ((hcs.exact j).1 hj).1, ((hcs.exact j).1 hj).2, hjv, h3⟩
      · rintro ⟨j, v, h1, h2, h3, h4⟩
        cases hr : m.rows[i]? with
        | none => simp [hr] at h3
        | some r =>
          rw [hr] at h3
          exact ⟨pick r cs, v, rfl, List.mem_filterMap.2 ⟨j, (hcs.exact j).2 ⟨h1, h2⟩, h3⟩, h4⟩
    have hmiss : ∀ (j' : Nat) (hj' : j' < fc.length) (i : Nat),
        Missing nan ⟨x.ncols, pick x.rows kept⟩ i j' ↔
          Missing nan ⟨d.x.ncols, pick d.x.rows kept⟩ i fc[j'] := by
      intro j' hj' i
      unfold Missing
      simp only
      rw [xr, hmp, List.getElem?_map]
      constructor
      · rintro ⟨row, v, h1, h2, h3⟩
        cases hr : (pick d.x.rows kept)[i]? with
        | none => simp [hr] at h1
        | some r =>
          rw [hr] at h1
          simp only [Option.map_some, Option.some.injEq] at h1
          subst h1
          refine ⟨r, v, rfl, ?_, h3⟩
          have hrl := hd.rectX r (mem_pick (List.mem_of_getElem? hr))
          rw [pick_getElem? r fc (by rw [hrl]; exact hfl), List.getElem?_eq_getElem hj'] at h2
          exact h2
      · rintro ⟨r, v, h1, h2, h3⟩
        refine ⟨pick r fc, v, by rw [h1]; rfl, ?_, h3⟩
        have hrl := hd.rectX r (mem_pick (List.mem_of_getElem? h1))
        rw [pick_getElem? r fc (by rw [hrl]; exact hfl), List.getElem?_eq_getElem hj']
        exact h2
    have hlm : ∀ j', Lists ((List.range kept.length).filter fun i =>
        decide (Missing nan ⟨x.ncols, pick x.rows kept⟩ i j')) kept.length
        (fun i => Missing nan ⟨x.ncols, pick x.rows kept⟩ i j') :=
      fun j' => lists_filter _ _ _ (by simp)
    refine ⟨kept, pick fc cols, ac, hac, ⟨?_, ?_⟩, ?_, ?_, ?_, ?_, ?_, ?_, rfl, oi, ?_⟩
    · rw [List.pairwise_iff_getElem]
      intro i j hi hj hij
      have hi' : i < cols.length := by rwa [pick_length fc cols hcl] at hi
      have hj' : j < cols.length := by rwa [pick_length fc cols hcl] at hj
      have e : ∀ (k : Nat) (hk : k < cols.length) (hk' : k < (pick fc cols).length),
          (pick fc cols)[k] = fc[cols[k]]'(hcl _ (List.getElem_mem hk)) := by
        intro k hk hk'
        have := pick_getElem? fc cols hcl k
        rw [List.getElem?_eq_getElem hk', List.getElem?_eq_getElem hk, Option.bind_some,
          List.getElem?_eq_getElem (hcl _ (List.getElem_mem hk))] at this
        exact Option.some.inj this
      rw [e i hi' hi, e j hj' hj]
      have := List.pairwise_iff_getElem.1 hc.increasing i j hi' hj' hij
      exact List.pairwise_iff_getElem.1 hfc.increasing _ _ _ _ this
    · intro j
      constructor
      · intro hj
        obtain ⟨j', hj', hjj⟩ := List.mem_filterMap.1 hj
        have hl' := hcl j' hj'
        rw [List.getElem?_eq_getElem hl', Option.some.injEq] at hjj
        subst hjj
        have h1 := (hfc.exact _).1 (List.getElem_mem hl')
        refine ⟨h1.1, h1.2, ?_⟩
        intro ms hms
        have h2 : Lists ms kept.length
            (fun i => Missing nan ⟨x.ncols, pick x.rows kept⟩ i j') :=
          ⟨hms.increasing, fun i => by rw [hms.exact i, hmiss j' hl' i]⟩
        rw [h2.unique (hlm j')]
        exact ((hc.exact j').1 hj').2
      · rintro ⟨h1, h2, h3⟩
        have hm' := (hfc.exact j).2 ⟨h1, h2⟩
        obtain ⟨j', hl', rfl⟩ := List.getElem_of_mem hm'
        refine List.mem_filterMap.2 ⟨j', (hc.exact j').2 ⟨by rw [xn]; exact hl', ?_⟩,
          List.getElem?_eq_getElem hl'⟩
        apply h3
        exact ⟨(hlm j').increasing, fun i => by rw [(hlm j').exact i, hmiss j' hl' i]⟩
    · refine ⟨hk.increasing, fun i => ?_⟩
      rw [hk.exact i, hx3]
      have a := hv d.x x fc _ hd.rectX hfc xr i
      have b := hv d.y y ac _ hd.rectY hac yr i
      exact and_congr Iff.rfl (and_congr a b)
    · rw [oc, xr, hmp, List.map_map]
      apply List.map_congr_left
      intro row hrow
      have hrl := hd.rectX row (mem_pick hrow)
      exact pick_pick row fc cols (by rw [hrl]; exact hfl) hcl
    · rw [on, pick_length fc cols hcl]
    · rw [ofe]
      exact pick_pick _ fc cols (by rw [hd.feat]; exact hfl) hcl
    · rw [oy, yr, hmp]
    · rw [oyn, yn]
    · cases hs : d.s with
      | none => simpa using os0 hs
      | some s => simpa using os1 s hs

-- Three instances, three features, two algorithms; the options name two features and one
-- algorithm.  The hypotheses hold and the stage drops the second instance.
example : (match run Option.isNone
    { x := ⟨3, [[some 1, some 2, some 3], [none, some 5, none], [some 7, some 8, some 9]]⟩
      y := ⟨2, [[some 1, some 2], [some 3, some 4], [some 5, some 6]]⟩
      s := some [10, 11, 12], feat := ["f", "g", "h"], inst := ["a", "b", "c"] } ["p", "q"]
      (some ["h", "f"]) (some ["q"]) with
    | .ok o => (o.data.x.rows, o.data.feat, o.data.y.rows, o.algo, o.data.inst, o.data.s)
    | .error _ => default) =
    ([[some 1, some 3], [some 7, some 9]], ["f", "h"], [[some 2], [some 6]], ["q"], ["a", "c"],
      some [10, 12]) := rfl

end Verif.Preprocessing
