import Verif.Export.PropsFiles
import Mathlib.Tactic.Linarith
/-!
# The colours of the web export agree with the CSV files: C185
-/
set_option autoImplicit false
set_option linter.unusedSectionVars false

namespace Verif.Export

open Verif (Num)

/-! ### Specification -/

/-- The entry in line `i` and column `j` of a file. -/
def entry (t : Table Num) (i j : Nat) : Option Num := t.rows[i]?.bind fun r => r.2[j]?

/-- The entries of the file in the columns `cols` are numbers, not all equal, from `lo` to `hi`. -/
structure RangesOver (t : Table Num) (cols : Nat → Prop) (lo hi : ℚ) : Prop where
  numbers : ∀ i j v, cols j → entry t i j = some v → ∃ x : ℚ, v = .fin x ∧ lo ≤ x ∧ x ≤ hi
  least : ∃ i j, cols j ∧ entry t i j = some (.fin lo)
  greatest : ∃ i j, cols j ∧ entry t i j = some (.fin hi)
  varies : lo < hi

/-- The file `colour` of the web export shows the numbers of the CSV file `data`: it has the same
headings and line names, and wherever the numbers of the column (of the whole file, if `whole`) are
complete and not all equal, the entry is the integer given by the position of the number between the
least and the greatest one, from 0 to 255, rounded down (to a nearest integer, if `whole`). -/
def ShowsColours (csv web : List (String × File Num)) (data colour : String) (whole : Bool) : Prop :=
  ∃ t t' : Table Num, onDisk csv data = some (.array t) ∧ onDisk web colour = some (.array t') ∧
    t'.columns = t.columns ∧ t'.rows.map (·.1) = t.rows.map (·.1) ∧
    ∀ (i j : Nat) (x lo hi : ℚ), entry t i j = some (.fin x) →
      RangesOver t (fun k => whole = true ∨ k = j) lo hi →
      ∃ c : ℤ, entry t' i j = some (.fin c) ∧
        if whole then |(c : ℚ) - 255 * ((x - lo) / (hi - lo))| ≤ 1 / 2
        else (c : ℚ) ≤ 255 * ((x - lo) / (hi - lo)) ∧ 255 * ((x - lo) / (hi - lo)) < c + 1

/-! ### Helpers -/

theorem range_of {l : List Num} {lo hi : ℚ} (h : ∀ v ∈ l, ∃ x : ℚ, v = .fin x ∧ lo ≤ x ∧ x ≤ hi)
    (h1 : .fin lo ∈ l) (h2 : .fin hi ∈ l) : npMin l = .fin lo ∧ npMax l = .fin hi := by
  obtain ⟨q, rfl⟩ : ∃ q : List ℚ, l = q.map Num.fin := by
    clear h1 h2
    induction l with
    | nil => exact ⟨[], rfl⟩
    | cons a l ih =>
      obtain ⟨q, rfl⟩ := ih fun v hv => h v (by simp [hv])
      obtain ⟨x, rfl, -⟩ := h a (by simp)
      exact ⟨x :: q, rfl⟩
  have hm : ∀ b ∈ q, lo ≤ b ∧ b ≤ hi := by
    intro b hb
    obtain ⟨x, hx, h3⟩ := h (.fin b) (List.mem_map_of_mem hb)
    cases hx
    exact h3
  obtain ⟨a, ha, ha'⟩ := List.mem_map.1 h1
  cases ha'
  obtain ⟨b, hb, hb'⟩ := List.mem_map.1 h2
  cases hb'
  cases q with
  | nil => cases ha
  | cons c q =>
    obtain ⟨m, e1, e2, e3⟩ := npMin_fin c q
    obtain ⟨m', e4, e5, e6⟩ := npMax_fin c q
    rw [e1, e4, le_antisymm (e3 _ ha) (hm _ e2).1, le_antisymm (hm _ e5).2 (e6 _ hb)]
    exact ⟨rfl, rfl⟩

theorem scaled_of {l : List Num} {lo hi : ℚ} (h : npMin l = .fin lo ∧ npMax l = .fin hi)
    (hlt : lo < hi) (q : ℚ) : scaled l (.fin q) = .fin (255 * ((q - lo) / (hi - lo))) := by
  unfold scaled
  rw [h.1, h.2, Num.fin_sub, Num.fin_sub, Num.fin_div _ _ (by linarith), Num.fin_mul]

theorem roundEven_near (q : ℚ) : |(roundEven q : ℚ) - q| ≤ 1 / 2 := by
  have h1 := Int.floor_le q
  have h2 := Int.lt_floor_add_one q
  unfold roundEven
  rw [abs_le]
  split
  · constructor <;> linarith
  · split
    · push_cast; constructor <;> linarith
    · split
      · constructor <;> linarith
      · push_cast; constructor <;> linarith

section
variable {cols inst : List String} {m : List (List Num)}

theorem entry_zip (h : HasShape m inst.length cols.length) (i j : Nat) :
    entry ⟨cols, inst.zip m⟩ i j = m[i]?.bind fun r => r[j]? := by
  unfold entry
  simp only
  by_cases hi : i < m.length
  · have hi' : i < inst.length := by rw [← h.1]; exact hi
    rw [List.getElem?_eq_getElem (by simp; omega), List.getElem?_eq_getElem hi]
    simp
  · rw [List.getElem?_eq_none (by simp; omega), List.getElem?_eq_none (by omega)]
    rfl

theorem mem_columnOf (h : HasShape m inst.length cols.length) {j : Nat} (hj : j < cols.length)
    (v : Num) : v ∈ columnOf m j ↔ ∃ i, entry ⟨cols, inst.zip m⟩ i j = some v := by
  simp only [entry_zip h, columnOf, List.mem_map]
  constructor
  · rintro ⟨r, hr, rfl⟩
    obtain ⟨i, hi, rfl⟩ := List.mem_iff_getElem.1 hr
    have := h.2 _ hr
    refine ⟨i, ?_⟩
    simp [List.getElem?_eq_getElem hi, List.getElem?_eq_getElem (show j < m[i].length by omega),
      List.getD]
  · rintro ⟨i, hi⟩
    obtain ⟨r, hr, hv⟩ := Option.bind_eq_some_iff.1 hi
    exact ⟨r, List.mem_of_getElem? hr, by simp [List.getD, hv]⟩

theorem mem_flatten (h : HasShape m inst.length cols.length) (v : Num) :
    v ∈ m.flatten ↔ ∃ i j, entry ⟨cols, inst.zip m⟩ i j = some v := by
  simp only [entry_zip h, List.mem_flatten]
  constructor
  · rintro ⟨r, hr, hv⟩
    obtain ⟨i, hi⟩ := List.mem_iff_getElem?.1 hr
    obtain ⟨j, hj⟩ := List.mem_iff_getElem?.1 hv
    exact ⟨i, j, by simp [hi, hj]⟩
  · rintro ⟨i, j, hi⟩
    obtain ⟨r, hr, hv⟩ := Option.bind_eq_some_iff.1 hi
    exact ⟨r, List.mem_of_getElem? hr, List.mem_of_getElem? hv⟩

theorem shows_columns {csv web : List (String × File Num)} {data colour : String}
    (h : HasShape m inst.length cols.length)
    (h1 : onDisk csv data = some (.array ⟨cols, inst.zip m⟩))
    (h2 : onDisk web colour = some (.array ⟨cols, inst.zip (colourScale m)⟩)) :
    ShowsColours csv web data colour false := by
  refine ⟨_, _, h1, h2, rfl, ?_, ?_⟩
  · simp only
    rw [List.map_fst_zip (by rw [((colourScale_shape m _ _).2 h).1]), List.map_fst_zip (by rw [h.1])]
  · intro i j x lo hi hx hr
    have hj : j < cols.length := by
      rw [entry_zip h] at hx
      obtain ⟨r, hr, hv⟩ := Option.bind_eq_some_iff.1 hx
      rw [← h.2 r (List.mem_of_getElem? hr)]
      exact (List.getElem?_eq_some_iff.1 hv).1
    have hrange : npMin (columnOf m j) = .fin lo ∧ npMax (columnOf m j) = .fin hi := by
      refine range_of ?_ ?_ ?_
      · intro v hv
        obtain ⟨i, hi⟩ := (mem_columnOf h hj v).1 hv
        exact hr.numbers i j v (.inr rfl) hi
      · obtain ⟨i, k, hk, he⟩ := hr.least
        obtain rfl : k = j := by simpa using hk
        exact (mem_columnOf h hj _).2 ⟨i, he⟩
      · obtain ⟨i, k, hk, he⟩ := hr.greatest
        obtain rfl : k = j := by simpa using hk
        exact (mem_columnOf h hj _).2 ⟨i, he⟩
    refine ⟨⌊255 * ((x - lo) / (hi - lo))⌋, ?_, ?_⟩
    · rw [entry_zip ((colourScale_shape m _ _).2 h)]
      rw [entry_zip h] at hx
      obtain ⟨r, hr', hv⟩ := Option.bind_eq_some_iff.1 hx
      simp only [colourScale, List.getElem?_map, hr', Option.map_some, Option.bind_some,
        List.getElem?_mapIdx, hv, scaled_of hrange hr.varies]
      rfl
    · simp only [Bool.false_eq_true, if_false]
      exact ⟨Int.floor_le _, Int.lt_floor_add_one _⟩

theorem shows_whole {csv web : List (String × File Num)} {data colour : String}
    (h : HasShape m inst.length cols.length)
    (h1 : onDisk csv data = some (.array ⟨cols, inst.zip m⟩))
    (h2 : onDisk web colour = some (.array ⟨cols, inst.zip (colourScaleG m)⟩)) :
    ShowsColours csv web data colour true := by
  refine ⟨_, _, h1, h2, rfl, ?_, ?_⟩
  · simp only
    rw [List.map_fst_zip (by rw [((colourScaleG_shape m _ _).2 h).1]), List.map_fst_zip (by rw [h.1])]
  · intro i j x lo hi hx hr
    have hrange : npMin m.flatten = .fin lo ∧ npMax m.flatten = .fin hi := by
      refine range_of ?_ ?_ ?_
      · intro v hv
        obtain ⟨i, k, hi⟩ := (mem_flatten h v).1 hv
        exact hr.numbers i k v (.inl rfl) hi
      · obtain ⟨i, k, -, he⟩ := hr.least
        exact (mem_flatten h _).2 ⟨i, k, he⟩
      · obtain ⟨i, k, -, he⟩ := hr.greatest
        exact (mem_flatten h _).2 ⟨i, k, he⟩
    refine ⟨roundEven (255 * ((x - lo) / (hi - lo))), ?_, ?_⟩
    · rw [entry_zip ((colourScaleG_shape m _ _).2 h)]
      rw [entry_zip h] at hx
      obtain ⟨r, hr', hv⟩ := Option.bind_eq_some_iff.1 hx
      simp only [colourScaleG, List.getElem?_map, hr', Option.map_some, Option.bind_some, hv,
        scaled_of hrange hr.varies]
      rfl
    · simp only [if_true]
      exact roundEven_near _
end

theorem onDisk_web (table : Frame Num) (e : Export Num) (h : FitsWeb e) {n : String} {f : File Num}
    (hm : (n, f) ∈ (saveWeb table true e).1) : onDisk (saveWeb table true e).1 n = some f := by
  refine onDisk_of_nodup ?_ hm
  rw [C112_partial table e h]
  simp only [List.map_cons, List.map_nil]
  decide +kernel

/-! ### C185 -/

/-- **C185.**  If both exports of a Model succeed, every file of colours shows the numbers of its CSV
file. -/
theorem C185_colours (junk : Num × Num) (table : Frame Num) (e : Export Num)
    (hc : (saveCsv junk true e).error = none) (hw : (saveWeb table true e).2 = none) :
    let csv := (saveCsv junk true e).files
    let web := (saveWeb table true e).1
    ShowsColours csv web "feature_raw.csv" "feature_raw_color.csv" false ∧
    ShowsColours csv web "feature_process.csv" "feature_process_color.csv" false ∧
    ShowsColours csv web "algorithm_raw.csv" "algorithm_raw_single_color.csv" false ∧
    ShowsColours csv web "algorithm_process.csv" "algorithm_process_single_color.csv" false ∧
    ShowsColours csv web "algorithm_raw.csv" "algorithm_raw_color.csv" true ∧
    ShowsColours csv web "algorithm_process.csv" "algorithm_process_color.csv" true ∧
    ShowsColours csv web "good_algos.csv" "good_algos_color.csv" true := by
  have h := (C82_exact_partial junk e).1 hc
  have h' := (C112_exact_partial table e).1 hw
  have hraw : HasShape (e.xRaw.map fun r => e.idx.filterMap fun i => r[i]?) e.instLabels.length
      e.featLabels.length := by
    refine ⟨by simp [h.xRaw], ?_⟩
    intro r hr
    obtain ⟨s, hs, rfl⟩ := List.mem_map.1 hr
    have h3 := takeRow_ok s e.idx (h.idx s hs).1
    rw [(takeRow_range _ _ _ h3).2, (h.idx s hs).2]
  have hd : ∀ {n f}, (n, f) ∈ otherFiles e → onDisk (saveCsv junk true e).files n = some f :=
    fun hm => onDisk_other junk e h hm
  have hd' : ∀ {n f}, (n, f) ∈ (saveWeb table true e).1 →
      onDisk (saveWeb table true e).1 n = some f := fun hm => onDisk_web table e h' hm
  refine ⟨shows_columns hraw (hd ?_) (hd' ?_), shows_columns h.x (hd ?_) (hd' ?_),
    shows_columns h.yRaw (hd ?_) (hd' ?_), shows_columns h.y (hd ?_) (hd' ?_),
    shows_whole h.yRaw (hd ?_) (hd' ?_), shows_whole h.y (hd ?_) (hd' ?_),
    shows_whole (cols := ["NumGoodAlgos"]) (asColumn_shape.2 h.numGood) (hd ?_) (hd' ?_)⟩
  all_goals first
    | (simp only [otherFiles, asColumn]; simp)
    | (rw [C112_partial table e h']; simp [asColumn])

/-- A Model of numbers with everything that the two exports need. -/
def exBoth : Export Num :=
  { exWeb with
    nalgos := 1
    yBin := [[1, 0], [0, 1]]
    beta := [0, 1]
    p := [.fin 1, .fin 2]
    z := [[0, 1], [1, 0]]
    zEdge := [[0, 1], [1, 0]]
    zEcorr := [[0, 1]]
    yHat := [[1, 0], [0, 1]]
    selection0 := [0, 1]
    best := [none]
    good := [none]
    traceSummary := List.replicate 11 ("c", [0, 1]) }

/-- Non-vacuity for C185: a Model for which both exports succeed; each algorithm's performances get
the colours 0 and 255 on its own scale, and on the common scale 15, 16, 17 and 18 become 0, 85, 170
and 255. -/
example : (saveCsv (0, 0) true exBoth).error = none ∧ (saveWeb [] true exBoth).2 = none ∧
    onDisk (saveCsv (0, 0) true exBoth).files "algorithm_raw.csv" = some (.array ⟨["a", "b"],
      [("i1", [.fin 15, .fin 16]), ("i2", [.fin 17, .fin 18])]⟩) ∧
    onDisk (saveWeb [] true exBoth).1 "algorithm_raw_single_color.csv" = some (.array ⟨["a", "b"],
      [("i1", [.fin 0, .fin 0]), ("i2", [.fin 255, .fin 255])]⟩) ∧
    onDisk (saveWeb [] true exBoth).1 "algorithm_raw_color.csv" = some (.array ⟨["a", "b"],
      [("i1", [.fin 0, .fin 85]), ("i2", [.fin 170, .fin 255])]⟩) ∧
    RangesOver ⟨["a", "b"], [("i1", [.fin 15, .fin 16]), ("i2", [.fin 17, .fin 18])]⟩
      (fun k => k = 0) 15 17 := by
  refine ⟨by decide +kernel, by decide +kernel, by decide +kernel, by decide +kernel,
    by decide +kernel, ?_, ⟨0, 0, rfl, rfl⟩, ⟨1, 0, rfl, rfl⟩, by norm_num⟩
  rintro i _ v rfl h
  rcases i with _ | _ | i
  · cases h; exact ⟨15, rfl, by norm_num, by norm_num⟩
  · cases h; exact ⟨17, rfl, by norm_num, by norm_num⟩
  · cases h

end Verif.Export
