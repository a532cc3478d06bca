import Verif.Metadata.Model
import Mathlib.Data.List.Basic
/-!
# Metadata: properties C47, C48, C90, C91
-/
set_option autoImplicit false
set_option linter.unusedSectionVars false

namespace Verif.Metadata

variable {V : Type}

/-! ### Specification -/

/-- All columns have one cell per row. -/
def Table.Rect (t : Table V) : Prop := ∀ c ∈ t.cols, c.2.length = t.nrows

/-- The lower-cased name starts with `p`. -/
def Begins (lower : String → String) (p name : String) : Prop :=
  ∃ rest : List Char, (lower name).toList = p.toList ++ rest

/-- `names` and the matrix `rows` are exactly the columns of `t` at increasing positions `ps`, and
these are the positions whose name satisfies `Q`. -/
structure Columns (t : Table V) (Q : String → Prop) (names : List String) (rows : List (List V))
    (ps : List Nat) : Prop where
  increasing : ps.Pairwise (· < ·)
  exact : ∀ i, i ∈ ps ↔ ∃ c, t.cols[i]? = some c ∧ Q c.1
  names : names = ps.filterMap fun i => (t.cols[i]?).map Prod.fst
  nrows : rows.length = t.nrows
  ncols : ∀ row ∈ rows, row.length = ps.length
  cells : ∀ (k r : Nat) (i : Nat) (c : String × List V), ps[k]? = some i → t.cols[i]? = some c →
    r < t.nrows → ∃ row, rows[r]? = some row ∧ row[k]? = c.2[r]?

/-! ### Lemmas -/

theorem hasPrefix_iff (lower : String → String) (p s : String) :
    hasPrefix p (lower s) = true ↔ Begins lower p s := by
  unfold hasPrefix Begins
  rw [List.isPrefixOf_iff_prefix]
  constructor
  · rintro ⟨r, h⟩; exact ⟨r, h.symm⟩
  · rintro ⟨r, h⟩; exact ⟨r, h.symm⟩

/-- Positions satisfying a Boolean test. -/
def positions (q : String → Bool) (cols : List (String × List V)) : List Nat :=
  (List.range cols.length).filter fun i => (cols[i]?).any fun c => q c.1

theorem positions_cons (q : String → Bool) (c : String × List V) (cols : List (String × List V)) :
    positions q (c :: cols) =
      (if q c.1 then [0] else []) ++ (positions q cols).map Nat.succ := by
  unfold positions
  rw [List.length_cons, List.range_succ_eq_map, List.filter_cons]
  simp only [List.getElem?_cons_zero, Option.any_some, List.filter_map]
  have : ((fun i => ((c :: cols)[i]?).any fun c => q c.1) ∘ Nat.succ) =
      fun i : Nat => (cols[i]?).any fun c => q c.1 := by
    funext i; simp
  rw [this]
  split <;> simp

theorem filter_positions (q : String → Bool) (cols : List (String × List V)) :
    (positions q cols).filterMap (fun i => cols[i]?) = cols.filter fun c => q c.1 := by
  induction cols with
  | nil => rfl
  | cons c cols ih =>
    rw [positions_cons, List.filterMap_append, List.filterMap_map, List.filter_cons]
    have : ((fun i => (c :: cols)[i]?) ∘ Nat.succ) = fun i : Nat => cols[i]? := by
      funext i; simp
    rw [this, ih]
    split <;> simp

theorem positions_getElem (q : String → Bool) (cols : List (String × List V)) (k i : Nat)
    (c : String × List V) (hk : (positions q cols)[k]? = some i) (hc : cols[i]? = some c) :
    (cols.filter fun c => q c.1)[k]? = some c := by
  rw [← filter_positions]
  have : ∀ (l : List Nat), (∀ j ∈ l, j < cols.length) → l[k]? = some i →
      (l.filterMap (fun i => cols[i]?))[k]? = some c := by
    clear hk
    intro l
    induction l generalizing k with
    | nil => intro _ h; simp at h
    | cons a l ih =>
      intro hl h
      have ha := hl a List.mem_cons_self
      rw [List.filterMap_cons, List.getElem?_eq_getElem ha]
      cases k with
      | zero =>
        simp only [List.getElem?_cons_zero, Option.some.injEq] at h
        subst h
        rw [List.getElem?_eq_getElem ha] at hc
        simpa using hc
      | succ k =>
        simp only [List.getElem?_cons_succ] at h ⊢
        exact ih k (fun j hj => hl j (List.mem_cons_of_mem _ hj)) h
  refine this _ ?_ hk
  intro j hj
  unfold positions at hj
  rw [List.mem_filter, List.mem_range] at hj
  exact hj.1

theorem loc_columns (t : Table V) (ht : t.Rect) (q : String → Bool) (Q : String → Prop)
    (hq : ∀ s, q s = true ↔ Q s) :
    Columns t Q ((t.loc q).cols.map Prod.fst) (t.loc q).toNumpy (positions q t.cols) where
  increasing := List.Pairwise.filter _ List.pairwise_lt_range
  exact i := by
    unfold positions
    rw [List.mem_filter, List.mem_range]
    constructor
    · rintro ⟨h1, h2⟩
      rw [List.getElem?_eq_getElem h1] at h2 ⊢
      exact ⟨_, rfl, (hq _).1 (by simpa using h2)⟩
    · rintro ⟨c, h1, h2⟩
      refine ⟨(List.getElem?_eq_some_iff.1 h1).1, ?_⟩
      rw [h1]
      simpa using (hq _).2 h2
  names := by
    unfold Table.loc
    rw [← filter_positions, List.map_filterMap]
  nrows := by simp [Table.toNumpy, Table.loc]
  ncols row hrow := by
    unfold Table.toNumpy at hrow
    rw [List.mem_map] at hrow
    obtain ⟨r, hr, rfl⟩ := hrow
    rw [List.mem_range] at hr
    have h1 : (t.loc q).cols.length = (positions q t.cols).length := by
      unfold Table.loc
      rw [← filter_positions]
      have : ∀ l : List Nat, (∀ j ∈ l, j < t.cols.length) →
          (l.filterMap (fun i => t.cols[i]?)).length = l.length := by
        intro l
        induction l with
        | nil => intro _; rfl
        | cons a l ih =>
          intro hl
          rw [List.filterMap_cons, List.getElem?_eq_getElem (hl a List.mem_cons_self)]
          simp only [List.length_cons]
          rw [ih (fun j hj => hl j (List.mem_cons_of_mem _ hj))]
      apply this
      intro j hj
      unfold positions at hj
      rw [List.mem_filter, List.mem_range] at hj
      exact hj.1
    rw [← h1]
    unfold Table.row
    have : ∀ l : List (String × List V), (∀ c ∈ l, r < c.2.length) →
        (l.filterMap fun c => c.2[r]?).length = l.length := by
      intro l
      induction l with
      | nil => intro _; rfl
      | cons a l ih =>
        intro hl
        rw [List.filterMap_cons, List.getElem?_eq_getElem (hl a List.mem_cons_self)]
        simp only [List.length_cons]
        rw [ih (fun j hj => hl j (List.mem_cons_of_mem _ hj))]
    apply this
    intro c hc
    rw [ht c (List.mem_filter.1 hc).1]
    exact hr
  cells k r i c hk hc hr := by
    refine ⟨(t.loc q).row r, ?_, ?_⟩
    · unfold Table.toNumpy
      rw [List.getElem?_map, List.getElem?_range (by exact hr)]
      rfl
    · have h1 := positions_getElem q t.cols k i c hk hc
      unfold Table.row Table.loc
      have : ∀ (l : List (String × List V)) (k : Nat), (∀ c ∈ l, r < c.2.length) →
          l[k]? = some c → (l.filterMap fun c => c.2[r]?)[k]? = c.2[r]? := by
        intro l
        induction l with
        | nil => intro k _ h; simp at h
        | cons a l ih =>
          intro k hl h
          rw [List.filterMap_cons, List.getElem?_eq_getElem (hl a List.mem_cons_self)]
          cases k with
          | zero =>
            simp only [List.getElem?_cons_zero, Option.some.injEq] at h
            subst h
            rw [List.getElem?_eq_getElem (hl a List.mem_cons_self)]
            rfl
          | succ k =>
            simp only [List.getElem?_cons_succ] at h ⊢
            exact ih k (fun j hj => hl j (List.mem_cons_of_mem _ hj)) h
      apply this _ _ _ h1
      intro c hc
      rw [ht c (List.mem_filter.1 hc).1]
      exact hr

/-! ### C47 -/

/-- **C47** Features and algorithms are exactly the columns with the right prefix, in file order,
each name with its own cells. -/
theorem C47_columns (lower : String → String) (numeric : Squeezed V → Bool) (str : V → V)
    (t : Table V) (ht : t.Rect) :
    (∃ ps, Columns t (Begins lower "feature_") (fromDataFrame lower numeric str t).featureNames
      (fromDataFrame lower numeric str t).features ps) ∧
    (∃ ps, Columns t (Begins lower "algo_") (fromDataFrame lower numeric str t).algorithmNames
      (fromDataFrame lower numeric str t).algorithms ps) :=
  ⟨⟨_, loc_columns t ht _ _ (hasPrefix_iff lower "feature_")⟩,
   ⟨_, loc_columns t ht _ _ (hasPrefix_iff lower "algo_")⟩⟩

/-- **C47** No column is both a feature and an algorithm. -/
theorem C47_disjoint (lower : String → String) (name : String) :
    ¬ (Begins lower "feature_" name ∧ Begins lower "algo_" name) := by
  rintro ⟨⟨r1, h1⟩, ⟨r2, h2⟩⟩
  rw [h1] at h2
  have : ("feature_".toList ++ r1)[0]? = ("algo_".toList ++ r2)[0]? := by rw [h2]
  simp at this

/-- A small table: two features around an algorithm, one ignored column, mixed case. -/
def sampleTable : Table Nat :=
  ⟨2, [("Instances", [1, 2]), ("Feature_b", [3, 4]), ("algo_z", [5, 6]), ("note", [7, 8]),
    ("feature_a", [9, 10]), ("Source", [0, 1])]⟩

/-- Lower case for the letters that occur in the examples. -/
def lowerAscii (s : String) : String := String.ofList (s.toList.map Char.toLower)

example : (fromDataFrame lowerAscii (fun _ => true) id sampleTable) =
    ⟨["Feature_b", "feature_a"], ["algo_z"], .series [1, 2], some (.series [0, 1]),
     [[3, 9], [4, 10]], [[5], [6]]⟩ ∧ sampleTable.Rect := by
  refine ⟨by decide +kernel, ?_⟩
  intro c hc
  simp only [sampleTable, List.mem_cons, List.not_mem_nil, or_false] at hc
  rcases hc with rfl | rfl | rfl | rfl | rfl | rfl <;> rfl

/-! ### C48 and C90 -/

/-- The full claim of C48: with an instances column, the labels are one per row and in row order,
possibly converted to strings. -/
def LabelsPerRow : Prop :=
  ∀ (lower : String → String) (numeric : Squeezed Nat → Bool) (str : Nat → Nat) (t : Table Nat),
    t.Rect → (∃ c ∈ t.cols, lower c.1 = "instances") →
    ∃ ls, (fromDataFrame lower numeric str t).labels = .series ls ∧ ls.length = t.nrows

/-- **C48** is false: for a one-row table the labels are a scalar. -/
theorem C48_refuted : ¬ LabelsPerRow := by
  intro h
  obtain ⟨ls, h1, -⟩ := h id (fun _ => false) id ⟨1, [("instances", [7])]⟩
    (by intro c hc; simp only [List.mem_cons, List.not_mem_nil, or_false] at hc; subst hc; rfl)
    ⟨_, List.mem_cons_self, rfl⟩
  have h2 : Squeezed.scalar 7 = Squeezed.series ls := h1
  cases h2

theorem squeeze_series (t : Table V) (ht : t.Rect) :
    (∃ ls, t.squeeze = .series ls ∧ ls.length = t.nrows) ↔ t.cols.length = 1 ∧ t.nrows ≠ 1 := by
  unfold Table.squeeze
  split
  · next c hc =>
    have hl : c.2.length = t.nrows := ht c (by rw [hc]; exact List.mem_cons_self)
    rw [hc]
    split
    · next hn hv => simp [hn]
    · next vs hno =>
      constructor
      · intro _
        refine ⟨rfl, ?_⟩
        intro hn
        rw [hn] at hl
        obtain ⟨v, hv⟩ := List.length_eq_one_iff.1 hl
        exact hno v hn hv
      · intro _
        exact ⟨_, rfl, hl⟩
  · next hno =>
    have hne : t.cols.length ≠ 1 := by
      intro h
      obtain ⟨c, hc⟩ := List.length_eq_one_iff.1 h
      exact hno c hc
    split
    · next hn =>
      constructor
      · rintro ⟨ls, h1, h2⟩
        exfalso
        cases h1
        apply hne
        rw [hn] at h2
        rw [← h2]
        unfold Table.row
        have : ∀ l : List (String × List V), (∀ c ∈ l, 0 < c.2.length) →
            (l.filterMap fun c => c.2[0]?).length = l.length := by
          intro l
          induction l with
          | nil => intro _; rfl
          | cons a l ih =>
            intro hl
            rw [List.filterMap_cons, List.getElem?_eq_getElem (hl a List.mem_cons_self)]
            simp only [List.length_cons]
            rw [ih (fun j hj => hl j (List.mem_cons_of_mem _ hj))]
        rw [this]
        intro c hc
        rw [ht c hc, hn]
        omega
      · rintro ⟨h, -⟩
        exact absurd h hne
    · simp [hne]

/-- **C48** exactly: the labels are a sequence with one label per row if and only if there is
exactly one instances column and the table does not have exactly one row. -/
theorem C48_exact_partial (lower : String → String) (numeric : Squeezed V → Bool) (str : V → V)
    (t : Table V) (ht : t.Rect) :
    (∃ ls, (fromDataFrame lower numeric str t).labels = .series ls ∧ ls.length = t.nrows) ↔
      t.cols.countP (fun c => lower c.1 == "instances") = 1 ∧ t.nrows ≠ 1 := by
  have hr : (t.loc (isName lower)).Rect := fun c hc => ht c (List.mem_filter.1 hc).1
  have key := squeeze_series _ hr
  have hlen : (t.loc (isName lower)).cols.length =
      t.cols.countP (fun c => lower c.1 == "instances") := by
    rw [List.countP_eq_length_filter]
    rfl
  rw [hlen] at key
  have hn : (t.loc (isName lower)).nrows = t.nrows := rfl
  rw [hn] at key
  rw [← key]
  simp only [fromDataFrame]
  split
  · cases (t.loc (isName lower)).squeeze <;> simp [Squeezed.astype]
  · rfl

/-- **C48**, the part that holds: with one instances column and a number of rows other than one,
the labels are that column, in row order, possibly converted to strings.  Missing: tables with one
row or several instances columns. -/
theorem C48_partial (lower : String → String) (numeric : Squeezed V → Bool) (str : V → V)
    (t : Table V) (name : String) (cells : List V)
    (hone : (t.cols.filter fun c => lower c.1 == "instances") = [(name, cells)])
    (hn : t.nrows ≠ 1) :
    (fromDataFrame lower numeric str t).labels = .series cells ∨
    (fromDataFrame lower numeric str t).labels = .series (cells.map str) := by
  have h : (t.loc (isName lower)).squeeze = .series cells := by
    have h1 : (t.loc (isName lower)).cols = [(name, cells)] := hone
    unfold Table.squeeze
    rw [h1]
    simp only
    split
    · next h2 _ => exact absurd ‹_› hn
    · rfl
  simp only [fromDataFrame, h]
  split
  · exact .inr rfl
  · exact .inl rfl

-- Two instances columns: the labels are a frame, not a sequence.
example : (fromDataFrame lowerAscii (fun _ => false) id
    (⟨2, [("instances", [1, 2]), ("Instances", [3, 4])]⟩ : Table Nat)).labels =
    .frame ⟨2, [("instances", [1, 2]), ("Instances", [3, 4])]⟩ := by decide +kernel

/-- **C90** Sources are absent exactly when there is no source column. -/
theorem C90_absent (lower : String → String) (numeric : Squeezed V → Bool) (str : V → V)
    (t : Table V) : (fromDataFrame lower numeric str t).sources = none ↔
      ∀ c ∈ t.cols, lower c.1 ≠ "source" := by
  simp only [fromDataFrame]
  cases h : t.cols.any fun c => isSource lower c.1 with
  | true =>
    simp only [List.any_eq_true, isSource, beq_iff_eq] at h
    obtain ⟨c, h1, h2⟩ := h
    simp only [↓reduceIte, reduceCtorEq, ne_eq, false_iff]
    exact fun h => h c h1 h2
  | false =>
    simp only [List.any_eq_false, isSource, beq_iff_eq] at h
    simpa using fun a b hab => h (a, b) hab

/-- The full claim of C90. -/
def SourcesPerRow : Prop :=
  ∀ (lower : String → String) (numeric : Squeezed Nat → Bool) (str : Nat → Nat) (t : Table Nat),
    t.Rect → (∃ c ∈ t.cols, lower c.1 = "source") →
    ∃ ls, (fromDataFrame lower numeric str t).sources = some (.series ls) ∧ ls.length = t.nrows

/-- **C90** is false: for a one-row table the sources are a scalar. -/
theorem C90_refuted : ¬ SourcesPerRow := by
  intro h
  obtain ⟨ls, h1, -⟩ := h id (fun _ => false) id ⟨1, [("source", [7])]⟩
    (by intro c hc; simp only [List.mem_cons, List.not_mem_nil, or_false] at hc; subst hc; rfl)
    ⟨_, List.mem_cons_self, rfl⟩
  have h2 : some (Squeezed.scalar 7) = some (Squeezed.series ls) := h1
  cases h2

/-- **C90** exactly: sources are one per row if and only if there is exactly one source column and
the number of rows is not one. -/
theorem C90_exact_partial (lower : String → String) (numeric : Squeezed V → Bool) (str : V → V)
    (t : Table V) (ht : t.Rect) :
    (∃ ls, (fromDataFrame lower numeric str t).sources = some (.series ls) ∧
      ls.length = t.nrows) ↔
      t.cols.countP (fun c => lower c.1 == "source") = 1 ∧ t.nrows ≠ 1 := by
  have hr : (t.loc (isSource lower)).Rect := fun c hc => ht c (List.mem_filter.1 hc).1
  have key := squeeze_series _ hr
  have hlen : (t.loc (isSource lower)).cols.length =
      t.cols.countP (fun c => lower c.1 == "source") := by
    rw [List.countP_eq_length_filter]
    rfl
  rw [hlen] at key
  have hn : (t.loc (isSource lower)).nrows = t.nrows := rfl
  rw [hn] at key
  rw [← key]
  simp only [fromDataFrame]
  split
  · simp
  · next h =>
    simp only [List.any_eq_true, not_exists, not_and, Bool.not_eq_true] at h
    rw [key]
    have : t.cols.countP (fun c => lower c.1 == "source") = 0 := by
      rw [List.countP_eq_zero]
      intro c hc
      have := h c hc
      unfold isSource at this
      simp [this]
    simp [this]

/-! ### C91 -/

/-- **C91** is false: a file that is not valid UTF-8 makes `from_csv_file` raise. -/
theorem C91_refuted (lower : String → String) (numeric : Squeezed V → Bool) (str : V → V) :
    ¬ ∀ r, ∃ m, fromCsvFile lower numeric str r = .value m := by
  intro h
  obtain ⟨m, hm⟩ := h .unicodeDecode
  have h2 : Loaded.raised = Loaded.value m := hm
  cases h2

/-- **C91**, the part that holds: the named failures give `None`, a readable table gives the
metadata of that table.  Missing: other exceptions of pandas, which escape. -/
theorem C91_partial (lower : String → String) (numeric : Squeezed V → Bool) (str : V → V)
    (r : Read V) :
    ((∃ m, fromCsvFile lower numeric str r = .value m) ↔
      r ≠ .unicodeDecode ∧ r ≠ .otherError) ∧
    (∀ m, fromCsvFile lower numeric str r = .value (some m) ↔
      ∃ t, r = .table t ∧ m = fromDataFrame lower numeric str t) := by
  cases r <;> simp [fromCsvFile, eq_comm]

example : fromCsvFile (V := Nat) id (fun _ => true) id .fileNotFound = .value none := rfl

end Verif.Metadata
