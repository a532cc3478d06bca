import Verif.Export.Mat
import Mathlib.Data.List.Forall2
/-!
# C188: the labels in the MATLAB file
-/
set_option autoImplicit false
set_option linter.unusedSectionVars false

namespace Verif.Export

/-! ### Specification -/

/-- `r` is `l` followed by spaces. -/
def FilledUp (l r : List Char) : Prop := ∃ k, r = l ++ List.replicate k ' '

/-- The label does not end with a space. -/
def EndsVisibly (l : List Char) : Prop := l.getLast? ≠ some ' '

/-- A matrix: all rows have one length. -/
def Rectangular (rows : List (List Char)) : Prop := ∃ n, ∀ r ∈ rows, r.length = n

/-- The full claim: the file determines the labels. -/
def LabelsRecoverable : Prop :=
  ∀ labels labels' : List (List Char), matRows labels = matRows labels' → labels = labels'

/-! ### Proofs -/

theorem le_widest {labels : List (List Char)} {l : List Char} (h : l ∈ labels) : l.length ≤ widest labels := by
  induction labels with
  | nil => cases h
  | cons a ls ih =>
    unfold widest
    rcases List.mem_cons.1 h with rfl | h
    · exact Nat.le_max_left _ _
    · exact Nat.le_trans (ih h) (Nat.le_max_right _ _)

theorem filled_unique {l l' : List Char} {i j : Nat} (h : EndsVisibly l) (h' : EndsVisibly l')
    (e : l ++ List.replicate i ' ' = l' ++ List.replicate j ' ') : l = l' := by
  induction i generalizing j with
  | zero =>
    cases j with
    | zero => simpa using e
    | succ j =>
      exfalso
      apply h
      rw [List.replicate_zero, List.append_nil] at e
      rw [e, List.replicate_succ', ← List.append_assoc, List.getLast?_concat]
  | succ i ih =>
    cases j with
    | zero =>
      exfalso
      apply h'
      rw [List.replicate_zero, List.append_nil] at e
      rw [← e, List.replicate_succ', ← List.append_assoc, List.getLast?_concat]
    | succ j =>
      rw [List.replicate_succ', List.replicate_succ', ← List.append_assoc, ← List.append_assoc] at e
      exact ih (List.append_inj_left' e rfl)

/-- The rows of the file are the labels, in order, filled up with spaces to one length, the length of the
longest label. -/
theorem C188_rows_partial (labels : List (List Char)) :
    Rectangular (matRows labels) ∧ List.Forall₂ FilledUp labels (matRows labels) ∧
      (labels ≠ [] → ∃ l ∈ labels, l ∈ matRows labels ∧ ∀ r ∈ matRows labels, r.length = l.length) := by
  have hlen : ∀ r ∈ matRows labels, r.length = widest labels := by
    intro r hr
    obtain ⟨l, hl, rfl⟩ := List.mem_map.1 hr
    have := le_widest hl
    simp only [padded, List.length_append, List.length_replicate]
    omega
  refine ⟨⟨_, hlen⟩, ?_, ?_⟩
  · unfold matRows
    rw [List.forall₂_map_right_iff]
    exact List.forall₂_same.2 fun l _ => ⟨_, rfl⟩
  · intro hne
    have : ∃ l ∈ labels, l.length = widest labels := by
      clear hlen
      induction labels with
      | nil => exact absurd rfl hne
      | cons a ls ih =>
        unfold widest
        by_cases hls : ls = []
        · subst hls
          exact ⟨a, by simp, by simp [widest]⟩
        · obtain ⟨l, hl, e⟩ := ih hls
          rcases Nat.le_total a.length (widest ls) with h | h
          · exact ⟨l, List.mem_cons_of_mem _ hl, by rw [e, Nat.max_eq_right h]⟩
          · exact ⟨a, by simp, (Nat.max_eq_left h).symm⟩
    obtain ⟨l, hl, e⟩ := this
    refine ⟨l, hl, List.mem_map.2 ⟨l, hl, ?_⟩, fun r hr => by rw [hlen r hr, e]⟩
    simp [padded, e]

/-- Labels that do not end with a space are determined by the file. -/
theorem C188_recover_partial (labels labels' : List (List Char)) (h : ∀ l ∈ labels, EndsVisibly l)
    (h' : ∀ l ∈ labels', EndsVisibly l) (e : matRows labels = matRows labels') : labels = labels' := by
  unfold matRows at e
  generalize widest labels = n at e
  generalize widest labels' = m at e
  induction labels generalizing labels' with
  | nil =>
    cases labels' with
    | nil => rfl
    | cons => simp at e
  | cons a ls ih =>
    cases labels' with
    | nil => simp at e
    | cons b ls' =>
      simp only [List.map_cons, List.cons.injEq] at e
      rw [filled_unique (h a (by simp)) (h' b (by simp)) e.1,
        ih ls' (fun l hl => h l (by simp [hl])) (fun l hl => h' l (by simp [hl])) e.2]

/-- **C188 is false**: a label that ends with a space is written like the label without it. -/
theorem C188_refuted : ¬ LabelsRecoverable := by
  intro h
  have := h ["algo_a".toList, "algo_b ".toList] ["algo_a ".toList, "algo_b ".toList] (by decide)
  exact absurd this (by decide)

/-- Non-vacuity for C188: two labels of different lengths. -/
example : (∀ l ∈ ["algo_knn".toList, "algo_c45x".toList], EndsVisibly l) ∧
    matRows ["algo_knn".toList, "algo_c45x".toList] = ["algo_knn ".toList, "algo_c45x".toList] := by
  unfold EndsVisibly
  decide

end Verif.Export
