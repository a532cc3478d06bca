import Verif.Wiring.Model
import Mathlib.Data.List.Nodup
/-!
# Lemmas about the binding of arguments
-/
set_option autoImplicit false
set_option linter.unusedSectionVars false

namespace Verif.Wiring

variable {V : Type} {I : String → List (Option V) → Option V}

theorem start_valuesOf (b : List (String × Expr)) (f : Frame V) (q : String) :
    start (valuesOf I b f) q = (b.lookup q).bind fun e => e.eval I f := by
  induction b with
  | nil => rfl
  | cons p b ih =>
    obtain ⟨k, e⟩ := p
    unfold start valuesOf at ih ⊢
    simp only [List.map_cons, List.lookup_cons]
    cases h : q == k
    · simpa [h] using ih
    · simp

theorem lookup_append (b c : List (String × Expr)) (q : String) :
    (b ++ c).lookup q = (b.lookup q).or (c.lookup q) := by
  induction b with
  | nil => simp
  | cons p b ih =>
    obtain ⟨k, e⟩ := p
    simp only [List.cons_append, List.lookup_cons]
    cases h : q == k <;> simp [ih]

theorem lookup_none {b : List (String × Expr)} {q : String} (h : q ∉ b.map Prod.fst) :
    b.lookup q = none := by
  induction b with
  | nil => rfl
  | cons p b ih =>
    obtain ⟨k, e⟩ := p
    simp only [List.map_cons, List.mem_cons, not_or] at h
    rw [List.lookup_cons, beq_false_of_ne h.1]
    exact ih h.2

theorem lookup_nodup {b : List (String × Expr)} (hb : (b.map Prod.fst).Nodup) {q : String} {e : Expr}
    (h : (q, e) ∈ b) : b.lookup q = some e := by
  induction b with
  | nil => simp at h
  | cons p b ih =>
    obtain ⟨k, e'⟩ := p
    simp only [List.map_cons, List.nodup_cons] at hb
    rcases List.mem_cons.1 h with h1 | h1
    · cases h1
      simp
    · have hk : q ≠ k := by
        rintro rfl
        exact hb.1 (List.mem_map.2 ⟨(q, e), h1, rfl⟩)
      rw [List.lookup_cons, beq_false_of_ne hk]
      exact ih hb.2 h1

theorem map_fst_zip (ps : List String) (es : List Expr) :
    (ps.zip es).map Prod.fst = ps.take es.length := by
  induction ps generalizing es with
  | nil => simp
  | cons p ps ih => cases es <;> simp [ih]

theorem start_positional {ps : List String} {es : List Expr} {kw : List (String × Expr)} {f : Frame V}
    (hs : ps.Nodup) {i : Nat} {q : String} {e : Expr} (hq : ps[i]? = some q) (he : es[i]? = some e) :
    start (valuesOf I (ps.zip es ++ kw) f) q = e.eval I f := by
  rw [start_valuesOf, lookup_append]
  have hz : (ps.zip es)[i]? = some (q, e) := by
    rw [List.getElem?_zip_eq_some]; exact ⟨hq, he⟩
  have hn : ((ps.zip es).map Prod.fst).Nodup := by
    rw [map_fst_zip]
    exact hs.sublist (List.take_sublist _ _)
  rw [lookup_nodup hn (List.mem_of_getElem? hz)]
  simp

theorem start_keyword {ps : List String} {es : List Expr} {kw : List (String × Expr)} {f : Frame V}
    (hn : (kw.map Prod.fst).Nodup) (hk : ∀ k ∈ kw.map Prod.fst, k ∉ ps.take es.length) {q : String} {e : Expr}
    (h : (q, e) ∈ kw) : start (valuesOf I (ps.zip es ++ kw) f) q = e.eval I f := by
  rw [start_valuesOf, lookup_append]
  have hz : (ps.zip es).lookup q = none := by
    refine lookup_none fun hm => hk q (List.mem_map.2 ⟨(q, e), h, rfl⟩) ?_
    rwa [map_fst_zip] at hm
  rw [hz, lookup_nodup hn h]
  simp

end Verif.Wiring
