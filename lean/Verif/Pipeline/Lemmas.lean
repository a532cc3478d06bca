import Verif.Pipeline.Model
/-! Helper lemmas for the default pipeline. -/
set_option autoImplicit false
set_option linter.unusedSectionVars false

namespace Verif.Pipeline

open Verif.Builder Verif.Runner

/-- What was present or is declared as an output is present in the end. -/
theorem applyAll_present {S N V E T : Type} [DecidableEq N] {P : Pipeline S N V E}
    {outs : S → List (N × T)} (l : List S) :
    ∀ (d d' : Dict N V) (k : Nat),
      (∀ s ∈ l, ∀ k vs out, P.run k s vs = .ok out → ∀ a ∈ outs s, a.1 ∈ out.map Prod.fst) →
      applyAll P k l d = .ok d' → ∀ n, ((d n).isSome ∨ ∃ s ∈ l, ∃ a ∈ outs s, a.1 = n) →
      (d' n).isSome := by
  induction l with
  | nil =>
    intro d d' k _ h n hn
    cases h
    simpa using hn
  | cons s ss ih =>
    intro d d' k hout h n hn
    unfold applyAll at h
    split at h
    · cases h
    · rename_i d1 h1
      refine ih d1 d' (k + 1) (fun t ht => hout t (List.mem_cons_of_mem _ ht)) h n ?_
      unfold applyStage at h1
      split at h1
      · cases h1
      · split at h1
        · cases h1
        · rename_i out hr
          cases h1
          by_cases hm : n ∈ out.map Prod.fst
          · obtain ⟨v, -, hv⟩ := override_of_mem (d := d) hm
            exact .inl (by rw [hv]; rfl)
          · rw [override_of_not_mem hm]
            rcases hn with hn | ⟨t, ht, a, ha, rfl⟩
            · exact .inl hn
            · rcases List.mem_cons.1 ht with rfl | ht
              · exact absurd (hout t List.mem_cons_self _ _ _ hr a ha) hm
              · exact .inr ⟨t, ht, a, ha, rfl⟩

/-- Lookups succeed when every key is present. -/
theorem collect_present {N V : Type} (d : Dict N V) (ns : List N)
    (h : ∀ n ∈ ns, (d n).isSome) : ∃ vs, collect d ns = .ok vs ∧ ns.map d = vs.map some := by
  induction ns with
  | nil => exact ⟨[], rfl, rfl⟩
  | cons n ns ih =>
    obtain ⟨vs, hvs, hm⟩ := ih fun m hm => h m (List.mem_cons_of_mem _ hm)
    obtain ⟨v, hv⟩ := Option.isSome_iff_exists.1 (h n List.mem_cons_self)
    refine ⟨v :: vs, ?_, by simp [hv, hm]⟩
    unfold collect
    simp [hv, hvs]

end Verif.Pipeline
