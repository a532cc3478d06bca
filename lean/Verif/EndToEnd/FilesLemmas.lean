import Verif.EndToEnd.Props
import Verif.EndToEnd.SpecFiles
import Verif.EndToEnd.OrderLemmas
import Verif.Export.PropsFiles
/-! The Model, what the serialiser reads of it, and the files. -/
set_option autoImplicit false
set_option linter.unusedSectionVars false

namespace Verif.EndToEnd

open Verif (Num)
open Verif.Pipeline (Name ModelObj modelOf readPart)
open Verif.Export (Export saveCsv onDisk)
open Verif.Runner (Dict collect)

variable {V W α O : Type}

theorem collect_getElem {X : Type} {d : Dict Name X} {ns : List Name} {vs : List X}
    (h : collect d ns = .ok vs) : ns.map d = vs.map some := by
  induction ns generalizing vs with
  | nil => cases h; rfl
  | cons n ns ih =>
    simp only [collect] at h
    cases hn : d n with
    | none => rw [hn] at h; cases h
    | some v =>
      rw [hn] at h
      dsimp only at h
      cases hc : collect d ns with
      | error e => rw [hc] at h; cases h
      | ok ws =>
        rw [hc] at h
        cases h
        rw [List.map_cons, List.map_cons, hn, ih hc]

theorem readPart_attr {d : Dict Name (Val V W)} {fields : List (String × Name)}
    {part : List (String × Val V W)} (h : readPart d fields = .ok part) (name : String) (n : Name)
    (hl : fields.lookup name = some n) : attr part name = d n := by
  unfold readPart at h
  cases hc : collect d (fields.map Prod.snd) with
  | error e => rw [hc] at h; cases h
  | ok vs =>
    rw [hc] at h
    cases h
    have hv := collect_getElem hc
    clear hc
    induction fields generalizing vs with
    | nil => cases hl
    | cons f fields ih =>
      obtain ⟨fn, fv⟩ := f
      cases vs with
      | nil => cases hv
      | cons v vs =>
        simp only [List.map_cons, List.cons.injEq] at hv
        obtain ⟨h1, h2⟩ := hv
        simp only [List.map_cons, List.zip_cons_cons, attr, List.lookup_cons] at hl ⊢
        cases hb : name == fn with
        | true =>
          rw [hb] at hl
          simp only [Option.some.injEq] at hl
          rw [← hl, h1]
        | false =>
          rw [hb] at hl
          exact ih hl vs h2

theorem modelOf_parts {d : Dict Name (Val V W)} {opts : O} {m : ModelObj (Val V W) O}
    (h : modelOf d opts = .ok m) :
    (readPart d Pipeline.dataFields = .ok m.data ∧ readPart d Pipeline.siftedFields = .ok m.sifted) ∧
      readPart d Pipeline.pilotFields = .ok m.pilot ∧
      readPart d Pipeline.cloisterFields = .ok m.cloister ∧
      readPart d Pipeline.pythiaFields = .ok m.pythia ∧
      readPart d Pipeline.traceFields = .ok m.trace := by
  unfold modelOf at h
  simp only [bind, Except.bind, pure, Except.pure] at h
  repeat' split at h
  all_goals first
    | cases h; done
    | (cases h
       exact ⟨⟨by assumption, by assumption⟩, by assumption, by assumption, by assumption, by assumption⟩)

/-- What the serialiser reads, in terms of the output of the runner. -/
theorem exportOf_eq {tx : Text V α} {rest e : Export α} {d : Dict Name (Val V W)} {opts : O}
    {m : ModelObj (Val V W) O} (hm : modelOf d opts = .ok m) (he : exportOf tx rest m = some e) :
    ∃ inst x y xr yr yb n beta p,
      d .inst_labels = some (.labels inst) ∧ d .feat_labels = some (.names e.featLabels) ∧
      d .algo_labels = some (.names e.algoLabels) ∧ d .x = some (.table x) ∧ d .y = some (.table y) ∧
      d .x_raw = some (.table xr) ∧ d .y_raw = some (.table yr) ∧ d .y_bin = some (.verdicts yb) ∧
      d .num_good_algos = some (.counts n) ∧ d .beta = some (.flags beta) ∧ d .p = some (.counts p) ∧
      d .idx = some (.counts e.idx) ∧
      e.instLabels = inst.map tx.label ∧ e.x = x.rows.map (·.map tx.num) ∧
      e.y = y.rows.map (·.map tx.num) ∧ e.xRaw = xr.rows.map (·.map tx.num) ∧
      e.yRaw = yr.rows.map (·.map tx.num) ∧ e.yBin = yb.map (·.map tx.bool) ∧
      e.numGood = n.map tx.count ∧ e.beta = beta.map tx.bool ∧ e.p = p.map tx.count := by
  obtain ⟨⟨h1, h2⟩, -⟩ := modelOf_parts hm
  unfold exportOf at he
  rw [readPart_attr h1 "inst_labels" .inst_labels rfl, readPart_attr h1 "feat_labels" .feat_labels rfl,
    readPart_attr h1 "algo_labels" .algo_labels rfl, readPart_attr h1 "x" .x rfl,
    readPart_attr h1 "y" .y rfl, readPart_attr h1 "x_raw" .x_raw rfl,
    readPart_attr h1 "y_raw" .y_raw rfl, readPart_attr h1 "y_bin" .y_bin rfl,
    readPart_attr h1 "num_good_algos" .num_good_algos rfl, readPart_attr h1 "beta" .beta rfl,
    readPart_attr h1 "p" .p rfl, readPart_attr h2 "idx" .idx rfl] at he
  split at he
  · cases he
    exact ⟨_, _, _, _, _, _, _, _, _, by assumption, by assumption, by assumption, by assumption,
      by assumption, by assumption, by assumption, by assumption, by assumption, by assumption,
      by assumption, by assumption, rfl, rfl, rfl, rfl, rfl, rfl, rfl, rfl, rfl⟩
  · cases he

/-- From the content of a file to what it says about the rows of the table. -/
theorem shows_of_holds {files : List (String × Export.File α)} {file : String}
    {names headings instNames : List String} {rows : List Nat} {P : Nat → String → α → Prop}
    {cells : Nat → Nat → Option α} (h : Export.Holds files file headings instNames cells)
    (hn : instNames = Preprocessing.pick names rows) (hr : ∀ i ∈ rows, i < names.length)
    (hc : ∀ (k i j : Nat) (a : String) (c : α), rows[k]? = some i → headings[j]? = some a →
      cells k j = some c → P i a c) : FileShows files file names headings rows P := by
  obtain ⟨tb, h1, h2, h3, h4⟩ := h
  have hl : tb.rows.length = rows.length := by
    have := congrArg List.length h3
    rw [List.length_map, hn, Preprocessing.pick_length _ _ hr] at this
    exact this
  refine ⟨tb, h1, h2, hl, ?_⟩
  intro k i hki
  have hk : k < rows.length := (List.getElem?_eq_some_iff.1 hki).1
  have hk' : k < tb.rows.length := by omega
  refine ⟨(tb.rows[k]).1, (tb.rows[k]).2, List.getElem?_eq_getElem hk', ?_, ?_⟩
  · have := congrArg (fun l => l[k]?) h3
    simp only [List.getElem?_map, List.getElem?_eq_getElem hk', Option.map_some] at this
    rw [hn, Preprocessing.pick_getElem? _ _ hr, hki] at this
    exact this.symm
  · intro j a hj
    have hjl := (List.getElem?_eq_some_iff.1 hj).1
    have hkn : k < instNames.length := by rw [hn, Preprocessing.pick_length _ _ hr]; exact hk
    obtain ⟨c, h5, h6⟩ := h4 k j hkn hjl
    rw [List.getElem?_eq_getElem hk'] at h5
    exact ⟨c, h5, hc k i j a c hki hj h6⟩

theorem increasing_all {l : List Nat} {n : Nat} (hl : l.Pairwise (· < ·)) (hb : ∀ i ∈ l, i < n)
    (hn : l.length = n) : l = List.range n := by
  have hnd : l.Nodup := hl.imp fun h => Nat.ne_of_lt h
  have hsub : l.Subperm (List.range n) := (List.subperm_of_subset hnd fun i hi => by simpa using hb i hi)
  have hp : l.Perm (List.range n) := hsub.perm_of_length_le (by simp [hn])
  exact hp.eq_of_pairwise (fun a b _ _ h1 h2 => by omega) hl List.pairwise_lt_range

end Verif.EndToEnd
