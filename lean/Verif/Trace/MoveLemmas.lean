import Verif.Trace.SpecMove
import Verif.Trace.PropsBuild
import Verif.Dbscan.Props
import Verif.Dbscan.RadiusLemmas
/-!
# Lemmas for C221: DBSCAN and the building of footprints on a moved picture
-/
set_option autoImplicit false
set_option linter.unusedSectionVars false

namespace Verif.Trace

variable {G P K : Type} [Field K] [LinearOrder K] [IsStrictOrderedRing K]

/-- What the proof needs of the neighbourhoods (trace.py:833-857, 918). -/
structure NearFollows (geo : Geo G P K) (φ : P → P) : Prop where
  symm : ∀ l k i j, i < l.length → j < l.length → geo.near l k i j = geo.near l k j i
  refl : ∀ l k i, i < l.length → geo.near l k i i = true
  moves : ∀ (l l' : List P) (k i j i' j' : Nat) (a b : P), l'.Perm (l.map φ) → l[i]? = some a → l[j]? = some b →
    l'[i']? = some (φ a) → l'[j']? = some (φ b) → geo.near l' k i' j' = geo.near l k i j

/-! ### The geometry -/

section
variable {geo : Geo G P K} {φ : P → P} {Φ : G → G} (hf : Follows geo φ Φ)
include hf

theorem count_move (g : G) (l : List P) : count geo (Φ g) (l.map φ) = count geo g l := by
  unfold count
  rw [List.filter_map, List.length_map]
  congr 1
  refine List.filter_congr fun q _ => ?_
  exact hf.contains g q

omit hf in
theorem masked_map_left {α β : Type} (f : α → β) : ∀ (l : List α) (m : List Bool),
    masked (l.map f) m = (masked l m).map f
  | [], m => by cases m <;> rfl
  | _ :: _, [] => rfl
  | a :: l, b :: m => by
    simp only [List.map_cons, masked, masked_map_left f l m]
    split <;> simp

theorem prune_move (purity : K) (z : List P) (y : List Bool) (g t : G) :
    prune geo purity (z.map φ) y (Φ g) (Φ t) = Φ (prune geo purity z y g t) := by
  unfold prune
  simp only [hf.hull, count_move hf, masked_map_left, hf.diff]
  split <;> rfl

theorem foldl_prune_move (purity : K) (z : List P) (y : List Bool) : ∀ (ts : List G) (g : G),
    (ts.map Φ).foldl (prune geo purity (z.map φ) y) (Φ g) = Φ (ts.foldl (prune geo purity z y) g)
  | [], _ => rfl
  | t :: ts, g => by
    rw [List.map_cons, List.foldl_cons, List.foldl_cons, prune_move hf, foldl_prune_move purity z y ts]

omit hf in
theorem prune_comm (ho : Orderless geo) (purity : K) (z : List P) (y : List Bool) (g t t' : G) :
    prune geo purity z y (prune geo purity z y g t) t' =
      prune geo purity z y (prune geo purity z y g t') t := by
  unfold prune
  dsimp only
  split_ifs
  · exact ho.diff g t t'
  · rfl
  · rfl
  · rfl

theorem fitPoly_move (ho : Orderless geo) (purity : K) (z : List P) (y : List Bool) (l : List P) :
    fitPoly geo purity (z.map φ) (l.map φ) y = (fitPoly geo purity z l y).map Φ := by
  have hp : ∀ g, (geo.triangulate (Φ g)).foldl (prune geo purity (z.map φ) y) (Φ g) =
      Φ ((geo.triangulate g).foldl (prune geo purity z y) g) := by
    intro g
    rw [← foldl_prune_move hf]
    refine (hf.triangulate g).foldl_eq' (fun a _ b _ c => ?_) _
    exact prune_comm ho purity _ y c a b
  unfold fitPoly
  simp only [List.length_map, hf.alpha, hf.isEmpty, hp]
  split
  · rfl
  · split
    · rfl
    · split <;> rfl

theorem fromPolygon_move (z : List P) (y : List Bool) (s : Bool) (g : Option G) :
    fromPolygon geo (g.map Φ) (z.map φ) y s = moved Φ (fromPolygon geo g z y s) := by
  cases g with
  | none => rfl
  | some g =>
    unfold fromPolygon moved
    cases s
    · simp [count_move hf, masked_map_left, hf.area]
    · simp [count_move hf, masked_map_left, hf.area, hf.smooth]

end

/-! ### The union of the clusters -/

theorem fitPoly_data_perm {geo : Geo G P K} (ho : Orderless geo) (purity : K) (z : List P) (y : List Bool)
    {l l' : List P} (h : l.Perm l') : fitPoly geo purity z l y = fitPoly geo purity z l' y := by
  unfold fitPoly
  rw [h.length_eq, ho.alpha l l' h]

/-- One step of the loop over the clusters, trace.py:549-555. -/
def join (geo : Geo G P K) (acc o : Option G) : Option G :=
  match o with
  | none => acc
  | some aux => if geo.isEmpty aux then acc else
    match acc with
    | none => some aux
    | some b => some (geo.union b aux)

theorem body_join (geo : Geo G P K) (purity : K) (z : List P) (y : List Bool) (pts : List P)
    (labels : List Int) : ∀ (is : List Nat) (acc : Option G), body geo purity z y pts labels is acc =
      (is.map fun (i : Nat) => fitPoly geo purity z (labelled pts labels i) y).foldl (join geo) acc
  | [], _ => rfl
  | i :: is, acc => by
    rw [body, List.map_cons, List.foldl_cons]
    cases hx : fitPoly geo purity z (labelled pts labels i) y with
    | none => exact body_join geo purity z y pts labels is acc
    | some aux =>
      simp only [join]
      split
      · exact body_join geo purity z y pts labels is acc
      · cases acc with
        | none => exact body_join geo purity z y pts labels is _
        | some b => exact body_join geo purity z y pts labels is _

theorem join_comm {geo : Geo G P K} (ho : Orderless geo) (a o o' : Option G) :
    join geo (join geo a o) o' = join geo (join geo a o') o := by
  cases o with
  | none => cases o' <;> rfl
  | some x =>
    cases o' with
    | none => rfl
    | some y =>
      simp only [join]
      cases hx : geo.isEmpty x <;> cases hy : geo.isEmpty y <;> cases a with
      | none => simp [ho.comm x y]
      | some b => simp [ho.assoc b x y, ho.assoc b y x, ho.comm x y]

theorem join_move {geo : Geo G P K} {φ : P → P} {Φ : G → G} (hf : Follows geo φ Φ) (a o : Option G) :
    join geo (a.map Φ) (o.map Φ) = (join geo a o).map Φ := by
  cases o with
  | none => rfl
  | some x =>
    simp only [join, Option.map_some, hf.isEmpty]
    split
    · rfl
    · cases a with
      | none => rfl
      | some b => simp [hf.union]

theorem foldl_join_move {geo : Geo G P K} {φ : P → P} {Φ : G → G} (hf : Follows geo φ Φ) :
    ∀ (l : List (Option G)) (a : Option G),
    (l.map (Option.map Φ)).foldl (join geo) (a.map Φ) = (l.foldl (join geo) a).map Φ
  | [], _ => rfl
  | o :: l, a => by
    rw [List.map_cons, List.foldl_cons, List.foldl_cons, join_move hf, foldl_join_move hf l]

/-! ### The clusters -/

theorem mem_labelled {pts : List P} {labels : List Int} {c : Int} {q : P} :
    q ∈ labelled pts labels c ↔ ∃ i : Nat, pts[i]? = some q ∧ labels[i]? = some c := by
  rw [labelled_eq_selected]
  unfold selected
  simp only [List.mem_map, List.mem_filter, decide_eq_true_eq]
  constructor
  · rintro ⟨⟨a, b⟩, ⟨h1, h2⟩, h3⟩
    obtain ⟨i, hi⟩ := List.mem_iff_getElem?.1 h1
    rw [List.getElem?_zip_eq_some] at hi
    exact ⟨i, h3 ▸ hi.1, h2 ▸ hi.2⟩
  · rintro ⟨i, h1, h2⟩
    exact ⟨(q, c), ⟨List.mem_iff_getElem?.2 ⟨i, List.getElem?_zip_eq_some.2 ⟨h1, h2⟩⟩, rfl⟩, rfl⟩

theorem labelled_nodup {pts : List P} {labels : List Int} (c : Int) (h : pts.Nodup) :
    (labelled pts labels c).Nodup := by
  have : ∀ {α : Type} (l : List α) (m : List Bool), (masked l m).Sublist l := by
    intro α l
    induction l with
    | nil => intro m; cases m <;> exact List.Sublist.refl _
    | cons a l ih =>
      intro m
      cases m with
      | nil => exact List.nil_sublist _
      | cons b m =>
        simp only [masked]
        split
        · exact (ih m).cons_cons a
        · exact (ih m).cons a
  exact (this _ _).nodup h

/-- The numbers of the clusters. -/
theorem mem_numbers {near : Nat → Nat → Bool} {m k : Nat} (hs : ∀ a b, a < m → b < m → near a b = near b a)
    (hr : ∀ a, a < m → near a a = true) {c : Nat} :
    c ∈ (List.range ((Dbscan.dbscan near m k).foldl max (-1)).toNat).map (· + 1) ↔
      1 ≤ c ∧ ∃ p : Nat, (Dbscan.dbscan near m k)[p]? = some (c : Int) := by
  obtain ⟨-, h2, h3⟩ := foldl_max_spec (Dbscan.dbscan near m k) (-1)
  generalize hT : (Dbscan.dbscan near m k).foldl max (-1) = T at h2 h3
  simp only [List.mem_map, List.mem_range]
  constructor
  · rintro ⟨a, ha, rfl⟩
    refine ⟨by omega, ?_⟩
    rcases h3 with h3 | h3
    · omega
    · obtain ⟨p, hp⟩ := List.mem_iff_getElem?.1 h3
      obtain ⟨q, -, hq⟩ := Dbscan.C58_no_gaps hs hr p T ((a + 1 : Nat) : Int) hp (by omega) (by omega)
      exact ⟨q, hq⟩
  · rintro ⟨h1, p, hp⟩
    have := h2 c (List.mem_iff_getElem?.2 ⟨p, hp⟩)
    exact ⟨c - 1, by omega, by omega⟩

section
variable {near near' : Nat → Nat → Bool} {m k : Nat} {π : Nat → Nat}

theorem linked_move (hπ : ∀ a, a < m → π a < m) (hn : ∀ a b, a < m → b < m → near' (π a) (π b) = near a b) {p q : Nat}
    (hp : p < m) (h : Dbscan.Linked near m p q) : Dbscan.Linked near' m (π p) (π q) ∧ q < m := by
  unfold Dbscan.Linked at h ⊢
  induction h with
  | refl => exact ⟨.refl, hp⟩
  | tail h1 h2 ih =>
    exact ⟨ih.1.tail ⟨hπ _ h2.1, by rw [hn _ _ ih.2 h2.1]; exact h2.2⟩, h2.1⟩

theorem core_move (hπ : ∀ a, a < m → π a < m) (hinj : ∀ a b, a < m → b < m → π a = π b → a = b)
    (hn : ∀ a b, a < m → b < m → near' (π a) (π b) = near a b) {q : Nat} (hq : q < m)
    (h : Dbscan.Core near m k q) : Dbscan.Core near' m k (π q) := by
  unfold Dbscan.Core at h ⊢
  refine le_trans h ?_
  rw [← Finset.card_image_of_injOn (f := π) (s := (Finset.range m).filter fun r => near q r = true)]
  · refine Finset.card_le_card fun r hr => ?_
    obtain ⟨a, ha, rfl⟩ := Finset.mem_image.1 hr
    simp only [Finset.mem_filter, Finset.mem_range] at ha ⊢
    exact ⟨hπ a ha.1, by rw [hn q a hq ha.1]; exact ha.2⟩
  · intro a ha b hb hab
    simp only [Finset.coe_filter, Finset.mem_range, Set.mem_ofPred_eq] at ha hb
    exact hinj a b ha.1 hb.1 hab

theorem clustered_move (hπ : ∀ a, a < m → π a < m) (hinj : ∀ a b, a < m → b < m → π a = π b → a = b)
    (hn : ∀ a b, a < m → b < m → near' (π a) (π b) = near a b) {p : Nat} (hp : p < m)
    (h : Dbscan.Clustered near m k p) : Dbscan.Clustered near' m k (π p) := by
  obtain ⟨q, h1, h2⟩ := h
  obtain ⟨h3, h4⟩ := linked_move hπ hn hp h1
  exact ⟨π q, h3, core_move hπ hinj hn h4 h2⟩

/-- Points in the same cluster are in the same cluster after the move. -/
theorem same_move (hs : ∀ a b, a < m → b < m → near a b = near b a) (hr : ∀ a, a < m → near a a = true)
    (hs' : ∀ a b, a < m → b < m → near' a b = near' b a) (hr' : ∀ a, a < m → near' a a = true)
    (hπ : ∀ a, a < m → π a < m) (hinj : ∀ a b, a < m → b < m → π a = π b → a = b)
    (hn : ∀ a b, a < m → b < m → near' (π a) (π b) = near a b) {p q : Nat} (hp : p < m) (hq : q < m) {c : Int}
    (hc : 1 ≤ c) (h1 : (Dbscan.dbscan near m k)[p]? = some c) (h2 : (Dbscan.dbscan near m k)[q]? = some c) :
    ∃ c', 1 ≤ c' ∧ (Dbscan.dbscan near' m k)[π p]? = some c' ∧ (Dbscan.dbscan near' m k)[π q]? = some c' := by
  obtain ⟨h3, h4⟩ := (Dbscan.C58_same_label hs hr p q hp hq).1 ⟨c, hc, h1, h2⟩
  exact (Dbscan.C58_same_label hs' hr' (π p) (π q) (hπ p hp) (hπ q hq)).2
    ⟨(linked_move hπ hn hp h3).1, clustered_move hπ hinj hn hp h4⟩

end

theorem index_of_mem {l : List P} {q : P} (h : q ∈ l) : ∃ i, i < l.length ∧ l[i]? = some q := by
  obtain ⟨i, hi⟩ := List.mem_iff_getElem?.1 h
  exact ⟨i, (List.getElem?_eq_some_iff.1 hi).1, hi⟩

theorem index_unique {l : List P} (h : l.Nodup) {i j : Nat} {q : P} (hi : l[i]? = some q) (hj : l[j]? = some q) :
    i = j := by
  obtain ⟨h1, h2⟩ := List.getElem?_eq_some_iff.1 hi
  obtain ⟨h3, h4⟩ := List.getElem?_eq_some_iff.1 hj
  exact (List.Nodup.getElem_inj_iff h).1 (h2.trans h4.symm)

/-- The clusters of the moved points are the moved clusters, up to their numbers. -/
theorem clusters_move {near near' : Nat → Nat → Bool} {k : Nat} {pts pts' : List P} {φ : P → P}
    (hd : pts.Nodup) (hd' : pts'.Nodup) (hφ : Function.Injective φ) (hp : pts'.Perm (pts.map φ))
    (hs : ∀ a b, a < pts.length → b < pts.length → near a b = near b a)
    (hr : ∀ a, a < pts.length → near a a = true)
    (hs' : ∀ a b, a < pts.length → b < pts.length → near' a b = near' b a)
    (hr' : ∀ a, a < pts.length → near' a a = true)
    (hn : ∀ i j i' j' a b, pts[i]? = some a → pts[j]? = some b → pts'[i']? = some (φ a) →
      pts'[j']? = some (φ b) → near' i' j' = near i j) :
    ∃ σ : Nat → Nat,
      (((List.range ((Dbscan.dbscan near pts.length k).foldl max (-1)).toNat).map (· + 1)).map σ).Perm
        ((List.range ((Dbscan.dbscan near' pts.length k).foldl max (-1)).toNat).map (· + 1)) ∧
      ∀ c ∈ (List.range ((Dbscan.dbscan near pts.length k).foldl max (-1)).toNat).map (· + 1),
        (labelled pts' (Dbscan.dbscan near' pts.length k) (σ c)).Perm
          ((labelled pts (Dbscan.dbscan near pts.length k) (c : Int)).map φ) := by
  classical
  have hlen : pts'.length = pts.length := by rw [hp.length_eq, List.length_map]
  set m := pts.length with hm
  have hget : ∀ a, a < m → ∃ q, pts[a]? = some q := fun a ha => ⟨_, List.getElem?_eq_getElem ha⟩
  have hto : ∀ a, ∃ a', a < m → a' < m ∧ ∃ q, pts[a]? = some q ∧ pts'[a']? = some (φ q) := by
    intro a
    by_cases ha : a < m
    · obtain ⟨q, hq⟩ := hget a ha
      obtain ⟨a', h1, h2⟩ := index_of_mem (hp.mem_iff.2 (List.mem_map_of_mem (List.mem_of_getElem? hq)))
      exact ⟨a', fun _ => ⟨hlen ▸ h1, q, hq, h2⟩⟩
    · exact ⟨0, fun h => absurd h ha⟩
  have hback : ∀ a', ∃ a, a' < m → a < m ∧ ∃ q, pts[a]? = some q ∧ pts'[a']? = some (φ q) := by
    intro a'
    by_cases ha : a' < m
    · have h1 : pts'[a']? = some (pts'[a']'(by omega)) := List.getElem?_eq_getElem _
      obtain ⟨q, hq, he⟩ := List.mem_map.1 (hp.mem_iff.1 (List.mem_of_getElem? h1))
      obtain ⟨a, h2, h3⟩ := index_of_mem hq
      exact ⟨a, fun _ => ⟨h2, q, h3, he ▸ h1⟩⟩
    · exact ⟨0, fun h => absurd h ha⟩
  choose π hπ using hto
  choose ρ hρ using hback
  have hπρ : ∀ a, a < m → π (ρ a) = a := by
    intro a ha
    obtain ⟨h1, q, h2, h3⟩ := hρ a ha
    obtain ⟨-, q', h5, h6⟩ := hπ _ h1
    rw [h2, Option.some.injEq] at h5
    subst h5
    exact index_unique hd' h6 h3
  have hρπ : ∀ a, a < m → ρ (π a) = a := by
    intro a ha
    obtain ⟨h1, q, h2, h3⟩ := hπ a ha
    obtain ⟨-, q', h5, h6⟩ := hρ _ h1
    rw [h3, Option.some.injEq] at h6
    rw [← hφ h6] at h5
    exact index_unique hd h5 h2
  have hnπ : ∀ a b, a < m → b < m → near' (π a) (π b) = near a b := by
    intro a b ha hb
    obtain ⟨-, q, h1, h2⟩ := hπ a ha
    obtain ⟨-, r, h3, h4⟩ := hπ b hb
    exact hn a b _ _ q r h1 h3 h2 h4
  have hnρ : ∀ a b, a < m → b < m → near (ρ a) (ρ b) = near' a b := by
    intro a b ha hb
    rw [← hnπ _ _ (hρ a ha).1 (hρ b hb).1, hπρ a ha, hπρ b hb]
  have hiπ : ∀ a b, a < m → b < m → π a = π b → a = b := fun a b ha hb h => by
    rw [← hρπ a ha, h, hρπ b hb]
  have hiρ : ∀ a b, a < m → b < m → ρ a = ρ b → a = b := fun a b ha hb h => by
    rw [← hπρ a ha, h, hπρ b hb]
  set D := Dbscan.dbscan near m k with hD
  set D' := Dbscan.dbscan near' m k with hD'
  have hDl : D.length = m := (Dbscan.C58_clustered (k := k) hs hr).1
  have hDl' : D'.length = m := (Dbscan.C58_clustered (k := k) hs' hr').1
  have lt : ∀ p c, D[p]? = some c → p < m := fun p c h => hDl ▸ (List.getElem?_eq_some_iff.1 h).1
  have lt' : ∀ p c, D'[p]? = some c → p < m := fun p c h => hDl' ▸ (List.getElem?_eq_some_iff.1 h).1
  have fwd : ∀ p q c, 1 ≤ c → D[p]? = some c → D[q]? = some c →
      ∃ c', 1 ≤ c' ∧ D'[π p]? = some c' ∧ D'[π q]? = some c' := fun p q c hc h1 h2 =>
    same_move hs hr hs' hr' (fun a ha => (hπ a ha).1) hiπ hnπ (lt p c h1) (lt q c h2) hc h1 h2
  have bwd : ∀ p q c, 1 ≤ c → D'[p]? = some c → D'[q]? = some c →
      ∃ c', 1 ≤ c' ∧ D[ρ p]? = some c' ∧ D[ρ q]? = some c' := fun p q c hc h1 h2 =>
    same_move hs' hr' hs hr (fun a ha => (hρ a ha).1) hiρ hnρ (lt' p c h1) (lt' q c h2) hc h1 h2
  have hσ : ∀ c : Nat, ∃ c' : Nat, 1 ≤ c → (∃ p : Nat, D[p]? = some (c : Int)) → 1 ≤ c' ∧
      ∀ p : Nat, D[p]? = some (c : Int) → D'[π p]? = some (c' : Int) := by
    intro c
    by_cases h : 1 ≤ c ∧ ∃ p : Nat, D[p]? = some (c : Int)
    · obtain ⟨hc, p, hp⟩ := h
      obtain ⟨c', h1, h2, -⟩ := fwd p p c (by exact_mod_cast hc) hp hp
      refine ⟨c'.toNat, fun _ _ => ⟨by omega, fun q hq => ?_⟩⟩
      obtain ⟨c'', h3, h4, h5⟩ := fwd p q c (by exact_mod_cast hc) hp hq
      rw [h2, Option.some.injEq] at h4
      rw [h5, ← h4]
      congr 1; omega
    · exact ⟨0, fun h1 h2 => absurd ⟨h1, h2⟩ h⟩
  choose σ hσ using hσ
  refine ⟨σ, ?_, ?_⟩
  · rw [List.perm_ext_iff_of_nodup]
    · intro c'
      rw [mem_numbers hs' hr', List.mem_map]
      constructor
      · rintro ⟨c, hc, rfl⟩
        rw [mem_numbers hs hr] at hc
        obtain ⟨h1, h2⟩ := hσ c hc.1 hc.2
        obtain ⟨p, hp⟩ := hc.2
        exact ⟨h1, _, h2 p hp⟩
      · rintro ⟨h1, p, hp⟩
        obtain ⟨c, h2, h3, -⟩ := bwd p p c' (by exact_mod_cast h1) hp hp
        have h4 : D[ρ p]? = some ((c.toNat : Nat) : Int) := by
          rw [h3]; congr 1; omega
        refine ⟨c.toNat, (mem_numbers hs hr).2 ⟨by omega, _, h4⟩, ?_⟩
        have h5 := (hσ c.toNat (by omega) ⟨_, h4⟩).2 _ h4
        rw [hπρ p (lt' _ _ hp), hp, Option.some.injEq] at h5
        exact_mod_cast h5.symm
    · refine List.Nodup.map_on ?_ (List.Nodup.map (fun a b h => by simpa using h) List.nodup_range)
      intro c hc d hd' hcd
      rw [mem_numbers hs hr] at hc hd'
      obtain ⟨h1, h2⟩ := hσ c hc.1 hc.2
      obtain ⟨h3, h4⟩ := hσ d hd'.1 hd'.2
      obtain ⟨p, hp⟩ := hc.2
      obtain ⟨q, hq⟩ := hd'.2
      have h5 := h2 p hp
      have h6 := h4 q hq
      rw [← hcd] at h6
      obtain ⟨e, -, h7, h8⟩ := bwd _ _ _ (by exact_mod_cast h1) h5 h6
      rw [hρπ p (lt _ _ hp), hp, Option.some.injEq] at h7
      rw [hρπ q (lt _ _ hq), hq, Option.some.injEq] at h8
      exact_mod_cast h7.trans h8.symm
    · exact List.Nodup.map (fun a b h => by simpa using h) List.nodup_range
  · intro c hc
    rw [mem_numbers hs hr] at hc
    obtain ⟨h1, h2⟩ := hσ c hc.1 hc.2
    rw [List.perm_ext_iff_of_nodup (labelled_nodup _ hd') ((labelled_nodup _ hd).map hφ)]
    intro q
    rw [mem_labelled, List.mem_map]
    constructor
    · rintro ⟨i, hi, hl⟩
      obtain ⟨h3, r, h4, h5⟩ := hρ i (lt' _ _ hl)
      rw [hi, Option.some.injEq] at h5
      refine ⟨r, mem_labelled.2 ⟨_, h4, ?_⟩, h5.symm⟩
      obtain ⟨p, hp⟩ := hc.2
      obtain ⟨e, -, h7, h8⟩ := bwd _ _ _ (by exact_mod_cast h1) hl (h2 p hp)
      rw [hρπ p (lt _ _ hp), hp] at h8
      rw [h7, ← h8]
    · rintro ⟨r, hr0, rfl⟩
      obtain ⟨i, hi, hl⟩ := mem_labelled.1 hr0
      obtain ⟨h3, r', h4, h5⟩ := hπ i (lt _ _ hl)
      rw [hi, Option.some.injEq] at h4
      subst h4
      exact ⟨_, h5, h2 i hl⟩

theorem build_move {geo : Geo G P K} {φ : P → P} {Φ : G → G} (hφ : Function.Injective φ)
    (hf : Follows geo φ Φ) (ho : Orderless geo) (hu : DistinctRows geo) (hn : NearFollows geo φ) (purity : K)
    (z : List P) (y : List Bool) :
    build geo purity (z.map φ) y = moved Φ (build geo purity z y) := by
  have hp : (geo.unique (masked (z.map φ) y)).Perm ((geo.unique (masked z y)).map φ) := by
    rw [List.perm_ext_iff_of_nodup (hu.nodup _) ((hu.nodup _).map hφ)]
    intro q
    rw [hu.mem, masked_map_left, List.mem_map, List.mem_map]
    simp only [hu.mem]
  have hlen : (geo.unique (masked (z.map φ) y)).length = (geo.unique (masked z y)).length := by
    rw [hp.length_eq, List.length_map]
  unfold build
  simp only [hlen]
  split
  · rfl
  · obtain ⟨σ, h1, h2⟩ := clusters_move (k := minPoints y) (near := geo.near (geo.unique (masked z y)) (minPoints y))
      (near' := geo.near (geo.unique (masked (z.map φ) y)) (minPoints y))
      (hu.nodup (masked z y)) (hu.nodup (masked (z.map φ) y)) hφ hp
      (fun a b ha hb => hn.symm _ _ a b ha hb) (fun a ha => hn.refl _ _ a ha)
      (fun a b ha hb => hn.symm _ _ a b (by rw [hlen]; exact ha) (by rw [hlen]; exact hb))
      (fun a ha => hn.refl _ _ a (by rw [hlen]; exact ha))
      (fun i j i' j' a b ha hb ha' hb' => hn.moves _ _ _ i j i' j' a b hp ha hb ha' hb')
    have hbody : body geo purity (z.map φ) y (geo.unique (masked (z.map φ) y))
        (Dbscan.dbscan (geo.near (geo.unique (masked (z.map φ) y)) (minPoints y)) (geo.unique (masked z y)).length (minPoints y))
        ((List.range ((Dbscan.dbscan (geo.near (geo.unique (masked (z.map φ) y)) (minPoints y)) (geo.unique (masked z y)).length (minPoints y)).foldl max (-1)).toNat).map (· + 1)) none =
      (body geo purity z y (geo.unique (masked z y))
        (Dbscan.dbscan (geo.near (geo.unique (masked z y)) (minPoints y)) (geo.unique (masked z y)).length (minPoints y))
        ((List.range ((Dbscan.dbscan (geo.near (geo.unique (masked z y)) (minPoints y)) (geo.unique (masked z y)).length (minPoints y)).foldl max (-1)).toNat).map (· + 1)) none).map Φ := by
      rw [body_join, body_join, ← foldl_join_move hf, Option.map_none]
      refine ((h1.map _).symm.foldl_eq' (fun a _ b _ c => join_comm ho c a b) _).trans ?_
      refine congrArg (List.foldl (join geo) none) ?_
      rw [List.map_map (f := σ), List.map_map (g := Option.map Φ)]
      refine List.map_congr_left fun c hc => ?_
      exact (fitPoly_data_perm ho purity (z.map φ) y (h2 c hc)).trans (fitPoly_move hf ho purity z y _)
    rw [hbody]
    have : ∀ o : Option G, some ((o.map Φ).getD geo.empty) = (some (o.getD geo.empty)).map Φ := by
      intro o
      cases o with
      | none => simp [hf.empty]
      | some g => rfl
    rw [this, fromPolygon_move hf]

/-! ### The radius -/

theorem column_list (l : List (Fin 2 → ℝ)) (c : Fin 2) :
    Dbscan.column (fun i => l.getD i 0) l.length c = {v | ∃ q ∈ l, q c = v} := by
  ext v
  constructor
  · rintro ⟨i, hi, rfl⟩
    refine ⟨l[i], List.getElem_mem hi, ?_⟩
    simp [List.getD_eq_getElem?_getD, List.getElem?_eq_getElem hi]
  · rintro ⟨q, hq, rfl⟩
    obtain ⟨i, hi, h⟩ := index_of_mem hq
    exact ⟨i, hi, by simp [List.getD_eq_getElem?_getD, h]⟩

theorem spread_move {φ : (Fin 2 → ℝ) → Fin 2 → ℝ} {axis : Equiv.Perm (Fin 2)} {sign shift : Fin 2 → ℝ}
    (hsign : ∀ c, sign c = 1 ∨ sign c = -1) (hφ : ∀ q c, φ q c = sign c * q (axis c) + shift c)
    {l l' : List (Fin 2 → ℝ)} (hl : 0 < l.length) (hp : l'.Perm (l.map φ)) (c : Fin 2) :
    Dbscan.spread (fun i => l'.getD i 0) l'.length c =
      Dbscan.spread (fun i => l.getD i 0) l.length (axis c) := by
  obtain ⟨lo, hi, h1, h2⟩ := Dbscan.exists_bounds (fun i => l.getD i 0) hl (axis c)
  rw [Dbscan.spread_eq h1 h2]
  rw [column_list] at h1 h2
  obtain ⟨⟨a, ha, hae⟩, hlo⟩ := h1
  obtain ⟨⟨b, hb, hbe⟩, hhi⟩ := h2
  have hmem : ∀ q ∈ l, φ q ∈ l' := fun q hq => hp.mem_iff.2 (List.mem_map_of_mem hq)
  have hback : ∀ q ∈ l', ∃ r ∈ l, φ r = q := fun q hq => List.mem_map.1 (hp.mem_iff.1 hq)
  rcases hsign c with hc | hc
  · rw [Dbscan.spread_eq (lo := lo + shift c) (hi := hi + shift c)]
    · ring
    · rw [column_list]
      refine ⟨⟨φ a, hmem a ha, by rw [hφ, hc, hae]; ring⟩, ?_⟩
      rintro v ⟨q, hq, rfl⟩
      obtain ⟨r, hr, rfl⟩ := hback q hq
      have := hlo ⟨r, hr, rfl⟩
      rw [hφ, hc]
      linarith
    · rw [column_list]
      refine ⟨⟨φ b, hmem b hb, by rw [hφ, hc, hbe]; ring⟩, ?_⟩
      rintro v ⟨q, hq, rfl⟩
      obtain ⟨r, hr, rfl⟩ := hback q hq
      have := hhi ⟨r, hr, rfl⟩
      rw [hφ, hc]
      linarith
  · rw [Dbscan.spread_eq (lo := - hi + shift c) (hi := - lo + shift c)]
    · ring
    · rw [column_list]
      refine ⟨⟨φ b, hmem b hb, by rw [hφ, hc, hbe]; ring⟩, ?_⟩
      rintro v ⟨q, hq, rfl⟩
      obtain ⟨r, hr, rfl⟩ := hback q hq
      have := hhi ⟨r, hr, rfl⟩
      rw [hφ, hc]
      linarith
    · rw [column_list]
      refine ⟨⟨φ a, hmem a ha, by rw [hφ, hc, hae]; ring⟩, ?_⟩
      rintro v ⟨q, hq, rfl⟩
      obtain ⟨r, hr, rfl⟩ := hback q hq
      have := hlo ⟨r, hr, rfl⟩
      rw [hφ, hc]
      linarith

theorem axisMotion_injective {φ : (Fin 2 → ℝ) → Fin 2 → ℝ} (h : AxisMotion φ) : Function.Injective φ := by
  obtain ⟨axis, sign, shift, hs, hφ⟩ := h
  intro a b hab
  funext c
  have := congrFun hab (axis.symm c)
  rw [hφ, hφ, Equiv.apply_symm_apply] at this
  rcases hs (axis.symm c) with h | h <;> rw [h] at this <;> linarith

theorem nearFollows_of_measured {geo : Geo G (Fin 2 → ℝ) K} (hm : Measured geo)
    {φ : (Fin 2 → ℝ) → Fin 2 → ℝ} (h : AxisMotion φ) : NearFollows geo φ where
  symm l k i j _ _ := by rw [hm, hm, Dbscan.nearReal_symm]
  refl l k i hi := by
    rw [hm]
    exact Dbscan.nearReal_refl _ (Dbscan.epsilon_nonneg _ (by omega) _) _
  moves l l' k i j i' j' a b hp hi hj hi' hj' := by
    obtain ⟨axis, sign, shift, hs, hφ⟩ := h
    have hl : 0 < l.length := by
      have := (List.getElem?_eq_some_iff.1 hi).1
      omega
    have hlen : l'.length = l.length := by rw [hp.length_eq, List.length_map]
    have heps : Dbscan.epsilon (fun i => l'.getD i 0) l'.length k =
        Dbscan.epsilon (fun i => l.getD i 0) l.length k := by
      unfold Dbscan.epsilon
      rw [Finset.prod_congr rfl fun c _ => spread_move hs hφ hl hp c,
        Equiv.prod_comp axis fun c => Dbscan.spread (fun i => l.getD i 0) l.length c, hlen]
    have hdist : Dbscan.dist (fun i => l'.getD i 0) i' j' = Dbscan.dist (fun i => l.getD i 0) i j := by
      unfold Dbscan.dist
      simp only [List.getD_eq_getElem?_getD, hi, hj, hi', hj', Option.getD_some]
      rw [← Equiv.sum_comp axis fun c => (b c - a c) ^ 2]
      congr 1
      refine Finset.sum_congr rfl fun c _ => ?_
      rw [hφ, hφ]
      rcases hs c with h | h <;> rw [h] <;> ring
    rw [hm, hm, heps]
    unfold Dbscan.nearReal
    rw [hdist]

/-! ### All footprints -/

theorem moved_polygon (Φ : G → G) (f : Footprint G K) : (moved Φ f).polygon = f.polygon.map Φ := rfl

theorem conflict_move {geo : Geo G P K} {φ : P → P} {Φ : G → G} (hf : Follows geo φ Φ) (z : List P) (b t : G)
    (y y' : List Bool) : Conflict geo (z.map φ) (Φ b) (Φ t) y y' ↔ Conflict geo z b t y y' := by
  unfold Conflict
  simp only [inside_eq, hf.inter, hf.isEmpty, masked_map_left, count_move hf]

theorem analyse_move {geo : Geo G P K} (laws : Laws geo) {φ : P → P} {Φ : G → G} (hφ : Function.Injective φ)
    (hf : Follows geo φ Φ) (ho : Orderless geo) (hu : DistinctRows geo) (hn : NearFollows geo φ) (purity : K)
    (n : Nat) (order order' : List Nat) (hord : order.Perm (List.range n)) (hord' : order'.Perm (List.range n))
    (l : List (Instance P)) :
    ((∃ out, analyse geo purity n order' (l.map fun a => { a with z := φ a.z }) = .ok out) ↔
      ∃ out, analyse geo purity n order l = .ok out) ∧
    ∀ out, analyse geo purity n order l = .ok out →
      analyse geo purity n order' (l.map fun a => { a with z := φ a.z }) = .ok (movedOut Φ out) := by
  have hz : (l.map fun a => ({ a with z := φ a.z } : Instance P)).map (·.z) = (l.map (·.z)).map φ := by
    simp [List.map_map, Function.comp_def]
  have hb : ∀ y, build geo purity ((l.map (·.z)).map φ) y = moved Φ (build geo purity (l.map (·.z)) y) :=
    build_move hφ hf ho hu hn purity _
  have key : (∀ i j b t, i < j → j < n →
        (build geo purity ((l.map (·.z)).map φ) (l.map fun a => decide (a.p = i))).polygon = some b →
        (build geo purity ((l.map (·.z)).map φ) (l.map fun a => decide (a.p = j))).polygon = some t →
        ¬ Conflict geo ((l.map (·.z)).map φ) b t (l.map fun a => decide (a.p = i))
          (l.map fun a => decide (a.p = j))) ↔
      (∀ i j b t, i < j → j < n →
        (build geo purity (l.map (·.z)) (l.map fun a => decide (a.p = i))).polygon = some b →
        (build geo purity (l.map (·.z)) (l.map fun a => decide (a.p = j))).polygon = some t →
        ¬ Conflict geo (l.map (·.z)) b t (l.map fun a => decide (a.p = i))
          (l.map fun a => decide (a.p = j))) := by
    constructor
    · intro h i j b t hij hj h1 h2 hc
      refine h i j (Φ b) (Φ t) hij hj ?_ ?_ ((conflict_move hf _ b t _ _).2 hc)
      · rw [hb, moved_polygon, h1]; rfl
      · rw [hb, moved_polygon, h2]; rfl
    · intro h i j b t hij hj h1 h2 hc
      rw [hb, moved_polygon, Option.map_eq_some_iff] at h1 h2
      obtain ⟨b', h1, rfl⟩ := h1
      obtain ⟨t', h2, rfl⟩ := h2
      exact h i j b' t' hij hj h1 h2 ((conflict_move hf _ b' t' _ _).1 hc)
  have hfwd : ∀ out, analyse geo purity n order l = .ok out →
      analyse geo purity n order' (l.map fun a => { a with z := φ a.z }) = .ok (movedOut Φ out) := by
    intro out h
    rw [analyse_spec geo laws purity n order hord] at h
    rw [analyse_spec geo laws purity n order' hord', hz]
    obtain ⟨h0, h1, h2, h3, h4⟩ := h
    refine ⟨?_, ?_, ?_, ?_, ?_⟩
    · simpa [List.map_map, Function.comp_def] using key.2 h0
    · rw [hb]; simp [movedOut, h1, Function.comp_def]
    · rw [hb]; simp [movedOut, h2, Function.comp_def]
    · simp only [hb]; simp [movedOut, h3, Function.comp_def]
    · simp only [hb]; simp [movedOut, h4, Function.comp_def]
  refine ⟨⟨?_, fun ⟨out, h⟩ => ⟨_, hfwd out h⟩⟩, hfwd⟩
  rintro ⟨out, h⟩
  rw [analyse_spec geo laws purity n order' hord', hz] at h
  have h0 := h.1
  simp only [List.map_map, Function.comp_def] at h0
  exact ⟨⟨_, _, _, _⟩, (analyse_spec geo laws purity n order hord l ⟨_, _, _, _⟩).2
    ⟨key.1 (by simpa [List.map_map, Function.comp_def] using h0), rfl, rfl, rfl, rfl⟩⟩

end Verif.Trace
