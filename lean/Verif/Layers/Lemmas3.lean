import Mathlib.Data.List.Perm.Basic
import Mathlib.Data.List.Induction
import Verif.Layers.Lemmas2

/-! # Lemmas on layers: stable sorting, order of painting -/
namespace Verif.Layers
open Verif.Map

section Stable
variable {α : Type} (key : α → Int)

/-- Comparison by a key. -/
def byKey (a b : α) : Bool := decide (key a ≤ key b)

theorem insert_filter (a : α) (l : List α) (h : l.Pairwise fun x y => key x ≤ key y) (k : Int) :
    (insertSorted (byKey key) a l).filter (fun x => decide (key x = k)) =
      (a :: l).filter (fun x => decide (key x = k)) := by
  induction l with
  | nil => simp [insertSorted]
  | cons b l ih =>
    simp only [insertSorted]
    split
    · rfl
    · rename_i hab
      simp only [byKey, decide_eq_true_eq, not_le] at hab
      rw [List.filter_cons, ih (List.pairwise_cons.mp h).2]
      simp only [List.filter_cons, decide_eq_true_eq]
      by_cases h1 : key b = k
      · have h2 : key a ≠ k := by omega
        simp [h1, h2]
      · simp [h1]

theorem isort_pairwise (l : List α) : (isort (byKey key) l).Pairwise fun x y => key x ≤ key y := by
  have := isort_sorted (byKey key) (by simp [byKey]; intros; omega) (by simp [byKey]; intros; omega) l
  exact this.imp (by simp [byKey])

theorem isort_filter (l : List α) (k : Int) :
    (isort (byKey key) l).filter (fun x => decide (key x = k)) = l.filter (fun x => decide (key x = k)) := by
  induction l with
  | nil => rfl
  | cons a l ih =>
    rw [isort, insert_filter key a _ (isort_pairwise key l), List.filter_cons, List.filter_cons, ih]

theorem insert_sublist (a : α) (l : List α) : l.Sublist (insertSorted (byKey key) a l) := by
  induction l with
  | nil => simp
  | cons b l ih =>
    simp only [insertSorted]
    split
    · exact List.sublist_cons_self _ _
    · exact List.Sublist.cons_cons _ ih

theorem insert_pair (a b : α) (l : List α) (hb : b ∈ l) (h : key a ≤ key b)
    (hl : l.Pairwise fun x y => key x ≤ key y) : [a, b].Sublist (insertSorted (byKey key) a l) := by
  induction l with
  | nil => simp at hb
  | cons c l ih =>
    simp only [insertSorted]
    split
    · exact List.Sublist.cons_cons _ (List.singleton_sublist.mpr hb)
    · rename_i hac
      simp only [byKey, decide_eq_true_eq, not_le] at hac
      rcases List.mem_cons.mp hb with rfl | hb
      · omega
      · exact List.Sublist.cons _ (ih hb (List.pairwise_cons.mp hl).2)

/-- A stable sort keeps two elements in order unless the first is greater. -/
theorem isort_pair (l : List α) (a b : α) (h : [a, b].Sublist l) (hk : key a ≤ key b) :
    [a, b].Sublist (isort (byKey key) l) := by
  induction l with
  | nil => simp at h
  | cons c l ih =>
    rw [isort]
    cases h with
    | cons _ h => exact (ih h).trans (insert_sublist key _ _)
    | cons_cons _ h =>
      exact insert_pair key _ _ _ ((isort_perm _ l).mem_iff.mpr (List.singleton_sublist.mp h)) hk (isort_pairwise key l)

end Stable

/-! ## The generated list -/

/-- The layers in order of creation. -/
def created (t : LTree) : List Desc := ⟨0, 1, .scroll, stay false t⟩ :: fresh false 0 t

theorem rep_created (t : LTree) :
    Rep (traverse (newLayer ⟨[], [], 0, []⟩ 0).1 (newLayer ⟨[], [], 0, []⟩ 0).2 t false false 0) (created t) := by
  have h0 : Rep ⟨[], [], 0, []⟩ [] := ⟨rfl, rfl, fun i => by simp [look]⟩
  have h1 := h0.new 0 1 .scroll
  have h2 := rep_traverse t _ _ 0 false false 0 h1.1 (by simp)
  simpa [created, newLayer, newPromotedLayer, Desc.more] using h2

/-- The final order of the numbers. -/
def finalIds (t : LTree) : List Nat :=
  isort (byKey fun i => (((created t)[i]?).map Desc.order).getD 0) (List.range (created t).length)

theorem gen_ids (t : LTree) : (generateLayers t).ids = finalIds t := by
  have h := rep_created t
  simp only [generateLayers, finalIds]
  rw [h.ids]
  congr 1
  funext a b
  simp only [byKey, sortKey, h.look, Option.map_map]
  rfl

theorem gen_look (t : LTree) (i : Nat) :
    look (generateLayers t).layers i = ((created t)[i]?).map (Desc.layer i) := (rep_created t).look i

theorem paintLayers_eq (t : LTree) :
    paintLayers (generateLayers t) = (finalIds t).filterMap fun i => ((created t)[i]?).map (Desc.layer i) := by
  unfold paintLayers
  rw [gen_ids]
  congr 1
  funext i
  exact gen_look t i

theorem descs_eq (t : LTree) :
    (paintLayers (generateLayers t)).map Layer.desc = (finalIds t).filterMap fun i => (created t)[i]? := by
  rw [paintLayers_eq, List.map_filterMap]
  congr 1
  funext i
  cases (created t)[i]? <;> rfl

theorem range_filterMap {β : Type} (l : List β) : (List.range l.length).filterMap (fun i => l[i]?) = l := by
  induction l using List.reverseRecOn with
  | nil => rfl
  | append_singleton l a ih =>
    rw [List.length_append, List.length_singleton, List.range_succ, List.filterMap_append]
    have : (List.range l.length).filterMap (fun i => (l ++ [a])[i]?) = l := by
      conv_rhs => rw [← ih]
      apply List.filterMap_congr
      intro i hi
      rw [List.getElem?_append_left (List.mem_range.mp hi)]
    rw [this]
    simp

theorem descs_perm (t : LTree) : ((paintLayers (generateLayers t)).map Layer.desc).Perm (created t) := by
  rw [descs_eq]
  have := ((isort_perm (byKey fun i => (((created t)[i]?).map Desc.order).getD 0)
    (List.range (created t).length)).filterMap fun i => (created t)[i]?)
  rwa [range_filterMap] at this

theorem descs_sorted (t : LTree) :
    ((paintLayers (generateLayers t)).map Layer.desc).Pairwise fun a b => a.order ≤ b.order := by
  rw [descs_eq]
  refine List.Pairwise.filterMap _ ?_ (isort_pairwise _ _)
  intro i j h d hd d' hd'
  simpa [hd, hd'] using h

theorem filterMap_filter_order (ls : List Desc) (is : List Nat) (k : Int) (h : ∀ i ∈ is, i < ls.length) :
    (is.filterMap fun i => ls[i]?).filter (fun d => decide (d.order = k)) =
      (is.filter fun i => decide ((ls[i]?.map Desc.order).getD 0 = k)).filterMap fun i => ls[i]? := by
  induction is with
  | nil => rfl
  | cons i r ih =>
    have hi := h i (by simp)
    have hr := ih fun j hj => h j (List.mem_cons_of_mem _ hj)
    simp only [List.filterMap_cons, List.filter_cons, List.getElem?_eq_getElem hi, Option.map_some, Option.getD_some]
    by_cases hk : ls[i].order = k
    · simp [hk, hr, List.getElem?_eq_getElem hi]
    · simp [hk, hr]

theorem descs_filter (t : LTree) (k : Int) :
    ((paintLayers (generateLayers t)).map Layer.desc).filter (fun d => decide (d.order = k)) =
      (created t).filter (fun d => decide (d.order = k)) := by
  rw [descs_eq, filterMap_filter_order]
  · unfold finalIds
    rw [isort_filter, ← filterMap_filter_order _ _ _ (fun i hi => List.mem_range.mp hi), range_filterMap]
  · intro i hi
    exact List.mem_range.mp ((isort_perm _ _).mem_iff.mp hi)

theorem sublist_pair_index {β : Type} {l : List β} {a b : β} (h : [a, b].Sublist l) :
    ∃ i j : Nat, i < j ∧ l[i]? = some a ∧ l[j]? = some b := by
  induction l with
  | nil => simp at h
  | cons c l ih =>
    cases h with
    | cons _ h =>
      obtain ⟨i, j, hij, hi, hj⟩ := ih h
      exact ⟨i + 1, j + 1, by omega, by simpa using hi, by simpa using hj⟩
    | cons_cons _ h =>
      obtain ⟨j, hj⟩ := List.mem_iff_getElem?.mp (List.singleton_sublist.mp h)
      exact ⟨0, j + 1, by omega, by simp, by simpa using hj⟩

theorem pair_sublist_range {i j n : Nat} (h : i < j) (hj : j < n) : [i, j].Sublist (List.range n) := by
  induction n with
  | zero => omega
  | succ n ih =>
    rw [List.range_succ]
    rcases Nat.lt_or_ge j n with h1 | h1
    · exact (ih h1).trans (List.sublist_append_left _ _)
    · have : j = n := by omega
      subst this
      exact List.Sublist.append (List.singleton_sublist.mpr (List.mem_range.mpr h)) (List.Sublist.refl [j])

/-- Two layers keep their order of creation unless the first is at a higher level. -/
theorem descs_pair (t : LTree) {a b : Desc} (h : [a, b].Sublist (created t)) (ho : a.order ≤ b.order) :
    [a, b].Sublist ((paintLayers (generateLayers t)).map Layer.desc) := by
  obtain ⟨i, j, hij, hi, hj⟩ := sublist_pair_index h
  have hjl : j < (created t).length := by
    by_contra hn
    rw [List.getElem?_eq_none (by omega)] at hj
    simp at hj
  have h1 := isort_pair (fun i => (((created t)[i]?).map Desc.order).getD 0) _ i j (pair_sublist_range hij hjl)
    (by simpa [hi, hj] using ho)
  rw [descs_eq]
  have h2 := h1.filterMap fun i => (created t)[i]?
  simpa [hi, hj, finalIds] using h2

theorem created_eq (t : LTree) (h : (docOrder t).Nodup) : created t = layersInDocOrder t := by
  have hA : Apart [] (occs [] t) := ⟨h, by simp⟩
  have hs := stay_eq t [] hA
  have hf := fresh_eq t [] hA
  have hg : decide (InGroup []) = false := by simp [InGroup]
  rw [hg] at hs hf
  unfold created layersInDocOrder pageLayer
  rw [show levelOf [] = 0 from rfl] at hf
  rw [hs, hf]
  rfl

/-! ## Every element once -/

theorem perm_aux {α : Type} (e : α) (a b c d e' : List α) (h1 : (a ++ b).Perm e') (h2 : e' = c ++ d) :
    (e :: a ++ b).Perm (e :: (c ++ d)) := by
  subst h2; exact List.Perm.cons e h1

mutual
theorem stay_fresh_perm (t : LTree) : ∀ (above : List Elem) (g : Bool) (o : Int),
    (stay g t ++ (fresh g o t).flatMap Desc.elements).Perm ((occs above t).map (·.self.id)) := by
  intro above g o
  match t with
  | .missing => simp [stay, fresh, occs]
  | .node e cs =>
    rw [stay, fresh, occs]
    by_cases hp : promoted e g = true
    · simp only [if_pos hp, List.nil_append, List.flatMap_cons, List.map_cons, List.cons_append]
      exact List.Perm.cons _ (stay_fresh_perm_all cs (e :: above) true (orderOf e o))
    · simp only [if_neg hp]
      by_cases hi : (e.isImg && !g) = true
      · simp only [if_pos hi, List.flatMap_cons, List.map_cons, List.cons_append, List.nil_append]
        exact List.perm_middle.trans (List.Perm.cons _ (stay_fresh_perm_all cs (e :: above) g (orderOf e o)))
      · simp only [if_neg hi, List.map_cons, List.cons_append]
        exact List.Perm.cons _ (stay_fresh_perm_all cs (e :: above) g (orderOf e o))
theorem stay_fresh_perm_all (ts : List LTree) : ∀ (above : List Elem) (g : Bool) (o : Int),
    (stayAll g ts ++ (freshAll g o ts).flatMap Desc.elements).Perm ((occsAll above ts).map (·.self.id)) := by
  intro above g o
  match ts with
  | [] => simp [stayAll, freshAll, occsAll]
  | t :: r =>
    rw [stayAll, freshAll, occsAll, List.flatMap_append, List.map_append]
    have h1 := stay_fresh_perm t above g o
    have h2 := stay_fresh_perm_all r above g o
    refine List.Perm.trans ?_ (h1.append h2)
    simp only [List.append_assoc]
    refine List.Perm.append_left _ ?_
    simp only [← List.append_assoc]
    exact List.Perm.append_right _ List.perm_append_comm
end

theorem flatMap_elements (ls : List Layer) : ls.flatMap Layer.elements = (ls.map Layer.desc).flatMap Desc.elements := by
  rw [List.flatMap_map]; rfl

/-! ## Ancestors in document order -/

mutual
theorem ancestor_before (t : LTree) : ∀ (above : List Elem) (o : Occ), o ∈ occs above t →
    ∀ (a : Elem) (rest : List Elem), (a :: rest) <:+ o.ancestors →
    (a :: rest) <:+ above ∨ [⟨a, rest⟩, o].Sublist (occs above t) := by
  intro above o h a rest hs
  match t with
  | .missing => simp [occs] at h
  | .node e cs =>
    rw [occs, List.mem_cons] at h
    rcases h with rfl | h
    · exact Or.inl hs
    · rw [occs]
      rcases ancestor_before_all cs (e :: above) o h a rest hs with h1 | h1
      · rcases List.suffix_cons_iff.mp h1 with h2 | h2
        · simp only [List.cons.injEq] at h2
          obtain ⟨rfl, rfl⟩ := h2
          exact Or.inr (List.Sublist.cons_cons _ (List.singleton_sublist.mpr h))
        · exact Or.inl h2
      · exact Or.inr (List.Sublist.cons _ h1)
theorem ancestor_before_all (ts : List LTree) : ∀ (above : List Elem) (o : Occ), o ∈ occsAll above ts →
    ∀ (a : Elem) (rest : List Elem), (a :: rest) <:+ o.ancestors →
    (a :: rest) <:+ above ∨ [⟨a, rest⟩, o].Sublist (occsAll above ts) := by
  intro above o h a rest hs
  match ts with
  | [] => simp [occsAll] at h
  | t :: r =>
    rw [occsAll, List.mem_append] at h
    rw [occsAll]
    rcases h with h | h
    · rcases ancestor_before t above o h a rest hs with h1 | h1
      · exact Or.inl h1
      · exact Or.inr (h1.trans (List.sublist_append_left _ _))
    · rcases ancestor_before_all r above o h a rest hs with h1 | h1
      · exact Or.inl h1
      · exact Or.inr (h1.trans (List.sublist_append_right _ _))
end

theorem elems_ancestor (t : LTree) (o : Occ) (h : o ∈ elems t) (a : Elem) (rest : List Elem)
    (hs : (a :: rest) <:+ o.ancestors) : [⟨a, rest⟩, o].Sublist (elems t) := by
  rcases ancestor_before t [] o h a rest hs with h1 | h1
  · simp at h1
  · exact h1

theorem groupOf_suffix {l : List Elem} {x : Elem} (h : groupOf l = some x) :
    ∃ rest, (x :: rest) <:+ l ∧ Promoted x rest := by
  induction l with
  | nil => simp [groupOf] at h
  | cons e r ih =>
    rw [groupOf] at h
    split at h
    · rename_i hp
      simp only [Option.some.injEq] at h
      subst h
      exact ⟨r, List.suffix_refl _, hp⟩
    · obtain ⟨rest, h1, h2⟩ := ih h
      exact ⟨rest, h1.trans (List.suffix_cons _ _), h2⟩

theorem leader_suffix {o : Occ} {x : Elem} (h : leader o = some x) :
    ∃ rest, (x :: rest) <:+ (o.self :: o.ancestors) ∧ Starts ⟨x, rest⟩ := by
  unfold leader at h
  split at h
  · rename_i hs
    simp only [Option.some.injEq] at h
    subst h
    exact ⟨o.ancestors, List.suffix_refl _, hs⟩
  · obtain ⟨rest, h1, h2⟩ := groupOf_suffix h
    exact ⟨rest, h1.trans (List.suffix_cons _ _), Or.inl h2⟩

end Verif.Layers
