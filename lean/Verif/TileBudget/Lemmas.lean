import Mathlib.Tactic.Linarith
import Mathlib.Data.List.Perm.Basic
import Mathlib.Algebra.BigOperators.Group.List.Basic
import Verif.TileBudget.Spec

/-! # Lemmas on the tile budget -/
namespace Verif.TileBudget
open Verif.Map Verif.Layers

/-- What an item protects its position by. -/
def keepItem (band : ℚ × ℚ) (i : Item) : Bool := i.pinned || i.pixels.isGpu || inBand i.rect band

/-- The sizes of some owned buffers. -/
def ownSum (own : List ((Nat × Nat) × Key)) : Nat := (own.map fun o => o.1.2).sum

/-- The fold, with the position each counted buffer was counted at. -/
structure Inv (band : ℚ × ℚ) (seen : List Item) (a : Acc) (own : List ((Nat × Nat) × Key)) : Prop where
  counted : a.counted = own.map Prod.fst
  nodup : (own.map Prod.fst).Nodup
  from_item : ∀ o ∈ own, ∃ i ∈ seen, i.key = o.2 ∧ i.pixels = .cpu o.1.1 o.1.2
  owned : ∀ i ∈ seen, ∀ p l, i.pixels = .cpu p l → ∃ k, ((p, l), k) ∈ own
  nk : Nk a.positions
  none : ∀ k, look a.positions k = none ↔ ∀ i ∈ seen, i.key ≠ k
  some : ∀ k p, look a.positions k = some p →
    p.bytes = ownSum (own.filter fun o => o.2 = k) ∧ (p.prot = true ↔ ∃ i ∈ seen, i.key = k ∧ keepItem band i = true) ∧
      ∃ i, seen.find? (fun i => i.key = k) = some i ∧ p.rect = i.rect

theorem inv_nil (band : ℚ × ℚ) : Inv band [] ⟨[], []⟩ [] := by
  constructor <;> simp [look, Nk]

theorem ownSum_cons (o : (Nat × Nat) × Key) (l : List ((Nat × Nat) × Key)) : ownSum (o :: l) = o.1.2 + ownSum l := rfl

theorem inv_add {band : ℚ × ℚ} {seen : List Item} {a : Acc} {own : List ((Nat × Nat) × Key)} (h : Inv band seen a own)
    (i : Item) : ∃ own', Inv band (seen ++ [i]) (addItem band a i) own' := by
  -- what stays true of the positions, whatever the buffers do
  have hnone : ∀ k, look (addItem band a i).positions k = none ↔ ∀ j ∈ seen ++ [i], j.key ≠ k := by
    intro k
    simp only [addItem, look_put]
    by_cases hk : i.key = k
    · simp [hk]
    · rw [if_neg hk, h.none]
      simp [hk, or_imp, forall_and]
  have hnk : Nk (addItem band a i).positions := nk_put h.nk _ _
  have hsome : ∀ own' : List ((Nat × Nat) × Key),
      (∀ k, ownSum (own'.filter fun o => o.2 = k) =
        ownSum (own.filter fun o => o.2 = k) + if i.key = k then addedBytes a.counted i.pixels else 0) →
      ∀ k p, look (addItem band a i).positions k = some p →
        p.bytes = ownSum (own'.filter fun o => o.2 = k) ∧
        (p.prot = true ↔ ∃ j ∈ seen ++ [i], j.key = k ∧ keepItem band j = true) ∧
        ∃ j, (seen ++ [i]).find? (fun i => i.key = k) = some j ∧ p.rect = j.rect := by
    intro own' hsum k p hp
    simp only [addItem, look_put] at hp
    rw [hsum]
    by_cases hk : i.key = k
    · rw [if_pos hk] at hp
      simp only [Option.some.injEq] at hp
      rw [if_pos hk]
      subst hk
      cases hl : look a.positions i.key with
      | none =>
        rw [hl] at hp
        have hno := (h.none i.key).mp hl
        have hz : ownSum (own.filter fun o => o.2 = i.key) = 0 := by
          have : (own.filter fun o => decide (o.2 = i.key)) = [] := by
            rw [List.filter_eq_nil_iff]
            intro o ho
            obtain ⟨j, hj, hjk, _⟩ := h.from_item o ho
            simpa using fun hh => hno j hj (hjk.trans hh)
          rw [this]; rfl
        subst hp
        refine ⟨by simp [addTo, hz], ?_, ⟨i, ?_, rfl⟩⟩
        rotate_left
        · rw [List.find?_append, List.find?_eq_none.mpr (by simpa using hno)]
          simp
        simp only [addTo, Option.getD_none, Bool.false_or]
        constructor
        · intro hh; exact ⟨i, by simp, rfl, hh⟩
        · rintro ⟨j, hj, hjk, hh⟩
          rcases List.mem_append.mp hj with hj | hj
          · exact absurd hjk (hno j hj)
          · rw [List.mem_singleton.mp hj] at hh; exact hh
      | some q =>
        rw [hl] at hp
        obtain ⟨h1, h2, j, hj, hr⟩ := h.some _ _ hl
        subst hp
        refine ⟨by simp [addTo, h1], ?_, ⟨j, by rw [List.find?_append, hj]; rfl, hr⟩⟩
        simp only [addTo, Option.getD_some, Bool.or_eq_true]
        constructor
        · rintro (hh | hh)
          · obtain ⟨j, hj, hjk, hh⟩ := h2.mp hh
            exact ⟨j, by simp [hj], hjk, hh⟩
          · refine ⟨i, by simp, rfl, ?_⟩
            simpa [keepItem] using hh
        · rintro ⟨j, hj, hjk, hh⟩
          rcases List.mem_append.mp hj with hj | hj
          · exact Or.inl (h2.mpr ⟨j, hj, hjk, hh⟩)
          · rw [List.mem_singleton.mp hj] at hh
            right
            simpa [keepItem] using hh
    · rw [if_neg hk] at hp
      rw [if_neg hk]
      obtain ⟨h1, h2, j, hj, hr⟩ := h.some _ _ hp
      refine ⟨by simpa using h1, h2.trans ?_, ⟨j, by rw [List.find?_append, hj]; rfl, hr⟩⟩
      constructor
      · rintro ⟨j, hj, hjk, hh⟩; exact ⟨j, by simp [hj], hjk, hh⟩
      · rintro ⟨j, hj, hjk, hh⟩
        rcases List.mem_append.mp hj with hj | hj
        · exact ⟨j, hj, hjk, hh⟩
        · rw [List.mem_singleton.mp hj] at hjk; exact absurd hjk hk
  cases hpx : i.pixels with
  | gpu =>
    refine ⟨own, ?_, h.nodup, ?_, ?_, hnk, hnone, hsome own ?_⟩
    · simp [addItem, hpx, countedWith, h.counted]
    · intro o ho
      obtain ⟨j, hj, h1⟩ := h.from_item o ho
      exact ⟨j, by simp [hj], h1⟩
    · intro j hj p l hjp
      rcases List.mem_append.mp hj with hj | hj
      · exact h.owned j hj p l hjp
      · rw [List.mem_singleton.mp hj, hpx] at hjp; simp at hjp
    · intro k; simp [hpx, addedBytes]
  | cpu p l =>
    by_cases hc : (p, l) ∈ a.counted
    · refine ⟨own, ?_, h.nodup, ?_, ?_, hnk, hnone, hsome own ?_⟩
      · simp [addItem, hpx, countedWith, hc]; exact h.counted
      · intro o ho
        obtain ⟨j, hj, h1⟩ := h.from_item o ho
        exact ⟨j, by simp [hj], h1⟩
      · intro j hj p' l' hjp
        rcases List.mem_append.mp hj with hj | hj
        · exact h.owned j hj p' l' hjp
        · rw [List.mem_singleton.mp hj, hpx] at hjp
          cases hjp
          rw [h.counted] at hc
          obtain ⟨o, ho, he⟩ := List.mem_map.mp hc
          exact ⟨o.2, by rw [← he]; exact ho⟩
      · intro k; simp [hpx, addedBytes, hc]
    · refine ⟨((p, l), i.key) :: own, ?_, ?_, ?_, ?_, hnk, hnone, hsome _ ?_⟩
      · simp only [addItem, hpx, countedWith, if_neg hc, List.map_cons]
        rw [h.counted]
      · rw [List.map_cons, List.nodup_cons]
        exact ⟨by rw [← h.counted]; exact hc, h.nodup⟩
      · intro o ho
        rcases List.mem_cons.mp ho with rfl | ho
        · exact ⟨i, by simp, rfl, hpx⟩
        · obtain ⟨j, hj, h1⟩ := h.from_item o ho
          exact ⟨j, by simp [hj], h1⟩
      · intro j hj p' l' hjp
        rcases List.mem_append.mp hj with hj | hj
        · obtain ⟨k, hk⟩ := h.owned j hj p' l' hjp
          exact ⟨k, List.mem_cons_of_mem _ hk⟩
        · rw [List.mem_singleton.mp hj, hpx] at hjp
          cases hjp
          exact ⟨i.key, by simp⟩
      · intro k
        by_cases hk : i.key = k
        · simp only [List.filter_cons, hk, decide_true, if_true, ownSum_cons, hpx, addedBytes, hc, if_false]
          omega
        · simp [List.filter_cons, hk]

theorem inv_fold (band : ℚ × ℚ) (is : List Item) : ∀ (seen : List Item) (a : Acc) (own : List ((Nat × Nat) × Key)),
    Inv band seen a own → ∃ own', Inv band (seen ++ is) (is.foldl (addItem band) a) own' := by
  induction is with
  | nil => intro seen a own h; exact ⟨own, by simpa using h⟩
  | cons i r ih =>
    intro seen a own h
    obtain ⟨own1, h1⟩ := inv_add h i
    obtain ⟨own2, h2⟩ := ih _ _ _ h1
    exact ⟨own2, by simpa using h2⟩

theorem inv_positions (band : ℚ × ℚ) (is : List Item) :
    ∃ a own, a.positions = positions band is ∧ Inv band is a own := by
  obtain ⟨own, h⟩ := inv_fold band is [] _ _ (inv_nil band)
  exact ⟨_, own, rfl, by simpa using h⟩

/-! ## Sums -/

theorem ownSum_filter_split (own : List ((Nat × Nat) × Key)) (k : Key) (ks : List Key) (hk : k ∉ ks) :
    ownSum (own.filter fun o => o.2 = k) + ownSum (own.filter fun o => o.2 ∈ ks) =
      ownSum (own.filter fun o => o.2 ∈ k :: ks) := by
  induction own with
  | nil => rfl
  | cons o r ih =>
    simp only [List.filter_cons, List.mem_cons, decide_eq_true_eq] at *
    by_cases h1 : o.2 = k
    · have h2 : ¬ o.2 ∈ ks := by rw [h1]; exact hk
      simp only [h1, true_or, if_true, ownSum_cons]
      rw [if_neg (h1 ▸ h2)]
      omega
    · by_cases h2 : o.2 ∈ ks
      · simp only [h1, h2, if_false, if_true, false_or, ownSum_cons]; omega
      · simp only [h1, h2, if_false, false_or]; omega

/-- The bytes of some positions are those of the buffers counted there. -/
theorem sum_positions {own : List ((Nat × Nat) × Key)} (ps : List (Key × PosInfo)) (hnk : Nk ps)
    (h : ∀ p ∈ ps, p.2.bytes = ownSum (own.filter fun o => o.2 = p.1)) :
    totalBytes ps = ownSum (own.filter fun o => o.2 ∈ ps.map Prod.fst) := by
  induction ps with
  | nil => simp [totalBytes, ownSum]
  | cons p r ih =>
    simp only [Nk, List.map_cons, List.nodup_cons] at hnk
    have h1 := ih hnk.2 fun q hq => h q (List.mem_cons_of_mem _ hq)
    rw [List.map_cons, ← ownSum_filter_split own p.1 _ hnk.1, ← h p (by simp), ← h1]
    rfl

theorem nodup_sum_eq {a b : List (Nat × Nat)} (ha : a.Nodup) (hb : b.Nodup)
    (h : ∀ x, 0 < x.2 → (x ∈ a ↔ x ∈ b)) : (a.map Prod.snd).sum = (b.map Prod.snd).sum := by
  have key : ∀ l : List (Nat × Nat), (l.map Prod.snd).sum = ((l.filter fun x => 0 < x.2).map Prod.snd).sum := by
    intro l
    induction l with
    | nil => rfl
    | cons x l ih =>
      rw [List.filter_cons]
      by_cases hx : 0 < x.2
      · simp [hx, ih]
      · simp [hx, ih]; omega
  rw [key a, key b]
  apply List.Perm.sum_eq
  apply List.Perm.map
  rw [List.perm_ext_iff_of_nodup (ha.filter _) (hb.filter _)]
  intro x
  simp only [List.mem_filter, decide_eq_true_eq]
  constructor
  · rintro ⟨h1, h2⟩; exact ⟨(h x h2).mp h1, h2⟩
  · rintro ⟨h1, h2⟩; exact ⟨(h x h2).mpr h1, h2⟩

/-! ## The loop -/

theorem evictLoop_prefix (l : List Cand) (e : Nat) : evictLoop l e <+: l := by
  induction l generalizing e with
  | nil => simp [evictLoop]
  | cons c r ih =>
    rw [evictLoop]
    split
    · exact List.nil_prefix
    · exact (List.cons_prefix_cons).mpr ⟨rfl, ih _⟩

/-- Either enough was evicted, or everything was. -/
theorem evictLoop_enough (l : List Cand) (e : Nat) :
    e ≤ ((evictLoop l e).map Cand.bytes).sum ∨ evictLoop l e = l := by
  induction l generalizing e with
  | nil => right; rfl
  | cons c r ih =>
    rw [evictLoop]
    split
    · left; simp; omega
    · rcases ih (e - c.bytes) with h | h
      · left
        simp only [List.map_cons, List.sum_cons]
        omega
      · right; rw [h]

/-- The last one evicted was needed. -/
theorem evictLoop_needed (l : List Cand) (e : Nat) (pre : List Cand) (c : Cand) (h : evictLoop l e = pre ++ [c]) :
    (pre.map Cand.bytes).sum < e := by
  induction l generalizing e pre with
  | nil => simp [evictLoop] at h
  | cons d r ih =>
    rw [evictLoop] at h
    split at h
    · simp at h
    · cases pre with
      | nil => simp; omega
      | cons p pre =>
        simp only [List.cons_append, List.cons.injEq] at h
        have := ih _ pre h.2
        simp only [List.map_cons, List.sum_cons, ← h.1]
        omega

end Verif.TileBudget
