import Verif.Layers.Lemmas

/-! # Lemmas on layers: the traversal against the specification -/
namespace Verif.Layers
open Verif.Map

theorem zOf_isSome (e : Elem) : (zOf e).isSome = true ↔ HasZ e := by
  unfold zOf HasZ
  cases e.position <;> cases e.zIndex <;> simp

theorem compositing_iff (e : Elem) : compositing e = true ↔ Forced e := by
  unfold compositing Forced stickyConstraint
  by_cases h : e.position = .sticky <;> simp [h]

theorem promoted_iff (e : Elem) (above : List Elem) :
    promoted e (decide (InGroup above)) = true ↔ Promoted e above := by
  unfold promoted Promoted
  simp [compositing_iff, zOf_isSome]

theorem orderOf_eq (e : Elem) (above : List Elem) : orderOf e (levelOf above) = levelOf (e :: above) := by
  unfold orderOf zOf
  rw [levelOf]
  cases e.position <;> simp

theorem inGroup_cons (e : Elem) (above : List Elem) :
    InGroup (e :: above) ↔ (Forced e ∨ HasZ e) ∨ InGroup above := by
  simp [InGroup]

theorem inGroup_of_promoted {e : Elem} {above : List Elem} (h : Promoted e above) : InGroup (e :: above) := by
  rw [inGroup_cons]
  rcases h with h | h
  · exact Or.inl (Or.inl h)
  · exact Or.inl (Or.inr h.1)

theorem inGroup_of_not_promoted {e : Elem} {above : List Elem} (h : ¬ Promoted e above) :
    InGroup (e :: above) ↔ InGroup above := by
  rw [inGroup_cons]
  unfold Promoted at h
  tauto

theorem clampOpacity_eq (e : Elem) : clampOpacity e = clamp01 e.opacity := by
  unfold clampOpacity clamp01
  split
  · rw [min_eq_right (by linarith), max_eq_left (by linarith)]
  · split
    · rw [min_eq_left (by linarith), max_eq_right (by linarith)]
    · rw [min_eq_right (by linarith), max_eq_right (by linarith)]

theorem anchorOf_eq (e : Elem) : anchorOf e = anchorSpec e := by
  unfold anchorOf anchorSpec stickyConstraint
  by_cases h : e.position = .sticky <;> simp [h]

/-- The members of a layer among some elements. -/
def memIn (u : List Occ) (l : Option Nat) : List Nat :=
  (u.filter fun o => (leader o).map Elem.id = l).map (·.self.id)

theorem memIn_append (u v : List Occ) (l : Option Nat) : memIn (u ++ v) l = memIn u l ++ memIn v l := by
  simp [memIn]

theorem memIn_nil {u : List Occ} {l : Option Nat} (h : ∀ o ∈ u, (leader o).map Elem.id ≠ l) : memIn u l = [] := by
  simp only [memIn, List.map_eq_nil_iff, List.filter_eq_nil_iff, decide_eq_true_eq]
  exact h

theorem memIn_cons (o : Occ) (u : List Occ) (l : Option Nat) :
    memIn (o :: u) l = if (leader o).map Elem.id = l then o.self.id :: memIn u l else memIn u l := by
  simp only [memIn, List.filter_cons, decide_eq_true_eq]
  split <;> rfl

theorem groupOf_mem {above : List Elem} {x : Elem} (h : groupOf above = some x) : x ∈ above := by
  induction above with
  | nil => simp [groupOf] at h
  | cons e r ih =>
    rw [groupOf] at h
    split at h
    · simp at h; simp [h]
    · exact List.mem_cons_of_mem _ (ih h)

theorem leader_self (e : Elem) (above : List Elem) :
    leader ⟨e, above⟩ = some e ∨ (leader ⟨e, above⟩ = groupOf above ∧ groupOf (e :: above) = groupOf above) := by
  unfold leader
  by_cases h : Starts ⟨e, above⟩
  · left; simp [h]
  · right
    rw [if_neg h, groupOf, if_neg]
    · exact ⟨rfl, rfl⟩
    · intro hp; exact h (Or.inl hp)

theorem groupOf_cons (e : Elem) (above : List Elem) :
    groupOf (e :: above) = some e ∨ groupOf (e :: above) = groupOf above := by
  rw [groupOf]; split <;> simp

mutual
theorem leader_cases (t : LTree) : ∀ (above : List Elem) (o : Occ), o ∈ occs above t →
    leader o = groupOf above ∨ ∃ x ∈ occs above t, leader o = some x.self := by
  intro above o h
  match t with
  | .missing => simp [occs] at h
  | .node e cs =>
    rw [occs, List.mem_cons] at h
    rcases h with rfl | h
    · rcases leader_self e above with h1 | h1
      · exact Or.inr ⟨⟨e, above⟩, by simp [occs], h1⟩
      · exact Or.inl h1.1
    · rcases leader_cases_all cs _ o h with h1 | ⟨x, hx, h1⟩
      · rcases groupOf_cons e above with h2 | h2
        · exact Or.inr ⟨⟨e, above⟩, by simp [occs], by rw [h1, h2]⟩
        · exact Or.inl (by rw [h1, h2])
      · exact Or.inr ⟨x, by rw [occs]; exact List.mem_cons_of_mem _ hx, h1⟩
theorem leader_cases_all (ts : List LTree) : ∀ (above : List Elem) (o : Occ), o ∈ occsAll above ts →
    leader o = groupOf above ∨ ∃ x ∈ occsAll above ts, leader o = some x.self := by
  intro above o h
  match ts with
  | [] => simp [occsAll] at h
  | t :: r =>
    rw [occsAll, List.mem_append] at h
    rcases h with h | h
    · rcases leader_cases t above o h with h1 | ⟨x, hx, h1⟩
      · exact Or.inl h1
      · exact Or.inr ⟨x, by rw [occsAll]; exact List.mem_append_left _ hx, h1⟩
    · rcases leader_cases_all r above o h with h1 | ⟨x, hx, h1⟩
      · exact Or.inl h1
      · exact Or.inr ⟨x, by rw [occsAll]; exact List.mem_append_right _ hx, h1⟩
end

/-- The ids of a chain and of the elements under it are all different. -/
def Apart (above : List Elem) (u : List Occ) : Prop :=
  (u.map (·.self.id)).Nodup ∧ ∀ a ∈ above, ∀ o ∈ u, a.id ≠ o.self.id

theorem Apart.cons {e : Elem} {above : List Elem} {u : List Occ} (h : Apart above (⟨e, above⟩ :: u)) :
    Apart (e :: above) u := by
  unfold Apart at *
  simp only [List.map_cons, List.nodup_cons, List.mem_map, not_exists, not_and] at h
  refine ⟨h.1.2, ?_⟩
  intro a ha o ho
  rcases List.mem_cons.mp ha with rfl | ha
  · exact fun hh => h.1.1 o ho hh.symm
  · exact h.2 a ha o (List.mem_cons_of_mem _ ho)

theorem Apart.left {above : List Elem} {u v : List Occ} (h : Apart above (u ++ v)) : Apart above u := by
  unfold Apart at *
  rw [List.map_append, List.nodup_append] at h
  exact ⟨h.1.1, fun a ha o ho => h.2 a ha o (List.mem_append_left _ ho)⟩

theorem Apart.right {above : List Elem} {u v : List Occ} (h : Apart above (u ++ v)) : Apart above v := by
  unfold Apart at *
  rw [List.map_append, List.nodup_append] at h
  exact ⟨h.1.2.1, fun a ha o ho => h.2 a ha o (List.mem_append_right _ ho)⟩

theorem Apart.disj {above : List Elem} {u v : List Occ} (h : Apart above (u ++ v)) {a b : Occ} (ha : a ∈ u)
    (hb : b ∈ v) : a.self.id ≠ b.self.id := by
  unfold Apart at h
  rw [List.map_append, List.nodup_append] at h
  exact h.1.2.2 _ (List.mem_map_of_mem ha) _ (List.mem_map_of_mem hb)

/-- Elements led from inside are not led by a stranger. -/
theorem memIn_foreign {above : List Elem} {u : List Occ} {i : Nat}
    (hl : ∀ o ∈ u, leader o = groupOf above ∨ ∃ x ∈ u, leader o = some x.self)
    (h1 : ∀ a, groupOf above = some a → a.id ≠ i) (h2 : ∀ o ∈ u, o.self.id ≠ i) : memIn u (some i) = [] := by
  apply memIn_nil
  intro o ho
  rcases hl o ho with h | ⟨x, hx, h⟩
  · rw [h]
    cases hg : groupOf above with
    | none => simp
    | some a => simpa using h1 a hg
  · rw [h]; simpa using h2 x hx

mutual
theorem stay_eq (t : LTree) : ∀ (above : List Elem), Apart above (occs above t) →
    stay (decide (InGroup above)) t = memIn (occs above t) ((groupOf above).map Elem.id) := by
  intro above h
  match t with
  | .missing => simp [stay, occs, memIn]
  | .node e cs =>
    rw [stay, occs]
    rw [occs] at h
    have hc := stayAll_eq cs (e :: above) h.cons
    have hself : (groupOf above).map Elem.id ≠ some e.id := by
      cases hg : groupOf above with
      | none => simp
      | some a => simpa using h.2 a (groupOf_mem hg) ⟨e, above⟩ (by simp)
    by_cases hp : Promoted e above
    · rw [if_pos ((promoted_iff e above).mpr hp)]
      symm
      apply memIn_nil
      intro o ho
      rcases List.mem_cons.mp ho with rfl | ho
      · rw [leader, if_pos (show Starts ⟨e, above⟩ from Or.inl hp)]; exact fun hh => hself hh.symm
      · rcases leader_cases_all cs _ o ho with h1 | ⟨x, hx, h1⟩
        · rw [h1, groupOf, if_pos hp]; exact fun hh => hself hh.symm
        · rw [h1]
          cases hg : groupOf above with
          | none => simp
          | some a => simpa using fun hh => h.2 a (groupOf_mem hg) x (List.mem_cons_of_mem _ hx) (Eq.symm hh)
    · rw [if_neg (fun hh => hp ((promoted_iff e above).mp hh))]
      have hg : decide (InGroup (e :: above)) = decide (InGroup above) := by
        simp only [inGroup_of_not_promoted hp]
      have hgo : groupOf (e :: above) = groupOf above := by rw [groupOf, if_neg hp]
      rw [hg, hgo] at hc
      rw [memIn_cons, leader]
      by_cases hi : (e.isImg && !decide (InGroup above)) = true
      · have hs : Starts ⟨e, above⟩ := Or.inr (by simpa using hi)
        rw [if_pos hi, if_pos hs, if_neg (fun hh => hself (by rw [← hh]; rfl)), hc]
      · have hs : ¬ Starts ⟨e, above⟩ := by
          intro hs
          rcases hs with hs | hs
          · exact hp hs
          · exact hi (by simpa using hs)
        rw [if_neg hi, if_neg hs, if_pos rfl, hc]
theorem stayAll_eq (ts : List LTree) : ∀ (above : List Elem), Apart above (occsAll above ts) →
    stayAll (decide (InGroup above)) ts = memIn (occsAll above ts) ((groupOf above).map Elem.id) := by
  intro above h
  match ts with
  | [] => simp [stayAll, occsAll, memIn]
  | t :: r =>
    rw [occsAll] at h
    rw [stayAll, occsAll, memIn_append, stay_eq t above h.left, stayAll_eq r above h.right]
end

/-- The layer started by an element, with its members among `u`. -/
def descIn (u : List Occ) (o : Occ) : Desc :=
  ⟨level o, clamp01 o.self.opacity, anchorSpec o.self, memIn u (some o.self.id)⟩

mutual
theorem fresh_eq (t : LTree) : ∀ (above : List Elem), Apart above (occs above t) →
    fresh (decide (InGroup above)) (levelOf above) t =
      ((occs above t).filter fun o => Starts o).map (descIn (occs above t)) := by
  intro above h
  match t with
  | .missing => simp [fresh, occs]
  | .node e cs =>
    rw [occs] at h
    have hc := freshAll_eq cs (e :: above) h.cons
    have hs := stayAll_eq cs (e :: above) h.cons
    -- the children do not see their parent among the members
    have hcongr : ((occsAll (e :: above) cs).filter fun o => Starts o).map (descIn (occs above (.node e cs))) =
        ((occsAll (e :: above) cs).filter fun o => Starts o).map (descIn (occsAll (e :: above) cs)) := by
      apply List.map_congr_left
      intro o ho
      have ho := List.mem_of_mem_filter ho
      have hne : (leader ⟨e, above⟩).map Elem.id ≠ some o.self.id := by
        rcases leader_self e above with h1 | h1
        · rw [h1]; simpa using h.cons.2 e (by simp) o ho
        · rw [h1.1]
          cases hg : groupOf above with
          | none => simp
          | some a => simpa using h.2 a (groupOf_mem hg) o (List.mem_cons_of_mem _ ho)
      simp only [descIn, occs, memIn_cons, if_neg hne]
    rw [fresh, orderOf_eq]
    by_cases hp : Promoted e above
    · rw [if_pos ((promoted_iff e above).mpr hp)]
      have hg : decide (InGroup (e :: above)) = true := by simpa using inGroup_of_promoted hp
      have hgo : groupOf (e :: above) = some e := by rw [groupOf, if_pos hp]
      rw [hg] at hc hs
      have hst : Starts ⟨e, above⟩ := Or.inl hp
      have e1 : (occs above (.node e cs)).filter (fun o => decide (Starts o)) =
          ⟨e, above⟩ :: (occsAll (e :: above) cs).filter (fun o => decide (Starts o)) := by
        rw [occs, List.filter_cons, if_pos (by simpa using hst)]
      rw [e1, List.map_cons, hcongr, ← hc]
      congr 1
      have hl : (leader ⟨e, above⟩).map Elem.id = some e.id := by rw [leader, if_pos hst]; rfl
      simp only [descIn, level, occs, memIn_cons, if_pos hl, hs, hgo, clampOpacity_eq, anchorOf_eq, Option.map_some]
    · rw [if_neg (fun hh => hp ((promoted_iff e above).mp hh))]
      have hg : decide (InGroup (e :: above)) = decide (InGroup above) := by
        simp only [inGroup_of_not_promoted hp]
      rw [hg] at hc
      by_cases hi : (e.isImg && !decide (InGroup above)) = true
      · have hst : Starts ⟨e, above⟩ := Or.inr (by simpa using hi)
        have e1 : (occs above (.node e cs)).filter (fun o => decide (Starts o)) =
            ⟨e, above⟩ :: (occsAll (e :: above) cs).filter (fun o => decide (Starts o)) := by
          rw [occs, List.filter_cons, if_pos (by simpa using hst)]
        rw [if_pos hi, e1, List.map_cons, hcongr, ← hc]
        congr 1
        have hl : (leader ⟨e, above⟩).map Elem.id = some e.id := by rw [leader, if_pos hst]; rfl
        have hf : ¬ Forced e := fun hf => hp (Or.inl hf)
        unfold Forced at hf
        simp only [not_or, not_lt] at hf
        have hno : memIn (occsAll (e :: above) cs) (some e.id) = [] := by
          apply memIn_foreign (leader_cases_all cs (e :: above))
          · intro a ha
            rw [groupOf, if_neg hp] at ha
            exact h.2 a (groupOf_mem ha) ⟨e, above⟩ (by simp)
          · intro o ho hh
            exact h.cons.2 e (by simp) o ho hh.symm
        simp only [descIn, level, occs, memIn_cons, if_pos hl, hno, anchorSpec, if_neg hf.2.1, if_neg hf.2.2, clamp01]
        rw [min_eq_left hf.1, max_eq_right (by norm_num)]
      · have hst : ¬ Starts ⟨e, above⟩ := by
          intro hs
          rcases hs with hs | hs
          · exact hp hs
          · exact hi (by simpa using hs)
        have e1 : (occs above (.node e cs)).filter (fun o => decide (Starts o)) =
            (occsAll (e :: above) cs).filter (fun o => decide (Starts o)) := by
          rw [occs, List.filter_cons, if_neg (by simpa using hst)]
        rw [if_neg hi, e1, hcongr, ← hc]
theorem freshAll_eq (ts : List LTree) : ∀ (above : List Elem), Apart above (occsAll above ts) →
    freshAll (decide (InGroup above)) (levelOf above) ts =
      ((occsAll above ts).filter fun o => Starts o).map (descIn (occsAll above ts)) := by
  intro above h
  match ts with
  | [] => simp [freshAll, occsAll]
  | t :: r =>
    rw [occsAll] at h
    rw [freshAll, occsAll, List.filter_append, List.map_append, fresh_eq t above h.left, freshAll_eq r above h.right]
    congr 1
    · apply List.map_congr_left
      intro o ho
      have ho := List.mem_of_mem_filter ho
      simp only [descIn, memIn_append]
      rw [memIn_foreign (u := occsAll above r) (leader_cases_all r above)
        (fun a ha => h.left.2 a (groupOf_mem ha) o ho) (fun x hx hh => h.disj ho hx hh.symm), List.append_nil]
    · apply List.map_congr_left
      intro o ho
      have ho := List.mem_of_mem_filter ho
      simp only [descIn, memIn_append]
      rw [memIn_foreign (u := occs above t) (leader_cases t above)
        (fun a ha => h.right.2 a (groupOf_mem ha) o ho) (fun x hx hh => h.disj hx ho hh), List.nil_append]
end

end Verif.Layers
