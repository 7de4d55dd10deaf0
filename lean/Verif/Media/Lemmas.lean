import Verif.Media.Spec
import Mathlib.Data.List.Induction

/-! # Invariants of the store of images -/

namespace Verif.Media

theorem after_snoc (acts : List Act) (x : Act) : after (acts ++ [x]) = (after acts).step x := by
  unfold after; rw [List.foldl_append]; rfl

/-! ## One thread of a list goes on -/

theorem count_set {α : Type} (p : α → Bool) (l : List α) (i : Nat) (x y : α) (h : l[i]? = some x) :
    (l.set i y).countP p + (p x).toNat = l.countP p + (p y).toNat := by
  induction l generalizing i with
  | nil => cases h
  | cons a l ih =>
    cases i with
    | zero =>
      simp only [List.getElem?_cons_zero, Option.some.injEq] at h
      subst h
      rw [List.set_cons_zero, List.countP_cons, List.countP_cons]
      cases p a <;> cases p y <;> simp
    | succ i =>
      rw [List.getElem?_cons_succ] at h
      have := ih i h
      rw [List.set_cons_succ, List.countP_cons, List.countP_cons]
      omega

theorem only {α : Type} {p : α → Bool} {l : List α} {x y : α} (h : l.countP p ≤ 1) (hx : x ∈ l) (hy : y ∈ l)
    (px : p x = true) (py : p y = true) : x = y := by
  induction l with
  | nil => cases hx
  | cons a l ih =>
    rw [List.countP_cons] at h
    rw [List.mem_cons] at hx hy
    have pos : ∀ z, z ∈ l → p z = true → 0 < l.countP p := fun z hz pz => List.countP_pos_iff.2 ⟨z, hz, pz⟩
    rcases hx with rfl | hx
    · rcases hy with rfl | hy
      · rfl
      · have := pos y hy py
        simp only [px, if_true] at h; omega
    · rcases hy with rfl | hy
      · have := pos x hx px
        simp only [py, if_true] at h; omega
      · exact ih (by omega) hx hy

theorem mem_keep {α : Type} {l : List α} {i : Nat} {x y z : α} (h : l[i]? = some x) (hz : z ∈ l) (hn : z ≠ x) :
    z ∈ l.set i y := by
  obtain ⟨j, hj⟩ := List.mem_iff_getElem?.1 hz
  refine List.mem_iff_getElem?.2 ⟨j, ?_⟩
  rw [List.getElem?_set_ne, hj]
  rintro rfl
  rw [h] at hj
  exact hn (Option.some.inj hj).symm

theorem mem_new {α : Type} {l : List α} {i : Nat} {x y : α} (h : l[i]? = some x) : y ∈ l.set i y := by
  refine List.mem_iff_getElem?.2 ⟨i, ?_⟩
  obtain ⟨hl, _⟩ := List.getElem?_eq_some_iff.1 h
  rw [List.getElem?_set_self hl]

theorem mem_old {α : Type} {l : List α} {i : Nat} {y z : α} (hz : z ∈ l.set i y) : z ∈ l ∨ z = y :=
  List.mem_or_eq_of_mem_set hz

/-! ## Ids -/

/-- A thread that is about to enter a picture under an id. -/
def holds (id : Nat) : Pc → Bool
  | .entry _ id' _ | .otherEntry _ id' _ => id' = id
  | _ => false

structure Ids (s : St) : Prop where
  one : ∀ id, s.threads.countP (holds id) + (if s.entries id = none then 0 else 1) ≤ 1
  new : ∀ id, s.next ≤ id → s.threads.countP (holds id) = 0 ∧ s.entries id = none
  big : 100 ≤ s.next
  min : ∀ id, id < 100 → s.threads.countP (holds id) = 0

theorem ids_same {s s' : St} (h : Ids s) (he : s'.entries = s.entries) (hn : s'.next = s.next)
    (hc : ∀ id, s'.threads.countP (holds id) = s.threads.countP (holds id)) : Ids s' := by
  refine ⟨fun id => ?_, fun id hid => ?_, ?_, fun id hid => ?_⟩
  · rw [hc, he]; exact h.one id
  · rw [hc, he]; exact h.new id (by rw [← hn]; exact hid)
  · rw [hn]; exact h.big
  · rw [hc]; exact h.min id hid

theorem ids_alloc {s s' : St} (h : Ids s) (he : s'.entries = s.entries) (hn : s'.next = s.next + 1)
    (hc : ∀ id, s'.threads.countP (holds id) = s.threads.countP (holds id) + if s.next = id then 1 else 0) : Ids s' := by
  refine ⟨fun id => ?_, fun id hid => ?_, ?_, fun id hid => ?_⟩
  · rw [hc, he]
    by_cases hi : s.next = id
    · obtain ⟨h1, h2⟩ := h.new id (by omega)
      rw [h1, h2, if_pos hi]; simp
    · rw [if_neg hi]; exact h.one id
  · rw [hc, he, if_neg (by omega)]
    exact h.new id (by omega)
  · have := h.big; omega
  · have := h.big
    rw [hc, if_neg (by omega)]; exact h.min id hid

theorem ids_entry {s s' : St} (h : Ids s) (id : Nat) (p : Pic) (he : s'.entries = put s.entries id (some p))
    (hn : s'.next = s.next)
    (hc : ∀ j, s'.threads.countP (holds j) + (if id = j then 1 else 0) = s.threads.countP (holds j)) : Ids s' := by
  have hid := hc id
  rw [if_pos rfl] at hid
  refine ⟨fun j => ?_, fun j hj => ?_, ?_, fun j hj => ?_⟩
  · have h1 := hc j
    have h2 := h.one j
    rw [he]
    unfold put
    by_cases hj : j = id
    · subst hj
      rw [if_pos rfl] at h1 ⊢
      simp only [reduceCtorEq, if_false]
      split at h2 <;> omega
    · rw [if_neg hj]
      rw [if_neg (Ne.symm hj)] at h1
      rw [← h1] at h2
      exact h2
  · have h1 := h.new j (by rw [← hn]; exact hj)
    have h2 := hc j
    have hne : j ≠ id := by rintro rfl; omega
    rw [if_neg (Ne.symm hne)] at h2
    rw [he]
    refine ⟨by omega, ?_⟩
    unfold put
    rw [if_neg hne]; exact h1.2
  · rw [hn]; exact h.big
  · have h1 := h.min j hj
    have h2 := hc j
    split at h2 <;> omega

theorem ids_step {s : St} (h : Ids s) (x : Act) : Ids (s.step x) := by
  cases x with
  | request k => exact ids_same h rfl rfl (fun id => by simp [St.step, List.countP_append, holds])
  | other k p => exact ids_same h rfl rfl (fun id => by simp [St.step, List.countP_append, holds])
  | take => exact ids_same h rfl rfl (fun id => rfl)
  | run i r ok =>
    simp only [St.step]
    cases hi : s.threads[i]? with
    | none => exact h
    | some pc =>
      have cs := fun id y => count_set (holds id) s.threads i pc y hi
      cases pc with
      | req k =>
        simp only [St.move]
        split
        · exact ids_same h rfl rfl (fun id => by have := cs id .done; simpa [holds, St.go, St.say, St.move] using this)
        · exact ids_same h rfl rfl (fun id => by have := cs id (.miss k); simpa [holds, St.go, St.say, St.move] using this)
      | miss k =>
        simp only [St.move]
        split
        · exact ids_same h rfl rfl (fun id => by have := cs id .done; simpa [holds, St.go, St.say, St.move] using this)
        · exact ids_same h rfl rfl (fun id => by have := cs id (.own k); simpa [holds, St.go, St.say, St.move] using this)
      | own k =>
        simp only [St.move]
        split
        · exact ids_same h rfl rfl (fun id => by
            have := cs id .done; simpa [holds, St.go, St.say, List.countP_append] using this)
        · exact ids_same h rfl rfl (fun id => by have := cs id (.noSpawn k); simpa [holds, St.go, St.say, St.move] using this)
      | noSpawn k => exact ids_same h rfl rfl (fun id => by have := cs id .done; simpa [holds, St.go, St.say, St.move] using this)
      | load k =>
        simp only [St.move]
        split
        · exact ids_same h rfl rfl (fun id => by have := cs id (.drop k); simpa [holds, St.go, St.say, St.move] using this)
        · exact ids_same h rfl rfl (fun id => by have := cs id (.fetch k); simpa [holds, St.go, St.say, St.move] using this)
      | fetch k =>
        simp only [St.move]
        split
        · exact ids_same h rfl rfl (fun id => by have := cs id (.failed k); simpa [holds, St.go, St.say, St.move] using this)
        · rename_i p
          exact ids_same h rfl rfl (fun id => by have := cs id (.alloc k p); simpa [holds, St.go, St.say, St.move] using this)
      | failed k => exact ids_same h rfl rfl (fun id => by have := cs id (.drop k); simpa [holds, St.go, St.say, St.move] using this)
      | alloc k p =>
        refine ids_alloc h rfl rfl (fun id => ?_)
        have := cs id (.entry k s.next p)
        by_cases e : s.next = id <;> simpa [holds, St.go, St.move, e] using this
      | entry k id p =>
        refine ids_entry h id (k, p) rfl rfl (fun j => ?_)
        have := cs j (.store k id)
        by_cases e : id = j <;> simpa [holds, St.go, St.move, e] using this
      | store k id => exact ids_same h rfl rfl (fun id => by have := cs id (.drop k); simpa [holds, St.go, St.say, St.move] using this)
      | drop k => exact ids_same h rfl rfl (fun id => by have := cs id (.signal k); simpa [holds, St.go, St.say, St.move] using this)
      | signal k => exact ids_same h rfl rfl (fun id => by have := cs id .done; simpa [holds, St.go, St.say, St.move] using this)
      | other k p =>
        simp only [St.move]
        split
        · exact ids_same h rfl rfl (fun id => by have := cs id .done; simpa [holds, St.go, St.say, St.move] using this)
        · exact ids_same h rfl rfl (fun id => by have := cs id (.otherAlloc k p); simpa [holds, St.go, St.say, St.move] using this)
      | otherAlloc k p =>
        refine ids_alloc h rfl rfl (fun id => ?_)
        have := cs id (.otherEntry k s.next p)
        by_cases e : s.next = id <;> simpa [holds, St.go, St.move, e] using this
      | otherEntry k id p =>
        refine ids_entry h id p rfl rfl (fun j => ?_)
        have := cs j (.otherStore k id)
        by_cases e : id = j <;> simpa [holds, St.go, St.move, e] using this
      | otherStore k id => exact ids_same h rfl rfl (fun id => by have := cs id .done; simpa [holds, St.go, St.say, St.move] using this)
      | done => exact h

theorem ids_after (acts : List Act) : Ids (after acts) := by
  induction acts using List.reverseRecOn with
  | nil =>
    refine ⟨fun id => ?_, fun id h => ⟨rfl, ?_⟩, Nat.le_refl _, fun _ _ => rfl⟩
    · show 0 + _ ≤ 1
      split <;> omega
    · have h' : 100 ≤ id := h
      show (if id = 0 then _ else if id = 1 then _ else none) = none
      rw [if_neg (by omega), if_neg (by omega)]
  | append_singleton acts x ih => rw [after_snoc]; exact ids_step ih x

end Verif.Media
