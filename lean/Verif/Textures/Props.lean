import Verif.Textures.Spec

/-! # C146: textures are kept under their identifiers -/
namespace Verif.Textures

theorem call_eq (s : Store) (i : Item) : (call s i).1 = s.nextId ∧ (call s i).2.nextId = s.nextId + 1 ∧
    ∀ k, (call s i).2.get k = if k = s.nextId then some ⟨s.nextId, i.width, i.height, i.pixels, i.format⟩ else s.get k := by
  obtain ⟨w, h, p, f⟩ := i
  cases p <;> exact ⟨rfl, rfl, fun k => rfl⟩

theorem history_inv {h : List (Nat × Item)} {s : Store} (H : History h s) :
    (∀ e ∈ h, e.1 < s.nextId) ∧ (h.map (·.1)).Nodup ∧
    ∀ k t, s.get k = some t ↔ ∃ i, (k, i) ∈ h ∧ t = ⟨k, i.width, i.height, i.pixels, i.format⟩ := by
  induction H with
  | start => exact ⟨by simp, by simp, by intro k t; simp [Store.get, Store.new]⟩
  | @step h s i _ ih =>
    obtain ⟨h1, h2, h3⟩ := ih
    obtain ⟨c1, c2, c3⟩ := call_eq s i
    rw [c1]
    refine ⟨?_, ?_, ?_⟩
    · intro e he
      rw [c2]
      rcases List.mem_append.1 he with he | he
      · have := h1 e he; omega
      · rw [List.mem_singleton] at he; subst he; exact Nat.lt_succ_self _
    · rw [List.map_append, List.nodup_append]
      refine ⟨h2, by simp, ?_⟩
      intro a ha b hb
      obtain ⟨e, he, rfl⟩ := List.mem_map.1 ha
      simp only [List.map_cons, List.map_nil, List.mem_singleton] at hb
      have := h1 e he
      omega
    · intro k t
      rw [c3]
      split
      · next hk =>
        subst hk
        constructor
        · intro ht
          cases ht
          exact ⟨i, by simp, rfl⟩
        · rintro ⟨j, hj, rfl⟩
          rcases List.mem_append.1 hj with hj | hj
          · exact absurd (h1 _ hj) (Nat.lt_irrefl _)
          · simp only [List.mem_singleton, Prod.mk.injEq, true_and] at hj
            subst hj; rfl
      · next hk =>
        rw [h3]
        constructor
        · rintro ⟨j, hj, e⟩
          exact ⟨j, by simp [hj], e⟩
        · rintro ⟨j, hj, e⟩
          rcases List.mem_append.1 hj with hj | hj
          · exact ⟨j, hj, e⟩
          · simp only [List.mem_singleton, Prod.mk.injEq] at hj
            exact absurd hj.1 hk

/-- **C146** All identifiers given are different, and at any time the store gives under an identifier exactly what was
added under it, unchanged, and nothing under others. -/
theorem C146_textures {h : List (Nat × Item)} {s : Store} (H : History h s) :
    (h.map (·.1)).Nodup ∧
    ∀ k t, s.get k = some t ↔ ∃ i, (k, i) ∈ h ∧ t = ⟨k, i.width, i.height, i.pixels, i.format⟩ :=
  (history_inv H).2

/-- two textures -/
example : ∃ s, History [(0, ⟨2, 1, .cpu [1, 2], 0⟩), (1, ⟨256, 256, .gpu 9, 1⟩)] s ∧ s.get 1 = some ⟨1, 256, 256, .gpu 9, 1⟩ ∧ s.get 2 = none :=
  ⟨_, .step ⟨256, 256, .gpu 9, 1⟩ (.step ⟨2, 1, .cpu [1, 2], 0⟩ .start), rfl, rfl⟩

end Verif.Textures
