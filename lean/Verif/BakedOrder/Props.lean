import Verif.BakedOrder.Spec

/-! # C145: the order of baked tiles -/
namespace Verif.BakedOrder

variable {T : Type}

theorem take_sublist : ∀ (ks : List Key) (m : Key → Option T), ((take m ks).map (·.1)).Sublist ks := by
  intro ks
  induction ks with
  | nil => intro m; exact List.Sublist.slnil
  | cons k r ih =>
    intro m
    unfold take
    split
    · exact (ih _).cons_cons k
    · exact (ih _).cons k

theorem mem_take : ∀ (ks : List Key) (m : Key → Option T) (k : Key) (t : T), (k, t) ∈ take m ks ↔ m k = some t ∧ k ∈ ks := by
  intro ks
  induction ks with
  | nil => intro m k t; simp [take]
  | cons k0 r ih =>
    intro m k t
    unfold take
    split
    · next t0 h0 =>
      rw [List.mem_cons, ih]
      by_cases hk : k = k0
      · subst hk
        simp only [if_true, Prod.mk.injEq, true_and, List.mem_cons, true_or, and_true]
        constructor
        · rintro (rfl | ⟨h, _⟩)
          · exact h0
          · cases h
        · intro h
          rw [h0] at h
          exact .inl (Option.some.inj h).symm
      · simp [hk]
    · next h0 =>
      rw [ih]
      by_cases hk : k = k0
      · subst hk
        rw [h0]; simp
      · simp [hk]

theorem take_nodup : ∀ (ks : List Key) (m : Key → Option T), ((take m ks).map (·.1)).Nodup := by
  intro ks
  induction ks with
  | nil => intro m; simp [take]
  | cons k r ih =>
    intro m
    unfold take
    split
    · rw [List.map_cons, List.nodup_cons]
      refine ⟨?_, ih _⟩
      intro hm
      obtain ⟨⟨k', t⟩, h1, h2⟩ := List.mem_map.1 hm
      have h2' : k' = k := h2
      subst h2'
      have := (mem_take r _ _ _).1 h1
      simp at this
    · exact ih _

/-- **C145** Exactly the baked tiles that the table of tiles knows are shown, each once. -/
theorem C145_each (layers : List Nat) (tilesOf : Nat → List Nat) (arena : Nat → Option Key) (m : Key → Option T) :
    ((order layers tilesOf arena m).map (·.1)).Nodup ∧
    ∀ k t, (k, t) ∈ order layers tilesOf arena m ↔ m k = some t ∧ Known layers tilesOf arena k := by
  refine ⟨take_nodup _ _, ?_⟩
  intro k t
  unfold order
  rw [mem_take]
  simp only [List.mem_flatMap, List.mem_filterMap, Known]

theorem pairwise_layers {tilesOf : Nat → List Nat} {arena : Nat → Option Key} (hs : Sound tilesOf arena) (all : List Nat) :
    ∀ (layers p : List Nat), all = p ++ layers →
    (layers.flatMap fun l => (tilesOf l).filterMap arena).Pairwise (fun a b => a.layer = b.layer ∨ Before all a.layer b.layer) := by
  intro layers
  induction layers with
  | nil => intro p _; simp
  | cons l r ih =>
    intro p hp
    rw [List.flatMap_cons, List.pairwise_append]
    have hl : ∀ k ∈ (tilesOf l).filterMap arena, k.layer = l := by
      intro k hk
      obtain ⟨i, hi, he⟩ := List.mem_filterMap.1 hk
      exact hs l i hi k he
    refine ⟨?_, ih (p ++ [l]) (by simp [hp]), ?_⟩
    · rw [List.pairwise_iff_forall_sublist]
      intro a b hab
      left
      rw [hl a (hab.subset (by simp)), hl b (hab.subset (by simp))]
    · intro a ha b hb
      right
      obtain ⟨l', hl', hb'⟩ := List.mem_flatMap.1 hb
      obtain ⟨i, hi, he⟩ := List.mem_filterMap.1 hb'
      rw [hl a ha, hs l' i hi b he]
      obtain ⟨q, s, rfl⟩ := List.append_of_mem hl'
      exact ⟨p, q, s, by simp [hp]⟩

/-- **C145** The tiles are shown back to front: of two tiles the one shown first is in the same layer or in one that is
before in the order of layers. -/
theorem C145_layers {layers : List Nat} {tilesOf : Nat → List Nat} {arena : Nat → Option Key} (hs : Sound tilesOf arena)
    (m : Key → Option T) :
    (order layers tilesOf arena m).Pairwise (fun a b => a.1.layer = b.1.layer ∨ Before layers a.1.layer b.1.layer) := by
  have h1 := pairwise_layers hs layers layers [] rfl
  have h2 := h1.sublist (take_sublist (T := T) _ m)
  rw [List.pairwise_map] at h2
  exact h2

theorem before_idx {l : List Nat} {a b : Nat} (hn : l.Nodup) (h : Before l a b) : l.idxOf a < l.idxOf b := by
  obtain ⟨p, q, r, rfl⟩ := h
  have ha : a ∉ p := fun hm => by
    rw [List.append_assoc] at hn
    exact (List.nodup_append.1 hn).2.2 _ hm _ (by simp) rfl
  have hb : b ∉ p ++ a :: q := fun hm => (List.nodup_append.1 hn).2.2 _ hm _ (by simp) rfl
  rw [List.idxOf_append, if_pos (by simp), List.idxOf_append, if_neg ha, List.idxOf_append, if_neg hb]
  simp

/-- **C145** If no layer is listed twice, this means: no tile is shown over a tile of a layer further to the front. -/
theorem C145_front {layers : List Nat} {tilesOf : Nat → List Nat} {arena : Nat → Option Key} (hs : Sound tilesOf arena)
    (hn : layers.Nodup) (m : Key → Option T) {p q r : List (Key × T)} {a b : Key × T}
    (ho : order layers tilesOf arena m = p ++ a :: q ++ b :: r) : ¬ Before layers b.1.layer a.1.layer := by
  have h := C145_layers (layers := layers) hs m
  rw [ho] at h
  have hab := (List.pairwise_append.1 h).2.2 a (by simp) b (by simp)
  rintro ⟨p1, q1, r1, e1⟩
  rcases hab with e | ⟨p2, q2, r2, e2⟩
  · rw [e] at e1
    rw [e1] at hn
    have := (List.nodup_append.1 hn).2.2 b.1.layer (by simp) b.1.layer (by simp)
    exact this rfl
  · have i1 := before_idx hn ⟨p1, q1, r1, e1⟩
    have i2 := before_idx hn ⟨p2, q2, r2, e2⟩
    omega

/-- two layers, the one with the number 7 behind; the second tile of layer 7 is not baked -/
def sampleTiles : Nat → List Nat := fun l => if l = 7 then [0, 1] else if l = 3 then [2] else []
/-- see `sampleTiles` -/
def sampleArena : Nat → Option Key := fun i =>
  if i = 0 then some ⟨0, 0, 7⟩ else if i = 1 then some ⟨256, 0, 7⟩ else if i = 2 then some ⟨0, 0, 3⟩ else none
/-- see `sampleTiles` -/
def sampleMap : Key → Option String := fun k =>
  if k = ⟨0, 0, 3⟩ then some "header" else if k = ⟨0, 0, 7⟩ then some "page" else none

example : order [7, 3] sampleTiles sampleArena sampleMap = [(⟨0, 0, 7⟩, "page"), (⟨0, 0, 3⟩, "header")] := by decide

example : Sound sampleTiles sampleArena := by
  intro l i hi k hk
  unfold sampleTiles at hi
  split at hi
  · next h =>
    subst h
    simp only [List.mem_cons, List.not_mem_nil, or_false] at hi
    rcases hi with rfl | rfl <;> · simp [sampleArena] at hk; subst hk; rfl
  · split at hi
    · next h =>
      subst h
      simp only [List.mem_cons, List.not_mem_nil, or_false] at hi
      subst hi
      simp [sampleArena] at hk; subst hk; rfl
    · cases hi

end Verif.BakedOrder
