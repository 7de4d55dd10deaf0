import Verif.Table.Spec

set_option linter.unusedVariables false
namespace Verif.Table
variable {N : Type}

/-! ## slots -/

theorem getD_decrement (slots : List Nat) (c : Nat) :
    (decrementSlots slots).getD c 0 = slots.getD c 0 - 1 := by
  unfold decrementSlots
  rw [List.getD_eq_getElem?_getD, List.getD_eq_getElem?_getD, List.getElem?_map]
  cases slots[c]? <;> simp

theorem length_decrement (slots : List Nat) : (decrementSlots slots).length = slots.length := by
  simp [decrementSlots]

theorem getD_grow (slots : List Nat) (n c : Nat) : (growSlots slots n).getD c 0 = slots.getD c 0 := by
  unfold growSlots
  rw [List.getD_eq_getElem?_getD, List.getD_eq_getElem?_getD, List.getElem?_append]
  split
  · rfl
  · next h =>
    rw [List.getElem?_replicate, List.getElem?_eq_none (by omega)]
    split <;> rfl

theorem length_grow (slots : List Nat) (n : Nat) : (growSlots slots n).length = max slots.length n := by
  simp [growSlots]; omega

theorem length_mark (slots : List Nat) (a b r : Nat) : (markSlots slots a b r).length = slots.length := by
  simp [markSlots]

theorem getD_mark (slots : List Nat) (a b r c : Nat) (h : a + b ≤ slots.length) :
    (markSlots slots a b r).getD c 0 = if a ≤ c ∧ c < a + b then r else slots.getD c 0 := by
  unfold markSlots
  rw [List.getD_eq_getElem?_getD, List.getD_eq_getElem?_getD, List.getElem?_mapIdx]
  by_cases hc : c < slots.length
  · rw [List.getElem?_eq_getElem hc]; simp
  · rw [List.getElem?_eq_none (by omega), if_neg (by omega)]; rfl

theorem nextFree_spec (l : List Nat) (col : Nat) :
    col ≤ nextFree l col ∧ l.getD (nextFree l col - col) 0 = 0 ∧
    ∀ i, col + i < nextFree l col → 0 < l.getD i 0 := by
  induction l generalizing col with
  | nil => simp [nextFree]
  | cons s r ih =>
    simp only [nextFree]
    split
    · next hs =>
      obtain ⟨h1, h2, h3⟩ := ih (col + 1)
      refine ⟨by omega, ?_, ?_⟩
      · have : nextFree r (col + 1) - col = (nextFree r (col + 1) - (col + 1)) + 1 := by omega
        rw [this]; simpa using h2
      · intro i hi
        cases i with
        | zero => simpa using hs
        | succ i => simpa using h3 i (by omega)
    · next hs => exact ⟨by omega, by simp; omega, fun i hi => by omega⟩

theorem nextFreeCol_spec (slots : List Nat) (start : Nat) :
    start ≤ nextFreeCol slots start ∧ slots.getD (nextFreeCol slots start) 0 = 0 ∧
    ∀ c, start ≤ c → c < nextFreeCol slots start → 0 < slots.getD c 0 := by
  obtain ⟨h1, h2, h3⟩ := nextFree_spec (slots.drop start) start
  have hd : ∀ i, (slots.drop start).getD i 0 = slots.getD (start + i) 0 := by
    intro i
    rw [List.getD_eq_getElem?_getD, List.getD_eq_getElem?_getD, List.getElem?_drop]
  refine ⟨h1, ?_, ?_⟩
  · rw [hd] at h2
    unfold nextFreeCol
    rwa [Nat.add_sub_cancel' h1] at h2
  · intro c hc hlt
    have := h3 (c - start) (by unfold nextFreeCol at hlt; omega)
    rw [hd] at this
    rwa [Nat.add_sub_cancel' hc] at this

/-! ## the shape of the output -/

/-- the cell placed for a source cell, but for its column -/
def expected (nRows : Nat) (s : Source N × Nat) : N × Nat × Nat × Nat :=
  (s.1.node, s.2, max s.1.colspan 1, min (max s.1.rowspan 1) (nRows - s.2))

def shape (p : Placed N) : N × Nat × Nat × Nat := (p.node, p.row, p.colspan, p.rowspan)

theorem placeRow_shape (n r : Nat) (cs : List (Source N)) (slots : List Nat) (col : Nat) :
    (placeRow n r cs slots col).1.map shape = cs.map fun s => expected n (s, r) := by
  induction cs generalizing slots col with
  | nil => rfl
  | cons s rest ih =>
    simp only [placeRow, List.map_cons, ih]
    rfl

theorem placeRows_shape (n : Nat) (rows : List (Row N)) (r : Nat) (slots : List Nat) :
    (placeRows n rows r slots).1.map shape =
      ((rows.zipIdx r).flatMap fun (q, i) => q.cells.map fun s => (s, i)).map (expected n) := by
  induction rows generalizing r slots with
  | nil => rfl
  | cons q rest ih =>
    simp only [placeRows, List.map_append, placeRow_shape, ih, List.zipIdx_cons, List.flatMap_cons,
      List.map_map]
    rfl

/-! ## the invariant -/

structure Inv (done : List (Placed N)) (r : Nat) (slots : List Nat) : Prop where
  sound : ∀ c k, k < slots.getD c 0 → ∃ p ∈ done, Covers p (r + k) c
  complete : done.Pairwise (fun p q => ¬ Overlap p q) →
    ∀ p ∈ done, ∀ c k, Covers p (r + k) c → k < slots.getD c 0
  inside : ∀ p ∈ done, p.col + p.colspan ≤ slots.length
  rows : ∀ p ∈ done, p.row ≤ r

theorem Inv.decrement {done : List (Placed N)} {r : Nat} {slots : List Nat} (h : Inv done r slots) :
    Inv done (r + 1) (decrementSlots slots) := by
  constructor
  · intro c k hk
    rw [getD_decrement] at hk
    obtain ⟨p, hp, hc⟩ := h.sound c (k + 1) (by omega)
    exact ⟨p, hp, by rwa [show r + 1 + k = r + (k + 1) from by omega]⟩
  · intro hd p hp c k hc
    rw [getD_decrement]
    have := h.complete hd p hp c (k + 1) (by rwa [show r + (k + 1) = r + 1 + k from by omega])
    omega
  · intro p hp; rw [length_decrement]; exact h.inside p hp
  · intro p hp; have := h.rows p hp; omega

theorem Inv.nil (r : Nat) : Inv ([] : List (Placed N)) r [] :=
  ⟨by simp, by simp, by simp, by simp⟩

/-- a new cell placed at the first free column -/
theorem Inv.place {done : List (Placed N)} {r : Nat} {slots : List Nat} (h : Inv done r slots)
    (node : N) (col cs rs : Nat) (hrs : 1 ≤ rs) :
    Inv (done ++ [⟨node, r, col, cs, rs⟩]) r (markSlots (growSlots slots (col + cs)) col cs rs) := by
  have hlen : col + cs ≤ (growSlots slots (col + cs)).length := by rw [length_grow]; omega
  constructor
  · intro c k hk
    rw [getD_mark _ _ _ _ _ hlen, getD_grow] at hk
    split at hk
    · next hc => exact ⟨_, List.mem_append_right _ (List.mem_singleton.2 rfl), by simp [Covers]; omega⟩
    · obtain ⟨p, hp, hc⟩ := h.sound c k hk
      exact ⟨p, List.mem_append_left _ hp, hc⟩
  · intro hd p hp c k hc
    rw [getD_mark _ _ _ _ _ hlen, getD_grow]
    rw [List.pairwise_append] at hd
    obtain ⟨hd1, _, hd2⟩ := hd
    rcases List.mem_append.1 hp with hp | hp
    · split
      · next hcol =>
        by_contra hk
        apply hd2 p hp _ (List.mem_singleton.2 rfl)
        have hr := h.rows p hp
        exact ⟨r, c, ⟨hr, by have := hc.2.1; omega, hc.2.2.1, hc.2.2.2⟩, by simp [Covers]; omega⟩
      · exact h.complete hd1 p hp c k hc
    · simp only [List.mem_singleton] at hp
      subst hp
      obtain ⟨h1, h2, h3, h4⟩ := hc
      simp only at h1 h2 h3 h4
      rw [if_pos ⟨h3, h4⟩]; omega
  · intro p hp
    rw [length_mark, length_grow]
    rcases List.mem_append.1 hp with hp | hp
    · have := h.inside p hp; omega
    · simp only [List.mem_singleton] at hp; subst hp; simp
  · intro p hp
    rcases List.mem_append.1 hp with hp | hp
    · exact h.rows p hp
    · simp only [List.mem_singleton] at hp; subst hp; simp

/-! ## where each cell goes -/

theorem foldl_max_append (l : List Nat) (x a : Nat) : (l ++ [x]).foldl max a = max (l.foldl max a) x := by
  simp

theorem rowEnd_snoc_same (pre : List (Placed N)) (p : Placed N) :
    rowEnd (pre ++ [p]) p.row = max (rowEnd pre p.row) (p.col + p.colspan) := by
  simp [rowEnd, List.filter_append]

theorem rowEnd_other (pre : List (Placed N)) (r : Nat) (h : ∀ p ∈ pre, p.row < r) : rowEnd pre r = 0 := by
  unfold rowEnd
  rw [show pre.filter (fun p => p.row = r) = [] from by
    rw [List.filter_eq_nil_iff]; intro p hp; have := h p hp; simp; omega]
  rfl

theorem le_rowEnd {pre : List (Placed N)} {p : Placed N} (h : p ∈ pre) :
    p.col + p.colspan ≤ rowEnd pre p.row := by
  have key : ∀ (l : List Nat) (a : Nat), a ≤ l.foldl max a ∧ ∀ x ∈ l, x ≤ l.foldl max a := by
    intro l
    induction l with
    | nil => simp
    | cons b r ih =>
      intro a
      simp only [List.foldl_cons, List.mem_cons]
      obtain ⟨h1, h2⟩ := ih (max a b)
      refine ⟨by omega, ?_⟩
      rintro x (rfl | hx)
      · omega
      · exact h2 x hx
  refine (key _ 0).2 _ ?_
  refine List.mem_map_of_mem (f := fun q : Placed N => q.col + q.colspan) ?_
  simp [h]

/-- every later cell respects the earlier ones -/
def Good (done cells : List (Placed N)) : Prop :=
  ∀ pre q post, cells = pre ++ q :: post →
    (∀ p ∈ done ++ pre, p.row ≤ q.row) ∧ NextGap (done ++ pre) q ∧
    ((done ++ pre).Pairwise (fun p q => ¬ Overlap p q) → ∀ p ∈ done ++ pre, ¬ Covers p q.row q.col)

theorem Good.nil (done : List (Placed N)) : Good done [] := by
  intro pre q post e
  exact absurd e (by simp)

theorem Good.cons {done cells : List (Placed N)} {p : Placed N}
    (h1 : ∀ x ∈ done, x.row ≤ p.row) (h2 : NextGap done p)
    (h3 : done.Pairwise (fun p q => ¬ Overlap p q) → ∀ x ∈ done, ¬ Covers x p.row p.col)
    (h : Good (done ++ [p]) cells) : Good done (p :: cells) := by
  intro pre q post e
  cases pre with
  | nil =>
    simp only [List.nil_append, List.cons.injEq] at e
    obtain ⟨rfl, _⟩ := e
    simpa using ⟨h1, h2, h3⟩
  | cons a t =>
    simp only [List.cons_append, List.cons.injEq] at e
    obtain ⟨rfl, e⟩ := e
    have := h t q post e
    simpa [List.append_assoc] using this

theorem Good.append {done a b : List (Placed N)} (ha : Good done a) (hb : Good (done ++ a) b) :
    Good done (a ++ b) := by
  induction a generalizing done with
  | nil => simpa using hb
  | cons p t ih =>
    have h0 := ha [] p t rfl
    simp only [List.append_nil] at h0
    refine Good.cons h0.1 h0.2.1 h0.2.2 (ih ?_ ?_)
    · intro pre q post e
      have := ha (p :: pre) q post (by simp [e])
      simpa [List.append_assoc] using this
    · simpa [List.append_assoc] using hb

theorem placeRow_good {n r : Nat} (hr : r < n) (cs : List (Source N)) {done : List (Placed N)}
    {slots : List Nat} {col : Nat} (h : Inv done r slots) (hcol : rowEnd done r = col) :
    Good done (placeRow n r cs slots col).1 ∧
    Inv (done ++ (placeRow n r cs slots col).1) r (placeRow n r cs slots col).2 := by
  induction cs generalizing done slots col with
  | nil => exact ⟨Good.nil _, by simpa [placeRow] using h⟩
  | cons s rest ih =>
    obtain ⟨f1, f2, f3⟩ := nextFreeCol_spec slots col
    have hi := h.place s.node (nextFreeCol slots col) (max s.colspan 1)
      (min (max s.rowspan 1) (n - r)) (by omega)
    have he : rowEnd (done ++ [⟨s.node, r, nextFreeCol slots col, max s.colspan 1,
        min (max s.rowspan 1) (n - r)⟩]) r = nextFreeCol slots col + max s.colspan 1 := by
      have := rowEnd_snoc_same done ⟨s.node, r, nextFreeCol slots col, max s.colspan 1,
        min (max s.rowspan 1) (n - r)⟩
      simp only at this
      rw [this, hcol]; omega
    obtain ⟨g, i⟩ := ih hi he
    simp only [placeRow]
    refine ⟨Good.cons h.rows ⟨?_, ?_⟩ ?_ g, by simpa [List.append_assoc] using i⟩
    · simp only [hcol]; exact f1
    · intro c hc hlt
      simp only [hcol] at hc
      have := f3 c hc hlt
      obtain ⟨p, hp, hcov⟩ := h.sound c 0 this
      exact ⟨p, hp, hcov⟩
    · intro hd p hp hcov
      have := h.complete hd p hp _ 0 hcov
      rw [f2] at this
      omega

theorem placeRows_good {n : Nat} (rows : List (Row N)) {r : Nat} (hr : r + rows.length ≤ n)
    {done : List (Placed N)} {slots : List Nat} (h : Inv done r (decrementSlots slots))
    (hlt : ∀ p ∈ done, p.row < r) :
    Good done (placeRows n rows r slots).1 ∧
    (∀ p ∈ done ++ (placeRows n rows r slots).1, p.col + p.colspan ≤ (placeRows n rows r slots).2.length) := by
  induction rows generalizing r done slots with
  | nil =>
    refine ⟨Good.nil _, ?_⟩
    intro p hp
    simp only [placeRows, List.append_nil] at hp ⊢
    have := h.inside p hp
    rwa [length_decrement] at this
  | cons q rest ih =>
    simp only [List.length_cons] at hr
    obtain ⟨g, i⟩ := placeRow_good (n := n) (r := r) (by omega) q.cells h (rowEnd_other done r hlt)
    have hrow : ∀ p ∈ (placeRow n r q.cells (decrementSlots slots) 0).1, p.row = r := by
      intro p hp
      have hs := placeRow_shape n r q.cells (decrementSlots slots) 0
      have : shape p ∈ (placeRow n r q.cells (decrementSlots slots) 0).1.map shape :=
        List.mem_map_of_mem hp
      rw [hs] at this
      obtain ⟨s, _, e⟩ := List.mem_map.1 this
      have := congrArg (fun x => x.2.1) e
      simpa [expected, shape] using this.symm
    obtain ⟨g2, i2⟩ := ih (r := r + 1) (by omega) (i.decrement) (by
      intro p hp
      rcases List.mem_append.1 hp with hp | hp
      · have := hlt p hp; omega
      · have := hrow p hp; omega)
    simp only [placeRows]
    exact ⟨Good.append g g2, by simpa [List.append_assoc] using i2⟩

theorem grid_good (rows : List (Row N)) : Good [] (buildSectionGrid rows).cells ∧
    ∀ p ∈ (buildSectionGrid rows).cells, p.col + p.colspan ≤ (buildSectionGrid rows).nCols := by
  have h : Inv ([] : List (Placed N)) 0 (decrementSlots []) := Inv.nil 0
  have := placeRows_good (n := rows.length) rows (r := 0) (by omega) h (by simp)
  simpa [buildSectionGrid] using this

/-- nothing but cells makes the slot vector longer -/
theorem placeRow_len (n r : Nat) (cs : List (Source N)) (slots : List Nat) (col m : Nat)
    (h : slots.length ≤ m) (hc : ∀ p ∈ (placeRow n r cs slots col).1, p.col + p.colspan ≤ m) :
    (placeRow n r cs slots col).2.length ≤ m := by
  induction cs generalizing slots col with
  | nil => exact h
  | cons s rest ih =>
    simp only [placeRow] at hc ⊢
    refine ih _ _ ?_ (fun p hp => hc p (List.mem_cons_of_mem _ hp))
    have := hc _ (List.mem_cons_self)
    simp only at this
    rw [length_mark, length_grow]; omega

theorem placeRows_len (n : Nat) (rows : List (Row N)) (r : Nat) (slots : List Nat) (m : Nat)
    (h : slots.length ≤ m) (hc : ∀ p ∈ (placeRows n rows r slots).1, p.col + p.colspan ≤ m) :
    (placeRows n rows r slots).2.length ≤ m := by
  induction rows generalizing r slots with
  | nil => exact h
  | cons q rest ih =>
    simp only [placeRows] at hc ⊢
    refine ih _ _ ?_ (fun p hp => hc p (List.mem_append_right _ hp))
    exact placeRow_len _ _ _ _ _ _ (by rw [length_decrement]; exact h)
      (fun p hp => hc p (List.mem_append_left _ hp))

end Verif.Table
