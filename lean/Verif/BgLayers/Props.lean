import Verif.BgLayers.Spec

/-! # C147: layers of backgrounds -/
namespace Verif.BgLayers

theorem pushLast_snoc : ∀ (p : List (List Tok)) (g : List Tok) (t : Tok), pushLast (p ++ [g]) t = p ++ [g ++ [t]] := by
  intro p
  induction p with
  | nil => intro g t; rfl
  | cons a p ih =>
    intro g t
    cases p with
    | nil => rfl
    | cons b p =>
      show a :: pushLast (b :: p ++ [g]) t = _
      rw [ih]; rfl

theorem fold_toks : ∀ (g : List Tok) (p : List (List Tok)) (g0 : List Tok),
    (g.map Val.tok).foldl pushVal (p ++ [g0]) = p ++ [g0 ++ g] := by
  intro g
  induction g with
  | nil => intro p g0; simp
  | cons t g ih =>
    intro p g0
    simp only [List.map_cons, List.foldl_cons]
    show List.foldl pushVal (pushLast (p ++ [g0]) t) _ = _
    rw [pushLast_snoc, ih]
    simp

theorem fold_written : ∀ (gs : List (List Tok)) (p : List (List Tok)), gs ≠ [] →
    (written gs).foldl pushVal (p ++ [[]]) = p ++ gs := by
  intro gs
  induction gs with
  | nil => intro p h; exact absurd rfl h
  | cons g r ih =>
    intro p _
    cases r with
    | nil =>
      show (g.map Val.tok).foldl pushVal (p ++ [[]]) = _
      rw [fold_toks]; simp
    | cons g' r =>
      show (g.map Val.tok ++ .comma :: written (g' :: r)).foldl pushVal (p ++ [[]]) = _
      rw [List.foldl_append, fold_toks, List.foldl_cons]
      show (written (g' :: r)).foldl pushVal (p ++ [[] ++ g] ++ [[]]) = _
      rw [ih (p ++ [[] ++ g]) (by simp)]
      simp

/-- **C147** A list is split at its commas: the groups read are those written. -/
theorem C147_groups {gs : List (List Tok)} (h : gs ≠ []) : groups (written gs) = gs := by
  have := fold_written gs [] h
  simpa [groups] using this

theorem pick_cycled {gs : List (List Tok)} {i : Nat} {g : List Tok} (h : Cycled gs i g) :
    pick (groups (written gs)) i = some g := by
  obtain ⟨n, j, rfl, hj⟩ := h
  have hlt : j < gs.length := by
    rcases Nat.lt_or_ge j gs.length with h | h
    · exact h
    · rw [List.getElem?_eq_none h] at hj; cases hj
  have hne : gs ≠ [] := by rintro rfl; simp at hlt
  rw [C147_groups hne]
  unfold pick
  have he : gs.isEmpty = false := by cases gs with | nil => exact absurd rfl hne | cons => rfl
  rw [he, Nat.mul_comm, Nat.mul_add_mod, Nat.mod_eq_of_lt hlt]
  simpa using hj

theorem says_get {α : Type} {R : List Tok → α → Prop} {d : α} {l : Option (List Val)} {i : Nat} {a : α}
    (f : List Tok → α) (hf : ∀ g a, R g a → f g = a) (h : Says R d l i a) : ((pick (readGroups l) i).map f).getD d = a := by
  rcases h with ⟨rfl, rfl⟩ | ⟨gs, g, rfl, hc, hr⟩
  · rfl
  · show ((pick (groups (written gs)) i).map f).getD d = a
    rw [pick_cycled hc]
    exact hf g a hr

theorem axis_right {k : String} {b : Bool} (h : Axis k b) : axis k = b := by cases h <;> decide

theorem repeat_right : ∀ g a, Repeats g a → bgRepeat g = a := by
  intro g a h
  cases h with
  | x => decide
  | y => decide
  | both h => cases h <;> decide
  | each h h' => cases h <;> cases h' <;> decide

theorem position_right : ∀ g a, TwoLengths g a → bgPosition g = a := by
  rintro g a rfl; rfl

/-- **C147** Each layer is tiled as the lists of sizes, positions and repetitions say, where each list starts again from its
beginning when it is too short. Missing: groups that are not two lengths (positive for sizes; see `C147_one_violated`,
`C147_empty_violated`, `C147_centre_violated`), `space` and `round`. -/
theorem C147_layers_partial {n i : Nat} (hi : i < n) {sizes positions repeats : Option (List Val)} {gs : List (List Tok)}
    {g : List Tok} {size pos : Int × Int} {rep : Bool × Bool}
    (hs : sizes = some (written gs)) (hc : Cycled gs i g) (ht : TwoLengths g size) (hw : 0 < size.1) (hh : 0 < size.2)
    (hp : Says TwoLengths (0, 0) positions i pos) (hr : Says Repeats (true, true) repeats i rep) :
    (layers n sizes positions repeats)[i]? = some (some ⟨size, pos, rep⟩) := by
  unfold layers
  rw [List.getElem?_map, List.getElem?_range hi, Option.map_some]
  unfold tiling
  rw [says_get bgPosition position_right hp, says_get bgRepeat repeat_right hr]
  subst hs
  have e : pick (readGroups (some (written gs))) i = some g := pick_cycled hc
  rw [e]
  subst ht
  obtain ⟨w, h⟩ := size
  show some (if w ≤ 0 ∨ h ≤ 0 then none else some _) = _
  rw [if_neg (by simp only at hw hh; omega)]

/-- **C147** Without a list of sizes all layers fill the box. -/
theorem C147_plain (n : Nat) (positions repeats : Option (List Val)) :
    layers n none positions repeats = List.replicate n none := by
  unfold layers
  rw [List.eq_replicate_iff]
  refine ⟨by simp, ?_⟩
  intro b hb
  obtain ⟨i, _, rfl⟩ := List.mem_map.1 hb
  rfl

/-- three layers with two sizes: `40px 20px, 10px 10px` and `repeat-x` -/
example : layers 3 (some (written [[.len 40, .len 20], [.len 10, .len 10]])) none (some (written [[.kw "repeat-x"]])) =
    [some ⟨(40, 20), (0, 0), (true, false)⟩, some ⟨(10, 10), (0, 0), (true, false)⟩, some ⟨(40, 20), (0, 0), (true, false)⟩] := by decide

example : Cycled [[.len 40, .len 20], [.len 10, .len 10]] 2 [.len 40, .len 20] := ⟨1, 0, rfl, rfl⟩
example : Says TwoLengths (0, 0) none 2 (0, 0) := .inl ⟨rfl, rfl⟩
example : Says Repeats (true, true) (some (written [[.kw "repeat-x"]])) 2 (true, false) :=
  .inr ⟨[[.kw "repeat-x"]], [.kw "repeat-x"], rfl, ⟨2, 0, rfl, rfl⟩, .x⟩

/-- one length is taken for both sides, where the second is `auto`, which for a gradient is the height of the box: the tile is
the same in every box -/
theorem C147_one_violated (w : Int) (h : 0 < w) : layers 1 (some (written [[.len w]])) none none = [some ⟨(w, w), (0, 0), (true, true)⟩] := by
  have : ¬ (w ≤ 0 ∨ w ≤ 0) := by omega
  simp [layers, readGroups, written, groups, pushVal, pushLast, tiling, pick, bgSize, dims]
  omega

/-- a layer of the size 0 fills the box, as without a size; CSS asks for nothing to be shown -/
theorem C147_empty_violated : layers 1 (some (written [[.len 0, .len 0]])) none none = layers 1 none none none := by decide

/-- the one position `10px` means the middle in the other axis; the code has 0 there. `center` is 0 too. -/
theorem C147_centre_violated :
    layers 2 (some (written [[.len 20, .len 20]])) (some (written [[.len 10], [.kw "center"]])) none =
      layers 2 (some (written [[.len 20, .len 20]])) (some (written [[.len 10, .len 0], [.len 0, .len 0]])) none := by decide

end Verif.BgLayers
