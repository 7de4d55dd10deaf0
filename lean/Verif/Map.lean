import Mathlib.Tactic.Common

/-!
Association lists used as maps: the models' stand-in for `HashMap`, `DashMap` and `BTreeMap` (with
the locks around single calls: every function is one atomic step).
-/
set_option linter.unusedVariables false
namespace Verif.Map

/-- `HashMap::get` -/
def look {α β : Type} [DecidableEq α] (m : List (α × β)) (k : α) : Option β :=
  match m with
  | [] => none
  | (a, v) :: r => if a = k then some v else look r k

/-- `HashMap::insert` -/
def put {α β : Type} [DecidableEq α] (m : List (α × β)) (k : α) (x : β) : List (α × β) :=
  match m with
  | [] => [(k, x)]
  | (a, v) :: r => if a = k then (a, x) :: r else (a, v) :: put r k x

/-- `HashMap::remove` -/
def del {α β : Type} [DecidableEq α] (m : List (α × β)) (k : α) : List (α × β) :=
  m.filter (fun e => decide (e.1 ≠ k))

/-- `HashMap::get_mut` followed by a change -/
def upd {α β : Type} [DecidableEq α] (m : List (α × β)) (k : α) (f : β → β) : List (α × β) :=
  match m with
  | [] => []
  | (a, v) :: r => if a = k then (a, f v) :: r else (a, v) :: upd r k f

section Maps
variable {α β : Type} [DecidableEq α]

theorem look_put (m : List (α × β)) (k k' : α) (x : β) :
    look (put m k x) k' = if k = k' then some x else look m k' := by
  induction m with
  | nil => simp [put, look]
  | cons e r ih =>
    obtain ⟨a, v⟩ := e
    simp only [put]
    split
    · rename_i h; subst h; simp only [look]; split <;> rfl
    · rename_i h
      simp only [look, ih]
      by_cases h1 : a = k'
      · subst h1
        rw [if_pos rfl, if_neg (fun e => h e.symm), if_pos rfl]
      · rw [if_neg h1, if_neg h1]

theorem look_upd (m : List (α × β)) (k k' : α) (f : β → β) :
    look (upd m k f) k' = if k = k' then (look m k').map f else look m k' := by
  induction m with
  | nil => simp [upd, look]
  | cons e r ih =>
    obtain ⟨a, v⟩ := e
    simp only [upd]
    split
    · rename_i h; subst h; simp only [look]; split <;> simp_all
    · rename_i h
      simp only [look, ih]
      by_cases h1 : a = k'
      · subst h1
        rw [if_pos rfl, if_neg (fun e => h e.symm), if_pos rfl]
      · rw [if_neg h1, if_neg h1]

theorem look_filter (m : List (α × β)) (p : α → Bool) (k : α) :
    look (m.filter (fun e => p e.1)) k = if p k = true then look m k else none := by
  induction m with
  | nil => simp [look]
  | cons e r ih =>
    obtain ⟨a, v⟩ := e
    rw [List.filter_cons]
    by_cases hp : p a = true
    · rw [if_pos hp]
      simp only [look, ih]
      by_cases h1 : a = k
      · subst h1; simp [hp]
      · rw [if_neg h1, if_neg h1]
    · rw [if_neg hp, ih]
      simp only [look]
      by_cases h1 : a = k
      · subst h1; simp [hp]
      · rw [if_neg h1]

theorem look_del (m : List (α × β)) (k k' : α) :
    look (del m k) k' = if k' = k then none else look m k' := by
  unfold del
  have := look_filter m (fun a => decide (a ≠ k)) k'
  rw [this]
  by_cases h : k' = k <;> simp [h]

theorem look_append (m m' : List (α × β)) (k : α) :
    look (m ++ m') k = (look m k).or (look m' k) := by
  induction m with
  | nil => simp [look]
  | cons e r ih =>
    obtain ⟨a, v⟩ := e
    simp only [List.cons_append, look]
    split
    · simp
    · exact ih

theorem mem_of_look {m : List (α × β)} {k : α} {x : β} (h : look m k = some x) : (k, x) ∈ m := by
  induction m with
  | nil => simp [look] at h
  | cons e r ih =>
    obtain ⟨a, v⟩ := e
    simp only [look] at h
    split at h
    · rename_i hk; simp at h; simp [hk, h]
    · simp [ih h]

theorem mem_keys_iff (m : List (α × β)) (k : α) : k ∈ m.map (·.1) ↔ (look m k).isSome = true := by
  induction m with
  | nil => simp [look]
  | cons e r ih =>
    obtain ⟨a, v⟩ := e
    simp only [List.map_cons, List.mem_cons, look]
    by_cases h : a = k
    · subst h; simp
    · rw [if_neg h, ← ih]
      constructor
      · rintro (rfl | h')
        · exact absurd rfl h
        · exact h'
      · exact Or.inr

abbrev Nk (m : List (α × β)) : Prop := (m.map (·.1)).Nodup

theorem nk_put {m : List (α × β)} (h : Nk m) (k : α) (x : β) : Nk (put m k x) := by
  induction m with
  | nil => simp [put, Nk]
  | cons e r ih =>
    obtain ⟨a, v⟩ := e
    simp only [Nk, List.map_cons, List.nodup_cons] at h
    simp only [put]
    split
    · simpa [Nk] using h
    · rename_i hk
      simp only [Nk, List.map_cons, List.nodup_cons]
      refine ⟨?_, ih h.2⟩
      rw [mem_keys_iff, look_put, if_neg (fun e => hk e.symm), ← mem_keys_iff]
      exact h.1

theorem keys_upd (m : List (α × β)) (k : α) (f : β → β) : (upd m k f).map (·.1) = m.map (·.1) := by
  induction m with
  | nil => rfl
  | cons e r ih =>
    obtain ⟨a, v⟩ := e
    simp only [upd]
    split
    · rfl
    · simp [ih]

theorem mem_upd {m : List (α × β)} {k : α} {f : β → β} {e : α × β} (h : e ∈ upd m k f) :
    e ∈ m ∨ ∃ v, (e.1, v) ∈ m ∧ e.2 = f v := by
  induction m with
  | nil => simp [upd] at h
  | cons a r ih =>
    obtain ⟨a, v⟩ := a
    simp only [upd] at h
    split at h
    · rcases List.mem_cons.mp h with rfl | h
      · right; exact ⟨v, by simp, rfl⟩
      · left; simp [h]
    · rcases List.mem_cons.mp h with rfl | h
      · left; simp
      · rcases ih h with h | ⟨v', h, h'⟩
        · left; simp [h]
        · right; exact ⟨v', by simp [h], h'⟩

omit [DecidableEq α] in
theorem nk_filter {m : List (α × β)} (h : Nk m) (p : α × β → Bool) : Nk (m.filter p) :=
  List.Nodup.sublist (List.Sublist.map _ List.filter_sublist) h

end Maps

end Verif.Map
