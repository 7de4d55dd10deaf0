import Verif.ByteStream.Spec
/-! # Supporting lemmas for the character stream -/
set_option linter.unusedVariables false
namespace Verif.ByteStream
open Character Spec

/-! ## UTF-8: the nested loops equal a flat, resumable decoder -/

theorem utf8Step_char_append {bs cs : List UInt8} {c n} (h : utf8Step bs = .char c n) :
    utf8Step (bs ++ cs) = .char c n := by
  revert h
  fun_cases utf8Step bs <;> simp_all [utf8Step]
  all_goals grind

theorem utf8Step_bad_append {bs cs : List UInt8} {n} (h : utf8Step bs = .bad n) :
    utf8Step (bs ++ cs) = .bad n := by
  revert h
  fun_cases utf8Step bs <;> simp_all [utf8Step]
  all_goals grind

theorem utf8Step_bounds_char {bs : List UInt8} {c n} (h : utf8Step bs = .char c n) :
    0 < n ∧ n ≤ bs.length := by
  have := utf8Step_pos (bs := bs) (by rw [h]; simp)
  rw [h] at this; exact this

theorem utf8Step_bounds_bad {bs : List UInt8} {n} (h : utf8Step bs = .bad n) :
    0 < n ∧ n ≤ bs.length := by
  have := utf8Step_pos (bs := bs) (by rw [h]; simp)
  rw [h] at this; exact this

/-- The flat form of the UTF-8 decoder. -/
def flat (closed : Bool) (pos : Nat) (bs : List UInt8) : List (Nat × Character) × Nat :=
  if bs = [] then ([], pos)
  else
    match h : utf8Step bs with
    | .char c n => ((pos, ch c) :: (flat closed (pos + n) (bs.drop n)).1,
        (flat closed (pos + n) (bs.drop n)).2)
    | .bad n => ((pos, ch REPL) :: (flat closed (pos + n) (bs.drop n)).1,
        (flat closed (pos + n) (bs.drop n)).2)
    | .incomplete => if closed then ([(pos, ch REPL)], pos + bs.length) else ([], pos)
termination_by bs.length
decreasing_by
  · have := utf8Step_bounds_char h; simp; omega
  · have := utf8Step_bounds_bad h; simp; omega

theorem flat_nil (c p) : flat c p [] = ([], p) := by rw [flat]; simp

theorem flat_char {closed pos bs c n} (h : utf8Step bs = .char c n) :
    flat closed pos bs = ((pos, ch c) :: (flat closed (pos + n) (bs.drop n)).1,
        (flat closed (pos + n) (bs.drop n)).2) := by
  have hb := utf8Step_bounds_char h
  have : bs ≠ [] := by rintro rfl; simp at hb; omega
  rw [flat, if_neg this]; split <;> simp_all

theorem flat_bad {closed pos bs n} (h : utf8Step bs = .bad n) :
    flat closed pos bs = ((pos, ch REPL) :: (flat closed (pos + n) (bs.drop n)).1,
        (flat closed (pos + n) (bs.drop n)).2) := by
  have hb := utf8Step_bounds_bad h
  have : bs ≠ [] := by rintro rfl; simp at hb; omega
  rw [flat, if_neg this]; split <;> simp_all

theorem flat_incomplete {closed pos bs} (h : utf8Step bs = .incomplete) (hb : bs ≠ []) :
    flat closed pos bs = if closed then ([(pos, ch REPL)], pos + bs.length) else ([], pos) := by
  rw [flat, if_neg hb]; split <;> simp_all

theorem fromUtf8_nil (p) : fromUtf8 p [] = ⟨[], p, none⟩ := by rw [fromUtf8]; simp

theorem fromUtf8_char {pos bs c n} (h : utf8Step bs = .char c n) :
    fromUtf8 pos bs = { fromUtf8 (pos + n) (bs.drop n) with
      items := (pos, ch c) :: (fromUtf8 (pos + n) (bs.drop n)).items } := by
  have hb := utf8Step_bounds_char h
  have : bs ≠ [] := by rintro rfl; simp at hb; omega
  rw [fromUtf8, if_neg this]; split <;> simp_all

theorem fromUtf8_bad {pos bs n} (h : utf8Step bs = .bad n) :
    fromUtf8 pos bs = ⟨[], pos, some (some n)⟩ := by
  have hb := utf8Step_bounds_bad h
  have : bs ≠ [] := by rintro rfl; simp at hb; omega
  rw [fromUtf8, if_neg this]; split <;> simp_all

theorem fromUtf8_incomplete {pos bs} (h : utf8Step bs = .incomplete) (hb : bs ≠ []) :
    fromUtf8 pos bs = ⟨[], pos, some none⟩ := by
  rw [fromUtf8, if_neg hb]; split <;> simp_all

/-- `valid_up_to` and `error_len` stay inside the slice. -/
theorem fromUtf8_bounds (pos bs) :
    pos ≤ (fromUtf8 pos bs).validUpTo ∧ (fromUtf8 pos bs).validUpTo ≤ pos + bs.length ∧
    ∀ m, (fromUtf8 pos bs).err = some (some m) →
      0 < m ∧ (fromUtf8 pos bs).validUpTo - pos + m ≤ bs.length := by
  by_cases hb : bs = []
  · subst hb; simp [fromUtf8_nil]
  · cases hs : utf8Step bs with
    | char c n =>
      have hn := utf8Step_bounds_char hs
      have ih := fromUtf8_bounds (pos + n) (bs.drop n)
      rw [fromUtf8_char hs]
      simp only [List.length_drop] at ih
      refine ⟨by simp; omega, by simp; omega, ?_⟩
      intro m hm
      have := ih.2.2 m hm
      simp; omega
    | bad n => have hn := utf8Step_bounds_bad hs; rw [fromUtf8_bad hs]; simp; omega
    | incomplete => rw [fromUtf8_incomplete hs hb]; simp
termination_by bs.length
decreasing_by simp; omega

/-- `error_len` is never 0. -/
theorem fromUtf8_err_len {pos bs m} (h : (fromUtf8 pos bs).err = some (some m)) :
    0 < m ∧ m ≤ bs.length := by
  have := (fromUtf8_bounds pos bs).2.2 m h; omega

/-- Unfolding of `decodeUtf8` through the fields of `from_utf8`'s answer. -/
theorem decodeUtf8_unfold (closed pos bs) (hb : bs ≠ []) :
    decodeUtf8 closed pos bs =
      match (fromUtf8 pos bs).err with
      | none => ((fromUtf8 pos bs).items, pos + bs.length)
      | some (some n) =>
        let k := (fromUtf8 pos bs).validUpTo - pos + n
        ((fromUtf8 pos bs).items ++ ((fromUtf8 pos bs).validUpTo, ch REPL)
          :: (decodeUtf8 closed (pos + k) (bs.drop k)).1,
          (decodeUtf8 closed (pos + k) (bs.drop k)).2)
      | some none =>
        if closed then ((fromUtf8 pos bs).items ++ [((fromUtf8 pos bs).validUpTo, ch REPL)],
          pos + bs.length)
        else ((fromUtf8 pos bs).items, (fromUtf8 pos bs).validUpTo) := by
  rw [decodeUtf8, if_neg hb]
  split
  · rename_i h; rw [h]
  · rename_i items v n h
    have := fromUtf8_err_len (pos := pos) (bs := bs) (m := n) (by rw [h])
    rw [dif_pos this, h]
  · rename_i h; rw [h]

theorem decodeUtf8_nil (c p) : decodeUtf8 c p [] = ([], p) := by rw [decodeUtf8]; simp

theorem decodeUtf8_eq_flat (closed pos bs) : decodeUtf8 closed pos bs = flat closed pos bs := by
  by_cases hb : bs = []
  · subst hb; rw [flat_nil, decodeUtf8_nil]
  · cases hs : utf8Step bs with
    | char c n =>
      have hn := utf8Step_bounds_char hs
      have ih := decodeUtf8_eq_flat closed (pos + n) (bs.drop n)
      rw [flat_char hs, ← ih, decodeUtf8_unfold _ _ _ hb, fromUtf8_char hs]
      have hbd := fromUtf8_bounds (pos + n) (bs.drop n)
      simp only [List.length_drop] at hbd
      by_cases hd : bs.drop n = []
      · have hl : bs.length = n := by
          have := congrArg List.length hd; simp at this; omega
        simp [hd, fromUtf8_nil, decodeUtf8_nil, hl]
      · rw [decodeUtf8_unfold _ _ _ hd]
        cases he : (fromUtf8 (pos + n) (bs.drop n)).err with
        | none => simp; omega
        | some e =>
          cases e with
          | none =>
            simp only
            cases closed
            · simp
            · simp; omega
          | some m =>
            have e1 : pos + n + ((fromUtf8 (pos + n) (bs.drop n)).validUpTo - (pos + n) + m)
              = pos + ((fromUtf8 (pos + n) (bs.drop n)).validUpTo - pos + m) := by omega
            have e2 : n + ((fromUtf8 (pos + n) (bs.drop n)).validUpTo - (pos + n) + m)
              = (fromUtf8 (pos + n) (bs.drop n)).validUpTo - pos + m := by omega
            simp only [List.drop_drop, e1, e2, List.cons_append]
    | bad n =>
      have hn := utf8Step_bounds_bad hs
      have ih := decodeUtf8_eq_flat closed (pos + n) (bs.drop n)
      rw [flat_bad hs, ← ih, decodeUtf8_unfold _ _ _ hb, fromUtf8_bad hs]
      simp
    | incomplete =>
      rw [flat_incomplete hs hb, decodeUtf8_unfold _ _ _ hb, fromUtf8_incomplete hs hb]
      simp
termination_by bs.length
decreasing_by all_goals (simp; omega)

theorem flat_bounds (closed pos bs) :
    pos ≤ (flat closed pos bs).2 ∧ (flat closed pos bs).2 ≤ pos + bs.length := by
  by_cases hb : bs = []
  · subst hb; simp [flat_nil]
  · cases hs : utf8Step bs with
    | char c n =>
      have hn := utf8Step_bounds_char hs
      have ih := flat_bounds closed (pos + n) (bs.drop n)
      rw [flat_char hs]; simp at ih ⊢; omega
    | bad n =>
      have hn := utf8Step_bounds_bad hs
      have ih := flat_bounds closed (pos + n) (bs.drop n)
      rw [flat_bad hs]; simp at ih ⊢; omega
    | incomplete => rw [flat_incomplete hs hb]; cases closed <;> simp
termination_by bs.length
decreasing_by all_goals (simp; omega)

/-- Decoding an open prefix and resuming where it stopped is decoding the whole. -/
theorem flat_append (closed pos bs cs) :
    flat closed pos (bs ++ cs) =
      ((flat false pos bs).1 ++
        (flat closed (flat false pos bs).2 ((bs ++ cs).drop ((flat false pos bs).2 - pos))).1,
       (flat closed (flat false pos bs).2 ((bs ++ cs).drop ((flat false pos bs).2 - pos))).2) := by
  by_cases hb : bs = []
  · subst hb; simp [flat_nil]
  · cases hs : utf8Step bs with
    | char c n =>
      have hn := utf8Step_bounds_char hs
      have hbd := flat_bounds false (pos + n) (bs.drop n)
      have ih := flat_append closed (pos + n) (bs.drop n) cs
      rw [flat_char (utf8Step_char_append hs), flat_char hs]
      rw [List.drop_append_of_le_length hn.2, ih]
      have : (bs ++ cs).drop ((flat false (pos + n) (bs.drop n)).2 - pos)
          = (bs.drop n ++ cs).drop ((flat false (pos + n) (bs.drop n)).2 - (pos + n)) := by
        rw [← List.drop_append_of_le_length hn.2, List.drop_drop]; congr 1; omega
      simp [this]
    | bad n =>
      have hn := utf8Step_bounds_bad hs
      have hbd := flat_bounds false (pos + n) (bs.drop n)
      have ih := flat_append closed (pos + n) (bs.drop n) cs
      rw [flat_bad (utf8Step_bad_append hs), flat_bad hs]
      rw [List.drop_append_of_le_length hn.2, ih]
      have : (bs ++ cs).drop ((flat false (pos + n) (bs.drop n)).2 - pos)
          = (bs.drop n ++ cs).drop ((flat false (pos + n) (bs.drop n)).2 - (pos + n)) := by
        rw [← List.drop_append_of_le_length hn.2, List.drop_drop]; congr 1; omega
      simp [this]
    | incomplete =>
      rw [flat_incomplete hs hb]; simp
termination_by bs.length
decreasing_by all_goals (simp; omega)

end Verif.ByteStream
