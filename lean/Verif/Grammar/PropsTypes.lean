import Verif.Grammar.PropsSound

/-!
# C102: the words and the numeric types of a grammar stand for what CSS says they stand for
-/

namespace Verif.Grammar
open Verif

theorem contains_iff (r : Range) (x : Rat) : r.contains x = true ↔ InRange r x := by
  obtain ⟨lo, hi⟩ := r
  cases lo <;> cases hi <;> simp [Range.contains, InRange]

theorem unitIn_iff (us : List String) (hu : ∀ x ∈ us, lower x.toList = x.toList) (u : Str) :
    unitIn us u = true ↔ Named us u := by
  simp only [unitIn, List.any_eq_true, eqIgnoreCase, decide_eq_true_eq, Named]
  constructor
  · rintro ⟨x, hx, e⟩
    exact ⟨x, hx, by rw [e, hu x hx]⟩
  · rintro ⟨x, hx, e⟩
    exact ⟨x, hx, by rw [e, hu x hx]⟩

theorem usual_iff (u : Str) : lengthUnits.contains u = true ↔ UsualUnit u := by
  simp only [List.contains_iff_mem]
  have h : ∀ (a b : List Str), (∀ x ∈ a, x ∈ b) → (∀ x ∈ b, x ∈ a) → (u ∈ a ↔ u ∈ b) := fun a b h1 h2 => ⟨h1 u, h2 u⟩
  exact h _ _ (by decide +kernel) (by decide +kernel)

theorem usual_named {u : Str} (h : UsualUnit u) : Named lengthNames u := by
  have hall : ∀ x ∈ (["em", "rem", "ex", "rex", "cap", "rcap", "ch", "rch", "ic", "ric", "lh", "rlh", "vw", "vh", "vi", "vb", "vmin", "vmax",
    "cqw", "cqh", "cqi", "cqb", "cqmin", "cqmax", "cm", "mm", "Q", "in", "pt", "pc", "px"].map String.toList),
      lower x ∈ lengthNames.map String.toList := by decide +kernel
  have := hall u h
  rw [List.mem_map] at this
  obtain ⟨s, hs, e⟩ := this
  exact ⟨s, hs, e.symm⟩

theorem int_iff (n : Rat) : n.den = 1 ↔ ∃ k : Int, n = k := by
  constructor
  · intro h
    refine ⟨n.num, ?_⟩
    apply Rat.ext
    · simp
    · simpa using h
  · rintro ⟨k, rfl⟩
    simp

/-- what is taken for a type, without the table of types -/
def plainTakes (t : NumType) (r : Range) (v : Value) : Bool :=
  match t, v with
  | .percentage, .percentage n => r.contains n
  | .angle, .zero | .length, .zero | .time, .zero | .flex, .zero | .number, .zero | .integer, .zero => r.contains 0
  | .angle, .unit n u => r.contains n && unitIn ["deg", "grad", "rad", "turn"] u
  | .length, .unit n u => lengthUnits.contains u && r.contains n
  | .time, .unit n u => unitIn ["s", "ms"] u && r.contains n
  | .flex, .unit n u => unitIn ["fr"] u && r.contains n
  | .number, .number n => r.contains n
  | .integer, .number n => n.den == 1 && r.contains n
  | _, _ => false

theorem takes_plain (env : Env) (t : NumType) (r : Range) (v : Value) (hf : NoFunction v) :
    (Leaf.builtin t.name r).takes env v = some (plainTakes t r v) := by
  cases v with
  | function name args => exact absurd rfl (hf name args)
  | _ => cases t <;> rfl

/-- what the engine takes for a numeric type, beside functions -/
theorem builtin_takes (env : Env) (t : NumType) (r : Range) (v : Value) (hf : NoFunction v) (hs : FromSource v) :
    Stands env (.builtin t.name r) v ↔
      match t with
      | .number => ∃ x, IsNumber v x ∧ InRange r x
      | .integer => ∃ k : Int, IsNumber v k ∧ InRange r k
      | .percentage => ∃ x, v = .percentage x ∧ InRange r x
      | .length => (v = .zero ∧ InRange r 0) ∨ ∃ x u, v = .unit x u ∧ UsualUnit u ∧ InRange r x
      | .angle => (v = .zero ∧ InRange r 0) ∨ ∃ x u, v = .unit x u ∧ Named ["deg", "grad", "rad", "turn"] u ∧ InRange r x
      | .time => (v = .zero ∧ InRange r 0) ∨ ∃ x u, v = .unit x u ∧ Named ["s", "ms"] u ∧ InRange r x
      | .flex => (v = .zero ∧ InRange r 0) ∨ ∃ x u, v = .unit x u ∧ Named ["fr"] u ∧ InRange r x := by
  rw [stands_iff, takes_plain env t r v hf]
  have ha := unitIn_iff ["deg", "grad", "rad", "turn"] (by decide +kernel)
  have ht := unitIn_iff ["s", "ms"] (by decide +kernel)
  have hx := unitIn_iff ["fr"] (by decide +kernel)
  cases v with
  | function name args => exact absurd rfl (hf name args)
  | zero =>
    cases t <;> simp [plainTakes, IsNumber, contains_iff]
  | number n =>
    cases t <;> simp [plainTakes, IsNumber, contains_iff]
    · rw [int_iff]
      constructor
      · rintro ⟨⟨k, rfl⟩, h⟩
        exact ⟨k, rfl, h⟩
      · rintro ⟨k, rfl, h⟩
        exact ⟨⟨k, rfl⟩, h⟩
  | unit n u =>
    cases t <;> simp [plainTakes, IsNumber, contains_iff, ha, ht, hx]
    · have := usual_iff u
      simp only [List.contains_iff_mem] at this
      simp [this]
    · exact and_comm
  | _ => cases t <;> simp [plainTakes, IsNumber, contains_iff]

/-- C102, words: a keyword of a grammar stands for that word in any case. -/
theorem C102_keyword (env : Env) (s : Str) (v : Value) : Stands env (.keyword s) v ↔
    (∃ t, v = .string t ∧ lower t = lower s) ∨ (v = .none ∧ lower s = "none".toList) := by
  have := kw_takes env (String.ofList s) v
  rw [stands_iff]
  simpa using this

example (env : Env) : Stands env (.keyword "solid".toList) (word "SOLID") ∧ ¬ Stands env (.keyword "solid".toList) (word "dotted") := by
  simp only [C102_keyword]
  exact ⟨.inl ⟨_, rfl, by decide +kernel⟩, by simp [word]; decide +kernel⟩

/-- C102, nothing but the type: what the engine takes for a numeric type is of that type and in the range. A bare `0` is
excepted: it is taken for an angle, a time and a flexible length. -/
theorem C102_only_type_partial (env : Env) (t : NumType) (r : Range) (v : Value) (hf : NoFunction v) (hs : FromSource v)
    (hz : v = .zero → t = .number ∨ t = .integer ∨ t = .percentage ∨ t = .length) (h : Stands env (.builtin t.name r) v) :
    OfType t r v := by
  replace h := (builtin_takes env t r v hf hs).1 h
  cases t with
  | number => exact h
  | integer => exact h
  | percentage => exact h
  | length =>
    rcases h with ⟨rfl, h⟩ | ⟨x, u, e, hu, h⟩
    · exact .inl ⟨.inr ⟨rfl, rfl⟩, h⟩
    · exact .inr ⟨x, u, e, usual_named hu, h⟩
  | angle =>
    rcases h with ⟨h, _⟩ | h
    · simpa using hz h
    · exact h
  | time =>
    rcases h with ⟨h, _⟩ | h
    · simpa using hz h
    · exact h
  | flex =>
    rcases h with ⟨h, _⟩ | h
    · simpa using hz h
    · exact h

/-- C102, all of the type: the engine takes every value of a numeric type that is in the range. For lengths, the unit must be
written as the standard writes it, and must not be one of the small, large or dynamic viewport. -/
theorem C102_whole_type_partial (env : Env) (t : NumType) (r : Range) (v : Value) (hs : FromSource v)
    (hu : t = .length → ∀ x u, v = .unit x u → UsualUnit u) (h : OfType t r v) : Stands env (.builtin t.name r) v := by
  have hf : NoFunction v := by
    rintro name args rfl
    cases t <;> simp [OfType, IsNumber] at h
  refine (builtin_takes env t r v hf hs).2 ?_
  cases t with
  | number => exact h
  | integer => exact h
  | percentage => exact h
  | length =>
    rcases h with ⟨h1 | ⟨h1, _⟩, h⟩ | ⟨x, u, e, _, h⟩
    · exact absurd h1 hs
    · exact .inl ⟨h1, h⟩
    · exact .inr ⟨x, u, e, hu rfl x u e, h⟩
  | angle => exact .inr h
  | time => exact .inr h
  | flex => exact .inr h

/-- `<length [0,∞]>` takes `2.5px`, and not `-1px` -/
example (env : Env) : Stands env (.builtin NumType.length.name ⟨.fin 0, .inf⟩) (.unit (5/2) "px".toList) ∧
    ¬ Stands env (.builtin NumType.length.name ⟨.fin 0, .inf⟩) (.unit (-1) "px".toList) := by
  constructor
  · refine C102_whole_type_partial env .length _ _ (by simp [FromSource]) ?_ ?_
    · intro _ x u e
      cases e
      simp [UsualUnit]
    · refine .inr ⟨_, _, rfl, ⟨"px", by decide +kernel, by decide +kernel⟩, ?_⟩
      exact (contains_iff _ _).1 (by decide +kernel)
  · intro h
    have := C102_only_type_partial env .length _ _ (by simp [NoFunction]) (by simp [FromSource]) (by simp) h
    rcases this with ⟨h1 | ⟨h1, _⟩, _⟩ | ⟨x, u, e, _, h⟩
    · cases h1
    · cases h1
    · cases e
      exact absurd ((contains_iff _ _).2 h) (by decide +kernel)

/-- C102 fails: units of length are compared with their case, so `10PX` is no length. -/
theorem C102_whole_type_violated_case (env : Env) :
    OfType .length ⟨.none, .none⟩ (.unit 10 "PX".toList) ∧ ¬ Stands env (.builtin NumType.length.name ⟨.none, .none⟩) (.unit 10 "PX".toList) := by
  refine ⟨.inr ⟨_, _, rfl, ⟨"px", by decide +kernel, by decide +kernel⟩, by simp [InRange]⟩, ?_⟩
  rw [stands_iff]
  exact (by decide +kernel : ¬ some false = some true)

/-- C102 fails: the units of the small, large and dynamic viewport are unknown: `100dvh` is no length. -/
theorem C102_whole_type_violated_viewport (env : Env) :
    OfType .length ⟨.none, .none⟩ (.unit 100 "dvh".toList) ∧
    ¬ Stands env (.builtin NumType.length.name ⟨.none, .none⟩) (.unit 100 "dvh".toList) := by
  refine ⟨.inr ⟨_, _, rfl, ⟨"dvh", by decide +kernel, by decide +kernel⟩, by simp [InRange]⟩, ?_⟩
  rw [stands_iff]
  exact (by decide +kernel : ¬ some false = some true)

/-- C102 fails: a bare `0` is taken for a time, an angle and a flexible length: `transition-duration: 0` is accepted. -/
theorem C102_only_type_violated_zero (env : Env) (t : NumType) (ht : t = .time ∨ t = .angle ∨ t = .flex) :
    Stands env (.builtin t.name ⟨.none, .none⟩) .zero ∧ ¬ OfType t ⟨.none, .none⟩ .zero := by
  rw [stands_iff]
  rcases ht with rfl | rfl | rfl <;> exact ⟨rfl, by simp [OfType]⟩

/-- C102 fails: a type that the engine does not know, such as `<resolution>`, takes nearly any value: the word `red` is a
resolution. -/
theorem C102_only_type_violated_unknown (env : Env) : Stands env (.builtin "resolution".toList ⟨.none, .none⟩) (word "red") := by
  rw [stands_iff]
  rfl

end Verif.Grammar
