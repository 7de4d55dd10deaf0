import Mathlib.Data.List.Perm.Subperm
import Mathlib.Data.List.Nodup
import Mathlib.Algebra.Order.BigOperators.Group.List
import Verif.TileBudget.Lemmas

/-! # From positions to tiles and cache entries -/
namespace Verif.TileBudget
open Verif.Map Verif.Layers

theorem look_of_mem {α β : Type} [DecidableEq α] {m : List (α × β)} (hn : Nk m) {p : α × β} (h : p ∈ m) :
    look m p.1 = some p.2 := by
  cases hl : look m p.1 with
  | none =>
    have := (mem_keys_iff m p.1).mp (List.mem_map.mpr ⟨p, h, rfl⟩)
    rw [hl] at this; simp at this
  | some x =>
    have h1 := mem_of_look hl
    have : (p.1, x) = p := List.inj_on_of_nodup_map hn h1 h rfl
    rw [← this]

section
variable (val : Nat → ℚ)

theorem mem_items {tiles : List Tile} {cache : List CacheEntry} {i : Item} :
    i ∈ items val tiles cache ↔ (∃ t ∈ tiles, itemOfTile val t = i) ∨ ∃ c ∈ cache, itemOfEntry val c = i := by
  simp [items]

theorem buffer_iff (p : Pixels) (b : Nat × Nat) : p.buffer = some b ↔ p = .cpu b.1 b.2 := by
  cases p with
  | gpu => simp [Pixels.buffer]
  | cpu q l => simp [Pixels.buffer, Prod.ext_iff]

theorem key_iff {tiles : List Tile} {cache : List CacheEntry} {k : Key} :
    (∃ i ∈ items val tiles cache, i.key = k) ↔ k ∈ keysOf tiles cache := by
  simp only [mem_items, keysOf, List.mem_append, List.mem_map]
  constructor
  · rintro ⟨i, (⟨t, ht, rfl⟩ | ⟨c, hc, rfl⟩), rfl⟩
    · exact Or.inl ⟨t, ht, rfl⟩
    · exact Or.inr ⟨c, hc, rfl⟩
  · rintro (⟨t, ht, rfl⟩ | ⟨c, hc, rfl⟩)
    · exact ⟨_, Or.inl ⟨t, ht, rfl⟩, rfl⟩
    · exact ⟨_, Or.inr ⟨c, hc, rfl⟩, rfl⟩

theorem held_iff {tiles : List Tile} {cache : List CacheEntry} {k : Key} {b : Nat × Nat} :
    (∃ i ∈ items val tiles cache, i.key = k ∧ i.pixels = .cpu b.1 b.2) ↔ HeldAt tiles cache k b := by
  simp only [mem_items, HeldAt, buffer_iff]
  constructor
  · rintro ⟨i, (⟨t, ht, rfl⟩ | ⟨c, hc, rfl⟩), h1, h2⟩
    · exact Or.inl ⟨t, ht, h1, h2⟩
    · exact Or.inr ⟨c, hc, h1, h2⟩
  · rintro (⟨t, ht, h1, h2⟩ | ⟨c, hc, h1, h2⟩)
    · exact ⟨_, Or.inl ⟨t, ht, rfl⟩, h1, h2⟩
    · exact ⟨_, Or.inr ⟨c, hc, rfl⟩, h1, h2⟩

theorem isGpu_iff (p : Pixels) : p.isGpu = true ↔ p = .gpu := by cases p <;> simp [Pixels.isGpu]

theorem inBand_pair (r : Rect) (a b : ℚ) : inBand r (a, b) = true ↔ r.y < b ∧ a < r.y + r.height := by
  rw [inBand, Bool.and_eq_true, decide_eq_true_iff, decide_eq_true_iff]

theorem inBand_iff (r : Rect) (scrollY vpH : ℚ) :
    inBand r (rasterWindow scrollY vpH) = true ↔ Near r.y r.height scrollY vpH := by
  rw [rasterWindow, inBand_pair, Near]
  constructor
  · rintro ⟨h1, h2⟩; exact ⟨by linarith, by linarith⟩
  · rintro ⟨h1, h2⟩; exact ⟨by linarith, by linarith⟩

theorem keep_iff {tiles : List Tile} {cache : List CacheEntry} {k : Key} {scrollY vpH : ℚ} :
    (∃ i ∈ items val tiles cache, i.key = k ∧ keepItem (rasterWindow scrollY vpH) i = true) ↔
      KeepAt val scrollY vpH tiles cache k := by
  simp only [mem_items, KeepAt, keepItem, Bool.or_eq_true, isGpu_iff, inBand_iff, KeepTile, KeepEntry]
  constructor
  · rintro ⟨i, (⟨t, ht, rfl⟩ | ⟨c, hc, rfl⟩), h1, h2⟩
    · refine Or.inl ⟨t, ht, h1, ?_⟩
      simpa [itemOfTile, or_assoc] using h2
    · refine Or.inr ⟨c, hc, h1, ?_⟩
      simpa [itemOfEntry] using h2
  · rintro (⟨t, ht, h1, h2⟩ | ⟨c, hc, h1, h2⟩)
    · refine ⟨_, Or.inl ⟨t, ht, rfl⟩, h1, ?_⟩
      simpa [itemOfTile, or_assoc] using h2
    · refine ⟨_, Or.inr ⟨c, hc, rfl⟩, h1, ?_⟩
      simpa [itemOfEntry] using h2

theorem find_items {tiles : List Tile} {cache : List CacheEntry} {k : Key} {i : Item}
    (h : (items val tiles cache).find? (fun i => i.key = k) = some i) : i.rect = rectAt val tiles cache k := by
  rw [items, List.find?_append, List.find?_map, List.find?_map] at h
  simp only [rectAt, sizeAt]
  have e1 : ((fun i : Item => decide (i.key = k)) ∘ itemOfTile val) = fun t : Tile => decide (t.key = k) := rfl
  have e2 : ((fun i : Item => decide (i.key = k)) ∘ itemOfEntry val) = fun t : CacheEntry => decide (t.key = k) := rfl
  rw [e1, e2] at h
  cases ht : tiles.find? (fun t => decide (t.key = k)) with
  | some t =>
    rw [ht] at h
    have hk : t.key = k := by simpa using List.find?_some ht
    simp only [Option.map_some, Option.some_or, Option.some.injEq] at h
    subst h; simp [itemOfTile, hk]
  | none =>
    rw [ht] at h
    cases hc : cache.find? (fun t => decide (t.key = k)) with
    | none => rw [hc] at h; simp at h
    | some c =>
      rw [hc] at h
      have hk : c.key = k := by simpa using List.find?_some hc
      simp only [Option.map_none, Option.map_some, Option.none_or, Option.some.injEq] at h
      subst h; simp [itemOfEntry, hk]

/-! ## Memory -/

theorem mem_buffers_filter {tiles : List Tile} {cache : List CacheEntry} {P : Key → Bool} {b : Nat × Nat} :
    b ∈ buffers (tiles.filter fun t => P t.key) (cache.filter fun c => P c.key) ↔
      ∃ k, P k = true ∧ HeldAt tiles cache k b := by
  simp only [buffers, List.mem_append, List.mem_filterMap, List.mem_filter, HeldAt]
  constructor
  · rintro (⟨t, ⟨ht, hp⟩, hb⟩ | ⟨t, ⟨ht, hp⟩, hb⟩)
    · exact ⟨t.key, hp, Or.inl ⟨t, ht, rfl, hb⟩⟩
    · exact ⟨t.key, hp, Or.inr ⟨t, ht, rfl, hb⟩⟩
  · rintro ⟨k, hp, (⟨t, ht, rfl, hb⟩ | ⟨t, ht, rfl, hb⟩)⟩
    · exact Or.inl ⟨t, ⟨ht, hp⟩, hb⟩
    · exact Or.inr ⟨t, ⟨ht, hp⟩, hb⟩

theorem ownSum_eq (own : List ((Nat × Nat) × Key)) : ownSum own = ((own.map Prod.fst).map Prod.snd).sum := by
  simp [ownSum, List.map_map, Function.comp_def]

/-- Where nothing is shared, the buffers counted at some positions are the memory held there. -/
theorem memory_filter {tiles : List Tile} {cache : List CacheEntry} {band : ℚ × ℚ} {a : Acc}
    {own : List ((Nat × Nat) × Key)} (h : Inv band (items val tiles cache) a own) (hns : NoSharing tiles cache)
    (P : Key → Bool) :
    memory (tiles.filter fun t => P t.key) (cache.filter fun c => P c.key) = ownSum (own.filter fun o => P o.2) := by
  rw [memory, ownSum_eq]
  apply nodup_sum_eq (List.nodup_dedup _) (h.nodup.sublist ((List.filter_sublist).map _))
  intro b hb
  rw [List.mem_dedup, mem_buffers_filter]
  simp only [List.mem_map, List.mem_filter]
  constructor
  · rintro ⟨k, hp, hk⟩
    obtain ⟨i, hi, h1, h2⟩ := (held_iff val).mpr hk
    obtain ⟨k', hk'⟩ := h.owned i hi _ _ h2
    have : k = k' := hns k k' b hk ((held_iff val).mp (by simpa using h.from_item _ hk')) hb
    exact ⟨_, ⟨hk', by simpa [this] using hp⟩, rfl⟩
  · rintro ⟨o, ⟨ho, hp⟩, rfl⟩
    exact ⟨o.2, hp, (held_iff val).mp (by simpa using h.from_item o ho)⟩

/-- In any case they are no more than that. -/
theorem memory_filter_ge {tiles : List Tile} {cache : List CacheEntry} {band : ℚ × ℚ} {a : Acc}
    {own : List ((Nat × Nat) × Key)} (h : Inv band (items val tiles cache) a own)
    (P : Key → Bool) :
    ownSum (own.filter fun o => P o.2) ≤ memory (tiles.filter fun t => P t.key) (cache.filter fun c => P c.key) := by
  rw [memory, ownSum_eq]
  have hn := h.nodup.sublist ((List.filter_sublist (p := fun o : (Nat × Nat) × Key => P o.2) (l := own)).map Prod.fst)
  have hsub : ((own.filter fun o => P o.2).map Prod.fst) ⊆
      (buffers (tiles.filter fun t => P t.key) (cache.filter fun c => P c.key)).dedup := by
    intro b hb
    obtain ⟨o, ho, rfl⟩ := List.mem_map.mp hb
    rw [List.mem_filter] at ho
    rw [List.mem_dedup, mem_buffers_filter]
    exact ⟨o.2, ho.2, (held_iff val).mp (by simpa using h.from_item o ho.1)⟩
  obtain ⟨l, hl, hs⟩ := hn.subperm hsub
  rw [← (hl.map Prod.snd).sum_eq]
  exact (hs.map Prod.snd).sum_le_sum (fun _ _ => Nat.zero_le _)

/-- All the buffers counted are all the memory. -/
theorem memory_all {tiles : List Tile} {cache : List CacheEntry} {band : ℚ × ℚ} {a : Acc}
    {own : List ((Nat × Nat) × Key)} (h : Inv band (items val tiles cache) a own) :
    memory tiles cache = ownSum own := by
  rw [memory, ownSum_eq]
  apply nodup_sum_eq (List.nodup_dedup _) h.nodup
  intro b hb
  have := mem_buffers_filter (tiles := tiles) (cache := cache) (P := fun _ => true) (b := b)
  simp only [List.filter_true, true_and] at this
  rw [List.mem_dedup, this]
  simp only [List.mem_map]
  constructor
  · rintro ⟨k, hk⟩
    obtain ⟨i, hi, h1, h2⟩ := (held_iff val).mpr hk
    obtain ⟨k', hk'⟩ := h.owned i hi _ _ h2
    exact ⟨_, hk', rfl⟩
  · rintro ⟨o, ho, rfl⟩
    exact ⟨o.2, (held_iff val).mp (by simpa using h.from_item o ho)⟩

theorem total_own {tiles : List Tile} {cache : List CacheEntry} {band : ℚ × ℚ} {a : Acc}
    {own : List ((Nat × Nat) × Key)} (h : Inv band (items val tiles cache) a own) :
    totalBytes a.positions = ownSum own := by
  rw [sum_positions a.positions h.nk (own := own)]
  · congr 1
    rw [List.filter_eq_self]
    intro o ho
    obtain ⟨i, hi, h1, _⟩ := h.from_item o ho
    rw [decide_eq_true_eq, show (a.positions.map Prod.fst) = a.positions.map (·.1) from rfl, mem_keys_iff]
    cases hl : look a.positions o.2 with
    | some p => rfl
    | none => exact absurd h1 ((h.none _).mp hl i hi)
  · intro p hp
    exact (h.some p.1 p.2 (look_of_mem h.nk hp)).1

end

end Verif.TileBudget
