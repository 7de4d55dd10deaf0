import Verif.TileBudget.Lemmas3

/-! # C55: the tile budget -/
namespace Verif.TileBudget
open Verif.Map Verif.Layers

section
variable {val : Nat → ℚ} {s : State} {tiles : List Tile} {cache : List CacheEntry} {scrollY vpH : ℚ} {budget : Nat}
  {own : List ((Nat × Nat) × Key)} {killed : List Cand} {o : Outcome}

theorem Cut.keys (h : Cut val s tiles cache scrollY vpH budget own killed o) (k : Key) :
    k ∈ keysOf o.tiles o.cache ↔ k ∈ keysOf tiles cache ∧ k ∉ killed.map Cand.key := by
  rw [h.tilesEq, h.cacheEq]
  simp only [keysOf, List.mem_append, List.mem_map (f := Tile.key), List.mem_map (f := CacheEntry.key), List.mem_filter,
    Bool.not_eq_true', decide_eq_false_iff_not]
  constructor
  · rintro (⟨t, ⟨ht, hn⟩, rfl⟩ | ⟨t, ⟨ht, hn⟩, rfl⟩)
    · exact ⟨Or.inl ⟨t, ht, rfl⟩, hn⟩
    · exact ⟨Or.inr ⟨t, ht, rfl⟩, hn⟩
  · rintro ⟨⟨t, ht, rfl⟩ | ⟨t, ht, rfl⟩, hn⟩
    · exact Or.inl ⟨t, ⟨ht, hn⟩, rfl⟩
    · exact Or.inr ⟨t, ⟨ht, hn⟩, rfl⟩

theorem Cut.gone (h : Cut val s tiles cache scrollY vpH budget own killed o) (k : Key) :
    Gone tiles cache o k ↔ k ∈ killed.map Cand.key := by
  rw [Gone, h.keys]
  constructor
  · rintro ⟨h1, h2⟩
    by_contra hn
    exact h2 ⟨h1, hn⟩
  · intro hk
    obtain ⟨c, hc, rfl⟩ := List.mem_map.mp hk
    exact ⟨(h.cand c hc).key, fun hh => hh.2 hk⟩

theorem Cut.memory_eq (h : Cut val s tiles cache scrollY vpH budget own killed o) {a : Acc}
    (hi : Inv (rasterWindow scrollY vpH) (items val tiles cache) a own) (hns : NoSharing tiles cache) :
    memory o.tiles o.cache + (killed.map Cand.bytes).sum = memory tiles cache := by
  rw [h.tilesEq, h.cacheEq, memory_filter val hi hns (fun k => !decide (k ∈ killed.map Cand.key)), memory_all val hi,
    killed_bytes val killed h.nodup h.cand, ← ownSum_compl own (fun k => decide (k ∈ killed.map Cand.key)), Nat.add_comm]

theorem Cut.memory_ge (h : Cut val s tiles cache scrollY vpH budget own killed o) {a : Acc}
    (hi : Inv (rasterWindow scrollY vpH) (items val tiles cache) a own) :
    memory tiles cache ≤ memory o.tiles o.cache + (killed.map Cand.bytes).sum := by
  have h1 := memory_filter_ge val hi (fun k => !decide (k ∈ killed.map Cand.key))
  have h2 := ownSum_compl own (fun k => decide (k ∈ killed.map Cand.key))
  rw [h.tilesEq, h.cacheEq, memory_all val hi, killed_bytes val killed h.nodup h.cand]
  omega

theorem memoryAt_own {a : Acc} (hi : Inv (rasterWindow scrollY vpH) (items val tiles cache) a own)
    (hns : NoSharing tiles cache) (k : Key) : memoryAt tiles cache k = ownSum (own.filter fun o => o.2 = k) :=
  memory_filter val hi hns (fun k' => decide (k' = k))

end

section
variable (val : Nat → ℚ) (s : State) (tiles : List Tile) (cache : List CacheEntry) (scrollY vpH : ℚ) (budget : Nat)

/-- C55: nothing protected is evicted, whatever the budget. -/
theorem C55_kept (k : Key) (hk : KeepAt val scrollY vpH tiles cache k) :
    (∀ t ∈ tiles, t.key = k → t ∈ (enforce val s tiles cache scrollY vpH budget).tiles) ∧
    ∀ c ∈ cache, c.key = k → c ∈ (enforce val s tiles cache scrollY vpH budget).cache := by
  obtain ⟨a, own, killed, hi, h⟩ := enforce_cut val s tiles cache scrollY vpH budget
  have hn : k ∉ killed.map Cand.key := by
    intro hm
    obtain ⟨c, hc, rfl⟩ := List.mem_map.mp hm
    exact (h.cand c hc).free hk
  rw [h.tilesEq, h.cacheEq]
  constructor
  · intro t ht he; simp only [List.mem_filter, he]; exact ⟨ht, by simpa using hn⟩
  · intro t ht he; simp only [List.mem_filter, he]; exact ⟨ht, by simpa using hn⟩

/-- C55: positions are evicted or kept as a whole, in order; nothing is added. -/
theorem C55_whole :
    let o := enforce val s tiles cache scrollY vpH budget
    o.tiles = tiles.filter (fun t => decide (t.key ∈ keysOf o.tiles o.cache)) ∧
    o.cache = cache.filter (fun c => decide (c.key ∈ keysOf o.tiles o.cache)) := by
  obtain ⟨a, own, killed, hi, h⟩ := enforce_cut val s tiles cache scrollY vpH budget
  intro o
  constructor
  · conv_lhs => rw [h.tilesEq]
    apply List.filter_congr
    intro t ht
    have hk : t.key ∈ keysOf tiles cache := List.mem_append_left _ (List.mem_map.mpr ⟨t, ht, rfl⟩)
    have := h.keys t.key
    by_cases hm : t.key ∈ killed.map Cand.key
    · simp only [hm, decide_true, Bool.not_true]
      exact (decide_eq_false (fun hh => (this.mp hh).2 hm)).symm
    · simp only [hm, decide_false, Bool.not_false]
      exact (decide_eq_true (this.mpr ⟨hk, hm⟩)).symm
  · conv_lhs => rw [h.cacheEq]
    apply List.filter_congr
    intro t ht
    have hk : t.key ∈ keysOf tiles cache := List.mem_append_right _ (List.mem_map.mpr ⟨t, ht, rfl⟩)
    have := h.keys t.key
    by_cases hm : t.key ∈ killed.map Cand.key
    · simp only [hm, decide_true, Bool.not_true]
      exact (decide_eq_false (fun hh => (this.mp hh).2 hm)).symm
    · simp only [hm, decide_false, Bool.not_false]
      exact (decide_eq_true (this.mpr ⟨hk, hm⟩)).symm

/-- C55: within the budget (or without one) nothing is evicted, and the report says how much is held. -/
theorem C55_within_budget (hb : budget = 0 ∨ memory tiles cache ≤ budget) :
    let o := enforce val s tiles cache scrollY vpH budget
    o.tiles = tiles ∧ o.cache = cache ∧ o.state.evicted = s.evicted ∧ o.report = ⟨0, 0, memory tiles cache⟩ := by
  obtain ⟨a, own, killed, hi, h⟩ := enforce_cut val s tiles cache scrollY vpH budget
  have hm := memory_all val hi
  rw [hm] at hb ⊢
  have hk := h.idle hb
  subst hk
  intro o
  refine ⟨by rw [h.tilesEq]; simp, by rw [h.cacheEq]; simp, by rw [h.evicted]; simp, ?_⟩
  have h1 := h.count
  have h2 := h.bytes
  have h3 := h.resident
  simp only [List.map_nil, List.sum_nil, List.length_nil, Nat.sub_zero] at h1 h2 h3
  show o.report = _
  cases hr : o.report with
  | mk x y z =>
    rw [show (enforce val s tiles cache scrollY vpH budget).report = ⟨x, y, z⟩ from hr] at h1 h2 h3
    simp only at h1 h2 h3
    rw [h1, h2, h3]

/-- C55: afterwards the budget is met, or all that still takes memory is protected.  Partial: with a buffer shared
between positions this can fail, see `C55_shared_violated`. -/
theorem C55_fits_partial (hns : NoSharing tiles cache) (hb : budget ≠ 0) :
    let o := enforce val s tiles cache scrollY vpH budget
    memory o.tiles o.cache ≤ budget ∨
      ∀ k, 0 < memoryAt o.tiles o.cache k → KeepAt val scrollY vpH tiles cache k := by
  obtain ⟨a, own, killed, hi, h⟩ := enforce_cut val s tiles cache scrollY vpH budget
  have hm := h.memory_eq hi hns
  rw [memory_all val hi] at hm
  intro o
  rcases h.enough with h1 | h1 | h1
  · exact absurd h1 hb
  · left
    show memory (enforce val s tiles cache scrollY vpH budget).tiles (enforce val s tiles cache scrollY vpH budget).cache ≤ budget
    omega
  · right
    intro k hk
    by_contra hf
    have hne : ∃ b, b ∈ buffers (o.tiles.filter fun t => t.key = k) (o.cache.filter fun c => c.key = k) ∧ 0 < b.2 := by
      by_contra hne
      have hz : memoryAt o.tiles o.cache k = 0 := by
        rw [memoryAt, memory, List.sum_eq_zero]
        intro x hx
        obtain ⟨b, hb', rfl⟩ := List.mem_map.mp hx
        rw [List.mem_dedup] at hb'
        exact Nat.eq_zero_of_not_pos fun hp => hne ⟨b, hb', hp⟩
      omega
    obtain ⟨b, hb', hb0⟩ := hne
    have hh := (mem_buffers_filter (P := fun k' => decide (k' = k))).mp hb'
    obtain ⟨k', hk', hh⟩ := hh
    rw [decide_eq_true_eq] at hk'
    subst hk'
    have hko : k' ∈ keysOf o.tiles o.cache := by
      rcases hh with ⟨t, ht, rfl, _⟩ | ⟨t, ht, rfl, _⟩
      · exact List.mem_append_left _ (List.mem_map.mpr ⟨t, ht, rfl⟩)
      · exact List.mem_append_right _ (List.mem_map.mpr ⟨t, ht, rfl⟩)
    have hkk := (h.keys k').mp hko
    have hz := h1 k' hkk.1 hkk.2 hf
    rw [← memoryAt_own hi hns] at hz
    have hbm : b ∈ buffers (tiles.filter fun t => t.key = k') (cache.filter fun c => c.key = k') := by
      refine (mem_buffers_filter (P := fun k'' => decide (k'' = k'))).mpr ⟨k', by simp, ?_⟩
      rcases hh with ⟨t, ht, h2, h3⟩ | ⟨t, ht, h2, h3⟩
      · left; refine ⟨t, ?_, h2, h3⟩
        have : t ∈ o.tiles := ht
        rw [show o.tiles = _ from h.tilesEq] at this
        exact (List.mem_filter.mp this).1
      · right; refine ⟨t, ?_, h2, h3⟩
        have : t ∈ o.cache := ht
        rw [show o.cache = _ from h.cacheEq] at this
        exact (List.mem_filter.mp this).1
    rw [memoryAt, memory] at hz
    have : b.2 ≤ 0 := by
      rw [← hz]
      exact List.single_le_sum (fun _ _ => Nat.zero_le _) _ (List.mem_map.mpr ⟨b, List.mem_dedup.mpr hbm, rfl⟩)
    omega

/-- C55: no more is evicted than needed: of the evicted positions one goes last, and with it the budget would be
exceeded. -/
theorem C55_needed_partial (hns : NoSharing tiles cache)
    (hg : ∃ k, Gone tiles cache (enforce val s tiles cache scrollY vpH budget) k) :
    let o := enforce val s tiles cache scrollY vpH budget
    ∃ k, Gone tiles cache o k ∧ (∀ k', Gone tiles cache o k' → k' = k ∨ Before val s tiles cache scrollY vpH k' k) ∧
      budget < memory (tiles.filter fun t => decide (t.key ∈ keysOf o.tiles o.cache ∨ t.key = k))
        (cache.filter fun c => decide (c.key ∈ keysOf o.tiles o.cache ∨ c.key = k)) := by
  obtain ⟨a, own, killed, hi, h⟩ := enforce_cut val s tiles cache scrollY vpH budget
  intro o
  obtain ⟨k0, hk0⟩ := hg
  rw [h.gone] at hk0
  rcases List.eq_nil_or_concat killed with hnil | ⟨pre, c, hpc⟩
  · rw [hnil] at hk0; simp at hk0
  · rw [List.concat_eq_append] at hpc
    have hcm : c ∈ killed := by rw [hpc]; simp
    refine ⟨c.key, (h.gone _).mpr (List.mem_map.mpr ⟨c, hcm, rfl⟩), ?_, ?_⟩
    · intro k' hk'
      rw [h.gone, hpc, List.map_append, List.mem_append] at hk'
      rcases hk' with hk' | hk'
      · right
        have := h.sorted
        rw [hpc, List.map_append] at this
        exact pairwise_append_mem this hk' (by simp)
      · left; simpa using hk'
    · have hneed := h.needed pre c hpc
      have hnd := h.nodup
      rw [hpc, List.map_append, List.nodup_append] at hnd
      have hpre := killed_bytes val pre hnd.1 (fun d hd => h.cand d (by rw [hpc]; simp [hd]))
      have hcn : c.key ∉ pre.map Cand.key := fun hh => hnd.2.2 _ hh _ (by simp) rfl
      rw [memory_filter val hi hns (fun k => decide (k ∈ keysOf o.tiles o.cache ∨ k = c.key))]
      have hcongr : (own.filter fun o' => decide (o'.2 ∈ keysOf o.tiles o.cache ∨ o'.2 = c.key)) =
          own.filter fun o' => !decide (o'.2 ∈ pre.map Cand.key) := by
        apply List.filter_congr
        intro x hx
        obtain ⟨i, hii, h1, _⟩ := hi.from_item x hx
        have hkx : x.2 ∈ keysOf tiles cache := (key_iff val).mp ⟨i, hii, h1⟩
        have hkeys := h.keys x.2
        rw [hpc, List.map_append, List.mem_append] at hkeys
        by_cases h2 : x.2 ∈ pre.map Cand.key
        · rw [decide_eq_true h2, Bool.not_true, decide_eq_false_iff_not]
          rintro (hh | hh)
          · exact (hkeys.mp hh).2 (Or.inl h2)
          · exact hcn (hh ▸ h2)
        · rw [decide_eq_false h2, Bool.not_false, decide_eq_true_eq]
          by_cases h3 : x.2 = c.key
          · exact Or.inr h3
          · exact Or.inl (hkeys.mpr ⟨hkx, by rintro (hh | hh); exacts [h2 hh, h3 (by simpa using hh)]⟩)
      rw [hcongr]
      have := ownSum_compl own (fun k => decide (k ∈ pre.map Cand.key))
      omega

/-- C55: positions go in the order of use, oldest first, then farthest first: what is evicted goes before everything
that could have been evicted and was not. -/
theorem C55_order_partial (hns : NoSharing tiles cache) (k k' : Key)
    (hk : Gone tiles cache (enforce val s tiles cache scrollY vpH budget) k)
    (hk' : k' ∈ keysOf (enforce val s tiles cache scrollY vpH budget).tiles
      (enforce val s tiles cache scrollY vpH budget).cache)
    (hf : ¬ KeepAt val scrollY vpH tiles cache k') (hm : 0 < memoryAt tiles cache k') :
    Before val s tiles cache scrollY vpH k k' := by
  obtain ⟨a, own, killed, hi, h⟩ := enforce_cut val s tiles cache scrollY vpH budget
  rw [h.gone] at hk
  obtain ⟨c, hc, rfl⟩ := List.mem_map.mp hk
  have hkk := (h.keys k').mp hk'
  exact h.order c hc k' hkk.1 hkk.2 hf (by rw [← memoryAt_own hi hns]; exact hm)

/-- C55: only unprotected positions that take memory are evicted. -/
theorem C55_evicted_partial (hns : NoSharing tiles cache) (k : Key)
    (hk : Gone tiles cache (enforce val s tiles cache scrollY vpH budget) k) :
    ¬ KeepAt val scrollY vpH tiles cache k ∧ 0 < memoryAt tiles cache k := by
  obtain ⟨a, own, killed, hi, h⟩ := enforce_cut val s tiles cache scrollY vpH budget
  rw [h.gone] at hk
  obtain ⟨c, hc, rfl⟩ := List.mem_map.mp hk
  have := h.cand c hc
  exact ⟨this.free, by rw [memoryAt_own hi hns, ← this.bytes]; exact this.pos⟩

/-- C55: the report says what is held afterwards and how much less that is than before. -/
theorem C55_report_partial (hns : NoSharing tiles cache) :
    let o := enforce val s tiles cache scrollY vpH budget
    o.report.residentBytes = memory o.tiles o.cache ∧
    o.report.evictedBytes + memory o.tiles o.cache = memory tiles cache := by
  obtain ⟨a, own, killed, hi, h⟩ := enforce_cut val s tiles cache scrollY vpH budget
  have hm := h.memory_eq hi hns
  intro o
  have h1 := h.bytes
  have h2 := h.resident
  rw [← memory_all val hi] at h2
  constructor
  · show (enforce val s tiles cache scrollY vpH budget).report.residentBytes =
      memory (enforce val s tiles cache scrollY vpH budget).tiles (enforce val s tiles cache scrollY vpH budget).cache
    omega
  · show (enforce val s tiles cache scrollY vpH budget).report.evictedBytes +
      memory (enforce val s tiles cache scrollY vpH budget).tiles (enforce val s tiles cache scrollY vpH budget).cache = _
    omega

theorem keys_dedup_length (l l' k : List Key) (hk : k.Nodup) (h : ∀ x, x ∈ l' ↔ x ∈ l ∧ x ∉ k) (hs : ∀ x ∈ k, x ∈ l) :
    l.dedup.length = l'.dedup.length + k.length := by
  rw [← List.length_append]
  apply List.Perm.length_eq
  rw [List.perm_ext_iff_of_nodup (List.nodup_dedup _)]
  · intro x
    simp only [List.mem_append, List.mem_dedup, h]
    by_cases hx : x ∈ k
    · simp [hx, hs x hx]
    · simp [hx]
  · rw [List.nodup_append]
    refine ⟨List.nodup_dedup _, hk, ?_⟩
    rintro x hx y hy rfl
    exact ((h x).mp (List.mem_dedup.mp hx)).2 hy

/-- C55: the number of evicted positions is reported exactly; the bytes reported as held never exceed what is, and
with those reported as evicted make up what was. -/
theorem C55_report_count :
    let o := enforce val s tiles cache scrollY vpH budget
    (keysOf tiles cache).dedup.length = (keysOf o.tiles o.cache).dedup.length + o.report.evictedTiles ∧
    o.report.residentBytes ≤ memory o.tiles o.cache ∧
    o.report.evictedBytes + o.report.residentBytes = memory tiles cache := by
  obtain ⟨a, own, killed, hi, h⟩ := enforce_cut val s tiles cache scrollY vpH budget
  intro o
  have h1 := h.bytes
  have h2 := h.resident
  have h3 := h.memory_ge hi
  have h4 := killed_bytes val killed h.nodup h.cand
  have h5 := ownSum_compl own (fun k => decide (k ∈ killed.map Cand.key))
  rw [← memory_all val hi] at h2 h5
  refine ⟨?_, ?_, ?_⟩
  · show _ = _ + (enforce val s tiles cache scrollY vpH budget).report.evictedTiles
    rw [h.count, ← List.length_map (f := Cand.key)]
    refine keys_dedup_length _ _ _ h.nodup h.keys ?_
    intro x hx
    obtain ⟨c, hc, rfl⟩ := List.mem_map.mp hx
    exact (h.cand c hc).key
  · show (enforce val s tiles cache scrollY vpH budget).report.residentBytes ≤
      memory (enforce val s tiles cache scrollY vpH budget).tiles (enforce val s tiles cache scrollY vpH budget).cache
    omega
  · show (enforce val s tiles cache scrollY vpH budget).report.evictedBytes +
      (enforce val s tiles cache scrollY vpH budget).report.residentBytes = _
    omega

/-- C55: what was evicted is remembered, for `needs_rerender`; so is when the remaining positions were last used. -/
theorem C55_remembered :
    let o := enforce val s tiles cache scrollY vpH budget
    (∀ r, r ∈ o.state.evicted ↔ r ∈ s.evicted ∨ ∃ k, Gone tiles cache o k ∧ r = rectAt val tiles cache k) ∧
    (∀ k, look o.state.lastUsed k = if k ∈ keysOf o.tiles o.cache then look s.lastUsed k else none) ∧
    o.state.tick = s.tick ∧ o.state.rastered = s.rastered := by
  obtain ⟨a, own, killed, hi, h⟩ := enforce_cut val s tiles cache scrollY vpH budget
  intro o
  refine ⟨?_, ?_, h.tick, h.rastered⟩
  · intro r
    show r ∈ (enforce val s tiles cache scrollY vpH budget).state.evicted ↔ _
    rw [h.evicted, List.mem_append, List.mem_map]
    apply or_congr Iff.rfl
    constructor
    · rintro ⟨c, hc, rfl⟩
      exact ⟨c.key, (h.gone _).mpr (List.mem_map.mpr ⟨c, hc, rfl⟩), (h.cand c hc).rect⟩
    · rintro ⟨k, hk, rfl⟩
      obtain ⟨c, hc, rfl⟩ := List.mem_map.mp ((h.gone k).mp hk)
      exact ⟨c, hc, (h.cand c hc).rect⟩
  · intro k
    show look (enforce val s tiles cache scrollY vpH budget).state.lastUsed k = _
    rw [h.used]
    by_cases hk : k ∈ keysOf o.tiles o.cache
    · rw [if_pos hk, if_pos ((h.keys k).mp hk)]
    · rw [if_neg hk, if_neg (fun hh => hk ((h.keys k).mpr hh))]

end

/-! ## A case: four tiles of 100 bytes on a page, the second of them also in the cache, a budget of 250 -/

def exVal (n : Nat) : ℚ := n
def exTile (y : Nat) (p : Nat) : Tile := ⟨(0, y, 0), 10, 10, .cpu p 100, .scroll⟩
def exTiles : List Tile := [exTile 0 1, exTile 1000 2, exTile 2000 3, exTile 3000 4]
def exCache : List CacheEntry := [⟨(0, 1000, 0), 7, 10, 10, .cpu 2 100⟩]
def exState : State := ⟨5, [((0, 2000, 0), 3)], [], none⟩

theorem exNoSharing : NoSharing exTiles exCache := by
  intro k k' b h h' _
  simp only [HeldAt, exTiles, exCache, exTile, List.mem_cons, List.not_mem_nil, or_false, exists_eq_or_imp,
    exists_eq_left, Pixels.buffer, Option.some.injEq] at h h'
  rcases h with (⟨rfl, rfl⟩ | ⟨rfl, rfl⟩ | ⟨rfl, rfl⟩ | ⟨rfl, rfl⟩) | ⟨rfl, rfl⟩ <;> simp at h' ⊢ <;> exact h'

/-- The tile in view stays; of the others the one never seen and farthest goes first, then the next. -/
example : (enforce exVal exState exTiles exCache 0 100 250).tiles = [exTile 0 1, exTile 2000 3] ∧
    (enforce exVal exState exTiles exCache 0 100 250).cache = [] ∧
    (enforce exVal exState exTiles exCache 0 100 250).report = ⟨2, 200, 200⟩ ∧ memory exTiles exCache = 400 := by
  decide +kernel

/-- The hypotheses of `C55_needed_partial`, `C55_order_partial` and `C55_evicted_partial` are met. -/
example : Gone exTiles exCache (enforce exVal exState exTiles exCache 0 100 250) (0, 3000, 0) := by
  rw [Gone]; decide +kernel

/-- Two positions that share one buffer, and a budget of nothing much. -/
def shTiles : List Tile := [exTile 0 1, exTile 5000 2, ⟨(0, 0, 1), 10, 10, .cpu 2 100, .scroll⟩]

/-- C55 fails when a buffer is shared: it is counted at the first position that holds it, so that position is
evicted, no memory is freed, and the report says there was. -/
theorem C55_shared_violated :
    ∃ (tiles : List Tile) (budget : Nat), budget ≠ 0 ∧
      (enforce exVal exState tiles [] 0 100 budget).report.evictedBytes = 100 ∧
      memory (enforce exVal exState tiles [] 0 100 budget).tiles [] = memory tiles [] ∧
      budget < memory tiles [] :=
  ⟨shTiles, 150, by decide +kernel⟩

end Verif.TileBudget
