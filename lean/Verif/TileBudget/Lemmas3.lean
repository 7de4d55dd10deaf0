import Verif.TileBudget.Lemmas2

/-! # What `enforce` evicts -/
namespace Verif.TileBudget
open Verif.Map Verif.Layers

theorem keyLe_iff (a b : Key) :
    keyLe a b = true ↔ a = b ∨ (a.1 < b.1 ∨ a.1 = b.1 ∧ (a.2.1 < b.2.1 ∨ a.2.1 = b.2.1 ∧ a.2.2 < b.2.2)) := by
  obtain ⟨a1, a2, a3⟩ := a
  obtain ⟨b1, b2, b3⟩ := b
  simp only [keyLe, Bool.or_eq_true, Bool.and_eq_true, decide_eq_true_eq, Prod.mk.injEq]
  omega

theorem candLe_iff (a b : Cand) : candLe a b = true ↔ a.tick < b.tick ∨ a.tick = b.tick ∧
    (b.dist < a.dist ∨ a.dist = b.dist ∧ keyLe a.key b.key = true) := by
  simp only [candLe, Bool.or_eq_true, Bool.and_eq_true, decide_eq_true_iff]

theorem keyLe_trans (a b c : Key) (h1 : keyLe a b = true) (h2 : keyLe b c = true) : keyLe a c = true := by
  rw [keyLe_iff] at *
  obtain ⟨a1, a2, a3⟩ := a
  obtain ⟨b1, b2, b3⟩ := b
  obtain ⟨c1, c2, c3⟩ := c
  simp only [Prod.mk.injEq] at *
  omega

theorem keyLe_total (a b : Key) : keyLe a b = true ∨ keyLe b a = true := by
  rw [keyLe_iff, keyLe_iff]
  obtain ⟨a1, a2, a3⟩ := a
  obtain ⟨b1, b2, b3⟩ := b
  simp only [Prod.mk.injEq]
  omega

theorem candLe_trans (a b c : Cand) (h1 : candLe a b = true) (h2 : candLe b c = true) : candLe a c = true := by
  rw [candLe_iff] at *
  rcases h1 with h1 | ⟨h1, h1'⟩
  · left; rcases h2 with h2 | ⟨h2, _⟩ <;> omega
  · rcases h2 with h2 | ⟨h2, h2'⟩
    · left; omega
    · right
      refine ⟨h1.trans h2, ?_⟩
      rcases h1' with h1' | ⟨h1', h1''⟩
      · left; rcases h2' with h2' | ⟨h2', _⟩ <;> linarith
      · rcases h2' with h2' | ⟨h2', h2''⟩
        · left; linarith
        · right; exact ⟨h1'.trans h2', keyLe_trans _ _ _ h1'' h2''⟩

theorem candLe_total (a b : Cand) : candLe a b = true ∨ candLe b a = true := by
  rw [candLe_iff, candLe_iff]
  rcases Nat.lt_trichotomy a.tick b.tick with h | h | h
  · exact Or.inl (Or.inl h)
  · rcases lt_trichotomy a.dist b.dist with h' | h' | h'
    · exact Or.inr (Or.inr ⟨h.symm, Or.inl h'⟩)
    · rcases keyLe_total a.key b.key with h'' | h''
      · exact Or.inl (Or.inr ⟨h, Or.inr ⟨h', h''⟩⟩)
      · exact Or.inr (Or.inr ⟨h.symm, Or.inr ⟨h'.symm, h''⟩⟩)
    · exact Or.inl (Or.inr ⟨h, Or.inl h'⟩)
  · exact Or.inr (Or.inl h)

section
variable (val : Nat → ℚ)

/-- A candidate is a position with bytes of its own and nothing to protect it. -/
structure IsCand (s : State) (tiles : List Tile) (cache : List CacheEntry) (scrollY vpH : ℚ)
    (own : List ((Nat × Nat) × Key)) (c : Cand) : Prop where
  key : c.key ∈ keysOf tiles cache
  free : ¬ KeepAt val scrollY vpH tiles cache c.key
  bytes : c.bytes = ownSum (own.filter fun o => o.2 = c.key)
  pos : 0 < c.bytes
  tick : c.tick = usedAt s c.key
  dist : c.dist = distAt val tiles cache scrollY vpH c.key
  rect : c.rect = rectAt val tiles cache c.key

theorem look_keys {tiles : List Tile} {cache : List CacheEntry} {band : ℚ × ℚ} {a : Acc}
    {own : List ((Nat × Nat) × Key)} (h : Inv band (items val tiles cache) a own) (k : Key) :
    (look a.positions k).isSome = true ↔ k ∈ keysOf tiles cache := by
  rw [← key_iff val]
  cases hl : look a.positions k with
  | none => simpa using (h.none k).mp hl
  | some p =>
    obtain ⟨_, _, i, hi, _⟩ := h.some _ _ hl
    simp only [Option.isSome_some, true_iff]
    exact ⟨i, List.mem_of_find?_eq_some hi, by simpa using List.find?_some hi⟩

theorem candidates_keys (lu : List (Key × Nat)) (scrollY vpH : ℚ) (ps : List (Key × PosInfo)) (hn : Nk ps) :
    ((candidates lu scrollY vpH ps).map Cand.key).Nodup := by
  rw [candidates, List.map_map]
  exact nk_filter hn _

theorem mem_candidates {s : State} {tiles : List Tile} {cache : List CacheEntry} {scrollY vpH : ℚ} {a : Acc}
    {own : List ((Nat × Nat) × Key)} (h : Inv (rasterWindow scrollY vpH) (items val tiles cache) a own) {c : Cand}
    (hc : c ∈ candidates (s.lastUsed.filter fun e => (look a.positions e.1).isSome) scrollY vpH a.positions) :
    IsCand val s tiles cache scrollY vpH own c := by
  simp only [candidates, List.mem_map, List.mem_filter, Bool.and_eq_true, Bool.not_eq_true', decide_eq_true_eq] at hc
  obtain ⟨p, ⟨hp, hprot, hb⟩, rfl⟩ := hc
  have hl := look_of_mem h.nk hp
  obtain ⟨h1, h2, i, hi, hr⟩ := h.some _ _ hl
  have hk : p.1 ∈ keysOf tiles cache := (look_keys val h p.1).mp (by rw [hl]; rfl)
  have hr' : p.2.rect = rectAt val tiles cache p.1 := hr.trans (find_items val hi)
  refine ⟨hk, ?_, h1, hb, ?_, ?_, hr'⟩
  · rw [← keep_iff val, ← h2, hprot]; simp
  · simp only [usedAt]
    rw [look_filter s.lastUsed (fun k => (look a.positions k).isSome)]
    simp [hl]
  · simp only [distAt, hr']

theorem candidates_complete {s : State} {tiles : List Tile} {cache : List CacheEntry} {scrollY vpH : ℚ} {a : Acc}
    {own : List ((Nat × Nat) × Key)} (h : Inv (rasterWindow scrollY vpH) (items val tiles cache) a own) {k : Key}
    (hk : k ∈ keysOf tiles cache) (hf : ¬ KeepAt val scrollY vpH tiles cache k)
    (hb : 0 < ownSum (own.filter fun o => o.2 = k)) :
    ∃ c ∈ candidates (s.lastUsed.filter fun e => (look a.positions e.1).isSome) scrollY vpH a.positions, c.key = k := by
  have := (look_keys val h k).mpr hk
  cases hl : look a.positions k with
  | none => rw [hl] at this; simp at this
  | some p =>
    obtain ⟨h1, h2, _⟩ := h.some _ _ hl
    simp only [candidates, List.mem_map, List.mem_filter, Bool.and_eq_true, Bool.not_eq_true', decide_eq_true_eq]
    refine ⟨_, ⟨(k, p), ⟨mem_of_look hl, ?_, ?_⟩, rfl⟩, rfl⟩
    · cases hp : p.prot with
      | false => rfl
      | true => exact absurd ((keep_iff val).mp (h2.mp hp)) hf
    · rw [gt_iff_lt, h1]; exact hb

/-- What the loop decides, on the level of tiles and cache entries. -/
structure Cut (s : State) (tiles : List Tile) (cache : List CacheEntry) (scrollY vpH : ℚ) (budget : Nat)
    (own : List ((Nat × Nat) × Key)) (killed : List Cand) (o : Outcome) : Prop where
  nodup : (killed.map Cand.key).Nodup
  cand : ∀ c ∈ killed, IsCand val s tiles cache scrollY vpH own c
  order : ∀ c ∈ killed, ∀ k ∈ keysOf tiles cache, k ∉ killed.map Cand.key → ¬ KeepAt val scrollY vpH tiles cache k →
    0 < ownSum (own.filter fun o => o.2 = k) → Before val s tiles cache scrollY vpH c.key k
  sorted : (killed.map Cand.key).Pairwise (Before val s tiles cache scrollY vpH)
  idle : budget = 0 ∨ ownSum own ≤ budget → killed = []
  enough : budget = 0 ∨ ownSum own ≤ budget + (killed.map Cand.bytes).sum ∨
    ∀ k ∈ keysOf tiles cache, k ∉ killed.map Cand.key → ¬ KeepAt val scrollY vpH tiles cache k →
      ownSum (own.filter fun o => o.2 = k) = 0
  needed : ∀ pre c, killed = pre ++ [c] → budget + (pre.map Cand.bytes).sum < ownSum own
  tilesEq : o.tiles = tiles.filter fun t => !decide (t.key ∈ killed.map Cand.key)
  cacheEq : o.cache = cache.filter fun t => !decide (t.key ∈ killed.map Cand.key)
  count : o.report.evictedTiles = killed.length
  bytes : o.report.evictedBytes = (killed.map Cand.bytes).sum
  resident : o.report.residentBytes = ownSum own - (killed.map Cand.bytes).sum
  evicted : o.state.evicted = s.evicted ++ killed.map Cand.rect
  used : ∀ k, look o.state.lastUsed k =
    if k ∈ keysOf tiles cache ∧ k ∉ killed.map Cand.key then look s.lastUsed k else none
  tick : o.state.tick = s.tick
  rastered : o.state.rastered = s.rastered

theorem before_of_candLe {s : State} {tiles : List Tile} {cache : List CacheEntry} {scrollY vpH : ℚ}
    {own : List ((Nat × Nat) × Key)} {c d : Cand} (hc : IsCand val s tiles cache scrollY vpH own c)
    (hd : IsCand val s tiles cache scrollY vpH own d) (hne : c.key ≠ d.key) (h : candLe c d = true) :
    Before val s tiles cache scrollY vpH c.key d.key := by
  rw [candLe_iff, keyLe_iff, hc.tick, hd.tick, hc.dist, hd.dist] at h
  rw [Before]
  rcases h with h | ⟨h1, h | ⟨h2, h | h⟩⟩
  · exact Or.inl h
  · exact Or.inr ⟨h1, Or.inl h⟩
  · exact absurd h hne
  · exact Or.inr ⟨h1, Or.inr ⟨h2, h⟩⟩

theorem pairwise_append_mem {α : Type} {R : α → α → Prop} {a b : List α} (h : (a ++ b).Pairwise R) {x y : α}
    (hx : x ∈ a) (hy : y ∈ b) : R x y := (List.pairwise_append.mp h).2.2 x hx y hy

theorem enforce_cut (s : State) (tiles : List Tile) (cache : List CacheEntry) (scrollY vpH : ℚ) (budget : Nat) :
    ∃ a own killed, Inv (rasterWindow scrollY vpH) (items val tiles cache) a own ∧
      Cut val s tiles cache scrollY vpH budget own killed (enforce val s tiles cache scrollY vpH budget) := by
  obtain ⟨a, own, hpos, h⟩ := inv_positions (rasterWindow scrollY vpH) (items val tiles cache)
  have htot := total_own val h
  have hlu : ∀ k, look (s.lastUsed.filter fun e => (look a.positions e.1).isSome) k =
      if k ∈ keysOf tiles cache then look s.lastUsed k else none := by
    intro k
    rw [look_filter s.lastUsed (fun k => (look a.positions k).isSome)]
    by_cases hk : k ∈ keysOf tiles cache
    · rw [if_pos hk, if_pos ((look_keys val h k).mpr hk)]
    · rw [if_neg hk, if_neg (fun hh => hk ((look_keys val h k).mp hh))]
  by_cases hb : budget = 0 ∨ ownSum own ≤ budget
  · refine ⟨a, own, [], h, ?_⟩
    have he : enforce val s tiles cache scrollY vpH budget =
        ⟨{ s with lastUsed := s.lastUsed.filter fun e => (look a.positions e.1).isSome }, tiles, cache,
          ⟨0, 0, ownSum own⟩⟩ := by
      simp only [enforce]
      rw [← hpos, htot, if_pos hb]
    rw [he]
    constructor <;> simp
    · rcases hb with hb | hb
      · exact Or.inl hb
      · exact Or.inr (Or.inl hb)
    · exact fun a b c => hlu (a, b, c)
  · have hb' := hb
    rw [not_or, not_le] at hb'
    obtain ⟨lu, hlu'⟩ : ∃ lu, lu = s.lastUsed.filter fun e => (look a.positions e.1).isSome := ⟨_, rfl⟩
    obtain ⟨L, hL⟩ : ∃ L, L = isort candLe (candidates lu scrollY vpH a.positions) := ⟨_, rfl⟩
    obtain ⟨killed, hk⟩ : ∃ killed, killed = evictLoop L (ownSum own - budget) := ⟨_, rfl⟩
    refine ⟨a, own, killed, h, ?_⟩
    have he : enforce val s tiles cache scrollY vpH budget =
        ⟨{ s with evicted := s.evicted ++ killed.map Cand.rect
                  lastUsed := lu.filter fun e => !decide (e.1 ∈ killed.map Cand.key) },
         tiles.filter fun t => !decide (t.key ∈ killed.map Cand.key),
         cache.filter fun c => !decide (c.key ∈ killed.map Cand.key),
         ⟨(killed.map Cand.key).length, (killed.map Cand.bytes).sum, ownSum own - (killed.map Cand.bytes).sum⟩⟩ := by
      simp only [enforce]
      rw [← hpos, htot, if_neg hb, ← hlu', ← hL, ← hk]
    have hperm : L.Perm (candidates lu scrollY vpH a.positions) := hL ▸ isort_perm _ _
    have hsorted : L.Pairwise (fun x y => candLe x y = true) := hL ▸ isort_sorted _ candLe_trans candLe_total _
    obtain ⟨rest, hrest⟩ : killed <+: L := hk ▸ evictLoop_prefix _ _
    have hnd : (L.map Cand.key).Nodup := (hperm.map _).nodup_iff.mpr (candidates_keys _ _ _ _ h.nk)
    have hmem : ∀ c ∈ L, IsCand val s tiles cache scrollY vpH own c := by
      intro c hc
      exact mem_candidates val h (hlu' ▸ hperm.mem_iff.mp hc)
    have hcomp : ∀ k ∈ keysOf tiles cache, ¬ KeepAt val scrollY vpH tiles cache k →
        0 < ownSum (own.filter fun o => o.2 = k) → ∃ c ∈ L, c.key = k := by
      intro k hk hf hpos
      obtain ⟨c, hc, h1⟩ := candidates_complete val (s := s) h hk hf hpos
      exact ⟨c, hperm.mem_iff.mpr (hlu' ▸ hc), h1⟩
    have hkl : ∀ c ∈ killed, c ∈ L := fun c hc => hrest ▸ List.mem_append_left _ hc
    have hsb : ∀ c d, c ∈ L → d ∈ L → c.key ≠ d.key → candLe c d = true →
        Before val s tiles cache scrollY vpH c.key d.key :=
      fun c d hc hd => before_of_candLe val (hmem c hc) (hmem d hd)
    have hnk : (killed.map Cand.key).Nodup := by
      rw [← hrest, List.map_append] at hnd
      exact (List.nodup_append.mp hnd).1
    rw [he]
    refine ⟨hnk, fun c hc => hmem c (hkl c hc), ?_, ?_, fun hh => absurd hh hb, ?_, ?_, rfl, rfl,
      by simp, rfl, rfl, rfl, ?_, rfl, rfl⟩
    · intro c hc k hk hkn hf hpos
      obtain ⟨d, hd, rfl⟩ := hcomp k hk hf hpos
      have hdr : d ∈ rest := by
        rw [← hrest] at hd
        rcases List.mem_append.mp hd with hd' | hd'
        · exact absurd (List.mem_map.mpr ⟨d, hd', rfl⟩) hkn
        · exact hd'
      rw [← hrest] at hsorted
      refine hsb c d (hkl c hc) hd ?_ (pairwise_append_mem hsorted hc hdr)
      intro heq
      exact hkn (heq ▸ List.mem_map.mpr ⟨c, hc, rfl⟩)
    · rw [List.pairwise_map]
      have h1 : killed.Pairwise (fun x y => candLe x y = true) := by
        rw [← hrest] at hsorted; exact (List.pairwise_append.mp hsorted).1
      have h2 : killed.Pairwise (fun x y => x.key ≠ y.key) := List.pairwise_map.mp hnk
      have h3 : killed.Pairwise (fun x y => candLe x y = true ∧ x.key ≠ y.key) := List.pairwise_and_iff.mpr ⟨h1, h2⟩
      refine List.Pairwise.imp_of_mem ?_ h3
      intro x y hx hy hxy
      exact hsb x y (hkl x hx) (hkl y hy) hxy.2 hxy.1
    · right
      rcases evictLoop_enough L (ownSum own - budget) with h1 | h1
      · left; rw [← hk] at h1; omega
      · right
        intro k hkk hkn hf
        rw [← hk] at h1
        by_contra hne
        obtain ⟨d, hd, rfl⟩ := hcomp k hkk hf (Nat.pos_of_ne_zero hne)
        exact hkn (List.mem_map.mpr ⟨d, h1 ▸ hd, rfl⟩)
    · intro pre c hpc
      have := evictLoop_needed L (ownSum own - budget) pre c (by rw [← hk]; exact hpc)
      omega
    · intro k
      show look (lu.filter fun e => !decide (e.1 ∈ killed.map Cand.key)) k = _
      rw [look_filter lu (fun k => !decide (k ∈ killed.map Cand.key)), hlu', hlu]
      by_cases h1 : k ∈ keysOf tiles cache <;> by_cases h2 : k ∈ killed.map Cand.key <;> simp [h1, h2]

/-- Bytes counted at the evicted positions. -/
theorem killed_bytes {s : State} {tiles : List Tile} {cache : List CacheEntry} {scrollY vpH : ℚ}
    {own : List ((Nat × Nat) × Key)} (l : List Cand) (hn : (l.map Cand.key).Nodup)
    (h : ∀ c ∈ l, IsCand val s tiles cache scrollY vpH own c) :
    (l.map Cand.bytes).sum = ownSum (own.filter fun o => o.2 ∈ l.map Cand.key) := by
  induction l with
  | nil => simp [ownSum]
  | cons c l ih =>
    rw [List.map_cons, List.nodup_cons] at hn
    rw [List.map_cons, List.map_cons, ← ownSum_filter_split own c.key _ hn.1, ← (h c (by simp)).bytes,
      ← ih hn.2 (fun d hd => h d (List.mem_cons_of_mem _ hd))]
    rfl

theorem ownSum_compl (own : List ((Nat × Nat) × Key)) (P : Key → Bool) :
    ownSum (own.filter fun o => P o.2) + ownSum (own.filter fun o => !P o.2) = ownSum own := by
  induction own with
  | nil => rfl
  | cons o r ih =>
    rw [List.filter_cons, List.filter_cons, ownSum_cons]
    cases h : P o.2 <;> simp only [Bool.false_eq_true, if_false, if_true, Bool.not_true, Bool.not_false, ownSum_cons] <;> omega

end

end Verif.TileBudget
