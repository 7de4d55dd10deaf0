import Verif.Gradient.Spec
import Mathlib.Tactic.Linarith
import Mathlib.Tactic.Ring
import Mathlib.Tactic.FieldSimp
import Mathlib.Tactic.NormNum

/-! # C142: gradients -/
namespace Verif.Gradient

/-- positions that only go up, from `m` on, to at most 1 -/
def Up : ℚ → List ℚ → Prop
  | _, [] => True
  | m, x :: r => m ≤ x ∧ x ≤ 1 ∧ Up x r

theorem up_weaken {m m' : ℚ} {l : List ℚ} (h : Up m l) (hm : m' ≤ m) : Up m' l := by
  cases l with
  | nil => trivial
  | cons x l => exact ⟨le_trans hm h.1, h.2⟩

theorem up_map {f : Nat → ℚ} {b : ℚ} {q : List ℚ} (hb : b ≤ 1) (hq : Up b q) (hf : ∀ i j, i ≤ j → f i ≤ f j) :
    ∀ (n s : Nat) (x : ℚ), x ≤ f s → x ≤ b → (∀ i, i < s + n → f i ≤ b) → Up x ((List.range' s n).map f ++ b :: q) := by
  intro n
  induction n with
  | zero => intro s x _ h2 _; exact ⟨h2, hb, hq⟩
  | succ n ih =>
    intro s x h1 h2 h3
    rw [List.range'_succ, List.map_cons, List.cons_append]
    have h4 := h3 s (by omega)
    exact ⟨h1, le_trans h4 hb, ih (s + 1) (f s) (hf _ _ (by omega)) h4 (fun i hi => h3 i (by omega))⟩

theorem up_evenly {a b : ℚ} {q : List ℚ} (hab : a ≤ b) (hb : b ≤ 1) (hq : Up b q) (n : Nat) :
    Up a (evenly a b n ++ b :: q) := by
  unfold evenly
  have hn : (0 : ℚ) < (n : ℚ) + 1 := by positivity
  have hd : 0 ≤ b - a := by linarith
  refine up_map hb hq ?_ n 1 a ?_ hab ?_
  · intro i j hij
    have : (i : ℚ) ≤ j := by exact_mod_cast hij
    have h1 : (b - a) * i ≤ (b - a) * j := mul_le_mul_of_nonneg_left this hd
    have := (div_le_div_iff_of_pos_right hn).2 h1
    linarith
  · have : 0 ≤ (b - a) * ((1 : Nat) : ℚ) / (n + 1) := div_nonneg (mul_nonneg hd (by norm_num)) (le_of_lt hn)
    linarith
  · intro i hi
    have h1 : (i : ℚ) ≤ n + 1 := by exact_mod_cast (by omega : i ≤ n + 1)
    have h2 : (b - a) * i / (n + 1) ≤ b - a := by
      rw [div_le_iff₀ hn]
      exact mul_le_mul_of_nonneg_left h1 hd
    linarith

/-- the specified positions only go up, from `m` on, to at most 1 -/
def Ups : ℚ → List (Option ℚ) → Prop
  | _, [] => True
  | m, some x :: r => m ≤ x ∧ x ≤ 1 ∧ Ups x r
  | m, none :: r => Ups m r

theorem up_spread : ∀ (l : List (Option ℚ)) (a : ℚ) (n : Nat), Ups a l → Up a (spread a n l) := by
  intro l
  induction l with
  | nil => intro a n _; trivial
  | cons o l ih =>
    intro a n h
    cases o with
    | none => exact ih a (n + 1) h
    | some v => exact up_evenly h.1 h.2.1 (ih v 0 h.2.2) n

theorem raised_ups : ∀ (l : List (Option ℚ)) (m : ℚ), Ups m l → raised m l = l := by
  intro l
  induction l with
  | nil => intro m _; rfl
  | cons o l ih =>
    intro m h
    cases o with
    | none => unfold raised; rw [ih m h]
    | some v =>
      unfold raised
      rw [max_eq_right h.1, ih v h.2.2]

theorem settle_up : ∀ (q : List ℚ) (cs : List Color) (m : ℚ), 0 ≤ m → Up m q → cs.length = q.length →
    (settle m (cs.zip q)).map (·.off) = q ∧ (settle m (cs.zip q)).map (·.color) = cs := by
  intro q
  induction q with
  | nil => intro cs m _ _ hl; cases cs with
    | nil => exact ⟨rfl, rfl⟩
    | cons c cs => simp at hl
  | cons x q ih =>
    intro cs m hm h hl
    cases cs with
    | nil => simp at hl
    | cons c cs =>
      obtain ⟨h1, h2, h3⟩ := h
      have hx : max (max 0 (min x 1)) m = x := by
        rw [min_eq_left h2, max_eq_right (le_trans hm h1), max_eq_left h1]
      obtain ⟨i1, i2⟩ := ih cs x (le_trans hm h1) h3 (by simpa using hl)
      simp only [List.zip_cons_cons, settle, hx, List.map_cons, i1, i2, and_self]

theorem spread_nones (a : ℚ) (v : ℚ) (r : List (Option ℚ)) : ∀ (l : List (Option ℚ)) (n : Nat),
    l.drop (missing l) = some v :: r → spread a n l = evenly a v (n + missing l) ++ v :: spread v 0 r := by
  intro l
  induction l with
  | nil => intro n h; simp [missing] at h
  | cons o l ih =>
    intro n h
    cases o with
    | none =>
      simp only [missing, List.drop_succ_cons] at h
      show spread a (n + 1) l = _
      rw [ih (n + 1) h]
      have e : n + 1 + missing l = n + missing (none :: l) := by simp only [missing]; omega
      rw [e]
    | some w =>
      simp only [missing, List.drop_zero, List.cons.injEq, Option.some.injEq] at h
      obtain ⟨rfl, rfl⟩ := h
      rfl

theorem drop_missing : ∀ (l : List (Option ℚ)), (∃ v, l.getLast? = some (some v)) → ∃ v r, l.drop (missing l) = some v :: r := by
  intro l
  induction l with
  | nil => rintro ⟨v, h⟩; simp at h
  | cons o l ih =>
    rintro ⟨v, h⟩
    cases o with
    | some w => exact ⟨w, l, rfl⟩
    | none =>
      cases l with
      | nil => simp at h
      | cons o' l' =>
        rw [List.getLast?_cons_cons] at h
        obtain ⟨w, r, hr⟩ := ih ⟨v, h⟩
        exact ⟨w, r, by simpa only [missing, List.drop_succ_cons] using hr⟩

theorem fill_spread : ∀ (f : Nat) (l : List (Option ℚ)) (a : ℚ), l.length < f → (l ≠ [] → ∃ v, l.getLast? = some (some v)) →
    fill f a l = spread a 0 l := by
  intro f
  induction f with
  | zero => intro l a h; omega
  | succ f ih =>
    intro l a hf hl
    cases l with
    | nil => rfl
    | cons o r =>
      have hr : r ≠ [] → ∃ v, r.getLast? = some (some v) := by
        intro hne
        obtain ⟨v, hv⟩ := hl (by simp)
        cases r with
        | nil => exact absurd rfl hne
        | cons o' r' => rw [List.getLast?_cons_cons] at hv; exact ⟨v, hv⟩
      cases o with
      | some v =>
        simp only [fill, spread]
        rw [ih r v (by simpa using hf) hr]
        rfl
      | none =>
        obtain ⟨v, r', hd⟩ := drop_missing (none :: r) (hl (by simp))
        rw [spread_nones a v r' (none :: r) 0 hd]
        have hb : nextPos (none :: r) = v := by unfold nextPos; rw [hd]; rfl
        have hlen : (some v :: r').length < f + 1 := by
          rw [← hd, List.length_drop]
          simp only [missing, List.length_cons] at hf ⊢
          omega
        have hlast : ∃ w, (some v :: r').getLast? = some (some w) := by
          obtain ⟨w, hw⟩ := hl (by simp)
          refine ⟨w, ?_⟩
          rw [← hd, List.getLast?_drop, if_neg, hw]
          have := congrArg List.length hd
          rw [List.length_drop] at this
          simp only [List.length_cons] at this ⊢
          omega
        have hlen' : (some v :: r').length < f := by
          have := congrArg List.length hd
          rw [List.length_drop] at this
          simp only [missing, List.length_cons] at this hf ⊢
          omega
        simp only [fill]
        rw [hb, hd, ih (some v :: r') v hlen' (fun _ => hlast)]
        simp only [spread, Nat.zero_add]
        unfold evenly
        rfl

theorem spread_length : ∀ (l : List (Option ℚ)) (a : ℚ) (n : Nat), (l ≠ [] → ∃ v, l.getLast? = some (some v)) →
    (l = [] → n = 0) → (spread a n l).length = n + l.length := by
  intro l
  induction l with
  | nil => intro a n _ h; simp [spread, h rfl]
  | cons o l ih =>
    intro a n hl _
    have hr : l ≠ [] → ∃ v, l.getLast? = some (some v) := by
      intro hne
      obtain ⟨v, hv⟩ := hl (by simp)
      cases l with
      | nil => exact absurd rfl hne
      | cons o' r' => rw [List.getLast?_cons_cons] at hv; exact ⟨v, hv⟩
    cases o with
    | some v =>
      simp only [spread, List.length_append, List.length_cons, ih v 0 hr (fun _ => rfl)]
      simp [evenly]
    | none =>
      simp only [spread]
      rw [ih a (n + 1) hr, List.length_cons]
      · omega
      · rintro rfl
        obtain ⟨v, hv⟩ := hl (by simp)
        simp at hv

theorem anchor_eq {s : List (Option ℚ)} (h : 2 ≤ s.length) : anchorLast (anchorFirst s) = anchored s := by
  obtain ⟨x, m, y, rfl⟩ : ∃ x m y, s = x :: (m ++ [y]) := by
    cases s with
    | nil => simp at h
    | cons x r =>
      obtain ⟨m, y, rfl⟩ : ∃ m y, r = m ++ [y] := by
        have : r ≠ [] := by rintro rfl; simp at h
        exact ⟨r.dropLast, r.getLast this, (List.dropLast_append_getLast this).symm⟩
      exact ⟨x, m, y, rfl⟩
  have hspec : anchored (x :: (m ++ [y])) = (some (x.getD 0)) :: (m ++ [some (y.getD 1)]) := by
    unfold anchored
    rw [List.mapIdx_cons, List.mapIdx_append]
    congr 1
    · cases x <;> rfl
    · congr 1
      · apply List.ext_getElem (by simp)
        intro i h1 h2
        rw [List.getElem_mapIdx]
        cases hmi : m[i] with
        | some v => rfl
        | none =>
          simp only [List.length_cons, List.length_append, List.length_nil]
          rw [if_neg (by omega), if_neg (by omega)]
      · cases y <;> simp
  rw [hspec]
  have h1 : anchorFirst (x :: (m ++ [y])) = some (x.getD 0) :: (m ++ [y]) := by cases x <;> rfl
  rw [h1]
  unfold anchorLast
  have h2 : (some (x.getD 0) :: (m ++ [y])).getLast? = some y := by
    rw [← List.cons_append, List.getLast?_append]; rfl
  rw [h2]
  cases y with
  | none =>
    rw [if_pos rfl, ← List.cons_append, List.dropLast_concat]; rfl
  | some v => rw [if_neg (by simp)]; rfl

theorem ups_of_pairwise : ∀ (l : List (Option ℚ)) (m : ℚ), (l.filterMap id).Pairwise (· ≤ ·) →
    (∀ v, some v ∈ l → m ≤ v ∧ v ≤ 1) → Ups m l := by
  intro l
  induction l with
  | nil => intro m _ _; trivial
  | cons o l ih =>
    intro m hp hb
    cases o with
    | none => exact ih m (by simpa using hp) (fun v hv => hb v (by simp [hv]))
    | some w =>
      simp only [List.filterMap_cons, id, List.pairwise_cons] at hp
      refine ⟨(hb w (by simp)).1, (hb w (by simp)).2, ih w hp.2 ?_⟩
      intro v hv
      exact ⟨hp.1 v (List.mem_filterMap.2 ⟨some v, hv, rfl⟩), (hb v (by simp [hv])).2⟩

theorem ups_snoc : ∀ (l : List (Option ℚ)) (m : ℚ), m ≤ 1 → Ups m (l ++ [none]) → Ups m (l ++ [some 1]) := by
  intro l
  induction l with
  | nil => intro m hm _; exact ⟨hm, le_refl _, trivial⟩
  | cons o l ih =>
    intro m hm h
    cases o with
    | none => exact ih m hm h
    | some v => exact ⟨h.1, h.2.1, ih v h.2.1 h.2.2⟩

theorem ups_anchored {s : List (Option ℚ)} (hs : 2 ≤ s.length) (h : Proper s) :
    ∃ v r, anchored s = some v :: r ∧ 0 ≤ v ∧ v ≤ 1 ∧ Ups v r ∧ ∃ w, r.getLast? = some (some w) := by
  have h0 : Ups 0 s := ups_of_pairwise s 0 h.1 h.2
  rw [← anchor_eq hs]
  obtain ⟨x, m, y, rfl⟩ : ∃ x m y, s = x :: (m ++ [y]) := by
    cases s with
    | nil => simp at hs
    | cons x r =>
      have : r ≠ [] := by rintro rfl; simp at hs
      exact ⟨x, r.dropLast, r.getLast this, by rw [List.dropLast_append_getLast this]⟩
  have h1 : ∃ v, anchorFirst (x :: (m ++ [y])) = some v :: (m ++ [y]) ∧ 0 ≤ v ∧ v ≤ 1 ∧ Ups v (m ++ [y]) := by
    cases x with
    | none => exact ⟨0, rfl, le_refl _, by norm_num, h0⟩
    | some v => exact ⟨v, rfl, h0.1, h0.2.1, h0.2.2⟩
  obtain ⟨v, h2, h3, h4, h5⟩ := h1
  rw [h2]
  unfold anchorLast
  have h6 : (some v :: (m ++ [y])).getLast? = some y := by
    rw [← List.cons_append, List.getLast?_append]; rfl
  rw [h6]
  cases y with
  | none =>
    rw [if_pos rfl, ← List.cons_append, List.dropLast_concat]
    exact ⟨v, m ++ [some 1], rfl, h3, h4, ups_snoc m v h4 h5, 1, by simp⟩
  | some w =>
    rw [if_neg (by simp)]
    exact ⟨v, m ++ [some w], rfl, h3, h4, h5, w, by simp⟩

/-- **C142** If the positions are between 0 and 1 and none is below one before it, the colour stops of a gradient are
at the positions that CSS asks for, with their colours. Missing: other positions, for which the claim fails
(`C142_outside_violated`, `C142_order_violated`). -/
theorem C142_positions_partial {gs : List Group} {stops : List Stop} (h : parse gs = some stops)
    (hp : Proper ((coloured gs).map (·.2))) :
    stops.map (·.color) = (coloured gs).map (·.1) ∧ stops.map (·.off) = positions ((coloured gs).map (·.2)) ∧
    2 ≤ stops.length ∧ stops.Pairwise (fun a b => a.off ≤ b.off) := by
  unfold parse at h
  simp only at h
  split at h
  · cases h
  · next hlen =>
    cases h
    have hs : 2 ≤ ((coloured gs).map (·.2)).length := by rw [List.length_map]; omega
    obtain ⟨v, r, ha, h0, h1, hu, hw⟩ := ups_anchored hs hp
    rw [anchor_eq hs, ha]
    have hlast : ∃ w, (some v :: r).getLast? = some (some w) := by
      obtain ⟨w, hw⟩ := hw
      cases r with
      | nil => simp at hw
      | cons o r => exact ⟨w, by rw [List.getLast?_cons_cons]; exact hw⟩
    have hpos : positions ((coloured gs).map (·.2)) = spread 0 0 (some v :: r) := by
      unfold positions
      rw [ha]
      simp only
      rw [raised_ups r v hu]
    rw [fill_spread _ _ 0 (by simp) (fun _ => hlast), ← hpos]
    have hup : Up 0 (positions ((coloured gs).map (·.2))) := by
      rw [hpos]; exact up_spread _ 0 0 ⟨h0, h1, hu⟩
    have hl : ((coloured gs).map (·.1)).length = (positions ((coloured gs).map (·.2))).length := by
      rw [hpos, spread_length _ 0 0 (fun _ => hlast) (fun _ => rfl), ← ha]
      unfold anchored
      simp
    obtain ⟨e1, e2⟩ := settle_up _ _ 0 (le_refl _) hup hl
    refine ⟨e2, e1, ?_, ?_⟩
    · have := congrArg List.length e2
      rw [List.length_map] at this
      rw [this, List.length_map]; omega
    · have hpw : ∀ (q : List ℚ) (m : ℚ), Up m q → (m :: q).Pairwise (· ≤ ·) := by
        intro q
        induction q with
        | nil => intro m _; simp
        | cons x q ih =>
          intro m hq
          have := ih x hq.2.2
          rw [List.pairwise_cons] at this ⊢
          refine ⟨?_, ih x hq.2.2⟩
          intro z hz
          rcases List.mem_cons.1 hz with rfl | hz
          · exact hq.1
          · exact le_trans hq.1 (this.1 z hz)
      have := (List.pairwise_cons.1 (hpw _ 0 hup)).2
      rw [← e1, List.pairwise_map] at this
      exact this

/-- the positions of stops that all have one: running maxima -/
theorem settle_raised : ∀ (vs : List ℚ) (cs : List Color) (m a : ℚ), cs.length = vs.length → (∀ v ∈ vs, 0 ≤ v ∧ v ≤ 1) →
    (settle m (cs.zip vs)).map (·.off) = spread a 0 (raised m (vs.map some)) ∧ (settle m (cs.zip vs)).map (·.color) = cs := by
  intro vs
  induction vs with
  | nil => intro cs m a hl _; cases cs with
    | nil => exact ⟨rfl, rfl⟩
    | cons c cs => simp at hl
  | cons x vs ih =>
    intro cs m a hl hb
    cases cs with
    | nil => simp at hl
    | cons c cs =>
      obtain ⟨h0, h1⟩ := hb x (by simp)
      have hx : max (max 0 (min x 1)) m = max m x := by
        rw [min_eq_left h1, max_eq_right h0, max_comm]
      obtain ⟨i1, i2⟩ := ih cs (max m x) (max m x) (by simpa using hl) (fun v hv => hb v (by simp [hv]))
      simp only [List.zip_cons_cons, settle, hx, List.map_cons, raised, spread, i1, i2, evenly, List.range'_zero,
        List.map_nil, List.nil_append, and_self]

theorem fill_given : ∀ (vs : List ℚ) (f : Nat) (a : ℚ), vs.length < f → fill f a (vs.map some) = vs := by
  intro vs
  induction vs with
  | nil => intro f a h; cases f <;> rfl
  | cons v vs ih =>
    intro f a h
    cases f with
    | zero => omega
    | succ f =>
      simp only [List.map_cons, fill]
      rw [ih f v (by simpa using h)]

/-- **C142** If all the colour stops have positions between 0 and 1, in any order, they are where CSS asks for them. -/
theorem C142_given {gs : List Group} {stops : List Stop} (h : parse gs = some stops) {vs : List ℚ}
    (hv : (coloured gs).map (·.2) = vs.map some) (hb : ∀ v ∈ vs, 0 ≤ v ∧ v ≤ 1) :
    stops.map (·.color) = (coloured gs).map (·.1) ∧ stops.map (·.off) = positions ((coloured gs).map (·.2)) := by
  unfold parse at h
  simp only at h
  split at h
  · cases h
  · next hlen =>
    cases h
    have hs : 2 ≤ ((coloured gs).map (·.2)).length := by rw [List.length_map]; omega
    have ha : anchored ((coloured gs).map (·.2)) = vs.map some := by
      rw [hv]
      unfold anchored
      apply List.ext_getElem (by simp)
      intro i h1 h2
      rw [List.getElem_mapIdx]
      simp only [List.getElem_map]
    have hlen' : ((coloured gs).map (·.1)).length = vs.length := by
      have := congrArg List.length hv
      rw [List.length_map, List.length_map] at this
      rw [List.length_map, this]
    have hpos : positions ((coloured gs).map (·.2)) = spread 0 0 (raised 0 (vs.map some)) := by
      unfold positions
      rw [ha]
      cases vs with
      | nil => rfl
      | cons v r =>
        simp only [List.map_cons, raised]
        rw [max_eq_right (hb v (by simp)).1]
    rw [anchor_eq hs, ha, fill_given _ _ _ (by simp), hpos]
    obtain ⟨e1, e2⟩ := settle_raised vs _ 0 0 hlen' hb
    exact ⟨e2, e1⟩

theorem mixed_mix {a b : Color} (h : a.a = b.a) (f : ℚ) : Mixed a b f (mix a b f) := by
  refine ⟨?_, ?_, ?_, ?_⟩ <;> simp only [mix, h] <;> ring

theorem findPair_shows {t : ℚ} (d : Color) : ∀ (rest l : List Stop) (first : Stop), Apart (l ++ first :: rest) →
    SameAlpha (l ++ first :: rest) → first.off < t → (∀ x ∈ (first :: rest).getLast?, t < x.off) → Shows (l ++ first :: rest) t (findPair t d (first :: rest)) := by
  intro rest
  induction rest with
  | nil =>
    intro l first _ _ h1 h2
    have := h2 first (by simp)
    linarith
  | cons b rest ih =>
    intro l a hA hS h1 h2
    unfold findPair
    by_cases hb : t ≤ b.off
    · rw [if_pos ⟨le_of_lt h1, hb⟩]
      have hlt : a.off < b.off := lt_of_lt_of_le h1 hb
      rw [if_neg]
      · exact .between rfl (le_of_lt h1) hb hlt (mixed_mix (hS a (by simp) b (by simp)) _)
      · rcases hA.2 l a b rest rfl with h | h
        · linarith
        · linarith
    · rw [if_neg (fun h => hb h.2)]
      have := ih (l ++ [a]) b (by simpa using hA) (by simpa using hS) (by linarith) (fun x hx => h2 x (by rw [List.getLast?_cons_cons]; exact hx))
      simpa using this

/-- **C142** Along its line a gradient has the colours that CSS asks for: those of the first stop before it, those of
the last after it, and between two stops the mix of their colours in proportion to the distances. Missing: stops
that are not equally transparent, for which the claim fails (`C142_transparent_violated`). -/
theorem C142_colors_partial {stops : List Stop} (h : Apart stops) (hs : SameAlpha stops) (hne : stops ≠ []) (t : ℚ) : Shows stops t (colorAt stops t) := by
  match stops, h, hs, hne with
  | [s], h, _, _ =>
    unfold colorAt
    rcases le_total t s.off with ht | ht
    · exact .before rfl (by simpa using ht)
    · exact .after (r := []) rfl (by simpa using ht)
  | a :: b :: rest, h, hs, _ =>
    unfold colorAt
    simp only
    split
    · next ht =>
      refine .before rfl ?_
      intro x hx
      rcases List.mem_cons.1 hx with rfl | hx
      · exact ht
      · exact le_trans ht ((List.pairwise_cons.1 h.1).1 x hx)
    · next ht =>
      split
      · next hl =>
        refine .after (r := a :: (b :: rest).dropLast) ?_ ?_
        · rw [List.cons_append, List.dropLast_append_getLast]
        · intro x hx
          refine le_trans ?_ hl
          have hsplit : a :: b :: rest = (a :: (b :: rest).dropLast) ++ [(b :: rest).getLast (by simp)] := by
            rw [List.cons_append, List.dropLast_append_getLast]
          have hpw := h.1
          rw [hsplit] at hx hpw
          rcases List.mem_append.1 hx with hx | hx
          · exact (List.pairwise_append.1 hpw).2.2 x hx _ (by simp)
          · rw [List.mem_singleton] at hx; rw [hx]
      · next hl =>
        refine findPair_shows _ (b :: rest) [] a h hs (not_le.1 ht) ?_
        intro x hx
        rw [List.getLast?_cons_cons, List.getLast?_eq_some_getLast (by simp), Option.mem_def, Option.some.injEq] at hx
        rw [← hx]
        exact not_le.1 hl

/-- three colours -/
def red : Color := ⟨1, 0, 0, 1⟩
/-- see `red` -/
def green : Color := ⟨0, 1, 0, 1⟩
/-- see `red` -/
def blue : Color := ⟨0, 0, 1, 1⟩

/-- red, green, blue 50%, red, with a group without a colour -/
def sample : List Group := [⟨some red, none⟩, ⟨some green, none⟩, ⟨none, some (1 / 3)⟩, ⟨some blue, some (1 / 2)⟩, ⟨some red, none⟩]

example : parse sample = some [⟨0, red⟩, ⟨1 / 4, green⟩, ⟨1 / 2, blue⟩, ⟨1, red⟩] ∧
    Proper ((coloured sample).map (·.2)) ∧
    colorAt [⟨0, red⟩, ⟨1 / 4, green⟩, ⟨1 / 2, blue⟩, ⟨1, red⟩] (3 / 8) = ⟨0, 1 / 2, 1 / 2, 1⟩ := by
  refine ⟨by decide +kernel, ⟨by decide +kernel, ?_⟩, by decide +kernel⟩
  intro v hv
  have : v = 1 / 2 := by simpa [sample, coloured] using hv
  rw [this]; norm_num

example : SameAlpha [⟨0, red⟩, ⟨1 / 2, green⟩, ⟨1 / 2, blue⟩] := by
  unfold SameAlpha; decide +kernel

example : Apart [⟨0, red⟩, ⟨1 / 2, green⟩, ⟨1 / 2, blue⟩] := by
  refine ⟨by decide +kernel, ?_⟩
  intro l a b r h
  rcases l with _ | ⟨x, _ | ⟨y, l⟩⟩
  · simp only [List.nil_append, List.cons.injEq] at h
    obtain ⟨rfl, rfl, _⟩ := h
    exact .inr (by decide +kernel)
  · simp only [List.cons_append, List.nil_append, List.cons.injEq] at h
    obtain ⟨_, rfl, rfl, _⟩ := h
    exact .inl rfl
  · have := congrArg List.length h
    simp at this
    omega

/-- red 80%, green 20%, blue 90% -/
example : ∃ stops, parse [⟨some red, some (4 / 5)⟩, ⟨some green, some (1 / 5)⟩, ⟨some blue, some (9 / 10)⟩] = some stops ∧
    stops.map (·.off) = [4 / 5, 4 / 5, 9 / 10] ∧
    (coloured [⟨some red, some (4 / 5)⟩, ⟨some green, some (1 / 5)⟩, ⟨some blue, some (9 / 10)⟩]).map (·.2) = [4 / 5, 1 / 5, 9 / 10].map some :=
  ⟨[⟨4 / 5, red⟩, ⟨4 / 5, green⟩, ⟨9 / 10, blue⟩], by decide +kernel, by decide +kernel, by decide +kernel⟩

/-- a position outside the line is moved to its end: `red -100%, blue` is red at the beginning, not the mix of both -/
theorem C142_outside_violated : ∃ gs stops, parse gs = some stops ∧ gs = [⟨some red, some (-1)⟩, ⟨some blue, none⟩] ∧
    positions ((coloured gs).map (·.2)) = [-1, 1] ∧ stops.map (·.off) = [0, 1] :=
  ⟨[⟨some red, some (-1)⟩, ⟨some blue, none⟩], [⟨0, red⟩, ⟨1, blue⟩], by decide +kernel, rfl, by decide +kernel, by decide +kernel⟩

/-- positions below earlier ones are raised only after the gaps are filled: in `red 80%, green 20%, blue, red` blue is at 80%,
not at 90% -/
theorem C142_order_violated : ∃ gs stops, parse gs = some stops ∧
    gs = [⟨some red, some (4 / 5)⟩, ⟨some green, some (1 / 5)⟩, ⟨some blue, none⟩, ⟨some red, none⟩] ∧
    positions ((coloured gs).map (·.2)) = [4 / 5, 4 / 5, 9 / 10, 1] ∧ stops.map (·.off) = [4 / 5, 4 / 5, 4 / 5, 1] :=
  ⟨[⟨some red, some (4 / 5)⟩, ⟨some green, some (1 / 5)⟩, ⟨some blue, none⟩, ⟨some red, none⟩],
    [⟨4 / 5, red⟩, ⟨4 / 5, green⟩, ⟨4 / 5, blue⟩, ⟨1, red⟩], by decide +kernel, rfl, by decide +kernel, by decide +kernel⟩

/-- halfway from red to transparent the code shows a dark red, where CSS asks for a half transparent red -/
theorem C142_transparent_violated : ∃ stops t, stops = [⟨0, red⟩, ⟨1, ⟨0, 0, 0, 0⟩⟩] ∧ t = 1 / 2 ∧ Shows stops t ⟨1, 0, 0, 1 / 2⟩ ∧
    colorAt stops t = ⟨1 / 2, 0, 0, 1 / 2⟩ ∧ ¬ Shows stops t (colorAt stops t) := by
  refine ⟨[⟨0, red⟩, ⟨1, ⟨0, 0, 0, 0⟩⟩], 1 / 2, rfl, rfl, ?_, by decide +kernel, ?_⟩
  · refine .between (l := []) (r := []) rfl (by norm_num) (by norm_num) (by norm_num) ?_
    unfold Mixed red; norm_num
  · have e : colorAt [⟨0, red⟩, ⟨1, ⟨0, 0, 0, 0⟩⟩] (1 / 2) = ⟨1 / 2, 0, 0, 1 / 2⟩ := by decide +kernel
    rw [e]
    generalize hc : (⟨1 / 2, 0, 0, 1 / 2⟩ : Color) = c
    intro h
    cases h with
    | before h1 h2 => have := h2 ⟨0, red⟩ (by simp); norm_num at this
    | after h1 h2 => have := h2 ⟨1, ⟨0, 0, 0, 0⟩⟩ (by simp); norm_num at this
    | @between l a b r c h1 h2 h3 h4 h5 =>
      rcases l with _ | ⟨x, l⟩
      · simp only [List.nil_append, List.cons.injEq] at h1
        obtain ⟨rfl, rfl, _⟩ := h1
        subst hc
        have := h5.2.1
        simp only [red] at this
        norm_num at this
      · have := congrArg List.length h1
        simp at this
        omega

end Verif.Gradient
