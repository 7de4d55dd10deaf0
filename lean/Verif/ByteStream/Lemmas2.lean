import Verif.ByteStream.Lemmas
import Mathlib.Tactic.Common
/-! # Line table, offsets table and the reachable-state invariant -/
set_option linter.unusedVariables false
namespace Verif.ByteStream
open Character Spec

/-! ## Line table -/

/-- Positions following a line end. -/
def breaks (cfg : Config) (i : Nat) : List Character → List Nat
  | [] => []
  | c :: rest =>
    if endsLine cfg c rest then (i + 1) :: breaks cfg (i + 1) rest else breaks cfg (i + 1) rest

theorem scanLines_eq_breaks (cfg i cs) : scanLines cfg i cs = breaks cfg i cs := by
  fun_induction scanLines cfg i cs with
  | case1 => simp [breaks]
  | case2 => simp_all
  | case3 i c x rest' h ih =>
    obtain ⟨rfl, h1, h2⟩ := h
    simp at h2
    subst h2
    simp [breaks, endsLine, ih, CR, LF]
  | case4 i c rest h1 h2 ih =>
    obtain ⟨rfl, h3, h4⟩ := h2
    simp [breaks, endsLine, ih, h3, h4]
  | case5 i rest h1 h2 ih => simp [breaks, endsLine, ih]
  | case6 i c rest h1 h2 h3 ih =>
    have : endsLine cfg c rest = false := by
      simp [endsLine, h3]
      intro a b; by_contra hc; exact h2 ⟨b, a, hc⟩
    simp [breaks, this, ih]

theorem breaks_append {cfg i} (a b : List Character)
    (h : a.getLast? ≠ some (ch CR) ∨ b.head? ≠ some (ch LF)) :
    breaks cfg i (a ++ b) = breaks cfg i a ++ breaks cfg (i + a.length) b := by
  induction a generalizing i with
  | nil => simp [breaks]
  | cons c rest ih =>
    have ih := ih (i := i + 1) (by
      cases rest with
      | nil => left; simp
      | cons d r => simpa using h)
    have he : endsLine cfg c (rest ++ b) = endsLine cfg c rest := by
      cases rest with
      | nil =>
        simp only [endsLine, List.nil_append, List.head?_nil]
        simp at h
        by_cases hc : c = ch CR
        · simp [hc] at h; simp [hc, h]
        · simp [hc]
      | cons d r => simp [endsLine]
    have e : i + 1 + rest.length = i + (rest.length + 1) := by omega
    simp only [List.cons_append, breaks, he, ih, List.length_cons, e]
    split <;> simp

theorem breaks_mem {cfg i cs v} (h : v ∈ breaks cfg i cs) : i < v ∧ v ≤ i + cs.length := by
  induction cs generalizing i with
  | nil => simp [breaks] at h
  | cons c r ih =>
    simp only [breaks] at h
    split at h
    · simp at h
      rcases h with h | h
      · subst h; simp
      · have := ih h; simp; omega
    · have := ih h; simp; omega

theorem breaks_sorted (cfg i cs) : (breaks cfg i cs).Pairwise (· < ·) := by
  induction cs generalizing i with
  | nil => simp [breaks]
  | cons c r ih =>
    simp only [breaks]
    split
    · refine List.Pairwise.cons (fun v hv => ?_) (ih _)
      have := breaks_mem hv; omega
    · exact ih _

theorem popWhileGt_append (i : Nat) (a b : List Nat) (ha : a.getLast?.all (· ≤ i))
    (hb : ∀ v ∈ b, i < v) : popWhileGt i (a ++ b) = a := by
  unfold popWhileGt
  rw [List.reverse_append, List.dropWhile_append_of_pos]
  · have : a.reverse.dropWhile (fun v => decide (v > i)) = a.reverse := by
      rw [← List.head?_reverse] at ha
      cases h : a.reverse with
      | nil => simp
      | cons x xs =>
        rw [h] at ha
        simp at ha
        simp [List.dropWhile]
        have : ¬ (i < x) := by omega
        simp [this]
    rw [this]; simp
  · intro v hv; simp at hv ⊢; exact hb v hv

/-- The line table of a text. -/
def lineTable (cfg : Config) (cs : List Character) : List Nat := 0 :: breaks cfg 0 cs

theorem extendLineStarts_spec (s : Stream) (old new : List Character) (hc : s.chars = old ++ new)
    (hs : s.linesScanned = old.length) (hl : s.lineStarts = lineTable s.config old) :
    extendLineStarts s =
      { s with lineStarts := lineTable s.config (old ++ new), linesScanned := s.chars.length } := by
  unfold extendLineStarts
  by_cases h : s.linesScanned > 0 ∧ s.chars[s.linesScanned - 1]? = some (ch CR)
  · obtain ⟨h0, h1⟩ := h
    rw [hs, hc] at h1
    have hne : old ≠ [] := by rintro rfl; simp at hs; omega
    obtain ⟨a, x, rfl⟩ : ∃ a x, old = a ++ [x] :=
      ⟨old.dropLast, old.getLast hne, (List.dropLast_concat_getLast hne).symm⟩
    simp at h1
    subst h1
    have hb1 : breaks s.config 0 (a ++ [ch CR])
        = breaks s.config 0 a ++ breaks s.config (0 + a.length) [ch CR] :=
      breaks_append _ _ (Or.inr (by simp [CR, LF]))
    have hb2 : breaks s.config 0 (a ++ (ch CR :: new))
        = breaks s.config 0 a ++ breaks s.config (0 + a.length) (ch CR :: new) :=
      breaks_append _ _ (Or.inr (by simp [CR, LF]))
    have hpop : popWhileGt a.length (lineTable s.config (a ++ [ch CR])) = lineTable s.config a := by
      unfold lineTable
      rw [hb1, ← List.cons_append]
      apply popWhileGt_append
      · simp only [Option.all_eq_true, decide_eq_true_eq]
        intro v hv
        have := List.mem_of_getLast? hv
        simp at this
        rcases this with rfl | this
        · omega
        · have := breaks_mem this; omega
      · intro v hv; have := breaks_mem hv; omega
    have hcond : s.linesScanned > 0 ∧ s.chars[s.linesScanned - 1]? = some (ch CR) := by
      rw [hs, hc]; simp
    simp only [if_pos hcond]
    rw [hs, hl]
    simp only [List.length_append, List.length_cons, List.length_nil, Nat.zero_add,
      Nat.add_sub_cancel, hpop, hc]
    have : ((a ++ [ch CR]) ++ new).drop a.length = ch CR :: new := by simp
    simp only [this, scanLines_eq_breaks, lineTable]
    have e : a ++ [ch CR] ++ new = a ++ (ch CR :: new) := by simp
    simp [e, hb2]
  · simp only [if_neg h]
    rw [hs, hl, hc]
    have : old.getLast? ≠ some (ch CR) := by
      intro hx
      apply h
      have hne : old ≠ [] := by rintro rfl; simp at hx
      have : 0 < old.length := List.length_pos_iff.mpr hne
      refine ⟨by omega, ?_⟩
      rw [hs, hc, List.getElem?_append_left (by omega), ← List.getLast?_eq_getElem?, hx]
    simp only [List.drop_left, scanLines_eq_breaks, lineTable,
      breaks_append old new (Or.inl this)]
    simp

/-! ## What every decoder produces -/

/-- Items have strictly increasing offsets in `[pos, q)` and contain no end marker. -/
structure Good (pos : Nat) (items : List (Nat × Character)) (q : Nat) : Prop where
  le : pos ≤ q
  sorted : (items.map (·.1)).Pairwise (· < ·)
  range : ∀ o ∈ items.map (·.1), pos ≤ o ∧ o < q
  noEnd : streamEnd ∉ items.map (·.2)

theorem Good.nil {pos q} (h : pos ≤ q) : Good pos [] q := ⟨h, by simp, by simp, by simp⟩

theorem Good.cons {pos n items q c} (hn : 0 < n) (hc : c ≠ streamEnd)
    (h : Good (pos + n) items q) : Good pos ((pos, c) :: items) q := by
  obtain ⟨h1, h2, h3, h4⟩ := h
  refine ⟨by omega, ?_, ?_, ?_⟩
  · simp only [List.map_cons]
    refine List.Pairwise.cons (fun o ho => ?_) h2
    have := h3 o ho; omega
  · intro o ho
    simp only [List.map_cons, List.mem_cons] at ho
    rcases ho with rfl | ho
    · omega
    · have := h3 o ho; omega
  · simp only [List.map_cons, List.mem_cons, not_or]
    exact ⟨fun h => hc h.symm, h4⟩

theorem flat_good (closed pos bs) : Good pos (flat closed pos bs).1 (flat closed pos bs).2 := by
  by_cases hb : bs = []
  · subst hb; rw [flat_nil]; exact Good.nil (Nat.le_refl _)
  · cases hs : utf8Step bs with
    | char c n =>
      have hn := utf8Step_bounds_char hs
      rw [flat_char hs]
      exact Good.cons hn.1 (by simp) (flat_good closed (pos + n) (bs.drop n))
    | bad n =>
      have hn := utf8Step_bounds_bad hs
      rw [flat_bad hs]
      exact Good.cons hn.1 (by simp) (flat_good closed (pos + n) (bs.drop n))
    | incomplete =>
      rw [flat_incomplete hs hb]
      have : 0 < bs.length := List.length_pos_iff.mpr hb
      cases closed
      · exact Good.nil (Nat.le_refl _)
      · exact Good.cons this (by simp) (Good.nil (Nat.le_refl _))
termination_by bs.length
decreasing_by all_goals (simp; omega)

theorem latin1_good (cfg pos bs) : Good pos (decodeLatin1 cfg pos bs) (pos + bs.length) := by
  induction bs generalizing pos with
  | nil => exact Good.nil (by simp)
  | cons b bs ih =>
    have := ih (pos + 1)
    have e : pos + 1 + bs.length = pos + (bs.length + 1) := by omega
    rw [e] at this
    simp only [decodeLatin1, List.length_cons]
    exact Good.cons (n := 1) (by omega) (by split <;> simp) this

theorem latin1_append (cfg pos bs cs) :
    decodeLatin1 cfg pos (bs ++ cs)
      = decodeLatin1 cfg pos bs ++ decodeLatin1 cfg (pos + bs.length) cs := by
  induction bs generalizing pos with
  | nil => simp [decodeLatin1]
  | cons b bs ih =>
    have e : pos + 1 + bs.length = pos + (bs.length + 1) := by omega
    simp [decodeLatin1, ih, e]

theorem decodeUtf16Char_len (cu nx) :
    ((decodeUtf16Char cu nx).2 = 2 ∨ (∃ l, nx = some l) ∧ (decodeUtf16Char cu nx).2 = 4)
    ∧ (decodeUtf16Char cu nx).1 ≠ streamEnd := by
  unfold decodeUtf16Char
  repeat' split
  all_goals simp

theorem utf16_good (be fuel pos bs) :
    Good pos (decodeUtf16 be fuel pos bs).1 (decodeUtf16 be fuel pos bs).2
    ∧ (decodeUtf16 be fuel pos bs).2 ≤ pos + bs.length := by
  induction fuel generalizing pos bs with
  | zero => simp [decodeUtf16]; exact Good.nil (Nat.le_refl _)
  | succ fuel ih =>
    match bs with
    | [] => simp [decodeUtf16]; exact Good.nil (Nat.le_refl _)
    | [_] => simp [decodeUtf16]; exact Good.nil (Nat.le_refl _)
    | a :: b :: rest =>
      simp only [decodeUtf16]
      generalize hnx : nextUnit be rest = nx
      have hl := decodeUtf16Char_len (u16 be a b) nx
      generalize hd : decodeUtf16Char (u16 be a b) nx = d at hl ⊢
      obtain ⟨ih1, ih2⟩ := ih (pos + d.2) ((a :: b :: rest).drop d.2)
      refine ⟨Good.cons (by rcases hl.1 with h | h <;> omega) hl.2 ih1, ?_⟩
      have hlen : d.2 ≤ (a :: b :: rest).length := by
        rcases hl.1 with h | ⟨⟨l, h1⟩, h⟩
        · simp; omega
        · rw [h1] at hnx
          unfold nextUnit at hnx
          split at hnx
          · simp; omega
          · simp at hnx
      simp only [List.length_drop] at ih2
      omega

theorem decodeItems_good (e cfg closed pos bs) :
    Good pos (decodeItems e cfg closed pos bs).1 (decodeItems e cfg closed pos bs).2
    ∧ (decodeItems e cfg closed pos bs).2 ≤ pos + bs.length := by
  cases e with
  | unknown => exact ⟨Good.nil (by simp [decodeItems]), by simp [decodeItems]⟩
  | latin1 => exact ⟨latin1_good cfg pos bs, by simp [decodeItems]⟩
  | utf8 =>
    simp only [decodeItems, decodeUtf8_eq_flat]
    exact ⟨flat_good _ _ _, (flat_bounds _ _ _).2⟩
  | utf16le => exact utf16_good false bs.length pos bs
  | utf16be => exact utf16_good true bs.length pos bs

/-! ## The invariant of reachable streams -/

/-- Everything except the reading position. -/
structure Inv0 (s : Stream) : Prop where
  lines : s.lineStarts = lineTable s.config s.chars
  scanned : s.linesScanned = s.chars.length
  lens : s.offs.length = s.chars.length
  sorted : s.offs.Pairwise (· < ·)
  offsLt : ∀ o ∈ s.offs, o < s.decodedBytes
  dec : s.decodedBytes ≤ s.buffer.length
  noEnd : streamEnd ∉ s.chars

structure Inv (s : Stream) : Prop extends Inv0 s where
  pos : s.charPos ≤ s.chars.length

/-- `decode_from(decoded_bytes)` in closed form, on states satisfying the invariant. -/
theorem decodeFrom_eq {s : Stream} (h : Inv0 s) :
    decodeFrom s s.decodedBytes =
      let r := decodeItems s.encoding s.config s.closed s.decodedBytes
        (s.buffer.drop s.decodedBytes)
      { s with
        chars := s.chars ++ r.1.map (·.2)
        offs := s.offs ++ r.1.map (·.1)
        decodedBytes := r.2
        lineStarts := lineTable s.config (s.chars ++ r.1.map (·.2))
        linesScanned := (s.chars ++ r.1.map (·.2)).length } := by
  unfold decodeFrom
  rw [if_pos h.dec]
  simp only
  generalize decodeItems s.encoding s.config s.closed s.decodedBytes
    (s.buffer.drop s.decodedBytes) = r
  exact extendLineStarts_spec { s with
    chars := s.chars ++ r.1.map (·.2), offs := s.offs ++ r.1.map (·.1), decodedBytes := r.2 }
    s.chars (r.1.map (·.2)) rfl h.scanned h.lines

theorem decodeFrom_inv0 {s : Stream} (h : Inv0 s) : Inv0 (decodeFrom s s.decodedBytes) := by
  rw [decodeFrom_eq h]
  have hg := decodeItems_good s.encoding s.config s.closed s.decodedBytes
    (s.buffer.drop s.decodedBytes)
  generalize decodeItems s.encoding s.config s.closed s.decodedBytes
    (s.buffer.drop s.decodedBytes) = r at hg ⊢
  obtain ⟨⟨g1, g2, g3, g4⟩, g5⟩ := hg
  have hd := h.dec
  simp only [List.length_drop] at g5
  refine ⟨rfl, rfl, by simp [h.lens], ?_, ?_, by simp; omega, ?_⟩
  · simp only
    rw [List.pairwise_append]
    refine ⟨h.sorted, g2, fun a ha b hb => ?_⟩
    have := h.offsLt a ha; have := g3 b hb; omega
  · simp only
    intro o ho
    rcases List.mem_append.mp ho with ho | ho
    · have := h.offsLt o ho; omega
    · have := g3 o ho; omega
  · simp only [List.mem_append, not_or]
    exact ⟨h.noEnd, g4⟩

theorem decodeFrom_pos (s : Stream) (h : Inv s) : Inv (decodeFrom s s.decodedBytes) := by
  refine ⟨decodeFrom_inv0 h.toInv0, ?_⟩
  rw [decodeFrom_eq h.toInv0]
  have := h.pos
  simp; omega

theorem new_inv (e cfg) : Inv (new e cfg) := by
  refine ⟨⟨?_, ?_, ?_, ?_, ?_, ?_, ?_⟩, ?_⟩ <;> simp [new, lineTable, breaks]

theorem append_inv {s : Stream} (h : Inv s) (bs) : Inv (append s bs) := by
  unfold append
  apply decodeFrom_pos (s := { s with buffer := s.buffer ++ bs })
  obtain ⟨⟨h1, h2, h3, h4, h5, h6, h7⟩, h8⟩ := h
  exact ⟨⟨h1, h2, h3, h4, h5, by simp; omega, h7⟩, h8⟩

theorem close_inv {s : Stream} (h : Inv s) : Inv (close s) := by
  unfold close
  apply decodeFrom_pos (s := { s with closed := true })
  obtain ⟨⟨h1, h2, h3, h4, h5, h6, h7⟩, h8⟩ := h
  exact ⟨⟨h1, h2, h3, h4, h5, h6, h7⟩, h8⟩

theorem blank_inv0 (s : Stream) : Inv0 { s with
    chars := [], offs := [], decodedBytes := 0, lineStarts := [0], linesScanned := 0,
    lastLineIdx := 0 } := by
  refine ⟨?_, ?_, ?_, ?_, ?_, ?_, ?_⟩ <;> simp [lineTable, breaks]

theorem decodeBuffer_inv0 (s : Stream) : Inv0 (decodeBuffer s) := by
  unfold decodeBuffer
  exact decodeFrom_inv0 (blank_inv0 s)

theorem setPos_inv {s : Stream} (h : Inv0 s) {p : Nat} (hp : p ≤ s.chars.length) :
    Inv { s with charPos := p } := by
  obtain ⟨h1, h2, h3, h4, h5, h6, h7⟩ := h
  exact ⟨⟨h1, h2, h3, h4, h5, h6, h7⟩, hp⟩

theorem read_ne_end {s : Stream} (h : read s ≠ streamEnd) : s.charPos < s.chars.length := by
  by_contra hc
  apply h
  unfold read
  rw [List.getElem?_eq_none (by omega)]; rfl

/-- Reading only moves the position. -/
theorem readAndNext_state (s : Stream) :
    (readAndNext s).2 = { s with charPos := (readAndNext s).2.charPos } := by
  unfold readAndNext
  simp only
  repeat' split
  all_goals rfl

theorem readAndNext_pos_le {s : Stream} (h : s.charPos ≤ s.chars.length) :
    (readAndNext s).2.charPos ≤ s.chars.length := by
  unfold readAndNext
  simp only
  split
  · exact h
  · rename_i hc
    have := read_ne_end hc
    split
    · rename_i h2
      have := read_ne_end (s := { s with charPos := s.charPos + 1 }) (by rw [h2.2.2]; simp)
      simp at this ⊢; omega
    · split <;> simp <;> omega

theorem readAndNext_inv {s : Stream} (h : Inv s) : Inv (readAndNext s).2 := by
  rw [readAndNext_state]
  exact setPos_inv h.toInv0 (readAndNext_pos_le h.pos)

theorem prev_state (s : Stream) : prev s = { s with charPos := (prev s).charPos } := by
  unfold prev
  simp only
  repeat' split
  all_goals rfl

theorem prev_pos_le (s : Stream) : (prev s).charPos ≤ s.charPos := by
  unfold prev
  simp only
  split <;> simp; omega

theorem prev_inv {s : Stream} (h : Inv s) : Inv (prev s) := by
  rw [prev_state]
  exact setPos_inv h.toInv0 (Nat.le_trans (prev_pos_le s) h.pos)

theorem prevN_inv {s : Stream} (h : Inv s) (n) : Inv (prevN s n) := by
  induction n generalizing s with
  | zero => exact h
  | succ n ih => exact ih (prev_inv h)

theorem nextN_inv {s : Stream} (h : Inv0 s) (n) : Inv (nextN s n) := setPos_inv h (by omega)

theorem afterSlice_state (s : Stream) (n) :
    afterSlice s n = { s with charPos := (afterSlice s n).charPos } := by
  induction n generalizing s with
  | zero => rfl
  | succ n ih =>
    simp only [afterSlice]
    rw [ih, readAndNext_state]

theorem getSlice_state (s : Stream) (n) : (getSlice s n).2 = s := by
  unfold getSlice
  simp only
  rw [afterSlice_state]

theorem location_state (s : Stream) :
    (location s).2 = { s with lastLineIdx := (location s).2.lastLineIdx } := rfl

theorem hint_inv {s : Stream} (h : Inv s) (i) : Inv { s with lastLineIdx := i } := by
  obtain ⟨⟨h1, h2, h3, h4, h5, h6, h7⟩, h8⟩ := h
  exact ⟨⟨h1, h2, h3, h4, h5, h6, h7⟩, h8⟩

theorem step_inv {s : Stream} (h : Inv s) (op) : Inv (step s op) := by
  cases op with
  | append bs => exact append_inv h bs
  | close => exact close_inv h
  | readAndNext => exact readAndNext_inv h
  | nextN n => exact nextN_inv h.toInv0 n
  | prevN n => exact prevN_inv h n
  | seek o => exact setPos_inv h.toInv0 (by omega)
  | getSlice n => simp only [step, getSlice_state]; exact h
  | location => exact hint_inv h _
  | reset => exact setPos_inv h.toInv0 (by omega)
  | setEncoding e =>
    simp only [step, setEncoding]
    split
    · exact h
    · exact nextN_inv (setPos_inv (decodeBuffer_inv0 _) (Nat.zero_le _)).toInv0 _
  | readFromStr bs e => exact setPos_inv (decodeBuffer_inv0 _) (Nat.zero_le _)
  | readFromFile bs => exact setPos_inv (decodeBuffer_inv0 _) (Nat.zero_le _)

theorem run_inv {s : Stream} (h : Inv s) (ops) : Inv (run s ops) := by
  unfold run
  induction ops generalizing s with
  | nil => exact h
  | cons op ops ih => exact ih (step_inv h op)

end Verif.ByteStream
