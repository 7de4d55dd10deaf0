import Verif.ByteStream.Lemmas2
import Mathlib.Tactic.Common
/-! # Locations, resumable decoding, text round trip, reading -/
set_option linter.unusedVariables false
namespace Verif.ByteStream
open Character Spec

/-! ## Location -/

theorem takeWhile_none {B : List Nat} {x : Nat} (h : ∀ v ∈ B, x < v) :
    B.takeWhile (fun v => decide (v ≤ x)) = [] := by
  cases B with
  | nil => rfl
  | cons a r =>
    have := h a (by simp)
    simp [List.takeWhile, Nat.not_le.mpr this]

/-- Scanning in terms of the break positions. -/
theorem lineColFrom_eq (cfg i line col cs p) (hp : p ≤ cs.length) :
    lineColFrom cfg line col cs p =
      (line + ((breaks cfg i cs).takeWhile (fun v => decide (v ≤ i + p))).length,
       if ((breaks cfg i cs).takeWhile (fun v => decide (v ≤ i + p))).length = 0 then col + p
       else i + p - ((breaks cfg i cs)[((breaks cfg i cs).takeWhile
          (fun v => decide (v ≤ i + p))).length - 1]?).getD 0 + 1) := by
  induction cs generalizing i line col p with
  | nil => simp at hp; subst hp; simp [lineColFrom, breaks]
  | cons c rest ih =>
    cases p with
    | zero =>
      have : (breaks cfg i (c :: rest)).takeWhile (fun v => decide (v ≤ i + 0)) = [] :=
        takeWhile_none (fun v hv => by have := breaks_mem hv; omega)
      rw [this]; simp [lineColFrom]
    | succ p =>
      simp at hp
      simp only [lineColFrom]
      have e : i + 1 + p = i + (p + 1) := by omega
      split
      · rename_i he
        rw [ih (i + 1) (line + 1) 1 p hp]
        simp only [breaks, he, if_true, e]
        have h1 : i + 1 ≤ i + (p + 1) := by omega
        simp only [List.takeWhile, h1, decide_true, List.length_cons]
        generalize ((breaks cfg (i + 1) rest).takeWhile
          (fun v => decide (v ≤ i + (p + 1)))).length = k
        cases k with
        | zero => simp; omega
        | succ k => simp; omega
      · rename_i he
        rw [ih (i + 1) line (col + 1) p hp]
        simp only [breaks, he, e]
        simp only [Bool.false_eq_true, if_false]
        congr 1
        split <;> omega

/-- The index `location` is looking for. -/
def IsLine (ls : List Nat) (p i : Nat) : Prop :=
  (∃ v, ls[i]? = some v ∧ v ≤ p) ∧ ∀ v, ls[i + 1]? = some v → p < v

theorem IsLine.unique {ls : List Nat} {p i j : Nat} (hs : ls.Pairwise (· < ·))
    (hi : IsLine ls p i) (hj : IsLine ls p j) : i = j := by
  have key : ∀ {i j}, IsLine ls p i → IsLine ls p j → ¬ i < j := by
    intro i j hi hj hlt
    obtain ⟨⟨v, hv, hvp⟩, h2⟩ := hi
    obtain ⟨⟨w, hw, hwp⟩, h4⟩ := hj
    have hjl : j < ls.length := by
      by_contra hc; rw [List.getElem?_eq_none (by omega)] at hw; simp at hw
    have h5 := h2 ls[i + 1] (List.getElem?_eq_getElem (by omega))
    rw [List.getElem?_eq_getElem hjl] at hw
    simp at hw
    have : ls[i + 1] ≤ ls[j] := by
      by_cases h : i + 1 = j
      · subst h; exact Nat.le_refl _
      · exact Nat.le_of_lt (List.pairwise_iff_getElem.mp hs (i + 1) j (by omega) hjl (by omega))
    omega
  have := key hi hj
  have := key hj hi
  omega

theorem walkDown_spec (ls : List Nat) (p i : Nat) (h0 : ls[0]? = some 0) (hi : i < ls.length) :
    walkDown ls p i ≤ i ∧ ∃ v, ls[walkDown ls p i]? = some v ∧ v ≤ p := by
  induction i with
  | zero => exact ⟨Nat.le_refl _, 0, h0, Nat.zero_le _⟩
  | succ i ih =>
    simp only [walkDown]
    split
    · obtain ⟨a, b⟩ := ih (by omega)
      exact ⟨by omega, b⟩
    · rename_i h
      refine ⟨Nat.le_refl _, ls[i + 1], List.getElem?_eq_getElem hi, ?_⟩
      rw [List.getElem?_eq_getElem hi] at h
      simp at h; exact h

theorem walkUp_spec (ls : List Nat) (p fuel i : Nat) (hf : ls.length ≤ fuel + i)
    (hi : ∃ v, ls[i]? = some v ∧ v ≤ p) : IsLine ls p (walkUp ls p fuel i) := by
  induction fuel generalizing i with
  | zero =>
    obtain ⟨v, hv, _⟩ := hi
    rw [List.getElem?_eq_none (by omega)] at hv; simp at hv
  | succ fuel ih =>
    simp only [walkUp]
    split
    · rename_i v hv
      split
      · rename_i hle
        exact ih (i + 1) (by omega) ⟨v, hv, hle⟩
      · rename_i hle
        refine ⟨hi, fun w hw => ?_⟩
        rw [hv] at hw; simp at hw; omega
    · rename_i hn
      exact ⟨hi, fun w hw => by rw [hn] at hw; simp at hw⟩

theorem lineTable_sorted (cfg cs) : (lineTable cfg cs).Pairwise (· < ·) := by
  refine List.Pairwise.cons (fun v hv => ?_) (breaks_sorted _ _ _)
  have := breaks_mem hv; omega

theorem isLine_count {B : List Nat} {p : Nat} :
    IsLine (0 :: B) p (B.takeWhile (fun v => decide (v ≤ p))).length := by
  induction B with
  | nil => exact ⟨⟨0, by simp, by omega⟩, by simp⟩
  | cons b B ih =>
    by_cases hb : b ≤ p
    · simp only [List.takeWhile, hb, decide_true, List.length_cons]
      obtain ⟨⟨v, hv, hvp⟩, h2⟩ := ih
      refine ⟨?_, ?_⟩
      · simp only [List.getElem?_cons_succ]
        cases hk : (B.takeWhile (fun v => decide (v ≤ p))).length with
        | zero => exact ⟨b, by simp, hb⟩
        | succ k => rw [hk] at hv; simp at hv; exact ⟨v, by simpa using hv, hvp⟩
      · intro w hw
        apply h2 w
        simpa using hw
    · simp only [List.takeWhile, hb, decide_false, List.length_nil]
      exact ⟨⟨0, by simp, by omega⟩, by simp; omega⟩

theorem location_idx {s : Stream} (h : Inv s) :
    (location s).2.lastLineIdx =
      ((breaks s.config 0 s.chars).takeWhile (fun v => decide (v ≤ s.charPos))).length := by
  have hl := h.lines
  have hd := walkDown_spec s.lineStarts s.charPos (min s.lastLineIdx (s.lineStarts.length - 1))
    (by rw [hl]; rfl) (by rw [hl]; simp [lineTable]; omega)
  have hu := walkUp_spec s.lineStarts s.charPos s.lineStarts.length _ (by omega) hd.2
  apply IsLine.unique (p := s.charPos) (lineTable_sorted s.config s.chars) _ isLine_count
  rw [← hl]; exact hu

theorem location_eq {s : Stream} (h : Inv s) :
    (location s).1 =
      { line := (lineCol s.config s.chars s.charPos).1
        column := (lineCol s.config s.chars s.charPos).2
        offset := tellBytes s } := by
  have hi := location_idx h
  have e : (location s).1 = { line := (location s).2.lastLineIdx + 1
                              column := s.charPos
                                - (s.lineStarts[(location s).2.lastLineIdx]?).getD 0 + 1
                              offset := tellBytes s } := rfl
  rw [e, hi]
  unfold lineCol
  rw [lineColFrom_eq s.config 0 1 1 s.chars s.charPos h.pos, h.lines]
  simp only [Nat.zero_add, lineTable]
  generalize ((breaks s.config 0 s.chars).takeWhile (fun v => decide (v ≤ s.charPos))).length = k
  congr 1
  · omega
  · cases k with
    | zero => simp; omega
    | succ k => simp

/-! ## Resumable decoding -/

/-- The decoder can stop after `bs` and resume. -/
def Resumable (e : Encoding) (cfg : Config) (bs : List UInt8) : Prop := ∀ closed cs,
    decodeItems e cfg closed 0 (bs ++ cs) =
      ((decodeItems e cfg false 0 bs).1 ++ (decodeItems e cfg closed (decodeItems e cfg false 0 bs).2
          ((bs ++ cs).drop (decodeItems e cfg false 0 bs).2)).1,
       (decodeItems e cfg closed (decodeItems e cfg false 0 bs).2
          ((bs ++ cs).drop (decodeItems e cfg false 0 bs).2)).2)

theorem utf8_resumable (cfg bs) : Resumable .utf8 cfg bs := by
  intro closed cs
  simp only [decodeItems, decodeUtf8_eq_flat]
  exact flat_append closed 0 bs cs

theorem latin1_resumable (cfg bs) : Resumable .latin1 cfg bs := by
  intro closed cs
  simp [decodeItems, latin1_append]

theorem unknown_resumable (cfg bs) : Resumable .unknown cfg bs := by
  intro closed cs
  simp [decodeItems]

theorem decodeUtf16_short (be fuel pos) {bs : List UInt8} (h : bs.length < 2) :
    decodeUtf16 be fuel pos bs = ([], pos) := by
  cases fuel with
  | zero => rfl
  | succ f =>
    match bs with
    | [] => rfl
    | [_] => rfl
    | _ :: _ :: _ => simp at h; omega

theorem decodeUtf16_fuel (be f g pos bs) (hf : bs.length ≤ f) (hg : bs.length ≤ g) :
    decodeUtf16 be f pos bs = decodeUtf16 be g pos bs := by
  induction f generalizing g pos bs with
  | zero =>
    rw [decodeUtf16_short be 0 pos (by omega), decodeUtf16_short be g pos (by omega)]
  | succ f ih =>
    match bs with
    | [] => rw [decodeUtf16_short be _ pos (by simp), decodeUtf16_short be g pos (by simp)]
    | [_] => rw [decodeUtf16_short be _ pos (by simp), decodeUtf16_short be g pos (by simp)]
    | a :: b :: rest =>
      cases g with
      | zero => simp at hg
      | succ g =>
        have hl := decodeUtf16Char_len (u16 be a b) (nextUnit be rest)
        have h2 : 2 ≤ (decodeUtf16Char (u16 be a b) (nextUnit be rest)).2 := by
          rcases hl.1 with h | h <;> omega
        simp only [decodeUtf16]
        rw [ih g _ _ (by simp at hf ⊢; omega) (by simp at hg ⊢; omega)]

/-- The first code unit is decoded the same way with and without what follows. -/
theorem utf16_first (be a b rest cs) (h : NotAfterHigh be (a :: b :: rest)) :
    decodeUtf16Char (u16 be a b) (nextUnit be (rest ++ cs))
      = decodeUtf16Char (u16 be a b) (nextUnit be rest) ∧
    (decodeUtf16Char (u16 be a b) (nextUnit be rest)).2 ≤ (a :: b :: rest).length ∧
    NotAfterHigh be ((a :: b :: rest).drop
      (decodeUtf16Char (u16 be a b) (nextUnit be rest)).2) := by
  rcases rest with _ | ⟨c, _ | ⟨d, r⟩⟩
  · have hh := h (u16 be a b) (by simp [units])
    have : ∀ nx, (decodeUtf16Char (u16 be a b) nx) = (decodeUtf16Char (u16 be a b) none) := by
      intro nx; simp [decodeUtf16Char, hh]
    have h2 : (decodeUtf16Char (u16 be a b) none).2 = 2 := by
      simp only [decodeUtf16Char, hh, if_false]; split <;> rfl
    refine ⟨by rw [this, this (nextUnit be [])], by rw [this, h2]; simp, ?_⟩
    rw [this, h2]; intro u; simp [units]
  · have hh := h (u16 be a b) (by simp [units])
    have : ∀ nx, (decodeUtf16Char (u16 be a b) nx) = (decodeUtf16Char (u16 be a b) none) := by
      intro nx; simp [decodeUtf16Char, hh]
    have h2 : (decodeUtf16Char (u16 be a b) none).2 = 2 := by
      simp only [decodeUtf16Char, hh, if_false]; split <;> rfl
    refine ⟨by rw [this, this (nextUnit be [c])], by rw [this, h2]; simp, ?_⟩
    rw [this, h2]; intro u; simp [units]
  · refine ⟨by simp [nextUnit], ?_, ?_⟩
    · rcases (decodeUtf16Char_len (u16 be a b) (nextUnit be (c :: d :: r))).1 with e | ⟨_, e⟩ <;>
        rw [e] <;> simp
    · rcases (decodeUtf16Char_len (u16 be a b) (nextUnit be (c :: d :: r))).1 with e | ⟨_, e⟩
      · rw [e]
        intro u hu
        apply h u
        simp [units] at hu ⊢
        simpa [List.getLast?_cons] using hu
      · rw [e]
        intro u hu
        apply h u
        simp at hu
        simp only [units]
        rw [List.getLast?_cons, List.getLast?_cons, hu]; rfl

theorem decodeUtf16_append (be f g pos bs cs) (h : NotAfterHigh be bs) (hf : bs.length ≤ f)
    (hg : (bs ++ cs).length ≤ g) :
    decodeUtf16 be g pos (bs ++ cs) =
      ((decodeUtf16 be f pos bs).1 ++
        (decodeUtf16 be ((bs ++ cs).drop ((decodeUtf16 be f pos bs).2 - pos)).length
          (decodeUtf16 be f pos bs).2 ((bs ++ cs).drop ((decodeUtf16 be f pos bs).2 - pos))).1,
       (decodeUtf16 be ((bs ++ cs).drop ((decodeUtf16 be f pos bs).2 - pos)).length
          (decodeUtf16 be f pos bs).2 ((bs ++ cs).drop ((decodeUtf16 be f pos bs).2 - pos))).2) := by
  induction f generalizing g pos bs with
  | zero =>
    rw [decodeUtf16_short be 0 pos (by omega)]
    simp [decodeUtf16_fuel be g (bs ++ cs).length pos (bs ++ cs) hg (Nat.le_refl _)]
  | succ f ih =>
    match bs with
    | [] =>
      rw [decodeUtf16_short be (f + 1) pos (by simp)]
      simp [decodeUtf16_fuel be g cs.length pos cs (by simpa using hg) (Nat.le_refl _)]
    | [x] =>
      rw [decodeUtf16_short be (f + 1) pos (by simp)]
      simp
      simp [decodeUtf16_fuel be g (cs.length + 1) pos (x :: cs) (by simpa using hg) (by simp)]
    | a :: b :: rest =>
      cases g with
      | zero => simp at hg
      | succ g =>
        have key := utf16_first be a b rest cs h
        obtain ⟨k1, k2, k3⟩ := key
        have hl := decodeUtf16Char_len (u16 be a b) (nextUnit be rest)
        have e1 : decodeUtf16 be (g + 1) pos (a :: b :: rest ++ cs) =
            ((pos, (decodeUtf16Char (u16 be a b) (nextUnit be rest)).1) ::
              (decodeUtf16 be g (pos + (decodeUtf16Char (u16 be a b) (nextUnit be rest)).2)
                ((a :: b :: rest ++ cs).drop
                  (decodeUtf16Char (u16 be a b) (nextUnit be rest)).2)).1,
              (decodeUtf16 be g (pos + (decodeUtf16Char (u16 be a b) (nextUnit be rest)).2)
                ((a :: b :: rest ++ cs).drop
                  (decodeUtf16Char (u16 be a b) (nextUnit be rest)).2)).2) := by
          rw [← k1]; rfl
        have e2 : decodeUtf16 be (f + 1) pos (a :: b :: rest) =
            ((pos, (decodeUtf16Char (u16 be a b) (nextUnit be rest)).1) ::
              (decodeUtf16 be f (pos + (decodeUtf16Char (u16 be a b) (nextUnit be rest)).2)
                ((a :: b :: rest).drop
                  (decodeUtf16Char (u16 be a b) (nextUnit be rest)).2)).1,
              (decodeUtf16 be f (pos + (decodeUtf16Char (u16 be a b) (nextUnit be rest)).2)
                ((a :: b :: rest).drop
                  (decodeUtf16Char (u16 be a b) (nextUnit be rest)).2)).2) := rfl
        rw [e1, e2]
        have h2 : 2 ≤ (decodeUtf16Char (u16 be a b) (nextUnit be rest)).2 := by
          rcases hl.1 with h | h <;> omega
        generalize decodeUtf16Char (u16 be a b) (nextUnit be rest) = D at *
        have hg2 := utf16_good be f (pos + D.2) ((a :: b :: rest).drop D.2)
        have hle := hg2.1.le
        rw [List.drop_append_of_le_length k2]
        have ih' := ih g (pos + D.2) ((a :: b :: rest).drop D.2) k3
          (by simp at hf ⊢; omega) (by simp at hg k2 ⊢; omega)
        rw [ih']
        have e3 : (a :: b :: rest ++ cs).drop
              ((decodeUtf16 be f (pos + D.2) ((a :: b :: rest).drop D.2)).2 - pos)
            = ((a :: b :: rest).drop D.2 ++ cs).drop
              ((decodeUtf16 be f (pos + D.2) ((a :: b :: rest).drop D.2)).2 - (pos + D.2)) := by
          rw [← List.drop_append_of_le_length k2, List.drop_drop]; congr 1; omega
        simp only
        rw [e3]
        simp

theorem utf16le_resumable (cfg bs) (h : NotAfterHigh false bs) : Resumable .utf16le cfg bs := by
  intro closed cs
  exact decodeUtf16_append false bs.length (bs ++ cs).length 0 bs cs h (Nat.le_refl _) (Nat.le_refl _)

theorem utf16be_resumable (cfg bs) (h : NotAfterHigh true bs) : Resumable .utf16be cfg bs := by
  intro closed cs
  exact decodeUtf16_append true bs.length (bs ++ cs).length 0 bs cs h (Nat.le_refl _) (Nat.le_refl _)

/-- The stream holds exactly the open decoding of its buffer. -/
structure Tracks (s : Stream) : Prop extends Inv s where
  opened : s.closed = false
  items : ∃ items, decodeItems s.encoding s.config false 0 s.buffer = (items, s.decodedBytes) ∧
    s.chars = items.map (·.2) ∧ s.offs = items.map (·.1)

theorem new_tracks (e cfg) : Tracks (new e cfg) := by
  refine ⟨new_inv e cfg, rfl, [], ?_, rfl, rfl⟩
  cases e <;> simp [new, decodeItems, decodeLatin1, decodeUtf16, decodeUtf8_nil]

/-- Appending or closing, in closed form: the result is the decoding of the whole buffer. -/
theorem decodeMore_eq {s : Stream} (h : Tracks s) (hr : Resumable s.encoding s.config s.buffer) (bs) (c) :
    decodeFrom { s with buffer := s.buffer ++ bs, closed := c } s.decodedBytes =
      let r := decodeItems s.encoding s.config c 0 (s.buffer ++ bs)
      { s with
        buffer := s.buffer ++ bs
        closed := c
        chars := r.1.map (·.2)
        offs := r.1.map (·.1)
        decodedBytes := r.2
        lineStarts := lineTable s.config (r.1.map (·.2))
        linesScanned := r.1.length } := by
  have hi : Inv0 { s with buffer := s.buffer ++ bs, closed := c } := by
    obtain ⟨⟨⟨h1, h2, h3, h4, h5, h6, h7⟩, h8⟩, h9⟩ := h
    exact ⟨h1, h2, h3, h4, h5, by simp; omega, h7⟩
  have e := decodeFrom_eq hi
  rw [e]
  obtain ⟨items, hd, hc, ho⟩ := h.items
  have := hr c bs
  rw [hd] at this
  simp only at this ⊢
  rw [this]
  simp [hc, ho]

theorem append_tracks {s : Stream} (h : Tracks s) (hr : Resumable s.encoding s.config s.buffer) (bs) :
    Tracks (append s bs) := by
  refine ⟨append_inv h.toInv bs, ?_, ?_⟩
  all_goals
    have e := decodeMore_eq h hr bs s.closed
    have e2 : append s bs = decodeFrom { s with buffer := s.buffer ++ bs, closed := s.closed }
      s.decodedBytes := rfl
    rw [e2, e]
  · exact h.opened
  · simp only [h.opened]
    exact ⟨(decodeItems s.encoding s.config false 0 (s.buffer ++ bs)).1, rfl, rfl, rfl⟩

theorem append_fields {s : Stream} (h : Tracks s) (hr : Resumable s.encoding s.config s.buffer) (bs) :
    (append s bs).buffer = s.buffer ++ bs ∧ (append s bs).encoding = s.encoding ∧
    (append s bs).config = s.config ∧ (append s bs).charPos = s.charPos ∧
    (append s bs).lastLineIdx = s.lastLineIdx := by
  have e := decodeMore_eq h hr bs s.closed
  have e2 : append s bs = decodeFrom { s with buffer := s.buffer ++ bs, closed := s.closed }
      s.decodedBytes := rfl
  rw [e2, e]
  simp

theorem close_eq {s : Stream} (h : Tracks s) (hr : Resumable s.encoding s.config s.buffer) :
    close s =
      let r := decodeItems s.encoding s.config true 0 s.buffer
      { s with
        closed := true
        chars := r.1.map (·.2)
        offs := r.1.map (·.1)
        decodedBytes := r.2
        lineStarts := lineTable s.config (r.1.map (·.2))
        linesScanned := r.1.length } := by
  have e := decodeMore_eq h hr [] true
  simpa [close] using e

/-! ## UTF-8 round trip with Lean's encoder -/

theorem utf8Step_two {a b : UInt8} {r} (ha : 0xC2 ≤ a.toNat ∧ a.toNat ≤ 0xDF)
    (hb : isCont b = true) :
    utf8Step (a :: b :: r) = .char ((a.toNat - 0xC0) * 64 + (b.toNat - 0x80)) 2 := by
  unfold utf8Step
  rw [if_neg (by omega), if_pos (by simp; omega)]
  simp [hb]

theorem utf8Step_three {a b c : UInt8} {r} (ha : 0xE0 ≤ a.toNat ∧ a.toNat ≤ 0xEF)
    (hb : ok3 a b = true) (hc : isCont c = true) :
    utf8Step (a :: b :: c :: r) =
      .char ((a.toNat - 0xE0) * 4096 + (b.toNat - 0x80) * 64 + (c.toNat - 0x80)) 3 := by
  unfold utf8Step
  rw [if_neg (by omega), if_neg (by simp; omega), if_pos (by simp; omega)]
  simp [hb, hc]

theorem utf8Step_four {a b c d : UInt8} {r} (ha : 0xF0 ≤ a.toNat ∧ a.toNat ≤ 0xF4)
    (hb : ok4 a b = true) (hc : isCont c = true) (hd : isCont d = true) :
    utf8Step (a :: b :: c :: d :: r) =
      .char ((a.toNat - 0xF0) * 262144 + (b.toNat - 0x80) * 4096 + (c.toNat - 0x80) * 64
        + (d.toNat - 0x80)) 4 := by
  unfold utf8Step
  rw [if_neg (by omega), if_neg (by simp; omega), if_neg (by simp; omega), if_pos (by simp; omega)]
  simp [hb, hc, hd]

theorem utf8Step_encode (c : Char) (bs : List UInt8) :
    utf8Step (String.utf8EncodeChar c ++ bs)
      = .char c.toNat (String.utf8EncodeChar c).length := by
  have hv : c.val.toNat < 0xD800 ∨ (0xDFFF < c.val.toNat ∧ c.val.toNat < 0x110000) := c.valid
  have ht : c.toNat = c.val.toNat := rfl
  rw [ht]
  unfold String.utf8EncodeChar
  simp only
  generalize c.val.toNat = v at hv
  have key : ∀ n, n < 256 → ∃ x : UInt8, UInt8.ofNat n = x ∧ x.toNat = n := fun n hn => by
    refine ⟨_, rfl, ?_⟩; simp; omega
  have cont : ∀ x : UInt8, 128 ≤ x.toNat → x.toNat ≤ 191 → isCont x = true := by
    intro x h1 h2; simp [isCont, h1, h2]
  by_cases h1 : v ≤ 127
  · obtain ⟨a, e1, h⟩ := key v (by omega)
    simp only [h1, if_true, e1, List.cons_append, List.nil_append, utf8Step]
    rw [if_pos (by omega), h]; rfl
  · by_cases h2 : v ≤ 2047
    · obtain ⟨a, e1, ha⟩ := key (v / 64 % 32 + 192) (by omega)
      obtain ⟨b, e2, hb⟩ := key (v % 64 + 128) (by omega)
      simp only [h1, h2, if_true, if_false, e1, e2, List.cons_append, List.nil_append]
      rw [utf8Step_two (by omega) (cont _ (by omega) (by omega)), ha, hb]
      simp; omega
    · by_cases h3 : v ≤ 65535
      · obtain ⟨a, e1, ha⟩ := key (v / 4096 % 16 + 224) (by omega)
        obtain ⟨b, e2, hb⟩ := key (v / 64 % 64 + 128) (by omega)
        obtain ⟨c, e3, hc⟩ := key (v % 64 + 128) (by omega)
        simp only [h1, h2, h3, if_true, if_false, e1, e2, e3, List.cons_append, List.nil_append]
        have ok : ok3 a b = true := by
          have := cont b (by omega) (by omega)
          simp only [ok3, this, ha, hb]; simp; omega
        rw [utf8Step_three (by omega) ok (cont _ (by omega) (by omega)), ha, hb, hc]
        simp; omega
      · obtain ⟨a, e1, ha⟩ := key (v / 262144 % 8 + 240) (by omega)
        obtain ⟨b, e2, hb⟩ := key (v / 4096 % 64 + 128) (by omega)
        obtain ⟨c, e3, hc⟩ := key (v / 64 % 64 + 128) (by omega)
        obtain ⟨d, e4, hd⟩ := key (v % 64 + 128) (by omega)
        simp only [h1, h2, h3, if_false, e1, e2, e3, e4, List.cons_append, List.nil_append]
        have ok : ok4 a b = true := by
          have := cont b (by omega) (by omega)
          simp only [ok4, this, ha, hb]; simp; omega
        rw [utf8Step_four (by omega) ok (cont _ (by omega) (by omega))
          (cont _ (by omega) (by omega)), ha, hb, hc, hd]
        simp; omega

/-- Decoding an encoded text gives the text back, each character at the offset where its encoding
starts. -/
theorem flat_encode (closed pos) (t : List Char) :
    ((flat closed pos (encode t)).1.map (·.2) = ofText t) ∧
    (flat closed pos (encode t)).2 = pos + (encode t).length ∧
    ∀ i, i < t.length →
      ((flat closed pos (encode t)).1.map (·.1))[i]? = some (pos + (encode (t.take i)).length) := by
  induction t generalizing pos with
  | nil => simp [encode, flat_nil, ofText]
  | cons c t ih =>
    have hs := utf8Step_encode c (encode t)
    have e : encode (c :: t) = String.utf8EncodeChar c ++ encode t := by simp [encode]
    rw [e, flat_char hs]
    simp only [List.drop_left]
    obtain ⟨ih1, ih2, ih3⟩ := ih (pos + (String.utf8EncodeChar c).length)
    refine ⟨by simp only [List.map_cons, ih1]; simp [ofText], by rw [ih2]; simp; omega, ?_⟩
    intro i hi
    cases i with
    | zero => simp [encode]
    | succ i =>
      simp only [List.map_cons, List.getElem?_cons_succ]
      rw [ih3 i (by simpa using hi)]
      simp [encode]; omega

/-! ## Reading -/

theorem read_at {s : Stream} {pre post : List Character} {c : Character}
    (hc : s.chars = pre ++ c :: post) (hp : s.charPos = pre.length) : read s = c := by
  unfold read; rw [hc, hp]; simp

theorem read_end {s : Stream} (hp : s.chars.length ≤ s.charPos) : read s = streamEnd := by
  unfold read; rw [List.getElem?_eq_none hp]; rfl

/-- One read at a position, in terms of what follows. -/
theorem readAndNext_cons {s : Stream} {pre post : List Character} {c : Character}
    (hne : streamEnd ∉ s.chars) (hc : s.chars = pre ++ c :: post) (hp : s.charPos = pre.length) :
    readAndNext s =
      if s.config.crLfAsOne = true ∧ c = ch CR ∧ post.head? = some (ch LF) then
        (ch LF, { s with charPos := pre.length + 2 })
      else if s.config.replaceCrAsLf = true ∧ c = ch CR ∧ post.head? ≠ some (ch LF) then
        (ch LF, { s with charPos := pre.length + 1 })
      else (c, { s with charPos := pre.length + 1 }) := by
  have hce : c ≠ streamEnd := by
    rintro rfl; apply hne; rw [hc]; simp
  have hr := read_at hc hp
  have hr2 : ∀ x, x ≠ streamEnd →
      (read { s with charPos := s.charPos + 1 } = x ↔ post.head? = some x) := by
    intro x hx
    unfold read
    simp only [hc, hp]
    rw [List.getElem?_append_right (by omega)]
    simp
    cases post with
    | nil => simp; exact fun h => hx h.symm
    | cons d r => simp
  unfold readAndNext
  simp only [hr, if_neg hce, hr2 (ch LF) (by simp), ne_eq]
  rw [hp]

theorem readAndNext_end {s : Stream} (hp : s.chars.length ≤ s.charPos) :
    readAndNext s = (streamEnd, s) := by
  unfold readAndNext; simp [read_end hp]

theorem readSlice_end {s : Stream} (hp : s.chars.length ≤ s.charPos) (k) :
    readSlice s k = List.replicate k streamEnd := by
  induction k with
  | zero => rfl
  | succ k ih =>
    simp only [readSlice, readAndNext_end hp, ih, List.replicate_succ]

theorem normalize_cons (cfg : Config) (c : Character) (post : List Character) :
    normalize cfg (c :: post) =
      if cfg.crLfAsOne = true ∧ c = ch CR ∧ post.head? = some (ch LF) then
        ch LF :: normalize cfg post.tail
      else if cfg.replaceCrAsLf = true ∧ c = ch CR ∧ post.head? ≠ some (ch LF) then
        ch LF :: normalize cfg post
      else c :: normalize cfg post := by
  cases post with
  | nil =>
    simp only [normalize, List.head?_nil]
    by_cases h : c = ch CR <;> by_cases h2 : cfg.replaceCrAsLf = true <;> simp [h, h2]
  | cons d r =>
    simp only [normalize, List.head?_cons, List.tail_cons]
    by_cases h : c = ch CR <;> by_cases h2 : cfg.replaceCrAsLf = true <;>
      by_cases h3 : d = ch LF <;> by_cases h4 : cfg.crLfAsOne = true <;> simp [h, h2, h3, h4]

theorem readSlice_normalize {s : Stream} (hne : streamEnd ∉ s.chars) (k : Nat) :
    ∀ (pre post : List Character), s.chars = pre ++ post → s.charPos = pre.length →
    readSlice s ((normalize s.config post).length + k)
      = normalize s.config post ++ List.replicate k streamEnd := by
  intro pre post
  induction hn : post.length using Nat.strongRecOn generalizing s pre post with
  | _ n ih =>
    intro hc hp
    cases post with
    | nil =>
      simp only [normalize, List.length_nil, Nat.zero_add, List.nil_append]
      exact readSlice_end (by rw [hc, hp]; simp) k
    | cons c post =>
      have hr := readAndNext_cons hne hc hp
      rw [normalize_cons]
      by_cases h1 : s.config.crLfAsOne = true ∧ c = ch CR ∧ post.head? = some (ch LF)
      · rw [if_pos h1] at hr ⊢
        obtain ⟨h1a, rfl, h1b⟩ := h1
        cases post with
        | nil => simp at h1b
        | cons d r =>
          simp at h1b
          subst h1b
          simp only [List.tail_cons, List.length_cons]
          have e : (normalize s.config r).length + 1 + k = ((normalize s.config r).length + k) + 1 := by
            omega
          rw [e, readSlice, hr]
          have := ih r.length (by simp at hn; omega)
            (s := { s with charPos := pre.length + 2 }) hne (pre ++ [ch CR, ch LF]) r rfl
            (by simp [hc]) (by simp)
          simp only at this ⊢
          rw [this]; rfl
      · rw [if_neg h1] at hr ⊢
        have := ih post.length (by simp at hn; omega)
            (s := { s with charPos := pre.length + 1 }) hne (pre ++ [c]) post rfl
            (by simp [hc]) (by simp)
        simp only at this
        by_cases h2 : s.config.replaceCrAsLf = true ∧ c = ch CR ∧ post.head? ≠ some (ch LF)
        · rw [if_pos h2] at hr ⊢
          have e : (ch LF :: normalize s.config post).length + k
            = ((normalize s.config post).length + k) + 1 := by simp; omega
          rw [e, readSlice, hr]; simp only
          rw [this]; rfl
        · rw [if_neg h2] at hr ⊢
          have e : (c :: normalize s.config post).length + k
            = ((normalize s.config post).length + k) + 1 := by simp; omega
          rw [e, readSlice, hr]; simp only
          rw [this]; rfl

/-- Not in the middle of a CR LF pair. -/
def Boundary (s : Stream) : Prop :=
  ¬ (s.config.crLfAsOne = true ∧ 0 < s.charPos ∧ s.chars[s.charPos - 1]? = some (ch CR) ∧
      s.chars[s.charPos]? = some (ch LF))

theorem split_at {s : Stream} (h : s.charPos < s.chars.length) :
    ∃ pre c post, s.chars = pre ++ c :: post ∧ s.charPos = pre.length :=
  ⟨s.chars.take s.charPos, s.chars[s.charPos], s.chars.drop (s.charPos + 1), by simp,
    by simp; omega⟩

theorem readAndNext_boundary {s : Stream} (hne : streamEnd ∉ s.chars) (hb : Boundary s) :
    Boundary (readAndNext s).2 := by
  by_cases h : s.charPos < s.chars.length
  · obtain ⟨pre, c, post, hc, hp⟩ := split_at h
    rw [readAndNext_cons hne hc hp]
    split
    · rename_i h1
      obtain ⟨h1a, rfl, h1b⟩ := h1
      cases post with
      | nil => simp at h1b
      | cons d r =>
        simp at h1b
        subst h1b
        intro ⟨_, _, h3, _⟩
        simp [hc] at h3
        exact absurd h3 (by decide)
    · rename_i h1
      have : Boundary { s with charPos := pre.length + 1 } := by
        intro ⟨h2, _, h3, h4⟩
        simp only [hc] at h3 h4
        simp at h3 h4 h2
        subst h3
        apply h1
        rw [List.getElem?_append_right (by omega)] at h4
        simp at h4
        cases post with
        | nil => simp at h4
        | cons d r => simp at h4; simp [h2, h4]
      split <;> exact this
  · rw [readAndNext_end (by omega)]; exact hb

theorem prev_readAndNext {s : Stream} (hne : streamEnd ∉ s.chars) (hb : Boundary s)
    (h : s.charPos < s.chars.length) : prev (readAndNext s).2 = s := by
  obtain ⟨pre, c, post, hc, hp⟩ := split_at h
  rw [readAndNext_cons hne hc hp]
  have hs : { s with charPos := pre.length } = s := by rw [← hp]
  split
  · rename_i h1
    obtain ⟨h1a, rfl, h1b⟩ := h1
    cases post with
    | nil => simp at h1b
    | cons d r =>
      simp at h1b
      subst h1b
      unfold prev
      have : read { s with charPos := pre.length + 1 } = ch LF :=
        read_at (pre := pre ++ [ch CR]) (post := r) (by simp [hc]) (by simp)
      simp only [Nat.add_sub_cancel, show pre.length + 2 - 1 = pre.length + 1 by omega]
      rw [if_pos ⟨h1a, this, by omega, by rw [hc]; simp⟩]
      exact hs
  · have : prev { s with charPos := pre.length + 1 } = s := by
      unfold prev
      simp only [Nat.add_sub_cancel]
      rw [if_neg]
      · exact hs
      · intro ⟨h2, h3, h4, h5⟩
        apply hb
        refine ⟨h2, by omega, by rw [hp]; exact h5, ?_⟩
        rw [hs] at h3
        rw [read_at hc hp] at h3
        subst h3
        rw [hc, hp]; simp
    split <;> exact this

theorem afterSlice_boundary {s : Stream} (hne : streamEnd ∉ s.chars) (hb : Boundary s) (n) :
    Boundary (afterSlice s n) := by
  induction n generalizing s with
  | zero => exact hb
  | succ n ih =>
    refine ih ?_ (readAndNext_boundary hne hb)
    rw [readAndNext_state]; exact hne

/-! ## Seeking -/

theorem partitionPoint_sorted {ls : List Nat} (h : ls.Pairwise (· < ·)) (i : Nat)
    (hi : i < ls.length) : partitionPoint ls ls[i] = i := by
  unfold partitionPoint
  induction ls generalizing i with
  | nil => simp at hi
  | cons a r ih =>
    cases i with
    | zero => simp [List.takeWhile]
    | succ i =>
      have h1 := List.pairwise_cons.mp h
      have : a < r[i]'(by simpa using hi) := h1.1 _ (List.getElem_mem _)
      simp only [List.getElem_cons_succ, List.takeWhile, this, decide_true, List.length_cons]
      rw [ih h1.2 i]

theorem partitionPoint_all {ls : List Nat} {o : Nat} (h : ∀ v ∈ ls, v < o) :
    partitionPoint ls o = ls.length := by
  unfold partitionPoint
  induction ls with
  | nil => rfl
  | cons a r ih =>
    have h1 := h a (by simp)
    simp only [List.takeWhile, h1, decide_true, List.length_cons]
    rw [ih (fun v hv => h v (by simp [hv]))]

theorem seek_tell {s : Stream} (h : Inv s) :
    min (partitionPoint s.offs (tellBytes s)) s.chars.length = s.charPos := by
  unfold tellBytes
  by_cases hp : s.charPos < s.chars.length
  · have : s.charPos < s.offs.length := by rw [h.lens]; exact hp
    rw [List.getElem?_eq_getElem this]
    simp only [Option.getD_some]
    rw [partitionPoint_sorted h.sorted _ this]; omega
  · rw [List.getElem?_eq_none (by rw [h.lens]; omega)]
    simp only [Option.getD_none]
    rw [partitionPoint_all, h.lens]
    · have := h.pos; omega
    · intro v hv
      have := h.offsLt v hv; have := h.dec; omega

end Verif.ByteStream
