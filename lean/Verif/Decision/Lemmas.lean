import Verif.Decision.Spec
import Mathlib.Tactic.Common
import Mathlib.Data.List.Induction

namespace Verif.Decision
open Verif

/-! ## Header lookups -/

theorem header_some (m : Meta) (name : String) (v : Bytes) :
    m.header name.toList = some v ↔ m.First name v := by
  unfold Meta.header Meta.First
  generalize m.headers = hs
  induction hs with
  | nil => simp
  | cons h t ih =>
    by_cases hn : h.1 = name.toList
    · simp only [List.find?_cons, hn, decide_true, Option.some.injEq]
      constructor
      · rintro rfl
        exact ⟨[], t, by rw [← hn]; rfl, by simp⟩
      · rintro ⟨pre, post, he, hp⟩
        cases pre with
        | nil => simp only [List.nil_append, List.cons.injEq] at he; rw [he.1]
        | cons a pre =>
          simp only [List.cons_append, List.cons.injEq] at he
          exact absurd (he.1 ▸ hn) (hp a (by simp))
    · simp only [List.find?_cons, hn, decide_false]
      rw [ih]
      constructor
      · rintro ⟨pre, post, he, hp⟩
        refine ⟨h :: pre, post, by rw [he]; rfl, ?_⟩
        intro x hx
        rcases List.mem_cons.mp hx with rfl | hx
        · exact hn
        · exact hp x hx
      · rintro ⟨pre, post, he, hp⟩
        cases pre with
        | nil =>
          simp only [List.nil_append, List.cons.injEq] at he
          exact absurd (by rw [he.1]) hn
        | cons a pre =>
          simp only [List.cons_append, List.cons.injEq] at he
          exact ⟨pre, post, he.2, fun x hx => hp x (by simp [hx])⟩

theorem First_unique {m : Meta} {name : String} {v w : Bytes} (h : m.First name v) (h' : m.First name w) :
    v = w := by
  have a := (header_some m name v).mpr h
  have b := (header_some m name w).mpr h'
  rw [a] at b; exact Option.some.inj b

/-- printable ASCII or tab -/
def Visible (b : UInt8) : Prop := 32 ≤ b.toNat ∧ b.toNat < 127 ∨ b.toNat = 9

theorem toStr_some (b : Bytes) (s : Str) :
    toStr b = some s ↔ (∀ x ∈ b, Visible x) ∧ b.map (fun x => Char.ofNat x.toNat) = s := by
  unfold toStr Visible
  split
  · rename_i h
    simp only [List.all_eq_true, Bool.or_eq_true, Bool.and_eq_true, decide_eq_true_eq, beq_iff_eq] at h
    simp only [Option.some.injEq]
    exact ⟨fun h2 => ⟨h, h2⟩, fun h2 => h2.2⟩
  · rename_i h
    simp only [List.all_eq_true, Bool.or_eq_true, Bool.and_eq_true, decide_eq_true_eq, beq_iff_eq] at h
    simp only [reduceCtorEq, false_iff, not_and]
    exact fun h2 => absurd h2 h

theorem byte_lower_all : ∀ n : Fin 256,
    (lowerChar (Char.ofNat n.val)).toNat = (lowerByte (UInt8.ofNat n.val)).toNat ∧
    (isWs (Char.ofNat n.val) = true → (32 ≤ n.val ∧ n.val < 127 ∨ n.val = 9) → n.val = 32 ∨ n.val = 9) := by
  decide +kernel

theorem byte_cases (P : UInt8 → Prop) (h : ∀ n : Fin 256, P (UInt8.ofNat n.val)) (b : UInt8) : P b := by
  have := h ⟨b.toNat, b.toNat_lt⟩
  simpa using this

theorem lowerByte_char (b : UInt8) :
    (lowerChar (Char.ofNat b.toNat)).toNat = (lowerByte b).toNat := by
  have := (byte_lower_all ⟨b.toNat, b.toNat_lt⟩).1
  simpa using this

theorem ws_visible (b : UInt8) (h : isWs (Char.ofNat b.toNat) = true) (hv : Visible b) :
    b.toNat = 32 ∨ b.toNat = 9 := by
  have := (byte_lower_all ⟨b.toNat, b.toNat_lt⟩).2
  exact this h hv

theorem char_ext {c d : Char} (h : c.toNat = d.toNat) : c = d := by
  apply Char.ext
  apply UInt32.toNat_inj.mp
  exact h

/-- comparing lower-cased header text with a literal is comparing bytes -/
theorem lower_eq_iff (v : Bytes) (w : List UInt8) (lit : Str) (hl : lit.map Char.toNat = w.map UInt8.toNat) :
    lower (v.map fun x => Char.ofNat x.toNat) = lit ↔ v.map lowerByte = w := by
  unfold lower
  rw [List.map_map]
  constructor
  · intro h
    have : (v.map lowerByte).map UInt8.toNat = w.map UInt8.toNat := by
      rw [← hl, ← h, List.map_map, List.map_map]
      apply List.map_congr_left
      intro x _
      exact (lowerByte_char x).symm
    exact (List.map_inj_right (fun a b h => UInt8.toNat_inj.mp h)).mp this
  · intro h
    have : (v.map (lowerChar ∘ fun x => Char.ofNat x.toNat)).map Char.toNat = lit.map Char.toNat := by
      rw [hl, ← h, List.map_map, List.map_map]
      apply List.map_congr_left
      intro x _
      exact lowerByte_char x
    exact (List.map_inj_right (fun a b h => char_ext h)).mp this

theorem visible_of_lower {v w : Bytes} (h : v.map lowerByte = w) (hw : ∀ x ∈ w, 97 ≤ x.toNat ∧ x.toNat ≤ 122) :
    ∀ x ∈ v, Visible x := by
  intro x hx
  have hm : lowerByte x ∈ w := by rw [← h]; exact List.mem_map_of_mem hx
  have := hw _ hm
  unfold lowerByte at this
  unfold Visible
  split at this
  · rename_i hc; omega
  · omega

theorem nosniff_iff (m : Meta) :
    headerEq m "x-content-type-options".toList "nosniff".toList = true ↔ NoSniff m := by
  unfold headerEq NoSniff
  constructor
  · intro h
    split at h
    · rename_i v hv
      split at h
      · rename_i s hs
        refine ⟨v, (header_some _ _ _).mp hv, ?_⟩
        obtain ⟨h1, rfl⟩ := (toStr_some _ _).mp hs
        simp only [eqIgnoreCase, decide_eq_true_eq] at h
        have : lower "nosniff".toList = "nosniff".toList := by decide
        rw [this] at h
        exact (lower_eq_iff v (ascii "nosniff") _ (by decide)).mp h
      · cases h
    · cases h
  · rintro ⟨v, hf, hv⟩
    rw [(header_some _ _ _).mpr hf]
    have hs := (toStr_some v _).mpr ⟨visible_of_lower hv (by decide), rfl⟩
    simp only [hs, eqIgnoreCase, decide_eq_true_eq]
    have : lower "nosniff".toList = "nosniff".toList := by decide
    rw [this]
    exact (lower_eq_iff v (ascii "nosniff") _ (by decide)).mpr hv

theorem trim_eq_dropWhile_end (s : Str) : ∃ suf, s.dropWhile isWs = trim s ++ suf := by
  unfold trim trimBy
  generalize s.dropWhile isWs = t
  refine ⟨(t.reverse.takeWhile isWs).reverse, ?_⟩
  rw [← List.reverse_append, List.takeWhile_append_dropWhile, List.reverse_reverse]

theorem dropWhile_end_prefix (p : Char → Bool) (a b : Str) (ha : a ≠ []) (hl : p (a.getLast ha) = false) :
    ∃ c, ((a ++ b).reverse.dropWhile p).reverse = a ++ c := by
  induction b using List.reverseRecOn with
  | nil =>
    refine ⟨[], ?_⟩
    simp only [List.append_nil]
    have : a.reverse = a.getLast ha :: a.dropLast.reverse := by
      conv_lhs => rw [← List.dropLast_concat_getLast ha]
      simp
    rw [this, List.dropWhile_cons, hl]
    simp [← this]
  | append_singleton b x ih =>
    rw [← List.append_assoc, List.reverse_append, List.reverse_singleton, List.singleton_append,
      List.dropWhile_cons]
    split
    · exact ih
    · exact ⟨b ++ [x], by simp⟩

theorem attachment_iff (m : Meta) : dispositionIsAttachment m = true ↔ IsAttachment m := by
  unfold dispositionIsAttachment IsAttachment
  constructor
  · intro h
    split at h
    · rename_i v hv
      split at h
      · rename_i s hs
        obtain ⟨hvis, rfl⟩ := (toStr_some _ _).mp hs
        obtain ⟨suf, hsuf⟩ := trim_eq_dropWhile_end (v.map fun x => Char.ofNat x.toNat)
        have hp := List.isPrefixOf_iff_prefix.mp h
        obtain ⟨r, hr⟩ := hp
        -- split the bytes
        let ws := v.takeWhile (fun x => isWs (Char.ofNat x.toNat))
        let w := v.dropWhile (fun x => isWs (Char.ofNat x.toNat))
        have hvw : v = ws ++ w := (List.takeWhile_append_dropWhile ..).symm
        have hdw : (v.map fun x => Char.ofNat x.toNat).dropWhile isWs = w.map fun x => Char.ofNat x.toNat := by
          rw [List.dropWhile_map]; rfl
        have hlw : lower (w.map fun x => Char.ofNat x.toNat) = "attachment".toList ++ (r ++ lower suf) := by
          rw [← hdw, hsuf]
          unfold lower at *
          rw [List.map_append, ← hr, List.append_assoc]
        have hsplit : lower ((w.take 10).map fun x => Char.ofNat x.toNat) = "attachment".toList := by
          have := congrArg (List.take 10) hlw
          unfold lower at *
          rw [← List.map_take, ← List.map_take] at this
          rw [this]
          rfl
        refine ⟨ws, w.take 10, w.drop 10, ?_, ?_, ?_, ?_⟩
        · rw [List.append_assoc, List.take_append_drop, ← hvw]
          exact (header_some _ _ _).mp hv
        · intro b hb
          refine ws_visible b ?_ (hvis b (hvw ▸ List.mem_append_left _ hb))
          exact List.all_eq_true.mp (List.all_takeWhile (p := fun x : UInt8 => isWs (Char.ofNat x.toNat)) (l := v)) b hb
        · exact (lower_eq_iff _ (ascii "attachment") _ (by decide)).mp hsplit
        · intro b hb
          exact hvis b (hvw ▸ List.mem_append_right _ (List.mem_of_mem_drop hb))
      · cases h
    · cases h
  · rintro ⟨ws, v, rest, hf, hws, hv, hrest⟩
    rw [(header_some _ _ _).mpr hf]
    have hvis : ∀ x ∈ ws ++ v ++ rest, Visible x := by
      intro x hx
      rcases List.mem_append.mp hx with hx | hx
      · rcases List.mem_append.mp hx with hx | hx
        · have := hws x hx; unfold Visible; omega
        · exact visible_of_lower hv (by decide) x hx
      · exact hrest x hx
    have hs := (toStr_some (ws ++ v ++ rest) _).mpr ⟨hvis, rfl⟩
    simp only [hs]
    apply List.isPrefixOf_iff_prefix.mpr
    have hlv := (lower_eq_iff v (ascii "attachment") "attachment".toList (by decide)).mpr hv
    have hvne : v ≠ [] := by rintro rfl; revert hv; decide
    -- dropWhile removes exactly ws
    have hd : (((ws ++ v ++ rest).map fun x => Char.ofNat x.toNat).dropWhile isWs) =
        (v ++ rest).map fun x => Char.ofNat x.toNat := by
      rw [List.append_assoc, List.map_append, List.dropWhile_append_of_pos]
      · cases v with
        | nil => exact absurd rfl hvne
        | cons a v =>
          simp only [List.cons_append, List.map_cons, List.dropWhile_cons]
          have : isWs (Char.ofNat a.toNat) = false := by
            cases hw : isWs (Char.ofNat a.toNat)
            · rfl
            · have h2 := ws_visible a hw (hvis a (by simp))
              simp only [List.map_cons] at hv
              have h3 : lowerByte a = 97 := by
                have := congrArg List.head? hv
                simp only [List.head?_cons] at this
                exact Option.some.inj (this.trans (by decide))
              unfold lowerByte at h3
              have h4 : (97 : UInt8).toNat = 97 := rfl
              split at h3
              · omega
              · rw [h3] at h2; omega
          simp [this]
      · intro c hc
        obtain ⟨b, hb, rfl⟩ := List.mem_map.mp hc
        rcases hws b hb with h | h <;> rw [h] <;> decide
    unfold trim trimBy
    rw [hd, List.map_append]
    have hne' : (v.map fun x => Char.ofNat x.toNat) ≠ [] := by simpa using hvne
    obtain ⟨c, hc⟩ := dropWhile_end_prefix isWs (v.map fun x => Char.ofNat x.toNat)
      (rest.map fun x => Char.ofNat x.toNat) hne' (by
        have hlast : lowerChar ((v.map fun x => Char.ofNat x.toNat).getLast hne') = 't' := by
          have := congrArg List.getLast? hlv
          unfold lower at this
          rw [List.getLast?_map, List.getLast?_eq_some_getLast hne'] at this
          exact Option.some.inj this
        cases hw : isWs ((v.map fun x => Char.ofNat x.toNat).getLast hne')
        · rfl
        · have hmem := List.getLast_mem hne'
          obtain ⟨b, hb, hbe⟩ := List.mem_map.mp hmem
          rw [← hbe] at hw hlast
          have h2 := ws_visible b hw (hvis b (by simp [hb]))
          rcases h2 with h | h <;> rw [h] at hlast <;> revert hlast <;> decide)
    rw [hc]
    refine ⟨lower c, ?_⟩
    unfold lower at *
    rw [List.map_append, hlv]

theorem declares_iff (e : Ext) (m : Meta) (t : Mime) : contentType e m = some t ↔ Declares e m t := by
  unfold contentType Declares
  constructor
  · intro h
    split at h
    · rename_i v hv
      split at h
      · rename_i s hs
        obtain ⟨h1, rfl⟩ := (toStr_some _ _).mp hs
        exact ⟨v, (header_some _ _ _).mp hv, h1, h⟩
      · cases h
    · cases h
  · rintro ⟨v, hf, h1, h2⟩
    rw [(header_some _ _ _).mpr hf]
    simp only [(toStr_some v _).mpr ⟨h1, rfl⟩, h2]

/-! ## The declared type table -/

theorem mimeIsPdf_iff (t : Mime) (h : lower t.typ = t.typ ∧ lower t.sub = t.sub ∧ '/' ∉ t.typ ∧ '+' ∉ t.sub) :
    mimeIsPdf t = true ↔ t.typ = "application".toList ∧ t.sub = "pdf".toList := by
  unfold mimeIsPdf
  simp only [Bool.or_eq_true, decide_eq_true_eq, or_iff_left_iff_imp]
  intro he
  simp only [eqIgnoreCase, decide_eq_true_eq] at he
  have hl : lower "application/pdf".toList = "application".toList ++ '/' :: "pdf".toList := by decide
  rw [hl] at he
  unfold lower at he h
  rw [List.map_append, List.map_append, List.map_append, h.1, h.2.1, List.append_assoc, List.append_assoc] at he
  have hslash : ∀ (a b : Str) (x y : Str), '/' ∉ a → '/' ∉ b → a ++ '/' :: x = b ++ '/' :: y → a = b ∧ x = y := by
    intro a
    induction a with
    | nil =>
      intro b x y _ hb he
      cases b with
      | nil => simpa using he
      | cons c b => simp only [List.nil_append, List.cons_append, List.cons.injEq] at he; exact absurd (by rw [← he.1]; simp) hb
    | cons d a ih =>
      intro b x y ha hb he
      cases b with
      | nil => simp only [List.nil_append, List.cons_append, List.cons.injEq] at he; exact absurd (by rw [he.1]; simp) ha
      | cons c b =>
        simp only [List.cons_append, List.cons.injEq] at he
        have := ih b x y (fun h => ha (by simp [h])) (fun h => hb (by simp [h])) he.2
        exact ⟨by rw [he.1, this.1], this.2⟩
  have h2 := hslash t.typ "application".toList _ "pdf".toList h.2.2.1 (by decide)
    (by simpa [lowerChar] using he)
  refine ⟨h2.1, ?_⟩
  have h3 := h2.2
  cases hs : t.suffix with
  | none => rw [hs] at h3; simpa using h3
  | some x =>
    rw [hs] at h3
    exfalso
    have hm : lowerChar '+' ∈ "pdf".toList := by rw [← h3]; simp
    revert hm; decide

theorem classFromMime_eq (t : Mime)
    (h : lower t.typ = t.typ ∧ lower t.sub = t.sub ∧ '/' ∉ t.typ ∧ '+' ∉ t.sub) :
    classFromMime t = trustedClass t := by
  have hp := mimeIsPdf_iff t h
  have d1 : "text".toList ≠ "application".toList := by decide
  have d2 : "text".toList ≠ "image".toList := by decide
  have d3 : "text".toList ≠ "font".toList := by decide
  have d4 : "application".toList ≠ "image".toList := by decide
  have d5 : "application".toList ≠ "font".toList := by decide
  have d6 : "image".toList ≠ "font".toList := by decide
  have s1 : "javascript".toList ≠ "pdf".toList := by decide
  have s2 : "javascript".toList ≠ "json".toList := by decide
  have s3 : "pdf".toList ≠ "json".toList := by decide
  have s4 : "html".toList ≠ "css".toList := by decide
  unfold classFromMime trustedClass trusted
  simp only [List.find?_cons, rowApplies, List.find?_nil]
  generalize "text".toList = tx at *
  generalize "application".toList = ap at *
  generalize "image".toList = im at *
  generalize "font".toList = fo at *
  generalize "javascript".toList = js at *
  generalize "pdf".toList = pd at *
  generalize "json".toList = jn at *
  generalize "html".toList = ht at *
  generalize "css".toList = cs at *
  clear h
  have hpf : mimeIsPdf t = decide (t.typ = ap ∧ t.sub = pd) := by
    by_cases hh : t.typ = ap ∧ t.sub = pd
    · rw [hp.mpr hh, decide_eq_true hh]
    · rw [decide_eq_false hh]
      cases hm : mimeIsPdf t
      · rfl
      · exact absurd (hp.mp hm) hh
  rw [hpf]
  clear hp hpf
  generalize t.typ = a
  generalize t.sub = b
  by_cases h1 : a = tx
  · subst h1
    by_cases h2 : b = ht
    · subst h2; simp
    · by_cases h3 : b = cs
      · subst h3; simp [h2]
      · simp [*]
  · by_cases h2 : a = ap
    · subst h2
      by_cases h3 : b = js
      · subst h3; simp [*]
      · by_cases h4 : b = pd
        · subst h4; simp [*]
        · by_cases h5 : b = jn
          · subst h5; simp [*]
          · simp [*]
    · by_cases h3 : a = im
      · subst h3; simp [*]
      · by_cases h4 : a = fo
        · subst h4; simp [*]
        · simp [*]

end Verif.Decision
