import Verif.Decision.Lemmas2

/-!
# Properties C27–C29: what is done with a response
-/
namespace Verif.Decision
open Verif

/-! ## Concrete case used by the examples -/

/-- A response head built from text. -/
def mkMeta (hs : List (String × String)) : Meta := ⟨hs.map fun h => (h.1.toList, ascii h.2)⟩

/-- Outside functions for the examples: types split at `/`, everything looks like a PDF, bytes are
Latin-1, no JSON. -/
def exExt : Ext where
  parseMime s := match splitOnce '/' (lower s) with
    | some (a, b) => if '+' ∈ b ∨ '/' ∈ a then none else some ⟨a, b, none⟩
    | none => none
  detect _ := ⟨"application".toList, "pdf".toList, none⟩
  utf8 b := some (b.map fun x => Char.ofNat x.toNat)
  lossy b := b.map fun x => Char.ofNat x.toNat
  parseJson _ := none

theorem lowerChar_idem (c : Char) : lowerChar (lowerChar c) = lowerChar c := by
  unfold lowerChar
  split
  · rename_i h
    have h2 : ∀ n : Fin 128, 65 ≤ n.val ∧ n.val ≤ 90 → ¬ (65 ≤ (Char.ofNat (n.val + 32)).toNat ∧
        (Char.ofNat (n.val + 32)).toNat ≤ 90) := by decide +kernel
    exact if_neg (h2 ⟨c.toNat, by omega⟩ h)
  · rfl

theorem splitOnce_eq (c : Char) (s a b : Str) (h : splitOnce c s = some (a, b)) : s = a ++ c :: b := by
  induction s generalizing a with
  | nil => simp [splitOnce] at h
  | cons x s ih =>
    rw [splitOnce] at h
    split at h
    · rename_i hx; simp at h; simp [← h.1, ← h.2, hx]
    · split at h
      · rename_i a' b' hr
        simp at h
        obtain ⟨rfl, rfl⟩ := h
        rw [ih _ hr]; rfl
      · cases h

theorem exExt_lower : MimesLower exExt := by
  intro s t h
  simp only [exExt] at h
  split at h
  · rename_i a b hs
    split at h
    · cases h
    · rename_i hn
      simp only [Option.some.injEq] at h
      subst h
      have he := splitOnce_eq _ _ _ _ hs
      have hall : ∀ c ∈ lower s, lowerChar c = c := by
        intro c hc
        obtain ⟨d, _, rfl⟩ := List.mem_map.mp hc
        exact lowerChar_idem d
      have hl : ∀ l : Str, (∀ c ∈ l, c ∈ lower s) → lower l = l := by
        intro l hh
        have : l.map lowerChar = l.map id := List.map_congr_left (fun c hc => hall c (hh c hc))
        simpa [lower] using this
      refine ⟨hl a ?_, hl b ?_, fun h => hn (Or.inr h), fun h => hn (Or.inl h)⟩
      · intro c hc; rw [he]; simp [hc]
      · intro c hc; rw [he]; simp [hc]
  · cases h

/-! ## C27 -/

/-- **C27.** With `nosniff`, the whole handling decision is the same for any two bodies. -/
theorem C27_nosniff (e : Ext) (m : Meta) (dest : Dest) (p : Policy) (b₁ b₂ : Bytes) (h : NoSniff m) :
    decideHandling e m dest b₁ p = decideHandling e m dest b₂ p := by
  have hn := (nosniff_iff m).mpr h
  unfold decideHandling
  simp only [hn, Bool.not_true, Bool.and_false, Bool.false_eq_true, if_false]

/-- **C27.** With `nosniff`, what a response is used for does not depend on its body or on how it
arrives. -/
theorem C27_routing (e : Ext) (m : Meta) (dest : Dest) (p : Policy) (f₁ f₂ : Fetched)
    (k₁ k₂ b₁ b₂ : Bytes) (h : NoSniff m) (h₁ : f₁.Has m k₁ b₁) (h₂ : f₂.Has m k₂ b₂) :
    (route e dest f₁ p).kind = (route e dest f₂ p).kind := by
  have key : ∀ (f : Fetched) (k b : Bytes), f.Has m k b → route e dest f p = routeDecided e dest m k b p := by
    intro f k b hf
    cases hf <;> rfl
  rw [key _ _ _ h₁, key _ _ _ h₂]
  unfold routeDecided
  rw [C27_nosniff e m dest p k₁ k₂ h]
  generalize decideHandling e m dest k₂ p = o
  obtain ⟨cls, sn, de, att, dec⟩ := o
  cases dest <;> cases dec with
  | download => simp only; (try (split <;> simp only [Routed.kind]))
  | render t => cases t <;> rfl

example : NoSniff (mkMeta [("content-type", "text/plain"), ("x-content-type-options", "NoSniff")]) :=
  ⟨ascii "NoSniff", ⟨[("content-type".toList, ascii "text/plain")], [], rfl, by decide +kernel⟩, by decide +kernel⟩

/-! ## C28 -/

/-- The decision, with the parts that come from outside named. -/
theorem decide_table (e : Ext) (m : Meta) (dest : Dest) (peek : Bytes) (p : Policy) :
    let dc := (contentType e m).bind classFromMime
    let dp := ((contentType e m).map mimeIsPdf).getD false
    let sn : Option Class := if p.sniffing && !headerEq m "x-content-type-options".toList "nosniff".toList then
      some (sniffClass e peek) else none
    let att := dispositionIsAttachment m
    let eff := (dc.or sn).getD .binary
    let o := decideHandling e m dest peek p
    (att = true ∧ p.downloads = true → o.decision = .download ∧ o.attachment = true) ∧
    (¬ (att = true ∧ p.downloads = true) →
      (p.pdfViewer = true ∧ (dp = true ∨ sn = some .pdf) → o.decision = .render .pdfViewer) ∧
      (¬ (p.pdfViewer = true ∧ (dp = true ∨ sn = some .pdf)) → o.attachment = att ∧ o.cls = eff ∧
        (o.decision = match eff with
          | .html | .xhtml | .xml => .render .htmlParser
          | .image => .render .imageDecoder
          | .js => .render .jsEngine
          | .css => .render .cssParser
          | .font => .render .fontLoader
          | .json | .text | .binary =>
            if dest = .document ∧ p.navigationUpgrade = true ∧ (sn = some .html ∨ sn = some .xml) then
              .render .htmlParser else .download
          | _ => .download))) := by
  simp only [decideHandling]
  generalize contentType e m = ct
  generalize dispositionIsAttachment m = att
  generalize (if p.sniffing && !headerEq m "x-content-type-options".toList "nosniff".toList then
      some (sniffClass e peek) else none) = sn
  have hdead : (if (p.navigationUpgrade && decide (dest = .document) && ((ct.bind classFromMime).or sn).isNone) = true then
      if sn = some .html ∨ sn = some .xml then sn else (ct.bind classFromMime).or sn
      else (ct.bind classFromMime).or sn) = (ct.bind classFromMime).or sn := by
    split
    · rename_i hh
      split
      · rename_i h2
        cases hb : ct.bind classFromMime with
        | none => rfl
        | some c => rw [hb] at hh; simp at hh
      · rfl
    · rfl
  rw [hdead]
  generalize (ct.bind classFromMime).or sn = eff
  generalize (Option.map mimeIsPdf ct).getD false = dp
  by_cases h1 : att = true ∧ p.downloads = true
  · simp [h1.1, h1.2]
  · have h1' : (att && p.downloads) = false := by
      cases ha : att <;> cases hd : p.downloads <;> simp_all
    by_cases h2 : p.pdfViewer = true ∧ (dp = true ∨ sn = some .pdf)
    · have h2' : (p.pdfViewer && (dp || decide (sn = some .pdf))) = true := by simpa using h2
      rw [if_neg (by simp [h1']), if_pos h2']
      exact ⟨fun h => absurd h h1, fun _ => ⟨fun _ => rfl, fun h => absurd h2 h⟩⟩
    · have h2' : (p.pdfViewer && (dp || decide (sn = some .pdf))) = false := by
        cases hh : (p.pdfViewer && (dp || decide (sn = some .pdf)))
        · rfl
        · exact absurd (by simpa using hh) h2
      simp only [h1', h2', h1, h2]
      simp only [Bool.false_eq_true, if_false, false_implies, not_false_eq_true, forall_const, true_and]
      generalize eff.getD .binary = c
      cases c <;> simp

/-- facts about the head in specification terms -/
theorem trusted_bind (e : Ext) (m : Meta) (hl : MimesLower e) :
    (∀ c, (contentType e m).bind classFromMime = some c ↔ ∃ t, Declares e m t ∧ trustedClass t = some c) ∧
    ((contentType e m).bind classFromMime = none ↔ ∀ t, Declares e m t → trustedClass t = none) ∧
    (((contentType e m).map mimeIsPdf).getD false = true ↔ ∃ t, Declares e m t ∧ trustedClass t = some .pdf) := by
  have hct : ∀ t, contentType e m = some t ↔ Declares e m t := declares_iff e m
  cases hc : contentType e m with
  | none =>
    have hno : ∀ t, ¬ Declares e m t := fun t ht => by have := (hct t).mpr ht; rw [hc] at this; cases this
    refine ⟨fun c => ?_, ?_, ?_⟩
    · simp only [Option.bind_none, reduceCtorEq, false_iff]; rintro ⟨t, ht, _⟩; exact hno t ht
    · simp only [Option.bind_none, true_iff]; exact fun t ht => absurd ht (hno t)
    · simp only [Option.map_none, Option.getD_none, Bool.false_eq_true, false_iff]; rintro ⟨t, ht, _⟩; exact hno t ht
  | some t =>
    have hd : Declares e m t := (hct t).mp hc
    have huniq : ∀ t', Declares e m t' → t' = t := fun t' ht => by
      have := (hct t').mpr ht; rw [hc] at this; exact (Option.some.inj this).symm
    obtain ⟨v, _, _, hpm⟩ := hd
    have hlow := hl _ _ hpm
    have hcl := classFromMime_eq t hlow
    refine ⟨fun c => ?_, ?_, ?_⟩
    · simp only [Option.bind_some, hcl]
      exact ⟨fun h => ⟨t, (hct t).mp hc, h⟩, fun ⟨t', ht, h⟩ => huniq t' ht ▸ h⟩
    · simp only [Option.bind_some, hcl]
      exact ⟨fun h t' ht => huniq t' ht ▸ h, fun h => h t ((hct t).mp hc)⟩
    · simp only [Option.map_some, Option.getD_some]
      constructor
      · intro h
        refine ⟨t, (hct t).mp hc, ?_⟩
        have ⟨ha, hb⟩ := (mimeIsPdf_iff t hlow).mp h
        have hs : trustedClass t = trustedClass ⟨t.typ, t.sub, none⟩ := rfl
        rw [hs, ha, hb]
        decide +kernel
      · rintro ⟨t', ht, h⟩
        have := huniq t' ht; subst this
        rw [← hcl] at h
        unfold classFromMime at h
        split at h
        · cases h
        · split at h
          · cases h
          · split at h
            · cases h
            · split at h
              · cases h
              · split at h
                · cases h
                · split at h
                  · assumption
                  · split at h
                    · cases h
                    · split at h <;> cases h

/-- whether the class counts, in terms of the model's parts -/
theorem resolves_iff (e : Ext) (m : Meta) (peek : Bytes) (p : Policy) (hl : MimesLower e) (c : Class) :
    let dc := (contentType e m).bind classFromMime
    let dp := ((contentType e m).map mimeIsPdf).getD false
    let sn : Option Class := if p.sniffing && !headerEq m "x-content-type-options".toList "nosniff".toList then
      some (sniffClass e peek) else none
    Resolves e m peek p c ↔
      c = if p.pdfViewer = true ∧ (dp = true ∨ sn = some .pdf) then .pdf else (dc.or sn).getD .binary := by
  intro dc dp sn
  obtain ⟨hb1, hb2, hb3⟩ := trusted_bind e m hl
  have hns := nosniff_iff m
  have hsn : (Sniffs m p → sn = some (sniffClass e peek)) ∧ (¬ Sniffs m p → sn = none) := by
    unfold Sniffs
    constructor
    · rintro ⟨h1, h2⟩
      have : headerEq m "x-content-type-options".toList "nosniff".toList = false := by
        cases hh : headerEq m "x-content-type-options".toList "nosniff".toList
        · rfl
        · exact absurd (hns.mp hh) h2
      simp only [sn, h1, this]; rfl
    · intro h
      simp only [sn]
      rw [if_neg]
      intro hh
      simp only [Bool.and_eq_true, Bool.not_eq_true'] at hh
      apply h
      refine ⟨hh.1, fun hn => ?_⟩
      rw [hns.mpr hn] at hh
      cases hh.2
  have hdc : dc = some .pdf ↔ dp = true := (hb1 .pdf).trans hb3.symm
  constructor
  · intro h
    cases h with
    | pdfDeclared t h1 h2 h3 => rw [if_pos ⟨h1, Or.inl (hb3.mpr ⟨t, h2, h3⟩)⟩]
    | pdfSniffed h1 h2 h3 => rw [if_pos ⟨h1, Or.inr (by rw [hsn.1 h2, h3])⟩]
    | declared t _ h1 h2 h3 =>
      have hc : dc = some c := (hb1 c).mpr ⟨t, h2, h3⟩
      split
      · rename_i hh
        rcases hh.2 with hd | hs
        · rw [hdc.mpr hd] at hc; exact (Option.some.inj hc).symm
        · exfalso
          by_cases hsf : Sniffs m p
          · rw [hsn.1 hsf] at hs
            exact h1 ⟨hh.1, hsf, Option.some.inj hs⟩
          · rw [hsn.2 hsf] at hs; cases hs
      · rw [hc]; rfl
    | sniffed _ h1 h2 h3 =>
      have hn : dc = none := hb2.mpr h1
      split
      · rename_i hh
        rcases hh.2 with hd | hs
        · rw [hdc.mpr hd] at hn; cases hn
        · rw [hsn.1 h2, h3] at hs; exact Option.some.inj hs
      · rw [hn, hsn.1 h2, h3]; rfl
    | binary h1 h2 =>
      have hn : dc = none := hb2.mpr h1
      split
      · rename_i hh
        rcases hh.2 with hd | hs
        · rw [hdc.mpr hd] at hn; cases hn
        · rw [hsn.2 h2] at hs; cases hs
      · rw [hn, hsn.2 h2]; rfl
  · intro h
    by_cases hh : p.pdfViewer = true ∧ (dp = true ∨ sn = some .pdf)
    · rw [if_pos hh] at h
      subst h
      rcases hh.2 with hd | hs
      · obtain ⟨t, h1, h2⟩ := hb3.mp hd
        exact .pdfDeclared t hh.1 h1 h2
      · by_cases hsf : Sniffs m p
        · rw [hsn.1 hsf] at hs
          exact .pdfSniffed hh.1 hsf (Option.some.inj hs)
        · rw [hsn.2 hsf] at hs; cases hs
    · rw [if_neg hh] at h
      cases hd : dc with
      | some c' =>
        rw [hd] at h
        have : c = c' := h
        subst this
        obtain ⟨t, h1, h2⟩ := (hb1 c).mp hd
        refine .declared t c ?_ h1 h2
        rintro ⟨h3, h4, h5⟩
        exact hh ⟨h3, Or.inr (by rw [hsn.1 h4, h5])⟩
      | none =>
        rw [hd] at h
        by_cases hsf : Sniffs m p
        · rw [hsn.1 hsf] at h
          exact .sniffed c (hb2.mp hd) hsf h.symm
        · rw [hsn.2 hsf] at h
          have : c = .binary := h
          subst this
          exact .binary (hb2.mp hd) hsf

/-- Every response is resolved to exactly one type. -/
theorem C28_one_type (e : Ext) (m : Meta) (peek : Bytes) (p : Policy) (hl : MimesLower e) :
    ∃ c, Resolves e m peek p c ∧ ∀ c', Resolves e m peek p c' → c' = c := by
  have h := resolves_iff e m peek p hl
  exact ⟨_, (h _).mpr rfl, fun c' hc => (h c').mp hc⟩

theorem route_has (e : Ext) (dest : Dest) (f : Fetched) (p : Policy) (m : Meta) (peek body : Bytes)
    (h : f.Has m peek body) : route e dest f p = routeDecided e dest m peek body p := by
  cases h <;> rfl

/-- **C28.** A subresource response is delivered – with its own bytes, to the pipeline it was requested
for – when its resolved type is the one its destination accepts and it is not an attachment to be
downloaded. -/
theorem C28_delivered (e : Ext) (dest : Dest) (f : Fetched) (p : Policy) (m : Meta) (peek body : Bytes)
    (c : Class) (hl : MimesLower e) (hf : f.Has m peek body) (hr : Resolves e m peek p c)
    (hc : accepts dest = some c) (ha : ¬ (IsAttachment m ∧ p.downloads = true)) :
    route e dest f p = delivered dest body := by
  rw [route_has e dest f p m peek body hf]
  have ht := decide_table e m dest peek p
  have hres := (resolves_iff e m peek p hl c).mp hr
  simp only at ht hres
  rw [← attachment_iff] at ha
  have h2 := (ht.2 ha)
  have hnp : c ≠ .pdf := by rintro rfl; cases dest <;> simp [accepts] at hc
  have hnpdf : ¬ (p.pdfViewer = true ∧ (((contentType e m).map mimeIsPdf).getD false = true ∨
      (if p.sniffing && !headerEq m "x-content-type-options".toList "nosniff".toList then
      some (sniffClass e peek) else none) = some .pdf)) := by
    intro hh; rw [if_pos hh] at hres; exact hnp hres
  rw [if_neg hnpdf] at hres
  have h3 := (h2.2 hnpdf).2.2
  rw [← hres] at h3
  unfold routeDecided
  revert h3
  generalize (decideHandling e m dest peek p) = o
  intro h3
  cases dest <;> simp only [accepts, Option.some.injEq, reduceCtorEq] at hc <;> subst hc <;>
    simp only [h3, delivered]

/-- **C28.** …and every other subresource response is blocked. -/
theorem C28_blocked (e : Ext) (dest : Dest) (f : Fetched) (p : Policy) (m : Meta) (peek body : Bytes)
    (c : Class) (hl : MimesLower e) (hf : f.Has m peek body) (hd : dest ≠ .document)
    (hr : Resolves e m peek p c)
    (hc : accepts dest ≠ some c ∨ (IsAttachment m ∧ p.downloads = true)) :
    route e dest f p = .blocked := by
  rw [route_has e dest f p m peek body hf]
  have ht := decide_table e m dest peek p
  have hres := (resolves_iff e m peek p hl c).mp hr
  simp only at ht hres
  unfold routeDecided
  by_cases ha : IsAttachment m ∧ p.downloads = true
  · have h1 := (ht.1 (by rw [attachment_iff]; exact ha)).1
    revert h1
    generalize (decideHandling e m dest peek p) = o
    intro h1
    cases dest <;> simp only [h1] <;> first | rfl | exact absurd rfl hd
  · have hc' : accepts dest ≠ some c := hc.resolve_right ha
    rw [← attachment_iff] at ha
    have h2 := ht.2 ha
    by_cases hpdf : p.pdfViewer = true ∧ (((contentType e m).map mimeIsPdf).getD false = true ∨
      (if p.sniffing && !headerEq m "x-content-type-options".toList "nosniff".toList then
      some (sniffClass e peek) else none) = some .pdf)
    · have h3 := h2.1 hpdf
      revert h3
      generalize (decideHandling e m dest peek p) = o
      intro h3
      cases dest <;> simp only [h3] <;> exact absurd rfl hd
    · rw [if_neg hpdf] at hres
      have h3 := (h2.2 hpdf).2.2
      rw [← hres] at h3
      have hdd : (dest = .document) = False := eq_false hd
      simp only [hdd, false_and, if_false] at h3
      revert h3
      generalize (decideHandling e m dest peek p) = o
      intro h3
      cases dest <;> cases c <;> simp only [h3] <;>
        first | rfl | exact absurd rfl hd | exact absurd rfl hc'

/-- **C28.** An attachment is never rendered or executed when downloads are allowed: a top-level
navigation offers it as a download, and anything else is blocked. -/
theorem C28_attachment (e : Ext) (dest : Dest) (f : Fetched) (p : Policy) (m : Meta) (peek body : Bytes)
    (hf : f.Has m peek body) (ha : IsAttachment m) (hp : p.downloads = true) :
    route e dest f p = if dest = .document then .downloadOffer m else .blocked := by
  rw [route_has e dest f p m peek body hf]
  have ht := (decide_table e m dest peek p).1 ⟨(attachment_iff m).mpr ha, hp⟩
  unfold routeDecided
  revert ht
  generalize (decideHandling e m dest peek p) = o
  intro ht
  cases dest <;> simp [ht.1, ht.2]

/-- **C28.** What a top-level navigation does with every response that is not downloaded as an
attachment, as a table. -/
theorem C28_document (e : Ext) (f : Fetched) (p : Policy) (m : Meta) (peek body : Bytes) (c : Class)
    (hl : MimesLower e) (hf : f.Has m peek body) (hr : Resolves e m peek p c)
    (ha : ¬ (IsAttachment m ∧ p.downloads = true)) (up att : Bool)
    (hup : up = true ↔ p.navigationUpgrade = true ∧ Sniffs m p ∧
      (sniffClass e peek = .html ∨ sniffClass e peek = .xml))
    (hatt : att = true ↔ IsAttachment m) :
    (route e .document f p).kind = documentKind p.pdfViewer up att c := by
  rw [route_has e .document f p m peek body hf]
  have ht := decide_table e m .document peek p
  have hres := (resolves_iff e m peek p hl c).mp hr
  simp only at ht hres
  have hatt' : dispositionIsAttachment m = att := by
    cases h1 : att <;> cases h2 : dispositionIsAttachment m <;> first | rfl | skip
    · exact absurd (hatt.mpr ((attachment_iff m).mp h2)) (by simp [h1])
    · exact absurd ((attachment_iff m).mpr (hatt.mp h1)) (by simp [h2])
  rw [← attachment_iff] at ha
  have h2 := ht.2 ha
  unfold routeDecided
  by_cases hpdf : p.pdfViewer = true ∧ (((contentType e m).map mimeIsPdf).getD false = true ∨
      (if p.sniffing && !headerEq m "x-content-type-options".toList "nosniff".toList then
      some (sniffClass e peek) else none) = some .pdf)
  · have h3 := h2.1 hpdf
    rw [if_pos hpdf] at hres
    subst hres
    simp only [h3, documentKind, hpdf.1, Routed.kind, if_true]
  · rw [if_neg hpdf] at hres
    obtain ⟨h4, h5, h3⟩ := h2.2 hpdf
    rw [← hres] at h3 h5
    rw [hatt'] at h4
    have hupg : (p.navigationUpgrade = true ∧ ((if p.sniffing && !headerEq m "x-content-type-options".toList
        "nosniff".toList then some (sniffClass e peek) else none) = some .html ∨
        (if p.sniffing && !headerEq m "x-content-type-options".toList "nosniff".toList then
        some (sniffClass e peek) else none) = some .xml)) ↔ up = true := by
      rw [hup]
      unfold Sniffs
      rw [← nosniff_iff]
      cases p.sniffing <;> cases headerEq m "x-content-type-options".toList "nosniff".toList <;> simp
    simp only [true_and, hupg] at h3
    have hpv : c = .pdf → p.pdfViewer = false := by
      rintro rfl
      cases hv : p.pdfViewer
      · rfl
      · exfalso
        apply hpdf
        refine ⟨hv, ?_⟩
        obtain ⟨hb1, _, hb3⟩ := trusted_bind e m hl
        cases hd : (contentType e m).bind classFromMime with
        | some c' =>
          rw [hd] at hres
          have : Class.pdf = c' := hres
          subst this
          exact Or.inl (hb3.mpr ((hb1 _).mp hd))
        | none =>
          rw [hd] at hres
          right
          revert hres
          generalize (if p.sniffing && !headerEq m "x-content-type-options".toList "nosniff".toList then
            some (sniffClass e peek) else none) = sn
          intro hres
          cases sn with
          | none => cases hres
          | some x => exact congrArg some hres.symm
    revert h3 h4 h5
    generalize (decideHandling e m .document peek p) = o
    intro h3 h4 h5
    clear ht h2 hres hr hup hupg hpdf ha hatt hatt' hl hf
    cases c <;> simp only [documentKind] at h3 ⊢ <;> cases up <;> cases att <;>
      simp only [h3, h4, h5, hpv, Routed.kind, if_true, Bool.false_eq_true, if_false, Bool.not_true,
        Bool.not_false, Bool.true_and, Bool.false_and, reduceCtorEq, or_false, false_or, decide_true,
        decide_false, or_self]

/-- **C27/C28.** With `nosniff`, only a response declared as `text/html` is parsed as a web page of its
own; in particular mislabelled text is never executed as HTML. -/
theorem C27_html_only_if_declared (e : Ext) (f : Fetched) (p : Policy) (m : Meta) (peek body : Bytes)
    (hl : MimesLower e) (hf : f.Has m peek body) (hn : NoSniff m)
    (hk : (route e .document f p).kind = .page) :
    ∃ t, Declares e m t ∧ t.typ = "text".toList ∧ t.sub = "html".toList := by
  by_cases ha : IsAttachment m ∧ p.downloads = true
  · rw [C28_attachment e .document f p m peek body hf ha.1 ha.2] at hk
    simp [Routed.kind] at hk
  · obtain ⟨c, hc, _⟩ := C28_one_type e m peek p hl
    have hdoc := C28_document e f p m peek body c hl hf hc ha false (dispositionIsAttachment m)
      (by simp [Sniffs, hn]) (attachment_iff m)
    rw [hk] at hdoc
    have hns : ¬ Sniffs m p := fun h => h.2 hn
    cases hc with
    | pdfDeclared t h1 h2 h3 => simp [documentKind, h1] at hdoc
    | pdfSniffed h1 h2 h3 => exact absurd h2 hns
    | sniffed _ h1 h2 h3 => exact absurd h2 hns
    | binary h1 h2 => simp [documentKind] at hdoc
    | declared t _ h1 h2 h3 =>
      have hch : c = .html ∨ c = .xhtml ∨ c = .xml := by
        cases c <;> simp [documentKind] at hdoc ⊢ <;> (revert hdoc; (repeat' split) <;> simp)
      refine ⟨t, h2, ?_⟩
      unfold trustedClass at h3
      split at h3
      · rename_i row hrow
        have hm := List.mem_of_find?_eq_some hrow
        have hap := List.find?_some hrow
        simp only [Option.some.injEq] at h3
        simp only [trusted, List.mem_cons, List.not_mem_nil, or_false] at hm
        rcases hm with rfl | rfl | rfl | rfl | rfl | rfl | rfl | rfl
        · simpa [rowApplies] using hap
        all_goals (exfalso; subst h3; revert hch; decide)
      · cases h3

example : Declares exExt (mkMeta [("content-type", "image/png")]) ⟨"image".toList, "png".toList, none⟩ :=
  ⟨ascii "image/png", ⟨[], [], rfl, by simp⟩, by decide, by decide⟩

/-- a sniffing user agent without a PDF viewer -/
def noViewer : Policy := { Policy.default with pdfViewer := false }

/-- A PNG image is resolved to an image and delivered to the image decoder… -/
example : route exExt .image (.buffered (mkMeta [("content-type", "image/png")]) [1, 2]) noViewer = .image [1, 2] :=
  C28_delivered exExt .image _ noViewer _ _ [1, 2] .image exExt_lower (.buffered _ _)
    (.declared ⟨"image".toList, "png".toList, none⟩ .image (by simp [noViewer])
      ⟨ascii "image/png", ⟨[], [], rfl, by simp⟩, by decide, by decide⟩ (by decide)) rfl
    (by simp [noViewer, Policy.default])

/-- …and blocked as a script. -/
example : route exExt .script (.buffered (mkMeta [("content-type", "image/png")]) [1, 2]) noViewer = .blocked :=
  C28_blocked exExt .script _ noViewer _ _ [1, 2] .image exExt_lower (.buffered _ _) (by decide)
    (.declared ⟨"image".toList, "png".toList, none⟩ .image (by simp [noViewer])
      ⟨ascii "image/png", ⟨[], [], rfl, by simp⟩, by decide, by decide⟩ (by decide)) (Or.inl (by decide))

example : IsAttachment (mkMeta [("content-disposition", " ATTACHMENT; filename=x")]) :=
  ⟨ascii " ", ascii "ATTACHMENT", ascii "; filename=x", ⟨[], [], by decide, by simp⟩, by decide, by decide, by decide⟩

/-! ## C29 -/

/-- **C29.** The text of the page generated for a text is that text, exactly; and the page's tags are
those of the page for the empty text. -/
theorem C29_text (t : Str) :
    textOf (lex (textPage t)) = t ∧ tagsOf (lex (textPage t)) = tagsOf (lex (textPage [])) := by
  have h := (seg_textPage t).read
  exact ⟨h.1, h.2.trans (seg_textPage []).read.2.symm⟩

/-- **C29.** The escaped text contains no tag delimiter, and every ampersand in it begins one of the
references `&amp;`, `&lt;`, `&gt;`. -/
theorem C29_escaped (t : Str) :
    '<' ∉ htmlEscape t ∧ '>' ∉ htmlEscape t ∧
    ∀ pre post, htmlEscape t = pre ++ '&' :: post →
      "amp;".toList <+: post ∨ "lt;".toList <+: post ∨ "gt;".toList <+: post :=
  ⟨(htmlEscape_lt t).1, (htmlEscape_lt t).2, htmlEscape_amp t⟩

/-- **C29.** The JSON viewer shows every key and string of the document verbatim, and its tags depend
only on the shape of the document, not on what its strings contain. -/
theorem C29_json (v : Json) (hv : v.Wf) :
    textOf (lex (jsonPage v)) = shown v none [] ∧
    tagsOf (lex (jsonPage v)) = tagsOf (lex (jsonPage (blank v))) := by
  have h := (seg_jsonPage v hv).read
  refine ⟨h.1, h.2.trans ?_⟩
  rw [(seg_jsonPage (blank v) (blank_wf v)).read.2, blank_tags]

example : (Json.obj [("<b>".toList, .arr [.str "</span><script>".toList, .num "-1.5e3".toList, .null])]).Wf := by
  simp [Json.Wf, membersWf, itemsWf]
  decide

/-- **C29.** What a navigation to a textual, non-HTML response shows: the parser is given the generated
page for the decoded text (or the JSON viewer's page), never the response itself. -/
theorem C29_route (e : Ext) (f : Fetched) (p : Policy) (m : Meta) (peek body : Bytes) (s : Source)
    (hf : f.Has m peek body) (hr : route e .document f p = .mainDocument s)
    (hk : (route e .document f p).kind = .generatedPage) :
    s = .generated (textPage (e.lossy body)) ∨ ∃ v, e.parseJson body = some v ∧ s = .generated (jsonPage v) := by
  rw [route_has e .document f p m peek body hf] at hr hk
  unfold routeDecided at hr hk
  revert hr hk
  generalize (decideHandling e m .document peek p) = o
  obtain ⟨cls, sn, de, att, dec⟩ := o
  intro hr hk
  cases dec with
  | render t => cases t <;> simp [Routed.kind] at hk
  | download =>
    simp only at hr hk
    split at hr
    · simp only [Routed.mainDocument.injEq] at hr
      subst hr
      unfold textualPage
      split
      · cases hj : e.parseJson body with
        | none => exact Or.inl rfl
        | some v => exact Or.inr ⟨v, rfl, rfl⟩
      · exact Or.inl rfl
    · cases hr

example : (route exExt .document (.buffered (mkMeta [("content-type", "text/plain"),
    ("x-content-type-options", "nosniff")]) (ascii "<script>")) Policy.default).kind = .generatedPage := by
  decide +kernel

end Verif.Decision
