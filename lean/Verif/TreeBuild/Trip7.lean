import Verif.TreeBuild.Trip6

/-!
# C106: elements without content, elements with text only, and the parts of tables
-/
namespace Verif.TreeBuild
open Verif Verif.Dom

/-! ## Elements without content -/

theorem head_void (env : Env) {s : St} {above : List Str} (h : Inside s above) {n : Str} (as : Attrs) (hn : n ∈ inTheHead) (hv : n ∈ voids) :
    ∃ d1, inHead env (.startTag n false as) s = some (.done, { s with doc := d1 }) ∧ Added s.doc d1 (current s) (elementData n htmlNs as) := by
  obtain ⟨d1, e1, hA⟩ := insertVoid_new h n as
  refine ⟨d1, ?_, hA⟩
  have key : ∀ m ∈ inTheHead, m ∈ voids → is m "html" = false ∧ (oneOf m ["base", "basefont", "bgsound", "link"] = true ∨
      (oneOf m ["base", "basefont", "bgsound", "link"] = false ∧ is m "meta" = true)) := by decide +kernel
  obtain ⟨h1, h2 | ⟨h2, h3⟩⟩ := key n hn hv
  · simp only [inHead, h1, h2, Bool.false_eq_true, if_false, if_true]
    exact fin_some e1
  · simp only [inHead, h1, h2, h3, Bool.false_eq_true, if_false, if_true]
    exact fin_some e1

theorem flow_void {env : Env} {s : St} {above : List Str} (h : Inside s above) (hA : At s .flow) {n : Str} (as : Attrs) (hv : n ∈ voids)
    (hc : n ≠ "col".toList) (hp : n ∈ closesP → "p".toList ∉ above) : Result env s (.elem n as []) := by
  have hb : oneOf n cellBreakers = false := by
    have key : ∀ m ∈ voids, m ≠ "col".toList → oneOf m cellBreakers = false := by decide +kernel
    exact key n hv hc
  have key : ∀ m ∈ voids, m ≠ "col".toList → m ∈ inTheHead ∨ m ∈ names ["area", "br", "embed", "img", "keygen", "wbr"] ∨
      m = "input".toList ∨ m ∈ names ["param", "source", "track"] ∨ m = "hr".toList := by decide +kernel
  obtain ⟨d1, e1, hA1⟩ := insertVoid_new h.hush n as
  have done : ∀ {m : M Next} {b : Bool}, inBodyStart env n false as = m → m (hush s) = some (.done, { hush s with doc := d1, framesetOk := b }) →
      Result env s (.elem n as []) := by
    intro m b h1 h2
    refine empty h hv (s' := { hush s with doc := d1, framesetOk := b }) ?_ hA1 ⟨b, rfl⟩
    rw [flow_start hA.1 hb, h1]
    exact h2
  rcases key n hv hc with hn | hn | hn | hn | hn
  · obtain ⟨d2, e2, hA2⟩ := head_void env h.hush as hn hv
    refine empty h hv ?_ hA2 ⟨s.framesetOk, rfl⟩
    rw [flow_start hA.1 hb, start_head env false as hn]
    exact e2
  · refine done (b := false) (start_image env false as hn) (fin_some ?_)
    rw [bind_some h.hush.rebuilt, bind_some e1]; rfl
  · subst hn
    cases hh : notHidden as with
    | true =>
      refine done (b := false) (start_input env false as) (fin_some ?_)
      rw [bind_some h.hush.rebuilt, bind_some e1, hh]; rfl
    | false =>
      refine done (b := s.framesetOk) (start_input env false as) (fin_some ?_)
      rw [bind_some h.hush.rebuilt, bind_some e1, hh]; rfl
  · exact done (b := s.framesetOk) (start_source env false as hn) (fin_some e1)
  · subst hn
    refine done (b := false) (start_hr env false as) (fin_some ?_)
    rw [bind_some (h.hush.noP (hp (by decide +kernel))), bind_some e1]; rfl

/-! ## Elements with text only -/

/-- the state in which the text of such an element is read -/
def rawState (s : St) (d1 : Doc) (b : Bool) (c : Content) : St :=
  { opening (hush s) d1 with framesetOk := b, switch := some c, original := s.mode, mode := .text }

theorem texts_plain {n : Str} (h : n ∈ texts) : n ≠ "form".toList ∧ n ≠ "template".toList ∧ n ∉ voids := by
  have key : ∀ m ∈ texts, m ≠ "form".toList ∧ m ≠ "template".toList ∧ m ∉ voids := by decide +kernel
  exact key n h

theorem new_noText {s s1 : St} {n : Str} {as : Attrs} {p : Nat} (hA : Added s.doc s1.doc p (elementData n htmlNs as))
    (ho : s1.opened = s.doc.nextId :: s.opened) : NoText s1 := by
  intro i hi
  have : children s1.doc (current s1) = [] := by
    unfold current children
    rw [ho]
    show ((nodeAt s1.doc s.doc.nextId).map _).getD [] = []
    rw [hA.new]; rfl
  rw [this] at hi; cases hi

theorem raw {env : Env} {s : St} {above : List Str} (h : Inside s above) {n : Str} {as : Attrs} (hn : n ∈ texts) {kids : List Tree}
    (hk : OnlyText kids) {d1 : Doc} {b : Bool} {c : Content} (hA : Added s.doc d1 (current s) (elementData n htmlNs as))
    (hc : contentOf n = some c) (hm : byMode env s.mode (.startTag n false as) (hush s) = some (.done, rawState s d1 b c)) : Result env s (.elem n as kids) := by
  obtain ⟨hf, ht, hv⟩ := texts_plain hn
  have hR : Inside (rawState s d1 b c) (n :: above) := h.push (s' := rawState s d1 b c) ⟨rfl, rfl, rfl, rfl, rfl, rfl, rfl⟩ hA rfl
    (h.act.trans (List.sublist_cons_self _ _)) (fun _ => rfl) ht
  have hN : NoText (rawState s d1 b c) := new_noText (s := s) (s1 := rawState s d1 b c) hA rfl
  have r1 : Reads env s [.startTag n false as] (rawState s d1 b c) := read_done h.isPlain hm ⟨h.queue, hc.symm⟩
  have fin : ∀ {d2 : Doc} {new : List Nat}, Reads env (rawState s d1 b c) (allTokens kids) { hush (rawState s d1 b c) with doc := d2 } ∨
      Reads env (rawState s d1 b c) (allTokens kids) (rawState s d1 b c) ∧ d2 = d1 →
      Grow d1 d2 s.doc.nextId new → TreesFrom d2 d1.nextId new kids → Result env s (.elem n as kids) := by
    intro d2 new r2 hg htr
    rcases r2 with r2 | ⟨r2, rfl⟩
    · have hR2 : Inside { hush (rawState s d1 b c) with doc := d2 } (n :: above) :=
        hR.grow ⟨rfl, rfl, rfl, rfl, rfl, rfl, rfl⟩ rfl rfl (List.Sublist.refl _) hg
      exact nest h hv (s3 := { hush (rawState s d1 b c) with doc := d2, opened := s.opened, mode := s.mode }) r1 hA r2 hg htr
        (read_done hR2.isPlain rfl ⟨h.queue, rfl⟩) ⟨rfl, rfl, rfl, rfl, rfl, rfl, rfl⟩ rfl rfl rfl rfl (Trim.refl _)
    · exact nest h hv (s3 := { hush (rawState s d2 b c) with opened := s.opened, mode := s.mode }) r1 hA r2 hg htr
        (read_done hR.isPlain rfl ⟨h.queue, rfl⟩) ⟨rfl, rfl, rfl, rfl, rfl, rfl, rfl⟩ rfl rfl rfl rfl (Trim.refl _)
  rcases hk with rfl | ⟨v, hv0, rfl⟩
  · exact fin (Or.inr ⟨Reads.refl _ _, rfl⟩) (Grow.refl hA.arena _) (show TreesFrom d1 d1.nextId [] [] from rfl)
  · obtain ⟨d2, e2, hA2⟩ := insertText_new hR.hush (show NoText (hush (rawState s d1 b c)) from hN) hv0
    have hg : Grow d1 d2 s.doc.nextId [d1.nextId] := hA2.grow
    refine fin (Or.inl ?_) hg ⟨_, _, rfl, leaf_text hA2, rfl⟩
    exact read_done hR.isPlain (fin_some e2) ⟨h.queue, rfl⟩

theorem head_raw (env : Env) {s : St} {above : List Str} (h : Inside s above) {n : Str} (as : Attrs) (hn : n ∈ inTheHead) (ht : n ∈ texts) :
    ∃ d1 c, inHead env (.startTag n false as) (hush s) = some (.done, rawState s d1 s.framesetOk c) ∧ contentOf n = some c ∧
      Added s.doc d1 (current s) (elementData n htmlNs as) := by
  obtain ⟨d1, e1, hA⟩ := insert_new h.hush n as
  have key : ∀ m ∈ inTheHead, m ∈ texts → is m "html" = false ∧ oneOf m ["base", "basefont", "bgsound", "link"] = false ∧
      is m "meta" = false ∧ is m "noscript" = false ∧ (is m "title" = true ∧ contentOf m = some .rcdata ∨
      (is m "title" = false ∧ oneOf m ["noframes", "style"] = true ∧ contentOf m = some .rawtext) ∨
      (is m "title" = false ∧ oneOf m ["noframes", "style"] = false ∧ is m "script" = true ∧ contentOf m = some .script)) := by decide +kernel
  obtain ⟨h1, h2, h3, h4, ⟨h5, hc⟩ | ⟨h5, h6, hc⟩ | ⟨h5, h6, h7, hc⟩⟩ := key n hn ht
  · refine ⟨d1, .rcdata, ?_, hc, hA⟩
    simp only [inHead, h1, h2, h3, h4, h5, Bool.false_and, Bool.false_eq_true, if_false, if_true]
    unfold rcData
    apply fin_some; rw [bind_some e1]; rfl
  · refine ⟨d1, .rawtext, ?_, hc, hA⟩
    simp only [inHead, h1, h2, h3, h4, h5, h6, Bool.false_and, Bool.false_eq_true, if_false, if_true]
    unfold rawData
    apply fin_some; rw [bind_some e1]; rfl
  · refine ⟨d1, .script, ?_, hc, hA⟩
    simp only [inHead, h1, h2, h3, h4, h5, h6, h7, Bool.false_and, Bool.false_eq_true, if_false, if_true]
    apply fin_some; rw [bind_some e1]; rfl

theorem flow_raw {env : Env} {s : St} {above : List Str} (h : Inside s above) (hA : At s .flow) {n : Str} (as : Attrs) (hn : n ∈ texts)
    {kids : List Tree} (hk : OnlyText kids) (hp : n ∈ closesP → "p".toList ∉ above) : Result env s (.elem n as kids) := by
  have hb : oneOf n cellBreakers = false := by
    have key : ∀ m ∈ texts, oneOf m cellBreakers = false := by decide +kernel
    exact key n hn
  have key : ∀ m ∈ texts, m ∈ inTheHead ∨ m = "xmp".toList ∨ m = "iframe".toList ∨ m = "noembed".toList := by decide +kernel
  have h0 : Inside { hush s with framesetOk := false } above :=
    h.grow ⟨rfl, rfl, rfl, rfl, rfl, rfl, rfl⟩ rfl rfl (List.Sublist.refl _) (Grow.refl h.arena 0)
  rcases key n hn with hn' | hn' | hn' | hn'
  · obtain ⟨d1, c, e1, hc, hA1⟩ := head_raw env h as hn' hn
    refine raw h hn hk (b := s.framesetOk) (c := c) hA1 hc ?_
    rw [flow_start hA.1 hb, start_head env false as hn']
    exact e1
  · subst hn'
    obtain ⟨d1, e1, hA1⟩ := insert_new h0 "xmp".toList as
    refine raw h hn hk (b := false) (c := .rawtext) hA1 (by decide +kernel) ?_
    rw [flow_start hA.1 hb, start_xmp]
    apply fin_some
    rw [bind_some (h.hush.noP (hp (by decide +kernel))), bind_some h.hush.rebuilt]
    rw [bind_some (a := ()) (s' := { hush s with framesetOk := false }) rfl]
    unfold rawData
    rw [bind_some e1]; rfl
  · subst hn'
    obtain ⟨d1, e1, hA1⟩ := insert_new h0 "iframe".toList as
    refine raw h hn hk (b := false) (c := .rawtext) hA1 (by decide +kernel) ?_
    rw [flow_start hA.1 hb, start_iframe]
    apply fin_some
    rw [bind_some (a := ()) (s' := { hush s with framesetOk := false }) rfl]
    unfold rawData
    rw [bind_some e1]; rfl
  · subst hn'
    obtain ⟨d1, e1, hA1⟩ := insert_new h.hush "noembed".toList as
    refine raw h hn hk (b := s.framesetOk) (c := .rawtext) hA1 (by decide +kernel) ?_
    rw [flow_start hA.1 hb, start_noembed]
    apply fin_some
    unfold rawData
    rw [bind_some e1]; rfl

/-! ## The head -/

theorem head_string {env : Env} {s : St} {above : List Str} (h : Inside s above) (hA : At s .head) {v : Str} (hv : v ≠ [])
    (hb : Blank v) (hN : NoText s) : Result env s (.text v) := by
  obtain ⟨d1, e1, hA1⟩ := insertText_new h.hush (show NoText (hush s) from hN) hv
  have hw : ∀ c ∈ v, isWhite c = true ∧ c ≠ nul := by
    intro c hc
    have key : ∀ c ∈ [' ', '\t', '\n', '\x0C', '\r'], isWhite c = true ∧ c ≠ nul := by decide +kernel
    exact key c (hb c hc)
  have h1 : v.any (fun c => decide (c = nul)) = false := by
    rw [List.any_eq_false]; intro c hc; simp [(hw c hc).2]
  have h2 : v.any (fun c => !isWhite c && decide (c ≠ nul)) = false := by
    rw [List.any_eq_false]; intro c hc; simp [(hw c hc).1]
  have h3 : isMixed v = false := by
    unfold isMixed
    simp only [h1, h2]
    cases v.any isWhite <;> rfl
  have h4 : isBlank v = true := by
    unfold isBlank; rw [List.all_eq_true]; exact fun c hc => (hw c hc).1
  refine ⟨{ hush s with doc := d1 }, s.doc.nextId, read_done h.isPlain ?_ ⟨h.queue, rfl⟩, ⟨⟨rfl, rfl, rfl, rfl, rfl, rfl, rfl⟩, rfl, rfl, rfl, Trim.refl _, hA1.grow⟩,
    leaf_text hA1⟩
  rw [show s.mode = .inHead from hA]
  show (if isMixed v then _ else if isBlank v then _ else _ : M Next) (hush s) = _
  rw [h3, h4, if_neg (by simp), if_pos rfl]
  exact fin_some e1

theorem head_elem {env : Env} {s : St} {above : List Str} (h : Inside s above) (hA : At s .head) {n : Str} (as : Attrs) (hn : n ∈ inTheHead)
    {kids : List Tree} (hk : (n ∈ voids ∧ kids = []) ∨ (n ∈ texts ∧ OnlyText kids)) : Result env s (.elem n as kids) := by
  rcases hk with ⟨hv, rfl⟩ | ⟨ht, hk⟩
  · obtain ⟨d1, e1, hA1⟩ := head_void env h.hush as hn hv
    refine empty h hv ?_ hA1 ⟨s.framesetOk, rfl⟩
    rw [show s.mode = .inHead from hA]
    exact e1
  · obtain ⟨d1, c, e1, hc, hA1⟩ := head_raw env h as hn ht
    refine raw h ht hk (b := s.framesetOk) (c := c) hA1 hc ?_
    rw [show s.mode = .inHead from hA]
    exact e1

end Verif.TreeBuild
