import Verif.TreeBuild.Spec3
import Verif.TreeBuild.Props2
import Verif.HtmlTok.Raw

/-!
# C107: the tokenizer reads the text of a page
-/
namespace Verif.TreeBuild
open Verif
open Verif.HtmlTok (print Printable flush Goes RawKind ready_tag ready_text start_run raw_text raw_end go_rcdata noNul_id noNul
  emit_run NoEndTag escape)

/-- the end tag after raw text -/
theorem raw_close {env : HtmlTok.Env} {n : Str} (k : RawKind) (p : HtmlTok.Parser) {got : List Token} (hg : .eof ∉ got) (h0 : n ≠ [])
    (hn : ∀ c ∈ n, 'a' ≤ c ∧ c ≤ 'z') (rest co : Str) (cur : Option Token) (tmp : Str) :
    ∃ r', Goes env p ⟨HtmlTok.At k.base ('<' :: '/' :: (n ++ '>' :: rest)) co cur tmp n, got⟩ r' ∧
      HtmlTok.Ready [] rest (got ++ flush co ++ [.endTag n]) r' := by
  have ha : ∀ c ∈ n, HtmlTok.isAlpha c = true := fun c hc => HtmlTok.lower_alpha (hn c hc)
  have hl : n.map HtmlTok.toLower = n := by
    conv_rhs => rw [← List.map_id n]
    refine List.map_congr_left fun c hc => ?_
    have hu : HtmlTok.isUpper c = false := by
      have := (hn c hc).1
      rw [Char.le_def, UInt32.le_iff_toNat_le] at this
      have h97 : 97 ≤ c.toNat := this
      simp [HtmlTok.isUpper]
      omega
    simp [HtmlTok.toLower, hu]
  have h1 := raw_end (env := env) (n := n) (p.foreign got) k h0 ha ('>' :: rest) co cur tmp
  rw [hl] at h1
  have h2 : HtmlTok.step env (p.foreign got) (HtmlTok.At k.en ('>' :: rest) co (some (.endTag n)) n n) =
      ⟨rest, .data, [], [], [], [], none, n, flush co ++ [.endTag n], []⟩ := by
    by_cases hco : co = [] <;> cases k <;>
      simp [RawKind.en, HtmlTok.step, HtmlTok.Tok.endTagNameIn, HtmlTok.isWs, HtmlTok.Tok.appropriate, HtmlTok.Tok.endName,
        HtmlTok.Tok.adv, HtmlTok.Tok.emitCur, HtmlTok.Tok.emit, flush, hco]
  exact ⟨_, emit_run hg h1 rfl h2, _, _, _, rfl⟩

theorem writeAll_one (v : Str) : writeAll [.text v] = escape false v := by
  unfold writeAll Tree.write writeAll
  rw [List.append_nil]; rfl

theorem write_elem {n : Str} {as : Attrs} {kids : List Tree} (hv : n ∉ voids) : (Tree.elem n as kids).write =
    print (.startTag n false as) ++
      ((if n ∈ texts ∧ n ≠ "title".toList then plainText kids else writeAll kids) ++ print (.endTag n)) := by
  conv_lhs => unfold Tree.write
  exact congrArg (print (.startTag n false as) ++ ·) (if_neg hv)

theorem print_end (n rest : Str) : print (.endTag n) ++ rest = '<' :: '/' :: (n ++ '>' :: rest) := by
  show ['<', '/'] ++ n ++ ['>'] ++ rest = _
  rw [List.append_assoc, List.append_assoc]; rfl

theorem plainText_one (v : Str) : plainText [.text v] = v := by
  unfold plainText plainText
  rw [List.append_nil]

section
variable {tenv : HtmlTok.Env} (hE : tenv.names = CharRef.tokenNamedChars) (p : HtmlTok.Parser) {all : List Token} (hall : .eof ∉ all)
  (hs : ∀ g t, g ++ [t] <+: all → p.switch (g ++ [t]) = asks t)

include hE hall hs

theorem tag_print {k : Token} (hk : Printable k) (ht : ∀ s, k ≠ .text s) (ha : asks k = none) {got : List Token} {co rest : Str}
    {r : HtmlTok.Run} (hp : got ++ flush co ++ [k] <+: all) (hr : HtmlTok.Ready co (print k ++ rest) got r) :
    ∃ r', Goes tenv p r r' ∧ HtmlTok.Ready [] rest (got ++ flush co ++ [k]) r' :=
  ready_tag hE p (fun h => hall (hp.subset (by simp [h]))) hk ht hr (by rw [hs _ _ hp, ha])

/-- an element with nothing but text -/
theorem raw_print {n : Str} (hn : n ∈ texts) {as : Attrs} {kids : List Tree} (hk : OnlyText kids)
    (hw : Tree.Writable (.elem n as kids)) {got : List Token} {co rest : Str} {r : HtmlTok.Run}
    (hp : got ++ flush co ++ (Tree.elem n as kids).tokens <+: all) (hr : HtmlTok.Ready co ((Tree.elem n as kids).write ++ rest) got r) :
    ∃ r', Goes tenv p r r' ∧ HtmlTok.Ready [] rest (got ++ flush co ++ (Tree.elem n as kids).tokens) r' := by
  obtain ⟨_, _, hv⟩ := texts_plain hn
  unfold Tree.Writable at hw
  obtain ⟨hw1, hw2, _⟩ := hw
  have hw2 := hw2 hn
  have hlow : ∀ m ∈ texts, m ≠ [] ∧ ∀ c ∈ m, 'a' ≤ c ∧ c ≤ 'z' := by decide +kernel
  obtain ⟨h0, hl⟩ := hlow n hn
  -- the text, and what is written for it
  obtain ⟨v, hv1, hv2, hv3⟩ : ∃ v, flush v = allTokens kids ∧ RawOk n v ∧
      (if n ∈ texts ∧ n ≠ "title".toList then plainText kids else writeAll kids) =
        if n = "title".toList then escape false v else v := by
    rcases hk with rfl | ⟨v, hv0, rfl⟩
    · refine ⟨[], rfl, ⟨by simp, fun _ a w d b h => ?_, fun _ h => ?_⟩, ?_⟩
      · simp at h
      · have := h.length_le; simp at this
      · by_cases ht : n = "title".toList
        · rw [if_neg (show ¬ (n ∈ texts ∧ n ≠ "title".toList) from fun h => h.2 ht), if_pos ht]; rfl
        · rw [if_pos ⟨hn, ht⟩, if_neg ht]; rfl
    · refine ⟨v, by simp [flush, hv0, allTokens, Tree.tokens], hw2 v (by simp), ?_⟩
      by_cases ht : n = "title".toList
      · exact (if_neg (show ¬ (n ∈ texts ∧ n ≠ "title".toList) from fun h => h.2 ht)).trans ((writeAll_one v).trans (if_pos ht).symm)
      · exact (if_pos ⟨hn, ht⟩).trans ((plainText_one v).trans (if_neg ht).symm)
  have etok : (Tree.elem n as kids).tokens = .startTag n false as :: (flush v ++ [.endTag n]) := by
    rw [hv1]; unfold Tree.tokens; rw [if_neg hv]
  have ewr : (Tree.elem n as kids).write ++ rest = print (.startTag n false as) ++
      ((if n = "title".toList then escape false v else v) ++ '<' :: '/' :: (n ++ '>' :: rest)) := by
    rw [write_elem hv, hv3, List.append_assoc, List.append_assoc, print_end]
  rw [ewr] at hr
  rw [etok] at hp ⊢
  have hp1 : got ++ flush co ++ [.startTag n false as] <+: all :=
    List.IsPrefix.trans ⟨flush v ++ [.endTag n], by simp⟩ hp
  have hg : .eof ∉ got := fun h => hall (hp.subset (by simp [h]))
  have hg1 : .eof ∉ got ++ flush co ++ [.startTag n false as] := fun h => hall (hp1.subset h)
  obtain ⟨tmp, g1⟩ := start_run hE p hg hw1.1 hw1.2.1 hw1.2.2 hr
  have hsw := hs _ _ hp1
  have hc : ∃ k : RawKind, contentOf n = some k.content ∧ (n = "title".toList → k = .rcdata) ∧ (n ≠ "title".toList → k.Ok v) := by
    by_cases ht : n = "title".toList
    · exact ⟨.rcdata, by rw [ht]; decide +kernel, fun _ => rfl, fun h => absurd ht h⟩
    · by_cases ht' : n = "script".toList
      · exact ⟨.script, by rw [ht']; decide +kernel, fun h => absurd h ht, fun _ => hv2.2.2 ht'⟩
      · refine ⟨.rawtext, ?_, fun h => absurd h ht, fun _ => trivial⟩
        unfold contentOf; rw [if_neg ht, if_neg ht', if_pos hn]; rfl
  obtain ⟨k, hk1, hk2, hk3⟩ := hc
  have e1 : k.content.state = k.base := by cases k <;> rfl
  rw [show asks (.startTag n false as) = some k.content from hk1] at hsw
  simp only [HtmlTok.afterToken, hsw, Option.elim_some, e1] at g1
  have hnn : noNul v = v := noNul_id hv2.1
  have g2 : ∃ cur' tmp', HtmlTok.TGo tenv (p.foreign (got ++ flush co ++ [.startTag n false as]))
      (HtmlTok.At k.base ((if n = "title".toList then escape false v else v) ++ '<' :: '/' :: (n ++ '>' :: rest)) [] none tmp n)
      (HtmlTok.At k.base ('<' :: '/' :: (n ++ '>' :: rest)) v cur' tmp' n) := by
    by_cases ht : n = "title".toList
    · rw [if_pos ht]
      obtain rfl := hk2 ht
      obtain ⟨tmp', h⟩ := go_rcdata hE (p.foreign (got ++ flush co ++ [.startTag n false as])) v ('<' :: '/' :: (n ++ '>' :: rest)) [] none tmp n
      rw [hnn] at h
      exact ⟨_, tmp', h⟩
    · rw [if_neg ht]
      obtain ⟨cur', tmp', h⟩ := raw_text (env := tenv) (p.foreign (got ++ flush co ++ [.startTag n false as])) k (n := n) (n ++ '>' :: rest)
        v.length v [] none tmp (Nat.le_refl _) (hv2.2.1 ht) (hk3 ht)
      rw [hnn] at h
      exact ⟨cur', tmp', h⟩
  obtain ⟨cur', tmp', g2⟩ := g2
  obtain ⟨r', g3, h3⟩ := raw_close (env := tenv) k p hg1 h0 hl rest v cur' tmp'
  exact ⟨r', (g1.trans (g2.goes hg1)).trans g3, by simpa using h3⟩

theorem text_print {v : Str} (hv : v ≠ []) {got : List Token} {rest : Str} {r : HtmlTok.Run} (hp : got ++ [.text v] <+: all)
    (hr : HtmlTok.Ready [] ((Tree.text v).write ++ rest) got r) :
    ∃ r', Goes tenv p r r' ∧ HtmlTok.Ready v rest got r' := by
  unfold Tree.write at hr
  obtain ⟨r', h1, h2⟩ := ready_text hE p (fun h => hall (hp.subset (by simp [h]))) (s := v) hr
  exact ⟨r', h1, by simpa using h2⟩

/-- the text of a tree is read: what has been handed out, together with what is held back, is its tokens -/
def Prints (t : Tree) : Prop := ∀ (got : List Token) (co rest : Str) (r : HtmlTok.Run), (t.isText = true → co = []) →
  got ++ flush co ++ t.tokens <+: all → HtmlTok.Ready co (t.write ++ rest) got r →
  ∃ r' got' co', Goes tenv p r r' ∧ HtmlTok.Ready co' rest got' r' ∧ got' ++ flush co' = got ++ flush co ++ t.tokens ∧
    (t.isText = false → co' = [])

def AllPrint (ts : List Tree) : Prop := ∀ (got : List Token) (co rest : Str) (r : HtmlTok.Run), (∀ u ∈ ts.head?, u.isText = true → co = []) →
  got ++ flush co ++ allTokens ts <+: all → HtmlTok.Ready co (writeAll ts ++ rest) got r →
  ∃ r' got' co', Goes tenv p r r' ∧ HtmlTok.Ready co' rest got' r' ∧ got' ++ flush co' = got ++ flush co ++ allTokens ts

theorem elem_print {n : Str} {as : Attrs} {kids : List Tree} (hv : n ∉ voids) (ht : n ∉ texts) (hw : Printable (.startTag n false as))
    (ih : AllPrint (tenv := tenv) p (all := all) kids) : Prints (tenv := tenv) p (all := all) (.elem n as kids) := by
  intro got co rest r _ hp hr
  have etok : (Tree.elem n as kids).tokens = .startTag n false as :: (allTokens kids ++ [.endTag n]) := by
    unfold Tree.tokens; rw [if_neg hv]
  have ewr : (Tree.elem n as kids).write ++ rest = print (.startTag n false as) ++ (writeAll kids ++ (print (.endTag n) ++ rest)) := by
    rw [write_elem hv, if_neg (show ¬ (n ∈ texts ∧ n ≠ "title".toList) from fun h => ht h.1), List.append_assoc, List.append_assoc]
  rw [ewr] at hr
  rw [etok] at hp ⊢
  have hp1 : got ++ flush co ++ [.startTag n false as] <+: all :=
    List.IsPrefix.trans ⟨allTokens kids ++ [.endTag n], by simp⟩ hp
  obtain ⟨r1, g1, h1⟩ := tag_print hE p hall hs hw (by simp) (contentOf_none ht) hp1 hr
  have hp2 : got ++ flush co ++ [.startTag n false as] ++ flush [] ++ allTokens kids <+: all :=
    List.IsPrefix.trans ⟨[.endTag n], by simp [flush]⟩ hp
  obtain ⟨r2, got2, co2, g2, h2, e2⟩ := ih _ [] _ r1 (fun _ _ _ => rfl) hp2 h1
  have e2' : got2 ++ flush co2 ++ [.endTag n] = got ++ flush co ++ .startTag n false as :: (allTokens kids ++ [.endTag n]) := by
    rw [e2]; simp [flush]
  obtain ⟨r3, g3, h3⟩ := tag_print hE p hall hs (k := .endTag n) hw.1 (by simp) rfl (by rw [e2']; exact hp) h2
  exact ⟨r3, _, [], (g1.trans g2).trans g3, h3, by rw [e2']; simp [flush], fun _ => rfl⟩

theorem void_print {n : Str} {as : Attrs} (hv : n ∈ voids) (hw : Printable (.startTag n false as)) :
    Prints (tenv := tenv) p (all := all) (.elem n as []) := by
  intro got co rest r _ hp hr
  have etok : (Tree.elem n as []).tokens = [.startTag n false as] := by
    unfold Tree.tokens; rw [if_pos hv]
  have ewr : (Tree.elem n as []).write = print (.startTag n false as) := by
    unfold Tree.write
    rw [if_pos hv, List.append_nil]
  rw [ewr] at hr
  rw [etok] at hp ⊢
  obtain ⟨r1, g1, h1⟩ := tag_print hE p hall hs hw (by simp) (contentOf_none (voids_texts hv)) hp hr
  exact ⟨r1, _, [], g1, h1, by simp [flush], fun _ => rfl⟩

mutual
theorem tree_print : ∀ (t : Tree) {w : Where} {above : List Str}, Fits w above t → t.Writable →
    Prints (tenv := tenv) p (all := all) t
  | .comment v, _, _, _, hw => by
    intro got co rest r _ hp hr
    unfold Tree.Writable at hw
    unfold Tree.write at hr
    unfold Tree.tokens at hp ⊢
    obtain ⟨r1, g1, h1⟩ := tag_print hE p hall hs (k := .comment v) hw (by simp) rfl hp hr
    exact ⟨r1, _, [], g1, h1, by simp [flush], fun _ => rfl⟩
  | .text v, _, _, hf, _ => by
    intro got co rest r hc hp hr
    unfold Fits at hf
    obtain rfl := hc rfl
    have hp' : got ++ [.text v] <+: all := by unfold Tree.tokens at hp; simpa [flush] using hp
    obtain ⟨r1, g1, h1⟩ := text_print hE p hall hs hf.1 hp' hr
    exact ⟨r1, got, v, g1, h1, by simp [flush, hf.1, Tree.tokens], fun h => by simp [Tree.isText] at h⟩
  | .elem n as kids, w, above, hf, hw => by
    have hw0 := hw
    unfold Tree.Writable at hw
    have text : n ∈ texts → OnlyText kids → Prints (tenv := tenv) p (all := all) (.elem n as kids) := by
      intro h1 h2 got co rest r _ hp hr
      obtain ⟨r1, g1, e1⟩ := raw_print hE p hall hs h1 h2 hw0 hp hr
      exact ⟨r1, _, [], g1, e1, by simp [flush], fun _ => rfl⟩
    have void : n ∈ voids → kids = [] → Prints (tenv := tenv) p (all := all) (.elem n as kids) := by
      rintro h1 rfl
      exact void_print hE p hall hs h1 hw.1
    have rest : ∀ {w'}, n ∉ voids → n ∉ texts → AllFit w' (n :: above) kids → Prints (tenv := tenv) p (all := all) (.elem n as kids) :=
      fun h1 h2 h3 => elem_print hE p hall hs h1 h2 hw.1 (trees_print kids h3 hw.2.2)
    unfold Fits at hf
    cases w with
    | flow =>
      rcases hf with ⟨h1, _, h2, _⟩ | ⟨h1, h2, _⟩ | ⟨h1, _, h2⟩ | ⟨h1, h2, _, h3⟩
      · exact void h1 h2
      · exact text h1 h2
      · exact rest (by rw [h1]; decide +kernel) (by rw [h1]; decide +kernel) h2
      · exact rest h1 h2 h3
    | head =>
      rcases hf with ⟨_, ⟨h1, h2⟩ | ⟨h1, h2⟩⟩
      · exact void h1 h2
      · exact text h1 h2
    | table =>
      rcases hf with ⟨h1, h2⟩ | ⟨h1, h2⟩ | ⟨h1, h2⟩
      · exact rest (by rw [h1]; decide +kernel) (by rw [h1]; decide +kernel) h2
      · exact rest (by rw [h1]; decide +kernel) (by rw [h1]; decide +kernel) h2
      · have key : ∀ m ∈ names ["thead", "tbody", "tfoot"], m ∉ voids ∧ m ∉ texts := by decide +kernel
        exact rest (key n h1).1 (key n h1).2 h2
    | rows => exact rest (by rw [hf.1]; decide +kernel) (by rw [hf.1]; decide +kernel) hf.2
    | cells =>
      have key : ∀ m ∈ names ["td", "th"], m ∉ voids ∧ m ∉ texts := by decide +kernel
      exact rest (key n hf.1).1 (key n hf.1).2 hf.2
    | columns => exact void (by rw [hf.1]; decide +kernel) hf.2
theorem trees_print : ∀ (ts : List Tree) {w : Where} {above : List Str}, AllFit w above ts → AllWritable ts →
    AllPrint (tenv := tenv) p (all := all) ts
  | [], _, _, _, _ => by
    intro got co rest r _ hp hr
    exact ⟨r, got, co, ⟨0, rfl⟩, hr, by simp [allTokens]⟩
  | t :: ts, w, above, hf, hw => by
    intro got co rest r hc hp hr
    unfold AllFit at hf
    unfold AllWritable at hw
    unfold allTokens at hp ⊢
    unfold writeAll at hr
    rw [List.append_assoc] at hr
    have hp1 : got ++ flush co ++ t.tokens <+: all := List.IsPrefix.trans ⟨allTokens ts, by simp⟩ hp
    obtain ⟨r1, got1, co1, g1, h1, e1, f1⟩ := tree_print t hf.1 hw.1 got co _ r (hc t (by simp)) hp1 hr
    have hp2 : got1 ++ flush co1 ++ allTokens ts <+: all := by rw [e1, List.append_assoc]; exact hp
    obtain ⟨r2, got2, co2, g2, h2, e2⟩ := trees_print ts hf.2.1 hw.2 got1 co1 rest r1
      (fun u hu hx => f1 (by
        cases ht : t.isText with
        | false => rfl
        | true => exact absurd ⟨ht, hx⟩ (hf.2.2 u hu))) hp2 h1
    exact ⟨r2, got2, co2, g1.trans g2, h2, by rw [e2, e1, List.append_assoc]⟩
end

end

end Verif.TreeBuild
