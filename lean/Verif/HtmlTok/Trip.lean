import Verif.HtmlTok.Props

/-!
# Stretches of input, and what the tokenizer makes of them
-/

namespace Verif.HtmlTok

open Relation (ReflTransGen)

/-- rounds of the tokenizer's loop that hand out nothing -/
def TGo (env : Env) (f : Bool) : Tok → Tok → Prop := ReflTransGen fun a b => a.queue = [] ∧ b = step env f a

theorem TGo.rfl' {env : Env} {f : Bool} (t : Tok) : TGo env f t t := ReflTransGen.refl

theorem TGo.one {env : Env} {f : Bool} {t t' : Tok} (hq : t.queue = []) (h : step env f t = t') : TGo env f t t' :=
  .single ⟨hq, h.symm⟩

theorem TGo.head {env : Env} {f : Bool} {t t' t'' : Tok} (hq : t.queue = []) (h : step env f t = t') (h' : TGo env f t' t'') :
    TGo env f t t'' := ReflTransGen.head ⟨hq, h.symm⟩ h'

theorem TGo.trans {env : Env} {f : Bool} {t t' t'' : Tok} (h : TGo env f t t') (h' : TGo env f t' t'') : TGo env f t t'' :=
  ReflTransGen.trans h h'

/-- runs -/
def Goes (env : Env) (p : Parser) (r r' : Run) : Prop := ∃ n, (Run.step env p)^[n] r = r'

theorem Goes.refl {env : Env} {p : Parser} (r : Run) : Goes env p r r := ⟨0, rfl⟩

theorem Goes.trans {env : Env} {p : Parser} {r r' r'' : Run} (h : Goes env p r r') (h' : Goes env p r' r'') : Goes env p r r'' := by
  obtain ⟨n, rfl⟩ := h
  obtain ⟨m, rfl⟩ := h'
  exact ⟨m + n, Function.iterate_add_apply _ _ _ _⟩

theorem Goes.one {env : Env} {p : Parser} {r r' : Run} (h : r.step env p = r') : Goes env p r r' := ⟨1, h⟩

theorem TGo.goes {env : Env} {p : Parser} {got : List Token} {t t' : Tok} (hg : .eof ∉ got) (h : TGo env (p.foreign got) t t') :
    Goes env p ⟨t, got⟩ ⟨t', got⟩ := by
  induction h with
  | refl => exact .refl _
  | tail _ hs ih =>
    obtain ⟨hq, rfl⟩ := hs
    refine ih.trans (.one ?_)
    unfold Run.step
    rw [not_done hg]
    simp [hq]

/-- the queue is handed out -/
theorem goes_queue {env : Env} {p : Parser} {got : List Token} {s : Str} {k : Token} {t : Tok} (hg : .eof ∉ got)
    (hq : t.queue = (if s = [] then [] else [.text s]) ++ [k]) :
    Goes env p ⟨t, got⟩ ⟨{ t with queue := [], state := afterToken p (got ++ (if s = [] then [] else [.text s]) ++ [k]) t.state k },
      got ++ (if s = [] then [] else [.text s]) ++ [k]⟩ := by
  have pop : ∀ (got : List Token) (t : Tok) (k : Token) (q : List Token), .eof ∉ got → t.queue = k :: q →
      Goes env p ⟨t, got⟩ ⟨{ t with queue := q, state := afterToken p (got ++ [k]) t.state k }, got ++ [k]⟩ := by
    intro got t k q hg hq
    refine .one ?_
    unfold Run.step
    rw [not_done hg]
    simp [hq]
  by_cases h : s = []
  · simp only [h, if_true, List.nil_append, List.append_nil] at hq ⊢
    exact pop got t k [] hg hq
  · simp only [h, if_false, List.cons_append, List.nil_append] at hq ⊢
    refine (pop got t (.text s) [k] hg hq).trans ?_
    have := pop (got ++ [.text s]) { t with queue := [k], state := afterToken p (got ++ [.text s]) t.state (.text s) } k []
      (by simp [hg]) rfl
    simpa [afterToken] using this

/-! ## references -/

theorem longest_semi {T : List (Str × Str)} (hT : CharRef.TableOk T) {run v r : Str} (hl : Map.look T (run ++ [';']) = some v) :
    CharRef.Longest T (run ++ [';'] ++ r) (run ++ [';']) v := by
  refine ⟨hl, List.prefix_append _ _, ?_⟩
  intro name v' hm hp
  obtain ⟨w, hw, hal, hn⟩ := hT.shape name v' hm
  have hns : ∀ c ∈ w, c ≠ ';' := by
    intro c hc
    have := hal c hc
    rintro rfl
    revert this
    unfold CharRef.AlphaNum
    decide
  have hwl : w.length ≤ run.length := by
    by_contra hcon
    have hwp : w <+: run ++ [';'] ++ r := by
      rcases hn with rfl | rfl
      · exact hp
      · exact (List.prefix_append w [';']).trans hp
    rw [List.append_assoc] at hwp
    have hrw : run <+: w := List.prefix_of_prefix_length_le (List.prefix_append run _) hwp (by omega)
    obtain ⟨w', rfl⟩ := hrw
    have hw' : w' <+: [';'] ++ r := (List.prefix_append_right_inj run).1 hwp
    cases w' with
    | nil => simp at hcon
    | cons d w' =>
      simp only [List.cons_append, List.nil_append, List.cons_prefix_cons] at hw'
      exact hns d (by simp) hw'.1
  rcases hn with rfl | rfl <;> simp <;> omega

/-- the names used in escaping -/
theorem charRef_named {env : Env} (hT : CharRef.TableOk env.names) {run v : Str}
    (hl : Map.look env.names (run ++ [';']) = some v) (attr : Bool) (r : Str) (s : State) (co an av : Str)
    (as : List (Str × Str)) (cur : Option Token) (tmp : Str) (q : List Token) (ls : Str) :
    Tok.charRef env attr ⟨run ++ [';'] ++ r, s, co, an, av, as, cur, tmp, q, ls⟩ =
      ⟨r, s, if attr then co else co ++ v, an, if attr then av ++ v else av, as, cur, [], q, ls⟩ := by
  have hR : CharRef.Ref env.names attr (run ++ [';'] ++ r) v r :=
    .named (longest_semi hT hl) (fun h => h.2.1 (List.suffix_append _ _))
  obtain ⟨h1, h2, h3⟩ := CharRef.C51_reference_exact env.names hT attr ⟨run ++ [';'] ++ r, co, av⟩ v r hR
  simp only [Tok.charRef, h1, h2, h3]

theorem names_escape : Map.look CharRef.tokenNamedChars "amp;".toList = some ['&'] ∧
    Map.look CharRef.tokenNamedChars "nbsp;".toList = some [Char.ofNat 0xA0] ∧
    Map.look CharRef.tokenNamedChars "lt;".toList = some ['<'] ∧ Map.look CharRef.tokenNamedChars "gt;".toList = some ['>'] ∧
    Map.look CharRef.tokenNamedChars "quot;".toList = some ['"'] := by decide +kernel

/-- an escaped character is either itself or a reference -/
theorem escapeChar_cases (attr : Bool) (c : Char) :
    (escapeChar attr c = [c] ∧ c ≠ '&' ∧ c ≠ '<' ∧ c ≠ '>' ∧ (attr = true → c ≠ '"')) ∨
    ∃ run, escapeChar attr c = '&' :: (run ++ [';']) ∧ 
      Map.look CharRef.tokenNamedChars (run ++ [';']) = some [c] := by
  obtain ⟨h1, h2, h3, h4, h5⟩ := names_escape
  unfold escapeChar
  split_ifs with a1 a2 a3 a4 a5
  · subst a1; exact .inr ⟨"amp".toList, by decide, h1⟩
  · subst a2; exact .inr ⟨"nbsp".toList, by decide, h2⟩
  · subst a3; exact .inr ⟨"lt".toList, by decide, h3⟩
  · subst a4; exact .inr ⟨"gt".toList, by decide, h4⟩
  · obtain ⟨rfl, rfl⟩ := a5; exact .inr ⟨"quot".toList, by decide, h5⟩
  · exact .inl ⟨rfl, a1, a3, a4, fun h h' => a5 ⟨h, h'⟩⟩

section
variable {env : Env} (hE : env.names = CharRef.tokenNamedChars) (f : Bool)
include hE

theorem tableOk : CharRef.TableOk env.names := hE ▸ CharRef.C51_table_ok

/-- escaped text in the data state -/
theorem go_text (s : Str) : ∀ (r co an av : Str) (as : List (Str × Str)) (cur : Option Token) (tmp ls : Str),
    ∃ tmp', TGo env f ⟨escape false s ++ r, .data, co, an, av, as, cur, tmp, [], ls⟩
      ⟨r, .data, co ++ s, an, av, as, cur, tmp', [], ls⟩ := by
  induction s with
  | nil => intro r co an av as cur tmp ls; exact ⟨tmp, by simpa [escape] using TGo.rfl' _⟩
  | cons c s ih =>
    intro r co an av as cur tmp ls
    have e : escape false (c :: s) ++ r = escapeChar false c ++ (escape false s ++ r) := by simp [escape]
    rw [e]
    have e2 : co ++ c :: s = co ++ [c] ++ s := by simp
    rw [e2]
    rcases escapeChar_cases false c with ⟨h, h1, h2, h3, _⟩ | ⟨run, h, hl⟩
    · obtain ⟨tmp', h'⟩ := ih r (co ++ [c]) an av as cur tmp ls
      refine ⟨tmp', TGo.head rfl ?_ h'⟩
      rw [h]
      simp [step, h1, h2, Tok.consume]
    · obtain ⟨tmp', h'⟩ := ih r (co ++ [c]) an av as cur [] ls
      refine ⟨tmp', TGo.head (t' := ⟨run ++ [';'] ++ (escape false s ++ r), .characterReferenceInData, co, an, av, as, cur, tmp, [], ls⟩)
        rfl ?_ (TGo.head rfl ?_ h')⟩
      · rw [h]; simp [step, Tok.adv]
      · rw [← hE] at hl
        simp only [step]
        rw [charRef_named (tableOk hE) hl]
        rfl

/-- an escaped attribute value in double quotes -/
theorem go_value (v : Str) : ∀ (r co an av : Str) (as : List (Str × Str)) (cur : Option Token) (tmp ls : Str), Char.ofNat 0 ∉ v →
    ∃ tmp', TGo env f ⟨escape true v ++ r, .attributeValueDoubleQuoted, co, an, av, as, cur, tmp, [], ls⟩
      ⟨r, .attributeValueDoubleQuoted, co, an, av ++ v, as, cur, tmp', [], ls⟩ := by
  induction v with
  | nil => intro r co an av as cur tmp ls _; exact ⟨tmp, by simpa [escape] using TGo.rfl' _⟩
  | cons c v ih =>
    intro r co an av as cur tmp ls hn
    simp only [List.mem_cons, not_or] at hn
    have e : escape true (c :: v) ++ r = escapeChar true c ++ (escape true v ++ r) := by simp [escape]
    rw [e]
    have e2 : av ++ c :: v = av ++ [c] ++ v := by simp
    rw [e2]
    rcases escapeChar_cases true c with ⟨h, h1, h2, h3, h4⟩ | ⟨run, h, hl⟩
    · obtain ⟨tmp', h'⟩ := ih r co an (av ++ [c]) as cur tmp ls hn.2
      refine ⟨tmp', TGo.head rfl ?_ h'⟩
      rw [h]
      simp [step, h1, h4 rfl, Ne.symm hn.1]
    · obtain ⟨tmp', h'⟩ := ih r co an (av ++ [c]) as cur [] ls hn.2
      refine ⟨tmp', TGo.head rfl ?_ h'⟩
      rw [h]
      rw [← hE] at hl
      have := charRef_named (tableOk hE) hl true (escape true v ++ r) .attributeValueDoubleQuoted co an av as cur tmp [] ls
      simp only [step, List.cons_append]
      rw [if_neg (by decide), if_pos trivial, this]
      rfl

end

/-! ## names -/

section
variable {env : Env} (f : Bool)

theorem nameChar_isWs {c : Char} (h : NameChar c) : isWs c = false := by
  obtain ⟨h, _⟩ := h
  simp only [List.mem_cons, List.not_mem_nil, or_false, not_or] at h
  simp [isWs, h]

theorem nameChar_isUpper {c : Char} (h : NameChar c) : isUpper c = false := by
  obtain ⟨_, _, _, _, h⟩ := h
  simp only [isUpper, Bool.and_eq_false_iff, decide_eq_false_iff_not]
  by_contra hc
  apply h
  simp only [not_or, not_not] at hc
  constructor <;> rw [Char.le_def, UInt32.le_iff_toNat_le]
  · exact hc.1
  · exact hc.2

theorem go_tagName (n : Str) : ∀ (m r co an av : Str) (as : List (Str × Str)) (b : Bool) (tmp ls : Str), (∀ c ∈ n, NameChar c) →
    TGo env f ⟨n ++ r, .tagName, co, an, av, as, some (tagToken b m), tmp, [], ls⟩
      ⟨r, .tagName, co, an, av, as, some (tagToken b (m ++ n)), tmp, [], ls⟩ := by
  induction n with
  | nil => intro m r co an av as b tmp ls _; simpa using TGo.rfl' _
  | cons c n ih =>
    intro m r co an av as b tmp ls h
    have hc := h c (by simp)
    have e2 : m ++ c :: n = m ++ [c] ++ n := by simp
    rw [e2]
    refine TGo.head rfl ?_ (ih (m ++ [c]) r co an av as b tmp ls (fun d hd => h d (by simp [hd])))
    cases b <;>
      simp [step, tagToken, Tok.addName, nameChar_isWs hc, nameChar_isUpper hc, hc.2.1, hc.2.2.1, hc.2.2.2.1]

theorem go_attrName (n : Str) : ∀ (r co an av : Str) (as : List (Str × Str)) (cur : Option Token) (tmp ls : Str),
    (∀ c ∈ n, NameChar c) → '=' ∉ n →
    TGo env f ⟨n ++ r, .attributeName, co, an, av, as, cur, tmp, [], ls⟩ ⟨r, .attributeName, co, an ++ n, av, as, cur, tmp, [], ls⟩ := by
  induction n with
  | nil => intro r co an av as cur tmp ls _ _; simpa using TGo.rfl' _
  | cons c n ih =>
    intro r co an av as cur tmp ls h he
    simp only [List.mem_cons, not_or] at he
    have hc := h c (by simp)
    have e2 : an ++ c :: n = an ++ [c] ++ n := by simp
    rw [e2]
    refine TGo.head rfl ?_ (ih r co (an ++ [c]) av as cur tmp ls (fun d hd => h d (by simp [hd])) he.2)
    simp [step, nameChar_isWs hc, nameChar_isUpper hc, hc.2.1, hc.2.2.1, hc.2.2.2.1, Ne.symm he.1]


/-! ## attributes and tags -/

/-- the attributes stored once the pending one is -/
def stored (as : List (Str × Str)) (an av : Str) : List (Str × Str) :=
  if an ≠ [] ∧ an ∉ as.map (·.1) then as ++ [(an, av)] else as

theorem storeAttr_eq (t : Tok) : t.storeAttr = { t with attrs := stored t.attrs t.attrName t.attrValue, attrName := [], attrValue := [] } :=
  rfl

variable (hE : env.names = CharRef.tokenNamedChars)
include hE

theorem go_attr (k v : Str) (hk0 : k ≠ []) (hk : ∀ c ∈ k, NameChar c) (he : '=' ∉ k) (hv : Char.ofNat 0 ∉ v)
    (r co an av : Str) (as : List (Str × Str)) (cur : Option Token) (tmp ls : Str) :
    ∃ tmp', TGo env f ⟨k ++ ['=', '"'] ++ escape true v ++ ['"'] ++ r, .beforeAttributeName, co, an, av, as, cur, tmp, [], ls⟩
      ⟨r, .afterAttributeValueQuoted, co, k, v, stored as an av, cur, tmp', [], ls⟩ := by
  obtain ⟨tmp', hval⟩ := go_value hE f v ('"' :: r) co k [] (stored as an av) cur tmp ls hv
  refine ⟨tmp', ?_⟩
  have hname := go_attrName (env := env) f k ('=' :: '"' :: (escape true v ++ ('"' :: r))) co [] [] (stored as an av) cur tmp ls hk he
  refine TGo.head (t' := ⟨k ++ ('=' :: '"' :: (escape true v ++ ('"' :: r))), .attributeName, co, [], [], stored as an av, cur, tmp, [], ls⟩)
    rfl ?_ (hname.trans ?_)
  · cases k with
    | nil => exact absurd rfl hk0
    | cons c k =>
      have hc := hk c (by simp)
      simp only [List.mem_cons, not_or] at he
      simp [step, nameChar_isWs hc, hc.2.1, hc.2.2.1, Ne.symm he.1, storeAttr_eq, Tok.goto]
  · refine TGo.head (t' := ⟨'"' :: (escape true v ++ ('"' :: r)), .beforeAttributeValue, co, k, [], stored as an av, cur, tmp, [], ls⟩)
      rfl (by simp [step, Tok.adv, isWs]) ?_
    refine TGo.head (t' := ⟨escape true v ++ ('"' :: r), .attributeValueDoubleQuoted, co, k, [], stored as an av, cur, tmp, [], ls⟩)
      rfl (by simp [step, Tok.adv, isWs]) (hval.trans (TGo.one rfl (by simp [step, Tok.adv])))

/-- the attributes after the first -/
theorem go_attrs (l : List (Str × Str)) : ∀ (r co an av : Str) (as : List (Str × Str)) (cur : Option Token) (tmp ls : Str),
    ((stored as an av ++ l).map (·.1)).Nodup → (∀ a ∈ l, a.1 ≠ [] ∧ ∀ c ∈ a.1, NameChar c) → (∀ a ∈ l, '=' ∉ a.1 ∧ Char.ofNat 0 ∉ a.2) →
    ∃ an' av' as' tmp', TGo env f ⟨l.flatMap printAttr ++ r, .afterAttributeValueQuoted, co, an, av, as, cur, tmp, [], ls⟩
      ⟨r, .afterAttributeValueQuoted, co, an', av', as', cur, tmp', [], ls⟩ ∧ stored as' an' av' = stored as an av ++ l := by
  induction l with
  | nil => intro r co an av as cur tmp ls _ _ _; exact ⟨an, av, as, tmp, by simpa using TGo.rfl' _, by simp⟩
  | cons a l ih =>
    intro r co an av as cur tmp ls hn h1 h2
    obtain ⟨tmp1, g1⟩ := go_attr f hE a.1 a.2 (h1 a (by simp)).1 (h1 a (by simp)).2 (h2 a (by simp)).1 (h2 a (by simp)).2
      (l.flatMap printAttr ++ r) co an av as cur tmp ls
    have hst : stored (stored as an av) a.1 a.2 = stored as an av ++ [a] := by
      rw [stored, if_pos]
      refine ⟨(h1 a (by simp)).1, ?_⟩
      rw [List.map_append, List.map_cons] at hn
      have := (List.nodup_append.1 hn).2.2
      intro hm
      exact this _ hm a.1 (by simp) rfl
    obtain ⟨an', av', as', tmp', g2, hs⟩ := ih r co a.1 a.2 (stored as an av) cur tmp1 ls (by rw [hst]; simpa using hn)
      (fun x hx => h1 x (by simp [hx])) (fun x hx => h2 x (by simp [hx]))
    refine ⟨an', av', as', tmp', TGo.head ?_ ?_ (g1.trans g2), by rw [hs, hst]; simp⟩
    · rfl
    · simp [step, printAttr, isWs, Tok.adv]

/-- where the machine is after a token -/
def Ready (co rest : Str) (got : List Token) (r : Run) : Prop :=
  ∃ cur tmp ls, r = ⟨⟨rest, .data, co, [], [], [], cur, tmp, [], ls⟩, got⟩

end

end Verif.HtmlTok
