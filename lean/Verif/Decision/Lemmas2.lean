import Verif.Decision.Lemmas

namespace Verif.Decision
open Verif

/-! ## Pages -/

theorem lexTag_nogt (acc s r : Str) (h : '>' ∉ s) : lexTag acc (s ++ r) = lexTag (acc ++ s) r := by
  induction s generalizing acc with
  | nil => simp
  | cons c s ih =>
    have hc : c ≠ '>' := fun hh => h (by simp [hh])
    rw [List.cons_append, lexTag, if_neg hc, ih _ (fun hh => h (by simp [hh]))]
    simp

/-- A piece of page that starts and ends outside tags, shows the text `t` and has the tags `g`,
whatever follows it. -/
def Seg (s t : Str) (g : List Str) : Prop :=
  ∃ toks, (∀ r, lex (s ++ r) = toks ++ lex r) ∧ (∀ r, textOf (toks ++ r) = t ++ textOf r) ∧ tagsOf toks = g

theorem tagsOf_append (a b : List Tok) : tagsOf (a ++ b) = tagsOf a ++ tagsOf b := by
  induction a with
  | nil => rfl
  | cons x a ih => cases x <;> simp [tagsOf, ih]

theorem Seg.append {s t s' t' : Str} {g g' : List Str} (h : Seg s t g) (h' : Seg s' t' g') :
    Seg (s ++ s') (t ++ t') (g ++ g') := by
  obtain ⟨k, h1, h2, h3⟩ := h
  obtain ⟨k', h1', h2', h3'⟩ := h'
  refine ⟨k ++ k', fun r => ?_, fun r => ?_, ?_⟩
  · rw [List.append_assoc, h1, h1', List.append_assoc]
  · rw [List.append_assoc, h2, h2', List.append_assoc]
  · rw [tagsOf_append, h3, h3']

theorem Seg.cast {s t s' t' : Str} {g g' : List Str} (h : Seg s t g) (hs : s = s') (ht : t = t') (hg : g = g') :
    Seg s' t' g' := by subst hs ht hg; exact h

theorem Seg.nil : Seg [] [] [] := ⟨[], fun _ => rfl, fun _ => rfl, rfl⟩

theorem Seg.tag (s : Str) (h : '>' ∉ s) : Seg ('<' :: (s ++ ['>'])) [] [s] := by
  refine ⟨[.tag s], fun r => ?_, fun r => rfl, rfl⟩
  rw [List.cons_append, lex, if_pos rfl, List.append_assoc, lexTag_nogt _ _ _ h]
  rw [List.singleton_append, lexTag, if_pos rfl]
  simp

theorem textOf_chr (c : Char) (h : c ≠ '&') (r : List Tok) : textOf (.chr c :: r) = c :: textOf r := by
  rw [textOf] <;> intros <;> simp_all

theorem Seg.plainChar (c : Char) (h1 : c ≠ '<') (h2 : c ≠ '&') : Seg [c] [c] [] := by
  refine ⟨[.chr c], fun r => ?_, fun r => ?_, rfl⟩
  · rw [List.singleton_append, lex, if_neg h1]; rfl
  · exact textOf_chr c h2 r

theorem Seg.escChar (c : Char) : Seg (escapeChar c) [c] [] := by
  unfold escapeChar
  split
  · rename_i h; subst h
    exact ⟨[.chr '&', .chr 'a', .chr 'm', .chr 'p', .chr ';'], fun r => by simp [lex], fun r => by simp [textOf], rfl⟩
  · split
    · rename_i h; subst h
      exact ⟨[.chr '&', .chr 'l', .chr 't', .chr ';'], fun r => by simp [lex], fun r => by simp [textOf], rfl⟩
    · split
      · rename_i h; subst h
        exact ⟨[.chr '&', .chr 'g', .chr 't', .chr ';'], fun r => by simp [lex], fun r => by simp [textOf], rfl⟩
      · rename_i h1 h2 h3
        exact Seg.plainChar c h2 h1

theorem Seg.esc (s : Str) : Seg (htmlEscape s) s [] := by
  induction s with
  | nil => exact Seg.nil
  | cons c s ih => exact (Seg.escChar c).append ih

theorem Seg.plain (s : Str) (h : ∀ c ∈ s, c ≠ '<' ∧ c ≠ '&') : Seg s s [] := by
  induction s with
  | nil => exact Seg.nil
  | cons c s ih =>
    exact (Seg.plainChar c (h c (by simp)).1 (h c (by simp)).2).append (ih (fun d hd => h d (by simp [hd])))

/-- the segment of a literal made of tags only, as computed -/
theorem Seg.lit (s : String) (g : List Str)
    (h : (g.flatMap fun t => '<' :: (t ++ ['>'])) = s.toList ∧ ∀ t ∈ g, '>' ∉ t) : Seg s.toList [] g := by
  rw [← h.1]
  have h2 := h.2
  clear h
  induction g with
  | nil => exact Seg.nil
  | cons t g ih =>
    exact (Seg.tag t (h2 t (by simp))).append (ih (fun x hx => h2 x (by simp [hx])))

theorem Seg.read {s t : Str} {g : List Str} (h : Seg s t g) : textOf (lex s) = t ∧ tagsOf (lex s) = g := by
  obtain ⟨k, h1, h2, h3⟩ := h
  have hs := h1 []
  simp only [List.append_nil, lex] at hs
  have ht := h2 []
  simp only [List.append_nil, textOf] at ht
  rw [hs]
  exact ⟨ht, h3⟩

/-- tags of the text page -/
def textPageTags : List Str × List Str :=
  (["!DOCTYPE html".toList, "html".toList, "head".toList, "meta charset=\"utf-8\"".toList, "/head".toList,
    "body".toList, "pre style=\"white-space: pre-wrap; word-wrap: break-word;\"".toList],
   ["/pre".toList, "/body".toList, "/html".toList])

theorem seg_textPage (t : Str) : Seg (textPage t) t (textPageTags.1 ++ textPageTags.2) := by
  have h1 : Seg textPageHead [] textPageTags.1 := Seg.lit _ _ (by decide +kernel)
  have h2 : Seg textPageTail [] textPageTags.2 := Seg.lit _ _ (by decide +kernel)
  have := (h1.append (Seg.esc t)).append h2
  simpa [textPage] using this

theorem seg_span (o : Str) (g : Str) (ho : Seg o [] [g]) {s t : Str} {k : List Str} (h : Seg s t k) :
    Seg (o ++ s ++ spanClose) t (g :: (k ++ ["/span".toList])) := by
  have hc : Seg spanClose [] ["/span".toList] := Seg.lit _ _ (by decide +kernel)
  have := (ho.append h).append hc
  simpa using this

/-- tags of a key -/
def keyTags : Option Str → List Str
  | some _ => ["span style=\"color:#6f42c1\"".toList, "/span".toList]
  | none => []

theorem seg_q {s t : Str} (h : Seg s t []) : Seg ('"' :: (s ++ ['"'])) ('"' :: (t ++ ['"'])) [] := by
  have hq : Seg ['"'] ['"'] [] := Seg.plainChar '"' (by decide) (by decide)
  have := (hq.append h).append hq
  simpa using this

theorem seg_key (k : Option Str) : Seg (keyPrefix k) (shownKey k) (keyTags k) := by
  cases k with
  | none => exact Seg.nil
  | some k =>
    have h0 : Seg keyOpen [] ["span style=\"color:#6f42c1\"".toList] := Seg.lit _ _ (by decide +kernel)
    have h := seg_span _ _ h0 (seg_q (Seg.esc k))
    have h2 : Seg ": ".toList ": ".toList [] := Seg.plain _ (by decide)
    have h3 := h.append h2
    unfold keyPrefix shownKey keyTags
    have e1 : keyOpen ++ '"' :: (htmlEscape k ++ ['"']) ++ spanClose ++ ": ".toList =
        keyOpen ++ '"' :: (htmlEscape k ++ '"' :: (spanClose ++ ": ".toList)) := by
      simp only [List.append_assoc, List.cons_append, List.nil_append]
    have e2 : '"' :: (k ++ ['"']) ++ ": ".toList = '"' :: (k ++ "\": ".toList) := by
      have : "\": ".toList = '"' :: ": ".toList := by decide
      rw [this]
      simp only [List.append_assoc, List.cons_append, List.nil_append]
    rw [e1, e2] at h3
    exact h3

theorem digits_plain (n : Nat) : ∀ c ∈ (toString n).toList, c.isDigit = true := by
  intro c hc
  have : (toString n).toList = Nat.toDigits 10 n := by
    show (Nat.repr n).toList = _
    simp [Nat.repr]
  rw [this] at hc
  exact Nat.isDigit_of_mem_toDigits (b := 10) (by decide) (by decide) hc

/-- tag of the line wrapper -/
def divTag (d : Nat) : Str :=
  if 0 < d then "div style=\"padding-left:".toList ++ (toString (d * 2)).toList ++ "em\"".toList else "div".toList

theorem seg_lineDiv (d : Nat) {s t : Str} {g : List Str} (h : Seg s t g) :
    Seg (lineDiv (d, s)) t (divTag d :: (g ++ ["/div".toList])) := by
  have hc : Seg "</div>".toList [] ["/div".toList] := Seg.lit _ _ (by decide +kernel)
  have hgt : '>' ∉ divTag d := by
    unfold divTag
    split
    · intro hm
      rcases List.mem_append.mp hm with hm | hm
      · rcases List.mem_append.mp hm with hm | hm
        · revert hm; decide
        · have := digits_plain _ _ hm; revert this; decide
      · revert hm; decide
    · decide
  have := ((Seg.tag (divTag d) hgt).append h).append hc
  unfold lineDiv divTag at *
  split
  · rename_i hd
    simp only [hd, if_true] at this ⊢
    simpa using this
  · rename_i hd
    simp only [hd, if_false] at this ⊢
    simpa using this

theorem comma_seg (b : Bool) : Seg (if b then [] else [',']) (if b then [] else [',']) [] := by
  cases b
  · exact Seg.plainChar ',' (by decide) (by decide)
  · exact Seg.nil

theorem numeral_plain {s : Str} (h : numeral s = true) : ∀ c ∈ s, c ≠ '<' ∧ c ≠ '&' := by
  intro c hc
  have := List.all_eq_true.mp h c hc
  constructor <;> rintro rfl <;> revert this <;> decide

theorem seg_single (d : Nat) {s t : Str} {g : List Str} (h : Seg s t g) :
    Seg ([(d, s)].flatMap lineDiv) t (divTag d :: (g ++ ["/div".toList])) := by
  simpa using seg_lineDiv d h

/-- the tag of an opening span -/
def spanTag (c : String) : Str := ("span style=\"color:" ++ c ++ "\"").toList

theorem seg_scalar_null : Seg (scalarHtml .null) "null".toList [spanTag "#d73a49", "/span".toList] := by
  have h0 : Seg litOpen [] [spanTag "#d73a49"] := Seg.lit _ _ (by decide +kernel)
  have := seg_span _ _ h0
    (Seg.plain "null".toList (by decide))
  exact this

theorem seg_scalar_bool (b : Bool) : Seg (scalarHtml (.bool b)) (if b then "true" else "false").toList
    [spanTag "#d73a49", "/span".toList] := by
  have h0 : Seg litOpen [] [spanTag "#d73a49"] := Seg.lit _ _ (by decide +kernel)
  have := seg_span _ _ h0
    (Seg.plain (if b then "true" else "false").toList (by cases b <;> decide))
  exact this

theorem seg_scalar_num (s : Str) (h : numeral s = true) : Seg (scalarHtml (.num s)) s
    [spanTag "#005cc5", "/span".toList] := by
  have h0 : Seg numOpen [] [spanTag "#005cc5"] := Seg.lit _ _ (by decide +kernel)
  have := seg_span _ _ h0
    (Seg.plain s (numeral_plain h))
  exact this

theorem seg_scalar_str (s : Str) : Seg (scalarHtml (.str s)) ('"' :: (s ++ ['"']))
    [spanTag "#22863a", "/span".toList] := by
  have h0 : Seg strOpen [] [spanTag "#22863a"] := Seg.lit _ _ (by decide +kernel)
  have := seg_span _ _ h0
    (seg_q (Seg.esc s))
  have e1 : strOpen ++ '"' :: (htmlEscape s ++ ['"']) ++ spanClose = scalarHtml (.str s) := by
    simp only [scalarHtml, List.append_assoc, List.cons_append, List.nil_append]
  rw [e1] at this
  exact this

mutual
/-- the tags of the lines of a value: they depend on its shape only -/
def jsonTags (v : Json) (d : Nat) (key : Bool) : List Str :=
  let kt := if key then [spanTag "#6f42c1", "/span".toList] else []
  match v with
  | .null => divTag d :: (kt ++ [spanTag "#d73a49", "/span".toList] ++ ["/div".toList])
  | .bool _ => divTag d :: (kt ++ [spanTag "#d73a49", "/span".toList] ++ ["/div".toList])
  | .num _ => divTag d :: (kt ++ [spanTag "#005cc5", "/span".toList] ++ ["/div".toList])
  | .str _ => divTag d :: (kt ++ [spanTag "#22863a", "/span".toList] ++ ["/div".toList])
  | .obj [] => divTag d :: (kt ++ ["/div".toList])
  | .arr [] => divTag d :: (kt ++ ["/div".toList])
  | .obj (m :: ms) => divTag d :: (kt ++ ["/div".toList]) ++ memberTags (m :: ms) (d + 1) ++ [divTag d, "/div".toList]
  | .arr (x :: xs) => divTag d :: (kt ++ ["/div".toList]) ++ itemTags (x :: xs) (d + 1) ++ [divTag d, "/div".toList]
def memberTags (ms : List (Str × Json)) (d : Nat) : List Str :=
  match ms with
  | [] => []
  | (_, v) :: r => jsonTags v d true ++ memberTags r d
def itemTags (xs : List Json) (d : Nat) : List Str :=
  match xs with
  | [] => []
  | v :: r => jsonTags v d false ++ itemTags r d
end

theorem keyTags_eq (k : Option Str) : keyTags k = if k.isSome then [spanTag "#6f42c1", "/span".toList] else [] := by
  cases k
  · rfl
  · have : spanTag "#6f42c1" = "span style=\"color:#6f42c1\"".toList := by decide +kernel
    simp only [keyTags, this, Option.isSome_some, if_true]

theorem seg_scalar_line (v : Json) (hl : Seg (scalarHtml v) t g)
    (d : Nat) (k : Option Str) (trail : Str) (ht : Seg trail trail []) :
    Seg ([(d, keyPrefix k ++ scalarHtml v ++ trail)].flatMap lineDiv) (shownKey k ++ t ++ trail)
      (divTag d :: ((if k.isSome then [spanTag "#6f42c1", "/span".toList] else []) ++ g ++ ["/div".toList])) := by
  refine (seg_single d (((seg_key k).append hl).append ht)).cast rfl rfl ?_
  rw [keyTags_eq]
  simp

mutual
theorem seg_json (v : Json) (d : Nat) (k : Option Str) (trail : Str) (ht : Seg trail trail []) (hw : v.Wf) :
    Seg ((jsonLines v d k trail).flatMap lineDiv) (shown v k trail) (jsonTags v d k.isSome) := by
  match v with
  | .null => simpa [jsonLines, shown, jsonTags] using seg_scalar_line .null seg_scalar_null d k trail ht
  | .bool b => simpa [jsonLines, shown, jsonTags] using seg_scalar_line (.bool b) (seg_scalar_bool b) d k trail ht
  | .num s =>
    simpa [jsonLines, shown, jsonTags] using
      seg_scalar_line (.num s) (seg_scalar_num s (by simpa [Json.Wf] using hw)) d k trail ht
  | .str s => simpa [jsonLines, shown, jsonTags] using seg_scalar_line (.str s) (seg_scalar_str s) d k trail ht
  | .obj [] =>
    have h := seg_single d (((seg_key k).append (Seg.plain "{}".toList (by decide))).append ht)
    refine h.cast ?_ ?_ ?_
    · simp [jsonLines]
    · simp [shown, shownMembers]
    · simp [jsonTags, keyTags_eq]
  | .arr [] =>
    have h := seg_single d (((seg_key k).append (Seg.plain "[]".toList (by decide))).append ht)
    refine h.cast ?_ ?_ ?_
    · simp [jsonLines]
    · simp [shown, shownItems]
    · simp [jsonTags, keyTags_eq]
  | .obj (m :: ms) =>
    have h1 := seg_single d ((seg_key k).append (Seg.plain "{".toList (by decide)))
    have h2 := seg_members (m :: ms) (d + 1) (by simpa [Json.Wf] using hw)
    have h3 := seg_single d ((Seg.plain "}".toList (by decide)).append ht)
    refine ((h1.append h2).append h3).cast ?_ ?_ ?_
    · simp [jsonLines]
    · simp [shown]
    · simp [jsonTags, keyTags_eq]
  | .arr (x :: xs) =>
    have h1 := seg_single d ((seg_key k).append (Seg.plain "[".toList (by decide)))
    have h2 := seg_items (x :: xs) (d + 1) (by simpa [Json.Wf] using hw)
    have h3 := seg_single d ((Seg.plain "]".toList (by decide)).append ht)
    refine ((h1.append h2).append h3).cast ?_ ?_ ?_
    · simp [jsonLines]
    · simp [shown]
    · simp [jsonTags, keyTags_eq]
theorem seg_members (ms : List (Str × Json)) (d : Nat) (hw : membersWf ms) :
    Seg ((memberLines ms d).flatMap lineDiv) (shownMembers ms) (memberTags ms d) := by
  match ms with
  | [] => simpa [memberLines, shownMembers, memberTags] using Seg.nil
  | (k, v) :: r =>
    have hw' : v.Wf ∧ membersWf r := by simpa [membersWf] using hw
    have h1 := seg_json v d (some k) (if r.isEmpty then [] else [',']) (comma_seg _) hw'.1
    have h2 := seg_members r d hw'.2
    refine (h1.append h2).cast ?_ ?_ ?_
    · simp [memberLines]
    · simp [shownMembers]
    · simp [memberTags]
theorem seg_items (xs : List Json) (d : Nat) (hw : itemsWf xs) :
    Seg ((itemLines xs d).flatMap lineDiv) (shownItems xs) (itemTags xs d) := by
  match xs with
  | [] => simpa [itemLines, shownItems, itemTags] using Seg.nil
  | v :: r =>
    have hw' : v.Wf ∧ itemsWf r := by simpa [itemsWf] using hw
    have h1 := seg_json v d none (if r.isEmpty then [] else [',']) (comma_seg _) hw'.1
    have h2 := seg_items r d hw'.2
    refine (h1.append h2).cast ?_ ?_ ?_
    · simp [itemLines]
    · simp [shownItems]
    · simp [itemTags]
end

mutual
theorem blank_tags (v : Json) (d : Nat) (k : Bool) : jsonTags (blank v) d k = jsonTags v d k := by
  match v with
  | .null => rfl
  | .bool _ => rfl
  | .num _ => simp [blank, jsonTags]
  | .str _ => simp [blank, jsonTags]
  | .obj [] => simp [blank, blankMembers]
  | .arr [] => simp [blank, blankItems]
  | .obj ((a, v) :: ms) =>
    have h := blank_memberTags ((a, v) :: ms) (d + 1)
    simp only [blankMembers] at h
    simp only [blank, blankMembers, jsonTags]
    rw [h]
  | .arr (x :: xs) =>
    have h := blank_itemTags (x :: xs) (d + 1)
    simp only [blankItems] at h
    simp only [blank, blankItems, jsonTags]
    rw [h]
theorem blank_memberTags (ms : List (Str × Json)) (d : Nat) : memberTags (blankMembers ms) d = memberTags ms d := by
  match ms with
  | [] => rfl
  | (_, v) :: r => simp only [blankMembers, memberTags]; rw [blank_tags v, blank_memberTags r]
theorem blank_itemTags (xs : List Json) (d : Nat) : itemTags (blankItems xs) d = itemTags xs d := by
  match xs with
  | [] => rfl
  | v :: r => simp only [blankItems, itemTags]; rw [blank_tags v, blank_itemTags r]
end

mutual
theorem blank_wf (v : Json) : (blank v).Wf := by
  match v with
  | .null => simp [blank, Json.Wf]
  | .bool _ => simp [blank, Json.Wf]
  | .num _ => simp [blank, Json.Wf, numeral]
  | .str _ => simp [blank, Json.Wf]
  | .obj ms => simpa [blank, Json.Wf] using blank_membersWf ms
  | .arr xs => simpa [blank, Json.Wf] using blank_itemsWf xs
theorem blank_membersWf (ms : List (Str × Json)) : membersWf (blankMembers ms) := by
  match ms with
  | [] => simp [blankMembers, membersWf]
  | (_, v) :: r => simpa [blankMembers, membersWf] using ⟨blank_wf v, blank_membersWf r⟩
theorem blank_itemsWf (xs : List Json) : itemsWf (blankItems xs) := by
  match xs with
  | [] => simp [blankItems, itemsWf]
  | v :: r => simpa [blankItems, itemsWf] using ⟨blank_wf v, blank_itemsWf r⟩
end

/-- tags before the lines of the JSON page -/
def jsonHeadTags : List Str :=
  ["!DOCTYPE html".toList, "html".toList, "head".toList, "meta charset=\"utf-8\"".toList, "/head".toList,
    "body style=\"font-family:monospace;font-size:13px;color:#24292e;background:#ffffff\"".toList]

theorem seg_jsonPage (v : Json) (hw : v.Wf) :
    Seg (jsonPage v) (shown v none []) (jsonHeadTags ++ jsonTags v 0 false ++ ["/body".toList, "/html".toList]) := by
  have h1 : Seg jsonPageHead [] jsonHeadTags := Seg.lit _ _ (by decide +kernel)
  have h2 : Seg jsonPageTail [] ["/body".toList, "/html".toList] := Seg.lit _ _ (by decide +kernel)
  have h := (h1.append (seg_json v 0 none [] Seg.nil hw)).append h2
  refine h.cast rfl ?_ rfl
  simp

/-! ## What an ampersand in escaped text is followed by -/

theorem htmlEscape_lt (s : Str) : '<' ∉ htmlEscape s ∧ '>' ∉ htmlEscape s := by
  constructor <;>
  · intro h
    obtain ⟨c, _, hc⟩ := List.mem_flatMap.mp h
    unfold escapeChar at hc
    split at hc
    · revert hc; decide
    · split at hc
      · revert hc; decide
      · split at hc
        · revert hc; decide
        · rename_i h1 h2 h3
          have := List.mem_singleton.mp hc
          first | exact h2 this.symm | exact h3 this.symm

theorem htmlEscape_amp (s pre post : Str) (h : htmlEscape s = pre ++ '&' :: post) :
    "amp;".toList <+: post ∨ "lt;".toList <+: post ∨ "gt;".toList <+: post := by
  induction s generalizing pre with
  | nil => simp [htmlEscape] at h
  | cons c s ih =>
    have hcons : htmlEscape (c :: s) = escapeChar c ++ htmlEscape s := rfl
    rw [hcons] at h
    rcases List.append_eq_append_iff.mp h with ⟨a, ha, hb⟩ | ⟨b, hb, ha⟩
    · exact ih a hb
    · cases b with
      | nil =>
        rw [List.nil_append] at ha
        exact ih [] ha.symm
      | cons x b =>
        simp only [List.cons_append, List.cons.injEq] at ha
        obtain ⟨rfl, rfl⟩ := ha
        unfold escapeChar at hb
        have key : ∀ lit : Str, (∀ i, 1 ≤ i → lit[i]? ≠ some '&') → lit = pre ++ '&' :: b → pre = [] := by
          intro lit hl he
          cases pre with
          | nil => rfl
          | cons y pre =>
            exfalso
            have := hl (pre.length + 1) (by omega)
            apply this
            rw [he]
            simp
        have hidx : ∀ (lit : Str) (h : '&' ∉ lit.tail), ∀ i, 1 ≤ i → lit[i]? ≠ some '&' := by
          intro lit h i hi he
          apply h
          obtain ⟨j, rfl⟩ : ∃ j, i = j + 1 := ⟨i - 1, by omega⟩
          have : lit.tail[j]? = some '&' := by rw [List.getElem?_tail]; exact he
          exact List.mem_of_getElem? this
        split at hb
        · have := key _ (hidx "&amp;".toList (by decide)) hb
          subst this
          simp only [String.reduceToList, List.nil_append, List.cons.injEq, true_and] at hb
          left; rw [← hb]; exact List.prefix_append _ _
        · split at hb
          · have := key _ (hidx "&lt;".toList (by decide)) hb
            subst this
            simp only [String.reduceToList, List.nil_append, List.cons.injEq, true_and] at hb
            right; left; rw [← hb]; exact List.prefix_append _ _
          · split at hb
            · have := key _ (hidx "&gt;".toList (by decide)) hb
              subst this
              simp only [String.reduceToList, List.nil_append, List.cons.injEq, true_and] at hb
              right; right; rw [← hb]; exact List.prefix_append _ _
            · rename_i h1 _ _
              exfalso
              have hm : '&' ∈ [c] := by rw [hb]; simp
              simp only [List.mem_singleton] at hm
              exact h1 hm.symm

end Verif.Decision
