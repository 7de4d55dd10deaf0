import Verif.Pages.Lemmas
import Verif.HtmlTok.Props

/-! # C130: internal pages show what they are given as text -/

namespace Verif.Pages

open HtmlTok (Token Parser Content Env Printable print TagName NameChar AttrsOk RawKind)

/-! ## Tags -/

def nameOk (n : Str) : Bool :=
  (match n with
   | c :: _ => decide ('a' ≤ c ∧ c ≤ 'z')
   | [] => false) &&
  n.all (fun c => decide (c ∉ ['\t', '\n', '\x0C', ' '] ∧ c ≠ '/' ∧ c ≠ '>' ∧ c ≠ Char.ofNat 0 ∧ ¬ ('A' ≤ c ∧ c ≤ 'Z') ∧
    c ≠ '='))

theorem nameOk_tag {n : Str} (h : nameOk n = true) : TagName n := by
  unfold nameOk at h
  rw [Bool.and_eq_true, List.all_eq_true] at h
  refine ⟨?_, fun c hc => ?_⟩
  · cases n with
    | nil => simp at h
    | cons c n => exact ⟨c, rfl, by simpa using h.1⟩
  · have := h.2 c hc
    rw [decide_eq_true_eq] at this
    exact ⟨this.1, this.2.1, this.2.2.1, this.2.2.2.1, this.2.2.2.2.1⟩

theorem nameOk_attr {n : Str} (h : nameOk n = true) : n ≠ [] ∧ (∀ c ∈ n, NameChar c) ∧ '=' ∉ n := by
  refine ⟨?_, (nameOk_tag h).2, ?_⟩
  · rintro rfl; simp [nameOk] at h
  · intro hc
    unfold nameOk at h
    rw [Bool.and_eq_true, List.all_eq_true] at h
    have := h.2 _ hc
    rw [decide_eq_true_eq] at this
    exact this.2.2.2.2.2 rfl

def special : List Str := ["title", "style", "script", "textarea", "noscript", "iframe", "noembed", "noframes",
    "xmp", "plaintext"].map String.toList

theorem plain_tag {p : Parser} (hu : Usual p) (n : String) (h : (nameOk n.toList && !special.contains n.toList) = true) :
    Plain p (tag n) := by
  rw [Bool.and_eq_true] at h
  refine ⟨⟨nameOk_tag h.1, ⟨by simp, by simp⟩, by simp⟩, by simp [tag], ?_⟩
  intro g
  refine hu.other g n.toList false _ ?_
  intro hm
  have : special.contains n.toList = true := List.contains_iff_mem.2 hm
  rw [this] at h
  exact absurd h.2 (by decide)

theorem plain_tag1 {p : Parser} (hu : Usual p) (n k : String) (v : Str)
    (h : (nameOk n.toList && !special.contains n.toList && nameOk k.toList) = true) (hv : Char.ofNat 0 ∉ v) :
    Plain p (tag n [(k, v)]) := by
  rw [Bool.and_eq_true, Bool.and_eq_true] at h
  obtain ⟨a1, a2, a3⟩ := nameOk_attr h.2
  refine ⟨⟨nameOk_tag h.1.1, ⟨by simp, ?_⟩, ?_⟩, by simp [tag], ?_⟩
  · intro x hx
    rw [List.map_cons, List.map_nil, List.mem_singleton] at hx
    subst hx
    exact ⟨a1, a2⟩
  · intro x hx
    rw [List.map_cons, List.map_nil, List.mem_singleton] at hx
    subst hx
    exact ⟨a3, hv⟩
  intro g
  refine hu.other g n.toList false _ ?_
  intro hm
  have : special.contains n.toList = true := List.contains_iff_mem.2 hm
  rw [this] at h
  exact absurd h.1.2 (by decide)

theorem plain_close {p : Parser} (hu : Usual p) (n : String) (h : nameOk n.toList = true) : Plain p (close n) :=
  ⟨nameOk_tag h, by simp [close], fun g => hu.rest g _ (by simp [close])⟩

/-! ## Texts -/

theorem esc_id {s : Str} (h : ∀ c ∈ s, c ≠ '&' ∧ c ≠ '<' ∧ c ≠ '>' ∧ c ≠ '"') : esc s = s := by
  induction s with
  | nil => rfl
  | cons c s ih =>
    obtain ⟨h1, h2, h3, h4⟩ := h c (by simp)
    rw [esc_cons, ih (fun x hx => h x (by simp [hx]))]
    simp [escChar, h1, h2, h3, h4]

theorem esc_num (n : Nat) : esc (num n) = num n := by
  apply esc_id
  intro c hc
  rw [num, Nat.toList_repr] at hc
  have hd := Nat.isDigit_of_mem_toDigits (by omega) (by omega) hc
  refine ⟨?_, ?_, ?_, ?_⟩ <;> rintro rfl <;> revert hd <;> decide

theorem escape_esc {u : Str} (h : ∀ c ∈ u, c ≠ Char.ofNat 0xA0) : HtmlTok.escape true u = esc u := by
  induction u with
  | nil => rfl
  | cons c s ih =>
    have h1 := h c (by simp)
    rw [esc_cons, ← ih (fun x hx => h x (by simp [hx]))]
    have : HtmlTok.escapeChar true c = escChar c := by simp [HtmlTok.escapeChar, escChar, h1]
    rw [← this]; rfl

theorem address_plain {u : Str} (h : Address u) : (∀ c ∈ u, c ≠ Char.ofNat 0xA0) ∧ Char.ofNat 0 ∉ u := by
  refine ⟨?_, ?_⟩
  · rintro c hc rfl
    have := (h _ hc).1
    revert this; decide
  · intro hc
    have := (h _ hc).2
    revert this; decide

def render (l : List (Str × Token)) : Str := l.flatMap (fun x => esc x.1 ++ print x.2)

theorem render_append (a b : List (Str × Token)) : render (a ++ b) = render a ++ render b := by simp [render]

theorem render_flatMap {α : Type} (l : List α) (f : α → List (Str × Token)) :
    render (l.flatMap f) = l.flatMap (fun x => render (f x)) := by
  induction l with
  | nil => rfl
  | cons x l ih => simp only [List.flatMap_cons, render_append, ih]

theorem render_cons (x : Str × Token) (l : List (Str × Token)) : render (x :: l) = esc x.1 ++ (print x.2 ++ render l) := by
  simp [render]

theorem esc_nil : esc [] = [] := rfl

theorem no_end {n s : Str} (h : '<' ∉ s) : HtmlTok.NoEndTag n s := by
  rintro a w d b rfl _
  exact absurd (by simp) h

/-! ## A page -/

theorem frame_eof {p : Parser} {l : List (Str × Token)} (hl : ∀ x ∈ l, Plain p x.2) : Token.eof ∉ frame l := by
  unfold frame
  rw [List.mem_flatMap]
  rintro ⟨x, hx, hm⟩
  rw [List.mem_append] at hm
  rcases hm with hm | hm
  · unfold txt at hm
    split at hm <;> simp at hm
  · exact (hl x hx).ne_eof (List.mem_singleton.1 hm).symm

def pre : List (Str × Token) :=
  [([], .doctype (some (lit "html")) false none none), ([], tag "html"), ([], tag "head"),
   ([], tag "meta" [("charset", lit "utf-8")])]

def mid : List (Str × Token) := [([], close "head"), ([], tag "body")]

def post : List (Str × Token) := [([], close "body"), ([], close "html")]

theorem pre_plain {p : Parser} (hu : Usual p) : ∀ x ∈ pre, Plain p x.2 := by
  intro x hx
  simp only [pre, List.mem_cons, List.not_mem_nil, or_false] at hx
  rcases hx with rfl | rfl | rfl | rfl
  · exact ⟨⟨⟨_, rfl, nameOk_tag (by decide +kernel)⟩, rfl, rfl, rfl⟩, by simp, fun g => hu.rest g _ (by simp)⟩
  · exact plain_tag hu _ (by decide +kernel)
  · exact plain_tag hu _ (by decide +kernel)
  · exact plain_tag1 hu _ _ _ (by decide +kernel) (by decide +kernel)

theorem mid_plain {p : Parser} (hu : Usual p) : ∀ x ∈ mid, Plain p x.2 := by
  intro x hx
  simp only [mid, List.mem_cons, List.not_mem_nil, or_false] at hx
  rcases hx with rfl | rfl
  · exact plain_close hu _ (by decide +kernel)
  · exact plain_tag hu _ (by decide +kernel)

theorem post_plain {p : Parser} (hu : Usual p) : ∀ x ∈ post, Plain p x.2 := by
  intro x hx
  simp only [post, List.mem_cons, List.not_mem_nil, or_false] at hx
  rcases hx with rfl | rfl
  · exact plain_close hu _ (by decide +kernel)
  · exact plain_close hu _ (by decide +kernel)

theorem title_reads {env : Env} (hE : env.names = CharRef.tokenNamedChars) {p : Parser} (hu : Usual p) {title : Str}
    (ht : ∀ c ∈ title, c ≠ '&' ∧ c ≠ '<' ∧ c ≠ '>' ∧ c ≠ '"' ∧ c ≠ Char.ofNat 0) :
    Reads env p ([tag "title"] ++ txt title ++ [close "title"]) (print (tag "title") ++ title ++ print (close "title")) :=
  reads_raw hE .rcdata (by decide +kernel) (by decide +kernel)
    ⟨nameOk_tag (by decide +kernel), ⟨by simp, by simp⟩, by simp⟩
    (fun g => hu.title g _ _) (no_end (fun h => (ht _ h).2.1 rfl)) (fun h => (ht _ h).1 rfl) (fun h => (ht _ h).2.2.2.2 rfl)

theorem style_reads {env : Env} (hE : env.names = CharRef.tokenNamedChars) {p : Parser} (hu : Usual p) :
    Reads env p ([tag "style"] ++ txt css ++ [close "style"]) (print (tag "style") ++ css ++ print (close "style")) :=
  reads_raw hE .rawtext (by decide +kernel) (by decide +kernel)
    ⟨nameOk_tag (by decide +kernel), ⟨by simp, by simp⟩, by simp⟩
    (fun g => hu.style g _ _) (no_end (by decide +kernel)) trivial (by decide +kernel)

theorem page_tokens (title : Str) (body : List (Str × Token)) (h0 : title ≠ []) :
    frame pre ++ ([tag "title"] ++ txt title ++ [close "title"]) ++ ([tag "style"] ++ txt css ++ [close "style"]) ++
      frame (mid ++ body ++ post) = pageTokens title body := by
  have hc : css ≠ [] := by decide +kernel
  have t1 : txt title = [.text title] := by rw [txt, if_neg h0]
  have t2 : txt css = [.text css] := by rw [txt, if_neg hc]
  have t0 : txt [] = [] := rfl
  rw [t1, t2]
  simp only [frame, pre, mid, post, pageTokens, List.flatMap_append, List.flatMap_cons, List.flatMap_nil, t0,
    List.append_assoc, List.cons_append, List.nil_append, List.append_nil]

theorem w1 : "<!DOCTYPE html><html><head><meta charset=\"utf-8\"><title>".toList = render pre ++ print (tag "title") := by
  decide +kernel
theorem w2 : "</title><style>".toList = print (close "title") ++ print (tag "style") := by decide +kernel
theorem w3 : "</style></head><body>".toList = print (close "style") ++ render mid := by decide +kernel
theorem w4 : "</body></html>".toList = render post := by decide +kernel

theorem glue {A B C D x1 x2 x3 x4 x5 x6 x7 t s b : Str} (hA : A = x1 ++ x2) (hB : B = x3 ++ x4) (hC : C = x5 ++ x6)
    (hD : D = x7) :
    x1 ++ (x2 ++ t ++ x3) ++ (x4 ++ s ++ x5) ++ (x6 ++ b ++ x7) = A ++ t ++ B ++ s ++ C ++ b ++ D := by
  subst hA hB hC hD
  simp only [List.append_assoc]

theorem page_text (title : Str) (body : List (Str × Token)) (ht : esc title = title) :
    render pre ++ (print (tag "title") ++ title ++ print (close "title")) ++
      (print (tag "style") ++ css ++ print (close "style")) ++ render (mid ++ body ++ post) = page title (render body) := by
  rw [render_append (mid ++ body) post, render_append mid body]
  unfold page
  rw [ht]
  exact glue w1 w2 w3 w4

theorem page_yields {env : Env} (hE : env.names = CharRef.tokenNamedChars) {p : Parser} (hu : Usual p) (title : Str)
    (body : List (Str × Token)) (h0 : title ≠ [])
    (ht : ∀ c ∈ title, c ≠ '&' ∧ c ≠ '<' ∧ c ≠ '>' ∧ c ≠ '"' ∧ c ≠ Char.ofNat 0) (hb : ∀ x ∈ body, Plain p x.2) :
    HtmlTok.Yields env p (page title (render body)) .data (pageTokens title body ++ [.eof]) := by
  have d1 := pre_plain hu
  have d2 : ∀ x ∈ mid ++ body ++ post, Plain p x.2 := by
    intro x hx
    rw [List.mem_append, List.mem_append] at hx
    rcases hx with (hx | hx) | hx
    · exact mid_plain hu x hx
    · exact hb x hx
    · exact post_plain hu x hx
  have e1 := frame_eof d1
  have e4 := frame_eof d2
  have e2 : Token.eof ∉ [tag "title"] ++ txt title ++ [close "title"] := by
    unfold txt; split <;> simp [tag, close]
  have e3 : Token.eof ∉ [tag "style"] ++ txt css ++ [close "style"] := by
    unfold txt; split <;> simp [tag, close]
  have e12 : Token.eof ∉ frame pre ++ ([tag "title"] ++ txt title ++ [close "title"]) := by
    rw [List.mem_append, not_or]; exact ⟨e1, e2⟩
  have e123 : Token.eof ∉ frame pre ++ ([tag "title"] ++ txt title ++ [close "title"]) ++
      ([tag "style"] ++ txt css ++ [close "style"]) := by
    rw [List.mem_append, not_or]; exact ⟨e12, e3⟩
  have y := yields_of_reads ((((reads_frame hE _ d1).append (title_reads hE hu ht) e1).append (style_reads hE hu) e12).append
    (reads_frame hE _ d2) e123) (by rw [List.mem_append, not_or]; exact ⟨e123, e4⟩)
  rw [page_tokens title body h0] at y
  have w := page_text title body
    (esc_id (fun c hc => ⟨(ht c hc).1, (ht c hc).2.1, (ht c hc).2.2.1, (ht c hc).2.2.2.1⟩))
  unfold render at w
  rw [w] at y
  exact y

/-! ## The pages -/

theorem print_tag1 (n k : String) (v : Str) (hv : ∀ c ∈ v, c ≠ Char.ofNat 0xA0) :
    print (tag n [(k, v)]) = '<' :: (n.toList ++ (' ' :: (k.toList ++ ('=' :: '"' :: (esc v ++ ['"', '>']))))) := by
  rw [tag, HtmlTok.print_start]
  simp only [List.map_cons, List.map_nil, List.flatMap_cons, List.flatMap_nil, HtmlTok.printAttr, escape_esc hv,
    Bool.false_eq_true, if_false, List.append_assoc, List.cons_append, List.nil_append, List.append_nil]

theorem glue2 {A B a b c d v : Str} (h1 : A = '<' :: (a ++ (' ' :: (b ++ c)))) (h2 : B = d) :
    A ++ v ++ B = '<' :: (a ++ (' ' :: (b ++ (c ++ (v ++ d))))) := by
  subst h1 h2
  simp only [List.append_assoc, List.cons_append]

theorem h1a : "<a href=\"".toList = '<' :: ("a".toList ++ (' ' :: ("href".toList ++ ['=', '"']))) := by decide +kernel
theorem h1b : "\">".toList = ['"', '>'] := by decide +kernel

theorem h1 (u : Str) : "<a href=\"".toList ++ esc u ++ "\">".toList =
    '<' :: ("a".toList ++ (' ' :: ("href".toList ++ ('=' :: '"' :: (esc u ++ ['"', '>']))))) := by
  have := glue2 (v := esc u) h1a h1b
  rw [this]
  simp only [List.cons_append, List.nil_append]

theorem h3 : "><td>".toList = ">".toList ++ print (tag "td") := by decide +kernel
theorem h4 : "</td><td>".toList = print (close "td") ++ print (tag "td") := by decide +kernel
theorem h5 : "</td><td><a href=\"".toList = print (close "td") ++ (print (tag "td") ++ "<a href=\"".toList) := by
  decide +kernel
theorem h6 : "\"><code>".toList = "\">".toList ++ print (tag "code") := by decide +kernel
theorem h7 : "</code></a></td></tr>".toList =
    print (close "code") ++ (print (close "a") ++ (print (close "td") ++ print (close "tr"))) := by decide +kernel
theorem h8a : print (tag "tr" [("class", lit "cur")]) = "<tr".toList ++ (" class=\"cur\"".toList ++ ">".toList) := by
  decide +kernel
theorem h8b : print (tag "tr") = "<tr".toList ++ ([] ++ ">".toList) := by decide +kernel
theorem h9 : esc (lit "–") = "–".toList := by decide +kernel

theorem render_nil : render [] = [] := rfl

theorem history_row (current : Option Nat) (e : Entry) (he : Address e.url) :
    render (historyTags current e) = historyRow current e := by
  have p1 : print (tag "a" [("href", e.url)]) = "<a href=\"".toList ++ esc e.url ++ "\">".toList := 
    (print_tag1 _ _ _ (address_plain he).1).trans (h1 _).symm
  have p2 : print (if some e.id = current then tag "tr" [("class", lit "cur")] else tag "tr") =
      "<tr".toList ++ ((if some e.id = current then " class=\"cur\"".toList else []) ++ ">".toList) := by
    by_cases hc : some e.id = current
    · rw [if_pos hc, if_pos hc]; exact h8a
    · rw [if_neg hc, if_neg hc]; exact h8b
  unfold historyTags historyRow
  cases e.parent with
  | some q =>
    simp only [render_cons, render_nil, esc_nil, List.nil_append, p1, p2, esc_num, h3, h4, h5, h6, h7,
      List.append_assoc, List.append_nil]
  | none =>
    simp only [render_cons, render_nil, esc_nil, List.nil_append, p1, p2, h9, esc_num, h3, h4, h5, h6, h7,
      List.append_assoc, List.append_nil]

theorem history_plain {p : Parser} (hu : Usual p) (entries : List Entry) (current : Option Nat)
    (he : ∀ e ∈ entries, Address e.url) : ∀ x ∈ historyBody entries current, Plain p x.2 := by
  have c : ∀ n : String, nameOk n.toList = true → Plain p (close n) := plain_close hu
  have t : ∀ n : String, (nameOk n.toList && !special.contains n.toList) = true → Plain p (tag n) := plain_tag hu
  have t1 : ∀ (n k : String) (v : Str), (nameOk n.toList && !special.contains n.toList && nameOk k.toList) = true →
      Char.ofNat 0 ∉ v → Plain p (tag n [(k, v)]) := plain_tag1 hu
  have row : ∀ e ∈ entries, ∀ x ∈ historyTags current e, Plain p x.2 := by
    intro e hm x hx
    unfold historyTags at hx
    simp only [List.mem_cons, List.not_mem_nil, or_false] at hx
    rcases hx with rfl | rfl | rfl | rfl | rfl | rfl | rfl | rfl | rfl | rfl | rfl | rfl | rfl | rfl
    · simp only
      split
      · exact t1 _ _ _ (by decide +kernel) (by decide +kernel)
      · exact t _ (by decide +kernel)
    · exact t _ (by decide +kernel)
    · exact c _ (by decide +kernel)
    · exact t _ (by decide +kernel)
    · exact c _ (by decide +kernel)
    · exact t _ (by decide +kernel)
    · exact c _ (by decide +kernel)
    · exact t _ (by decide +kernel)
    · exact t1 _ _ _ (by decide +kernel) (address_plain (he e hm)).2
    · exact t _ (by decide +kernel)
    · exact c _ (by decide +kernel)
    · exact c _ (by decide +kernel)
    · exact c _ (by decide +kernel)
    · exact c _ (by decide +kernel)
  intro x hx
  unfold historyBody at hx
  rw [List.mem_append] at hx
  rcases hx with hx | hx
  · simp only [List.mem_cons, List.not_mem_nil, or_false] at hx
    rcases hx with rfl | rfl | rfl | rfl
    · exact t _ (by decide +kernel)
    · exact c _ (by decide +kernel)
    · exact t1 _ _ _ (by decide +kernel) (by decide +kernel)
    · exact c _ (by decide +kernel)
  · split at hx
    · simp only [List.mem_cons, List.not_mem_nil, or_false] at hx
      rcases hx with rfl | rfl
      · exact t1 _ _ _ (by decide +kernel) (by decide +kernel)
      · exact c _ (by decide +kernel)
    · simp only [List.mem_append, List.mem_cons, List.not_mem_nil, or_false, List.mem_flatMap] at hx
      rcases hx with (hx | ⟨e, hm, hx⟩) | rfl
      · rcases hx with rfl | rfl | rfl | rfl | rfl | rfl | rfl | rfl | rfl | rfl | rfl
        · exact t _ (by decide +kernel)
        · exact t _ (by decide +kernel)
        · exact t _ (by decide +kernel)
        · exact c _ (by decide +kernel)
        · exact t _ (by decide +kernel)
        · exact c _ (by decide +kernel)
        · exact t _ (by decide +kernel)
        · exact c _ (by decide +kernel)
        · exact t _ (by decide +kernel)
        · exact c _ (by decide +kernel)
        · exact c _ (by decide +kernel)
      · exact row e hm x hx
      · exact c _ (by decide +kernel)

theorem flatMap_congr' {α : Type} {l : List α} {f g : α → Str} (h : ∀ x ∈ l, f x = g x) : l.flatMap f = l.flatMap g := by
  induction l with
  | nil => rfl
  | cons x l ih =>
    simp only [List.flatMap_cons]
    rw [h x (by simp), ih (fun y hy => h y (by simp [hy]))]

def hHead : List (Str × Token) :=
  [([], tag "h1"), (lit "Session history", close "h1"), ([], tag "p" [("class", lit "sub")]),
   (lit "This tab, oldest first. Bold is the current entry; the parent column shows the branch structure.", close "p")]

def hNone : List (Str × Token) := [([], tag "p" [("class", lit "muted")]), (lit "No entries yet.", close "p")]

def hTable : List (Str × Token) :=
  [([], tag "table"), ([], tag "tr"), ([], tag "th"), (lit "#", close "th"), ([], tag "th"),
   (lit "Parent", close "th"), ([], tag "th"), (lit "Title", close "th"), ([], tag "th"),
   (lit "URL", close "th"), ([], close "tr")]

theorem v1 : "<h1>Session history</h1><p class=\"sub\">This tab, oldest first. Bold is the current entry; the parent column shows the branch structure.</p>".toList =
    render hHead := by decide +kernel
theorem v2 : "<p class=\"muted\">No entries yet.</p>".toList = render hNone := by decide +kernel
theorem v3 : "<table><tr><th>#</th><th>Parent</th><th>Title</th><th>URL</th></tr>".toList = render hTable := by
  decide +kernel
theorem v4 : "</table>".toList = render [([], close "table")] := by decide +kernel

theorem history_text (entries : List Entry) (current : Option Nat) (he : ∀ e ∈ entries, Address e.url) :
    history entries current = page (lit "Session history") (render (historyBody entries current)) := by
  have e1 : historyBody entries current = hHead ++ (if entries = [] then hNone else
      hTable ++ entries.flatMap (historyTags current) ++ [([], close "table")]) := rfl
  rw [e1, render_append]
  unfold history
  rw [← v1]
  by_cases h : entries = []
  · rw [if_pos h, if_pos (by simp [h]), ← v2]; rfl
  · rw [if_neg h, if_neg (by simpa using h), render_append, render_append, render_flatMap, ← v3, ← v4,
      flatMap_congr' (fun x hx => history_row current x (he x hx))]
    rfl

theorem demo_usual : Usual HtmlTok.demo where
  title g sc as := by
    simp only [HtmlTok.demo, List.getLast?_append, List.getLast?_singleton, Option.some_or]
    exact if_pos rfl
  style g sc as := by
    simp only [HtmlTok.demo, List.getLast?_append, List.getLast?_singleton, Option.some_or]
    rw [if_neg (by decide +kernel)]
    exact if_pos rfl
  other g n sc as h := by
    have hn : n ≠ "title".toList ∧ n ≠ "style".toList ∧ n ≠ "script".toList ∧ n ≠ "plaintext".toList := by
      refine ⟨?_, ?_, ?_, ?_⟩ <;> rintro rfl <;> exact h (by decide +kernel)
    simp only [HtmlTok.demo, List.getLast?_append, List.getLast?_singleton, Option.some_or]
    rw [if_neg hn.1, if_neg hn.2.1, if_neg hn.2.2.1, if_neg hn.2.2.2]
  rest g k h := by
    simp only [HtmlTok.demo, List.getLast?_append, List.getLast?_singleton, Option.some_or]
    cases k with
    | startTag n sc as => exact absurd rfl (h n sc as)
    | _ => rfl

/-- **C130** The page of the history: whatever the titles of the pages in the history are, the tokenizer
of the engine reads the page as a fixed frame of tags with the titles and addresses as texts, and the
addresses as the targets of the links. No title brings markup into the page. -/
theorem C130_history (env : Env) (hE : env.names = CharRef.tokenNamedChars) (p : Parser) (hu : Usual p)
    (entries : List Entry) (current : Option Nat) (he : ∀ e ∈ entries, Address e.url) :
    HtmlTok.Yields env p (history entries current) .data
      (pageTokens (lit "Session history") (historyBody entries current) ++ [.eof]) := by
  have h := page_yields hE hu (lit "Session history") (historyBody entries current) (by decide) (by decide +kernel)
    (history_plain hu entries current he)
  rw [history_text entries current he]; exact h

/-- the hypotheses of `C130_history`, with a title that is markup -/
example : HtmlTok.Yields HtmlTok.demoEnv HtmlTok.demo
    (history [⟨0, none, some (lit "<script>alert(1)</script>"), lit "http://a/?x=1&y=\""⟩] (some 0)) .data
    (pageTokens (lit "Session history")
      (historyBody [⟨0, none, some (lit "<script>alert(1)</script>"), lit "http://a/?x=1&y=\""⟩] (some 0)) ++ [.eof]) :=
  C130_history _ rfl _ demo_usual _ _ (by unfold Address; decide +kernel)

/-! ## Settings -/

def cHead : List (Str × Token) :=
  [([], tag "h1"), (lit "Engine settings", close "h1"), ([], tag "p" [("class", lit "sub")]),
   (lit "Read-only dump of the settings store; bold rows differ from their default.", close "p"),
   ([], tag "table"), ([], tag "tr"), ([], tag "th"), (lit "Key", close "th"), ([], tag "th"),
   (lit "Value", close "th"), ([], tag "th"), (lit "Default", close "th"), ([], tag "th"),
   (lit "Description", close "th"), ([], close "tr")]

theorem c1 : "<h1>Engine settings</h1><p class=\"sub\">Read-only dump of the settings store; bold rows differ from their default.</p><table><tr><th>Key</th><th>Value</th><th>Default</th><th>Description</th></tr>".toList =
    render cHead := by decide +kernel
theorem c2 : "><td><code>".toList = ">".toList ++ (print (tag "td") ++ print (tag "code")) := by decide +kernel
theorem c3 : "</code></td><td><code>".toList =
    print (close "code") ++ (print (close "td") ++ (print (tag "td") ++ print (tag "code"))) := by decide +kernel
theorem c4 : "</code></td><td class=\"muted\"><code>".toList =
    print (close "code") ++ (print (close "td") ++ (print (tag "td" [("class", lit "muted")]) ++ print (tag "code"))) := by
  decide +kernel
theorem c5 : "</code></td><td>".toList = print (close "code") ++ (print (close "td") ++ print (tag "td")) := by decide +kernel
theorem c6 : "</td></tr>".toList = print (close "td") ++ print (close "tr") := by decide +kernel

theorem config_row (s : Setting) : render (configTags s) = configRow s := by
  unfold configTags configRow
  cases s.differs with
  | true =>
    simp only [if_true, render_cons, render_nil, esc_nil, List.nil_append, h8a, c2, c3, c4, c5, c6,
      List.append_assoc, List.append_nil]
  | false =>
    simp only [Bool.false_eq_true, if_false, render_cons, render_nil, esc_nil, List.nil_append, h8b, c2, c3, c4, c5, c6,
      List.append_assoc, List.append_nil]

theorem config_text (settings : List Setting) :
    config settings = page (lit "Engine settings") (render (configBody settings)) := by
  have e1 : configBody settings = cHead ++ settings.flatMap configTags ++ [([], close "table")] := rfl
  rw [e1, render_append, render_append, render_flatMap, flatMap_congr' (fun x _ => config_row x), ← c1, ← v4]
  rfl

theorem config_plain {p : Parser} (hu : Usual p) (settings : List Setting) :
    ∀ x ∈ configBody settings, Plain p x.2 := by
  have c : ∀ n : String, nameOk n.toList = true → Plain p (close n) := plain_close hu
  have t : ∀ n : String, (nameOk n.toList && !special.contains n.toList) = true → Plain p (tag n) := plain_tag hu
  have t1 : ∀ (n k : String) (v : Str), (nameOk n.toList && !special.contains n.toList && nameOk k.toList) = true →
      Char.ofNat 0 ∉ v → Plain p (tag n [(k, v)]) := plain_tag1 hu
  have row : ∀ s, ∀ x ∈ configTags s, Plain p x.2 := by
    intro s x hx
    unfold configTags at hx
    simp only [List.mem_cons, List.not_mem_nil, or_false] at hx
    rcases hx with rfl | rfl | rfl | rfl | rfl | rfl | rfl | rfl | rfl | rfl | rfl | rfl | rfl | rfl | rfl | rfl
    · simp only
      split
      · exact t1 _ _ _ (by decide +kernel) (by decide +kernel)
      · exact t _ (by decide +kernel)
    all_goals first
      | exact t _ (by decide +kernel)
      | exact c _ (by decide +kernel)
      | exact t1 _ _ _ (by decide +kernel) (by decide +kernel)
  intro x hx
  have e1 : configBody settings = cHead ++ settings.flatMap configTags ++ [([], close "table")] := rfl
  rw [e1, List.mem_append, List.mem_append] at hx
  rcases hx with (hx | hx) | hx
  · simp only [cHead, List.mem_cons, List.not_mem_nil, or_false] at hx
    rcases hx with rfl | rfl | rfl | rfl | rfl | rfl | rfl | rfl | rfl | rfl | rfl | rfl | rfl | rfl | rfl
    all_goals first
      | exact t _ (by decide +kernel)
      | exact c _ (by decide +kernel)
      | exact t1 _ _ _ (by decide +kernel) (by decide +kernel)
  · obtain ⟨s, _, hx⟩ := List.mem_flatMap.1 hx
    exact row s x hx
  · rw [List.mem_singleton] at hx
    subst hx
    exact c _ (by decide +kernel)

/-- **C130** The page of the settings: keys, values, defaults and descriptions are read as texts,
whatever they are. -/
theorem C130_config (env : Env) (hE : env.names = CharRef.tokenNamedChars) (p : Parser) (hu : Usual p)
    (settings : List Setting) :
    HtmlTok.Yields env p (config settings) .data
      (pageTokens (lit "Engine settings") (configBody settings) ++ [.eof]) := by
  rw [config_text]
  exact page_yields hE hu (lit "Engine settings") (configBody settings) (by decide +kernel) (by decide +kernel)
    (config_plain hu settings)

example : HtmlTok.Yields HtmlTok.demoEnv HtmlTok.demo (config [⟨lit "a.b", lit "</table>&", lit "", true, lit "\"x\""⟩]) .data
    (pageTokens (lit "Engine settings") (configBody [⟨lit "a.b", lit "</table>&", lit "", true, lit "\"x\""⟩]) ++ [.eof]) :=
  C130_config _ rfl _ demo_usual _

/-! ## Version -/

def vTags (r : Str × Str) : List (Str × Token) :=
  [([], tag "tr"), ([], tag "th"), (r.1, close "th"), ([], tag "td"), ([], tag "code"), (r.2, close "code"),
   ([], close "td"), ([], close "tr")]

def vHead : List (Str × Token) := [([], tag "h1"), (lit "Version", close "h1"), ([], tag "table")]

theorem r1 : "<h1>Version</h1><table>".toList = render vHead := by decide +kernel
theorem r2 : "<tr><th>".toList = print (tag "tr") ++ print (tag "th") := by decide +kernel
theorem r3 : "</th><td><code>".toList = print (close "th") ++ (print (tag "td") ++ print (tag "code")) := by decide +kernel
theorem r4 : "</code></td></tr>".toList = print (close "code") ++ (print (close "td") ++ print (close "tr")) := by
  decide +kernel

theorem version_row (r : Str × Str) : render (vTags r) =
    "<tr><th>".toList ++ esc r.1 ++ "</th><td><code>".toList ++ esc r.2 ++ "</code></td></tr>".toList := by
  unfold vTags
  simp only [render_cons, render_nil, esc_nil, List.nil_append, r2, r3, r4, List.append_assoc, List.append_nil]

theorem version_text (rows : List (Str × Str)) : version rows = page (lit "Version") (render (versionBody rows)) := by
  have e1 : versionBody rows = vHead ++ rows.flatMap vTags ++ [([], close "table")] := rfl
  rw [e1, render_append, render_append, render_flatMap, flatMap_congr' (fun x _ => version_row x), ← r1, ← v4]
  rfl

theorem version_plain {p : Parser} (hu : Usual p) (rows : List (Str × Str)) :
    ∀ x ∈ versionBody rows, Plain p x.2 := by
  intro x hx
  have e1 : versionBody rows = vHead ++ rows.flatMap vTags ++ [([], close "table")] := rfl
  rw [e1, List.mem_append, List.mem_append] at hx
  rcases hx with (hx | hx) | hx
  · simp only [vHead, List.mem_cons, List.not_mem_nil, or_false] at hx
    rcases hx with rfl | rfl | rfl
    all_goals first
      | exact plain_tag hu _ (by decide +kernel)
      | exact plain_close hu _ (by decide +kernel)
  · obtain ⟨s, _, hx⟩ := List.mem_flatMap.1 hx
    simp only [vTags, List.mem_cons, List.not_mem_nil, or_false] at hx
    rcases hx with rfl | rfl | rfl | rfl | rfl | rfl | rfl | rfl
    all_goals first
      | exact plain_tag hu _ (by decide +kernel)
      | exact plain_close hu _ (by decide +kernel)
  · rw [List.mem_singleton] at hx
    subst hx
    exact plain_close hu _ (by decide +kernel)

/-- **C130** The page of the version. -/
theorem C130_version (env : Env) (hE : env.names = CharRef.tokenNamedChars) (p : Parser) (hu : Usual p)
    (rows : List (Str × Str)) :
    HtmlTok.Yields env p (version rows) .data (pageTokens (lit "Version") (versionBody rows) ++ [.eof]) := by
  rw [version_text]
  exact page_yields hE hu (lit "Version") (versionBody rows) (by decide +kernel) (by decide +kernel)
    (version_plain hu rows)

example : HtmlTok.Yields HtmlTok.demoEnv HtmlTok.demo (version [(lit "Engine", lit "0.1.0 <dev>")]) .data
    (pageTokens (lit "Version") (versionBody [(lit "Engine", lit "0.1.0 <dev>")]) ++ [.eof]) :=
  C130_version _ rfl _ demo_usual _

/-! ## Unknown pages -/

def nTags (n : Str) : List (Str × Token) :=
  [([], tag "li"), ([], tag "a" [("href", lit "gosub://" ++ n)]), ([], tag "code"),
   (lit "gosub://" ++ n, close "code"), ([], close "a"), ([], close "li")]

def nHead (url : Str) : List (Str × Token) :=
  [([], tag "h1"), (lit "No such internal page", close "h1"), ([], tag "p" [("class", lit "sub")]), ([], tag "code"),
   (url, close "code"), (lit " is not a page this engine knows.", close "p"), ([], tag "h2"),
   (lit "Available", close "h2"), ([], tag "ul")]

theorem n1 : "<h1>No such internal page</h1><p class=\"sub\"><code>".toList =
    render [([], tag "h1"), (lit "No such internal page", close "h1"), ([], tag "p" [("class", lit "sub")]),
      ([], tag "code")] := by decide +kernel
theorem n2 : "</code> is not a page this engine knows.</p><h2>Available</h2><ul>".toList = print (close "code") ++
    render [(lit " is not a page this engine knows.", close "p"), ([], tag "h2"), (lit "Available", close "h2"),
      ([], tag "ul")] := by decide +kernel
theorem n3 : "<li><a href=\"gosub://".toList = print (tag "li") ++ ("<a href=\"".toList ++ "gosub://".toList) := by
  decide +kernel
theorem n4 : "\"><code>gosub://".toList = "\">".toList ++ (print (tag "code") ++ "gosub://".toList) := by decide +kernel
theorem n5 : "</code></a></li>".toList = print (close "code") ++ (print (close "a") ++ print (close "li")) := by
  decide +kernel
theorem n6 : "</ul>".toList = render [([], close "ul")] := by decide +kernel
theorem n7 : esc (lit "gosub://") = "gosub://".toList := by decide +kernel

theorem esc_append (a b : Str) : esc (a ++ b) = esc a ++ esc b := by simp [esc]

theorem n_row (n : Str) (h1' : esc n = n) (h2 : Address n) : render (nTags n) =
    "<li><a href=\"gosub://".toList ++ n ++ "\"><code>gosub://".toList ++ n ++ "</code></a></li>".toList := by
  have ha : Address (lit "gosub://" ++ n) := by
    intro c hc
    rw [List.mem_append] at hc
    rcases hc with hc | hc
    · exact (by unfold Address; decide +kernel : Address (lit "gosub://")) c hc
    · exact h2 c hc
  have e : esc (lit "gosub://" ++ n) = "gosub://".toList ++ n := by rw [esc_append, h1', n7]
  have p1 : print (tag "a" [("href", lit "gosub://" ++ n)]) =
      "<a href=\"".toList ++ esc (lit "gosub://" ++ n) ++ "\">".toList :=
    (print_tag1 _ _ _ (address_plain ha).1).trans (h1 _).symm
  unfold nTags
  simp only [render_cons, render_nil, esc_nil, List.nil_append, p1, e, n3, n4, n5, List.append_assoc, List.append_nil]

theorem n_head (url : Str) : render (nHead url) = "<h1>No such internal page</h1><p class=\"sub\"><code>".toList ++
    esc url ++ "</code> is not a page this engine knows.</p><h2>Available</h2><ul>".toList := by
  have e : nHead url = [([], tag "h1"), (lit "No such internal page", close "h1"), ([], tag "p" [("class", lit "sub")]),
      ([], tag "code")] ++ ((url, close "code") :: [(lit " is not a page this engine knows.", close "p"), ([], tag "h2"),
      (lit "Available", close "h2"), ([], tag "ul")]) := rfl
  rw [e, render_append, ← n1, render_cons, List.append_assoc]
  exact congrArg _ (congrArg _ n2.symm)

theorem notFound_text (url : Str) (known : List Str) (hk : ∀ n ∈ known, esc n = n ∧ Address n) :
    notFound url known = page (lit "No such page") (render (notFoundBody url known)) := by
  have e1 : notFoundBody url known = nHead url ++ known.flatMap nTags ++ [([], close "ul")] := rfl
  rw [e1, render_append, render_append, render_flatMap, n_head, ← n6,
    flatMap_congr' (fun x hx => n_row x (hk x hx).1 (hk x hx).2)]
  rfl

theorem notFound_plain {p : Parser} (hu : Usual p) (url : Str) (known : List Str) (hk : ∀ n ∈ known, Address n) :
    ∀ x ∈ notFoundBody url known, Plain p x.2 := by
  intro x hx
  have e1 : notFoundBody url known = nHead url ++ known.flatMap nTags ++ [([], close "ul")] := rfl
  rw [e1, List.mem_append, List.mem_append] at hx
  rcases hx with (hx | hx) | hx
  · simp only [nHead, List.mem_cons, List.not_mem_nil, or_false] at hx
    rcases hx with rfl | rfl | rfl | rfl | rfl | rfl | rfl | rfl | rfl
    all_goals first
      | exact plain_tag hu _ (by decide +kernel)
      | exact plain_close hu _ (by decide +kernel)
      | exact plain_tag1 hu _ _ _ (by decide +kernel) (by decide +kernel)
  · obtain ⟨s, hs, hx⟩ := List.mem_flatMap.1 hx
    simp only [nTags, List.mem_cons, List.not_mem_nil, or_false] at hx
    rcases hx with rfl | rfl | rfl | rfl | rfl | rfl
    · exact plain_tag hu _ (by decide +kernel)
    · refine plain_tag1 hu _ _ _ (by decide +kernel) ?_
      intro hc
      rw [List.mem_append] at hc
      rcases hc with hc | hc
      · revert hc; decide +kernel
      · exact (address_plain (hk s hs)).2 hc
    · exact plain_tag hu _ (by decide +kernel)
    · exact plain_close hu _ (by decide +kernel)
    · exact plain_close hu _ (by decide +kernel)
    · exact plain_close hu _ (by decide +kernel)
  · rw [List.mem_singleton] at hx
    subst hx
    exact plain_close hu _ (by decide +kernel)

/-- **C130** The page for an address that names no page: the address is read as text, whatever it is.
Missing: the names of the known pages are put into the page as they are, so this needs them to be free
of markup; see `C130_names_violated`. -/
theorem C130_not_found_partial (env : Env) (hE : env.names = CharRef.tokenNamedChars) (p : Parser) (hu : Usual p)
    (url : Str) (known : List Str)
    (hk : ∀ n ∈ known, Address n ∧ ∀ c ∈ n, c ≠ '&' ∧ c ≠ '<' ∧ c ≠ '>' ∧ c ≠ '"') :
    HtmlTok.Yields env p (notFound url known) .data
      (pageTokens (lit "No such page") (notFoundBody url known) ++ [.eof]) := by
  rw [notFound_text url known (fun n hn => ⟨esc_id (hk n hn).2, (hk n hn).1⟩)]
  exact page_yields hE hu (lit "No such page") (notFoundBody url known) (by decide +kernel) (by decide +kernel)
    (notFound_plain hu url known (fun n hn => (hk n hn).1))

example : HtmlTok.Yields HtmlTok.demoEnv HtmlTok.demo (notFound (lit "gosub://<b>") [lit "version", lit "history"]) .data
    (pageTokens (lit "No such page") (notFoundBody (lit "gosub://<b>") [lit "version", lit "history"]) ++ [.eof]) :=
  C130_not_found_partial _ rfl _ demo_usual _ _ (by unfold Address; decide +kernel)

theorem glue3 {A B C x1 x2 x3 x4 x5 x6 t s b r D : Str} (hA : A = x1 ++ x2) (hB : B = x3 ++ x4) (hC : C = x5 ++ x6) :
    x1 ++ (x2 ++ t ++ x3) ++ (x4 ++ s ++ x5) ++ (x6 ++ b) ++ (r ++ D) = A ++ t ++ B ++ s ++ C ++ (b ++ r) ++ D := by
  subst hA hB hC
  simp only [List.append_assoc]

/-- a name of a page with markup in it -/
def evil : Str := lit "\"><b>"

def evilTags : List (Str × Token) := [([], tag "li"), ([], tag "a" [("href", lit "gosub://")]), ([], tag "b")]

theorem evil1 : "<li><a href=\"gosub://".toList ++ evil = render evilTags := by decide +kernel

theorem evil_text (url : Str) : ∃ r, notFound url [evil] = page (lit "No such page") (render (nHead url ++ evilTags) ++ r) := by
  refine ⟨"\"><code>gosub://".toList ++ evil ++ "</code></a></li>".toList ++ "</ul>".toList, ?_⟩
  rw [render_append (nHead url), n_head, ← evil1]
  unfold notFound
  simp only [List.flatMap_cons, List.flatMap_nil, List.append_assoc, List.append_nil]
  rfl

/-- **C130**, the case where the code breaks it: the name of a registered page can bring a tag into the
page for unknown addresses. -/
theorem C130_names_violated (env : Env) (hE : env.names = CharRef.tokenNamedChars) (p : Parser) (hu : Usual p) :
    ∃ (ops : List Op) (url : Str) (n : Nat),
      tag "b" ∈ ((HtmlTok.Run.step env p)^[n] (.start (notFound url (run (withBuiltins []) ops).names) .data)).got ∧
      tag "b" ∉ pageTokens (lit "No such page") (notFoundBody url (run (withBuiltins []) ops).names) := by
  have e : (run (withBuiltins []) [.register evil (fun _ => none)]).names = [evil] := rfl
  have d1 := pre_plain hu
  have d2 : ∀ x ∈ mid ++ (nHead (lit "gosub://a") ++ evilTags), Plain p x.2 := by
    intro x hx
    rw [List.mem_append, List.mem_append] at hx
    rcases hx with hx | hx | hx
    · exact mid_plain hu x hx
    · refine notFound_plain hu (lit "gosub://a") [] (by simp) x ?_
      have e1 : notFoundBody (lit "gosub://a") [] = nHead (lit "gosub://a") ++ [([], close "ul")] := rfl
      rw [e1, List.mem_append]; exact .inl hx
    · simp only [evilTags, List.mem_cons, List.not_mem_nil, or_false] at hx
      rcases hx with rfl | rfl | rfl
      · exact plain_tag hu _ (by decide +kernel)
      · exact plain_tag1 hu _ _ _ (by decide +kernel) (by decide +kernel)
      · exact plain_tag hu _ (by decide +kernel)
  have ht : ∀ c ∈ lit "No such page", c ≠ '&' ∧ c ≠ '<' ∧ c ≠ '>' ∧ c ≠ '"' ∧ c ≠ Char.ofNat 0 := by decide +kernel
  have e1 := frame_eof d1
  have e2 : Token.eof ∉ [tag "title"] ++ txt (lit "No such page") ++ [close "title"] := by
    unfold txt; split <;> simp [tag, close]
  have e3 : Token.eof ∉ [tag "style"] ++ txt css ++ [close "style"] := by
    unfold txt; split <;> simp [tag, close]
  have e12 : Token.eof ∉ frame pre ++ ([tag "title"] ++ txt (lit "No such page") ++ [close "title"]) := by
    rw [List.mem_append, not_or]; exact ⟨e1, e2⟩
  have e123 : Token.eof ∉ frame pre ++ ([tag "title"] ++ txt (lit "No such page") ++ [close "title"]) ++
      ([tag "style"] ++ txt css ++ [close "style"]) := by
    rw [List.mem_append, not_or]; exact ⟨e12, e3⟩
  have y := (((reads_frame hE _ d1).append (title_reads hE hu ht) e1).append (style_reads hE hu) e12).append
    (reads_frame hE _ d2) e123
  obtain ⟨r, hr⟩ := evil_text (lit "gosub://a")
  have w : notFound (lit "gosub://a") [evil] = _ := hr.trans
    (glue3 (t := esc (lit "No such page")) (s := css) (b := render (nHead (lit "gosub://a") ++ evilTags)) (r := r)
      (D := "</body></html>".toList) w1 w2 w3).symm
  rw [show esc (lit "No such page") = lit "No such page" from by decide +kernel,
    ← render_append mid (nHead (lit "gosub://a") ++ evilTags)] at w
  unfold render at w
  obtain ⟨r1, ⟨n, hn⟩, hr1⟩ := y [] (.start (notFound (lit "gosub://a") [evil]) .data) (r ++ "</body></html>".toList)
    (by simp) ⟨none, [], [], by rw [w]; rfl⟩
  refine ⟨[.register evil (fun _ => none)], lit "gosub://a", n, ?_, ?_⟩
  · rw [e, hn]
    obtain ⟨_, _, _, rfl⟩ := hr1
    simp only [List.nil_append]
    rw [List.mem_append]
    refine .inr ?_
    decide +kernel
  · rw [e]; decide +kernel

end Verif.Pages
