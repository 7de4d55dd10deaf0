import Verif.HtmlTok.Trip3

/-!
# C91: tokens written out and read again
-/

namespace Verif.HtmlTok

section
variable {env : Env} (hE : env.names = CharRef.tokenNamedChars) (p : Parser)

include hE in
theorem ready_tag {got : List Token} (hg : .eof ∉ got) {k : Token} (hk : Printable k) (ht : ∀ s, k ≠ .text s) {co rest : Str} {r : Run}
    (hr : Ready co (print k ++ rest) got r) (hs : p.switch (got ++ flush co ++ [k]) = none) :
    ∃ r', Goes env p r r' ∧ Ready [] rest (got ++ flush co ++ [k]) r' := by
  cases k with
  | text s => exact absurd rfl (ht s)
  | eof => exact absurd hk id
  | startTag n sc as => exact ready_start hE p hg hk.1 hk.2.1 hk.2.2 hr hs
  | endTag n => exact ready_end p hg hk hr hs
  | comment s => exact ready_comment p hg hk hr hs
  | doctype n q x y =>
    obtain ⟨⟨m, rfl, hm⟩, rfl, rfl, rfl⟩ := hk
    exact ready_doctype p hg hm hr hs

theorem ready_eof {got : List Token} (hg : .eof ∉ got) {co : Str} {r : Run} (hr : Ready co [] got r) :
    ∃ r', Goes env p r r' ∧ r'.got = got ++ flush co ++ [.eof] := by
  obtain ⟨cur, tmp, ls, rfl⟩ := hr
  have h : ∃ t, step env (p.foreign got) ⟨[], .data, co, [], [], [], cur, tmp, [], ls⟩ = t ∧ t.queue = flush co ++ [.eof] :=
    ⟨_, rfl, by by_cases hco : co = [] <;> simp [step, Tok.emit, Tok.noteStart, flush, hco]⟩
  obtain ⟨t, h1, h2⟩ := h
  exact ⟨_, ((TGo.one rfl h1).goes hg).trans (goes_queue hg h2), rfl⟩

theorem printable_eof {toks : List Token} (h : ∀ k ∈ toks, Printable k) : .eof ∉ toks := fun he => h _ he

include hE in
theorem ready_all (rem : List Token) : ∀ (got : List Token) (co : Str) (r : Run), .eof ∉ got → (∀ k ∈ rem, Printable k) →
    (∀ a b s s', flush co ++ rem ≠ a ++ .text s :: .text s' :: b) → (∀ g, g <+: got ++ flush co ++ rem → p.switch g = none) →
    Ready co (rem.flatMap print) got r → ∃ r', Goes env p r r' ∧ r'.got = got ++ flush co ++ rem ++ [.eof] := by
  induction rem with
  | nil =>
    intro got co r hg _ _ _ hr
    simpa using ready_eof p hg hr
  | cons k rem ih =>
    intro got co r hg hP hA hs hr
    have hk := hP k (by simp)
    rw [List.flatMap_cons] at hr
    by_cases ht : ∃ s, k = .text s
    · obtain ⟨s, rfl⟩ := ht
      have hco : co = [] := by
        by_contra hne
        refine hA [] rem co s ?_
        simp [flush, hne]
      subst hco
      obtain ⟨r1, g1, h1⟩ := ready_text hE p hg (s := s) hr
      have hs0 : s ≠ [] := hk
      have ef : flush ([] ++ s) = [.text s] := by simp [flush, hs0]
      obtain ⟨r2, g2, h2⟩ := ih got ([] ++ s) r1 hg (fun x hx => hP x (by simp [hx])) (by rw [ef]; simpa [flush] using hA)
        (by rw [ef]; simpa [flush] using hs) h1
      refine ⟨r2, g1.trans g2, ?_⟩
      rw [h2, ef]
      simp [flush]
    · have ht' : ∀ s, k ≠ .text s := fun s h => ht ⟨s, h⟩
      obtain ⟨r1, g1, h1⟩ := ready_tag hE p hg hk ht' hr (hs _ ⟨rem, by simp⟩)
      have hg1 : .eof ∉ got ++ flush co ++ [k] := by
        rw [List.mem_append, List.mem_append, not_or, not_or, List.mem_singleton]
        refine ⟨⟨hg, ?_⟩, ?_⟩
        · by_cases hco : co = [] <;> simp [flush, hco]
        · rintro rfl; exact hk
      obtain ⟨r2, g2, h2⟩ := ih _ [] r1 hg1 (fun x hx => hP x (by simp [hx])) (fun a b s s' he => hA (flush co ++ k :: a) b s s' (by
          have e : flush ([] : Str) = [] := rfl
          rw [e, List.nil_append] at he; rw [he]; simp)) (fun g hgp => hs g (by simpa [flush] using hgp)) h1
      refine ⟨r2, g1.trans g2, ?_⟩
      rw [h2]
      simp [flush]

end

/-- **C91**: a list of tokens written out as the standard serialises them, and read, gives back the same tokens: text and
attribute values may hold anything but NUL in a value, comments anything that does not end them. -/
theorem C91_round_trip (env : Env) (hE : env.names = CharRef.tokenNamedChars) (p : Parser) (toks : List Token)
    (hP : ∀ k ∈ toks, Printable k) (hA : ∀ a b s s', toks ≠ a ++ .text s :: .text s' :: b)
    (hs : ∀ got, got <+: toks → p.switch got = none) : Yields env p (toks.flatMap print) .data (toks ++ [.eof]) := by
  obtain ⟨r', ⟨n, hn⟩, h⟩ := ready_all hE p toks [] [] (.start (toks.flatMap print) .data) (by simp) hP
    (by simpa [flush] using hA) (by simpa [flush] using hs) ⟨none, [], [], rfl⟩
  exact ⟨n, by rw [hn, h]; simp [flush], by simp⟩

/-- an example with everything in it -/
def demoToks : List Token :=
  [.doctype (some "html".toList) false none none, .startTag "p".toList false [("title".toList, "a\"&<b>".toList), ("x".toList, [])],
   .text "1 < 2 & 3 >   &lt; \x00".toList, .endTag "p".toList, .comment "-- <!-- - --!".toList, .startTag "br".toList true []]

def isText : Option Token → Bool
  | some (.text _) => true
  | _ => false

theorem apart_of {toks : List Token} (h : ∀ i < toks.length, isText toks[i]? = false ∨ isText toks[i + 1]? = false)
    (a b : List Token) (s s' : Str) : toks ≠ a ++ .text s :: .text s' :: b := by
  rintro rfl
  have := h a.length (by simp)
  simp [isText] at this

theorem prefixes_of {toks : List Token} {p : Parser} (h : ∀ n ≤ toks.length, p.switch (toks.take n) = none) (g : List Token)
    (hg : g <+: toks) : p.switch g = none := by
  rw [List.prefix_iff_eq_take.1 hg]
  exact h _ hg.length_le

theorem demoToks_printable : ∀ k ∈ demoToks, Printable k := by
  intro k hk
  simp only [demoToks, List.mem_cons, List.not_mem_nil, or_false] at hk
  rcases hk with rfl | rfl | rfl | rfl | rfl | rfl
  · exact ⟨⟨_, rfl, ⟨'h', rfl, by decide, by decide⟩, by unfold NameChar; decide +kernel⟩, rfl, rfl, rfl⟩
  · exact ⟨⟨⟨'p', rfl, by decide, by decide⟩, by unfold NameChar; decide +kernel⟩,
      ⟨by decide +kernel, by unfold NameChar; decide +kernel⟩, by decide +kernel⟩
  · exact (List.cons_ne_nil _ _ : _ ≠ ([] : Str))
  · exact ⟨⟨'p', rfl, by decide, by decide⟩, by unfold NameChar; decide +kernel⟩
  · exact ⟨by decide +kernel, by decide +kernel, by decide +kernel, by decide +kernel, by decide +kernel⟩
  · exact ⟨⟨⟨'b', rfl, by decide, by decide⟩, by unfold NameChar; decide +kernel⟩, ⟨by decide +kernel, by simp⟩, by simp⟩

example : Yields demoEnv demo (demoToks.flatMap print) .data (demoToks ++ [.eof]) :=
  C91_round_trip demoEnv rfl demo demoToks demoToks_printable (apart_of (by decide +kernel)) (prefixes_of (by decide +kernel))

end Verif.HtmlTok
