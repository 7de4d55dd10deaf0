import Verif.ByteStream.Lemmas3
import Mathlib.Tactic.Common
/-! # C01–C06, C59: properties of the character stream -/
set_option linter.unusedVariables false
namespace Verif.ByteStream
open Character Spec

/-! ## Helper facts about histories -/

theorem move_state (s : Stream) (op : Op) (h : isMove op = true) :
    step s op = { s with charPos := (step s op).charPos, lastLineIdx := (step s op).lastLineIdx } := by
  cases op <;> simp [isMove] at h
  case readAndNext =>
    simp only [step]; rw [readAndNext_state]
  case nextN n => rfl
  case prevN n =>
    simp only [step]
    induction n generalizing s with
    | zero => rfl
    | succ n ih => simp only [prevN]; rw [ih (prev s), prev_state]
  case seek o => rfl
  case getSlice n => simp only [step, getSlice_state]
  case location => rfl
  case reset => rfl

theorem moves_state (s : Stream) (ops : List Op) (h : ops.all isMove = true) :
    run s ops = { s with charPos := (run s ops).charPos, lastLineIdx := (run s ops).lastLineIdx } := by
  induction ops generalizing s with
  | nil => rfl
  | cons op ops ih =>
    simp at h
    have e : run s (op :: ops) = run (step s op) ops := rfl
    rw [e, ih (step s op) (by simpa using h.2), move_state s op h.1]

theorem tracks_setPos {s : Stream} (h : Tracks s) {p i : Nat} (hp : p ≤ s.chars.length) :
    Tracks { s with charPos := p, lastLineIdx := i } := by
  obtain ⟨⟨⟨h1, h2, h3, h4, h5, h6, h7⟩, h8⟩, h9, h10⟩ := h
  exact ⟨⟨⟨h1, h2, h3, h4, h5, h6, h7⟩, hp⟩, h9, h10⟩

theorem feed_tracks {s : Stream} {e : Encoding} {cfg : Config} (hr : ∀ bs, Resumable e cfg bs)
    (h : Tracks s) (he : s.encoding = e) (hc : s.config = cfg) (ops : List Op)
    (hf : ops.all isFeed = true) :
    Tracks (run s ops) ∧ (run s ops).encoding = e ∧ (run s ops).config = cfg ∧
      (run s ops).buffer = s.buffer ++ delivered ops := by
  induction ops generalizing s with
  | nil => exact ⟨h, he, hc, by simp [run, delivered]⟩
  | cons op ops ih =>
    simp at hf
    have e1 : run s (op :: ops) = run (step s op) ops := rfl
    rw [e1]
    by_cases hm : isMove op = true
    · have hst := move_state s op hm
      have hpos : (step s op).charPos ≤ s.chars.length := by
        have h1 := (step_inv h.toInv op).pos
        rw [hst] at h1; exact h1
      have ht : Tracks (step s op) := by rw [hst]; exact tracks_setPos h hpos
      have := ih (s := step s op) ht (by rw [hst]; exact he) (by rw [hst]; exact hc)
        (by simpa using hf.2)
      refine ⟨this.1, this.2.1, this.2.2.1, ?_⟩
      rw [this.2.2.2]
      have hb : (step s op).buffer = s.buffer := by rw [hst]
      have hd : delivered (op :: ops) = delivered ops := by
        cases op <;> first | rfl | (simp [isMove] at hm)
      rw [hb, hd]
    · obtain ⟨bs, rfl⟩ : ∃ bs, op = .append bs := by
        cases op <;> first | exact ⟨_, rfl⟩ | exact absurd rfl hm | exact absurd hf.1 (by simp [isFeed])
      have hr' : Resumable s.encoding s.config s.buffer := by rw [he, hc]; exact hr _
      have hfld := append_fields h hr' bs
      have := ih (s := append s bs) (append_tracks h hr' bs) (by rw [hfld.2.1]; exact he)
        (by rw [hfld.2.2.1]; exact hc) (by simpa using hf.2)
      refine ⟨this.1, this.2.1, this.2.2.1, ?_⟩
      simp only [step]
      rw [this.2.2.2, hfld.1]
      simp [delivered]

/-! ## C01 -/

/-- **C01.** A UTF-8 or Latin-1 stream fed any chunks, then closed, is in exactly the state (text,
offsets, line table, flags) of a stream fed the concatenation in one piece. -/
theorem C01_chunking_invisible (e : Encoding) (he : e = .utf8 ∨ e = .latin1) (cfg : Config)
    (chunks : List (List UInt8)) :
    close (chunks.foldl append (new e cfg)) = close (append (new e cfg) chunks.flatten) := by
  have hr : ∀ bs, Resumable e cfg bs := by
    rcases he with rfl | rfl
    · exact utf8_resumable cfg
    · exact latin1_resumable cfg
  have key : ∀ (chunks : List (List UInt8)) (s : Stream), Tracks s → s.encoding = e →
      s.config = cfg → s.charPos = 0 → s.lastLineIdx = 0 →
      close (chunks.foldl append s) = close (append s chunks.flatten) := by
    intro chunks s h1 h2 h3 h4 h5
    have hall : ∀ (chunks : List (List UInt8)) (s : Stream), Tracks s → s.encoding = e →
      s.config = cfg → s.charPos = 0 → s.lastLineIdx = 0 →
        Tracks (chunks.foldl append s) ∧ (chunks.foldl append s).encoding = e ∧
        (chunks.foldl append s).config = cfg ∧ (chunks.foldl append s).charPos = 0 ∧
        (chunks.foldl append s).lastLineIdx = 0 ∧
        (chunks.foldl append s).buffer = s.buffer ++ chunks.flatten := by
      intro chunks
      induction chunks with
      | nil => intro s h1 h2 h3 h4 h5; exact ⟨h1, h2, h3, h4, h5, by simp⟩
      | cons c cs ih =>
        intro s h1 h2 h3 h4 h5
        have hr' : Resumable s.encoding s.config s.buffer := by rw [h2, h3]; exact hr _
        have hfld := append_fields h1 hr' c
        have := ih (append s c) (append_tracks h1 hr' c) (by rw [hfld.2.1, h2])
          (by rw [hfld.2.2.1, h3]) (by rw [hfld.2.2.2.1, h4]) (by rw [hfld.2.2.2.2, h5])
        simp only [List.foldl_cons]
        refine ⟨this.1, this.2.1, this.2.2.1, this.2.2.2.1, this.2.2.2.2.1, ?_⟩
        rw [this.2.2.2.2.2, hfld.1]; simp
    obtain ⟨t1, t2, t3, t4, t5, t6⟩ := hall chunks s h1 h2 h3 h4 h5
    obtain ⟨u1, u2, u3, u4, u5, u6⟩ := hall [chunks.flatten] s h1 h2 h3 h4 h5
    simp only [List.foldl_cons, List.foldl_nil, List.flatten_cons, List.flatten_nil,
      List.append_nil] at u1 u2 u3 u4 u5 u6
    rw [close_eq t1 (by rw [t2, t3]; exact hr _), close_eq u1 (by rw [u2, u3]; exact hr _)]
    simp only [t2, t3, t4, t5, t6, u2, u3, u4, u5, u6]
  exact key chunks _ (new_tracks e cfg) rfl rfl rfl rfl

/-- **C01**, with reads, seeks and location queries interleaved between the chunks: the text seen,
its byte offsets and its line table only depend on the concatenation of the bytes delivered. -/
theorem C01_chunking_invisible_interleaved (e : Encoding) (he : e = .utf8 ∨ e = .latin1)
    (cfg : Config) (ops : List Op) (hf : ops.all isFeed = true) :
    (close (run (new e cfg) ops)).chars = (close (append (new e cfg) (delivered ops))).chars ∧
    (close (run (new e cfg) ops)).offs = (close (append (new e cfg) (delivered ops))).offs ∧
    (close (run (new e cfg) ops)).lineStarts
      = (close (append (new e cfg) (delivered ops))).lineStarts := by
  have hr : ∀ bs, Resumable e cfg bs := by
    rcases he with rfl | rfl
    · exact utf8_resumable cfg
    · exact latin1_resumable cfg
  obtain ⟨t1, t2, t3, t4⟩ := feed_tracks hr (new_tracks e cfg) rfl rfl ops hf
  obtain ⟨u1, u2, u3, u4⟩ := feed_tracks hr (new_tracks e cfg) rfl rfl [.append (delivered ops)]
    (by simp [isFeed])
  have e1 : append (new e cfg) (delivered ops) = run (new e cfg) [.append (delivered ops)] := rfl
  rw [e1, close_eq t1 (by rw [t2, t3]; exact hr _), close_eq u1 (by rw [u2, u3]; exact hr _)]
  simp only [t2, t3, t4, u2, u3, u4, delivered, List.append_nil]
  exact ⟨trivial, trivial, trivial⟩

/-- **C01**, anchored in Unicode: if the bytes delivered, in whatever pieces and with whatever reads
in between, are the UTF-8 encoding of a text, the reader sees exactly that text. -/
theorem C01_utf8_text_exact (cfg : Config) (ops : List Op) (hf : ops.all isFeed = true)
    (t : List Char) (ht : delivered ops = encode t) :
    (close (run (new .utf8 cfg) ops)).chars = ofText t := by
  obtain ⟨t1, t2, t3, t4⟩ := feed_tracks (utf8_resumable cfg) (new_tracks .utf8 cfg) rfl rfl ops hf
  rw [close_eq t1 (by rw [t2, t3]; exact utf8_resumable _ _)]
  simp only [t2, t3, t4, ht]
  show List.map (·.2) (decodeItems Encoding.utf8 cfg true 0 ([] ++ encode t)).1 = _
  simp only [List.nil_append, decodeItems, decodeUtf8_eq_flat]
  exact (flat_encode true 0 t).1

/-- A euro sign cut after each of its bytes, with a read attempt in the middle of it. -/
example : [Op.append [0xE2], .readAndNext, .append [0x82], .location, .append [0xAC]].all isFeed = true
    ∧ delivered [Op.append [0xE2], .readAndNext, .append [0x82], .location, .append [0xAC]]
      = encode ['€'] := by decide

/-! ## C02 -/

/-- **C02.** In every reachable state, whatever was appended, read, sought or asked for before, the
reported line and column are those obtained by scanning the decoded text from its start. -/
theorem C02_location_exact (s : Stream) (h : Reachable s) :
    ((location s).1.line, (location s).1.column) = lineCol s.config s.chars s.charPos := by
  obtain ⟨e, cfg, ops, rfl⟩ := h
  rw [location_eq (run_inv (new_inv e cfg) ops)]

/-- **C02** on text: deliver the UTF-8 encoding of `t` in any pieces with any reads, seeks and
location queries in between; after closing, the location at character position `p` has the line and
column found by scanning `t`, and the byte offset is the encoded length of the first `p` characters. -/
theorem C02_location_text (cfg : Config) (ops : List Op) (hf : ops.all isFeed = true)
    (t : List Char) (ht : delivered ops = encode t) (p : Nat) (hp : p ≤ t.length) :
    (location (nextN (resetStream (close (run (new .utf8 cfg) ops))) p)).1 =
      { line := (lineCol cfg (ofText t) p).1
        column := (lineCol cfg (ofText t) p).2
        offset := (encode (t.take p)).length } := by
  have hi : Inv (nextN (resetStream (close (run (new .utf8 cfg) ops))) p) :=
    nextN_inv (setPos_inv (close_inv (run_inv (new_inv _ _) ops)).toInv0 (Nat.zero_le _)).toInv0 _
  rw [location_eq hi]
  obtain ⟨t1, t2, t3, t4⟩ := feed_tracks (utf8_resumable cfg) (new_tracks .utf8 cfg) rfl rfl ops hf
  have hce := close_eq t1 (by rw [t2, t3]; exact utf8_resumable _ _)
  have hbuf : (run (new .utf8 cfg) ops).buffer = encode t := by rw [t4, ht]; rfl
  have hchars : (close (run (new .utf8 cfg) ops)).chars = ofText t := C01_utf8_text_exact cfg ops hf t ht
  have hlen : (ofText t).length = t.length := by simp [ofText]
  have hpos : (nextN (resetStream (close (run (new .utf8 cfg) ops))) p).charPos = p := by
    simp only [nextN, resetStream, hchars, hlen]; omega
  have hcfg : (close (run (new .utf8 cfg) ops)).config = cfg := by rw [hce]; exact t3
  have hoff : tellBytes (nextN (resetStream (close (run (new .utf8 cfg) ops))) p)
      = (encode (t.take p)).length := by
    unfold tellBytes
    rw [hpos]
    have ho : (close (run (new .utf8 cfg) ops)).offs = (flat true 0 (encode t)).1.map (·.1) := by
      rw [hce]; simp only [t2, hbuf, decodeItems, decodeUtf8_eq_flat]
    have hb : (close (run (new .utf8 cfg) ops)).buffer = encode t := by rw [hce]; exact hbuf
    simp only [nextN, resetStream, ho, hb]
    by_cases hlt : p < t.length
    · rw [(flat_encode true 0 t).2.2 p hlt]; simp
    · have : p = t.length := by omega
      subst this
      have hl : ((flat true 0 (encode t)).1.map (·.1)).length = t.length := by
        have := congrArg List.length (flat_encode true 0 t).1
        simp [ofText] at this ⊢; exact this
      rw [List.getElem?_eq_none (by omega)]
      simp
  rw [hoff, hpos]
  have e1 : (nextN (resetStream (close (run (new .utf8 cfg) ops))) p).chars = ofText t := hchars
  have e2 : (nextN (resetStream (close (run (new .utf8 cfg) ops))) p).config = cfg := hcfg
  rw [e1, e2]

example : Reachable (run (new .latin1 { replaceCrAsLf := true })
    [.append [65, 13], .location, .append [10, 66, 13], .nextN 3, .location, .append [67]]) ∧
    (location (run (new .latin1 { replaceCrAsLf := true })
    [.append [65, 13], .location, .append [10, 66, 13], .nextN 5, .location, .append [67]])).1
      = ⟨3, 1, 5⟩ := ⟨⟨_, _, _, rfl⟩, by decide⟩

/-! ## C03 -/

/-- **C03.** From any position reached by reading from the start, reading one character (if there is
one) and stepping back restores the stream exactly, so the same character is read again. -/
theorem C03_prev_undoes_read (s : Stream) (h : Reachable s) (n : Nat)
    (hne : exhausted (afterSlice (resetStream s) n) = false) :
    prev (readAndNext (afterSlice (resetStream s) n)).2 = afterSlice (resetStream s) n ∧
    (readAndNext (prev (readAndNext (afterSlice (resetStream s) n)).2)).1
      = (readAndNext (afterSlice (resetStream s) n)).1 := by
  obtain ⟨e, cfg, ops, rfl⟩ := h
  have hi := run_inv (new_inv e cfg) ops
  generalize run (new e cfg) ops = s at *
  have hb : Boundary (resetStream s) := by intro ⟨_, h, _⟩; simp [resetStream] at h
  have hb' := afterSlice_boundary (s := resetStream s) hi.noEnd hb n
  have hs := afterSlice_state (resetStream s) n
  have hend : streamEnd ∉ (afterSlice (resetStream s) n).chars := by rw [hs]; exact hi.noEnd
  have := prev_readAndNext hend hb' (by simpa [exhausted] using hne)
  exact ⟨this, by rw [this]⟩

example : exhausted (afterSlice (resetStream (run (new .latin1 {}) [.append [65, 13, 10, 66]])) 1)
    = false ∧ (readAndNext (afterSlice (resetStream (run (new .latin1 {})
      [.append [65, 13, 10, 66]])) 1)).1 = ch LF := by decide

/-! ## C04 -/

/-- **C04.** Reading a reachable stream from its start yields the normalised text and then the end
marker for ever. -/
theorem C04_read_all (s : Stream) (h : Reachable s) (k : Nat) :
    readSlice (resetStream s) ((normalize s.config s.chars).length + k)
      = normalize s.config s.chars ++ List.replicate k streamEnd := by
  obtain ⟨e, cfg, ops, rfl⟩ := h
  have hi := run_inv (new_inv e cfg) ops
  exact readSlice_normalize (s := resetStream (run (new e cfg) ops)) hi.noEnd k [] _ rfl rfl

/-- **C04.** The position never passes the end, and the text has no end marker inside it, so the
first end marker means the whole text was read. -/
theorem C04_position_bounded (s : Stream) (h : Reachable s) :
    s.charPos ≤ s.chars.length ∧ streamEnd ∉ s.chars := by
  obtain ⟨e, cfg, ops, rfl⟩ := h
  have hi := run_inv (new_inv e cfg) ops
  exact ⟨hi.pos, hi.noEnd⟩

theorem normalize_default (t : List Char) : normalize {} (ofText t) = ofText (collapse t) := by
  have h13 : ∀ c : Char, (ch c.toNat = ch CR) ↔ c = '\r' := by
    intro c
    simp only [Character.ch.injEq, CR]
    constructor
    · intro h
      apply Char.ext
      apply UInt32.toNat_inj.mp
      exact h
    · rintro rfl; rfl
  have h10 : ∀ c : Char, (ch c.toNat = ch LF) ↔ c = '\n' := by
    intro c
    simp only [Character.ch.injEq, LF]
    constructor
    · intro h
      apply Char.ext
      apply UInt32.toNat_inj.mp
      exact h
    · rintro rfl; rfl
  fun_induction collapse t with
  | case1 => rfl
  | case2 c => simp [ofText, normalize]
  | case3 c d rest hcd ih =>
    obtain ⟨rfl, rfl⟩ := hcd
    simp only [ofText, List.map_cons] at ih ⊢
    rw [normalize]
    rw [if_pos ((h13 _).mpr rfl), if_pos ((h10 _).mpr rfl), if_pos rfl, ih]
    rfl
  | case4 c d rest hcd ih =>
    simp only [ofText, List.map_cons] at ih ⊢
    rw [normalize]
    by_cases hc : c = '\r'
    · have hd : ¬ d = '\n' := fun hd => hcd ⟨hc, hd⟩
      rw [if_pos ((h13 _).mpr hc), if_neg (fun x => hd ((h10 _).mp x)), ih]
      simp [(h13 c).mpr hc]
    · rw [if_neg (fun x => hc ((h13 _).mp x)), ih]

/-- **C04** on text, default configuration: delivering the UTF-8 encoding of `t` in any pieces and
reading to the end yields `t` with CR LF collapsed to LF, nothing else changed. -/
theorem C04_read_text (ops : List Op) (hf : ops.all isFeed = true) (t : List Char)
    (ht : delivered ops = encode t) (k : Nat) :
    readSlice (resetStream (close (run (new .utf8 {}) ops))) ((collapse t).length + k)
      = ofText (collapse t) ++ List.replicate k streamEnd := by
  have hr : Reachable (close (run (new .utf8 {}) ops)) :=
    ⟨.utf8, {}, ops ++ [.close], by simp [run, step]⟩
  have h1 := C04_read_all _ hr k
  have hc := C01_utf8_text_exact {} ops hf t ht
  obtain ⟨t1, t2, t3, t4⟩ := feed_tracks (utf8_resumable {}) (new_tracks .utf8 {}) rfl rfl ops hf
  have hcfg : (close (run (new .utf8 {}) ops)).config = {} := by
    rw [close_eq t1 (by rw [t2, t3]; exact utf8_resumable _ _)]; exact t3
  rw [hc, hcfg, normalize_default] at h1
  have hl : (ofText (collapse t)).length = (collapse t).length := by simp [ofText]
  rw [hl] at h1
  exact h1

example : delivered [.append [97, 13], .readAndNext, .append [10, 98]] = encode ['a', '\r', '\n', 'b']
    ∧ collapse ['a', '\r', '\n', 'b'] = ['a', '\n', 'b'] := by decide

/-! ## C05 -/

/-- Equal up to the cached line hint. -/
def EqHint (s t : Stream) : Prop := ∃ i, t = { s with lastLineIdx := i }

theorem readAndNext_hint (s : Stream) (i : Nat) :
    readAndNext { s with lastLineIdx := i }
      = ((readAndNext s).1, { (readAndNext s).2 with lastLineIdx := i }) := by
  simp only [readAndNext, read]
  by_cases h1 : (s.chars[s.charPos]?).getD streamEnd = streamEnd
  · simp only [h1, if_true]
  · simp only [h1, if_false]
    by_cases h2 : s.config.crLfAsOne = true ∧ (s.chars[s.charPos]?).getD streamEnd = ch CR ∧
        (s.chars[s.charPos + 1]?).getD streamEnd = ch LF
    · simp only [eq_true h2, if_true]
    · simp only [eq_false h2, if_false]
      by_cases h3 : s.config.replaceCrAsLf = true ∧ (s.chars[s.charPos]?).getD streamEnd = ch CR ∧
        (s.chars[s.charPos + 1]?).getD streamEnd ≠ ch LF
      · simp only [eq_true h3, if_true]
      · simp only [eq_false h3, if_false]

theorem eqHint_step {s t : Stream} (h : EqHint s t) (op : Op) : EqHint (step s op) (step t op) := by
  obtain ⟨i, rfl⟩ := h
  cases op with
  | append bs => exact ⟨i, rfl⟩
  | close => exact ⟨i, rfl⟩
  | readAndNext =>
    exact ⟨i, by simp only [step, readAndNext_hint]⟩
  | nextN n => exact ⟨i, rfl⟩
  | prevN n =>
    refine ⟨i, ?_⟩
    simp only [step]
    induction n generalizing s with
    | zero => rfl
    | succ n ih =>
      simp only [prevN]
      have : prev { s with lastLineIdx := i } = { prev s with lastLineIdx := i } := by
        simp only [prev, read]
        by_cases h : s.config.crLfAsOne = true ∧ (s.chars[s.charPos - 1]?).getD streamEnd = ch LF ∧
            s.charPos - 1 > 0 ∧ s.chars[s.charPos - 1 - 1]? = some (ch CR)
        · simp only [eq_true h, if_true]
        · simp only [eq_false h, if_false]
      rw [this, ih]
  | seek o => exact ⟨i, rfl⟩
  | getSlice n => exact ⟨i, by simp only [step, getSlice_state]⟩
  | location => exact ⟨_, rfl⟩
  | reset => exact ⟨i, rfl⟩
  | setEncoding e =>
    simp only [step, setEncoding]
    split
    · exact ⟨i, rfl⟩
    · exact ⟨_, rfl⟩
  | readFromStr bs e => exact ⟨_, rfl⟩
  | readFromFile bs => exact ⟨_, rfl⟩

theorem readSlice_hint (s : Stream) (i n : Nat) :
    readSlice { s with lastLineIdx := i } n = readSlice s n := by
  induction n generalizing s with
  | zero => rfl
  | succ n ih =>
    simp only [readSlice]
    rw [readAndNext_hint, ih]

theorem eqHint_result {s t : Stream} (h : EqHint s t) (hs : Inv s) (op : Op) :
    result s op = result t op := by
  obtain ⟨i, rfl⟩ := h
  cases op <;> try rfl
  case readAndNext =>
    simp only [Spec.result, readAndNext_hint]
  case getSlice n => simp only [Spec.result, getSlice, readSlice_hint]
  case location =>
    simp only [Spec.result]
    rw [location_eq hs, location_eq (hint_inv hs i)]; rfl

theorem eqHint_trace {s t : Stream} (h : EqHint s t) (hs : Inv s) (k : Nat) (ops : List Op) :
    trace k s ops = trace k t ops := by
  induction ops generalizing s t with
  | nil => rfl
  | cons op ops ih =>
    simp only [Spec.trace]
    rw [eqHint_result h hs op, ih (eqHint_step h op) (step_inv hs op)]
    obtain ⟨i, hi⟩ := eqHint_step h op
    rw [hi]; rfl

theorem peek_hint {s : Stream} (hs : Inv s) (p : Peek) (hp : p.ok = true) : EqHint s (peek s p) := by
  cases p with
  | lookAhead n => exact ⟨s.lastLineIdx, rfl⟩
  | slice n => exact ⟨s.lastLineIdx, by simp only [peek, getSlice_state]⟩
  | location => exact ⟨_, rfl⟩
  | excursion moves =>
    simp only [Peek.ok] at hp
    refine ⟨(run s moves).lastLineIdx, ?_⟩
    simp only [peek, seekBytes]
    have hm := moves_state s moves hp
    have hst := seek_tell hs
    rw [hm]
    simp only
    rw [hst]

/-- **C05.** Any sequence of look-aheads, slices, location queries and excursions that end by seeking
back to the byte offset told at their start leaves no trace: every later call sequence gives exactly
the answers it would have given without them. -/
theorem C05_peeks_invisible (s : Stream) (h : Reachable s) (peeks : List Peek)
    (hp : ∀ p ∈ peeks, p.ok = true) (k : Nat) (ops : List Op) :
    trace k (peeks.foldl peek s) ops = trace k s ops := by
  obtain ⟨e, cfg, hist, rfl⟩ := h
  have hi := run_inv (new_inv e cfg) hist
  generalize run (new e cfg) hist = s at *
  induction peeks generalizing s with
  | nil => rfl
  | cons p ps ih =>
    simp only [List.foldl_cons]
    have hh := peek_hint hi p (hp p (by simp))
    have hinv : Inv (peek s p) := by
      obtain ⟨i, hi'⟩ := hh; rw [hi']; exact hint_inv hi i
    rw [ih (fun q hq => hp q (by simp [hq])) (peek s p) hinv]
    exact (eqHint_trace hh hi k ops).symm

example : (Peek.excursion [.readAndNext, .nextN 7, .prevN 2, .location]).ok = true ∧
    (run (new .latin1 {}) [.append [65, 13, 10, 66], .readAndNext]).charPos = 1 ∧
    (run (run (new .latin1 {}) [.append [65, 13, 10, 66], .readAndNext])
      [.readAndNext, .nextN 7, .prevN 2, .location]).charPos = 1 + 0 := by decide

/-! ## C06 -/

/-- **C06 fails**: a surrogate pair delivered in two pieces (each of which is a valid Rust `&str`:
U+0600 and U+0700) is read as two lone surrogates instead of one character. -/
theorem C06_utf16_chunking_violated :
    ∃ chunks : List (List UInt8),
      (close (chunks.foldl append (new .utf16be {}))).chars
        ≠ (close (append (new .utf16be {}) chunks.flatten)).chars :=
  ⟨[[0xD8, 0x80], [0xDC, 0x80]], by decide⟩

/-- **C06**, part that holds: chunk boundaries are invisible in UTF-16 text, at any byte (also inside
a code unit), as long as no piece ends right after a high surrogate.  Missing: cuts inside a
surrogate pair, where the code is wrong (`C06_utf16_chunking_violated`). -/
theorem C06_utf16_chunking_partial (be : Bool) (cfg : Config) (chunks : List (List UInt8))
    (hcut : ∀ n, n ≤ chunks.length → NotAfterHigh be (chunks.take n).flatten) :
    close (chunks.foldl append (new (if be then .utf16be else .utf16le) cfg))
      = close (append (new (if be then .utf16be else .utf16le) cfg) chunks.flatten) := by
  have hres : ∀ bs, NotAfterHigh be bs → Resumable (if be then .utf16be else .utf16le) cfg bs := by
    intro bs h
    cases be
    · exact utf16le_resumable cfg bs h
    · exact utf16be_resumable cfg bs h
  generalize (if be then Encoding.utf16be else .utf16le) = e at *
  have hall : ∀ n, n ≤ chunks.length →
      Tracks ((chunks.take n).foldl append (new e cfg)) ∧
      ((chunks.take n).foldl append (new e cfg)).encoding = e ∧
      ((chunks.take n).foldl append (new e cfg)).config = cfg ∧
      ((chunks.take n).foldl append (new e cfg)).charPos = 0 ∧
      ((chunks.take n).foldl append (new e cfg)).lastLineIdx = 0 ∧
      ((chunks.take n).foldl append (new e cfg)).buffer = (chunks.take n).flatten := by
    intro n
    induction n with
    | zero => intro _; exact ⟨new_tracks e cfg, rfl, rfl, rfl, rfl, rfl⟩
    | succ n ih =>
      intro hn
      obtain ⟨t1, t2, t3, t4, t5, t6⟩ := ih (by omega)
      have htk : chunks.take (n + 1) = chunks.take n ++ [chunks[n]] := by
        rw [List.take_add_one, List.getElem?_eq_getElem (by omega)]; rfl
      rw [htk, List.foldl_append]
      generalize (chunks.take n).foldl append (new e cfg) = s at *
      have hr' : Resumable s.encoding s.config s.buffer := by
        rw [t2, t3, t6]; exact hres _ (hcut n (by omega))
      have hfld := append_fields t1 hr' chunks[n]
      simp only [List.foldl_cons, List.foldl_nil]
      refine ⟨append_tracks t1 hr' _, by rw [hfld.2.1, t2], by rw [hfld.2.2.1, t3],
        by rw [hfld.2.2.2.1, t4], by rw [hfld.2.2.2.2, t5], by
          rw [hfld.1, t6, List.flatten_append, List.flatten_cons, List.flatten_nil, List.append_nil]⟩
  have h1 := hall chunks.length (Nat.le_refl _)
  rw [List.take_length] at h1
  obtain ⟨t1, t2, t3, t4, t5, t6⟩ := h1
  have hfull : NotAfterHigh be chunks.flatten := by
    have := hcut chunks.length (Nat.le_refl _); rwa [List.take_length] at this
  have hr0 : Resumable (new e cfg).encoding (new e cfg).config (new e cfg).buffer := by
    have := hcut 0 (by omega)
    simp at this
    exact hres _ this
  have u1 := append_tracks (new_tracks e cfg) hr0 chunks.flatten
  obtain ⟨f1, f2, f3, f4, f5⟩ := append_fields (new_tracks e cfg) hr0 chunks.flatten
  have f1' : (append (new e cfg) chunks.flatten).buffer = chunks.flatten := by rw [f1]; rfl
  rw [close_eq t1 (by rw [t2, t3, t6]; exact hres _ hfull),
    close_eq u1 (by rw [f2, f3, f1']; exact hres _ hfull)]
  have f2' : (append (new e cfg) chunks.flatten).encoding = e := f2
  have f3' : (append (new e cfg) chunks.flatten).config = cfg := f3
  have f4' : (append (new e cfg) chunks.flatten).charPos = 0 := f4
  have f5' : (append (new e cfg) chunks.flatten).lastLineIdx = 0 := f5
  simp only [t2, t3, t4, t5, t6, f1', f2', f3', f4', f5']

/-- A surrogate pair, cut before it, inside the units around it and after it. -/
example : ∀ n, n ≤ [[0x00], [0x41, 0xD8, 0x80, 0xDC, 0x80], [0x00, 0x42]].length →
    NotAfterHigh true (([[0x00], [0x41, 0xD8, 0x80, 0xDC, 0x80], [0x00, 0x42]] :
      List (List UInt8)).take n).flatten := by
  intro n hn
  have : n = 0 ∨ n = 1 ∨ n = 2 ∨ n = 3 := by simp at hn; omega
  rcases this with rfl | rfl | rfl | rfl <;> intro u hu <;> simp [units, u16] at hu <;> omega

/-! ## C59: loading new contents -/

theorem decodeBuffer_chars (s : Stream) :
    (decodeBuffer s).chars
      = (decodeItems s.encoding s.config s.closed 0 s.buffer).1.map (·.2) := by
  unfold decodeBuffer
  have := decodeFrom_eq (blank_inv0 s)
  simp only at this
  rw [this]
  simp

/-- **C59.** `read_from_str` and `read_from_file` replace the contents: whatever the stream held and
wherever it was, afterwards it holds exactly the new text and reading starts at its beginning.  The
same holds for `read_from_bytes` on a fresh stream.  Missing: `read_from_bytes` on a stream that
already decoded something (`C59_read_from_bytes_violated`). -/
theorem C59_load_replaces_partial (s : Stream) (t : List Char) :
    (readFromStr s (encode t) (some .utf8)).chars = ofText t ∧
    (readFromStr s (encode t) (some .utf8)).charPos = 0 ∧
    (s.encoding = .utf8 → (readFromFile s (encode t)).chars = ofText t ∧
      (readFromFile s (encode t)).charPos = 0) ∧
    (∀ cfg, (readFromBytes (new .utf8 cfg) (encode t)).chars = ofText t) := by
  refine ⟨?_, rfl, fun he => ⟨?_, rfl⟩, fun cfg => ?_⟩
  · have : (readFromStr s (encode t) (some .utf8)).chars = (decodeBuffer
      { s with buffer := encode t, closed := false, encoding := .utf8 }).chars := rfl
    rw [this, decodeBuffer_chars]
    simp only [decodeItems, decodeUtf8_eq_flat]
    exact (flat_encode false 0 t).1
  · have : (readFromFile s (encode t)).chars
      = (decodeBuffer (close { s with buffer := encode t })).chars := rfl
    rw [this, decodeBuffer_chars]
    have h1 : (close { s with buffer := encode t }).encoding = s.encoding := rfl
    have h2 : (close { s with buffer := encode t }).buffer = encode t := rfl
    rw [h1, h2, he]
    simp only [decodeItems, decodeUtf8_eq_flat]
    exact (flat_encode _ 0 t).1
  · have e1 : readFromBytes (new .utf8 cfg) (encode t)
      = resetStream (decodeFrom { new .utf8 cfg with buffer := encode t, closed := true } 0) := rfl
    rw [e1]
    have hi : Inv0 { new .utf8 cfg with buffer := encode t, closed := true } := by
      refine ⟨?_, ?_, ?_, ?_, ?_, ?_, ?_⟩ <;> simp [new, lineTable, breaks]
    have e2 := decodeFrom_eq hi
    have e3 : (resetStream (decodeFrom { new .utf8 cfg with buffer := encode t, closed := true }
      0)).chars = (decodeFrom { new .utf8 cfg with buffer := encode t, closed := true }
        (Stream.decodedBytes { new .utf8 cfg with buffer := encode t, closed := true })).chars := rfl
    rw [e3, e2]
    simp only [decodeItems, decodeUtf8_eq_flat]
    show ([] : List Character) ++ _ = _
    exact (flat_encode true 0 t).1

/-- **C59 fails** for `read_from_bytes`: on a stream that already decoded something, the old text
stays visible and the new bytes are (partly) ignored. -/
theorem C59_read_from_bytes_violated :
    ∃ (s : Stream) (bs : List UInt8), Reachable s ∧
      (readFromBytes s bs).chars ≠ (readFromBytes (new s.encoding s.config) bs).chars :=
  ⟨run (new .latin1 {}) [.append [65, 66, 67]], [88, 89], ⟨_, _, _, rfl⟩, by decide⟩

end Verif.ByteStream
