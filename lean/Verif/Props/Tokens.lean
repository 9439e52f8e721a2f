import Verif.Proof.Lex

/-! Properties C01–C05: tokenizing, highlighting and stripping. -/

namespace Dune.Props

open Lex

/-- The source text of a token. -/
def textOf (s : Str) (t : Token) : Option Str := sliceStr s t.range.start t.range.stop

/-- C01: the token ranges tile the text: they are not empty, the first starts at 0, each next one
starts where the one before ends, the last ends at the end of the text (the equation of lists says
all three), and the texts of the tokens make up the source. -/
theorem C01_tile {s : Str} {ts : List Token} {ds : List Diagnostic}
    (h : tokenize s = .ok (ts, ds)) :
    (∀ t ∈ ts, t.range.start < t.range.stop) ∧
      ts.map (fun t => t.range.start) ++ [utf8Len s] = 0 :: ts.map (fun t => t.range.stop) ∧
      ∃ texts : List Str, ts.map (textOf s) = texts.map some ∧ texts.flatten = s := by
  rcases tokenizeN_cases (s := s) (Nat.lt_succ_self _) with ⟨h', _⟩ | ⟨ts', ds', ht, h'⟩
  · rw [tokenize, h'] at h; simp at h
  rw [tokenize, h'] at h
  simp only [Outcome.ok.injEq, Prod.mk.injEq] at h
  obtain ⟨rfl, rfl⟩ := h
  clear h'
  have key : ∀ {off : Nat} {u : Str} {ts : List Token} {ds : List Diagnostic}, Tiles off u ts ds →
      ∀ pre : Str, utf8Len pre = off → (∀ t ∈ ts, t.range.start < t.range.stop) ∧
      ts.map (fun t => t.range.start) ++ [off + utf8Len u] =
        off :: ts.map (fun t => t.range.stop) ∧
      ∃ texts : List Str, ts.map (textOf (pre ++ u)) = texts.map some ∧ texts.flatten = u := by
    intro off u ts ds ht
    induction ht with
    | nil => exact fun pre _ => ⟨by simp, by simp [utf8Len], [], rfl, rfl⟩
    | @cons off u ts ds t k d hne _ _ ih =>
      intro pre hpre
      obtain ⟨h1, h2, texts, h3, h4⟩ := ih (pre ++ t) (by rw [utf8Len_append, hpre])
      have hpos : 0 < utf8Len t := Nat.pos_of_ne_zero fun h => hne (utf8Len_eq_zero.mp h)
      refine ⟨?_, ?_, t :: texts, ?_, by simp [h4]⟩
      · simp only [List.forall_mem_cons]
        exact ⟨by omega, h1⟩
      · rw [utf8Len_append, ← Nat.add_assoc]
        simp only [List.map_cons, List.cons_append, h2]
      · rw [List.append_assoc] at h3
        simp only [List.map_cons, h3, List.cons.injEq, and_true]
        have := sliceStr_mid pre t u
        rw [hpre] at this
        rw [textOf, ← List.append_assoc]
        exact this
  simpa using key ht [] rfl

example : tokenize c!"let x=5 # é" = .ok ([⟨.keyword, ⟨0, 3⟩⟩, ⟨.whitespace, ⟨3, 4⟩⟩,
    ⟨.symbol, ⟨4, 5⟩⟩, ⟨.punctuation, ⟨5, 6⟩⟩, ⟨.integerLiteral, ⟨6, 7⟩⟩, ⟨.whitespace, ⟨7, 8⟩⟩,
    ⟨.comment, ⟨8, 12⟩⟩], List.replicate 7 .valid) := by rfl

/-- C02: tokenizing terminates on every text (more loop iterations than characters change
nothing). -/
theorem C02_terminates (s : Str) (fuel : Nat) (h : s.length < fuel) :
    tokenizeN fuel s ≠ .noFuel ∧ tokenizeN fuel s = tokenize s := by
  have stable : ∀ (n m : Nat) (i : Input) (ts : List Token) (ds : List Diagnostic),
      i.rest.length < n → i.rest.length < m → parseTokens n i ts ds = parseTokens m i ts ds := by
    intro n
    induction n with
    | zero => intro m i ts ds hn; omega
    | succ n ih =>
      intro m i ts ds hn hm
      cases m with
      | zero => omega
      | succ m =>
        rw [parseTokens, parseTokens]
        rcases parseToken_cases i with ⟨_, h⟩ | ⟨h, _⟩ | ⟨r, t, k, d, ht, he, _, h⟩
        · rw [h]
        · rw [h]
        · rw [h]
          have := he.lt ht
          exact ih m r _ _ (by omega) (by omega)
  refine ⟨?_, stable _ _ ⟨0, s⟩ _ _ h (Nat.lt_succ_self _)⟩
  rcases tokenizeN_cases h with ⟨h, _⟩ | ⟨_, _, _, h⟩ <;> rw [h] <;> simp

/-- C02: tokenizing returns normally unless a backslash stands right before a character that is not
ASCII. -/
theorem C02_returns {s : Str}
    (h : ∀ a c b, s = a ++ '\\' :: c :: b → c.toNat < 128) : ∃ r, tokenize s = .ok r := by
  rcases tokenizeN_cases (s := s) (Nat.lt_succ_self _) with ⟨_, a, c, b, hs, hc⟩ | ⟨ts, ds, _, h'⟩
  · exact absurd (h a c b hs) (by omega)
  · exact ⟨_, h'⟩

/-- C02: the restriction is needed: for every character `c` that is not ASCII, the text `"\c"`
crashes the tokenizer, and with it the highlighter. -/
theorem C02_crash (c : Char) (hc : 128 ≤ c.toNat) (rest : Str) :
    tokenize ('"' :: '\\' :: c :: rest) = .panic ∧
      syntaxHighlight ('"' :: '\\' :: c :: rest) = .panic := by
  suffices h : tokenize ('"' :: '\\' :: c :: rest) = .panic by
    exact ⟨h, by rw [syntaxHighlight, h]⟩
  have hne : ∀ d : Char, d.toNat < 128 → d ≠ c := by
    intro d hd
    rintro rfl
    omega
  have h2 : ¬ c.utf8Size ≤ 1 := by
    intro h
    have hp := c.utf8Size_pos
    have h1 := Char.utf8Size_eq_one_iff.mp (show c.utf8Size = 1 by omega)
    rw [UInt32.le_iff_toNat_le] at h1
    have h127 : (127 : UInt32).toNat = 127 := rfl
    have : c.toNat ≤ 127 := by simpa [h127] using h1
    omega
  have hq : ('"' : Char).utf8Size = 1 := by decide
  have hb : ('\\' : Char).utf8Size = 1 := by decide
  have hsat : (⟨1, '\\' :: c :: rest⟩ : Input).splitSaturating 2 = .panic := by
    have hm : min 2 (⟨1, '\\' :: c :: rest⟩ : Input).len = 2 := by
      simp only [Input.len, utf8Len, hb]
      omega
    rw [Input.splitSaturating, hm]
    simp [Input.splitAt, takeBytes, hb, h2]
  have hesc : parseEscape ⟨1, '\\' :: c :: rest⟩ = .panic := by
    simp [parseEscape, punctuationTag, Input.stripPrefix, Input.splitAt, takeBytes, utf8Len, hb, alt,
      R.bind, hsat, hne '"' (by decide), hne '\\' (by decide), hne 'b' (by decide),
      hne 'f' (by decide), hne 'n' (by decide), hne 'r' (by decide), hne 't' (by decide),
      hne 'u' (by decide)]
  have hin : ∀ n, stringInner (n + 1) ⟨1, '\\' :: c :: rest⟩ [] = .panic := by
    intro n
    simp [stringInner, hesc, R.bind]
  have hstr : stringLiteral ⟨0, '"' :: '\\' :: c :: rest⟩ = .panic := by
    simp only [stringLiteral, punctuationTag, Input.stripPrefix, Input.splitAt, takeBytes, utf8Len, hq]
    simp [takeBytes, R.bind, hin]
  have htok : parseToken ⟨0, '"' :: '\\' :: c :: rest⟩ = .panic := by
    simp [parseToken, alt, validToken, longOperator, anyPunctuation, anyKeyword, shortOperator,
      boolLiteral, comment, punctuationTag, keywordTag, Input.stripPrefix, R.bind, hstr]
  rw [tokenize, tokenizeN, parseTokens, htok]

/-- C03: there is exactly one diagnostic per token, and none says that text was left over; the
diagnostic of a token that is not valid points into that token. -/
theorem C03_diagnostics {s : Str} {ts : List Token} {ds : List Diagnostic}
    (h : tokenize s = .ok (ts, ds)) :
    ds.length = ts.length ∧ (∀ r, Diagnostic.notTokenized r ∉ ds) ∧
      ∀ p ∈ ts.zip ds, match p.2 with
        | .valid => True
        | .invalidStringEscapes rs => p.1.kind = .stringLiteral ∧ rs ≠ [] ∧
            ∀ r ∈ rs, p.1.range.start ≤ r.start ∧ r.start ≤ r.stop ∧ r.stop ≤ p.1.range.stop
        | .invalidNumber r => p.1.kind = .floatLiteral ∧ r = p.1.range
        | .illegalChar r => p.1.kind = .symbol ∧ r = p.1.range
        | .notTokenized _ => False := by
  rcases tokenizeN_cases (s := s) (Nat.lt_succ_self _) with ⟨h', _⟩ | ⟨ts', ds', ht, h'⟩
  · rw [tokenize, h'] at h; simp at h
  rw [tokenize, h'] at h
  simp only [Outcome.ok.injEq, Prod.mk.injEq] at h
  obtain ⟨rfl, rfl⟩ := h
  clear h'
  have hpieces : ∀ {off : Nat} {t : Str} {rs : List Range}, Pieces off t rs → ∀ r ∈ rs,
      off ≤ r.start ∧ r.start ≤ r.stop ∧ r.stop ≤ off + utf8Len t := by
    intro off t rs hp
    induction hp with
    | nil => simp
    | cons a b _ ih =>
      simp only [List.forall_mem_cons, utf8Len_append]
      refine ⟨by omega, fun r hr => ?_⟩
      have := ih r hr
      omega
  generalize 0 = o at ht
  induction ht with
  | nil => simp
  | @cons off u ts ds t k d hne hd _ ih =>
    obtain ⟨h1, h2, h3⟩ := ih
    refine ⟨by simp [h1], ?_, ?_⟩
    · intro r
      simp only [List.mem_cons, not_or]
      exact ⟨by cases hd <;> simp, h2 r⟩
    · simp only [List.zip_cons_cons, List.forall_mem_cons]
      refine ⟨?_, h3⟩
      cases hd with
      | valid _ => trivial
      | escapes hr hp => exact ⟨rfl, hr, hpieces hp⟩
      | number => exact ⟨rfl, rfl⟩
      | char => exact ⟨rfl, rfl⟩

example : tokenize c!"5. é \"\\x\"" = .ok ([⟨.floatLiteral, ⟨0, 2⟩⟩, ⟨.whitespace, ⟨2, 3⟩⟩,
    ⟨.symbol, ⟨3, 5⟩⟩, ⟨.whitespace, ⟨5, 6⟩⟩, ⟨.stringLiteral, ⟨6, 10⟩⟩],
    [.invalidNumber ⟨0, 2⟩, .valid, .illegalChar ⟨3, 5⟩, .valid,
      .invalidStringEscapes [⟨7, 9⟩]]) := by rfl

/-! ### Stripping -/

theorem stripGo_noEsc {s : Str} (h : esc ∉ s) (x : Str) : stripGo false (s ++ x) = s ++ stripGo false x := by
  induction s with
  | nil => rfl
  | cons c s ih =>
    simp only [List.mem_cons, not_or] at h
    simp [stripGo, Ne.symm h.1, ih h.2]

/-- C05: the result of stripping contains no escape character. -/
theorem C05_no_escape (s : Str) : esc ∉ stripAnsi s := by
  have key : ∀ (s : Str) (b : Bool), esc ∉ stripGo b s := by
    intro s
    induction s with
    | nil => simp [stripGo]
    | cons c s ih =>
      intro b
      rw [stripGo]
      split
      · exact ih _
      split
      · exact ih _
      split
      · rename_i h _ _
        simp only [List.mem_cons, not_or]
        exact ⟨fun h' => h h'.symm, ih _⟩
      · exact ih _
  exact key s false

/-- C05: text without escape characters is not changed. -/
theorem C05_plain {s : Str} (h : esc ∉ s) : stripAnsi s = s := by
  simpa [stripAnsi, stripGo] using stripGo_noEsc h []

/-- C05: stripping twice is stripping once. -/
theorem C05_idempotent (s : Str) : stripAnsi (stripAnsi s) = stripAnsi s :=
  C05_plain (C05_no_escape s)

/-- A colour sequence `ESC [ code m` leaves nothing, also inside an unfinished sequence. -/
theorem stripGo_color {code : Str} (he : esc ∉ code) (hm : 'm' ∉ code) (b : Bool) (x : Str) :
    stripGo b (Highlight.color code ++ x) = stripGo false x := by
  have key : ∀ code : Str, esc ∉ code → 'm' ∉ code →
      stripGo true (code ++ 'm' :: x) = stripGo false x := by
    intro code
    induction code with
    | nil =>
      intro _ _
      have : ('m' : Char) ≠ esc := by decide
      simp [stripGo, this]
    | cons c code ih =>
      intro he hm
      simp only [List.mem_cons, not_or] at he hm
      simp [stripGo, Ne.symm he.1, Ne.symm hm.1, ih he.2 hm.2]
  have h := key ('[' :: code) (by
    simp only [List.mem_cons, not_or]
    exact ⟨by decide, he⟩) (by
    simp only [List.mem_cons, not_or]
    exact ⟨by decide, hm⟩)
  simp only [Highlight.color, List.cons_append, List.append_assoc, List.nil_append]
  rw [stripGo, if_pos rfl]
  exact h

theorem stripGo_append (s x : Str) (b : Bool) :
    ∃ b', stripGo b (s ++ x) = stripGo b s ++ stripGo b' x := by
  induction s generalizing b with
  | nil => exact ⟨b, rfl⟩
  | cons c s ih =>
    simp only [List.cons_append, stripGo]
    split
    · exact ih _
    split
    · exact ih _
    split
    · obtain ⟨b', h⟩ := ih b
      exact ⟨b', by rw [h]; rfl⟩
    · exact ih _

/-- C05: stripping undoes a style: `ESC[code m text ESC[m ESC[0m` strips to what the text strips
to. -/
theorem C05_styled {code : Str} (he : esc ∉ code) (hm : 'm' ∉ code) (text : Str) :
    stripAnsi (Highlight.color code ++ text ++ Highlight.reset) = stripAnsi text := by
  rw [stripAnsi, List.append_assoc, stripGo_color he hm]
  obtain ⟨b', h⟩ := stripGo_append text Highlight.reset false
  rw [h, Highlight.reset, stripGo_color (by simp) (by simp)]
  have := stripGo_color (code := c!"0") (by decide) (by decide) false []
  rw [List.append_nil] at this
  rw [this]
  simp [stripAnsi, stripGo]

example : stripAnsi (Highlight.color c!"1;31" ++ c!"some text" ++ Highlight.reset) = c!"some text" := by
  rfl

/-! ### Highlighting -/

/-- `a` shows the text `t` and leaves no escape sequence open. -/
def Shows (a t : Str) : Prop := ∀ x, stripGo false (a ++ x) = t ++ stripGo false x

theorem Shows.text {s : Str} (h : esc ∉ s) : Shows s s := stripGo_noEsc h

theorem Shows.append {a b s t : Str} (h : Shows a s) (h' : Shows b t) : Shows (a ++ b) (s ++ t) :=
  fun x => by rw [List.append_assoc, h, h', List.append_assoc]

theorem Shows.color {code : Str} (he : esc ∉ code) (hm : 'm' ∉ code) {b t : Str} (h : Shows b t) :
    Shows (Highlight.color code ++ b) t := fun x => by
  rw [List.append_assoc, stripGo_color he hm, h]

theorem Shows.reset {b t : Str} (h : Shows b t) : Shows (Highlight.reset ++ b) t := by
  rw [Highlight.reset, List.append_assoc]
  exact .color (by decide) (by decide) (.color (by decide) (by decide) h)

theorem Shows.plain {t : Str} (h : esc ∉ t) (c : Bool) : Shows (Highlight.plain c t).1 t := by
  rw [Highlight.plain]
  cases c
  · exact .text h
  · exact .reset (.text h)

theorem escapes_shows {pre : Str} {off : Nat} {t : Str} {rs : List Range} (hp : Pieces off t rs)
    (hpre : utf8Len pre = off) (post : Str) (ht : esc ∉ t) :
    ∃ a, Highlight.escapes (pre ++ t ++ post) (off + utf8Len t) off rs = some a ∧ Shows a t := by
  induction hp generalizing pre with
  | @nil off t =>
    subst hpre
    exact ⟨t, sliceStr_mid pre t post, .text ht⟩
  | @cons off t rs a b _ ih =>
    simp only [List.mem_append, not_or] at ht
    obtain ⟨r, h1, h2⟩ := ih (pre := pre ++ a ++ b) (by
      rw [utf8Len_append, utf8Len_append, hpre]) ht.2
    subst hpre
    refine ⟨a ++ Highlight.color c!"38;5;9" ++ b ++ Highlight.color c!"38;5;208" ++ r, ?_, ?_⟩
    · have e1 : sliceStr (pre ++ (a ++ b ++ t) ++ post) (utf8Len pre) (utf8Len pre + utf8Len a) =
          some a := by
        have := sliceStr_mid pre a (b ++ t ++ post)
        simpa only [List.append_assoc] using this
      have e2 : sliceStr (pre ++ (a ++ b ++ t) ++ post) (utf8Len pre + utf8Len a)
          (utf8Len pre + utf8Len a + utf8Len b) = some b := by
        have := sliceStr_mid (pre ++ a) b (t ++ post)
        simpa only [List.append_assoc, utf8Len_append] using this
      have e3 : Highlight.escapes (pre ++ (a ++ b ++ t) ++ post)
          (utf8Len pre + utf8Len (a ++ b ++ t)) (utf8Len pre + utf8Len a + utf8Len b) rs = some r := by
        have hl : utf8Len pre + utf8Len (a ++ b ++ t) =
            utf8Len pre + utf8Len a + utf8Len b + utf8Len t := by
          simp only [utf8Len_append]; omega
        rw [hl]
        simpa only [List.append_assoc] using h1
      simp only [Highlight.escapes, e1, e2, e3]
      rfl
    · simp only [List.append_assoc]
      exact .append (.text ht.1.1) (.color (by decide) (by decide) (.append (.text ht.1.2)
        (.color (by decide) (by decide) h2)))

theorem token_shows {pre t post : Str} {off : Nat} (hpre : utf8Len pre = off) (ht : esc ∉ t)
    {k : TokenKind} {d : Diagnostic} (hd : DiagOk off t k d) (c : Bool) :
    ∃ a c', Highlight.token (pre ++ t ++ post) ⟨k, ⟨off, off + utf8Len t⟩⟩ d c = some (a, c') ∧
      Shows a t := by
  subst hpre
  have hs := sliceStr_mid pre t post
  rw [Highlight.token]
  simp only [hs]
  have hcol : ∀ {code : Str}, esc ∉ code → 'm' ∉ code → ∃ a c',
      some (Highlight.color code ++ t, true) = some (a, c') ∧ Shows a t :=
    fun h1 h2 => ⟨_, _, rfl, .color h1 h2 (.text ht)⟩
  have hplain : ∃ a c', some (Highlight.plain c t) = some (a, c') ∧ Shows a t :=
    ⟨_, _, rfl, .plain ht c⟩
  cases hd with
  | escapes hr hp =>
    obtain ⟨a, h1, h2⟩ := escapes_shows hp rfl post ht
    simp only [h1]
    exact ⟨_, _, rfl, .color (by decide) (by decide) h2⟩
  | number => simp only [hs]; exact hcol (by decide) (by decide)
  | char => simp only [hs]; exact hcol (by decide) (by decide)
  | valid =>
    cases k
    case punctuation =>
      simp only
      split
      · exact hcol (by decide) (by decide)
      · exact hplain
    case symbol =>
      simp only
      split
      · exact hcol (by decide) (by decide)
      split
      · exact hcol (by decide) (by decide)
      · exact hplain
    case integerLiteral => exact hplain
    case floatLiteral => exact hplain
    case whitespace => exact ⟨_, _, rfl, .text ht⟩
    all_goals exact hcol (by decide) (by decide)

theorem tokens_shows {off : Nat} {t : Str} {ts : List Token} {ds : List Diagnostic}
    (h : Tiles off t ts ds) : ∀ (pre : Str), utf8Len pre = off → esc ∉ t → ∀ c,
    ∃ a c', Highlight.tokens (pre ++ t) (ts.zip ds) c = some (a, c') ∧ Shows a t := by
  induction h with
  | nil => exact fun pre _ _ c => ⟨[], c, rfl, fun x => rfl⟩
  | @cons off s ts ds t k d hne hd _ ih =>
    intro pre hpre he c
    simp only [List.mem_append, not_or] at he
    obtain ⟨a, c', h1, h2⟩ := token_shows (post := s) hpre he.1 hd c
    obtain ⟨b, c'', h3, h4⟩ := ih (pre ++ t) (by rw [utf8Len_append, hpre]) he.2 c'
    refine ⟨a ++ b, c'', ?_, h2.append h4⟩
    rw [List.append_assoc] at h1 h3
    simp only [List.zip_cons_cons, Highlight.tokens, h1, Option.bind_eq_bind, Option.bind_some, h3]

/-- C04: stripping the highlighted line gives back the line; and highlighting fails only if
tokenizing does. -/
theorem C04_highlight {line : Str} (he : esc ∉ line) {r : List Token × List Diagnostic}
    (h : tokenize line = .ok r) : ∃ out, syntaxHighlight line = .ok out ∧ stripAnsi out = line := by
  rcases tokenizeN_cases (s := line) (Nat.lt_succ_self _) with ⟨h', _⟩ | ⟨ts, ds, ht, h'⟩
  · rw [tokenize, h'] at h; simp at h
  have hlen := (C03_diagnostics h').1
  obtain ⟨a, c, h1, h2⟩ := tokens_shows ht [] rfl he false
  rw [List.nil_append] at h1
  have hd : ds.drop ts.length = [] := by rw [← hlen, List.drop_length]
  have hy : syntaxHighlight line = .ok (a ++ [] ++ if c then Highlight.reset else []) := by
    rw [syntaxHighlight, tokenize, h']
    simp only [h1, hd, Highlight.surplus]
  refine ⟨_, hy, ?_⟩
  have h3 : Shows (a ++ [] ++ if c then Highlight.reset else []) line := by
    rw [List.append_nil]
    split
    · have : Shows Highlight.reset [] := by
        have := Shows.reset (b := []) (t := []) (fun x => rfl)
        rwa [List.append_nil] at this
      simpa using h2.append this
    · simpa using h2
  have := h3 []
  simpa [stripAnsi, stripGo] using this

/-- C04, with the condition of C02 instead of that on the tokenizer. -/
theorem C04_line {line : Str} (he : esc ∉ line)
    (h : ∀ a c b, line = a ++ '\\' :: c :: b → c.toNat < 128) :
    ∃ out, syntaxHighlight line = .ok out ∧ stripAnsi out = line := by
  obtain ⟨r, hr⟩ := C02_returns h
  exact C04_highlight he hr

example : syntaxHighlight c!"if x \"\\q\"" = .ok (Highlight.color c!"95" ++ c!"if " ++
    Highlight.reset ++ c!"x " ++ Highlight.color c!"38;5;208" ++ c!"\"" ++
    Highlight.color c!"38;5;9" ++ c!"\\q" ++ Highlight.color c!"38;5;208" ++ c!"\"" ++
    Highlight.reset) := by rfl

/-! ### Instances: the hypotheses can be met -/

example := C02_terminates c!"let x=5 # é" 12 (by decide)

example := C02_returns (s := c!"\"\\né\"") (by
  intro a c b h
  rcases a with _ | ⟨_, _ | ⟨_, _ | ⟨_, _ | ⟨_, _ | ⟨_, a⟩⟩⟩⟩⟩ <;> simp at h
  obtain ⟨-, rfl, -⟩ := h
  decide)

example := C02_crash 'é' (by decide) c!"\" + 1"

example := C05_plain (s := c!"some [31m text") (by decide)

example := C04_highlight (line := c!"if x \"\\q\"") (by decide) rfl

end Dune.Props
