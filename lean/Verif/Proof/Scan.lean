import Verif.Spec.Scan
import Verif.Proof.Script

/-! The tokenizer finds the words of the lexical grammar. -/

namespace Dune.Lex

open Spec

/-- Claims about ASCII characters can be checked one by one. -/
theorem ascii_ext {p : Char → Bool} {l : Str} (hl : ∀ c ∈ l, c.toNat < 128)
    (hp : ∀ c, p c = true → c.toNat < 128)
    (h : ∀ n, n < 128 → p (Char.ofNat n) = decide (Char.ofNat n ∈ l)) (c : Char) :
    p c = true ↔ c ∈ l := by
  by_cases hc : c.toNat < 128
  · have := h c.toNat hc
    rw [Char.ofNat_toNat] at this
    rw [this, decide_eq_true_eq]
  · exact ⟨fun h => absurd (hp c h) hc, fun h => absurd (hl c h) hc⟩

theorem symbolChar_ascii {c : Char} (h : isSymbolChar c = true) : c.toNat < 128 := by
  simp only [isSymbolChar, Bool.or_eq_true, Bool.and_eq_true, decide_eq_true_eq, or_assoc] at h
  have key : ∀ a b : Char, b.toNat < 128 → (a ≤ c ∧ c ≤ b) → c.toNat < 128 := by
    rintro a b hb ⟨_, h⟩
    have : c.toNat ≤ b.toNat := h
    omega
  rcases h with h | h | h | h
  · exact key _ _ (by decide) h
  · exact key _ _ (by decide) h
  · exact key _ _ (by decide) h
  · rw [List.contains_iff_mem] at h
    exact (show ∀ c ∈ ['_', '+', '-', '.', '~', '\\', '/', '?', '&', '<', '>', '$', '%', '#', '^', ':'],
      c.toNat < 128 by decide) c h

set_option maxRecDepth 10000 in
theorem symbolChar_iff (c : Char) : isSymbolChar c = true ↔ c ∈ nameChars :=
  ascii_ext (by decide) (fun _ => symbolChar_ascii) (by decide) c

theorem isDigit_iff (c : Char) : isDigit c = true ↔ c ∈ digitChars :=
  ascii_ext (by decide) (fun _ => isDigit_ascii) (by decide) c

theorem isSpace_iff (c : Char) : isAsciiWhitespace c = true ↔ c ∈ spaceChars := by
  simp only [isAsciiWhitespace, spaceChars, Bool.or_eq_true, decide_eq_true_eq, List.mem_cons,
    List.not_mem_nil, or_false, or_assoc]

theorem digit_name {c : Char} (h : c ∈ digitChars) : c ∈ nameChars := by
  revert c; decide

/-! ### Fixed texts -/

/-- `keyword_tag` or `punctuation_tag` -/
def tag : Bool × Str → Input → R Range
  | (true, p) => keywordTag p
  | (false, p) => punctuationTag p

/-- The tag is at the start of `s`. -/
def tagAt (p : Bool × Str) (s : Str) : Bool :=
  p.2.isPrefixOf s && (!p.1 || !startsSymbol (s.drop p.2.length))

theorem tag_ok {p : Bool × Str} {off : Nat} {rest : Str}
    (h : p.1 = true → startsSymbol rest = false) :
    tag p ⟨off, p.2 ++ rest⟩ = .ok ⟨off + utf8Len p.2, rest⟩ ⟨off, off + utf8Len p.2⟩ := by
  have : Input.stripPrefix ⟨off, p.2 ++ rest⟩ p.2 =
      .ok ⟨off + utf8Len p.2, rest⟩ ⟨off, off + utf8Len p.2⟩ := by
    rw [Input.stripPrefix, if_pos (List.isPrefixOf_iff_prefix.mpr ⟨rest, rfl⟩)]
    exact (splitAt_eats (i := ⟨off, p.2 ++ rest⟩) rfl).1
  obtain ⟨b, p⟩ := p
  cases b with
  | false => exact this
  | true =>
    rw [tag, keywordTag, this]
    simp only
    rw [if_neg (by rw [h rfl]; simp)]

theorem tag_notFound {p : Bool × Str} {i : Input} (h : tagAt p i.rest = false) :
    tag p i = .notFound := by
  obtain ⟨b, p⟩ := p
  rcases stripPrefix_cases p i with ⟨h1, h2⟩ | ⟨r, h1, h2⟩
  · cases b with
    | false => exact h1
    | true => rw [tag, keywordTag, h1]
  · have hp : p.isPrefixOf i.rest = true := by
      rw [h1.1]; exact List.isPrefixOf_iff_prefix.mpr ⟨_, rfl⟩
    simp only [tagAt, hp, Bool.true_and, Bool.or_eq_false_iff] at h
    obtain ⟨hb, h⟩ := h
    cases b with
    | false => simp at hb
    | true =>
      rw [tag, keywordTag, h2]
      simp only
      rw [h1.1, List.drop_left] at h
      rw [if_pos (by simpa using h)]

/-- The first of the tags that is at the start of `s`. -/
theorem alt_tags_none {l : List (Bool × Str)} {i : Input} (h : ∀ p ∈ l, tagAt p i.rest = false) :
    alt (l.map tag) i = .notFound := by
  induction l with
  | nil => rfl
  | cons p l ih =>
    simp only [List.forall_mem_cons] at h
    rw [List.map_cons, alt, tag_notFound h.1]
    exact ih h.2

theorem alt_tags_some {l m : List (Bool × Str)} {p : Bool × Str} {off : Nat} {rest : Str}
    (h : ∀ q ∈ l, tagAt q (p.2 ++ rest) = false) (hp : p.1 = true → startsSymbol rest = false) :
    alt ((l ++ p :: m).map tag) ⟨off, p.2 ++ rest⟩ =
      .ok ⟨off + utf8Len p.2, rest⟩ ⟨off, off + utf8Len p.2⟩ := by
  induction l with
  | nil => rw [List.nil_append, List.map_cons, alt, tag_ok hp]
  | cons q l ih =>
    simp only [List.forall_mem_cons] at h
    rw [List.cons_append, List.map_cons, alt, tag_notFound h.1]
    exact ih h.2

def longTags : List (Bool × Str) :=
  [c!"to", c!"==", c!"!=", c!">=", c!"<=", c!"&&", c!"||", c!"//", c!"<<", c!">>", c!">>>"].map (true, ·)

def punctTags : List (Bool × Str) :=
  [(false, c!"("), (false, c!")"), (false, c!"["), (false, c!"]"), (false, c!"{"), (false, c!"}"),
    (false, c!"'"), (false, c!","), (false, c!";"), (false, c!"="), (true, c!"->"), (true, c!"~>")]

def keywordTags : List (Bool × Str) :=
  [c!"None", c!"then", c!"else", c!"let", c!"for", c!"if", c!"in"].map (true, ·)

def shortTags : List (Bool × Str) :=
  [c!"<", c!">", c!"+", c!"-", c!"*", c!"%", c!"|"].map (true, ·) ++ [(false, c!"@"), (false, c!"!")]

def boolTags : List (Bool × Str) := [c!"True", c!"False"].map (true, ·)

theorem longOperator_eq : longOperator = alt (longTags.map tag) := rfl
theorem anyPunctuation_eq : anyPunctuation = alt (punctTags.map tag) := rfl
theorem anyKeyword_eq : anyKeyword = alt (keywordTags.map tag) := rfl
theorem shortOperator_eq : shortOperator = alt (shortTags.map tag) := rfl
theorem boolLiteral_eq : boolLiteral = alt (boolTags.map tag) := rfl

/-- all tags, in the order they are tried -/
def allTags : List (Bool × Str) := longTags ++ punctTags ++ keywordTags ++ shortTags ++ boolTags

/-- The kind of the tags. -/
def groups : List (TokenKind × List (Bool × Str)) :=
  [(.operator, longTags), (.punctuation, punctTags), (.keyword, keywordTags), (.operator, shortTags),
    (.booleanLiteral, boolTags)]

/-- the parsers tried after the tags -/
def later : List (Input → R (Token × Diagnostic)) :=
  [validToken comment .comment, stringLiteral, numberLiteral, validToken symbol .symbol,
    validToken whitespace .whitespace]

theorem parseToken_eq {i : Input} {c : Char} {s : Str} (hi : i.rest = c :: s) :
    parseToken i =
      match alt ((groups.map fun g => validToken (alt (g.2.map tag)) g.1) ++ later) i with
      | .notFound => (i.splitAt c.utf8Size).bind fun r range =>
          .ok r (⟨.symbol, range⟩, .illegalChar range)
      | r => r := by
  rw [parseToken, hi]
  rfl

/-- The text is a tag of kind `k`, and none of the tags tried before it matches. -/
def TagIs (k : TokenKind) (s rest : Str) : List (TokenKind × List (Bool × Str)) → Prop
  | [] => False
  | (k', l) :: gs =>
    (k' = k ∧ ∃ l1 b l2, l = l1 ++ (b, s) :: l2 ∧ (∀ q ∈ l1, tagAt q (s ++ rest) = false) ∧
      (b = true → startsSymbol rest = false)) ∨
    ((∀ q ∈ l, tagAt q (s ++ rest) = false) ∧ TagIs k s rest gs)

theorem alt_groups_some {k : TokenKind} {s rest : Str} {off : Nat} {ps : List (Input → R (Token × Diagnostic))} :
    ∀ {gs}, TagIs k s rest gs →
      alt ((gs.map fun g => validToken (alt (g.2.map tag)) g.1) ++ ps) ⟨off, s ++ rest⟩ =
        .ok ⟨off + utf8Len s, rest⟩ (⟨k, ⟨off, off + utf8Len s⟩⟩, .valid)
  | [], h => h.elim
  | (k', l) :: gs, .inl ⟨hk, l1, b, l2, hl, h1, h2⟩ => by
    subst hk hl
    rw [List.map_cons, List.cons_append, alt, validToken,
      alt_tags_some (p := (b, s)) h1 h2]
    rfl
  | (k', l) :: gs, .inr ⟨h, h'⟩ => by
    rw [List.map_cons, List.cons_append, alt, validToken, alt_tags_none h]
    exact alt_groups_some h'

theorem alt_groups_none {i : Input} {ps : List (Input → R (Token × Diagnostic))} :
    ∀ {gs : List (TokenKind × List (Bool × Str))}, (∀ g ∈ gs, ∀ q ∈ g.2, tagAt q i.rest = false) →
      alt ((gs.map fun g => validToken (alt (g.2.map tag)) g.1) ++ ps) i = alt ps i
  | [], _ => rfl
  | (k', l) :: gs, h => by
    simp only [List.forall_mem_cons] at h
    rw [List.map_cons, List.cons_append, alt, validToken, alt_tags_none h.1]
    exact alt_groups_none h.2

theorem parseToken_tag {k : TokenKind} {s rest : Str} {off : Nat} (hs : s ≠ [])
    (h : TagIs k s rest groups) : parseToken ⟨off, s ++ rest⟩ =
      .ok ⟨off + utf8Len s, rest⟩ (⟨k, ⟨off, off + utf8Len s⟩⟩, .valid) := by
  cases s with
  | nil => exact absurd rfl hs
  | cons c s =>
    rw [parseToken_eq (c := c) (s := s ++ rest) rfl, alt_groups_some h]

theorem parseToken_later {i j : Input} {a : Token × Diagnostic} {c : Char} {s : Str} (hi : i.rest = c :: s)
    (h : ∀ g ∈ groups, ∀ q ∈ g.2, tagAt q i.rest = false) (hl : alt later i = .ok j a) :
    parseToken i = .ok j a := by
  rw [parseToken_eq hi, alt_groups_none h, hl]

/-! ### What may follow -/

theorem stops_starts {rest : Str} (h : Stops rest) : startsSymbol rest = false := by
  cases rest with
  | nil => rfl
  | cons c r =>
    have := (h c r rfl).1
    rw [← symbolChar_iff] at this
    simpa [startsSymbol] using this

/-- Whether a tag matches depends on the word only. -/
theorem tagAt_stops {q : Bool × Str} (hq : ∀ c ∈ q.2.tail, c ∈ nameChars ∨ c = '=' ∨ c = '|')
    {s rest : Str} (hs : s ≠ []) (h : Stops rest) : tagAt q (s ++ rest) = tagAt q s := by
  obtain ⟨b, p⟩ := q
  have key : ∀ (p s : Str), (∀ c ∈ p, c ∈ nameChars ∨ c = '=' ∨ c = '|') →
      p.isPrefixOf (s ++ rest) = p.isPrefixOf s ∧
        (p.isPrefixOf s = true → startsSymbol ((s ++ rest).drop p.length) =
          startsSymbol (s.drop p.length)) := by
    intro p
    induction p with
    | nil =>
      intro s _
      refine ⟨rfl, fun _ => ?_⟩
      cases s with
      | nil => exact stops_starts h
      | cons c s => rfl
    | cons c p ih =>
      intro s hp
      simp only [List.forall_mem_cons] at hp
      cases s with
      | nil =>
        refine ⟨?_, fun h => by simp at h⟩
        cases rest with
        | nil => rfl
        | cons d r =>
          obtain ⟨h1, h2, h3⟩ := h d r rfl
          simp only [List.nil_append, List.isPrefixOf, Bool.and_eq_false_iff]
          left
          have : c ≠ d := by
            rintro rfl
            rcases hp.1 with h | h | h
            · exact h1 h
            · exact h2 h
            · exact h3 h
          simpa using this
      | cons d s =>
        have := ih s hp.2
        simp only [List.cons_append, List.isPrefixOf, List.length_cons, List.drop_succ_cons,
          Bool.and_eq_true, this.1, true_and]
        exact fun h => this.2 h.2
  cases s with
  | nil => exact absurd rfl hs
  | cons d s =>
    cases p with
    | nil =>
      simp only [tagAt, List.isPrefixOf, List.length_nil, List.drop_zero]
      rfl
    | cons c p =>
      have := key p s hq
      simp only [tagAt, List.cons_append, List.isPrefixOf, List.length_cons, List.drop_succ_cons,
        this.1]
      by_cases hp : p.isPrefixOf s = true
      · rw [this.2 hp]
      · rw [Bool.not_eq_true] at hp
        simp [hp]

theorem tags_tail : ∀ q ∈ allTags, ∀ c ∈ q.2.tail, c ∈ nameChars ∨ c = '=' ∨ c = '|' := by decide

theorem mem_allTags {q : Bool × Str} {g : TokenKind × List (Bool × Str)} (hg : g ∈ groups)
    (hq : q ∈ g.2) : q ∈ allTags := by
  have : ∀ g ∈ groups, ∀ q ∈ g.2, q ∈ allTags := by decide
  exact this g hg q hq

/-- same as `TagIs`, as a check of the word alone -/
def tagIs (k : TokenKind) (s : Str) : List (TokenKind × List (Bool × Str)) → Bool
  | [] => false
  | (k', l) :: gs =>
    let l1 := l.takeWhile fun q => !tagAt q s
    match l.dropWhile fun q => !tagAt q s with
    | (_, p) :: _ => k' = k && p = s && l1.all fun q => !tagAt q s
    | [] => tagIs k s gs

theorem tagIs_of_check {k : TokenKind} {s rest : Str} (hs : s ≠ []) (hr : Stops rest) :
    ∀ {gs : List (TokenKind × List (Bool × Str))}, (∀ g ∈ gs, ∀ q ∈ g.2, q ∈ allTags) →
      tagIs k s gs = true → TagIs k s rest gs
  | [], _, h => by simp [tagIs] at h
  | (k', l) :: gs, hm, h => by
    simp only [List.forall_mem_cons] at hm
    have hst : ∀ q ∈ l, tagAt q (s ++ rest) = tagAt q s := fun q hq =>
      tagAt_stops (tags_tail q (hm.1 q hq)) hs hr
    have hsplit := List.takeWhile_append_dropWhile (p := fun q => !tagAt q s) (l := l)
    have htw : ∀ q ∈ l.takeWhile fun q => !tagAt q s, tagAt q (s ++ rest) = false := by
      intro q hq
      rw [hst q (List.takeWhile_subset _ hq)]
      have := List.all_takeWhile (p := fun q => !tagAt q s) (l := l)
      rw [List.all_eq_true] at this
      simpa using this q hq
    rw [tagIs] at h
    rw [TagIs]
    cases hd : l.dropWhile fun q => !tagAt q s with
    | nil =>
      rw [hd] at h hsplit
      rw [List.append_nil] at hsplit
      rw [hsplit] at htw
      exact .inr ⟨htw, tagIs_of_check hs hr hm.2 h⟩
    | cons p l2 =>
      obtain ⟨b, p⟩ := p
      rw [hd] at h hsplit
      simp only [Bool.and_eq_true, decide_eq_true_eq] at h
      obtain ⟨⟨rfl, rfl⟩, _⟩ := h
      exact .inl ⟨rfl, _, b, l2, hsplit.symm, htw, fun _ => stops_starts hr⟩

theorem parseToken_tagStops {k : TokenKind} {s rest : Str} {off : Nat} (hs : s ≠ [])
    (hr : Stops rest) (h : tagIs k s groups = true) : parseToken ⟨off, s ++ rest⟩ =
      .ok ⟨off + utf8Len s, rest⟩ (⟨k, ⟨off, off + utf8Len s⟩⟩, .valid) :=
  parseToken_tag hs (tagIs_of_check hs hr (fun _ hg _ hq => mem_allTags hg hq) h)

/-- No tag starts with this character. -/
theorem no_tag {c : Char} (h : ∀ q ∈ allTags, q.2.head? ≠ some c) (s : Str) :
    ∀ g ∈ groups, ∀ q ∈ g.2, tagAt q (c :: s) = false := by
  intro g hg q hq
  have h1 := h q (mem_allTags hg hq)
  have h2 : q.2 ≠ [] := (show ∀ q ∈ allTags, q.2 ≠ [] by decide) q (mem_allTags hg hq)
  obtain ⟨b, p⟩ := q
  cases p with
  | nil => exact absurd rfl h2
  | cons d p =>
    have : d ≠ c := by simpa using h1
    simp [tagAt, List.isPrefixOf, this]

/-- A word of name characters that is not a tag contains no tag at its start. -/
theorem no_tag_name {s rest : Str} (hs : s ≠ []) (hc : ∀ c ∈ s, c ∈ nameChars)
    (ht : ∀ q ∈ allTags, q.2 ≠ s) (hr : Stops rest) :
    ∀ g ∈ groups, ∀ q ∈ g.2, tagAt q (s ++ rest) = false := by
  intro g hg q hq
  have hm := mem_allTags hg hq
  rw [tagAt_stops (tags_tail q hm) hs hr]
  have hp : q.1 = true ∨ ∀ c ∈ q.2, c ∉ nameChars :=
    (show ∀ q ∈ allTags, q.1 = true ∨ ∀ c ∈ q.2, c ∉ nameChars by decide) q hm
  have hne : q.2 ≠ [] := (show ∀ q ∈ allTags, q.2 ≠ [] by decide) q hm
  have hts := ht q hm
  obtain ⟨b, p⟩ := q
  simp only at hp hne hts
  rw [Bool.eq_false_iff]
  intro h
  simp only [tagAt, Bool.and_eq_true, Bool.or_eq_true, Bool.not_eq_true'] at h
  obtain ⟨h1, h2⟩ := h
  obtain ⟨t, rfl⟩ := List.isPrefixOf_iff_prefix.mp h1
  rw [List.drop_left] at h2
  rcases hp with hb | hb
  · subst hb
    simp only [Bool.true_eq_false, false_or] at h2
    cases t with
    | nil => simp at hts
    | cons c t =>
      have := (symbolChar_iff c).mpr (hc c (by simp))
      simp [startsSymbol, this] at h2
  · cases p with
    | nil => exact absurd rfl hne
    | cons c p => exact hb c (by simp) (hc c (by simp))

/-! ### The other words -/

theorem takeWhile_run {p : Char → Bool} {s rest : Str} (hs : ∀ c ∈ s, p c = true)
    (hr : ∀ c r, rest = c :: r → p c = false) : (s ++ rest).takeWhile p = s := by
  rw [List.takeWhile_append_of_pos hs]
  cases rest with
  | nil => simp
  | cons c r => simp [hr c r rfl]

theorem stripPrefix_ok (p rest : Str) (off : Nat) : Input.stripPrefix ⟨off, p ++ rest⟩ p =
    .ok ⟨off + utf8Len p, rest⟩ ⟨off, off + utf8Len p⟩ := by
  rw [Input.stripPrefix, if_pos (List.isPrefixOf_iff_prefix.mpr ⟨rest, rfl⟩)]
  exact (splitAt_eats (i := ⟨off, p ++ rest⟩) rfl).1

theorem stripPrefix_none {p : Str} {i : Input} (h : p.isPrefixOf i.rest = false) :
    i.stripPrefix p = .notFound := by
  rw [Input.stripPrefix, if_neg (by rw [h]; simp)]

theorem splitUntil_ok (s rest : Str) (off : Nat) :
    Input.splitUntil ⟨off, s ++ rest⟩ ⟨off + utf8Len s, rest⟩ =
      .ok ⟨off + utf8Len s, rest⟩ ⟨off, off + utf8Len s⟩ :=
  splitUntil_eats (i := ⟨off, s ++ rest⟩) (j := ⟨off + utf8Len s, rest⟩) (t := s) ⟨rfl, rfl⟩

theorem splitAt_ok (s rest : Str) (off : Nat) :
    Input.splitAt ⟨off, s ++ rest⟩ (utf8Len s) =
      .ok ⟨off + utf8Len s, rest⟩ ⟨off, off + utf8Len s⟩ :=
  (splitAt_eats (i := ⟨off, s ++ rest⟩) rfl).1

theorem orElse_ok {α : Type} (i : Input) (a : α) (r : R α) : (R.ok i a).orElse r = .ok i a := rfl

theorem orElse_notFound {α : Type} (r : R α) : (R.notFound : R α).orElse r = r := by
  cases r <;> rfl

theorem whitespace_ok {s rest : Str} {off : Nat} (hs : s ≠ []) (h : ∀ c ∈ s, c ∈ spaceChars)
    (hr : ∀ c r, rest = c :: r → c ∉ spaceChars) : whitespace ⟨off, s ++ rest⟩ =
      .ok ⟨off + utf8Len s, rest⟩ ⟨off, off + utf8Len s⟩ := by
  have h1 : ∀ c ∈ s, isAsciiWhitespace c = true := fun c hc => (isSpace_iff c).mpr (h c hc)
  have h2 := takeWhile_run h1 fun c r hcr => by
    have := hr c r hcr
    rw [← isSpace_iff] at this
    simpa using this
  rw [whitespace]
  simp only [h2]
  rw [if_neg (by simpa using hs), ← utf8Len_ascii fun c hc => isAsciiWhitespace_ascii (h1 c hc)]
  exact splitAt_ok s rest off

theorem symbol_ok {s rest : Str} {off : Nat} (hs : s ≠ []) (h : ∀ c ∈ s, c ∈ nameChars)
    (hr : ∀ c r, rest = c :: r → c ∉ nameChars) : symbol ⟨off, s ++ rest⟩ =
      .ok ⟨off + utf8Len s, rest⟩ ⟨off, off + utf8Len s⟩ := by
  have h1 : ∀ c ∈ s, isSymbolChar c = true := fun c hc => (symbolChar_iff c).mpr (h c hc)
  have h2 := takeWhile_run h1 fun c r hcr => by
    have := hr c r hcr
    rw [← symbolChar_iff] at this
    simpa using this
  rw [symbol]
  simp only [h2]
  rw [if_neg (by rw [utf8Len_eq_zero]; exact hs)]
  exact splitAt_ok s rest off

theorem comment_ok {s rest : Str} {off : Nat} (h1 : '\n' ∉ s) (h2 : '\r' ∉ s)
    (hr : ∀ c r, rest = c :: r → c = '\n' ∨ c = '\r') : comment ⟨off, '#' :: s ++ rest⟩ =
      .ok ⟨off + utf8Len ('#' :: s), rest⟩ ⟨off, off + utf8Len ('#' :: s)⟩ := by
  have h3 : ('#' :: s ++ rest).takeWhile (fun c => !(c = '\r' || c = '\n')) = '#' :: s := by
    refine takeWhile_run ?_ ?_
    · intro c hc
      rcases List.mem_cons.mp hc with rfl | hc
      · decide
      · have h3 : c ≠ '\n' := by rintro rfl; exact h1 hc
        have h4 : c ≠ '\r' := by rintro rfl; exact h2 hc
        simp [h3, h4]
    · intro c r hcr
      rcases hr c r hcr with rfl | rfl <;> rfl
  rw [comment]
  simp only [List.cons_append]
  rw [← List.cons_append, h3]
  exact splitAt_ok _ rest off

theorem comment_none {i : Input} {c : Char} {s : Str} (hi : i.rest = c :: s) (hc : c ≠ '#') :
    comment i = .notFound := by
  rw [comment, hi]
  split
  · rename_i heq
    simp only [List.cons.injEq] at heq
    exact absurd heq.1 hc
  · rfl

theorem string_none {i : Input} {c : Char} {s : Str} (hi : i.rest = c :: s) (hc : c ≠ '"') :
    stringLiteral i = .notFound := by
  rw [stringLiteral, punctuationTag, stripPrefix_none]
  · rfl
  · rw [hi]
    simpa [List.isPrefixOf] using Ne.symm hc

theorem number_none {i : Input} {c : Char} {s : Str} (hi : i.rest = c :: s) (h1 : c ∉ digitChars)
    (h2 : ∀ d r, c = '-' → s = d :: r → d ∉ digitChars) : numberLiteral i = .notFound := by
  have key : ∀ j : Input, (∀ d r, j.rest = d :: r → d ∉ digitChars) →
      (j.stripPrefix c!"0").orElse
        (if places j.rest > 0 then j.splitAt (places j.rest) else .notFound) = .notFound := by
    intro j hj
    rw [stripPrefix_none, orElse_notFound, if_neg]
    · rw [places]
      cases hd : j.rest with
      | nil => simp
      | cons d r =>
        have := hj d r hd
        rw [← isDigit_iff] at this
        simp [this]
    · cases hd : j.rest with
      | nil => rfl
      | cons d r =>
        have := hj d r hd
        have h0 : d ≠ '0' := by rintro rfl; exact this (by decide)
        simpa [List.isPrefixOf] using Ne.symm h0
  rw [numberLiteral]
  by_cases hc : c = '-'
  · subst hc
    obtain ⟨off, r⟩ := i
    simp only at hi
    subst hi
    rw [show ('-' :: s) = c!"-" ++ s from rfl, stripPrefix_ok]
    rw [orElse_ok, R.bind_ok, key]
    · rfl
    · exact fun d r hd => h2 d r rfl hd
  · rw [stripPrefix_none (by rw [hi]; simpa [List.isPrefixOf] using Ne.symm hc)]
    rw [orElse_notFound]
    have := (splitAt_eats (i := i) (t := []) (q := i.rest) rfl).1
    rw [show utf8Len [] = 0 from rfl, Nat.add_zero] at this
    rw [this, R.bind_ok, key]
    · rfl
    · intro d r hd
      simp only [hi, List.cons.injEq] at hd
      rw [← hd.1]
      exact h1

theorem places_run {s rest : Str} (hs : ∀ c ∈ s, c ∈ digitChars)
    (hr : ∀ c r, rest = c :: r → c ∉ digitChars) : places (s ++ rest) = utf8Len s := by
  have h1 : ∀ c ∈ s, isDigit c = true := fun c hc => (isDigit_iff c).mpr (hs c hc)
  rw [places, takeWhile_run h1 fun c r hcr => by
    have := hr c r hcr
    rw [← isDigit_iff] at this
    simpa using this, utf8Len_ascii fun c hc => isDigit_ascii (h1 c hc)]

theorem not_digit_of_stops {rest : Str} (h : Stops rest) (c : Char) (r : Str) (hc : rest = c :: r) :
    c ∉ digitChars := fun hd => (h c r hc).1 (digit_name hd)

/-- the digits before the point -/
theorem whole_ok {ds rest : Str} {off : Nat} (h : Canonical ds)
    (hr : ∀ c r, rest = c :: r → c ∉ digitChars) :
    ((Input.stripPrefix ⟨off, ds ++ rest⟩ c!"0").orElse
      (if places (ds ++ rest) > 0 then Input.splitAt ⟨off, ds ++ rest⟩ (places (ds ++ rest))
        else .notFound)) = .ok ⟨off + utf8Len ds, rest⟩ ⟨off, off + utf8Len ds⟩ := by
  rcases h with rfl | ⟨d, r, rfl, h0, hd⟩
  · rw [stripPrefix_ok]
    rfl
  · rw [stripPrefix_none (by simpa [List.isPrefixOf] using Ne.symm h0), orElse_notFound, places_run hd hr,
      if_pos]
    · exact splitAt_ok _ rest off
    · have := Char.utf8Size_pos d
      simp only [utf8Len, gt_iff_lt]
      omega

theorem canonical_head {ds : Str} (h : Canonical ds) : ∃ d r, ds = d :: r ∧ d ∈ digitChars ∧
    ∀ c ∈ d :: r, c ∈ digitChars := by
  rcases h with rfl | ⟨d, r, rfl, h0, hd⟩
  · exact ⟨'0', [], rfl, by decide, by decide⟩
  · exact ⟨d, r, rfl, hd d (by simp), hd⟩

theorem sign_ok {sign s : Str} {off : Nat} (hsign : sign ∈ [[], c!"-"])
    (h : ∀ c r, s = c :: r → c ≠ '-') : (Input.stripPrefix ⟨off, sign ++ s⟩ c!"-").orElse
      (Input.splitAt ⟨off, sign ++ s⟩ 0) = .ok ⟨off + utf8Len sign, s⟩ ⟨off, off + utf8Len sign⟩ := by
  simp only [List.mem_cons, List.not_mem_nil, or_false] at hsign
  rcases hsign with rfl | rfl
  · rw [stripPrefix_none, orElse_notFound]
    · exact splitAt_ok [] s off
    · cases s with
      | nil => rfl
      | cons c r => simpa [List.isPrefixOf] using (h c r rfl).symm
  · rw [stripPrefix_ok]
    rfl

theorem int_ok {sign ds rest : Str} {off : Nat} (hsign : sign ∈ [[], c!"-"]) (h : Canonical ds)
    (hr : ∀ c r, rest = c :: r → c ∉ digitChars ∧ c ≠ '.') :
    numberLiteral ⟨off, sign ++ ds ++ rest⟩ = .ok ⟨off + utf8Len (sign ++ ds), rest⟩
      (⟨.integerLiteral, ⟨off, off + utf8Len (sign ++ ds)⟩⟩, .valid) := by
  obtain ⟨d, r, hd, hm, _⟩ := canonical_head h
  rw [numberLiteral, List.append_assoc, sign_ok hsign]
  · rw [R.bind_ok, whole_ok h fun c r hc => (hr c r hc).1, R.bind_ok,
      stripPrefix_none (p := c!".")]
    · simp only
      rw [Nat.add_assoc, ← utf8Len_append, ← List.append_assoc, splitUntil_ok]
      rfl
    · cases rest with
      | nil => rfl
      | cons c r => simpa [List.isPrefixOf] using (hr c r rfl).2.symm
  · rw [hd]
    rintro c r hc rfl
    simp only [List.cons_append, List.cons.injEq] at hc
    rw [hc.1] at hm
    revert hm
    decide

theorem float_ok {sign ds fs rest : Str} {off : Nat} (hsign : sign ∈ [[], c!"-"])
    (h : Canonical ds) (hf : fs ≠ []) (hfs : ∀ c ∈ fs, c ∈ digitChars)
    (hr : ∀ c r, rest = c :: r → c ∉ digitChars) :
    numberLiteral ⟨off, sign ++ ds ++ '.' :: fs ++ rest⟩ =
      .ok ⟨off + utf8Len (sign ++ ds ++ '.' :: fs), rest⟩
        (⟨.floatLiteral, ⟨off, off + utf8Len (sign ++ ds ++ '.' :: fs)⟩⟩, .valid) := by
  obtain ⟨d, r, hd, hm, _⟩ := canonical_head h
  rw [numberLiteral, List.append_assoc, List.append_assoc, sign_ok hsign]
  · rw [R.bind_ok, whole_ok h, R.bind_ok,
      show '.' :: fs ++ rest = c!"." ++ (fs ++ rest) from rfl, stripPrefix_ok]
    · simp only
      rw [places_run hfs hr, if_neg (by rw [utf8Len_eq_zero]; exact hf), splitAt_ok, R.bind_ok]
      have := splitUntil_ok (sign ++ ds ++ '.' :: fs) rest off
      have hl : off + utf8Len sign + utf8Len ds + utf8Len c!"." + utf8Len fs =
          off + utf8Len (sign ++ ds ++ '.' :: fs) := by
        rw [show ('.' :: fs) = c!"." ++ fs from rfl, utf8Len_append, utf8Len_append, utf8Len_append]
        omega
      have hs : sign ++ (ds ++ (c!"." ++ (fs ++ rest))) = sign ++ ds ++ '.' :: fs ++ rest := by simp
      rw [hl, hs, this]
      rfl
    · rintro c r hc
      simp only [List.cons_append, List.cons.injEq] at hc
      rw [← hc.1]
      decide
  · rw [hd]
    rintro c r hc rfl
    simp only [List.cons_append, List.cons.injEq] at hc
    rw [hc.1] at hm
    revert hm
    decide

/-! ### Strings -/

theorem hexDigit_ok {c : Char} {s : Str} {off : Nat} (h : isHexDigit c = true) :
    parseHexDigit ⟨off, c :: s⟩ = .ok ⟨off + 1, s⟩ ⟨off, off + 1⟩ := by
  rw [parseHexDigit]
  simp only [h, if_true]
  have := splitAt_ok [c] s off
  rwa [show utf8Len [c] = 1 by simp [utf8Len, utf8Size_ascii (isHexDigit_ascii h)]] at this

theorem manyHex_run : ∀ {hex : Str} {n off : Nat} {s : Str}, (∀ c ∈ hex, isHexDigit c = true) →
    hex.length ≤ n → manyHex n ⟨off, hex ++ '}' :: s⟩ = .ok ⟨off + hex.length, '}' :: s⟩ ()
  | [], 0, _, _, _, _ => rfl
  | [], n + 1, off, s, _, _ => by
    rw [manyHex]
    rfl
  | c :: hex, 0, _, _, _, h => by simp at h
  | c :: hex, n + 1, off, s, hc, h => by
    simp only [List.forall_mem_cons] at hc
    rw [manyHex, List.cons_append, hexDigit_ok hc.1]
    simp only
    rw [manyHex_run hc.2 (by simpa using h), List.length_cons, Nat.add_assoc, Nat.add_comm 1]

theorem hexDigits_ok {hex s : Str} {off : Nat} (h0 : hex ≠ []) (hc : ∀ c ∈ hex, isHexDigit c = true)
    (hl : hex.length ≤ 5) : hexDigits ⟨off, hex ++ '}' :: s⟩ =
      .ok ⟨off + hex.length, '}' :: s⟩ ⟨off, off + hex.length⟩ := by
  cases hex with
  | nil => exact absurd rfl h0
  | cons c hex =>
    simp only [List.forall_mem_cons] at hc
    rw [hexDigits, List.cons_append, hexDigit_ok hc.1, R.bind_ok, manyHex_run hc.2 (by simpa using hl),
      R.bind_ok, List.length_cons, Nat.add_assoc, Nat.add_comm 1]

theorem escape_ok {e : Char} {s : Str} {off : Nat} (h : e ∈ c!"\"\\bfnrt") :
    parseEscape ⟨off, '\\' :: e :: s⟩ = .ok ⟨off + 2, s⟩ .valid := by
  have h2 : punctuationTag c!"\\" ⟨off, c!"\\" ++ (e :: s)⟩ = .ok ⟨off + 1, e :: s⟩ ⟨off, off + 1⟩ :=
    stripPrefix_ok _ _ _
  rw [parseEscape, show '\\' :: e :: s = c!"\\" ++ (e :: s) from rfl, h2, R.bind_ok]
  have key : ∀ l : Str, e ∈ l → e.utf8Size = 1 →
      alt (l.map fun c => punctuationTag [c]) ⟨off + 1, e :: s⟩ =
        .ok ⟨off + 2, s⟩ ⟨off + 1, off + 2⟩ := by
    intro l hl h1
    induction l with
    | nil => simp at hl
    | cons c l ih =>
      rw [List.map_cons, alt]
      by_cases hc : c = e
      · subst hc
        have := stripPrefix_ok [c] s (off + 1)
        rw [show utf8Len [c] = 1 by simp [utf8Len, h1]] at this
        rw [punctuationTag, show c :: s = [c] ++ s from rfl, this]
      · rw [punctuationTag, stripPrefix_none (by simpa [List.isPrefixOf] using hc)]
        exact ih (by simpa [Ne.symm hc] using hl)
  have := key c!"\"\\bfnrt" h ((show ∀ c ∈ c!"\"\\bfnrt", c.utf8Size = 1 by decide) e h)
  simp only [List.map_cons, List.map_nil] at this
  rw [this]

theorem unicode_ok {hex s : Str} {off : Nat} (h0 : hex ≠ []) (hc : ∀ c ∈ hex, isHexDigit c = true)
    (hl : hex.length ≤ 5) (hn : isScalar (hexNum hex) = true) :
    parseEscape ⟨off, c!"\\u{" ++ hex ++ '}' :: s⟩ =
      .ok ⟨off + 3 + hex.length + 1, s⟩ .valid := by
  have h1 : punctuationTag c!"u{" ⟨off + 1, c!"u{" ++ (hex ++ '}' :: s)⟩ =
      .ok ⟨off + 1 + 2, hex ++ '}' :: s⟩ ⟨off + 1, off + 1 + 2⟩ := stripPrefix_ok _ _ _
  have h2 : punctuationTag c!"\\" ⟨off, c!"\\" ++ (c!"u{" ++ (hex ++ '}' :: s))⟩ =
      .ok ⟨off + 1, c!"u{" ++ (hex ++ '}' :: s)⟩ ⟨off, off + 1⟩ := stripPrefix_ok _ _ _
  have h3 : alt [punctuationTag c!"\"", punctuationTag c!"\\", punctuationTag c!"b",
      punctuationTag c!"f", punctuationTag c!"n", punctuationTag c!"r", punctuationTag c!"t"]
      ⟨off + 1, c!"u{" ++ (hex ++ '}' :: s)⟩ = .notFound := rfl
  rw [parseEscape, show c!"\\u{" ++ hex ++ '}' :: s = c!"\\" ++ (c!"u{" ++ (hex ++ '}' :: s)) from by simp,
    h2, R.bind_ok, h3]
  simp only
  rw [h1, R.bind_ok, hexDigits_ok h0 hc hl, R.bind_ok]
  have h4 : (hex ++ '}' :: s).take (off + 1 + 2 + hex.length - (off + 1 + 2)) = hex := by
    rw [Nat.add_sub_cancel_left, List.take_left]
  have h5 : ∀ o, punctuationTag c!"}" ⟨o, '}' :: s⟩ = .ok ⟨o + 1, s⟩ ⟨o, o + 1⟩ :=
    fun o => stripPrefix_ok c!"}" s o
  simp only [h4, hn, if_true, h5]

theorem utf8Len_cons (c : Char) (s : Str) : utf8Len (c :: s) = c.utf8Size + utf8Len s := by
  simp [utf8Len]

theorem stringInner_ok {b v : Str} (h : Denotes b v) : ∀ {fuel off : Nat} {rest : Str}
    {errors : List Range}, b.length < fuel → stringInner fuel ⟨off, b ++ '"' :: rest⟩ errors =
      .ok ⟨off + utf8Len b, '"' :: rest⟩ errors := by
  induction h with
  | nil =>
    intro fuel off rest errors hf
    cases fuel with
    | zero => simp at hf
    | succ n => rfl
  | @char c s v h1 h2 _ ih =>
    intro fuel off rest errors hf
    cases fuel with
    | zero => simp at hf
    | succ n =>
      rw [stringInner]
      simp only [List.cons_append, h1, h2, if_false]
      have := splitAt_ok [c] (s ++ '"' :: rest) off
      rw [show utf8Len [c] = c.utf8Size by simp [utf8Len]] at this
      rw [show c :: (s ++ '"' :: rest) = [c] ++ (s ++ '"' :: rest) from rfl, this, R.bind_ok,
        ih (by simpa using hf), utf8Len_cons, Nat.add_assoc]
  | @esc e x s v he _ ih =>
    intro fuel off rest errors hf
    cases fuel with
    | zero => simp at hf
    | succ n =>
      have hm : e ∈ c!"\"\\bfnrt" ∧ e.utf8Size = 1 :=
        (show ∀ p ∈ [('"', '"'), ('\\', '\\'), ('b', Char.ofNat 8), ('f', Char.ofNat 12),
          ('n', '\n'), ('r', '\r'), ('t', '\t')], p.1 ∈ c!"\"\\bfnrt" ∧ p.1.utf8Size = 1 by decide) _ he
      rw [stringInner]
      simp only [List.cons_append, if_true, show ('\\' = '"') = False by decide, if_false]
      rw [escape_ok hm.1, R.bind_ok]
      simp only
      rw [ih (by simp at hf; omega), utf8Len_cons, utf8Len_cons, hm.2,
        show Char.utf8Size '\\' = 1 by decide, ← Nat.add_assoc, ← Nat.add_assoc]
  | @unicode hex n0 s v h1 h2 hx h4 _ ih =>
    obtain ⟨h3, rfl⟩ := hx.digits
    replace h4 := (isScalar_iff _).2 h4
    intro fuel off rest errors hf
    cases fuel with
    | zero => simp at hf
    | succ n =>
      rw [stringInner]
      have h5 := unicode_ok (s := s ++ '"' :: rest) (off := off) h1 h3 h2 h4
      have h6 : c!"\\u{" ++ hex ++ c!"}" ++ s ++ '"' :: rest =
          c!"\\u{" ++ hex ++ '}' :: (s ++ '"' :: rest) := by simp
      have h7 : c!"\\u{" ++ hex ++ '}' :: (s ++ '"' :: rest) =
        '\\' :: ('u' :: '{' :: hex ++ '}' :: (s ++ '"' :: rest)) := by simp
      rw [h6]
      simp only [h7, if_true, show ('\\' = '"') = False by decide, if_false]
      rw [← h7, h5, R.bind_ok]
      simp only
      rw [ih (by simp at hf; omega), utf8Len_append, utf8Len_append, utf8Len_append,
        utf8Len_ascii fun c hc => isHexDigit_ascii (h3 c hc),
        show utf8Len c!"\\u{" = 3 by decide, show utf8Len c!"}" = 1 by decide]
      simp only [Nat.add_assoc]

theorem string_ok {b v rest : Str} {off : Nat} (h : Denotes b v) :
    stringLiteral ⟨off, '"' :: b ++ ['"'] ++ rest⟩ =
      .ok ⟨off + utf8Len ('"' :: b ++ ['"']), rest⟩
        (⟨.stringLiteral, ⟨off, off + utf8Len ('"' :: b ++ ['"'])⟩⟩, .valid) := by
  have h1 : punctuationTag c!"\"" ⟨off, c!"\"" ++ (b ++ '"' :: rest)⟩ =
      .ok ⟨off + 1, b ++ '"' :: rest⟩ ⟨off, off + 1⟩ := stripPrefix_ok _ _ _
  have h2 : ∀ o, punctuationTag c!"\"" ⟨o, '"' :: rest⟩ = .ok ⟨o + 1, rest⟩ ⟨o, o + 1⟩ :=
    fun o => stripPrefix_ok c!"\"" rest o
  have h3 := splitUntil_ok ('"' :: b ++ ['"']) rest off
  have h4 : off + utf8Len ('"' :: b ++ ['"']) = off + 1 + utf8Len b + 1 := by
    rw [List.cons_append, utf8Len_cons, utf8Len_append, show Char.utf8Size '"' = 1 by decide,
      show utf8Len ['"'] = 1 by decide]
    omega
  have h5 : '"' :: b ++ ['"'] ++ rest = c!"\"" ++ (b ++ '"' :: rest) := by simp
  rw [stringLiteral, h5, h1, R.bind_ok,
    stringInner_ok h (by simp; omega), R.bind_ok, alt, h2]
  simp only [R.bind_ok]
  rw [← h4, ← h5, h3]
  rfl

/-! ### All words -/

theorem later_comment {i : Input} {r : Input} {x : Range} (h : comment i = .ok r x) :
    alt later i = .ok r (⟨.comment, x⟩, .valid) := by
  rw [later, alt, validToken, h]
  rfl

theorem later_string {i : Input} {c : Char} {s : Str} (hi : i.rest = c :: s) (hc : c ≠ '#') :
    alt later i = alt [stringLiteral, numberLiteral, validToken symbol .symbol,
      validToken whitespace .whitespace] i := by
  rw [later, alt, validToken, comment_none hi hc]
  rfl

theorem later_number {i : Input} {c : Char} {s : Str} (hi : i.rest = c :: s) (hc : c ≠ '#')
    (hq : c ≠ '"') : alt later i = alt [numberLiteral, validToken symbol .symbol,
      validToken whitespace .whitespace] i := by
  rw [later_string hi hc, alt, string_none hi hq]

theorem alt_ok {α : Type} {p : Input → R α} {ps : List (Input → R α)} {i r : Input} {a : α}
    (h : p i = .ok r a) : alt (p :: ps) i = .ok r a := by
  rw [alt, h]

theorem alt_next {α : Type} {p : Input → R α} {ps : List (Input → R α)} {i : Input}
    (h : p i = .notFound) : alt (p :: ps) i = alt ps i := by
  rw [alt, h]

theorem validToken_ok {p : Input → R Range} {k : TokenKind} {i r : Input} {x : Range}
    (h : p i = .ok r x) : validToken p k i = .ok r (⟨k, x⟩, .valid) := by
  rw [validToken, h]
  rfl

theorem validToken_none {p : Input → R Range} {k : TokenKind} {i : Input}
    (h : p i = .notFound) : validToken p k i = .notFound := by
  rw [validToken, h]
  rfl

/-- A number of name characters is not a tag. -/
theorem no_tag_number {c : Char} {s rest : Str} (hc : ∀ x ∈ c :: s, x ∈ nameChars)
    (hd : ∃ x ∈ c :: s, x ∈ digitChars) (hr : Stops rest) :
    ∀ g ∈ groups, ∀ q ∈ g.2, tagAt q (c :: s ++ rest) = false := by
  refine no_tag_name (List.cons_ne_nil _ _) hc ?_ hr
  intro q hq h
  obtain ⟨x, hx, hxd⟩ := hd
  rw [← h] at hx
  exact (show ∀ q ∈ allTags, ∀ x ∈ q.2, x ∉ digitChars by decide) q hq x hx hxd

theorem sign_name {sign : Str} (h : sign ∈ [[], c!"-"]) : ∀ c ∈ sign, c ∈ nameChars :=
  (show ∀ sign ∈ [[], c!"-"], ∀ c ∈ sign, c ∈ nameChars by decide) sign h

/-- Every word of the lexical grammar is found as one token. -/
theorem parseToken_lexeme {w : Word} {rest : Str} {off : Nat} (h : Lexeme w) (he : EndsAt w rest) :
    parseToken ⟨off, w.2 ++ rest⟩ = .ok ⟨off + utf8Len w.2, rest⟩
      (⟨w.1, ⟨off, off + utf8Len w.2⟩⟩, .valid) := by
  cases h with
  | @space s hs h =>
    simp only [EndsAt] at he
    cases s with
    | nil => exact absurd rfl hs
    | cons c s =>
      have hc := h c (by simp)
      refine parseToken_later (c := c) (s := s ++ rest) rfl (no_tag ?_ _) ?_
      · exact (show ∀ c ∈ spaceChars, ∀ q ∈ allTags, q.2.head? ≠ some c by decide) c hc
      · obtain ⟨h1, h2, h3, h4, h5⟩ := (show ∀ c ∈ spaceChars, c ≠ '#' ∧ c ≠ '"' ∧ c ∉ digitChars ∧
          c ≠ '-' ∧ c ∉ nameChars by decide) c hc
        rw [later_number (c := c) (s := s ++ rest) rfl h1 h2,
          alt_next (number_none (c := c) (s := s ++ rest) rfl h3 fun _ _ h => absurd h h4),
          alt_next (validToken_none _), alt_ok (validToken_ok (whitespace_ok hs h he))]
        have : isSymbolChar c = false := by
          rw [Bool.eq_false_iff, ne_eq, symbolChar_iff]; exact h5
        rw [symbol]
        simp [this, utf8Len]
  | @comment s h1 h2 =>
    simp only [EndsAt] at he
    refine parseToken_later (c := '#') (s := s ++ rest) rfl (no_tag (by decide) _) ?_
    exact later_comment (comment_ok h1 h2 he)
  | @punct s hs =>
    simp only [EndsAt, pw] at he
    have h1 := (show ∀ s ∈ [c!"(", c!")", c!"[", c!"]", c!"{", c!"}", c!"'", c!",", c!";", c!"=", c!"->",
      c!"~>"], s ∈ [c!"=", c!"->", c!"~>"] ∨ s ∈ [c!"(", c!")", c!"[", c!"]", c!"{", c!"}", c!"'",
        c!",", c!";"] by decide) s hs
    rcases h1 with h1 | h1
    · have hr := he h1
      have := (show ∀ s ∈ [c!"=", c!"->", c!"~>"], s ≠ [] ∧ tagIs .punctuation s groups = true by
        decide) s h1
      exact parseToken_tagStops this.1 hr this.2
    · refine parseToken_tag ?_ ?_
      · exact (show ∀ s ∈ [c!"(", c!")", c!"[", c!"]", c!"{", c!"}", c!"'", c!",", c!";"], s ≠ [] by
          decide) s h1
      · refine .inr ⟨?_, .inl ⟨rfl, ?_⟩⟩
        · simp only [List.mem_cons, List.not_mem_nil, or_false] at h1
          rcases h1 with rfl | rfl | rfl | rfl | rfl | rfl | rfl | rfl | rfl <;>
            simp [longTags, tagAt, pw]
        · simp only [List.mem_cons, List.not_mem_nil, or_false] at h1
          rcases h1 with rfl | rfl | rfl | rfl | rfl | rfl | rfl | rfl | rfl
          · exact ⟨[], false, _, rfl, by simp, by simp⟩
          · exact ⟨punctTags.take 1, false, _, rfl, by simp [punctTags, tagAt, pw], by simp⟩
          · exact ⟨punctTags.take 2, false, _, rfl, by simp [punctTags, tagAt, pw], by simp⟩
          · exact ⟨punctTags.take 3, false, _, rfl, by simp [punctTags, tagAt, pw], by simp⟩
          · exact ⟨punctTags.take 4, false, _, rfl, by simp [punctTags, tagAt, pw], by simp⟩
          · exact ⟨punctTags.take 5, false, _, rfl, by simp [punctTags, tagAt, pw], by simp⟩
          · exact ⟨punctTags.take 6, false, _, rfl, by simp [punctTags, tagAt, pw], by simp⟩
          · exact ⟨punctTags.take 7, false, _, rfl, by simp [punctTags, tagAt, pw], by simp⟩
          · exact ⟨punctTags.take 8, false, _, rfl, by simp [punctTags, tagAt, pw], by simp⟩
  | @op s hs =>
    simp only [EndsAt, ow] at he
    by_cases h1 : s = c!"@"
    · subst h1
      refine parseToken_tag (by decide) ?_
      refine .inr ⟨?_, .inr ⟨?_, .inr ⟨?_, .inl ⟨rfl, shortTags.take 7, false, _, rfl, ?_, by simp⟩⟩⟩⟩
      all_goals simp [longTags, punctTags, keywordTags, shortTags, tagAt, ow]
    · have hr := he h1
      have := (show ∀ s ∈ c!"@" :: opNames, s ≠ [] ∧ tagIs .operator s groups = true by
        decide) s hs
      exact parseToken_tagStops this.1 hr this.2
  | @keyword s hs =>
    have := (show ∀ s ∈ [c!"None", c!"then", c!"else", c!"let", c!"for", c!"if", c!"in"],
      s ≠ [] ∧ tagIs .keyword s groups = true by decide) s hs
    exact parseToken_tagStops this.1 he this.2
  | @bool s hs =>
    have := (show ∀ s ∈ [c!"True", c!"False"],
      s ≠ [] ∧ tagIs .booleanLiteral s groups = true by decide) s hs
    exact parseToken_tagStops this.1 he this.2
  | @str b v h =>
    refine parseToken_later (c := '"') (s := b ++ ['"'] ++ rest) rfl (no_tag (by decide) _) ?_
    rw [later_string (c := '"') (s := b ++ ['"'] ++ rest) rfl (by decide)]
    exact alt_ok (string_ok h)
  | @int sign ds hsign h =>
    obtain ⟨d, r, hd, hm, hds⟩ := canonical_head h
    have hn : ∀ x ∈ sign ++ ds, x ∈ nameChars := by
      intro x hx
      rcases List.mem_append.mp hx with hx | hx
      · exact sign_name hsign x hx
      · exact digit_name (hds x (by rw [← hd]; exact hx))
    have hx : ∃ x ∈ sign ++ ds, x ∈ digitChars := ⟨d, by rw [hd]; simp, hm⟩
    have hk : numberLiteral ⟨off, sign ++ ds ++ rest⟩ = _ := int_ok hsign h fun c r hc =>
      ⟨not_digit_of_stops he c r hc, by
        rintro rfl
        exact (he _ r hc).1 (by decide)⟩
    have hq : '"' ∉ sign ++ ds := fun h => absurd (hn _ h) (by decide)
    have hh : '#' ∉ sign ++ ds := by
      intro h'
      rcases List.mem_append.mp h' with h' | h'
      · exact (show ∀ s ∈ [[], c!"-"], '#' ∉ s by decide) sign hsign h'
      · rw [hd] at h'
        exact absurd (hds _ h') (by decide)
    generalize sign ++ ds = t at hn hx hk hq hh
    cases t with
    | nil => simp at hx
    | cons c t =>
      refine parseToken_later (c := c) (s := t ++ rest) rfl (no_tag_number hn hx he) ?_
      rw [later_number (c := c) (s := t ++ rest) rfl (by rintro rfl; simp at hh)
        (by rintro rfl; simp at hq)]
      exact alt_ok hk
  | @float sign ds fs hsign h hf hfs =>
    obtain ⟨d, r, hd, hm, hds⟩ := canonical_head h
    have hn : ∀ x ∈ sign ++ ds ++ '.' :: fs, x ∈ nameChars := by
      intro x hx
      rcases List.mem_append.mp hx with hx | hx
      · rcases List.mem_append.mp hx with hx | hx
        · exact sign_name hsign x hx
        · exact digit_name (hds x (by rw [← hd]; exact hx))
      · rcases List.mem_cons.mp hx with rfl | hx
        · decide
        · exact digit_name (hfs x hx)
    have hx : ∃ x ∈ sign ++ ds ++ '.' :: fs, x ∈ digitChars := ⟨d, by rw [hd]; simp, hm⟩
    have hk : numberLiteral ⟨off, sign ++ ds ++ '.' :: fs ++ rest⟩ = _ := float_ok hsign h hf hfs
      fun c r hc => not_digit_of_stops he c r hc
    have hq : '"' ∉ sign ++ ds ++ '.' :: fs := fun h => absurd (hn _ h) (by decide)
    have hh : '#' ∉ sign ++ ds ++ '.' :: fs := by
      intro h'
      rcases List.mem_append.mp h' with h' | h'
      · rcases List.mem_append.mp h' with h' | h'
        · exact (show ∀ s ∈ [[], c!"-"], '#' ∉ s by decide) sign hsign h'
        · rw [hd] at h'
          exact absurd (hds _ h') (by decide)
      · rcases List.mem_cons.mp h' with h' | h'
        · revert h'; decide
        · exact absurd (hfs _ h') (by decide)
    generalize sign ++ ds ++ '.' :: fs = t at hn hx hk hq hh
    cases t with
    | nil => simp at hx
    | cons c t =>
      refine parseToken_later (c := c) (s := t ++ rest) rfl (no_tag_number hn hx he) ?_
      rw [later_number (c := c) (s := t ++ rest) rfl (by rintro rfl; simp at hh)
        (by rintro rfl; simp at hq)]
      exact alt_ok hk
  | @name c s hn h1 h2 h3 h4 h5 =>
    simp only [EndsAt] at he
    refine parseToken_later (c := c) (s := s ++ rest) rfl
      (no_tag_name (List.cons_ne_nil _ _) hn ?_ he) ?_
    · intro q hq h
      have : q.2 ∈ reserved ∨ q.2 ∈ [c!"True", c!"False"] :=
        (show ∀ q ∈ allTags, q.2 ∈ reserved ∨ q.2 ∈ [c!"True", c!"False"] by decide) q hq
      rw [h] at this
      rcases this with h | h
      · exact h1 h
      · exact h2 h
    · have hq : c ≠ '"' := by
        rintro rfl
        exact absurd (hn _ (List.mem_cons_self ..)) (by decide)
      rw [later_number (c := c) (s := s ++ rest) rfl h3 hq, alt_next (number_none rfl h4 ?_),
        alt_ok (validToken_ok (symbol_ok (List.cons_ne_nil _ _) hn fun c r hc => (he c r hc).1))]
      intro d r hc hd
      cases s with
      | nil => exact not_digit_of_stops he d r hd
      | cons d' s =>
        have : d' = d := (List.cons.inj hd).1
        rw [← this]
        exact h5 d' s hc rfl

/-! ### Lines -/

theorem lexeme_ne {w : Word} (h : Lexeme w) : w.2 ≠ [] := by
  cases h with
  | space hs _ => exact hs
  | comment _ _ => exact List.cons_ne_nil _ _
  | punct hs => exact (show ∀ s ∈ [c!"(", c!")", c!"[", c!"]", c!"{", c!"}", c!"'", c!",", c!";", c!"=",
      c!"->", c!"~>"], s ≠ [] by decide) _ hs
  | op hs => exact (show ∀ s ∈ c!"@" :: opNames, s ≠ [] by decide) _ hs
  | keyword hs => exact (show ∀ s ∈ [c!"None", c!"then", c!"else", c!"let", c!"for", c!"if", c!"in"],
      s ≠ [] by decide) _ hs
  | bool hs => exact (show ∀ s ∈ [c!"True", c!"False"], s ≠ [] by decide) _ hs
  | str _ => exact List.cons_ne_nil _ _
  | int _ h =>
    obtain ⟨d, r, rfl, _⟩ := canonical_head h
    simp
  | float _ h _ _ => simp
  | name _ _ _ _ _ _ => exact List.cons_ne_nil _ _

/-- The tokens of a line, starting at `off`. -/
def tokensAt : Nat → List Word → List Token
  | _, [] => []
  | off, w :: ws => ⟨w.1, ⟨off, off + utf8Len w.2⟩⟩ :: tokensAt (off + utf8Len w.2) ws

theorem parseTokens_line : ∀ {ws : List Word} {fuel off : Nat} {ts : List Token}
    {ds : List Diagnostic}, Line ws → (textOf ws).length < fuel →
      parseTokens fuel ⟨off, textOf ws⟩ ts ds =
        .ok (ts ++ tokensAt off ws, ds ++ ws.map fun _ => .valid)
  | [], fuel + 1, off, ts, ds, _, _ => by
    rw [parseTokens]
    simp [textOf, parseToken, tokensAt]
  | w :: ws, 0, _, _, _, _, h => by simp at h
  | w :: ws, fuel + 1, off, ts, ds, hl, hf => by
    have hne := List.length_pos_iff.mpr (lexeme_ne hl.1)
    have ht : textOf (w :: ws) = w.2 ++ textOf ws := rfl
    rw [ht, List.length_append] at hf
    rw [parseTokens, ht, parseToken_lexeme hl.1 hl.2.1]
    simp only
    rw [parseTokens_line hl.2.2 (by omega)]
    simp [tokensAt]

theorem tokenize_line {ws : List Word} (h : Line ws) :
    tokenize (textOf ws) = .ok (tokensAt 0 ws, ws.map fun _ => .valid) := by
  rw [tokenize, tokenizeN, parseTokens_line h (by omega)]
  simp

theorem slices_line (ws : List Word) : ∀ pre, (tokensAt (utf8Len pre) ws).map (fun t => t.kind) =
    ws.map Prod.fst ∧ (tokensAt (utf8Len pre) ws).map
      (fun t => sliceStr (pre ++ textOf ws) t.range.start t.range.stop) = ws.map fun w => some w.2 := by
  induction ws with
  | nil => exact fun _ => ⟨rfl, rfl⟩
  | cons w ws ih =>
    intro pre
    have h := ih (pre ++ w.2)
    rw [utf8Len_append, List.append_assoc] at h
    have ht : textOf (w :: ws) = w.2 ++ textOf ws := rfl
    have hs := sliceStr_mid pre w.2 (textOf ws)
    rw [List.append_assoc] at hs
    simp only [tokensAt, List.map_cons, ht, hs, h.1, h.2, and_self]

/-- The words of a line are its tokens. -/
theorem reads_line {ws : List Word} (h : Line ws)
    (hc : ∀ u a b v, ws = u ++ a :: b :: v → ¬ Clash a b) : Reads (textOf ws) ws :=
  ⟨⟨_, _, tokenize_line h, slices_line ws []⟩, ⟨_, _, tokenize_line h, by simp⟩, hc⟩

end Dune.Lex
