import Verif.Proof.Readable
import Verif.Props.Parsing
import Verif.Spec.Demo

/-! Properties C09, C10, C12 and C67 on texts: integers, strings, printed data, and layout. -/

namespace Dune.Props

open Parse Spec

/-- C67: a line of words with any layout between them, in which no two words that may not touch
do, is accepted if the words without whitespace and comments form a script, and parses to exactly
the statements the grammar assigns to it. -/
theorem C67_text {P : Plat} {ws : List Word} {l : List Expr} (hl : Line ws)
    (hc : ∀ u a b v, ws = u ++ a :: b :: v → ¬ Clash a b)
    (h : G P .stmts (ws.filter Spec.isSolid) l) : parseText P (textOf ws) = .ok (.do_ l) := by
  obtain ⟨i, hi, hp, _⟩ := parseScript_words (P := P) ⟨ws, Lex.reads_line hl hc, rfl⟩
  rw [parseText, hp, scriptN_of_stmts (C := ⟨P, ⟨utf8Len (textOf ws), utf8Len (textOf ws)⟩⟩) h hi]

/-- every word, whatever it is, may be followed by a space -/
private theorem endsAt_space {w : Word} (h : Lexeme w) (hs : Spec.isSolid w = true) (r : Str) :
    EndsAt w (' ' :: r) := by
  have : Stops (' ' :: r) := by
    rintro c r h
    rw [← (List.cons.inj h).1]
    decide
  cases h with
  | space => simp [Spec.isSolid] at hs
  | comment => simp [Spec.isSolid] at hs
  | punct => exact fun _ => this
  | op => exact fun _ => this
  | str => trivial
  | _ => exact this

private theorem lexeme_head {w : Word} (h : Lexeme w) (hs : Spec.isSolid w = true) :
    ∃ c r, w.2 = c :: r ∧ c ∉ spaceChars := by
  cases h with
  | space => simp [Spec.isSolid] at hs
  | comment => exact ⟨'#', _, rfl, by decide⟩
  | punct h =>
    obtain ⟨c, r, h⟩ := List.exists_cons_of_ne_nil (Lex.lexeme_ne (.punct h))
    refine ⟨c, r, h, ?_⟩
    rename_i s hm
    simp only [pw] at h
    subst h
    have := (show ∀ s ∈ [c!"(", c!")", c!"[", c!"]", c!"{", c!"}", c!"'", c!",", c!";", c!"=", c!"->",
      c!"~>"], ∀ x ∈ s, x ∉ spaceChars by decide) _ hm
    exact this c (by simp)
  | op h =>
    obtain ⟨c, r, h⟩ := List.exists_cons_of_ne_nil (Lex.lexeme_ne (.op h))
    refine ⟨c, r, h, ?_⟩
    rename_i s hm
    simp only [ow] at h
    subst h
    exact (show ∀ s ∈ c!"@" :: opNames, ∀ x ∈ s, x ∉ spaceChars by decide) _ hm c (by simp)
  | keyword h =>
    obtain ⟨c, r, h⟩ := List.exists_cons_of_ne_nil (Lex.lexeme_ne (.keyword h))
    refine ⟨c, r, h, ?_⟩
    rename_i s hm
    simp only [kw] at h
    subst h
    exact (show ∀ s ∈ [c!"None", c!"then", c!"else", c!"let", c!"for", c!"if", c!"in"],
      ∀ x ∈ s, x ∉ spaceChars by decide) _ hm c (by simp)
  | bool h =>
    obtain ⟨c, r, h⟩ := List.exists_cons_of_ne_nil (Lex.lexeme_ne (.bool h))
    refine ⟨c, r, h, ?_⟩
    rename_i s hm
    simp only at h
    subst h
    exact (show ∀ s ∈ [c!"True", c!"False"], ∀ x ∈ s, x ∉ spaceChars by decide) _ hm c (by simp)
  | str => exact ⟨'"', _, rfl, by decide⟩
  | @int sign ds hsg h =>
    obtain ⟨d, r, rfl, hd, _⟩ := Lex.canonical_head h
    simp only [List.mem_cons, List.not_mem_nil, or_false] at hsg
    rcases hsg with rfl | rfl
    · exact ⟨d, r, rfl, name_not_space (Lex.digit_name hd)⟩
    · exact ⟨'-', _, rfl, by decide⟩
  | @float sign ds fs hsg h _ _ =>
    obtain ⟨d, r, rfl, hd, _⟩ := Lex.canonical_head h
    simp only [List.mem_cons, List.not_mem_nil, or_false] at hsg
    rcases hsg with rfl | rfl
    · exact ⟨d, _, rfl, name_not_space (Lex.digit_name hd)⟩
    · exact ⟨'-', _, rfl, by decide⟩
  | @name c s h _ _ _ _ _ => exact ⟨c, s, rfl, name_not_space (h c (List.mem_cons_self ..))⟩

/-- C67: any words, each followed by a space, are read as exactly these words. -/
theorem C67_spaced {ws : List Word} (h : ∀ w ∈ ws, Lexeme w ∧ Spec.isSolid w = true) :
    Words (spaced ws) ws := by
  let all := ws.flatMap fun w => [w, (.whitespace, c!" ")]
  have ht : textOf all = spaced ws := by
    simp only [all, textOf, spaced, List.flatMap_assoc]
    simp
  have hf : all.filter Spec.isSolid = ws := by
    simp only [all]
    clear ht
    induction ws with
    | nil => rfl
    | cons w ws ih =>
      simp only [List.forall_mem_cons] at h
      rw [List.flatMap_cons, List.filter_append, ih h.2, filter_solid h.1.2]
      rfl
  have hl : Line all ∧ Apart all := by
    simp only [all]
    clear ht hf
    induction ws with
    | nil => exact ⟨trivial, .nil⟩
    | cons w ws ih =>
      simp only [List.forall_mem_cons] at h
      obtain ⟨h1, h2⟩ := ih h.2
      refine ⟨⟨h.1.1, endsAt_space h.1.1 h.1.2 _, .space (by simp) (by decide), ?_, h1⟩,
        Apart.join (a := [w]) (.singleton _) not_clash_space' (.cons not_clash_space h2)⟩
      show ∀ c r, _ → _
      intro c r hc
      cases ws with
      | nil => simp [textOf] at hc
      | cons w' ws =>
        simp only [List.forall_mem_cons] at h
        obtain ⟨d, s, hd, hn⟩ := lexeme_head h.2.1.1 h.2.1.2
        have hc : w'.2 ++ (' ' :: textOf (ws.flatMap fun w => [w, (.whitespace, c!" ")])) = c :: r := hc
        rw [hd] at hc
        rw [← (List.cons.inj hc).1]
        exact hn
  rw [← ht]
  exact ⟨all, Lex.reads_line hl.1 hl.2.split, hf⟩

/-- `let x = # one⏎-12;` -/
private abbrev demoLine : List Word :=
  [kw c!"let", (.whitespace, c!" "), (.symbol, c!"x"), (.whitespace, c!" "), pw c!"=",
    (.whitespace, c!" "), (.comment, c!"# one"), (.whitespace, c!"\n"),
    (.integerLiteral, c!"-12"), pw c!";"]

private theorem not_space {c : Char} {r : Str} (h : c ∉ spaceChars) :
    ∀ d s, c :: r = d :: s → d ∉ spaceChars := by
  rintro d s h'
  rw [← (List.cons.inj h').1]
  exact h

set_option maxRecDepth 10000 in
example : Line demoLine ∧ (∀ u a b v, demoLine = u ++ a :: b :: v → ¬ Clash a b) ∧
    G Demo.plat .stmts (demoLine.filter Spec.isSolid)
      [.assign c!"x" (.int ⟨-12, by decide, by decide⟩)] := by
  refine ⟨⟨.keyword (by decide), stops_punct (s := c!" ") (by decide) _, .space (by simp) (by decide),
    not_space (by decide), .name (by decide) (by decide) (by decide) (by decide) (by decide)
      (by simp), stops_punct (s := c!" ") (by decide) _, .space (by simp) (by decide),
    not_space (by decide), .punct (by decide), fun _ => stops_punct (s := c!" ") (by decide) _,
    .space (by simp) (by decide), not_space (by decide), .comment (by decide) (by decide),
    fun c r h => .inl (List.cons.inj h).1.symm, .space (by simp) (by decide),
    not_space (by decide), .int (sign := c!"-") (by decide) (.inr ⟨'1', c!"2", rfl, by decide, by decide⟩),
    stops_punct (s := c!";") (by decide) _, .punct (by decide),
    fun h => absurd h (by decide), trivial⟩, ?_, ?_⟩
  · refine Apart.split ?_
    exact Apart.join (a := [_]) (.singleton _) not_clash_space' (.cons not_clash_space
      (Apart.join (a := [_]) (.singleton _) not_clash_space' (.cons not_clash_space
        (.cons not_clash_left (.cons not_clash_space
          (Apart.join (a := [_]) (.singleton _) not_clash_space' (.cons not_clash_space
            (Apart.join (a := [_]) (.singleton _) not_clash_right (.singleton _)))))))))
  · exact .stmt (u := [_, _, _, _]) (.let_ (w := (.symbol, _)) (.inl ⟨rfl, by decide⟩)
      (G.expr_of_two (.base (.atom (.int (by decide)))))) .done

/-! ### Integers -/

private theorem parse_word {P : Plat} {w : Word} {x : Expr} (h : Lexeme w) (he : EndsAt w [])
    (hs : Spec.isSolid w = true) (hg : G P .base [w] x) : parseText P w.2 = .ok (.do_ [x]) := by
  have := C67_text (P := P) (ws := [w]) (l := [x]) ⟨h, he, trivial⟩
    (by rintro u a b v h; cases u <;> simp at h) (by
      rw [filter_solid hs]
      exact .last (G.expr_of_two (.base hg)))
  simpa [textOf] using this

private theorem stops_end : Stops [] := stops_nil

/-- C09: an integer literal denotes exactly its decimal value. -/
theorem C09_value (P : Plat) {sign ds : Str} (hs : sign ∈ [[], c!"-"]) (hd : Canonical ds) (n : I64)
    (hn : n.val = signed sign ds) : parseText P (sign ++ ds) = .ok (.do_ [.int n]) := by
  obtain ⟨d, r, rfl, _, hr⟩ := Lex.canonical_head hd
  refine parse_word (w := (.integerLiteral, _)) (.int hs hd) stops_end rfl (.atom (.int ?_))
  rw [parseI64_eq hs (by simp) hr]
  exact ofInt_some n hn

/-- C09: a literal outside the range of 64-bit integers is rejected. -/
theorem C09_range (P : Plat) {sign ds : Str} (hs : sign ∈ [[], c!"-"]) (hd : Canonical ds)
    (hn : ¬ (-2 ^ 63 ≤ signed sign ds ∧ signed sign ds < 2 ^ 63)) :
    ∃ e, parseScript P (sign ++ ds) = .err true e := by
  have hl : Lexeme (.integerLiteral, sign ++ ds) := .int hs hd
  obtain ⟨d, r, rfl, hm, hr⟩ := Lex.canonical_head hd
  have hline : Line [(.integerLiteral, sign ++ d :: r)] := ⟨hl, stops_end, trivial⟩
  have hw : Words (sign ++ d :: r) [(.integerLiteral, sign ++ d :: r)] := by
    refine ⟨_, ?_, filter_solid rfl []⟩
    have := Lex.reads_line hline (by rintro u a b v h; cases u <;> simp at h)
    simpa [textOf] using this
  obtain ⟨i, hi, hp, _⟩ := parseScript_words (P := P) hw
  obtain ⟨t, i', rfl, ht, hi'⟩ := split_cons hi
  simp only [List.map_eq_nil_iff] at hi'
  subst hi'
  have hk : t.kind = .integerLiteral := congrArg Prod.fst ht
  have htx : t.text = sign ++ d :: r := congrArg Prod.snd ht
  have hres : t.text ∉ reserved := by
    intro hmem
    have := (show ∀ s ∈ reserved, ∀ c ∈ s, c ∉ digitChars by decide) _ hmem d (by rw [htx]; simp)
    exact this hm
  obtain ⟨e, he⟩ := int_failure (C := ⟨P, ⟨utf8Len (sign ++ d :: r), utf8Len (sign ++ d :: r)⟩⟩)
    (n := 1) (r := []) hk hres (by
    rw [htx, parseI64_eq hs (by simp) hr, I64.ofInt?, dif_neg]
    simpa using hn)
  refine ⟨e, ?_⟩
  rw [hp]
  exact script_failure (by rw [hk]; simp) hres he

/-- C09: a literal with a superfluous zero in front is rejected. -/
theorem C09_zeros (P : Plat) {sign ds : Str} (hs : sign ∈ [[], c!"-"]) (hne : ds ≠ [])
    (hd : ∀ c ∈ ds, c ∈ digitChars) : ∃ e, parseScript P (sign ++ '0' :: ds) = .err true e := by
  have ht := Lex.tokens_zeros hs hd
  have ha : sign ++ c!"0" ≠ c!"@" := by
    simp only [List.mem_cons, List.not_mem_nil, or_false] at hs
    rcases hs with rfl | rfl <;> decide
  obtain ⟨b, v, hz, hb⟩ : ∃ b v, zeros ds = (.integerLiteral, b) :: v ∧ b ≠ c!"@" := by
    cases ds with
    | nil => exact absurd rfl hne
    | cons c ds =>
      rw [zeros]
      split
      · exact ⟨_, _, rfl, by decide⟩
      · refine ⟨_, _, rfl, fun h => ?_⟩
        have := hd c (List.mem_cons_self ..)
        rw [(List.cons.inj h).1] at this
        revert this
        decide
  rw [hz] at ht
  exact C07_touching P (u := []) ht ⟨by simp [wordLike], by simp [wordLike], ha, hb⟩

example : (signed c!"-" c!"9223372036854775808" = I64.min.val) ∧
    Canonical c!"9223372036854775808" ∧
    ¬ (-2 ^ 63 ≤ signed [] c!"9223372036854775808" ∧ signed [] c!"9223372036854775808" < 2 ^ 63) :=
  ⟨by decide, .inr ⟨_, _, rfl, by decide, by decide⟩, by decide⟩

/-- C09: every digit string, with or without a minus sign, either denotes exactly its decimal value
or is rejected with a hard failure. -/
theorem C09_all (P : Plat) {sign ds : Str} (hs : sign ∈ [[], c!"-"]) (hne : ds ≠ [])
    (hd : ∀ c ∈ ds, c ∈ digitChars) :
    (∃ n : I64, n.val = signed sign ds ∧ parseText P (sign ++ ds) = .ok (.do_ [.int n])) ∨
      ∃ e, parseScript P (sign ++ ds) = .err true e := by
  by_cases hc : Canonical ds
  · by_cases hr : -2 ^ 63 ≤ signed sign ds ∧ signed sign ds < 2 ^ 63
    · exact .inl ⟨⟨signed sign ds, by simpa using hr.1, by simpa using hr.2⟩, rfl, C09_value P hs hc _ rfl⟩
    · exact .inr (C09_range P hs hc hr)
  · cases ds with
    | nil => exact absurd rfl hne
    | cons d r =>
      by_cases h0 : d = '0'
      · subst h0
        refine .inr (C09_zeros P hs ?_ fun c hc => hd c (List.mem_cons_of_mem _ hc))
        rintro rfl
        exact hc (.inl rfl)
      · exact absurd (.inr ⟨d, r, rfl, h0, hd⟩) hc

/-- C09: every integer is printed in decimal, and reads back as itself. -/
theorem C09_printed (P : Plat) (n : I64) : debug P (.int n) = (toString n.val).toList ∧
    parseText P (toString n.val).toList = .ok (.do_ [.int n]) := by
  obtain ⟨h1, h2⟩ := intToStr_lexeme n
  rw [← intToStr_eq]
  exact ⟨by rw [debug], parse_word (w := (.integerLiteral, _)) h1 stops_end rfl (.atom (.int h2))⟩

/-! ### Strings -/

/-- C10: any text can be written as a string literal. -/
theorem C10_quoted (P : Plat) (s : Str) : parseText P (quoted s) = .ok (.do_ [.str s]) := by
  have := denotes_quoted s
  exact parse_word (w := (.stringLiteral, _)) (.str this) trivial rfl (.atom (.str ⟨_, this, .inr rfl⟩))

/-! ### Printed data -/

/-- C12: printed data reads back as the same data. -/
theorem C12_reads_back {P : Plat} {e : Expr} (h : Readable P e) :
    parseText P (debug P e) = .ok (.do_ [e]) := by
  obtain ⟨ws, hw⟩ := printed_readable h
  obtain ⟨i, hi, hp, _⟩ := parseScript_words (P := P) hw.reads
  rw [parseText, hp, scriptN_of_stmts (C := ⟨P, ⟨utf8Len (debug P e), utf8Len (debug P e)⟩⟩)
    (.last (G.expr_of_two hw.derives)) hi]

/-- `["a\n\"", [-5, None], 'x, (True)]` -/
example : Readable Demo.plat (.list [.str c!"a\n\"", .list [.int ⟨-5, by decide, by decide⟩, .none],
    .quote (.symbol c!"x"), .group (.bool true)]) := by
  refine .list ?_
  simp only [List.forall_mem_cons, List.not_mem_nil, false_implies, implies_true, and_true]
  refine ⟨.str ?_, .list ?_, .quote (.name ?_), .group (.bool _)⟩
  · simp only [List.forall_mem_cons, List.not_mem_nil, false_implies, implies_true, and_true]
    exact ⟨⟨by decide, by simp [Demo.plat]⟩, ⟨by decide, by simp [Demo.plat]⟩, by decide,
      by simp [Demo.plat]⟩
  · simp only [List.forall_mem_cons, List.not_mem_nil, false_implies, implies_true, and_true]
    exact ⟨.int _, .none⟩
  · exact .name (by decide) (by decide) (by decide) (by decide) (by decide) (by simp)

/-- C12 (a limit of the claim): a printed map does not read back as a map.  `{k: v}` is read as a
block that calls the name `k:` with `v`. -/
theorem C12_map {P : Plat} {k : Str} {v : Expr} (hk : Lexeme (.symbol, k ++ c!":"))
    (hv : Readable P v) : parseText P (debug P (.map [(k, v)])) =
      .ok (.do_ [.do_ [.apply (.symbol (k ++ c!":")) [v]]]) := by
  obtain ⟨ws, hw⟩ := printed_readable hv
  obtain ⟨c, r, hcr, hc⟩ := hw.solid
  have hdeb : debug P (.map [(k, v)]) =
      textOf (pw c!"{" :: (.symbol, k ++ c!":") :: (.whitespace, c!" ") :: (ws ++ [pw c!"}"])) := by
    rw [textOf_cons, textOf_cons, textOf_cons, textOf_append, hw.text, debug, debugMap, debugMap]
    simp [joinStr, pw, textOf]
  rw [hdeb]
  refine C67_text ⟨.punct (by decide), fun h => absurd h (by decide), hk,
    stops_punct (s := c!" ") (by decide) _, .space (by simp) (by decide), ?_, ?_⟩ ?_ ?_
  · rw [textOf_append, hw.text, hcr]
    exact not_space hc
  · refine LineTo.line (LineTo.append (hw.line _ (stops_punct (s := c!"}") (by decide) _))
      ⟨.punct (by decide), fun h => absurd h (by decide), trivial⟩)
  · exact Apart.split (.cons not_clash_left (Apart.join (a := [_]) (.singleton _) not_clash_space'
      (.cons not_clash_space (hw.apart.join not_clash_right (.singleton _)))))
  · rw [filter_solid rfl, filter_solid rfl, List.filter_cons, if_neg (by decide), List.filter_append,
      filter_solid rfl]
    refine .last (G.expr_of_two (.base ?_))
    refine .block (u := (.symbol, k ++ c!":") :: ws.filter Spec.isSolid) (.last (.seven
      (.call (u := [_]) (.base (.atom (.name (lexeme_symbol hk).1)))
        (.arg (.rel (.sum (.prod (.two hw.derives)))))))) (by simp)

example : Lexeme (.symbol, c!"key" ++ c!":") :=
  .name (by decide) (by decide) (by decide) (by decide) (by decide) (by simp)

/-- C12 (a limit of the claim): a float that is printed without a fraction, as `1.0` is, reads back
as an integer. -/
theorem C12_float {P : Plat} {f : F64} {n : I64} (h : P.fFmt f = (toString n.val).toList) :
    parseText P (debug P (.float f)) = .ok (.do_ [.int n]) := by
  rw [debug, h]
  exact (C09_printed P n).2

example : Demo.plat.fFmt ⟨0⟩ = (toString (I64.lit 0).val).toList := by decide

/-- C12 (a limit of the claim): NUL is printed as an escape that is not part of the language. -/
theorem C12_nul (P : Plat) : ∃ e, parseScript P (debug P (.str [Char.ofNat 0])) = .err true e := by
  refine C07_diagnostic P (ts := [⟨.stringLiteral, ⟨0, 4⟩⟩]) (ds := [.invalidStringEscapes [⟨1, 3⟩]])
    (d := .invalidStringEscapes [⟨1, 3⟩]) ?_ (by simp) (by simp)
  have : debug P (.str [Char.ofNat 0]) = c!"\"\\0\"" := by
    rw [debug]
    rfl
  rw [this]
  rfl

/-! ### Instances: the hypotheses can be met -/

example := C09_value Demo.plat (sign := c!"-") (ds := c!"9223372036854775808") (by simp)
  (.inr ⟨_, _, rfl, by decide, by decide⟩) I64.min (by decide)

example := C09_range Demo.plat (sign := []) (ds := c!"9223372036854775808") (by simp)
  (.inr ⟨_, _, rfl, by decide, by decide⟩) (by decide)

example := C09_all Demo.plat (sign := c!"-") (ds := c!"007") (by simp) (by simp) (by decide)

end Dune.Props
