import Verif.Props.Parsing
import Verif.Proof.Lines
import Verif.Proof.Scan
import Verif.Spec.Std
import Verif.Spec.Demo

/-! Property C65: the source excerpts in error messages. -/

namespace Dune.Props

open Parse Spec

theorem lineNo_append {a l : Str} (hl : '\n' ∉ l) : lineNo (a ++ l) = lineNo a := by
  rw [lineNo, lineNo, List.count_append, List.count_eq_zero_of_not_mem hl]

/-- C65, an error within one line, preceded by something on its line or on the first line: the
message shows the number of that line, what precedes the error on it (up to the width), the error in
red, and what follows on the line, as far as there is room. -/
theorem C65_single (P : Plat) {a l mid r tail : Str} (w : Nat) (ha : WholeLines a) (hl : '\n' ∉ l)
    (h : l ≠ [] ∨ a = []) (hm : '\n' ∉ mid) (hr : InLine r) (ht : LineEnd tail) :
    printErrorLines P (a ++ l ++ mid ++ (r ++ tail)) ⟨utf8Len (a ++ l), utf8Len (a ++ l ++ mid)⟩ w =
      some (c!"      |\n" ++ shownNo (lineNo (a ++ l)) ++ c!" | " ++ l.take w ++ red mid ++
        r.take (w - l.length) ++ c!"\n      |\n") := by
  obtain ⟨h1, h2⟩ := before_facts ha hl h
  have hmid : linesOf mid = [] ∧ mid = [] ∨ linesOf mid = [mid] := by
    by_cases h0 : mid = []
    · subst h0
      exact .inl ⟨rfl, rfl⟩
    · exact .inr (linesOf_one hm h0)
  have hw : w - (l.take w).length = w - l.length := by
    rw [List.length_take]
    omega
  rw [printErrorLines_eq, h1, h2, linesOf_head hr ht, lineNo_append hl, pad5_eq, hw]
  rcases hmid with ⟨hm, rfl⟩ | hm <;> rw [hm] <;> simp [red, redStart, resetStyle]

example : printErrorLines Demo.plat c!"let a = 1;\nlet = 2;\n" ⟨15, 16⟩ 72 =
    some (c!"      |\n    2 | let " ++ red c!"=" ++ c!" 2;\n      |\n") :=
  C65_single Demo.plat (a := c!"let a = 1;\n") (l := c!"let ") (mid := c!"=") (r := c!" 2;")
    (tail := c!"\n") 72 (.inr ⟨c!"let a = 1;", rfl⟩) (by decide) (by decide) (by decide)
    (by unfold InLine; decide) (.inr ⟨[], .inl rfl⟩)

/-- C65 is false for an error at the very beginning of a line other than the first: the number shown
is that of the line before, and the text of the line before is shown in front of the error. -/
theorem C65_line_start (P : Plat) {a prev mid r tail : Str} (w : Nat) (ha : WholeLines a)
    (hp : InLine prev) (hm : '\n' ∉ mid) (hr : InLine r) (ht : LineEnd tail) :
    printErrorLines P (a ++ prev ++ ['\n'] ++ mid ++ (r ++ tail))
        ⟨utf8Len (a ++ prev ++ ['\n']), utf8Len (a ++ prev ++ ['\n'] ++ mid)⟩ w =
      some (c!"      |\n" ++ shownNo (lineNo (a ++ prev ++ ['\n']) - 1) ++ c!" | " ++ prev.take w ++
        red mid ++ r.take (w - prev.length) ++ c!"\n      |\n") := by
  have hl : linesOf (a ++ prev ++ ['\n']) = linesOf a ++ [prev] := by
    rw [List.append_assoc, linesOf_whole ha, linesOf_cons hp]
    rfl
  have h1 : (linesOf (a ++ prev ++ ['\n'])).getLast?.getD [] = prev := by
    rw [hl]
    simp
  have h2 : max (linesOf (a ++ prev ++ ['\n'])).length 1 = lineNo (a ++ prev ++ ['\n']) - 1 := by
    rw [hl, List.length_append, linesOf_length ha, lineNo, List.count_append, List.count_append,
      List.count_eq_zero_of_not_mem hp.1]
    simp
  have hmid : linesOf mid = [] ∧ mid = [] ∨ linesOf mid = [mid] := by
    by_cases h0 : mid = []
    · subst h0
      exact .inl ⟨rfl, rfl⟩
    · exact .inr (linesOf_one hm h0)
  have hw : w - (prev.take w).length = w - prev.length := by
    rw [List.length_take]
    omega
  rw [printErrorLines_eq, h1, h2, linesOf_head hr ht, pad5_eq, hw]
  rcases hmid with ⟨hm, rfl⟩ | hm <;> rw [hm] <;> simp [red, redStart, resetStyle]

example : parseScript Demo.plat c!"x\n)" =
    .err false (.expected ⟨2, 3⟩ c!"end of input" none) ∧
    printErrorLines Demo.plat c!"x\n)" ⟨2, 3⟩ 72 =
      some (c!"      |\n    1 | x" ++ red c!")" ++ c!"\n      |\n") := by
  constructor
  · set_option maxRecDepth 100000 in rfl
  · exact C65_line_start Demo.plat (a := []) (prev := c!"x") (mid := c!")") (r := []) (tail := []) 72
      (.inl rfl) (by unfold InLine; decide) (by decide) (by unfold InLine; decide) (.inl rfl)

/-- what `print_error_lines` prints for an error over the lines `m :: ms`, if it does -/
theorem printErrorLines_multi (P : Plat) {a l r tail m : Str} {ms : List Str} (w : Nat)
    (ha : WholeLines a) (hl : '\n' ∉ l) (h : l ≠ [] ∨ a = []) (h0 : ms ≠ [])
    (hm : ∀ x ∈ m :: ms, InLine x) (hlast : ms.getLast h0 ≠ []) (hr : InLine r) (ht : LineEnd tail) :
    printErrorLines P (a ++ l ++ List.intercalate ['\n'] (m :: ms) ++ (r ++ tail))
        ⟨utf8Len (a ++ l), utf8Len (a ++ l ++ List.intercalate ['\n'] (m :: ms))⟩ w =
      (subUsize P w (ms.getLast h0).length).map fun k =>
        c!"      |\n" ++ shownNo (lineNo (a ++ l)) ++ c!" | " ++
          (l ++ c!"\x1b[38;5;9m" ++ m).take w ++ c!"\x1b[m\x1b[0m" ++
          ((ms.zipIdx (lineNo (a ++ l) + 1)).flatMap fun p =>
            c!"\n" ++ shownNo p.2 ++ c!" | " ++ red (p.1.take w)) ++
          c!"\n" ++ takeUpTo r k ++ c!"\x1b[m\x1b[0m\n      |\n" := by
  obtain ⟨h1, h2⟩ := before_facts ha hl h
  rw [printErrorLines_eq, h1, h2, linesOf_head hr ht, lineNo_append hl, linesOf_join
    (List.cons_ne_nil _ _) hm (by rwa [List.getLast_cons h0]), pad5_eq]
  cases ms with
  | nil => exact absurd rfl h0
  | cons m' ms =>
    simp only [errorTail_eq, redStart, resetStyle]
    refine Option.map_congr fun k _ => ?_
    simp only [List.append_assoc, List.cons_append, List.nil_append]

/-- C65, an error over several lines: each line is shown with its number, the last one followed by a
line with the rest of the text after the error. -/
theorem C65_multi (P : Plat) {a l r tail m : Str} {ms : List Str} (w : Nat)
    (ha : WholeLines a) (hl : '\n' ∉ l) (h : l ≠ [] ∨ a = []) (h0 : ms ≠ [])
    (hm : ∀ x ∈ m :: ms, InLine x) (hlast : ms.getLast h0 ≠ []) (hr : InLine r) (ht : LineEnd tail)
    (hfit : (ms.getLast h0).length ≤ w) :
    printErrorLines P (a ++ l ++ List.intercalate ['\n'] (m :: ms) ++ (r ++ tail))
        ⟨utf8Len (a ++ l), utf8Len (a ++ l ++ List.intercalate ['\n'] (m :: ms))⟩ w =
      some (c!"      |\n" ++ shownNo (lineNo (a ++ l)) ++ c!" | " ++
          (l ++ c!"\x1b[38;5;9m" ++ m).take w ++ c!"\x1b[m\x1b[0m" ++
          ((ms.zipIdx (lineNo (a ++ l) + 1)).flatMap fun p =>
            c!"\n" ++ shownNo p.2 ++ c!" | " ++ red (p.1.take w)) ++
          c!"\n" ++ r.take (w - (ms.getLast h0).length) ++ c!"\x1b[m\x1b[0m\n      |\n") := by
  rw [printErrorLines_multi P w ha hl h h0 hm hlast hr ht, subUsize, if_pos hfit]
  rfl

example : printErrorLines Demo.plat c!"let \"a\nb\" = 1" ⟨4, 9⟩ 72 =
    some (c!"      |\n    1 | let \x1b[38;5;9m\"a\x1b[m\x1b[0m\n    2 | " ++ red c!"b\"" ++
      c!"\n = 1\x1b[m\x1b[0m\n      |\n") :=
  C65_multi Demo.plat (a := []) (l := c!"let ") (m := c!"\"a") (ms := [c!"b\""]) (r := c!" = 1")
    (tail := []) 72 (.inl rfl) (by decide) (by decide) (by decide) (by unfold InLine; decide)
    (by decide) (by unfold InLine; decide) (.inl rfl) (by decide)

/-- C65, if the last line of such an error is longer than the width, the length left over is computed
as a negative number: with overflow checks printing the message panics. -/
theorem C65_multi_panics {P : Plat} (hP : P.overflowChecks = true) {a l r tail m : Str}
    {ms : List Str} (w : Nat)
    (ha : WholeLines a) (hl : '\n' ∉ l) (h : l ≠ [] ∨ a = []) (h0 : ms ≠ [])
    (hm : ∀ x ∈ m :: ms, InLine x) (hr : InLine r) (ht : LineEnd tail)
    (hlong : w < (ms.getLast h0).length) :
    printErrorLines P (a ++ l ++ List.intercalate ['\n'] (m :: ms) ++ (r ++ tail))
        ⟨utf8Len (a ++ l), utf8Len (a ++ l ++ List.intercalate ['\n'] (m :: ms))⟩ w = none := by
  rw [printErrorLines_multi P w ha hl h h0 hm (fun he => by rw [he] at hlong; simp at hlong) hr ht,
    subUsize, if_neg (by omega), if_pos hP]
  rfl

theorem tokensAt_let (b : Str) :
    Lex.tokensAt 0 [kw c!"let", (.whitespace, c!" "), (.stringLiteral, '"' :: b ++ ['"'])] =
      [⟨.keyword, ⟨0, 3⟩⟩, ⟨.whitespace, ⟨3, 4⟩⟩,
        ⟨.stringLiteral, ⟨4, 4 + utf8Len ('"' :: b ++ ['"'])⟩⟩] := rfl

/-- `let` followed by a string is rejected, pointing at the string. -/
theorem let_string (P : Plat) {b v : Str} (hb : Lex.Denotes b v) :
    parseScript P (c!"let " ++ ('"' :: b ++ ['"'])) =
      .err true (.expected ⟨4, 4 + utf8Len ('"' :: b ++ ['"'])⟩ c!"symbol" none) := by
  have hl : Line [kw c!"let", (.whitespace, c!" "), (.stringLiteral, '"' :: b ++ ['"'])] := by
    refine ⟨.keyword (by decide), ?_, .space (by decide) (by decide), ?_, .str hb, trivial, trivial⟩
    · intro c r h
      rw [← (List.cons.inj h).1]
      decide
    · intro c r h
      rw [← (List.cons.inj h).1]
      decide
  have ht := Lex.tokenize_line hl
  rw [tokensAt_let] at ht
  have hsrc : textOf [kw c!"let", (.whitespace, c!" "), (.stringLiteral, '"' :: b ++ ['"'])] =
      c!"let " ++ ('"' :: b ++ ['"']) := by simp [textOf, kw]
  rw [hsrc] at ht
  have h1 : sliceStr (c!"let " ++ ('"' :: b ++ ['"'])) 0 3 = some c!"let" :=
    sliceStr_mid [] c!"let" (c!" " ++ ('"' :: b ++ ['"']))
  have h2 : sliceStr (c!"let " ++ ('"' :: b ++ ['"'])) 3 4 = some c!" " :=
    sliceStr_mid c!"let" c!" " ('"' :: b ++ ['"'])
  have h3 : sliceStr (c!"let " ++ ('"' :: b ++ ['"'])) 4 (4 + utf8Len ('"' :: b ++ ['"'])) =
      some ('"' :: b ++ ['"']) := by
    have := sliceStr_mid c!"let " ('"' :: b ++ ['"']) []
    rwa [List.append_nil] at this
  rw [parseScript, ht]
  simp only [attachAll, attach, h1, h2, h3, Option.map_some]
  set_option maxRecDepth 100000 in rfl

/-- C65, this happens: any script of the form `let "…"`, whose string spans two lines of which the
second is longer than 72 characters, is rejected with an error whose message panics in a build with
overflow checks. -/
theorem C65_crash {P : Plat} (hP : P.overflowChecks = true) {m b v : Str}
    (hb : Lex.Denotes (m ++ '\n' :: b) v) (hm : InLine m) (hl : '\n' ∉ b) (hlong : 72 ≤ b.length) :
    ∃ e, parseText P (c!"let \"" ++ m ++ c!"\n" ++ b ++ c!"\"") = .err e ∧
      displayError P e = none := by
  have hsrc : c!"let \"" ++ m ++ c!"\n" ++ b ++ c!"\"" =
      c!"let " ++ ('"' :: (m ++ '\n' :: b) ++ ['"']) := by simp
  have hp := let_string P hb
  rw [← hsrc] at hp
  refine ⟨_, by rw [parseText, hp], ?_⟩
  have h := C65_multi_panics (P := P) hP (a := []) (l := c!"let ") (m := '"' :: m) (ms := [b ++ ['"']])
    (r := []) (tail := []) 72 (.inl rfl) (by decide) (.inr rfl) (by simp) (by
      simp only [List.mem_cons, List.not_mem_nil, or_false]
      rintro x (rfl | rfl)
      · refine ⟨by simpa using hm.1, ?_⟩
        cases m with
        | nil => simp
        | cons c m => simpa using hm.2
      · exact ⟨by simpa using hl, by simp⟩) (by simp [InLine]) (.inl rfl) (by simp; omega)
  have hi : List.intercalate ['\n'] [('"' :: m), b ++ ['"']] = '"' :: (m ++ '\n' :: b) ++ ['"'] := by
    simp [List.intercalate, List.intersperse]
  rw [hi] at h
  rw [displayError, fmtSyntaxError]
  have hr : (⟨4, 4 + utf8Len ('"' :: (m ++ '\n' :: b) ++ ['"'])⟩ : Range) =
      ⟨utf8Len ([] ++ c!"let "), utf8Len ([] ++ c!"let " ++ ('"' :: (m ++ '\n' :: b) ++ ['"']))⟩ := by
    rw [utf8Len_append ([] ++ c!"let ")]
    rfl
  rw [hr, hsrc]
  rw [List.append_nil, List.append_nil, List.nil_append] at h
  rw [List.nil_append, h]
  rfl

example : ∃ e, parseText Demo.plat (c!"let \"" ++ c!"a" ++ c!"\n" ++ List.replicate 80 'b' ++ c!"\"") =
    .err e ∧ displayError Demo.plat e = none :=
  C65_crash rfl (v := 'a' :: '\n' :: List.replicate 80 'b') (by
    refine .char (by decide) (by decide) (.char (by decide) (by decide) ?_)
    generalize 80 = n
    induction n with
    | zero => exact .nil
    | succ n ih => exact .char (by decide) (by decide) ih) (by unfold InLine; decide) (by simp) (by simp)

theorem concatAll_some {os : List (Option Str)} (h : ∀ o ∈ os, o ≠ none) : concatAll os ≠ none := by
  induction os with
  | nil => simp [concatAll]
  | cons o os ih =>
    simp only [List.forall_mem_cons] at h
    obtain ⟨s, hs⟩ := Option.ne_none_iff_exists'.1 h.1
    obtain ⟨t, ht⟩ := Option.ne_none_iff_exists'.1 (ih h.2)
    simp [concatAll, hs, ht]

/-- A message exists if every excerpt does. -/
theorem fmtSyntaxError_some {P : Plat} {src : Str} {e : SyntaxError}
    (h : ∀ r ∈ rangesOf e, printErrorLines P src r 72 ≠ none) : fmtSyntaxError P src e ≠ none := by
  have hs : ∀ r, printErrorLines P src r 72 ≠ none → sliceStr src r.start r.stop ≠ none := by
    intro r h hn
    rw [printErrorLines, hn] at h
    exact h rfl
  have h? : ∀ o : Option Range, (∀ r ∈ o.toList, printErrorLines P src r 72 ≠ none) →
      printErrorLines? P src o ≠ none := by
    intro o h
    cases o with
    | none => simp [printErrorLines?]
    | some r => exact h r (by simp)
  induction e with
  | tokenizationErrors ds =>
    rw [fmtSyntaxError]
    refine concatAll_some fun o ho => ?_
    obtain ⟨d, hd, rfl⟩ := List.mem_map.1 ho
    have h : ∀ r ∈ d.ranges, printErrorLines P src r 72 ≠ none :=
      fun r hr => h r (List.mem_flatMap.2 ⟨d, hd, hr⟩)
    cases d with
    | valid => simp [fmtTokenError]
    | invalidStringEscapes rs =>
      rw [fmtTokenError]
      refine concatAll_some fun o ho => ?_
      obtain ⟨r, hr, rfl⟩ := List.mem_map.1 ho
      obtain ⟨t, ht⟩ := Option.ne_none_iff_exists'.1 (h r hr)
      obtain ⟨u, hu⟩ := Option.ne_none_iff_exists'.1 (hs r (h r hr))
      simp [fmtEscape, ht, hu]
    | invalidNumber r =>
      have hr := h r (by simp [Diagnostic.ranges])
      obtain ⟨t, ht⟩ := Option.ne_none_iff_exists'.1 hr
      obtain ⟨u, hu⟩ := Option.ne_none_iff_exists'.1 (hs r hr)
      simp [fmtTokenError, ht, hu]
    | illegalChar r =>
      have hr := h r (by simp [Diagnostic.ranges])
      obtain ⟨t, ht⟩ := Option.ne_none_iff_exists'.1 hr
      obtain ⟨u, hu⟩ := Option.ne_none_iff_exists'.1 (hs r hr)
      simp [fmtTokenError, ht, hu]
    | notTokenized r =>
      have hr := h r (by simp [Diagnostic.ranges])
      obtain ⟨t, ht⟩ := Option.ne_none_iff_exists'.1 hr
      obtain ⟨u, hu⟩ := Option.ne_none_iff_exists'.1 (hs r hr)
      simp [fmtTokenError, ht, hu]
  | expected r what found =>
    obtain ⟨t, ht⟩ := Option.ne_none_iff_exists'.1 (h r (by simp [rangesOf]))
    simp [fmtSyntaxError, ht]
  | expectedChar c o =>
    obtain ⟨t, ht⟩ := Option.ne_none_iff_exists'.1 (h? o h)
    simp [fmtSyntaxError, ht]
  | nomError k o =>
    obtain ⟨t, ht⟩ := Option.ne_none_iff_exists'.1 (h? o h)
    simp [fmtSyntaxError, ht]
  | nomErrorBy k o c ih =>
    obtain ⟨t, ht⟩ := Option.ne_none_iff_exists'.1 (h? o fun r hr => h r (by simp [rangesOf, hr]))
    obtain ⟨u, hu⟩ := Option.ne_none_iff_exists'.1 (ih fun r hr => h r (by simp [rangesOf, hr]))
    simp [fmtSyntaxError, ht, hu]
  | internalError => simp [fmtSyntaxError]

theorem linesGo_mem : ∀ {s cur : Str} {l : Str}, l ∈ linesGo s cur → '\n' ∉ cur →
    '\n' ∉ l ∧ l <:+: cur.reverse ++ s := by
  intro s
  induction s with
  | nil =>
    intro cur l h hc
    rw [linesGo] at h
    split at h
    · simp at h
    · rw [List.mem_singleton.1 h]
      exact ⟨by simpa using hc, by simp⟩
  | cons c s ih =>
    intro cur l h hc
    rw [linesGo_cons'] at h
    split at h
    · rcases List.mem_cons.1 h with rfl | h
      · have : chopCr cur <+: cur.reverse := by
          unfold chopCr
          split
          · simp
          · exact List.prefix_rfl
        refine ⟨fun hm => hc (List.mem_reverse.1 (this.subset hm)), ?_⟩
        exact (this.trans (List.prefix_append _ _)).isInfix
      · obtain ⟨h1, h2⟩ := ih h (by simp)
        refine ⟨h1, ?_⟩
        rw [List.reverse_nil, List.nil_append] at h2
        exact h2.trans ((List.suffix_cons c s).isInfix.trans (List.suffix_append _ _).isInfix)
    · rename_i hn
      obtain ⟨h1, h2⟩ := ih h (by simp [hc, Ne.symm hn])
      exact ⟨h1, by simpa using h2⟩

/-- C65: the message of every rejected text can be printed, if the program is built without overflow
checks, or if no line of the text is longer than 72 characters. -/
theorem C65_renders {P : Plat} {src : Str} {e : Error} (h : parseText P src = .err e)
    (hp : P.overflowChecks = false ∨ ∀ l, l <:+: src → '\n' ∉ l → l.length ≤ 72) :
    ∃ msg, displayError P e = some msg := by
  rw [← Option.ne_none_iff_exists']
  rw [parseText] at h
  split at h <;> simp only [Outcome.err.injEq, reduceCtorEq] at h
  rename_i b d hd
  subst h
  rw [displayError]
  refine fmtSyntaxError_some fun r hr => ?_
  obtain ⟨pre, mid, post, rfl, h1, h2⟩ := C64_ranges hd r hr
  obtain ⟨a, b⟩ := r
  simp only at h1 h2
  subst h1 h2
  rw [printErrorLines_eq]
  split
  · rename_i l l' ls hls
    have hmem : (l' :: ls).getLast (List.cons_ne_nil _ _) ∈ linesOf mid := by
      rw [hls]
      exact List.mem_cons_of_mem _ (List.getLast_mem _)
    obtain ⟨h1, h2⟩ := linesGo_mem hmem (by simp)
    simp only [ne_eq, Option.map_eq_none_iff, subUsize]
    rcases hp with hp | hp
    · rw [hp]
      split <;> simp
    · have := hp _ (h2.trans ⟨pre, post, by simp⟩) h1
      rw [if_pos this]
      simp
  · simp

example : ∃ e msg, parseText Demo.plat c!"let x = 1;\n)" = .err e ∧
    displayError Demo.plat e = some msg := by
  have h : parseText Demo.plat c!"let x = 1;\n)" = .err (.syntaxError c!"let x = 1;\n)"
      (.expected ⟨11, 12⟩ c!"end of input" none)) := by
    set_option maxRecDepth 100000 in rfl
  obtain ⟨msg, hm⟩ := C65_renders h (.inr fun l hl _ => Nat.le_trans hl.length_le (by decide))
  exact ⟨_, msg, h, hm⟩

theorem concatAll_mem {os : List (Option Str)} {msg : Str} (h : concatAll os = some msg) :
    ∀ o ∈ os, ∃ s, o = some s ∧ s <:+: msg := by
  induction os generalizing msg with
  | nil => simp
  | cons o os ih =>
    rw [concatAll] at h
    obtain ⟨s, rfl, h⟩ := Option.bind_eq_some_iff.1 h
    obtain ⟨t, ht, rfl⟩ := Option.map_eq_some_iff.1 h
    simp only [List.forall_mem_cons]
    refine ⟨⟨s, rfl, (List.prefix_append _ _).isInfix⟩, fun o ho => ?_⟩
    obtain ⟨u, hu, hi⟩ := ih ht o ho
    exact ⟨u, hu, hi.trans (List.suffix_append _ _).isInfix⟩

/-- The excerpt in the message for one problem with a token. -/
private theorem tokenError_excerpt {P : Plat} {src msg : Str} {d : Diagnostic}
    (h : fmtTokenError P src d = some msg) {r : Range} (hr : r ∈ d.ranges) :
    ∃ ex, printErrorLines P src r 72 = some ex ∧ ex <:+: msg := by
  have fin : ∀ {x : Option Str} {g : Str → Str → Str} {t : Option Str},
      (x.bind fun u => t.map fun ls => g u ls ++ ls) = some msg →
      ∃ ex, t = some ex ∧ ex <:+: msg := by
    intro x g t h
    obtain ⟨u, _, h⟩ := Option.bind_eq_some_iff.1 h
    obtain ⟨ls, ht, rfl⟩ := Option.map_eq_some_iff.1 h
    exact ⟨ls, ht, (List.suffix_append _ _).isInfix⟩
  cases d with
  | valid => simp [Diagnostic.ranges] at hr
  | invalidStringEscapes rs =>
    rw [fmtTokenError] at h
    obtain ⟨s, h1, h2⟩ := concatAll_mem h _ (List.mem_map.2 ⟨r, hr, rfl⟩)
    rw [fmtEscape] at h1
    obtain ⟨u, _, h⟩ := Option.bind_eq_some_iff.1 h1
    obtain ⟨ls, ht, rfl⟩ := Option.map_eq_some_iff.1 h
    exact ⟨ls, ht, (List.suffix_append _ _).isInfix.trans h2⟩
  | invalidNumber r' =>
    rw [show r = r' by simpa [Diagnostic.ranges] using hr]
    exact fin h
  | illegalChar r' =>
    rw [show r = r' by simpa [Diagnostic.ranges] using hr]
    exact fin h
  | notTokenized r' =>
    rw [show r = r' by simpa [Diagnostic.ranges] using hr]
    exact fin h

/-- C65: the message of an error contains the excerpt for every position the error mentions. -/
theorem C65_excerpts {P : Plat} {src msg : Str} {e : SyntaxError}
    (h : displayError P (.syntaxError src e) = some msg) {r : Range} (hr : r ∈ rangesOf e) :
    ∃ ex, printErrorLines P src r 72 = some ex ∧ ex <:+: msg := by
  rw [displayError] at h
  have h? : ∀ {o : Option Range} {g : Str → Str} {msg : Str}, r ∈ o.toList →
      ((printErrorLines? P src o).map fun ls => g ls ++ ls) = some msg →
      ∃ ex, printErrorLines P src r 72 = some ex ∧ ex <:+: msg := by
    intro o g msg ho h
    cases o with
    | none => simp at ho
    | some r' =>
      rw [show r = r' by simpa using ho]
      obtain ⟨ls, ht, rfl⟩ := Option.map_eq_some_iff.1 h
      exact ⟨ls, ht, (List.suffix_append _ _).isInfix⟩
  induction e generalizing msg with
  | tokenizationErrors ds =>
    rw [fmtSyntaxError] at h
    obtain ⟨d, hd, hr⟩ := List.mem_flatMap.1 hr
    obtain ⟨s, h1, h2⟩ := concatAll_mem h _ (List.mem_map.2 ⟨d, hd, rfl⟩)
    obtain ⟨ex, h3, h4⟩ := tokenError_excerpt h1 hr
    exact ⟨ex, h3, h4.trans h2⟩
  | expected r' what found =>
    rw [show r = r' by simpa [rangesOf] using hr]
    obtain ⟨ls, ht, rfl⟩ := Option.map_eq_some_iff.1 h
    exact ⟨ls, ht, (List.suffix_append _ _).isInfix⟩
  | expectedChar c o => exact h? hr h
  | nomError k o => exact h? hr h
  | nomErrorBy k o c ih =>
    rw [fmtSyntaxError] at h
    obtain ⟨ls, h1, h⟩ := Option.bind_eq_some_iff.1 h
    obtain ⟨more, h2, rfl⟩ := Option.map_eq_some_iff.1 h
    rw [rangesOf, List.mem_append] at hr
    rcases hr with hr | hr
    · obtain ⟨ex, h3, h4⟩ := h? (g := fun _ => []) (o := o) hr (by rw [h1]; rfl)
      exact ⟨ex, h3, h4.trans ((List.suffix_append _ _).isInfix.trans (List.prefix_append _ _).isInfix)⟩
    · obtain ⟨ex, h3, h4⟩ := ih h2 hr
      exact ⟨ex, h3, h4.trans (List.suffix_append _ _).isInfix⟩
  | internalError => simp [rangesOf] at hr

example : (⟨2, 3⟩ : Range) ∈ rangesOf (.expected ⟨2, 3⟩ c!"end of input" none) ∧
    (displayError Demo.plat (.syntaxError c!"x\n)" (.expected ⟨2, 3⟩ c!"end of input" none))).isSome :=
  ⟨by simp [rangesOf], by decide⟩

/-! ### Instances: the hypotheses can be met -/

example := C65_multi_panics (P := Demo.plat) rfl (a := []) (l := c!"let ") (m := c!"\"a")
  (ms := [List.replicate 80 'b']) (r := c!" = 1") (tail := []) 72 (.inl rfl) (by decide) (.inl (by decide))
  (by decide) (by unfold InLine; decide) (by unfold InLine; decide) (.inl rfl) (by decide)

end Dune.Props
