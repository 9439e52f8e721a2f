import Verif.Proof.Script
import Verif.Model.Shell
import Verif.Spec.Demo

/-! Properties C06–C08 and C64: parsing terminates, is all or nothing, ignores whitespace and
comments, and reports positions inside the text. -/

namespace Dune.Props

open Parse Spec

/-- Errors related by equality of positions are equal. -/
private theorem errSim_eq {pan : Prop} {e e' : SyntaxError} (h : ErrSim ⟨Eq, pan⟩ e e') : e = e' := by
  induction h with
  | expected h => cases h; rfl
  | nomNone => rfl
  | nomSome h => cases h; rfl
  | byNone _ ih => rw [ih]
  | bySome h _ ih => cases h; rw [ih]
  | internal => rfl

private theorem toksSim_refl (i : List Tok) : ToksSim ⟨Eq, True⟩ i i := by
  induction i with
  | nil => exact .nil
  | cons a l ih => exact .cons ⟨rfl, rfl, rfl, fun h => absurd trivial h⟩ ih

/-- C06: on every token sequence the parser comes to an end, and nesting the recursive parsers one
level deeper than there are tokens is enough: more changes nothing. -/
theorem C06_terminates (C : Ctx) (i : List Tok) (n : Nat) (h : i.length < n) :
    scriptN C n i ≠ .noFuel ∧ scriptN C n i = scriptN C (i.length + 1) i := by
  have hs := scriptN_sim (R := ⟨Eq, True⟩) (C := C) (C' := C) ⟨rfl, rfl⟩ (toksSim_refl i) h
    (Nat.lt_succ_self _)
  generalize scriptN C n i = r at hs ⊢
  generalize scriptN C (i.length + 1) i = r' at hs ⊢
  cases hs with
  | ok => exact ⟨by simp, rfl⟩
  | err h => exact ⟨by simp, by rw [errSim_eq h]⟩
  | panic _ => exact ⟨by simp, rfl⟩

/-- C06: parsing terminates on every text. -/
theorem C06_text (P : Plat) (src : Str) : parseScript P src ≠ .noFuel := by
  cases scriptCase P src with
  | panic _ _ h => rw [h]; simp
  | invalid _ _ _ h => rw [h]; simp
  | clash _ _ _ _ h => rw [h]; simp
  | reads _ _ _ _ _ h =>
    rw [h]
    exact (C06_terminates _ _ _ (Nat.lt_succ_self _)).1

set_option maxRecDepth 100000 in
/-- too little depth is not enough: the bound is about real recursion -/
example : scriptN ⟨Demo.plat, ⟨3, 3⟩⟩ 1
      [⟨.punctuation, c!"(", ⟨0, 1⟩⟩, ⟨.integerLiteral, c!"5", ⟨1, 2⟩⟩,
        ⟨.punctuation, c!")", ⟨2, 3⟩⟩] = .noFuel ∧
    scriptN ⟨Demo.plat, ⟨3, 3⟩⟩ 4
      [⟨.punctuation, c!"(", ⟨0, 1⟩⟩, ⟨.integerLiteral, c!"5", ⟨1, 2⟩⟩,
        ⟨.punctuation, c!")", ⟨2, 3⟩⟩] = .ok (.do_ [.group (.int (I64.lit 5))]) := by
  exact ⟨rfl, rfl⟩

/-- C07: a diagnostic other than `Valid` on any token is a hard failure of the whole script. -/
theorem C07_diagnostic (P : Plat) {src : Str} {ts : List Token} {ds : List Diagnostic}
    {d : Diagnostic} (h : tokenize src = .ok (ts, ds)) (hd : d ∈ ds) (hne : d ≠ .valid) :
    ∃ e, parseScript P src = .err true e := by
  cases scriptCase P src with
  | panic _ h' _ => rw [h] at h'; simp at h'
  | invalid _ _ _ h => exact ⟨_, h⟩
  | clash _ _ _ _ h => exact ⟨_, h⟩
  | reads h' hv _ _ _ _ =>
    rw [h] at h'
    simp only [Outcome.ok.injEq, Prod.mk.injEq] at h'
    rw [← h'.2] at hv
    exact absurd (hv d hd) hne

/-- C07: two word-like tokens that touch anywhere in the script, neither of them `@`, are a hard
failure of the whole script. -/
theorem C07_touching (P : Plat) {src : Str} {u v : List Word} {a b : Word}
    (h : Tokens src (u ++ a :: b :: v)) (hc : Clash a b) :
    ∃ e, parseScript P src = .err true e := by
  cases scriptCase P src with
  | panic _ h' _ =>
    obtain ⟨ts, ds, h1, _⟩ := h
    rw [h1] at h'; simp at h'
  | invalid _ _ _ h => exact ⟨_, h⟩
  | clash _ _ _ _ h => exact ⟨_, h⟩
  | reads h' hv hl ht _ _ =>
    obtain ⟨ts, ds, h1, h2, h3⟩ := h
    rw [h1] at h'
    simp only [Outcome.ok.injEq, Prod.mk.injEq] at h'
    obtain ⟨rfl, rfl⟩ := h'
    have hw := forall₂_words hl.same
    have := words_ext (h2.symm.trans hw.1) (h3.symm.trans hw.2)
    exact absurd hc (touching_none.mp ht u a b v this.symm)

/-- C07: a script that is accepted passed both lexical checks, is a statement block, and none of its
tokens was left over: the statement parser, followed by the check for the end of the input, went
through all of them. -/
theorem C07_success {P : Plat} {src : Str} {e : Expr} (h : parseScript P src = .ok e) :
    ∃ ws, Words src ws ∧ (∃ l, e = .do_ l) ∧
      ∃ (C : Ctx) (n : Nat) (i : List Tok), i.map Tok.word = ws ∧
        parseScriptTokens C (parseExpr C (parseOne C n)) true i = .ok [] e := by
  cases scriptCase P src with
  | panic _ _ h' => rw [h'] at h; simp at h
  | invalid _ _ _ h' => rw [h'] at h; simp at h
  | clash _ _ _ _ h' => rw [h'] at h; simp at h
  | @reads ts ds l h1 hv hl ht _ h' =>
    rw [h'] at h
    refine ⟨_, ⟨_, reads_of_case h1 hv hl ht, rfl⟩, ?_⟩
    obtain ⟨r, hr⟩ : ∃ r, parseScriptTokens ⟨P, ⟨utf8Len src, utf8Len src⟩⟩
        (parseExpr ⟨P, ⟨utf8Len src, utf8Len src⟩⟩ (parseOne ⟨P, ⟨utf8Len src, utf8Len src⟩⟩
          ((l.filter Parse.isSolid).length + 1))) true (l.filter Parse.isSolid) = .ok r e := by
      rw [scriptN] at h
      split at h <;> simp only [Result.ok.injEq, reduceCtorEq] at h
      subst h
      exact ⟨_, by assumption⟩
    have hx : r = [] ∧ ∃ l, e = .do_ l := by
      clear h h'
      rw [parseScriptTokens] at hr
      obtain ⟨i1, xs, _, hr⟩ := PR.bind_ok_inv hr
      obtain ⟨i2, o, _, hr⟩ := PR.bind_ok_inv hr
      simp only [if_true] at hr
      cases i2 with
      | nil =>
        simp only [eof, PR.orError, PR.map, PR.bind, PR.ok.injEq] at hr
        exact ⟨hr.1.symm, _, hr.2.symm⟩
      | cons a i2 => simp [eof, PR.orError, PR.map, PR.bind] at hr
    obtain ⟨rfl, hd⟩ := hx
    exact ⟨hd, _, _, _, filter_words l, hr⟩

/-- C07: running a rejected text does nothing: no evaluation, the environment and the world stay as
they are. -/
theorem C07_nothing_runs {W : Type} (P : Plat) (ev : Expr → M W Expr) {src : Str} {b : Bool}
    {e : SyntaxError} (h : parseScript P src = .err b e) (env : Env) (w : W) :
    runText P ev src env w = (.err (.syntaxError src e), env, w) := by
  rw [runText, parseText, h]
  rfl

set_option maxRecDepth 100000 in
example : Tokens c!"echo 1; 5x" ([(.symbol, c!"echo"), (.whitespace, c!" "), (.integerLiteral, c!"1"),
      (.punctuation, c!";"), (.whitespace, c!" ")] ++
      (.integerLiteral, c!"5") :: (.symbol, c!"x") :: []) ∧
    Clash (.integerLiteral, c!"5") (.symbol, c!"x") ∧
    parseScript Demo.plat c!"echo 1; 5x" =
      .err true (.expected ⟨8, 10⟩ c!"whitespace" (some c!"x")) := by
  exact ⟨⟨_, _, rfl, rfl, rfl⟩, by simp [Clash, wordLike], rfl⟩

set_option maxRecDepth 100000 in
example : parseScript Demo.plat c!"echo 1; \"\\q\"" =
    .err true (.tokenizationErrors [.invalidStringEscapes [⟨9, 11⟩]]) := by rfl

set_option maxRecDepth 100000 in
example : parseScript Demo.plat c!"echo 1; 2" =
    .ok (.do_ [.apply (.symbol c!"echo") [.int (I64.lit 1)], .int (I64.lit 2)]) := by rfl

/-- The tokens of two texts with the same words are related. -/
private theorem sim_of_words {pos : Range → Range → Prop} : ∀ {i i' : List Tok},
    i.map Tok.word = i'.map Tok.word →
    (∀ a ∈ i, ∀ b ∈ i', pos a.range b.range) →
    (∀ a ∈ i, a.kind = .stringLiteral → ∃ v, Lex.StrLit a.text v) → ToksSim ⟨pos, False⟩ i i'
  | [], [], _, _, _ => .nil
  | [], _ :: _, h, _, _ => by simp at h
  | _ :: _, [], h, _, _ => by simp at h
  | a :: i, b :: i', h, hp, hs => by
    simp only [List.map_cons, List.cons.injEq, Tok.word, Prod.mk.injEq] at h
    refine .cons ⟨h.1.1, h.1.2, hp a (by simp) b (by simp), fun _ hk => ?_⟩
      (sim_of_words h.2 (fun a ha b hb => hp a (by simp [ha]) b (by simp [hb]))
        fun a ha => hs a (by simp [ha]))
    obtain ⟨v, hv⟩ := hs a (by simp) hk
    exact ⟨v, unescape_strLit hv⟩

/-- C08: two texts that pass the lexical checks and have the same tokens, apart from whitespace and
comments, parse to the same expression, or both fail in the same way (hard or soft). -/
theorem C08_layout (P : Plat) {src src' : Str} {ws : List Word} (h : Words src ws)
    (h' : Words src' ws) :
    (∃ e, parseScript P src = .ok e ∧ parseScript P src' = .ok e) ∨
      ∃ b e e', parseScript P src = .err b e ∧ parseScript P src' = .err b e' := by
  obtain ⟨i, h1, h2, _, h4⟩ := parseScript_words (P := P) h
  obtain ⟨i', h1', h2', _, _⟩ := parseScript_words (P := P) h'
  rw [h2, h2']
  have hs := sim_of_words (pos := fun _ _ => True) (h1.trans h1'.symm) (fun _ _ _ _ => trivial) h4
  have hlen : i.length = i'.length := hs.length_eq
  have := scriptN_sim (C := ⟨P, ⟨utf8Len src, utf8Len src⟩⟩)
    (C' := ⟨P, ⟨utf8Len src', utf8Len src'⟩⟩) ⟨rfl, trivial⟩ hs (Nat.lt_succ_self _)
    (n' := i'.length + 1) (by omega)
  generalize scriptN ⟨P, ⟨utf8Len src, utf8Len src⟩⟩ (i.length + 1) i = r at this ⊢
  generalize scriptN ⟨P, ⟨utf8Len src', utf8Len src'⟩⟩ (i'.length + 1) i' = r' at this ⊢
  cases this with
  | ok => exact .inl ⟨_, rfl, rfl⟩
  | err _ => exact .inr ⟨_, _, _, rfl, rfl⟩
  | panic h => exact h.elim

set_option maxRecDepth 100000 in
example : Words c!"let x=5;x" [(.keyword, c!"let"), (.symbol, c!"x"), (.punctuation, c!"="),
      (.integerLiteral, c!"5"), (.punctuation, c!";"), (.symbol, c!"x")] ∧
    Words c!"let  x = 5 # five\n;\n x\n" [(.keyword, c!"let"), (.symbol, c!"x"),
      (.punctuation, c!"="), (.integerLiteral, c!"5"), (.punctuation, c!";"), (.symbol, c!"x")] := by
  exact ⟨words_of_attach (ts := _) (ds := _) rfl (by simp) rfl rfl rfl,
    words_of_attach (ts := _) (ds := _) rfl (by simp) rfl rfl rfl⟩

/-- The ranges mentioned in an error. -/
def rangesOf : SyntaxError → List Range
  | .tokenizationErrors ds => ds.flatMap Diagnostic.ranges
  | .expected r _ _ => [r]
  | .expectedChar _ r => r.toList
  | .nomError _ r => r.toList
  | .nomErrorBy _ r e => r.toList ++ rangesOf e
  | .internalError => []

private theorem errSim_ranges {src : Str} {e e' : SyntaxError}
    (h : ErrSim ⟨fun a b => a = b ∧ InText src a, True⟩ e e') : ∀ r ∈ rangesOf e, InText src r := by
  induction h with
  | expected h => simpa [rangesOf] using h.2
  | nomNone => simp [rangesOf]
  | nomSome h => simpa [rangesOf] using h.2
  | byNone _ ih => simpa [rangesOf] using ih
  | bySome h _ ih =>
    simp only [rangesOf, Option.toList, List.singleton_append, List.forall_mem_cons]
    exact ⟨h.2, ih⟩
  | internal => simp [rangesOf]

/-- C64: every range in the error for a text starts and ends inside the text on character
boundaries (the text splits there into three texts). -/
theorem C64_ranges {P : Plat} {src : Str} {b : Bool} {e : SyntaxError}
    (h : parseScript P src = .err b e) :
    ∀ r ∈ rangesOf e, ∃ pre mid post, src = pre ++ mid ++ post ∧ r.start = utf8Len pre ∧
      r.stop = utf8Len (pre ++ mid) := by
  suffices ∀ r ∈ rangesOf e, InText src r by
    intro r hr
    obtain ⟨x, y, z, h1, rfl⟩ := this r hr
    exact ⟨x, y, z, h1, rfl, by rw [utf8Len_append]⟩
  cases scriptCase P src with
  | panic _ _ h' => rw [h'] at h; simp at h
  | invalid _ _ ht h' =>
    rw [h'] at h
    simp only [Result.err.injEq] at h
    rw [← h.2]
    intro r hr
    simp only [rangesOf, List.mem_flatMap, List.mem_filter] at hr
    obtain ⟨d, ⟨hd, _⟩, hr⟩ := hr
    have := tiles_inText ht [] rfl d hd r hr
    exact this
  | clash _ _ hl ht h' =>
    rw [h'] at h
    simp only [Result.err.injEq] at h
    rw [← h.2]
    obtain ⟨u, x, y, v, hu, rfl⟩ := touching_some ht
    intro r hr
    simp only [rangesOf, List.mem_singleton] at hr
    subst hr
    refine (hl.inText x (by rw [hu]; simp)).hull (hl.inText y (by rw [hu]; simp)) ?_
    have := hl.sorted
    rw [hu, List.pairwise_append] at this
    exact (List.pairwise_cons.mp this.2.1).1 y (by simp)
  | @reads ts ds l h1 hv hl ht hs h' =>
    rw [h'] at h
    have hsim : ToksSim ⟨fun a b => a = b ∧ InText src a, True⟩ (l.filter Parse.isSolid)
        (l.filter Parse.isSolid) := by
      have : ∀ b ∈ l.filter Parse.isSolid, InText src b.range :=
        fun b hb => hl.inText b (List.mem_filter.mp hb).1
      generalize l.filter Parse.isSolid = i at this ⊢
      induction i with
      | nil => exact .nil
      | cons a i ih =>
        exact .cons ⟨rfl, rfl, ⟨rfl, this a (by simp)⟩, fun h => absurd trivial h⟩
          (ih fun b hb => this b (by simp [hb]))
    have hr := scriptN_sim (R := ⟨fun a b => a = b ∧ InText src a, True⟩)
      (C := ⟨P, ⟨utf8Len src, utf8Len src⟩⟩) (C' := ⟨P, ⟨utf8Len src, utf8Len src⟩⟩)
      ⟨rfl, rfl, src, [], [], by simp, by simp [utf8Len]⟩ hsim (Nat.lt_succ_self _)
      (Nat.lt_succ_self _)
    rw [h] at hr
    cases hr with
    | err he => exact errSim_ranges he

set_option maxRecDepth 100000 in
example : parseScript Demo.plat c!"let x = \"é\";\nlet 5" =
      .err true (.expected ⟨18, 19⟩ c!"symbol" none) ∧
    c!"let x = \"é\";\nlet 5" = c!"let x = \"é\";\nlet " ++ c!"5" ++ [] ∧
    utf8Len c!"let x = \"é\";\nlet " = 18 := ⟨rfl, rfl, rfl⟩

/-- C66: parsing a text never panics unless tokenizing it does (C02): unescaping never meets a
malformed literal, and no token slice is out of range. -/
theorem C66_no_panic {P : Plat} {src : Str} (h : parseScript P src = .panic) :
    tokenize src = .panic := by
  cases scriptCase P src with
  | panic _ h' _ => exact h'
  | invalid _ _ _ h' => rw [h'] at h; simp at h
  | clash _ _ _ _ h' => rw [h'] at h; simp at h
  | @reads ts ds l h1 hv hl ht hs h' =>
    rw [h'] at h
    have hr := scriptN_sim (R := ⟨fun _ _ => True, False⟩)
      (C := ⟨P, ⟨utf8Len src, utf8Len src⟩⟩) (C' := ⟨P, ⟨utf8Len src, utf8Len src⟩⟩)
      ⟨rfl, trivial⟩ (sim_of_words rfl (fun _ _ _ _ => trivial)
        fun a ha => hs a (List.mem_filter (p := Parse.isSolid).mp ha).1) (Nat.lt_succ_self _) (Nat.lt_succ_self _)
    rw [h] at hr
    cases hr with
    | panic h => exact h.elim

set_option maxRecDepth 100000 in
example : parseScript Demo.plat c!"\"\\é\"" = .panic := rfl

set_option maxRecDepth 100000 in
/-- an unterminated string is accepted, and its escapes are resolved -/
example : parseScript Demo.plat c!"\"a\\u{e9}" = .ok (.do_ [.str c!"aé"]) := rfl

/-! ### Instances: the hypotheses can be met -/

example := C06_terminates ⟨Demo.plat, ⟨3, 3⟩⟩
  [⟨.punctuation, c!"(", ⟨0, 1⟩⟩, ⟨.integerLiteral, c!"5", ⟨1, 2⟩⟩, ⟨.punctuation, c!")", ⟨2, 3⟩⟩] 4 (by decide)

example := C07_diagnostic Demo.plat (src := c!"echo 1; \"\\q\"") (d := .invalidStringEscapes [⟨9, 11⟩]) rfl
  (.tail _ (.tail _ (.tail _ (.tail _ (.tail _ (.head _)))))) (by simp)

example := C07_touching Demo.plat (src := c!"echo 1; 5x")
  (u := [(.symbol, c!"echo"), (.whitespace, c!" "), (.integerLiteral, c!"1"), (.punctuation, c!";"),
    (.whitespace, c!" ")])
  (a := (.integerLiteral, c!"5")) (b := (.symbol, c!"x")) (v := []) ⟨_, _, rfl, rfl, rfl⟩ (by simp [Clash, wordLike])

example := C07_success (P := Demo.plat) (src := c!"echo 1; 2") rfl

end Dune.Props
