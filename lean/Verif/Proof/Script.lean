import Verif.Spec.Lex
import Verif.Proof.Parse
import Verif.Proof.StrLit

/-! From a source text to the tokens that the parser sees. -/

namespace Dune

open Parse Spec

/-- the word of a token -/
def Parse.Tok.word (t : Tok) : Word := (t.kind, t.text)

/-- A range of the text, on character boundaries. -/
def InText (src : Str) (r : Range) : Prop :=
  ∃ a b c, src = a ++ b ++ c ∧ r = ⟨utf8Len a, utf8Len a + utf8Len b⟩

theorem InText.hull {src : Str} {r s : Range} (hr : InText src r) (hs : InText src s)
    (h : r.start ≤ s.stop) : InText src ⟨r.start, s.stop⟩ := by
  obtain ⟨a, b, c, h1, rfl⟩ := hr
  obtain ⟨a', b', c', h2, rfl⟩ := hs
  simp only at h ⊢
  have he : a ++ (b ++ c) = (a' ++ b') ++ c' := by rw [← h2, h1, List.append_assoc]
  rcases List.append_eq_append_iff.mp he with ⟨z, h3, h4⟩ | ⟨z, h3, h4⟩
  · exact ⟨a, z, c', by rw [h2, h3], by rw [← utf8Len_append, h3, utf8Len_append]⟩
  · have hz : utf8Len z = 0 := by
      rw [h3, utf8Len_append, utf8Len_append] at h
      omega
    have hz' := utf8Len_eq_zero.mp hz
    subst hz'
    rw [List.append_nil] at h3
    refine ⟨a, [], b ++ c, by rw [h1]; simp, ?_⟩
    rw [h3, utf8Len_append]
    rfl

/-- What is known about the tokens of a text. -/
structure Attached (src : Str) (off : Nat) (ts : List Token) (l : List Tok) : Prop where
  same : List.Forall₂ (fun (a : Token) (b : Tok) => a.kind = b.kind ∧ a.range = b.range ∧
    sliceStr src a.range.start a.range.stop = some b.text) ts l
  inText : ∀ b ∈ l, InText src b.range
  later : ∀ b ∈ l, off ≤ b.range.start ∧ b.range.start ≤ b.range.stop
  sorted : l.Pairwise fun a b => a.range.start ≤ b.range.stop

theorem attachAll_tiles {off : Nat} {t : Str} {ts : List Token} {ds : List Diagnostic}
    (h : Lex.Tiles off t ts ds) : ∀ pre, utf8Len pre = off →
      ∃ l, attachAll (pre ++ t) ts = some l ∧ Attached (pre ++ t) off ts l ∧
        ((∀ d ∈ ds, d = .valid) → ∀ b ∈ l, b.kind = .stringLiteral → ∃ v, Lex.StrLit b.text v) := by
  induction h with
  | nil => exact fun pre _ => ⟨[], rfl, ⟨.nil, by simp, by simp, .nil⟩, by simp⟩
  | @cons off s ts ds t k d ht hd _ ih =>
    intro pre hpre
    obtain ⟨l, h1, h2, h3⟩ := ih (pre ++ t) (by rw [utf8Len_append, hpre])
    rw [List.append_assoc] at h1 h2
    have hs : sliceStr (pre ++ (t ++ s)) off (off + utf8Len t) = some t := by
      rw [← hpre, ← List.append_assoc]
      exact sliceStr_mid pre t s
    refine ⟨⟨k, t, ⟨off, off + utf8Len t⟩⟩ :: l, ?_, ⟨?_, ?_, ?_, ?_⟩, ?_⟩
    · simp only [attachAll, attach, hs, Option.map_some, h1]
    · exact .cons ⟨rfl, rfl, hs⟩ h2.same
    · simp only [List.forall_mem_cons]
      exact ⟨⟨pre, t, s, by simp, by rw [hpre]⟩, h2.inText⟩
    · simp only [List.forall_mem_cons]
      refine ⟨⟨by omega, by omega⟩, fun b hb => ?_⟩
      have := h2.later b hb
      exact ⟨by omega, this.2⟩
    · refine .cons (fun b hb => ?_) h2.sorted
      have := h2.later b hb
      simp only
      omega
    · simp only [List.forall_mem_cons]
      rintro ⟨rfl, hall⟩
      refine ⟨fun hk => ?_, h3 hall⟩
      cases hd with
      | valid hv => exact hv hk

/-- The ranges in a diagnostic. -/
def Diagnostic.ranges : Diagnostic → List Range
  | .valid => []
  | .invalidStringEscapes rs => rs
  | .invalidNumber r => [r]
  | .illegalChar r => [r]
  | .notTokenized r => [r]

theorem pieces_inText {off : Nat} {t : Str} {rs : List Range} (h : Lex.Pieces off t rs) :
    ∀ pre post, utf8Len pre = off → ∀ r ∈ rs, InText (pre ++ t ++ post) r := by
  induction h with
  | nil => simp
  | @cons off t rs a b _ ih =>
    intro pre post hpre
    simp only [List.forall_mem_cons]
    refine ⟨⟨pre ++ a, b, t ++ post, by simp, by rw [utf8Len_append, hpre]⟩, ?_⟩
    have := ih (pre ++ a ++ b) post (by rw [utf8Len_append, utf8Len_append, hpre])
    simpa only [List.append_assoc] using this

theorem tiles_inText {off : Nat} {t : Str} {ts : List Token} {ds : List Diagnostic}
    (h : Lex.Tiles off t ts ds) : ∀ pre, utf8Len pre = off →
      ∀ d ∈ ds, ∀ r ∈ d.ranges, InText (pre ++ t) r := by
  induction h with
  | nil => simp
  | @cons off s ts ds t k d ht hd _ ih =>
    intro pre hpre
    simp only [List.forall_mem_cons]
    constructor
    · have hself : InText (pre ++ (t ++ s)) ⟨off, off + utf8Len t⟩ :=
        ⟨pre, t, s, by simp, by rw [hpre]⟩
      cases hd with
      | valid _ => simp [Diagnostic.ranges]
      | escapes _ hp =>
        have := pieces_inText hp pre s hpre
        rw [List.append_assoc] at this
        exact this
      | number => simpa [Diagnostic.ranges] using hself
      | char => simpa [Diagnostic.ranges] using hself
    · have := ih (pre ++ t) (by rw [utf8Len_append, hpre])
      rw [List.append_assoc] at this
      exact this

theorem touching_none {l : List Tok} :
    touching l = none ↔ ∀ u a b v, l.map Tok.word = u ++ a :: b :: v → ¬ Clash a b := by
  have hlike : ∀ k, isSymbolLike k = true ↔ wordLike k := by
    intro k; cases k <;> simp [isSymbolLike, wordLike]
  induction l with
  | nil => simp [touching]
  | cons a l ih =>
    cases l with
    | nil =>
      simp only [touching, List.map_cons, List.map_nil, true_iff]
      intro u a b v h
      have := congrArg List.length h
      simp at this
      omega
    | cons b l =>
      rw [touching]
      split
      · rename_i h
        simp only [reduceCtorEq, false_iff]
        intro h'
        refine h' [] a.word b.word _ rfl ?_
        rw [hlike, hlike] at h
        exact h
      · rename_i h
        refine ih.trans ?_
        constructor
        · intro h' u x y v hx
          cases u with
          | nil =>
            simp only [List.map_cons, List.nil_append, List.cons.injEq] at hx
            obtain ⟨rfl, rfl, _⟩ := hx
            rw [hlike, hlike] at h
            exact h
          | cons z u =>
            simp only [List.map_cons, List.cons_append, List.cons.injEq] at hx
            refine h' u x y v ?_
            rw [List.map_cons]
            exact hx.2
        · intro h' u x y v hx
          exact h' (a.word :: u) x y v (by rw [List.map_cons, hx]; rfl)

theorem touching_some {l : List Tok} {e : SyntaxError} (h : touching l = some e) :
    ∃ u a b v, l = u ++ a :: b :: v ∧
      e = .expected ⟨a.range.start, b.range.stop⟩ c!"whitespace" (some b.text) := by
  induction l with
  | nil => simp [touching] at h
  | cons a l ih =>
    cases l with
    | nil => simp [touching] at h
    | cons b l =>
      rw [touching] at h
      split at h
      · simp only [Option.some.injEq] at h
        exact ⟨[], a, b, l, rfl, h.symm⟩
      · obtain ⟨u, x, y, v, h1, h2⟩ := ih h
        exact ⟨a :: u, x, y, v, by rw [h1]; rfl, h2⟩

theorem forall₂_words {src : Str} {ts : List Token} {l : List Tok}
    (h : List.Forall₂ (fun (a : Token) (b : Tok) => a.kind = b.kind ∧ a.range = b.range ∧
      sliceStr src a.range.start a.range.stop = some b.text) ts l) :
    ts.map (fun t => t.kind) = (l.map Tok.word).map Prod.fst ∧
    ts.map (fun t => sliceStr src t.range.start t.range.stop) =
      (l.map Tok.word).map fun w => some w.2 := by
  induction h with
  | nil => exact ⟨rfl, rfl⟩
  | cons h _ ih =>
    simp only [List.map_cons, ih.1, ih.2, h.1, h.2.2]
    exact ⟨rfl, rfl⟩

theorem attached_of_zip {src : Str} {l : List Tok} {ts : List Token}
    (h : attachAll src ts = some l) {ds : List Diagnostic} (ht : tokenize src = .ok (ts, ds)) :
    Attached src 0 ts l := by
  rcases tokenizeN_cases (s := src) (Nat.lt_succ_self _) with ⟨h', hb⟩ | ⟨ts', ds', ht', h'⟩
  · rw [tokenize, h'] at ht; simp at ht
  · rw [tokenize, h'] at ht
    simp only [Outcome.ok.injEq, Prod.mk.injEq] at ht
    obtain ⟨rfl, rfl⟩ := ht
    obtain ⟨l', h1, h2, _⟩ := attachAll_tiles ht' [] rfl
    rw [List.nil_append] at h1 h2
    rw [h] at h1
    simp only [Option.some.injEq] at h1
    rw [h1]
    exact h2

theorem words_ext : ∀ {a b : List Word}, a.map Prod.fst = b.map Prod.fst →
    (a.map fun w => some w.2) = b.map (fun w => some w.2) → a = b
  | [], [], _, _ => rfl
  | [], _ :: _, h, _ => by simp at h
  | _ :: _, [], h, _ => by simp at h
  | (k, t) :: a, (k', t') :: b, h, h' => by
    simp only [List.map_cons, List.cons.injEq, Option.some.injEq] at h h'
    rw [h.1, h'.1, words_ext h.2 h'.2]

/-- The ways in which `parse_script` can go. -/
inductive ScriptCase (P : Plat) (src : Str) : Prop
  | panic : Lex.BadEscape src → tokenize src = .panic → parseScript P src = .panic →
      ScriptCase P src
  | invalid {ts ds} : tokenize src = .ok (ts, ds) → (∃ d ∈ ds, d ≠ .valid) → Lex.Tiles 0 src ts ds →
      parseScript P src = .err true (.tokenizationErrors (ds.filter fun d => d ≠ .valid)) →
      ScriptCase P src
  | clash {ts ds l e} : tokenize src = .ok (ts, ds) → (∀ d ∈ ds, d = .valid) →
      Attached src 0 ts l → touching l = some e →
      parseScript P src = .err true e → ScriptCase P src
  | reads {ts ds l} : tokenize src = .ok (ts, ds) → (∀ d ∈ ds, d = .valid) →
      Attached src 0 ts l → touching l = none →
      (∀ b ∈ l, b.kind = .stringLiteral → ∃ v, Lex.StrLit b.text v) →
      parseScript P src = scriptN ⟨P, ⟨utf8Len src, utf8Len src⟩⟩
        ((l.filter Parse.isSolid).length + 1) (l.filter Parse.isSolid) → ScriptCase P src

theorem scriptCase (P : Plat) (src : Str) : ScriptCase P src := by
  rcases tokenizeN_cases (s := src) (Nat.lt_succ_self _) with ⟨h, hb⟩ | ⟨ts, ds, ht, h⟩
  · exact .panic hb h (by rw [parseScript, tokenize, h])
  have htok : tokenize src = .ok (ts, ds) := h
  by_cases hv : ∀ d ∈ ds, d = .valid
  · obtain ⟨l, h1, h2, h3⟩ := attachAll_tiles ht [] rfl
    rw [List.nil_append] at h1 h2
    have hf : ds.filter (fun d => d ≠ .valid) = [] := by
      rw [List.filter_eq_nil_iff]
      simpa using hv
    cases hc : touching l with
    | some e =>
      refine .clash htok hv h2 hc ?_
      rw [parseScript, htok]
      simp only [hf, h1, hc]
      simp
    | none =>
      refine .reads htok hv h2 hc (h3 hv) ?_
      rw [parseScript, htok]
      simp only [hf, h1, hc]
      simp
  · have hv : ∃ d ∈ ds, d ≠ .valid := by
      apply Classical.byContradiction
      intro h
      exact hv fun d hd => Classical.byContradiction fun hne => h ⟨d, hd, hne⟩
    refine .invalid htok hv ht ?_
    rw [parseScript, htok]
    simp only
    rw [if_pos]
    simpa using hv

theorem reads_of_case {src : Str} {ts : List Token} {ds : List Diagnostic} {l : List Tok}
    (h : tokenize src = .ok (ts, ds)) (hv : ∀ d ∈ ds, d = .valid) (hl : Attached src 0 ts l)
    (ht : touching l = none) : Reads src (l.map Tok.word) :=
  ⟨⟨ts, ds, h, forall₂_words hl.same⟩, ⟨ts, ds, h, hv⟩, touching_none.mp ht⟩

theorem filter_words (l : List Tok) :
    (l.filter Parse.isSolid).map Tok.word = (l.map Tok.word).filter Spec.isSolid := by
  induction l with
  | nil => rfl
  | cons a l ih =>
    simp only [List.filter_cons, List.map_cons]
    have : Parse.isSolid a = Spec.isSolid a.word := rfl
    rw [this]
    split <;> simp [ih]

/-- The tokens of a text are determined. -/
theorem reads_unique {src : Str} {a b : List Word} (h : Reads src a) (h' : Reads src b) : a = b := by
  obtain ⟨ts, ds, h1, h2, h3⟩ := h.tokens
  obtain ⟨ts', ds', h1', h2', h3'⟩ := h'.tokens
  rw [h1] at h1'
  simp only [Outcome.ok.injEq, Prod.mk.injEq] at h1'
  obtain ⟨rfl, rfl⟩ := h1'
  exact words_ext (h2.symm.trans h2') (h3.symm.trans h3')

/-- On a text that passes the lexical checks, `parse_script` parses its solid tokens. -/
theorem parseScript_words {P : Plat} {src : Str} {ws : List Word} (h : Words src ws) :
    ∃ i : List Tok, i.map Tok.word = ws ∧
      parseScript P src = scriptN ⟨P, ⟨utf8Len src, utf8Len src⟩⟩ (i.length + 1) i ∧
      (∀ b ∈ i, InText src b.range) ∧
      ∀ b ∈ i, b.kind = .stringLiteral → ∃ v, Lex.StrLit b.text v := by
  obtain ⟨all, hr, hf⟩ := h
  cases scriptCase P src with
  | panic _ h' _ =>
    obtain ⟨ts, ds, h1, _⟩ := hr.valid
    rw [h'] at h1
    simp at h1
  | @invalid ts' ds' h' hd _ _ =>
    obtain ⟨ts, ds, h1, h2⟩ := hr.valid
    rw [h'] at h1
    simp only [Outcome.ok.injEq, Prod.mk.injEq] at h1
    obtain ⟨d, hd, hne⟩ := hd
    rw [h1.2] at hd
    exact absurd (h2 d hd) hne
  | @clash ts ds l e h' hv hl ht _ =>
    obtain ⟨ts', ds', h1, h2, h3⟩ := hr.tokens
    rw [h'] at h1
    simp only [Outcome.ok.injEq, Prod.mk.injEq] at h1
    obtain ⟨rfl, rfl⟩ := h1
    have hw := forall₂_words hl.same
    have : all = l.map Tok.word := words_ext (h2.symm.trans hw.1) (h3.symm.trans hw.2)
    subst this
    rw [touching_none.mpr hr.apart] at ht
    simp at ht
  | @reads ts ds l h' hv hl ht hs hp =>
    have := reads_unique hr (reads_of_case h' hv hl ht)
    subst this
    refine ⟨_, by rw [filter_words, hf], hp, fun b hb => hl.inText b (List.mem_filter.mp hb).1,
      fun b hb => hs b (List.mem_filter.mp hb).1⟩

theorem words_of_attach {src : Str} {ws : List Word} {ts : List Token}
    {ds : List Diagnostic} {l : List Tok} (h : tokenize src = .ok (ts, ds))
    (hv : ∀ d ∈ ds, d = .valid) (ha : attachAll src ts = some l) (ht : touching l = none)
    (hw : (l.map Tok.word).filter Spec.isSolid = ws) : Words src ws :=
  ⟨_, reads_of_case h hv (attached_of_zip ha h) ht, hw⟩

end Dune
