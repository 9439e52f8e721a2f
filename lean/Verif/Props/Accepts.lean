import Verif.Props.Parsing
import Verif.Proof.Sound
import Verif.Spec.Demo

/-! Property C87: what a text must be to be accepted. -/

namespace Dune.Props

open Parse Spec

/-- C87: a text that passes the lexical checks is the sequence of its tokens, and each of them is a
word of the lexical grammar; only a string at the very end may lack its closing quote. -/
theorem C87_words {src : Str} {ws : List Word} (h : Reads src ws) :
    textOf ws = src ∧ Written ws := Lex.reads_written h

private theorem good_of {i : List Tok} {all : List Word} (h : Written all)
    (hi : i.map Tok.word = all.filter Spec.isSolid) : Good i := by
  intro t ht
  have hm : t.word ∈ all := by
    have : t.word ∈ i.map Tok.word := List.mem_map.mpr ⟨t, ht, rfl⟩
    rw [hi] at this
    exact (List.mem_filter.mp this).1
  obtain ⟨u, v, he⟩ := List.append_of_mem hm
  rcases h u t.word v he with h | h
  · exact .inl h
  · exact .inr h.2

/-- C87: an accepted text is a script: its words, with some closing parentheses added at the end,
have a derivation in the grammar, and the result is what that derivation stands for. -/
theorem C87_accepted {P : Plat} {src : Str} {e : Expr} (h : parseText P src = .ok e) :
    ∃ ws l n, Words src ws ∧ e = .do_ l ∧ A P .stmts (ws ++ List.replicate n (pw c!")")) l := by
  have hs : parseScript P src = .ok e := by
    rw [parseText] at h
    split at h
    · rename_i h'; injection h with h; rw [h', h]
    all_goals simp at h
  obtain ⟨ws, ⟨all, hr, hf⟩, _⟩ := C07_success hs
  obtain ⟨i, h1, h2, _⟩ := parseScript_words (P := P) ⟨all, hr, hf⟩
  rw [hs] at h2
  obtain ⟨l, n, h3, h4⟩ := scriptN_sound (good_of (C87_words hr).2 (h1.trans hf.symm)) h2.symm
  exact ⟨ws, l, n, ⟨all, hr, hf⟩, h3, h1 ▸ h4⟩

private theorem words_unique {src : Str} {a b : List Word} (h : Words src a) (h' : Words src b) :
    a = b := by
  obtain ⟨x, h1, h2⟩ := h
  obtain ⟨y, h3, h4⟩ := h'
  rw [← h2, ← h4, reads_unique h1 h3]

/-- C87: a text whose words are not a script, whatever parentheses are added at the end, is
rejected with an error. -/
theorem C87_rejected {P : Plat} {src : Str} {ws : List Word} (hw : Words src ws)
    (h : ∀ n l, ¬ A P .stmts (ws ++ List.replicate n (pw c!")")) l) :
    ∃ e, parseText P src = .err (.syntaxError src e) := by
  rcases C08_layout P hw hw with ⟨e, h1, _⟩ | ⟨b, e, _, h1, _⟩
  · have h2 : parseText P src = .ok e := by rw [parseText, h1]
    obtain ⟨ws', l, n, h3, _, h4⟩ := C87_accepted h2
    exact absurd (words_unique h3 hw ▸ h4) (h n l)
  · exact ⟨e, by rw [parseText, h1]⟩

/-! ### The grammar of property C67 is included -/

private def Ext (P : Plat) : (k : NT) → List Word → k.Val → Prop
  | .pipes, u, l => ∃ m : List (Str × List Word × Expr), m ≠ [] ∧ (∀ p ∈ m, p.1 ∈ pipeOps) ∧
      (∀ p ∈ m, A P .seven p.2.1 p.2.2) ∧ u = m.flatMap (fun p => ow p.1 :: p.2.1) ∧
      l = m.map fun p => (p.1, p.2.2)
  | .stage, u, v => A P .seven u v
  | k, u, v => A P k u v

private theorem named_any {w : Word} (h : Named w) : NamedAny w := by
  rcases h with h | h
  · exact .inl h
  · exact .inr ⟨h.1, List.mem_cons_of_mem _ h.2⟩

private theorem ext {P : Plat} {k : NT} {u : List Word} {v : k.Val} (h : G P k u v) : Ext P k u v := by
  have op {s : Str} (h : s ∈ opNames) : s ∈ allOps := List.mem_cons_of_mem _ h
  induction h with
  | atom h => exact A.atom h
  | unit => exact A.unit
  | group _ ih => exact A.group ih
  | list0 => exact A.list0
  | list _ ih => exact A.list ih
  | map0 => exact A.map0
  | map _ ih => exact A.map ih
  | block _ h ih => exact A.block ih h
  | item _ ih => exact A.item ih
  | items _ _ ih ih' => exact A.items ih ih'
  | entry h _ ih => exact A.entry (named_any h) ih
  | entries h _ _ ih ih' => exact A.entries (named_any h) ih ih'
  | base _ ih => exact A.base ih
  | quote _ ih => exact A.base (A.quote ih)
  | access _ _ ih ih' => exact A.access ih ih'
  | field _ ih => exact A.field ih
  | fieldOp h => exact A.fieldOp (op h)
  | fieldsOp h _ ih => exact A.fields (A.fieldOp (op h)) ih
  | fields _ _ ih ih' => exact A.fields (A.field ih) ih'
  | two _ ih => exact A.two ih
  | mul _ h _ ih ih' => exact A.mul ih h ih'
  | prod _ ih => exact A.prod ih
  | add _ h _ ih ih' => exact A.add ih h ih'
  | sum _ ih => exact A.sum ih
  | compare _ h _ ih ih' => exact A.compare ih h ih'
  | rel _ ih => exact A.rel ih
  | range _ _ ih ih' => exact A.range ih ih'
  | dropped _ _ ih ih' => exact A.dropped ih ih'
  | cmp _ ih => exact A.cmp ih
  | logic _ h _ ih ih' => exact A.logic ih h ih'
  | arg _ ih => exact A.arg ih
  | args _ _ ih ih' => exact A.args ih ih'
  | noCall _ ih => exact A.noCall ih
  | call _ _ ih ih' => exact A.call ih ih'
  | opCall h _ ih => exact A.opCall (op h) ih
  | opName h => exact A.opName (op h)
  | @pipe1 op v y hop _ ih => exact ⟨[(op, v, y)], by simp, by simpa using hop, fun p hp => by
      obtain rfl := List.mem_singleton.mp hp
      exact ih, by simp, rfl⟩
  | @pipeLast op v y hop _ ih => exact ⟨[(op, v, y)], by simp, by simpa using hop, fun p hp => by
      obtain rfl := List.mem_singleton.mp hp
      exact ih, by simp, rfl⟩
  | @pipes op v y w l hop _ _ ih ih' =>
    obtain ⟨m, _, h2, h3, h4, h5⟩ := ih'
    refine ⟨(op, v, y) :: m, by simp, ?_, ?_, ?_, ?_⟩
    · rw [List.forall_mem_cons]; exact ⟨hop, h2⟩
    · rw [List.forall_mem_cons]; exact ⟨ih, h3⟩
    · rw [h4]; simp
    · rw [h5]; rfl
  | ite _ _ ih ih' => exact A.ite ih ih'
  | iteElse _ _ _ ih ih' ih'' => exact A.iteElse ih ih' ih''
  | elseIf _ _ _ ih ih' ih'' => exact A.elseIf ih ih' ih''
  | cond _ ih => exact A.cond ih
  | for_ h _ _ ih ih' => exact A.for_ h ih ih'
  | forRange h _ _ _ ih ih' ih'' => exact A.forRange h ih ih' ih''
  | seven _ ih => exact A.seven ih
  | @pipe u x v l _ _ ih ih' =>
    obtain ⟨m, h1, h2, h3, h4, h5⟩ := ih'
    have := A.pipe ih h1 h2 h3
    rw [chainWords, ← h4, ← h5] at this
    exact this
  | stage _ ih => exact A.seven ih
  | stageLet h _ ih => exact A.let_ (named_any h) ih
  | stageLambda h _ ih => exact A.lambda h ih
  | stageMacro h _ ih => exact A.macro_ h ih
  | stageCtrl _ ih => exact A.ctrl ih
  | done => exact A.done
  | last _ ih => exact A.last ih
  | stmt _ _ ih ih' => exact A.stmt ih ih'
  | ctrlStmt _ _ _ ih ih' => exact A.ctrlStmt ih ih'

/-- C87: every script of the grammar of property C67 is one of this grammar, with the same
meaning. -/
theorem C87_includes {P : Plat} {ws : List Word} {l : List Expr} (h : G P .stmts ws l) :
    A P .stmts ws l := ext h

/-! ### Brackets -/

private theorem nested_cons {w : Word} {u : List Word}
    (h : w ∉ [c!"(", c!")", c!"[", c!"]", c!"{", c!"}"].map pw) (hu : Nested u) : Nested (w :: u) :=
  (Nested.word h).append hu

private theorem kind_word {w : Word} (h : w.1 ≠ .punctuation) :
    w ∉ [c!"(", c!")", c!"[", c!"]", c!"{", c!"}"].map pw := by
  intro hm
  obtain ⟨s, _, rfl⟩ := List.mem_map.mp hm
  exact h rfl

private theorem named_word {w : Word} (h : NamedAny w) :
    w ∉ [c!"(", c!")", c!"[", c!"]", c!"{", c!"}"].map pw := by
  apply kind_word
  rcases h with h | h <;> (rw [h.1]; simp)

private theorem atom_word {P : Plat} {w : Word} {x : Expr} (h : Atom P w x) :
    w ∉ [c!"(", c!")", c!"[", c!"]", c!"{", c!"}"].map pw := by
  apply kind_word
  cases h <;> simp [kw]

private theorem nested {P : Plat} {k : NT} {u : List Word} {v : k.Val} (h : A P k u v) : Nested u := by
  have ok (s : Str) (u : List Word) (hu : Nested u) : Nested (ow s :: u) :=
    nested_cons (kind_word (by simp [ow])) hu
  have kk (s : Str) (u : List Word) (hu : Nested u) : Nested (kw s :: u) :=
    nested_cons (kind_word (by simp [kw])) hu
  have sk (s : Str) (u : List Word) (hu : Nested u) : Nested ((.symbol, s) :: u) :=
    nested_cons (kind_word (by simp)) hu
  have pk {s : Str} (u : List Word) (hu : Nested u)
      (h : pw s ∉ [c!"(", c!")", c!"[", c!"]", c!"{", c!"}"].map pw) : Nested (pw s :: u) :=
    nested_cons h hu
  induction h with
  | atom h => exact .word (atom_word h)
  | unit => exact .round .nil
  | group _ ih => exact .round ih
  | list0 => exact .square .nil
  | list _ ih => exact .square ih
  | map0 => exact .curly .nil
  | map _ ih => exact .curly ih
  | block _ _ ih => exact .curly ih
  | quote _ ih => exact pk _ ih (by decide)
  | item _ ih | base _ ih | two _ ih | prod _ ih | sum _ ih | rel _ ih | cmp _ ih | arg _ ih
  | noCall _ ih | cond _ ih | ctrl _ ih | seven _ ih | last _ ih => exact ih
  | items _ _ ih ih' | stmt _ _ ih ih' => exact ih.append (pk _ ih' (by decide))
  | entry h _ ih => exact nested_cons (named_word h) (pk _ ih (by decide))
  | entries h _ _ ih ih' =>
    exact nested_cons (named_word h) (pk _ (ih.append (pk _ ih' (by decide))) (by decide))
  | access _ _ ih ih' | fields _ _ ih ih' | args _ _ ih ih' | call _ _ ih ih'
  | ctrlStmt _ _ ih ih' => exact ih.append ih'
  | field _ ih => exact ok _ _ ih
  | fieldOp => exact ok _ _ (ok _ _ .nil)
  | mul _ _ _ ih ih' | add _ _ _ ih ih' | compare _ _ _ ih ih' | logic _ _ _ ih ih' =>
    exact ih.append (ok _ _ ih')
  | range _ _ ih ih' | dropped _ _ ih ih' => exact ih.append (ok _ _ ih')
  | opCall _ _ ih => exact ok _ _ ih
  | opName => exact ok _ _ .nil
  | ite _ _ ih ih' => exact kk _ _ (ih.append ih')
  | iteElse _ _ _ ih ih' ih'' | elseIf _ _ _ ih ih' ih'' =>
    exact kk _ _ (ih.append (ih'.append (kk _ _ ih'')))
  | for_ _ _ _ ih ih' => exact kk _ _ (sk _ _ (kk _ _ (ih.append (.curly ih'))))
  | forRange _ _ _ _ ih ih' ih'' =>
    exact kk _ _ (sk _ _ (kk _ _ (ih.append (ok _ _ (ih'.append (.curly ih''))))))
  | let_ h _ ih => exact kk _ _ (nested_cons (named_word h) (pk _ ih (by decide)))
  | lambda _ _ ih | macro_ _ _ ih => exact sk _ _ (pk _ ih (by decide))
  | @pipe u x l _ _ _ _ ih ih' =>
    refine ih.append ?_
    clear * - ih' ok
    induction l with
    | nil => exact .nil
    | cons p l ih =>
      rw [List.flatMap_cons]
      exact (ok _ _ (ih' p (by simp))).append (ih fun q hq => ih' q (by simp [hq]))
  | done => exact .nil

/-- C87: the brackets of an accepted text are well nested, once the parentheses missing at the end
are added. -/
theorem C87_nested {P : Plat} {src : Str} {e : Expr} (h : parseText P src = .ok e) :
    ∃ ws n, Words src ws ∧ Nested (ws ++ List.replicate n (pw c!")")) := by
  obtain ⟨ws, l, n, h1, _, h2⟩ := C87_accepted h
  exact ⟨ws, n, h1, nested h2⟩

private theorem nested_counts {u : List Word} (h : Nested u) :
    u.count (pw c!"[") = u.count (pw c!"]") ∧ u.count (pw c!"{") = u.count (pw c!"}") ∧
      u.count (pw c!"(") = u.count (pw c!")") := by
  induction h with
  | nil => simp
  | word h =>
    simp only [List.map_cons, List.map_nil, List.mem_cons, List.not_mem_nil, or_false,
      not_or] at h
    simp [h]
  | round _ ih => simp [pw] at ih ⊢; exact ih
  | square _ ih => simp [pw] at ih ⊢; exact ih
  | curly _ ih => simp [pw] at ih ⊢; exact ih
  | append _ _ ih ih' => simp only [List.count_append]; omega

/-- C87: an accepted text has as many opening as closing square brackets and braces, and no closing
parenthesis too many. -/
theorem C87_counts {P : Plat} {src : Str} {e : Expr} {ws : List Word} (hw : Words src ws)
    (h : parseText P src = .ok e) :
    ws.count (pw c!"[") = ws.count (pw c!"]") ∧ ws.count (pw c!"{") = ws.count (pw c!"}") ∧
      ws.count (pw c!")") ≤ ws.count (pw c!"(") := by
  obtain ⟨ws', n, h1, h2⟩ := C87_nested h
  obtain rfl := words_unique h1 hw
  obtain ⟨h3, h4, h5⟩ := nested_counts h2
  have hc : ∀ s : Str, s ≠ c!")" → (List.replicate n (pw c!")")).count (pw s) = 0 := by
    intro s hs
    rw [List.count_eq_zero]
    intro hm
    have := (List.mem_replicate.mp hm).2
    exact hs (congrArg Prod.snd this)
  rw [List.count_append, List.count_append, hc _ (by decide), hc _ (by decide)] at h3 h4
  rw [List.count_append, List.count_append, hc _ (by decide)] at h5
  omega

/-- Two parentheses are missing, and the string is not closed. -/
private abbrev demo : Str := c!"f (x | g (2) << \"in\" >> (\"o"

set_option maxRecDepth 100000 in
/-- A text with a redirection, two missing parentheses and a string that is not closed is accepted. -/
example : parseText Demo.plat demo = .ok (.do_ [.apply (.symbol c!"f")
      [.group (.group (.apply (.symbol c!"|") [.symbol c!"x", .apply (.symbol c!"<<") [.str c!"in"],
        .apply (.symbol c!"g") [.group (.int (I64.lit 2))],
        .apply (.symbol c!">>") [.group (.str c!"o")]]))]]) := by
  rfl

set_option maxRecDepth 100000 in
/-- A list that is not closed is rejected. -/
example : ∃ ws, Words c!"[1, 2" ws ∧ ∀ n l, ¬ A Demo.plat .stmts (ws ++ List.replicate n (pw c!")")) l :=
  ⟨[pw c!"[", (.integerLiteral, c!"1"), pw c!",", (.integerLiteral, c!"2")],
    words_of_attach (ts := _) (ds := _) rfl (by simp) rfl rfl rfl, fun n l h => by
      have := (nested_counts (nested h)).1
      rw [List.count_append, List.count_append] at this
      have hc : ∀ s : Str, s ≠ c!")" → (List.replicate n (pw c!")")).count (pw s) = 0 := by
        intro s hs
        rw [List.count_eq_zero]
        intro hm
        exact hs (congrArg Prod.snd (List.mem_replicate.mp hm).2)
      rw [hc _ (by decide), hc _ (by decide)] at this
      revert this
      decide⟩

end Dune.Props
