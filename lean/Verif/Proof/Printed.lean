import Verif.Spec.Printed
import Verif.Proof.Readable

/-! Printed code is a line of words that derive what it is read as. -/

namespace Dune

open Spec

/-- A text that is read as these words, wherever the text after it does not continue a word. -/
def Piece (us : List Word) (s : Str) : Prop :=
  ∃ ws, textOf ws = s ∧ ws.filter Spec.isSolid = us ∧ (∀ r, Stops r → LineTo ws r) ∧ Apart ws ∧
    ∃ c r, s = c :: r ∧ c ∉ spaceChars

theorem stops_space (r : Str) : Stops (' ' :: r) := stops_punct (s := c!" ") (by decide) r

theorem lineTo_space {b : List Word} {r : Str} {c : Char} {s : Str} (hb : LineTo b r)
    (hs : textOf b = c :: s) (hc : c ∉ spaceChars) : LineTo ((.whitespace, c!" ") :: b) r := by
  refine ⟨.space (by simp) (by decide), ?_, hb⟩
  show ∀ c r, _ → _
  rw [hs]
  rintro c' r' h
  rw [List.cons_append] at h
  rw [← (List.cons.inj h).1]
  exact hc

namespace Piece

theorem word {w : Word} (hl : Lexeme w) (he : ∀ r, Stops r → EndsAt w r) (hs : Spec.isSolid w = true)
    (hc : ∃ c r, w.2 = c :: r ∧ c ∉ spaceChars) : Piece [w] w.2 :=
  ⟨[w], by simp [textOf], by rw [filter_solid hs]; rfl,
    fun r hr => ⟨hl, by simpa [textOf] using he r hr, trivial⟩, .singleton _, hc⟩

/-- two texts with a space between them -/
theorem space {u v : List Word} {s t : Str} (hu : Piece u s) (hv : Piece v t) :
    Piece (u ++ v) (s ++ ' ' :: t) := by
  obtain ⟨a, rfl, rfl, ha, ha', c, r, hc, hc'⟩ := hu
  obtain ⟨b, rfl, rfl, hb, hb', d, q, hd, hd'⟩ := hv
  refine ⟨a ++ (.whitespace, c!" ") :: b, ?_, ?_, ?_, ?_, ?_⟩
  · rw [textOf_append, textOf_cons]; rfl
  · rw [List.filter_append, List.filter_cons, if_neg (by decide)]
  · intro r hr
    refine .append (ha _ ?_) (lineTo_space (hb r hr) hd hd')
    rw [textOf_cons, List.append_assoc]
    exact stops_punct (by decide) _
  · exact ha'.join not_clash_space' (.cons not_clash_space hb')
  · exact ⟨c, r ++ ' ' :: textOf b, by rw [hc]; rfl, hc'⟩

/-- a separator and a space between two texts -/
theorem sep {u v : List Word} {s t p : Str} (hp : p ∈ [c!",", c!";"]) (hu : Piece u s) (hv : Piece v t) :
    Piece (u ++ pw p :: v) (s ++ (p ++ ' ' :: t)) := by
  have hp1 : p ∈ [c!"(", c!")", c!"[", c!"]", c!"{", c!"}", c!"'", c!",", c!";", c!"=", c!"->",
      c!"~>"] := by
    simp only [List.mem_cons, List.not_mem_nil, or_false] at hp ⊢
    rcases hp with h | h <;> simp [h]
  have hp2 : p ∈ [c!",", c!"]", c!")", c!"}", c!" ", c!";"] := by
    simp only [List.mem_cons, List.not_mem_nil, or_false] at hp ⊢
    rcases hp with h | h <;> simp [h]
  obtain ⟨a, rfl, rfl, ha, ha', c, r, hc, hc'⟩ := hu
  obtain ⟨b, rfl, rfl, hb, hb', d, q, hd, hd'⟩ := hv
  refine ⟨a ++ pw p :: (.whitespace, c!" ") :: b, ?_, ?_, ?_, ?_, ?_⟩
  · rw [textOf_append, textOf_cons, textOf_cons]; rfl
  · rw [List.filter_append, filter_solid rfl, List.filter_cons, if_neg (by decide)]
  · intro r hr
    refine .append (ha _ ?_) ⟨.punct hp1, ?_, lineTo_space (hb r hr) hd hd'⟩
    · rw [textOf_cons, List.append_assoc]
      exact stops_punct hp2 _
    · intro _
      exact stops_space _
  · exact ha'.join not_clash_right (.cons not_clash_left (.cons not_clash_space hb'))
  · exact ⟨c, r ++ (p ++ ' ' :: textOf b), by rw [hc]; rfl, hc'⟩

/-- punctuation that may touch what follows, before a text -/
theorem before {u : List Word} {s p : Str} {c : Char} (hp : p = [c])
    (hc : [c] ∈ [c!"(", c!"[", c!"{", c!"'"]) (hu : Piece u s) : Piece (pw p :: u) (c :: s) := by
  subst hp
  obtain ⟨a, rfl, rfl, ha, ha', -⟩ := hu
  have h : ∀ q ∈ [c!"(", c!"[", c!"{", c!"'"], q ∈ [c!"(", c!")", c!"[", c!"]", c!"{", c!"}", c!"'",
      c!",", c!";", c!"=", c!"->", c!"~>"] ∧ q ∉ [c!"=", c!"->", c!"~>"] ∧ ∀ c ∈ q, c ∉ spaceChars := by
    decide
  obtain ⟨h1, h2, h3⟩ := h _ hc
  exact ⟨pw [c] :: a, rfl, filter_solid rfl _, fun r hr => ⟨.punct h1, fun hm => absurd hm h2, ha r hr⟩,
    .cons not_clash_left ha', c, _, rfl, h3 c (by simp)⟩

/-- closing punctuation after a text -/
theorem after {u : List Word} {s p : Str} {c : Char} (hp : p = [c])
    (hc : [c] ∈ [c!")", c!"]", c!"}"]) (hu : Piece u s) : Piece (u ++ [pw p]) (s ++ [c]) := by
  subst hp
  obtain ⟨a, rfl, rfl, ha, ha', d, q, hd, hd'⟩ := hu
  have h : ∀ q ∈ [c!")", c!"]", c!"}"], q ∈ [c!"(", c!")", c!"[", c!"]", c!"{", c!"}", c!"'",
      c!",", c!";", c!"=", c!"->", c!"~>"] ∧ q ∉ [c!"=", c!"->", c!"~>"] ∧
      q ∈ [c!",", c!"]", c!")", c!"}", c!" ", c!";"] := by decide
  obtain ⟨h1, h2, h3⟩ := h _ hc
  refine ⟨a ++ [pw [c]], ?_, ?_, ?_, ?_, ?_⟩
  · rw [textOf_append]; simp [textOf, pw]
  · rw [List.filter_append, filter_solid rfl]; rfl
  · intro r _
    refine .append (ha _ ?_) ⟨.punct h1, fun hm => absurd hm h2, trivial⟩
    rw [textOf_cons, List.append_assoc]
    exact stops_punct h3 _
  · exact ha'.join not_clash_right (.singleton _)
  · exact ⟨d, q ++ [c], by rw [hd]; rfl, hd'⟩

theorem punct {p : Str} (hp : p ∈ [c!"(", c!")", c!"[", c!"]", c!"{", c!"}", c!"'", c!",", c!";", c!"=",
    c!"->", c!"~>"]) : Piece [pw p] p := by
  have h : ∀ q ∈ [c!"(", c!")", c!"[", c!"]", c!"{", c!"}", c!"'", c!",", c!";", c!"=", c!"->",
      c!"~>"], ∃ c r, q = c :: r ∧ c ∉ spaceChars := by
    simp only [List.forall_mem_cons]
    refine ⟨⟨_, _, rfl, by decide⟩, ⟨_, _, rfl, by decide⟩, ⟨_, _, rfl, by decide⟩, ⟨_, _, rfl, by decide⟩,
      ⟨_, _, rfl, by decide⟩, ⟨_, _, rfl, by decide⟩, ⟨_, _, rfl, by decide⟩, ⟨_, _, rfl, by decide⟩,
      ⟨_, _, rfl, by decide⟩, ⟨_, _, rfl, by decide⟩, ⟨_, _, rfl, by decide⟩, ⟨_, _, rfl, by decide⟩,
      by simp⟩
  exact word (w := pw p) (.punct hp) (fun r hr _ => hr) rfl (h p hp)

theorem name {x : Str} (h : Lexeme (.symbol, x)) : Piece [(.symbol, x)] x := by
  obtain ⟨_, c, r, h2, h3⟩ := lexeme_symbol h
  exact word (w := (.symbol, x)) h (fun r hr => hr) rfl ⟨c, r, h2, name_not_space h3⟩

theorem op {s : Str} (h : s ∈ opNames) : Piece [ow s] s := by
  have hn : s ≠ [] ∧ ∀ c ∈ s, c ∉ spaceChars :=
    (show ∀ s ∈ opNames, s ≠ [] ∧ ∀ c ∈ s, c ∉ spaceChars by decide) s h
  refine word (w := ow s) (.op (List.mem_cons_of_mem _ h)) (fun r hr _ => hr) rfl ?_
  obtain ⟨c, r, rfl⟩ := List.exists_cons_of_ne_nil hn.1
  exact ⟨c, r, rfl, hn.2 c (by simp)⟩

theorem keyword {s : Str} (h : s ∈ [c!"None", c!"then", c!"else", c!"let", c!"for", c!"if", c!"in"]) :
    Piece [kw s] s := by
  have hn : s ≠ [] ∧ ∀ c ∈ s, c ∉ spaceChars :=
    (show ∀ s ∈ [c!"None", c!"then", c!"else", c!"let", c!"for", c!"if", c!"in"],
      s ≠ [] ∧ ∀ c ∈ s, c ∉ spaceChars by decide) s h
  refine word (w := kw s) (.keyword h) (fun r hr => hr) rfl ?_
  obtain ⟨c, r, rfl⟩ := List.exists_cons_of_ne_nil hn.1
  exact ⟨c, r, rfl, hn.2 c (by simp)⟩

theorem reads {u : List Word} {s : Str} (h : Piece u s) : Words s u := by
  obtain ⟨ws, rfl, rfl, h1, h2, -⟩ := h
  exact ⟨ws, Lex.reads_line (h1 [] stops_nil).line h2.split, rfl⟩

end Piece

/-- The printed form of `e` is read as `reread e`, at this place. -/
def Reads2 (P : Plat) (e : Expr) : Prop := ∃ u, Piece u (debug P e) ∧ G P .two u (reread e)

def ReadsExpr (P : Plat) (e : Expr) : Prop := ∃ u, Piece u (debug P e) ∧ G P .expr u (reread e)

def ReadsIn (P : Plat) : Place → Expr → Prop
  | .operand => Reads2 P
  | .stmt => ReadsExpr P

theorem G.cmp_of_two {P : Plat} {u : List Word} {x : Expr} (h : G P .two u x) : G P .cmp u x :=
  .rel (.sum (.prod (.two h)))

theorem G.ne {P : Plat} {k : NT} {u : List Word} {v : k.Val} (h : G P k u v) : k ≠ .stmts → u ≠ [] := by
  induction h <;> simp_all

theorem G.stmts_ne {P : Plat} {u : List Word} {l : List Expr} (h : G P .stmts u l) (hl : l ≠ []) :
    u ≠ [] := by
  cases h with
  | done => exact absurd rfl hl
  | last h => exact G.ne h (by simp)
  | stmt => simp
  | ctrlStmt h => simp [G.ne h (by simp)]

theorem reads_items {P : Plat} : ∀ {l : List Expr}, l ≠ [] → (∀ e ∈ l, ReadsExpr P e) →
    ∃ u, Piece u (joinStr c!", " (debugList P l)) ∧ G P .items u (rereads l)
  | [], h, _ => absurd rfl h
  | [e], _, h => by
    obtain ⟨u, h1, h2⟩ := h e (by simp)
    exact ⟨u, h1, .item h2⟩
  | e :: f :: l, _, h => by
    obtain ⟨u, h1, h2⟩ := h e (by simp)
    obtain ⟨v, h3, h4⟩ := reads_items (l := f :: l) (by simp) fun x hx => h x (by simp [hx])
    refine ⟨_, ?_, .items h2 h4⟩
    have := h1.sep (p := c!",") (by decide) h3
    simpa [debugList, joinStr] using this

theorem reads_stmts {P : Plat} : ∀ {l : List Expr}, l ≠ [] → (∀ e ∈ l, ReadsExpr P e) →
    ∃ u, Piece u (joinStr c!"; " (debugList P l)) ∧ G P .stmts u (rereads l)
  | [], h, _ => absurd rfl h
  | [e], _, h => by
    obtain ⟨u, h1, h2⟩ := h e (by simp)
    exact ⟨u, h1, .last h2⟩
  | e :: f :: l, _, h => by
    obtain ⟨u, h1, h2⟩ := h e (by simp)
    obtain ⟨v, h3, h4⟩ := reads_stmts (l := f :: l) (by simp) fun x hx => h x (by simp [hx])
    refine ⟨_, ?_, .stmt h2 h4⟩
    have := h1.sep (p := c!";") (by decide) h3
    simpa [debugList, joinStr] using this

theorem reads_args {P : Plat} : ∀ {l : List Expr}, l ≠ [] → (∀ e ∈ l, Reads2 P e) →
    ∃ u, Piece u (joinStr c!" " (debugList P l)) ∧ G P .args u (rereads l)
  | [], h, _ => absurd rfl h
  | [e], _, h => by
    obtain ⟨u, h1, h2⟩ := h e (by simp)
    exact ⟨u, h1, .arg (G.cmp_of_two h2)⟩
  | e :: f :: l, _, h => by
    obtain ⟨u, h1, h2⟩ := h e (by simp)
    obtain ⟨v, h3, h4⟩ := reads_args (l := f :: l) (by simp) fun x hx => h x (by simp [hx])
    refine ⟨_, ?_, .args (G.cmp_of_two h2) h4⟩
    have := h1.space h3
    simpa [debugList, joinStr] using this

/-- `{ …; … }`, with at least one statement -/
theorem reads_block {P : Plat} {l : List Expr} (hl : l ≠ []) (h : ∀ e ∈ l, ReadsExpr P e) :
    ∃ u, u ≠ [] ∧ Piece (pw c!"{" :: (u ++ [pw c!"}"])) (debug P (.do_ l)) ∧
      G P .stmts u (rereads l) := by
  obtain ⟨u, h1, h2⟩ := reads_stmts hl h
  refine ⟨u, ?_, ?_, h2⟩
  · rintro rfl
    obtain ⟨e, l, rfl⟩ := List.exists_cons_of_ne_nil hl
    exact G.stmts_ne h2 (by simp [rereads]) rfl
  · have := (Piece.punct (p := c!"{") (by decide)).space (h1.space (Piece.punct (p := c!"}") (by decide)))
    simpa [debug] using this

theorem reads_word {P : Plat} {e : Expr} {k : TokenKind} (he : reread e = e)
    (hl : Lexeme (k, debug P e)) (hs : ∀ r, Stops r → EndsAt (k, debug P e) r)
    (hk : Spec.isSolid (k, debug P e) = true) (hc : ∃ c r, debug P e = c :: r ∧ c ∉ spaceChars)
    (hg : G P .base [(k, debug P e)] e) : Reads2 P e :=
  ⟨_, Piece.word (w := (k, debug P e)) hl hs hk hc, by rw [he]; exact .base hg⟩

theorem reads_printable {P : Plat} {k : Place} {e : Expr} (h : ShownCode P k e) : ReadsIn P k e := by
  induction h with
  | int n =>
    obtain ⟨h1, h2⟩ := intToStr_lexeme n
    refine reads_word (k := .integerLiteral) rfl h1 (fun r hr => hr) rfl ?_ (.atom (.int h2))
    rw [debug]
    generalize hz : n.val = z
    cases z with
    | ofNat k =>
      obtain ⟨d, r, h, hd, _⟩ := Lex.canonical_head (natToStr_canonical k)
      exact ⟨d, r, h, name_not_space (Lex.digit_name hd)⟩
    | negSucc k => exact ⟨'-', _, rfl, by decide⟩
  | bool b =>
    cases b with
    | true =>
      exact reads_word (k := .booleanLiteral) rfl (.bool (s := c!"True") (by simp))
        (fun r hr => hr) rfl ⟨'T', _, rfl, by decide⟩ (.atom .true_)
    | false =>
      exact reads_word (k := .booleanLiteral) rfl (.bool (s := c!"False") (by simp))
        (fun r hr => hr) rfl ⟨'F', _, rfl, by decide⟩ (.atom .false_)
  | none =>
    exact reads_word (k := .keyword) rfl (.keyword (s := c!"None") (by simp))
      (fun r hr => hr) rfl ⟨'N', _, rfl, by decide⟩ (.atom .none)
  | @str s h =>
    have hd := denotes_debug h
    exact reads_word (k := .stringLiteral) (e := .str s) rfl (.str hd) (fun _ _ => trivial) rfl
      ⟨'"', _, rfl, by decide⟩ (.atom (.str ⟨_, hd, .inr rfl⟩))
  | @name x h => exact ⟨_, Piece.name h, .base (.atom (.name (lexeme_symbol h).1))⟩
  | quote _ ih =>
    obtain ⟨u, h1, h2⟩ := ih
    exact ⟨_, h1.before (p := c!"'") rfl (by decide), .quote h2⟩
  | group _ ih =>
    obtain ⟨u, h1, h2⟩ := ih
    exact ⟨_, (h1.after (p := c!")") rfl (by decide)).before (p := c!"(") rfl (by decide),
      .base (.group h2)⟩
  | @list l h ih =>
    by_cases hl : l = []
    · subst hl
      exact ⟨_, (Piece.punct (p := c!"]") (by decide)).before (p := c!"[") rfl (by decide), .base .list0⟩
    · obtain ⟨u, h1, h2⟩ := reads_items hl ih
      exact ⟨_, (h1.after (p := c!"]") rfl (by decide)).before (p := c!"[") rfl (by decide),
        .base (.list h2)⟩
  | block hl _ ih =>
    obtain ⟨u, h1, h2, h3⟩ := reads_block hl ih
    exact ⟨_, h2, .base (.block h3 h1)⟩
  | operand _ ih =>
    obtain ⟨u, h1, h2⟩ := ih
    exact ⟨u, h1, G.expr_of_two h2⟩
  | op h => exact ⟨_, Piece.op h, .seven (.opName h)⟩
  | call _ hl _ ih ihl =>
    obtain ⟨u, h1, h2⟩ := ih
    obtain ⟨v, h3, h4⟩ := reads_args hl ihl
    have h := h1.space h3
    exact ⟨_, by simpa [debug] using h, .seven (.call h2 h4)⟩
  | opCall h hl _ ihl =>
    obtain ⟨v, h3, h4⟩ := reads_args hl ihl
    have h5 := (Piece.op h).space h3
    exact ⟨_, by simpa [debug] using h5, .seven (.opCall h h4)⟩
  | lambda hx _ ih =>
    obtain ⟨u, h1, h2⟩ := ih
    have h := (Piece.name hx).space ((Piece.punct (p := c!"->") (by decide)).space h1)
    exact ⟨_, by simpa [debug] using h,
      .lambda (lexeme_symbol hx).1 h2⟩
  | macro_ hx _ ih =>
    obtain ⟨u, h1, h2⟩ := ih
    have h := (Piece.name hx).space ((Piece.punct (p := c!"~>") (by decide)).space h1)
    exact ⟨_, by simpa [debug] using h,
      .macro_ (lexeme_symbol hx).1 h2⟩
  | @let_ x e hx _ ih =>
    obtain ⟨u, h1, h2⟩ := ih
    have h := (Piece.keyword (s := c!"let") (by decide)).space
      ((Piece.name hx).space ((Piece.punct (p := c!"=") (by decide)).space h1))
    exact ⟨_, by simpa [debug] using h,
      .let_ (w := (.symbol, x)) (.inl ⟨rfl, (lexeme_symbol hx).1⟩) h2⟩
  | @letOp x e hx _ ih =>
    obtain ⟨u, h1, h2⟩ := ih
    have h := (Piece.keyword (s := c!"let") (by decide)).space
      ((Piece.op hx).space ((Piece.punct (p := c!"=") (by decide)).space h1))
    exact ⟨_, by simpa [debug] using h,
      .let_ (w := ow x) (.inr ⟨rfl, hx⟩) h2⟩
  | ite _ _ _ ihc iht ihe =>
    obtain ⟨u, h1, h2⟩ := ihc
    obtain ⟨v, h3, h4⟩ := iht
    obtain ⟨w, h5, h6⟩ := ihe
    have h := (Piece.keyword (s := c!"if") (by decide)).space
      (h1.space (h3.space ((Piece.keyword (s := c!"else") (by decide)).space h5)))
    exact ⟨_, by simpa [debug] using h,
      .ctrl (.cond (.iteElse (.cmp (G.cmp_of_two h2)) (.prod (.two h4)) (.prod (.two h6))))⟩
  | @for_ x l s hx _ _ ihl ihs =>
    obtain ⟨u, h1, h2⟩ := ihl
    have hb : ∃ v, Piece (pw c!"{" :: (v ++ [pw c!"}"])) (debug P (.do_ s)) ∧
        G P .stmts v (rereads s) := by
      by_cases hs : s = []
      · subst hs
        refine ⟨[], ?_, .done⟩
        refine ⟨[pw c!"{", (.whitespace, c!"  "), pw c!"}"], rfl, rfl, fun r hr => ?_, ?_, '{', _, rfl,
          by decide⟩
        · refine ⟨.punct (by decide), fun hm => absurd hm (by decide), .space (by simp) (by decide), ?_,
            .punct (by decide), fun hm => absurd hm (by decide), trivial⟩
          rintro c r h
          rw [← (List.cons.inj h).1]
          decide
        · exact .cons not_clash_left (.cons not_clash_space (.singleton _))
      · obtain ⟨v, -, h3, h4⟩ := reads_block hs ihs
        exact ⟨v, h3, h4⟩
    obtain ⟨v, h3, h4⟩ := hb
    have h := (Piece.keyword (s := c!"for") (by decide)).space
      ((Piece.name hx).space ((Piece.keyword (s := c!"in") (by decide)).space (h1.space h3)))
    exact ⟨_, by simpa [debug] using h,
      .ctrl (.for_ (lexeme_symbol hx).1 (.prod (.two h2)) h4)⟩

end Dune
