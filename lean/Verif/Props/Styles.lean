import Verif.Model.Parser
import Verif.Proof.Lib
import Verif.Props.Tokens

/-! C75: the module `fmt`: styled text, and what remains of it when the styles are removed. -/

namespace Dune.Props

open Spec

/-- `m@s@f args` -/
abbrev call2 (m s f : Str) (args : List Expr) : Expr :=
  .apply (.apply (.symbol c!"@") [.symbol m, .symbol s, .symbol f]) args

set_option maxRecDepth 100000 in
example : parseText Demo.plat c!"fmt@dark@red 1" =
    .ok (.do_ [call2 c!"fmt" c!"dark" c!"red" [.int (.lit 1)]]) := rfl

/-- ANSI: `ESC [ code m` selects a style, `ESC [ m` and `ESC [ 0 m` go back to plain text. -/
def inStyle (code text : Str) : Str :=
  c!"\x1b[" ++ code ++ c!"m" ++ text ++ c!"\x1b[m\x1b[0m"

/-- The style functions of `fmt` and the ANSI codes of their styles. -/
def styles : List (Str × Str) := [
  (c!"bold", c!"1"), (c!"faint", c!"2"), (c!"italics", c!"3"), (c!"underline", c!"4"),
  (c!"blink", c!"5"), (c!"invert", c!"7"), (c!"strike", c!"9"), (c!"black", c!"90"),
  (c!"red", c!"91"), (c!"green", c!"92"), (c!"yellow", c!"93"), (c!"blue", c!"94"),
  (c!"magenta", c!"95"), (c!"cyan", c!"96"), (c!"white", c!"97")]

/-- The style functions of `fmt@dark`, without `white`. -/
def darkStyles : List (Str × Str) := [
  (c!"black", c!"30"), (c!"red", c!"31"), (c!"green", c!"32"), (c!"yellow", c!"33"),
  (c!"blue", c!"34"), (c!"magenta", c!"35"), (c!"cyan", c!"36")]

section

variable {W : Type} {P : Plat} {H : Host W} {L : Lib} {n : Nat} {env env1 env2 : Env}
  {w w1 w2 : W}

/-! ### Helper lemmas -/

theorem style_mem {p : Str × Str} (h : p ∈ styles) : Init.style p.1 p.2 ∈ Init.fmtM := by
  have : ∀ p ∈ styles, Init.style p.1 p.2 ∈ Init.fmtM := by
    simp only [styles, List.forall_mem_cons, List.not_mem_nil, false_imp_iff, implies_true, and_true]
    refine ⟨?_, ?_, ?_, ?_, ?_, ?_, ?_, ?_, ?_, ?_, ?_, ?_, ?_, ?_, ?_⟩ <;> mem_tac
  exact this p h

theorem dark_get {p : Str × Expr} (h : p ∈ Init.darkM) :
    BMap.get? (BMap.ofList Init.darkM) p.1 = some p.2 := by
  have : ∀ p ∈ Init.darkM, BMap.get? (BMap.ofList Init.darkM) p.1 = some p.2 := by
    simp only [Init.darkM, List.forall_mem_cons, List.not_mem_nil, false_imp_iff, implies_true,
      and_true]
    refine ⟨?_, ?_, ?_, ?_, ?_, ?_, ?_, ?_⟩ <;> rfl
  exact this p h

theorem darkStyle_mem {p : Str × Str} (h : p ∈ darkStyles) : Init.style p.1 p.2 ∈ Init.darkM := by
  have : ∀ p ∈ darkStyles, Init.style p.1 p.2 ∈ Init.darkM := by
    simp only [darkStyles, List.forall_mem_cons, List.not_mem_nil, false_imp_iff, implies_true,
      and_true]
    refine ⟨?_, ?_, ?_, ?_, ?_, ?_, ?_⟩ <;> mem_tac
  exact this p h

/-- a call of a member of `fmt@dark` -/
theorem eval_dark {f nm hlp : Str} {id : BId} {args : List Expr} (hs : Std env)
    (hf : (f, Expr.builtin nm id hlp) ∈ Init.darkM) :
    evalN P H (stdB P L) (n + 1) (call2 c!"fmt" c!"dark" f args) env w =
      evalN P H (stdB P L) (n + 1) (.apply (.builtin nm id hlp) args) env w := by
  refine evalN_call n ?_ (env1 := env) (w1 := w)
  obtain ⟨t, ht, h⟩ := hs.mod (c!"fmt", Init.fmtM) (by mem_tac)
  have ht' : env.get c!"fmt" = some (.map t) := ht
  have hat : env.get c!"@" = some (.builtin c!"@" .index []) :=
    hs.op (Init.b c!"@" .index) (by mem_tac)
  have hd : t.get? c!"dark" = some (.map (BMap.ofList Init.darkM)) :=
    h (c!"dark", .map (BMap.ofList Init.darkM)) (by mem_tac)
  have hg : BMap.get? (BMap.ofList Init.darkM) f = some (.builtin nm id hlp) := dark_get hf
  rw [evalD]
  simp only [evalStep]
  rw [M.bind_ok (evalD_symbol hat)]
  simp only [applyValue, bodyRun, stdB, Builtins.indexB, Builtins.evArg, Builtins.arg,
    List.getElem?_cons_zero, BProg.run_bind, BProg.run_ret, pure_bind, BProg.run_ev, List.tail_cons,
    Builtins.indexLoop]
  rw [M.bind_ok (evalN_sym ht')]
  simp only [Expr.index, hd, Option.getD_some, hg]
  rfl

theorem run_style {ev0 : Expr → M W Expr} {code : Str} {a v : Expr} (more : List Expr)
    (ha : ev0 a env w = (.ok v, env1, w1)) :
    (Builtins.styleB P code Highlight.reset (a :: more)).run H ev0 env w =
      (.ok (.str (inStyle code (display P v))), env1, w1) := by
  brun [Builtins.styleB, ha, inStyle, Highlight.color, Highlight.reset]
  rfl

theorem stripAnsi_inStyle {code : Str} (h : ∀ c ∈ code, c.isDigit = true) (text : Str) :
    stripAnsi (inStyle code text) = stripAnsi text := by
  have := C05_styled (code := code) (fun h' => absurd (h _ h') (by decide))
    (fun h' => absurd (h _ h') (by decide)) text
  rw [← this]
  simp [inStyle, Highlight.color, Highlight.reset]
  rfl

theorem styles_digits {p : Str × Str} (h : p ∈ styles ∨ p ∈ darkStyles) :
    ∀ c ∈ p.2, c.isDigit = true := by
  have h1 : ∀ p ∈ styles ++ darkStyles, ∀ c ∈ p.2, c.isDigit = true := by decide
  exact h1 p (List.mem_append.2 h)

/-! ### Styles -/

/-- C75.  Every style function shows its argument in its style. -/
theorem C75_style (hs : Std env) {p : Str × Str} (hp : p ∈ styles) {a v : Expr} (more : List Expr)
    (ha : evalN P H (stdB P L) n a env w = (.ok v, env1, w1)) :
    evalN P H (stdB P L) (n + 1) (call c!"fmt" p.1 (a :: more)) env w =
      (.ok (.str (inStyle p.2 (display P v))), env1, w1) := by
  rw [eval_lib hs (tbl := Init.fmtM) (by mem_tac) (style_mem hp), evalN_builtin]
  exact run_style more ha

/-- C75.  The same for the dark colours, except white. -/
theorem C75_dark (hs : Std env) {p : Str × Str} (hp : p ∈ darkStyles) {a v : Expr}
    (more : List Expr) (ha : evalN P H (stdB P L) n a env w = (.ok v, env1, w1)) :
    evalN P H (stdB P L) (n + 1) (call2 c!"fmt" c!"dark" p.1 (a :: more)) env w =
      (.ok (.str (inStyle p.2 (display P v))), env1, w1) := by
  rw [eval_dark hs (darkStyle_mem hp), evalN_builtin]
  exact run_style more ha

/-- C75.  `fmt@dark@white` ends its text with garbage, `k[0m`. -/
theorem C75_dark_white (hs : Std env) {a v : Expr} (more : List Expr)
    (ha : evalN P H (stdB P L) n a env w = (.ok v, env1, w1)) :
    evalN P H (stdB P L) (n + 1) (call2 c!"fmt" c!"dark" c!"white" (a :: more)) env w =
      (.ok (.str (c!"\x1b[37m" ++ display P v ++ c!"\x1b[mk[0m")), env1, w1) := by
  rw [eval_dark hs (nm := c!"white") (id := .tDarkWhite) (hlp := []) (by mem_tac)]
  brun [Builtins.styleB, ha, Highlight.color]
  rfl

/-- C75.  Without an argument every style function crashes the shell. -/
theorem C75_no_argument (hs : Std env) {f : Str} (hf : f ∈ styles.map Prod.fst) :
    evalN P H (stdB P L) (n + 1) (call c!"fmt" f []) env w = (.panic, env, w) := by
  obtain ⟨p, hp, rfl⟩ := List.mem_map.1 hf
  rw [eval_lib hs (tbl := Init.fmtM) (by mem_tac) (style_mem hp), evalN_builtin]
  rfl

/-! ### Removing styles -/

/-- C75.  `fmt@strip` removes every style: what was styled comes out as it would without the style. -/
theorem C75_strip_style (hs : Std env) {p : Str × Str} (hp : p ∈ styles) {a v : Expr}
    (more : List Expr) (ha : evalN P H (stdB P L) n a env w = (.ok v, env1, w1)) :
    evalN P H (stdB P L) (n + 2) (call c!"fmt" c!"strip" [call c!"fmt" p.1 (a :: more)]) env w =
      (.ok (.str (stripAnsi (display P v))), env1, w1) := by
  have h := C75_style (L := L) hs hp more ha
  have hd : ∀ s, display P (.str s) = s := fun _ => rfl
  lib hs, Init.fmtM
  brun [Builtins.stripB, h, hd, stripAnsi_inStyle (styles_digits (.inl hp))]

/-- A text under any number of styles, one inside the other, whose parts may be styled as well. -/
inductive Styled : Str → Str → Prop
  | plain (s : Str) : '\x1b' ∉ s → Styled s s
  | style {code s t : Str} : (∀ c ∈ code, c.isDigit = true) → Styled s t → Styled (inStyle code s) t
  | append {s t s' t' : Str} : Styled s t → Styled s' t' → Styled (s ++ s') (t ++ t')

theorem strip_styled {s t : Str} (h : Styled s t) : stripAnsi s = t := by
  have key : ∀ {s t : Str}, Styled s t → ∀ x, stripGo false (s ++ x) = t ++ stripGo false x := by
    intro s t h
    induction h with
    | plain s h => exact stripGo_noEsc h
    | @style code s t hc _ ih =>
      intro x
      have e : inStyle code s ++ x = Highlight.color code ++ (s ++ (Highlight.color [] ++
          (Highlight.color c!"0" ++ x))) := by
        simp [inStyle, Highlight.color]
        rfl
      rw [e, stripGo_color (fun h' => absurd (hc _ h') (by decide))
        (fun h' => absurd (hc _ h') (by decide)), ih, stripGo_color (by decide) (by decide),
        stripGo_color (by decide) (by decide)]
    | append _ _ ih1 ih2 =>
      intro x
      rw [List.append_assoc, ih1, ih2, List.append_assoc]
  simpa [stripAnsi, stripGo] using key h []

/-- C75.  However text was put together from plain and styled parts, stripping gives the plain text. -/
theorem C75_strip_styled (hs : Std env) {a : Expr} {s t : Str} (h : Styled s t)
    (ha : evalN P H (stdB P L) n a env w = (.ok (.str s), env1, w1)) :
    evalN P H (stdB P L) (n + 1) (call c!"fmt" c!"strip" [a]) env w = (.ok (.str t), env1, w1) := by
  have hd : ∀ s, display P (.str s) = s := fun _ => rfl
  lib hs, Init.fmtM
  brun [Builtins.stripB, ha, hd, strip_styled h]

/-- C75.  What stripping gives never contains an escape character, whatever it is applied to. -/
theorem C75_strip_clean (hs : Std env) {a v : Expr}
    (ha : evalN P H (stdB P L) n a env w = (.ok v, env1, w1)) :
    ∃ t, evalN P H (stdB P L) (n + 1) (call c!"fmt" c!"strip" [a]) env w =
      (.ok (.str t), env1, w1) ∧ '\x1b' ∉ t ∧ ('\x1b' ∉ display P v → t = display P v) := by
  refine ⟨stripAnsi (display P v), ?_, C05_no_escape _, C05_plain⟩
  lib hs, Init.fmtM
  brun [Builtins.stripB, ha]

/-- C75.  Stripping does not undo `fmt@dark@white`. -/
theorem C75_strip_dark_white (hs : Std env) {a v : Expr} (more : List Expr)
    (ha : evalN P H (stdB P L) n a env w = (.ok v, env1, w1)) (hv : '\x1b' ∉ display P v) :
    evalN P H (stdB P L) (n + 2)
        (call c!"fmt" c!"strip" [call2 c!"fmt" c!"dark" c!"white" (a :: more)]) env w =
      (.ok (.str (display P v ++ c!"k[0m")), env1, w1) := by
  have h := C75_dark_white (L := L) hs more ha
  have hd : ∀ s, display P (.str s) = s := fun _ => rfl
  have hk : stripAnsi (c!"\x1b[37m" ++ display P v ++ c!"\x1b[mk[0m") = display P v ++ c!"k[0m" := by
    have e : c!"\x1b[37m" ++ display P v ++ c!"\x1b[mk[0m" =
        Highlight.color c!"37" ++ (display P v ++ (Highlight.color [] ++ c!"k[0m")) := by
      simp [Highlight.color]
      rfl
    rw [stripAnsi, e, stripGo_color (by decide) (by decide), stripGo_noEsc hv,
      stripGo_color (by decide) (by decide)]
    rfl
  lib hs, Init.fmtM
  brun [Builtins.stripB]
  rw [h]
  show (Outcome.ok (Expr.str (stripAnsi (c!"\x1b[37m" ++ display P v ++ c!"\x1b[mk[0m"))), env1, w1) = _
  rw [hk]

/-! ### Links -/

/-- C75.  `fmt@href url text` is the escape sequence for a link. -/
theorem C75_href (hs : Std env) {a b u t : Expr}
    (ha : evalN P H (stdB P L) n a env w = (.ok u, env1, w1))
    (hb : evalN P H (stdB P L) n b env1 w1 = (.ok t, env2, w2)) :
    evalN P H (stdB P L) (n + 1) (call c!"fmt" c!"href" [a, b]) env w =
      (.ok (.str (c!"\x1b]8;;" ++ display P u ++ c!"\x1b\\" ++ display P t ++
        c!"\x1b]8;;\x1b\\")), env2, w2) := by
  lib hs, Init.fmtM
  brun [Builtins.hrefB, ha, hb]
  rfl

/-- C75.  Stripping a link loses the text as well (all of it, if there is no `m` in the address and
the text). -/
theorem C75_strip_href (hs : Std env) {a b u t : Expr}
    (ha : evalN P H (stdB P L) n a env w = (.ok u, env1, w1))
    (hb : evalN P H (stdB P L) n b env1 w1 = (.ok t, env2, w2))
    (hu : 'm' ∉ display P u) (ht : 'm' ∉ display P t) :
    evalN P H (stdB P L) (n + 2) (call c!"fmt" c!"strip" [call c!"fmt" c!"href" [a, b]]) env w =
      (.ok (.str []), env2, w2) := by
  have h := C75_href (L := L) hs ha hb
  have hd : ∀ s, display P (.str s) = s := fun _ => rfl
  have key : ∀ s : Str, 'm' ∉ s → stripGo true s = [] := by
    intro s
    induction s with
    | nil => intro _; rfl
    | cons c s ih =>
      intro h
      simp only [List.mem_cons, not_or] at h
      rw [stripGo]
      split
      · exact ih h.2
      rw [if_neg (by simp [Ne.symm h.1])]
      simpa using ih h.2
  have hk : stripAnsi (c!"\x1b]8;;" ++ display P u ++ c!"\x1b\\" ++ display P t ++
        c!"\x1b]8;;\x1b\\") = [] := by
    have : ∀ r : Str, stripAnsi ('\x1b' :: r) = stripGo true r := fun _ => rfl
    refine (this (c!"]8;;" ++ display P u ++ c!"\x1b\\" ++ display P t ++
        c!"\x1b]8;;\x1b\\")).trans (key _ ?_)
    simp only [List.mem_append, not_or]
    exact ⟨⟨⟨⟨by decide, hu⟩, by decide⟩, ht⟩, by decide⟩
  lib hs, Init.fmtM
  brun [Builtins.stripB]
  rw [h]
  show (Outcome.ok (Expr.str (stripAnsi (c!"\x1b]8;;" ++ display P u ++ c!"\x1b\\" ++ display P t ++
    c!"\x1b]8;;\x1b\\"))), env2, w2) = _
  rw [hk]

/-! ### Wrapping -/

/-- C75.  `fmt@wrap text columns` evaluates the number of columns first; the text is then wrapped (by
the external library) to this many columns.  The number may be zero; if it is not an integer, the
text is not evaluated. -/
theorem C75_wrap (hs : Std env) {a b v : Expr} {c : I64} (hc : 0 ≤ c.val)
    (hb : evalN P H (stdB P L) n b env w = (.ok (.int c), env1, w1))
    (ha : evalN P H (stdB P L) n a env1 w1 = (.ok v, env2, w2)) :
    evalN P H (stdB P L) (n + 1) (call c!"fmt" c!"wrap" [a, b]) env w =
      (.ok (.str (P.fill (display P v) c.val.toNat)), env2, w2) := by
  have hm : (c.val % 2 ^ 64).toNat = c.val.toNat := by
    have := c.hi
    rw [Int.emod_eq_of_lt hc (by omega)]
  lib hs, Init.fmtM
  brun [Builtins.wrapB, hb, ha]
  have : (c.val % 18446744073709551616).toNat = c.val.toNat := hm
  rw [this]

end

/-! ### Examples -/

example : (evalN Demo.plat Demo.host (stdB Demo.plat Demo.lib) 4
    (call c!"fmt" c!"strip" [call c!"fmt" c!"bold" [call2 c!"fmt" c!"dark" c!"red" [.str c!"hi"]]])
    Demo.env []).1 = .ok (.str c!"hi") := rfl

example : (evalN Demo.plat Demo.host (stdB Demo.plat Demo.lib) 4
    (call c!"fmt" c!"bold" [call2 c!"fmt" c!"dark" c!"red" [.str c!"hi"]])
    Demo.env []).1 = .ok (.str c!"\x1b[1m\x1b[31mhi\x1b[m\x1b[0m\x1b[m\x1b[0m") := rfl

example : Styled (inStyle c!"1" (c!"a " ++ inStyle c!"31" c!"b")) c!"a b" :=
  .style (by decide) (.append (s := c!"a ") (t := c!"a ") (.plain _ (by decide))
    (.style (by decide) (.plain c!"b" (by decide))))

example : (evalN Demo.plat Demo.host (stdB Demo.plat Demo.lib) 4
    (call c!"fmt" c!"strip" [call2 c!"fmt" c!"dark" c!"white" [.str c!"hi"]])
    Demo.env []).1 = .ok (.str c!"hik[0m") := rfl

example : (evalN Demo.plat Demo.host (stdB Demo.plat Demo.lib) 4
    (call c!"fmt" c!"strip" [call c!"fmt" c!"href" [.str c!"http://x.org", .str c!"click"]])
    Demo.env []).1 = .ok (.str []) := rfl

example : (evalN Demo.plat Demo.host (stdB Demo.plat Demo.lib) 4
    (call c!"fmt" c!"wrap" [.str c!"a b", .int (.lit 1)]) Demo.env []).1 = .ok (.str c!"a b") := rfl

/-! ### Instances: the hypotheses can be met -/

section

example := C75_style (P := Demo.plat) (H := Demo.host) (L := Demo.lib) (n := 0) (w := [])
  demo_std (p := styles[2]) (by simp) (a := .str c!"x") [.none] rfl

example := C75_dark (P := Demo.plat) (H := Demo.host) (L := Demo.lib) (n := 0) (w := [])
  demo_std (p := darkStyles[2]) (by simp) (a := .str c!"x") [] rfl

example := C75_no_argument (P := Demo.plat) (H := Demo.host) (L := Demo.lib) (n := 0) (w := [])
  demo_std (f := c!"bold") (by decide)

example := C75_strip_clean (P := Demo.plat) (H := Demo.host) (L := Demo.lib) (n := 0) (w := [])
  demo_std (a := .str c!"a\x1b[1mb") rfl

example := C75_strip_dark_white (P := Demo.plat) (H := Demo.host) (L := Demo.lib) (n := 0) (w := [])
  demo_std (a := .str c!"x") [] rfl (by decide)

example := C75_strip_href (P := Demo.plat) (H := Demo.host) (L := Demo.lib) (n := 0) (w := [])
  demo_std (a := .str c!"url") (b := .str c!"text") rfl rfl (by decide) (by decide)

end

example := C75_dark_white (P := Demo.plat) (H := Demo.host) (L := Demo.lib) (n := 0) (w := [])
  demo_std (a := .str c!"hi") [] rfl

example := C75_strip_style (P := Demo.plat) (H := Demo.host) (L := Demo.lib) (n := 0) (w := [])
  demo_std (p := styles[2]) (by simp) (a := .str c!"hi") [] rfl

example := C75_strip_styled (P := Demo.plat) (H := Demo.host) (L := Demo.lib) (n := 0) (w := [])
  demo_std (a := .str (inStyle c!"1" (c!"a " ++ inStyle c!"31" c!"b")))
  (.style (by decide) (.append (s := c!"a ") (t := c!"a ") (.plain _ (by decide))
    (.style (by decide) (.plain c!"b" (by decide))))) rfl

example := C75_href (P := Demo.plat) (H := Demo.host) (L := Demo.lib) (n := 0) (w := [])
  demo_std (a := .str c!"http://x.org") (b := .str c!"click") rfl rfl

end Dune.Props
