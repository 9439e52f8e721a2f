import Verif.Proof.Grammar
import Verif.Spec.Demo

/-! Properties C11, C13 and C67: the grammar of the language. -/

namespace Dune.Props

open Parse Spec

/-- C67: a text whose words form a script of the grammar is accepted, and parses to exactly the
statements the grammar assigns to it. -/
theorem C67_grammar {P : Plat} {src : Str} {ws : List Word} {l : List Expr} (hw : Words src ws)
    (h : G P .stmts ws l) : parseText P src = .ok (.do_ l) := by
  obtain ⟨i, hi, hp, _⟩ := parseScript_words (P := P) hw
  rw [parseText, hp, scriptN_of_stmts (C := ⟨P, ⟨utf8Len src, utf8Len src⟩⟩) h hi]

/-- C67: the grammar is unambiguous. -/
theorem C67_unambiguous {P : Plat} {ws : List Word} {l l' : List Expr} (h : G P .stmts ws l)
    (h' : G P .stmts ws l') : l = l' := by
  let i : List Tok := ws.map fun w => ⟨w.1, w.2, ⟨0, 0⟩⟩
  have hi : i.map Tok.word = ws := by
    simp only [i, List.map_map]
    exact (List.map_congr_left fun _ _ => rfl).trans (List.map_id ws)
  have h1 := scriptN_of_stmts (C := ⟨P, ⟨0, 0⟩⟩) h hi
  rw [scriptN_of_stmts (C := ⟨P, ⟨0, 0⟩⟩) h' hi] at h1
  simp only [Result.ok.injEq, Expr.do_.injEq] at h1
  exact h1.symm

/-- `let f = x -> x + 1; for i in 1 to 3 { echo i } [1, 2] | f 'y` -/
private abbrev demo : List Word :=
  [kw c!"let", (.symbol, c!"f"), pw c!"=", (.symbol, c!"x"), pw c!"->", (.symbol, c!"x"), ow c!"+",
    (.integerLiteral, c!"1"), pw c!";", kw c!"for", (.symbol, c!"i"), kw c!"in",
    (.integerLiteral, c!"1"), ow c!"to", (.integerLiteral, c!"3"), pw c!"{", (.symbol, c!"echo"),
    (.symbol, c!"i"), pw c!"}", pw c!"[", (.integerLiteral, c!"1"), pw c!",",
    (.integerLiteral, c!"2"), pw c!"]", ow c!"|", (.symbol, c!"f"), pw c!"'", (.symbol, c!"y")]

private theorem demo_int (P : Plat) (d : Char) (n : I64) (h : parseI64 [d] = some n) :
    G P .two [(.integerLiteral, [d])] (Expr.int n) := .base (.atom (.int h))

private theorem demo_sym (P : Plat) {x : Str} (h : x ∉ reserved) :
    G P .two [(.symbol, x)] (Expr.symbol x) := .base (.atom (.name h))

set_option maxRecDepth 100000 in
example : Words c!"let f = x -> x + 1; for i in 1 to 3 { echo i } [1, 2] | f 'y" demo ∧
    G Demo.plat .stmts demo
      [.assign c!"f" (.lambda c!"x" (infix_ c!"+" (.symbol c!"x") (.int (I64.lit 1))) [] []),
        .for_ c!"i" (.apply (.symbol c!"to") [.int (I64.lit 1), .int (I64.lit 3)])
          (.do_ [.apply (.symbol c!"echo") [.symbol c!"i"]]),
        .group (.apply (.symbol c!"|") [.list [.int (I64.lit 1), .int (I64.lit 2)],
          .apply (.symbol c!"f") [.quote (.symbol c!"y")]])] := by
  refine ⟨words_of_attach (ts := _) (ds := _) rfl (by simp) rfl rfl rfl, ?_⟩
  have one : G Demo.plat .two [(.integerLiteral, c!"1")] (Expr.int (I64.lit 1)) :=
    demo_int _ _ _ (by decide)
  have two : G Demo.plat .two [(.integerLiteral, c!"2")] (Expr.int (I64.lit 2)) :=
    demo_int _ _ _ (by decide)
  have three : G Demo.plat .two [(.integerLiteral, c!"3")] (Expr.int (I64.lit 3)) :=
    demo_int _ _ _ (by decide)
  have sum {u : List Word} {x : Expr} (h : G Demo.plat .two u x) : G Demo.plat .sum u x :=
    .prod (.two h)
  have cmp {u : List Word} {x : Expr} (h : G Demo.plat .two u x) : G Demo.plat .cmp u x :=
    .rel (.sum (sum h))
  have expr {u : List Word} {x : Expr} (h : G Demo.plat .sum u x) : G Demo.plat .expr u x :=
    .seven (.noCall (.cmp (.rel (.sum h))))
  refine .stmt (u := [_, _, _, _, _, _, _, _]) (.let_ (w := (.symbol, _)) (.inl ⟨rfl, by decide⟩)
    (.lambda (x := c!"x") (by decide)
      (expr (.add (u := [_]) (op := c!"+") (sum (demo_sym _ (by decide))) (by decide) (.two one))))) ?_
  refine .ctrlStmt (u := [_, _, _, _, _, _, _, _, _, _]) (.forRange (u := [_]) (v := [_]) (b := [_, _])
    (by decide) (sum one) (sum three) (.last (.seven (.call (u := [_]) (demo_sym _ (by decide))
      (.arg (cmp (demo_sym _ (by decide)))))))) (.last ?_) ?_
  · exact .pipe (u := [_, _, _, _, _]) (.noCall (.cmp (cmp (.base (.list (u := [_, _, _])
      (.items (u := [_]) (expr (sum one)) (.item (expr (sum two))))))))) (.pipe1 (op := c!"|") (by decide) (.call (u := [_])
        (demo_sym _ (by decide)) (.arg (cmp (.quote (demo_sym _ (by decide)))))))
  · rintro w r he
    simp only [List.cons.injEq] at he
    rw [← he.1]
    decide

/-- `sort << p >> q | x -> x@+@y` -/
private abbrev demoPipe : List Word :=
  [(.symbol, c!"sort"), ow c!"<<", (.symbol, c!"p"), ow c!">>", (.symbol, c!"q"), ow c!"|",
    (.symbol, c!"x"), pw c!"->", (.symbol, c!"x"), ow c!"@", ow c!"+", ow c!"@", (.symbol, c!"y")]

set_option maxRecDepth 100000 in
-- redirections, a function as the last stage, and a field named by an operator
example : Words c!"sort << p >> q | x -> x @ + @ y" demoPipe ∧
    G Demo.plat .stmts demoPipe
      [.group (.apply (.symbol c!"|") [.apply (.symbol c!"<<") [.symbol c!"p"], .symbol c!"sort",
        .apply (.symbol c!">>") [.symbol c!"q"],
        .lambda c!"x" (.apply (.symbol c!"@") [.symbol c!"x", .symbol c!"+", .symbol c!"y"])
          [] []])] := by
  refine ⟨words_of_attach (ts := _) (ds := _) rfl (by simp) rfl rfl rfl, ?_⟩
  have seven {u : List Word} {x : Expr} (h : G Demo.plat .two u x) : G Demo.plat .seven u x :=
    .noCall (.cmp (.rel (.sum (.prod (.two h)))))
  exact .last (.pipe (u := [_]) (l := [(c!"<<", _), (c!">>", _), (c!"|", _)])
    (seven (demo_sym _ (by decide)))
    (.pipes (op := c!"<<") (v := [_]) (by decide) (seven (demo_sym _ (by decide)))
      (.pipes (op := c!">>") (v := [_]) (by decide) (seven (demo_sym _ (by decide)))
        (.pipeLast (op := c!"|") (by decide) (.stageLambda (x := c!"x") (by decide)
          (.seven (seven (.access (u := [_]) (.atom (.name (by decide)))
            (.fieldsOp (op := c!"+") (by decide) (.field (.atom (.name (by decide)))))))))))))

/-! ### Chains -/

private theorem chain {P : Plat} {k : NT} {V : Expr → k.Val} {ops : List Str}
    {Item : List Word → Expr → Prop}
    (step : ∀ {u x op v y}, G P k u (V x) → op ∈ ops → Item v y →
      G P k (u ++ ow op :: v) (V (infix_ op x y)))
    (l : List (Str × List Word × Expr)) :
    ∀ {u x}, G P k u (V x) → (∀ p ∈ l, p.1 ∈ ops ∧ Item p.2.1 p.2.2) →
      G P k (chainWords u l) (V (chainValue x l)) := by
  induction l with
  | nil =>
    intro u x h _
    simpa [chainWords, chainValue] using h
  | cons p l ih =>
    intro u x h hl
    simp only [List.forall_mem_cons] at hl
    have := ih (step h hl.1.1 hl.1.2) hl.2
    simpa [chainWords, chainValue] using this

/-- C11: a chain of `*`, `//` and `%` groups to the left. -/
theorem C11_products {P : Plat} {src : Str} {u : List Word} {x : Expr}
    {l : List (Str × List Word × Expr)} (hw : Words src (chainWords u l)) (h : G P .two u x)
    (hl : ∀ p ∈ l, p.1 ∈ mulOps ∧ G P .two p.2.1 p.2.2) :
    parseText P src = .ok (.do_ [chainValue x l]) :=
  C67_grammar hw (.last (.seven (.noCall (.cmp (.rel (.sum (.prod
    (chain (V := id) (Item := fun v y => G P .two v y) (fun h1 h2 h3 => .mul h1 h2 h3) l
      (.two h) hl))))))))

/-- C11: a chain of `+` and `-` whose operands are products groups to the left, each product
first. -/
theorem C11_sums {P : Plat} {src : Str} {u : List Word} {x : Expr}
    {l : List (Str × List Word × Expr)} (hw : Words src (chainWords u l)) (h : G P .prod u x)
    (hl : ∀ p ∈ l, p.1 ∈ addOps ∧ G P .prod p.2.1 p.2.2) :
    parseText P src = .ok (.do_ [chainValue x l]) :=
  C67_grammar hw (.last (.seven (.noCall (.cmp (.rel (.sum
    (chain (V := id) (Item := fun v y => G P .prod v y) (fun h1 h2 h3 => .add h1 h2 h3) l
      (.prod h) hl)))))))

/-- C11: a chain of comparisons whose operands are sums groups to the left, each sum first. -/
theorem C11_comparisons {P : Plat} {src : Str} {u : List Word} {x : Expr}
    {l : List (Str × List Word × Expr)} (hw : Words src (chainWords u l)) (h : G P .sum u x)
    (hl : ∀ p ∈ l, p.1 ∈ relOps ∧ G P .sum p.2.1 p.2.2) :
    parseText P src = .ok (.do_ [chainValue x l]) :=
  C67_grammar hw (.last (.seven (.noCall (.cmp (.rel
    (chain (V := id) (Item := fun v y => G P .sum v y) (fun h1 h2 h3 => .compare h1 h2 h3) l
      (.sum h) hl))))))

/-- C11: a chain of `&&` and `||` whose operands are comparisons groups to the left, each
comparison first; neither of the two binds tighter than the other. -/
theorem C11_logic {P : Plat} {src : Str} {u : List Word} {x : Expr}
    {l : List (Str × List Word × Expr)} (hw : Words src (chainWords u l)) (h : G P .cmp u x)
    (hl : ∀ p ∈ l, p.1 ∈ logicOps ∧ G P .cmp p.2.1 p.2.2) :
    parseText P src = .ok (.do_ [chainValue x l]) :=
  C67_grammar hw (.last (.seven (.noCall
    (chain (V := id) (Item := fun v y => G P .cmp v y) (fun h1 h2 h3 => .logic h1 h2 h3) l
      (.cmp h) hl))))

set_option maxRecDepth 100000 in
/-- three operands, two operators of the same level -/
example : Words c!"a - b + 2 * c" (chainWords [(.symbol, c!"a")]
      [(c!"-", [(.symbol, c!"b")], .symbol c!"b"),
        (c!"+", [(.integerLiteral, c!"2"), ow c!"*", (.symbol, c!"c")],
          infix_ c!"*" (.int (I64.lit 2)) (.symbol c!"c"))]) ∧
    G Demo.plat .prod [(.symbol, c!"a")] (Expr.symbol c!"a") ∧
    (∀ p ∈ [(c!"-", [(.symbol, c!"b")], Expr.symbol c!"b"),
        (c!"+", [(.integerLiteral, c!"2"), ow c!"*", (.symbol, c!"c")],
          infix_ c!"*" (.int (I64.lit 2)) (.symbol c!"c"))],
      p.1 ∈ addOps ∧ G Demo.plat .prod p.2.1 p.2.2) ∧
    chainValue (.symbol c!"a") [(c!"-", [(.symbol, c!"b")], .symbol c!"b"),
        (c!"+", [(.integerLiteral, c!"2"), ow c!"*", (.symbol, c!"c")],
          infix_ c!"*" (.int (I64.lit 2)) (.symbol c!"c"))] =
      .group (.apply (.symbol c!"+") [.group (.apply (.symbol c!"-") [.symbol c!"a", .symbol c!"b"]),
        .group (.apply (.symbol c!"*") [.int (I64.lit 2), .symbol c!"c"])]) := by
  refine ⟨words_of_attach (ts := _) (ds := _) rfl (by simp) rfl rfl rfl,
    .two (demo_sym _ (by decide)), ?_, rfl⟩
  simp only [List.forall_mem_cons]
  exact ⟨⟨by decide, .two (demo_sym _ (by decide))⟩, ⟨by decide, .mul (u := [_]) (op := c!"*")
    (.two (demo_int _ _ _ (by decide))) (by decide) (demo_sym _ (by decide))⟩, by simp⟩

set_option maxRecDepth 100000 in
example : Words c!"a || b == c && d" (chainWords [(.symbol, c!"a")]
      [(c!"||", [(.symbol, c!"b"), ow c!"==", (.symbol, c!"c")],
          infix_ c!"==" (.symbol c!"b") (.symbol c!"c")),
        (c!"&&", [(.symbol, c!"d")], .symbol c!"d")]) ∧
    G Demo.plat .cmp [(.symbol, c!"b"), ow c!"==", (.symbol, c!"c")]
      (infix_ c!"==" (.symbol c!"b") (.symbol c!"c")) := by
  exact ⟨words_of_attach (ts := _) (ds := _) rfl (by simp) rfl rfl rfl,
    .rel (.compare (u := [_]) (op := c!"==") (.sum (.prod (.two (demo_sym _ (by decide)))))
      (by decide) (.prod (.two (demo_sym _ (by decide)))))⟩

/-! ### Dropped operands -/

/-- C13: an operand before `!` is dropped: `a ! b` is accepted and means the same as `! b`, whatever
`a` is. -/
theorem C13_dropped {P : Plat} {src src' : Str} {u v : List Word} {x y : Expr}
    (hw : Words src (u ++ ow c!"!" :: v)) (hw' : Words src' (ow c!"!" :: v)) (h : G P .sum u x)
    (h' : G P .sum v y) :
    parseText P src = .ok (.do_ [.apply (.symbol c!"!") [y]]) ∧ parseText P src = parseText P src' := by
  have h1 : parseText P src = .ok (.do_ [.apply (.symbol c!"!") [y]]) :=
    C67_grammar hw (.last (.seven (.noCall (.cmp (.dropped h h')))))
  have h2 : parseText P src' = .ok (.do_ [.apply (.symbol c!"!") [y]]) :=
    C67_grammar hw' (.last (.seven (.opCall (by decide) (.arg (.rel (.sum h'))))))
  exact ⟨h1, h1.trans h2.symm⟩

set_option maxRecDepth 100000 in
example : Words c!"5 ! True" ([(.integerLiteral, c!"5")] ++ ow c!"!" :: [(.booleanLiteral, c!"True")]) ∧
    Words c!"! True" (ow c!"!" :: [(.booleanLiteral, c!"True")]) ∧
    parseText Demo.plat c!"5 ! True" = .ok (.do_ [.apply (.symbol c!"!") [.bool true]]) := by
  exact ⟨words_of_attach (ts := _) (ds := _) rfl (by simp) rfl rfl rfl,
    words_of_attach (ts := _) (ds := _) rfl (by simp) rfl rfl rfl, rfl⟩

/-! ### Instances: the hypotheses can be met -/

example := C11_products (P := Demo.plat) (src := c!"6 // 4 * 2") (u := [(.integerLiteral, c!"6")])
  (l := [(c!"//", [(.integerLiteral, c!"4")], .int (I64.lit 4)), (c!"*", [(.integerLiteral, c!"2")], .int (I64.lit 2))])
  (words_of_attach (ts := _) (ds := _) rfl (by simp) rfl rfl rfl)
  (.base (.atom (.int (n := I64.lit 6) (by decide)))) (by
    simp only [List.forall_mem_cons, List.not_mem_nil, false_implies, implies_true, and_true]
    exact ⟨⟨by decide, .base (.atom (.int (by decide)))⟩, by decide, .base (.atom (.int (by decide)))⟩)

example := C11_sums (P := Demo.plat) (src := c!"6 - 4 + 2") (u := [(.integerLiteral, c!"6")])
  (l := [(c!"-", [(.integerLiteral, c!"4")], .int (I64.lit 4)), (c!"+", [(.integerLiteral, c!"2")], .int (I64.lit 2))])
  (words_of_attach (ts := _) (ds := _) rfl (by simp) rfl rfl rfl)
  (.two (.base (.atom (.int (n := I64.lit 6) (by decide))))) (by
    simp only [List.forall_mem_cons, List.not_mem_nil, false_implies, implies_true, and_true]
    exact ⟨⟨by decide, .two (.base (.atom (.int (by decide))))⟩, by decide, .two (.base (.atom (.int (by decide))))⟩)

example := C11_comparisons (P := Demo.plat) (src := c!"6 < 4 == 2") (u := [(.integerLiteral, c!"6")])
  (l := [(c!"<", [(.integerLiteral, c!"4")], .int (I64.lit 4)), (c!"==", [(.integerLiteral, c!"2")], .int (I64.lit 2))])
  (words_of_attach (ts := _) (ds := _) rfl (by simp) rfl rfl rfl)
  (.prod (.two (.base (.atom (.int (n := I64.lit 6) (by decide)))))) (by
    simp only [List.forall_mem_cons, List.not_mem_nil, false_implies, implies_true, and_true]
    exact ⟨⟨by decide, .prod (.two (.base (.atom (.int (by decide)))))⟩, by decide,
      .prod (.two (.base (.atom (.int (by decide)))))⟩)

end Dune.Props
