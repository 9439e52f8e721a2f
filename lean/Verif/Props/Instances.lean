import Verif.Props.DirTree
import Verif.Props.Documents
import Verif.Props.Eval
import Verif.Props.Extremes
import Verif.Props.Flatten
import Verif.Props.Floats
import Verif.Props.Fs
import Verif.Props.Join
import Verif.Props.Pipe
import Verif.Props.Styles
import Verif.Props.Tables
import Verif.Props.Tree
import Verif.Props.Aliases
import Verif.Props.Recursion
import Verif.Props.Literals
import Verif.Props.Tokens
import Verif.Props.Arith
import Verif.Props.Basics
import Verif.Props.Case
import Verif.Props.Clock
import Verif.Props.Combinators
import Verif.Props.Compare
import Verif.Props.Control
import Verif.Props.Convert
import Verif.Props.Lists
import Verif.Props.Log
import Verif.Props.Math
import Verif.Props.Numbers
import Verif.Props.Program
import Verif.Props.Strings
import Verif.Props.Sys

/-! Further instances: cases in which the hypotheses of the theorems are met. -/

namespace Dune.Props

open Spec

local notation "ev" => evalN Demo.plat Demo.host (stdB Demo.plat Demo.lib)
local notation "evd" => evalD Demo.plat Demo.host (bodyRun Demo.plat Demo.host (stdB Demo.plat Demo.lib) 4)

theorem ev_str (n : Nat) (s : Str) (env : Env) (w : List IOp) : ev n (.str s) env w = (.ok (.str s), env, w) := by
  cases n <;> rfl

theorem ev_int (n : Nat) (i : I64) (env : Env) (w : List IOp) : ev n (.int i) env w = (.ok (.int i), env, w) := by
  cases n <;> rfl

/-- `- 5`, and the smallest number -/
example : (∃ o, ev 5 (.apply (.symbol c!"-") [.int (.lit 5)]) Demo.env [] = (o, Demo.env, []) ∧
      ∃ i : I64, i.val = -5 ∧ o = .ok (.int i)) ∧
    ∃ o, ev 5 (.apply (.symbol c!"-") [.int ⟨-2 ^ 63, by decide, by decide⟩]) Demo.env [] = (o, Demo.env, []) ∧ o = .panic := by
  constructor
  · obtain ⟨o, h, h'⟩ := C33_neg (n := 4) (demo_std.op (Init.b c!"-" .sub) (by mem_tac)) (ev_int 4 (.lit 5) Demo.env [])
    exact ⟨o, h, by simpa [I64.lit] using h'⟩
  · obtain ⟨o, h, h'⟩ := C33_neg (n := 4) (demo_std.op (Init.b c!"-" .sub) (by mem_tac))
      (ev_int 4 ⟨-2 ^ 63, by decide, by decide⟩ Demo.env [])
    exact ⟨o, h, by simpa [Demo.plat] using h'⟩

/-- `3 * "ab"` -/
example : ev 5 (.apply (.symbol c!"*") [.int (.lit 3), .str c!"ab"]) Demo.env [] = (.ok (.str c!"ababab"), Demo.env, []) := by
  rw [(C34_mul_first (n := 4) (a := .int (.lit 3)) (b := .str c!"ab") (demo_std.op (_, _) (by mem_tac)) rfl rfl).1 _ rfl]
  rfl

/-- `fn@? True 1 2` -/
example : ev 5 (call c!"fn" c!"?" [.bool true, .int (.lit 1), .int (.lit 2)]) Demo.env [] =
    (.ok (.int (.lit 1)), Demo.env, []) := by
  rw [C71_conditional (n := 4) demo_std (v := .bool true) rfl]
  rfl

/-- `string@to-upper` -/
example : ev 5 (call c!"string" c!"to-upper" []) Demo.env [] = (.panic, Demo.env, []) :=
  C86_missing (n := 4) demo_std (by simp)

/-- `string@to-title "two words"` -/
example : ∃ t, ev 5 (call c!"string" c!"to-title" [.str c!"two words"]) Demo.env [] = (.ok (.str t), Demo.env, []) ∧
    t.length = 9 := by
  obtain ⟨t, h, h', -⟩ := C86_title (n := 4) demo_std (ev_str 4 c!"two words" Demo.env []) (by unfold Spec.Ascii; decide)
  exact ⟨t, h, h'⟩

/-- `console@mode@raw ()` -/
example : ev 5 (call2 c!"console" c!"mode" c!"raw" [.none]) Demo.env [] = (.ok .none, Demo.env, [.rawMode true]) :=
  (C96_mode (n := 4) demo_std [.none] (f := c!"raw") (on := true) (by simp)).1 _ rfl

theorem std_id (v : Expr) : Std (Demo.env.define c!"id" v) :=
  std_define demo_std (by decide) (by decide) (by decide)

/-- `fn@apply id [5]` -/
example : ev 5 (call c!"fn" c!"apply" [.symbol c!"id", .list [.int (.lit 5)]])
      (Demo.env.define c!"id" (.lambda c!"x" (.symbol c!"x") [] [])) [] =
    ev 4 (.apply (.lambda c!"x" (.symbol c!"x") [] []) [.int (.lit 5)])
      (Demo.env.define c!"id" (.lambda c!"x" (.symbol c!"x") [] [])) [] :=
  C73_apply (n := 4) (std_id _) rfl rfl

/-- `list@nth (-1) [1, 2]` and `list@nth 2 [1, 2]` -/
example : (∃ o, ev 5 (call c!"list" c!"nth" [.int ⟨-1, by decide, by decide⟩, .list [.int (.lit 1), .int (.lit 2)]]) Demo.env [] =
      (o, Demo.env, []) ∧ o = .ok (.int (.lit 2))) ∧
    ∃ o, ev 5 (call c!"list" c!"nth" [.int (.lit 2), .list [.int (.lit 1), .int (.lit 2)]]) Demo.env [] =
      (o, Demo.env, []) ∧ o = .panic := by
  constructor
  · obtain ⟨o, h, -, h', -⟩ := C41_nth (n := 4) demo_std (ev_int 4 ⟨-1, by decide, by decide⟩ Demo.env [])
      (x := .list [.int (.lit 1), .int (.lit 2)]) rfl
    exact ⟨o, h, h' 1 (by decide) rfl⟩
  · obtain ⟨o, h, -, -, h'⟩ := C41_nth (n := 4) demo_std (ev_int 4 (.lit 2) Demo.env [])
      (x := .list [.int (.lit 1), .int (.lit 2)]) rfl
    exact ⟨o, h, h' (by decide)⟩

/-- `string@caesar "z" 240` -/
example : ev 5 (call c!"string" c!"caesar" [.str c!"z", .int (.lit 240)]) Demo.env [] = (.panic, Demo.env, []) :=
  C49_overflow (n := 4) demo_std rfl (k := .lit 240) (by decide) (by decide) rfl rfl

/-- `math@isodd (-3)` -/
example : ev 5 (call c!"math" c!"isodd" [.int ⟨-3, by decide, by decide⟩]) Demo.env [] = (.ok (.bool false), Demo.env, []) :=
  (C50_isodd_refuted (n := 4) demo_std (i := ⟨-3, by decide, by decide⟩) (j := -2) (by decide) (by decide) rfl).1

/-- `math@pow 7 4294967296` -/
example : ev 5 (call c!"math" c!"pow" [.int (.lit 7), .int ⟨4294967296, by decide, by decide⟩]) Demo.env [] =
    (.ok (.int (.lit 1)), Demo.env, []) :=
  C51_large_refuted (n := 4) demo_std (x := .lit 7) (e := ⟨4294967296, by decide, by decide⟩) (by decide) rfl rfl

/-- `math@<< 1 64` -/
example := C69_shift_crash (P := Demo.plat) (H := Demo.host) (L := Demo.lib) (n := 4) (w := []) demo_std rfl
  (a := .int (.lit 1)) (b := .int (.lit 64)) (x := .lit 1) (y := .lit 64) (.inr (by decide)) rfl rfl

/-- `list@range 2 4` -/
example := C42_range (P := Demo.plat) (H := Demo.host) (L := Demo.lib) (n := 4) demo_std
  (ev_int 4 (.lit 2) Demo.env []) (ev_int 4 (.lit 4) Demo.env [])

/-- `int 5` and `int True` -/
example : ev 5 (.apply (.symbol c!"int") [.int (.lit 5)]) Demo.env [] = (.ok (.int (.lit 5)), Demo.env, []) ∧
    ∃ msg, ev 5 (.apply (.symbol c!"int") [.bool true]) Demo.env [] = (.err msg, Demo.env, []) := by
  constructor
  · exact C71_int_other (n := 4) demo_std (ev_int 4 (.lit 5) Demo.env []) (by simp)
  · obtain ⟨m, h⟩ := C71_int_other (n := 4) (P := Demo.plat) (H := Demo.host) (L := Demo.lib) (w := []) demo_std
      (a := .bool true) (v := .bool true) rfl (by simp)
    exact ⟨_, h⟩

/-- `False && (int True) && True`: the second part fails -/
example : ∃ e env' w', ev 5 (.apply (.symbol c!"&&") [.bool false, .apply (.symbol c!"int") [.bool true], .bool true]) Demo.env [] =
    (.err e, env', w') := by
  obtain ⟨m, h⟩ := C71_int_other (n := 3) (P := Demo.plat) (H := Demo.host) (L := Demo.lib) (w := []) demo_std
      (a := .bool true) (v := .bool true) rfl (by simp)
  exact ⟨_, _, _, C38_no_short_circuit (n := 4) (pre := [.bool false]) (vs := [.bool false]) (post := [.bool true])
    (id := .and) (by simp) (demo_std.op (_, _) (by mem_tac)) (.cons rfl .nil) h⟩

/-- `string@split " " "a b"` -/
example : ∃ ps : List Str, ev 6 (call c!"string" c!"split" [.str c!" ", .str c!"a b"]) Demo.env [] =
    (.ok (.list (ps.map .str)), Demo.env, []) ∧ ∀ p ∈ ps, ¬ Occurs c!" " p := by
  obtain ⟨ps, h, h1, -⟩ := C48_pieces (n := 4) (P := Demo.plat) (H := Demo.host) (L := Demo.lib) (w := []) demo_std
    (by rfl) (a := .str c!" ") (b := .str c!"a b") rfl rfl
  exact ⟨ps, h, h1 (by simp)⟩

/-- `fn@curry + 2 "a" "b"` -/
example := C63_curry_add (n := 4) (P := Demo.plat) (H := Demo.host) (L := Demo.lib) (w := []) demo_std (o := none)
    (by rfl) (a := .str c!"a") (b := .str c!"b") (x := c!"a") (y := c!"b") rfl rfl

/-- `log@set-level log@level@warn` -/
example := C57_set_by_name (P := Demo.plat) (L := Demo.lib) (n := 2) (w := (.lit 0, [])) demo_std demoLog_host
  (g := c!"warn") (k := .lit 2) (by mem_tac)

/-- `fs@tree "/"` -/
example := C93_root_crashes (P := Demo.plat) (H := Demo.host) (L := Demo.lib) (n := 1) (w := []) demo_std
  (a := .str c!"/") (x := c!"/") none rfl (by decide) (.absolute _ _)

/-- `fs@tree "/d"`, of a directory that cannot be read -/
example := C93_unlisted (P := Demo.plat) (H := Demo.hostNotFound) (L := Demo.lib) (n := 1) (w := []) demo_std
  (a := .str c!"/d") (x := c!"/d") (p := [c!"d"]) none rfl (by decide) (.absolute _ _) (by decide) (by decide) rfl
  (by decide)

/-- `parse@toml "="` -/
example := C82_toml_error (P := Demo.plat) (H := Demo.host) (L := Demo.lib) (n := 1) (w := []) demo_std
  (a := .str c!"=") rfl rfl

/-- `for x in 5 { x }` -/
example := C20_for_non_list (P := Demo.plat) (H := Demo.host) (B := Demo.noB) 5 c!"x" (.int (.lit 5)) (.symbol c!"x")
  (.int (.lit 5)) Demo.env Demo.env [] [] rfl (by simp)

/-- `{ for x in 5 { x }; print 1 }` -/
example := C21_block_stop (P := Demo.plat) (H := Demo.host) (B := Demo.noB) 5 [.for_ c!"x" (.int (.lit 5)) .none]
  [.apply (.symbol c!"print") [.int (.lit 1)]] (by simp) Demo.env _ [] _ (.err (.forNonList (.int (.lit 5))))
  (by rintro ⟨_, h⟩) rfl

/-- `math@abs 0.0` -/
example := C97_abs_value (P := Demo.plat) (H := Demo.host) (L := Demo.lib) (n := 1) (w := []) demo_std
  (a := .float F64.zero) rfl

/-- `fs@mv "/d" "/e"` -/
example := C59_mv_atomic (P := Demo.plat) (H := diskHost) (L := Demo.lib) (n := 1) (w := disk1) demo_std
  (a := .str c!"/d") (b := .str c!"/c") (x := c!"/d") (y := c!"/c") rfl rfl (by decide) rfl rfl

/-- `fs@tail "f" 2` -/
example : ¬ (evalN Demo.plat demoFile (stdB Demo.plat Demo.lib) 1
    (call c!"fs" c!"tail" [.str c!"f", .int (.lit 2)]) Demo.env (utf8Encode c!"a\nb\nc\n") =
      (.ok (.str c!"b\nc\n"), Demo.env, utf8Encode c!"a\nb\nc\n")) := by
  intro h
  have := (C60_tail_refuted (P := Demo.plat) (L := Demo.lib) (n := 0) (content := fun w _ => some w) (name := c!"f")
    (f := .str c!"f") (a := .int (.lit 2)) (k := .lit 2) (w := utf8Encode c!"a\nb\nc\n")
    (ls := [c!"a", c!"b", c!"c"]) demo_std demoFile_files (by simp [IsLine]) rfl rfl rfl).1 h
  revert this
  decide

/-- `fmt@wrap "text" 4` -/
example := C75_wrap (P := Demo.plat) (H := Demo.host) (L := Demo.lib) (n := 1) (w := []) demo_std
  (a := .str c!"text") (b := .int (.lit 4)) (c := .lit 4) (by decide) rfl rfl

/-- `fs@exists? "/d"` -/
example := C68_tests (P := Demo.plat) (H := diskHost) (L := Demo.lib) (n := 1) (w := disk1) demo_std disk_tree
  (a := .str c!"/d") (x := c!"/d") (p := [c!"d"]) rfl (.absolute _ _) (by decide)

/-- `f 5` for a function `f` -/
example := C22_call_isolated (P := Demo.plat) (H := Demo.host) (B := Demo.noB) (k := 5) (a := .int (.lit 5))
  (f := .symbol c!"id") (env := Demo.env.define c!"id" (.lambda c!"x" (.symbol c!"x") [] [])) (w := []) rfl

example := C23_call_scope (P := Demo.plat) (H := Demo.host) (B := Demo.noB) (k := 5) (a := .int (.lit 5))
  (f := .symbol c!"id") (env := Demo.env.define c!"id" (.lambda c!"x" (.symbol c!"x") [] [])) (w := []) rfl rfl

/-- a function that has seen `y` -/
example := C24_recapture (P := Demo.plat) (H := Demo.host) (B := Demo.noB) 5 c!"x" (.symbol c!"y")
  [(c!"y", .int (.lit 5))] [] Demo.env [] c!"y" (.int (.lit 5)) rfl (by decide) (by decide)

/-- a function that calls the program of the same name -/
example := C25_runs_program (P := Demo.plat) (H := Demo.host) (B := Demo.noB) 5 c!"ls" c!"x" c!"-l" Demo.env []
  rfl (by decide) (by decide) (by decide)

/-- a macro that gives a function -/
example := C26_macro_more (P := Demo.plat) (H := Demo.host) (B := Demo.noB) (k := 5)
  (f := .symbol c!"id") (a := .int (.lit 1)) (b := .int (.lit 2)) (rest := [])
  (env := Demo.env.define c!"id" (.macro_ c!"x" (.symbol c!"+"))) (w := []) rfl rfl rfl

/-- `dict@flatten [1, [2]]` -/
example := C94_again (P := Demo.plat) (H := Demo.host) (L := Demo.lib) (n := 1) (w := []) demo_std
  (a := .list [.int (.lit 1), .list [.int (.lit 2)]]) (b := .list [.int (.lit 1), .int (.lit 2)])
  (l := [.int (.lit 1), .int (.lit 2)]) rfl rfl rfl

/-- `grep "x"` after `let grep = egrep` -/
example := C123_program (P := Demo.plat) (H := Demo.host) (L := Demo.lib) (m := 1) (w := [])
  (env := Demo.env.define c!"id" (.symbol c!"egrep")) (f := c!"id") (g := c!"egrep") (args := [.str c!"x"])
  (vs := [.str c!"x"]) (by rw [Env.get_define, if_pos rfl]) rfl

/-- `-007` -/
example := C09_zeros Demo.plat (sign := c!"-") (ds := c!"07") (by simp) (by simp) (by decide)

/-- `let x = "a\n"` -/
example := C04_line (line := c!"let x = \"a\\n\"") (by decide) (by
  intro a c b h
  have : c ∈ c!"let x = \"a\\n\"" := by rw [h]; simp
  clear h
  revert c
  decide)

/-- a function that calls itself through `exec` -/
example := C15_try_does_not_help (P := Demo.plat) (H := Demo.host) (L := Demo.lib) (n := 100) (w := [])
  (env := Demo.env.define c!"f" execF) (std_define demo_std (by decide) (by decide) (by decide))
  (by rw [Env.get_define, if_pos rfl]) .none

/-- `exec '+` -/
example := C54_exec (P := Demo.plat) (H := Demo.host) (L := Demo.lib) (n := 4) (w := []) demo_std (.symbol c!"+")

/-- `sys@cd "/tmp"` on a machine that resolves every name to `/tmp` -/
example := C74_cd (P := Demo.plat) (H := (⟨fun _ w => (.str c!"/tmp", w)⟩ : Host (List IOp))) (L := Demo.lib)
  (n := 4) (w := []) demo_std demo_std (a := .str c!"/tmp") (p := c!"/tmp") (p' := c!"/tmp") (.absolute _ _) rfl rfl

/-- the lists `[1, 23]` and `[12, 3]` are shown differently -/
example : ¬ display Demo.plat (.list ([I64.lit 1, I64.lit 23].map .int)) =
    display Demo.plat (.list ([I64.lit 12, I64.lit 3].map .int)) := fun h => by
  have := C98_ints h
  revert this
  decide

/-- the number 5 is data -/
example := C17_data_inert (P := Demo.plat) (H := Demo.host) (B := Demo.noB) (k := 3)
  (e := .int (.lit 5)) (by constructor) Demo.env []

/-- `err@try (int True) (e -> e)` -/
example : ∃ e env' w', ev 5 (.apply (.symbol c!"int") [.bool true]) Demo.env [] = (.err e, env', w') ∧
    ∀ text, Says e text → ∃ m : BMap Expr, m.get? c!"message" = some (.str text) := by
  obtain ⟨m, h⟩ := C71_int_other (n := 4) (P := Demo.plat) (H := Demo.host) (L := Demo.lib) (w := []) demo_std
      (a := .bool true) (v := .bool true) rfl (by simp)
  refine ⟨_, _, _, h, fun text ht => ?_⟩
  obtain ⟨m, hm, -⟩ := C53_message (n := 5) demo_std (handler := .none) ht h
  exact ⟨m, hm⟩

end Dune.Props
