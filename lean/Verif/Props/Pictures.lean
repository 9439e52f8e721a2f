import Verif.Model.Pictures
import Verif.Props.Commands
import Verif.Proof.Pieces
import Verif.Props.Prelude
import Verif.Props.Program
import Verif.Props.Listing
import Verif.Props.Rand
import Verif.Props.Widget

/-! The pictures of the dashboard of the default prelude. -/

namespace Dune.Props

open Spec Spec.Calendar Calc Prelude Repl

/-! ### Specification -/

/-- The plants. -/
def plants : List Str := [
  c!"    _ _\n   (_\\_)\n  (__<_{}\n   (_/_)\n  |\\ |   \n   \\\\| /|\n    \\|//\n     |/\n,.,.,|.,.,.,\n^`^`^`^`^`^`",
  c!"    .--.\n  .'_\\/_'.\n  '. /\\ .'\n    \"||\"\n     || /\\\n  /\\ ||//\\)\n (/\\\\||/\n____\\||/____\n^`^`^`^`^`^`^",
  c!"\n       __/)\n    .-(__(=:\n |\\ |    \\)\n \\ ||\n  \\||\n   \\|\n____|_______\n^`^`^`^`^`^`",
  c!"\n     _\n   .\\ /.\n  < ~O~ >\n   '/_\\'\n   \\ | /\n    \\|/\n,.,.,|.,.,.,\n^`^`^`^`^`^`"]

/-- The cats. -/
def cats : List Str := [
  c!"\n      _\n    |\\'/-..--.\n   / _ _   ,  ;\n  `~=`Y'~_<._./\n   <`-....__.'",
  c!"\n\n  |\\__/,|   (`\\\n  |_ _  |.--.) )\n  ( T   )     /\n (((^_(((/(((_/",
  c!"\n\n    \\    /\\\n     )  ( ')\n    (  /  )\n     \\(__)|",
  c!"\n\n       ^~^  ,\n      ('Y') )\n      /   \\/\n     (\\|||/)",
  c!"    .       .\n    \\`-\"'\"-'/\n     } 6 6 {\n    =.  Y  ,=\n      /^^^\\  .\n     /     \\  )\n    (  )-(  )/\n     \"\"   \"\"",
  c!"\n\n         /\\_/\\\n    ____/ o o \\\n  /~____  =Y= /\n (______)__m_m)"]

/-- Lines of printable ASCII characters that are not longer than the width are not broken, but lose the spaces at
their end.  (So does `textwrap::fill`.) -/
def Keeps (P : Plat) (n : Nat) : Prop := ∀ lines : List Str, lines ≠ [] → (∀ l ∈ lines, l.length ≤ n ∧ Plain l) →
  P.fill (below lines) n = below (lines.map noTrailing)

/-- All lines of the picture are shown in the box. -/
def ShowsAll (rows : List Str) (p : Str) (wd : Nat) : Prop := ∀ l ∈ p.splitOn '\n', row wd l ∈ rows

/-- `widget@create "Cat" (rand@choose CATS) 20 10` -/
abbrev catBox : Expr := call c!"widget" c!"create" [.str c!"Cat", .group (call c!"rand" c!"choose" [.symbol c!"CATS"]),
  .int (.lit 20), .int (.lit 10)]

/-- `widget@create "Flower" (rand@choose PLANTS) 14 11` -/
abbrev flowerBox : Expr := call c!"widget" c!"create" [.str c!"Flower", .group (call c!"rand" c!"choose" [.symbol c!"PLANTS"]),
  .int (.lit 14), .int (.lit 11)]

/-! ### Proofs -/

theorem plants_parse (P : Plat) : parseText P plantsText =
    .ok (.do_ [.assign c!"PLANTS" (.list (plants.map .str))]) := by kernel_rfl

theorem cats_parse (P : Plat) : parseText P catsText =
    .ok (.do_ [.assign c!"CATS" (.list (cats.map .str))]) := by kernel_rfl

/-- the texts of the boxes -/
example (P : Plat) : parseText P c!"widget@create \"Cat\" (rand@choose CATS) 20 10" = .ok (.do_ [catBox]) ∧
    parseText P c!"widget@create \"Flower\" (rand@choose PLANTS) 14 11" = .ok (.do_ [flowerBox]) :=
  ⟨by kernel_rfl, by kernel_rfl⟩

section

variable {W : Type} {H : Host W} {P : Plat} {L : Lib} {n m : Nat} {w w' : W} {env env' env2 : Env}

theorem vals_strs (l : List Str) {n k : Nat} {w : W} :
    evalList (evalD P H (bodyRun P H (stdB P L) n) (k + 1)) (l.map .str) env w = (.ok (l.map .str), env, w) := by
  induction l with
  | nil => rfl
  | cons q l ih =>
    rw [List.map_cons, evalList, M.bind_ok (show evalD P H (bodyRun P H (stdB P L) n) (k + 1) (.str q) env w = (.ok (.str q), env, w) from rfl),
      M.bind_ok ih]
    rfl

theorem list_run (x : Str) (l : List Str) : Run H P L 4 env (.do_ [.assign x (.list (l.map .str))]) .none
    (env.define x (.list (l.map .str))) := by
  refine RunDo.block (d := 3) (Run.last (Run.assign (d := 2) (fun n k w hn hk => ?_)))
  obtain ⟨n, rfl, -⟩ := pos_succ hn
  obtain ⟨k, rfl, hk⟩ := pos_succ hk
  obtain ⟨k, rfl, hk⟩ := pos_succ (show 1 ≤ k by omega)
  rw [evalD]
  simp only [evalStep]
  rw [M.bind_ok (vals_strs l)]
  rfl

/-- a call of a library function in parentheses -/
theorem group_call (hs : Std env) {m f nm hlp : Str} {id : BId} {tbl : List (Str × Expr)} {args : List Expr}
    (hm : (m, tbl) ∈ Init.modules) (hf : (f, .builtin nm id hlp) ∈ tbl) :
    evalN P H (stdB P L) (n + 1) (.group (call m f args)) env w = evalN P H (stdB P L) (n + 1) (call m f args) env w := by
  have h1 : evalD P H (bodyRun P H (stdB P L) n) 801 (.group (call m f args)) env w = _ :=
    (kept_of_std hs [c!"@", m]).libD (k := 797) (by simp) (by simp) hm hf
  have h2 := Dune.evalD_lib (P := P) (H := H) (L := L) (n := n) (w := w) (args := args) (k := 798) hs hm hf
  have e : ∀ x, evalN P H (stdB P L) (n + 1) x env w = evalD P H (bodyRun P H (stdB P L) n) 801 x env w := fun _ => rfl
  rw [e, e, h1, h2]

theorem names_free (x : Str) (hx : x = c!"CATS" ∨ x = c!"PLANTS") : (∀ p ∈ Init.ops, ¬ x = p.1) ∧
    (∀ p ∈ Init.top, ¬ x = p.1) ∧ ∀ p ∈ Init.modules, ¬ x = p.1 := by
  rcases hx with rfl | rfl <;> refine ⟨?_, ?_, ?_⟩ <;> decide +kernel

theorem shows_all {rows : List Str} {title p : Str} {wd ht : Nat} (hb : IsBox rows title ((p.splitOn '\n').map noTrailing) wd ht)
    (hl : (p.splitOn '\n').length ≤ ht - 2)
    (hr : ∀ l ∈ p.splitOn '\n', row wd (noTrailing l) = row wd l) : ShowsAll rows p wd := by
  intro l hm
  obtain ⟨j, hj, rfl⟩ := List.getElem_of_mem hm
  have := hb.body j (by omega)
  rw [List.getD_eq_getElem?_getD,
    List.getElem?_eq_getElem (l := (p.splitOn '\n').map noTrailing) (by simpa using hj), Option.getD_some, List.getElem_map, hr _ (List.getElem_mem _)] at this
  exact List.mem_of_getElem? this

/-- C128.  Entering the two definitions changes only these names. -/
theorem C128_defines (hn : 5 ≤ n) :
    ∃ env', Entered H P L n w [plantsText, catsText] env env' ∧
      ∀ s, s ≠ c!"PLANTS" → s ≠ c!"CATS" → env'.get s = env.get s :=
  ⟨_, enter_text (plants_parse P) (list_run _ _) (by omega) (enter_text (cats_parse P) (list_run _ _) (by omega) (.nil _)),
    fun s h1 h2 => by rw [Env.get_define, if_neg (Ne.symm h2), Env.get_define, if_neg (Ne.symm h1)]⟩

theorem pictures_env (hs : Std env) (hn : 5 ≤ n) (he : Entered H P L n w [plantsText, catsText] env env') :
    Std env' ∧ env'.get c!"PLANTS" = some (.list (plants.map .str)) ∧
      env'.get c!"CATS" = some (.list (cats.map .str)) := by
  cases he.unique (enter_text (plants_parse P) (list_run _ _) (by omega)
    (enter_text (cats_parse P) (list_run _ _) (by omega) (.nil _)))
  obtain ⟨a1, a2, a3⟩ := names_free c!"PLANTS" (.inr rfl)
  obtain ⟨b1, b2, b3⟩ := names_free c!"CATS" (.inl rfl)
  refine ⟨std_define (std_define hs a1 a2 a3) b1 b2 b3, ?_, ?_⟩
  · rw [Env.get_define, if_neg (by decide), Env.get_define, if_pos rfl]
  · rw [Env.get_define, if_pos rfl]

theorem cat_box (hs' : Std env') (hR : RandomSource H) (hP : Keeps P 18)
    (hc : env'.get c!"CATS" = some (.list (cats.map .str))) :
    ∃ c ∈ cats, ∃ rows w2, evalN P H (stdB P L) (m + 2) catBox env' w' = (.ok (.str (below rows)), env', w2) ∧
      (∃ lines, IsBox rows c!"Cat" lines 20 10) ∧ ShowsAll rows c 20 := by
  obtain ⟨v, hv, w2, h3⟩ := C76_choose (P := P) (L := L) (n := m) (w := w') hs' hR (evalN_sym hc) (by decide)
  obtain ⟨c, hm, rfl⟩ := List.mem_map.1 hv
  rw [← group_call hs' (tbl := Init.randM) (by mem_tac) (by mem_tac)] at h3
  have fit : ∀ c ∈ cats, (∀ l ∈ c.splitOn '\n', (l.length ≤ 18 ∧ Plain l) ∧ row 20 (noTrailing l) = row 20 l) ∧
      (∀ l ∈ (c.splitOn '\n').map noTrailing, ('\n' ∉ l ∧ '\r' ∉ l) ∧ (l.length : Int) + 2 ≤ (20 : Nat)) ∧
      c.splitOn '\n' ≠ [] ∧ (c.splitOn '\n').map noTrailing ≠ [] ∧ (c.splitOn '\n').length ≤ 8 ∧ 12 - c.length = 0 ∧
      below (c.splitOn '\n') = c := by decide +kernel
  obtain ⟨f1, f2, f3, f4, f5, f6, f7⟩ := fit c hm
  have hfill := hP (c.splitOn '\n') f3 fun l hl => (f1 l hl).1
  rw [f7] at hfill
  obtain ⟨rows, h, hb⟩ := C77_create (P := P) (H := H) (L := L) (n := m + 1) (w := w') hs' (t := .str c!"Cat")
    (a := .int (.lit 20)) (b := .int (.lit 10)) (lines := (c.splitOn '\n').map noTrailing) rfl rfl h3 rfl
    (by decide) (by decide) (show ((c!"Cat").length : Int) + 2 ≤ 20 by decide)
    (show '\n' ∉ c!"Cat" ∧ '\r' ∉ c!"Cat" by decide)
    (by show P.fill (c ++ List.replicate (12 - c.length) ' ') 18 = _; rw [f6]; simpa using hfill) f4 f2
  exact ⟨c, hm, rows, w2, h, ⟨_, hb⟩, shows_all hb f5 fun l hl => (f1 l hl).2⟩

/-- C128.  The box of the cat shows one of the cats, and all of it, whatever the source of random numbers answers. -/
theorem C128_cat (hs : Std env) (hR : RandomSource H) (hP : Keeps P 18) (hn : 5 ≤ n)
    (he : Entered H P L n w [plantsText, catsText] env env') :
    ∃ c ∈ cats, ∃ rows w2, evalN P H (stdB P L) (m + 2) catBox env' w' = (.ok (.str (below rows)), env', w2) ∧
      (∃ lines, IsBox rows c!"Cat" lines 20 10) ∧ ShowsAll rows c 20 := by
  obtain ⟨hs', -, hc⟩ := pictures_env hs hn he
  exact cat_box hs' hR hP hc

/-- C128.  The box of the flower shows all of the flower, if this is the third or the fourth one. -/
theorem C128_flower (hs : Std env) (hP : Keeps P 12) (hn : 5 ≤ n)
    (he : Entered H P L n w [plantsText, catsText] env env') {c : Str} {w1 : W} (hm : c ∈ plants.drop 2)
    (h3 : evalN P H (stdB P L) (m + 1) (.group (call c!"rand" c!"choose" [.symbol c!"PLANTS"])) env' w' =
      (.ok (.str c), env', w1)) :
    ∃ rows, evalN P H (stdB P L) (m + 2) flowerBox env' w' = (.ok (.str (below rows)), env', w1) ∧
      Picture rows 11 14 ∧ ShowsAll rows c 14 := by
  obtain ⟨hs', -, -⟩ := pictures_env hs hn he
  have fit : ∀ c ∈ plants.drop 2, (∀ l ∈ c.splitOn '\n', (l.length ≤ 12 ∧ Plain l) ∧ row 14 (noTrailing l) = row 14 l) ∧
      (∀ l ∈ (c.splitOn '\n').map noTrailing, ('\n' ∉ l ∧ '\r' ∉ l) ∧ (l.length : Int) + 2 ≤ (14 : Nat)) ∧
      c.splitOn '\n' ≠ [] ∧ (c.splitOn '\n').map noTrailing ≠ [] ∧ (c.splitOn '\n').length ≤ 9 ∧ 8 - c.length = 0 ∧
      below (c.splitOn '\n') = c := by decide +kernel
  obtain ⟨f1, f2, f3, f4, f5, f6, f7⟩ := fit c hm
  have hfill := hP (c.splitOn '\n') f3 fun l hl => (f1 l hl).1
  rw [f7] at hfill
  obtain ⟨rows, h, hb⟩ := C77_create (P := P) (H := H) (L := L) (n := m + 1) (w := w') hs' (t := .str c!"Flower")
    (a := .int (.lit 14)) (b := .int (.lit 11)) (lines := (c.splitOn '\n').map noTrailing) rfl rfl h3 rfl
    (by decide) (by decide) (show ((c!"Flower").length : Int) + 2 ≤ 14 by decide)
    (show '\n' ∉ c!"Flower" ∧ '\r' ∉ c!"Flower" by decide)
    (by show P.fill (c ++ List.replicate (8 - c.length) ' ') 12 = _; rw [f6]; simpa using hfill) f4 f2
  exact ⟨rows, h, hb.picture, shows_all hb f5 fun l hl => (f1 l hl).2⟩

/-- C128.  Of the first flower, the box does not show all: it has no row for the last line, which is the ground. -/
theorem C128_flower_refuted (hs : Std env) (hP : Keeps P 12) (hn : 5 ≤ n)
    (he : Entered H P L n w [plantsText, catsText] env env') {c : Str} {w1 : W} (hm : plants.head? = some c)
    (h3 : evalN P H (stdB P L) (m + 1) (.group (call c!"rand" c!"choose" [.symbol c!"PLANTS"])) env' w' =
      (.ok (.str c), env', w1)) :
    ∃ rows, evalN P H (stdB P L) (m + 2) flowerBox env' w' = (.ok (.str (below rows)), env', w1) ∧
      row 14 c!"^`^`^`^`^`^`" ∉ rows ∧ ¬ ShowsAll rows c 14 := by
  obtain ⟨hs', -, -⟩ := pictures_env hs hn he
  have fit : ∀ c ∈ plants.head?, (∀ l ∈ c.splitOn '\n', l.length ≤ 12 ∧ Plain l) ∧
      (∀ l ∈ (c.splitOn '\n').map noTrailing, ('\n' ∉ l ∧ '\r' ∉ l) ∧ (l.length : Int) + 2 ≤ (14 : Nat)) ∧
      c.splitOn '\n' ≠ [] ∧ (c.splitOn '\n').map noTrailing ≠ [] ∧ 8 - c.length = 0 ∧
      below (c.splitOn '\n') = c ∧ c!"^`^`^`^`^`^`" ∈ c.splitOn '\n' ∧
      ∀ j, j < 9 → row 14 c!"^`^`^`^`^`^`" ≠ row 14 (((c.splitOn '\n').map noTrailing).getD j []) := by decide +kernel
  obtain ⟨f1, f2, f3, f4, f6, f7, f8, f9⟩ := fit c (by simpa using hm)
  have hfill := hP (c.splitOn '\n') f3 f1
  rw [f7] at hfill
  obtain ⟨rows, h, hb⟩ := C77_create (P := P) (H := H) (L := L) (n := m + 1) (w := w') hs' (t := .str c!"Flower")
    (a := .int (.lit 14)) (b := .int (.lit 11)) (lines := (c.splitOn '\n').map noTrailing) rfl rfl h3 rfl
    (by decide) (by decide) (show ((c!"Flower").length : Int) + 2 ≤ 14 by decide)
    (show '\n' ∉ c!"Flower" ∧ '\r' ∉ c!"Flower" by decide)
    (by show P.fill (c ++ List.replicate (8 - c.length) ' ') 12 = _; rw [f6]; simpa using hfill) f4 f2
  have hno : row 14 c!"^`^`^`^`^`^`" ∉ rows := by
    intro hin
    obtain ⟨j, hj, hr⟩ := List.getElem_of_mem hin
    have hlen : rows.length = 11 := hb.picture.height
    obtain ⟨a, b, ht, -⟩ := hb.top
    have hbot := hb.bottom
    rcases Nat.eq_zero_or_pos j with rfl | h0
    · rw [List.head?_eq_getElem?, List.getElem?_eq_getElem hj, hr] at ht
      simp [row] at ht
    · by_cases h10 : j = 10
      · subst h10
        rw [List.getLast?_eq_getElem?, hlen, List.getElem?_eq_getElem hj, hr] at hbot
        simp [row] at hbot
      · have := hb.body (j - 1) (by show j - 1 < 11 - 2; omega)
        rw [show j - 1 + 1 = j by omega, List.getElem?_eq_getElem hj, hr] at this
        exact f9 (j - 1) (by omega) (Option.some.inj this)
  exact ⟨rows, h, hno, fun hall => hno (hall _ f8)⟩

/-- C128.  Nor of the second one: its last line, the ground, is too long for every way of wrapping. -/
theorem C128_wide_refuted (hs : Std env) (hn : 5 ≤ n)
    (he : Entered H P L n w [plantsText, catsText] env env') {c : Str} {w1 : W} (hm : plants[1]? = some c)
    (h3 : evalN P H (stdB P L) (m + 1) (.group (call c!"rand" c!"choose" [.symbol c!"PLANTS"])) env' w' =
      (.ok (.str c), env', w1)) {lines : List Str} (hfill : P.fill c 12 = below lines) (h0 : lines ≠ [])
    (hlines : ∀ l ∈ lines, ('\n' ∉ l ∧ '\r' ∉ l) ∧ l.length ≤ 12) :
    ∃ rows, evalN P H (stdB P L) (m + 2) flowerBox env' w' = (.ok (.str (below rows)), env', w1) ∧
      row 14 c!"^`^`^`^`^`^`^" ∉ rows ∧ ¬ ShowsAll rows c 14 := by
  obtain ⟨hs', -, -⟩ := pictures_env hs hn he
  have fit : ∀ c ∈ plants[1]?, 8 - c.length = 0 ∧ c!"^`^`^`^`^`^`^" ∈ c.splitOn '\n' := by decide +kernel
  obtain ⟨f6, f8⟩ := fit c (by simpa using hm)
  obtain ⟨rows, h, hb⟩ := C77_create (P := P) (H := H) (L := L) (n := m + 1) (w := w') hs' (t := .str c!"Flower")
    (a := .int (.lit 14)) (b := .int (.lit 11)) (lines := lines) rfl rfl h3 rfl
    (by decide) (by decide) (show ((c!"Flower").length : Int) + 2 ≤ 14 by decide)
    (show '\n' ∉ c!"Flower" ∧ '\r' ∉ c!"Flower" by decide)
    (by show P.fill (c ++ List.replicate (8 - c.length) ' ') 12 = _; rw [f6]; simpa using hfill) h0
    (fun l hl => ⟨(hlines l hl).1, by have := (hlines l hl).2; show (l.length : Int) + 2 ≤ 14; omega⟩)
  have hno : row 14 c!"^`^`^`^`^`^`^" ∉ rows := by
    intro hin
    obtain ⟨j, hj, hr⟩ := List.getElem_of_mem hin
    have hlen : rows.length = 11 := hb.picture.height
    obtain ⟨a, b, ht, -⟩ := hb.top
    have hbot := hb.bottom
    rcases Nat.eq_zero_or_pos j with rfl | h0
    · rw [List.head?_eq_getElem?, List.getElem?_eq_getElem hj, hr] at ht
      simp [row] at ht
    · by_cases h10 : j = 10
      · subst h10
        rw [List.getLast?_eq_getElem?, hlen, List.getElem?_eq_getElem hj, hr] at hbot
        simp [row] at hbot
      · have hbody := hb.body (j - 1) (by show j - 1 < 11 - 2; omega)
        rw [show j - 1 + 1 = j by omega, List.getElem?_eq_getElem hj, hr] at hbody
        have e := Option.some.inj hbody
        have hl : (lines.getD (j - 1) []).length ≤ 12 := by
          rw [List.getD_eq_getElem?_getD]
          by_cases hlt : j - 1 < lines.length
          · rw [List.getElem?_eq_getElem hlt]; exact (hlines _ (List.getElem_mem _)).2
          · rw [List.getElem?_eq_none (by omega)]; exact Nat.zero_le _
        generalize lines.getD (j - 1) [] = l at e hl
        have e2 := congrArg List.getLast? e
        change some '^' = (row 14 l).getLast? at e2
        obtain ⟨q, hq⟩ : ∃ q, 14 - 1 - l.length = q + 1 := ⟨12 - l.length, by omega⟩
        change some '^' = (' ' :: l ++ List.replicate (14 - 1 - l.length) ' ').getLast? at e2
        rw [hq, List.replicate_succ', ← List.append_assoc, List.getLast?_concat] at e2
        simp at e2
  exact ⟨rows, h, hno, fun hall => hno (hall _ f8)⟩

end

theorem keeps_demo (n : Nat) : Keeps PreludeDemo.plat n := by
  intro lines hne h
  show below ((PreludeDemo.splitNl (below lines)).map noTrailing) = _
  rw [PreludeDemo.splitNl_below lines hne fun l hl => (h l hl).2.line.1]

/-- A cat, if the source of random numbers always answers the smallest number. -/
example : ∃ env', Entered lowest PreludeDemo.plat Demo.lib 5 () [plantsText, catsText] Demo.env env' ∧
    ∃ c ∈ cats, ∃ rows w2, evalN PreludeDemo.plat lowest (stdB PreludeDemo.plat Demo.lib) 2 catBox env' () =
      (.ok (.str (below rows)), env', w2) ∧ (∃ lines, IsBox rows c!"Cat" lines 20 10) ∧ ShowsAll rows c 20 := by
  obtain ⟨env', h, -⟩ := C128_defines (H := lowest) (P := PreludeDemo.plat) (L := Demo.lib) (n := 5) (w := ())
    (env := Demo.env) (by decide)
  exact ⟨env', h, C128_cat (m := 0) demo_std lowest_source (keeps_demo 18) (by decide) h⟩

/-- The choice of the first flower. -/
example : ∃ env' c, Entered scripted PreludeDemo.plat Demo.lib 5 [0] [plantsText, catsText] Demo.env env' ∧
    plants.head? = some c ∧ evalN PreludeDemo.plat scripted (stdB PreludeDemo.plat Demo.lib) 1
      (.group (call c!"rand" c!"choose" [.symbol c!"PLANTS"])) env' [0] = (.ok (.str c), env', []) := by
  obtain ⟨env', h, -⟩ := C128_defines (H := scripted) (P := PreludeDemo.plat) (L := Demo.lib) (n := 5) (w := [0])
    (env := Demo.env) (by decide)
  obtain ⟨hs, hp, -⟩ := pictures_env demo_std (by decide) h
  refine ⟨env', _, h, rfl, ?_⟩
  rw [group_call hs (tbl := Init.randM) (by mem_tac) (by mem_tac)]
  lib hs, Init.randM
  brun [Builtins.chooseB, evalN_sym hp]
  rfl

/-- The choice of the last flower. -/
example : ∃ env', ∃ c ∈ plants.drop 2, Entered scripted PreludeDemo.plat Demo.lib 5 [3] [plantsText, catsText] Demo.env env' ∧
    evalN PreludeDemo.plat scripted (stdB PreludeDemo.plat Demo.lib) 1
      (.group (call c!"rand" c!"choose" [.symbol c!"PLANTS"])) env' [3] = (.ok (.str c), env', []) := by
  obtain ⟨env', h, -⟩ := C128_defines (H := scripted) (P := PreludeDemo.plat) (L := Demo.lib) (n := 5) (w := [3])
    (env := Demo.env) (by decide)
  obtain ⟨hs, hp, -⟩ := pictures_env demo_std (by decide) h
  refine ⟨env', plants[3], by decide +kernel, h, ?_⟩
  rw [group_call hs (tbl := Init.randM) (by mem_tac) (by mem_tac)]
  lib hs, Init.randM
  brun [Builtins.chooseB, evalN_sym hp]
  rfl

/-- Lines that are too long are cut off. -/
def cutPlat : Plat := { PreludeDemo.plat with fill := fun s n => below ((s.splitOn '\n').map (List.take n)) }

/-- The choice of the second flower, if lines that are too long are cut off. -/
example : ∃ env' c, Entered scripted cutPlat Demo.lib 5 [1] [plantsText, catsText] Demo.env env' ∧
    plants[1]? = some c ∧ ∃ rows, evalN cutPlat scripted (stdB cutPlat Demo.lib) 2 flowerBox env' [1] =
      (.ok (.str (below rows)), env', []) ∧ ¬ ShowsAll rows c 14 := by
  obtain ⟨env', h, -⟩ := C128_defines (H := scripted) (P := cutPlat) (L := Demo.lib) (n := 5) (w := [1])
    (env := Demo.env) (by decide)
  obtain ⟨hs, hp, -⟩ := pictures_env demo_std (by decide) h
  have h3 : evalN cutPlat scripted (stdB cutPlat Demo.lib) 1 (.group (call c!"rand" c!"choose" [.symbol c!"PLANTS"])) env' [1] =
      (.ok (.str plants[1]), env', []) := by
    rw [group_call hs (tbl := Init.randM) (by mem_tac) (by mem_tac)]
    lib hs, Init.randM
    brun [Builtins.chooseB, evalN_sym hp]
    rfl
  obtain ⟨rows, hr, -, hn⟩ := C128_wide_refuted (m := 0) demo_std (by decide) h (c := plants[1]) rfl h3
    (lines := (plants[1].splitOn '\n').map (List.take 12)) rfl (by decide +kernel) (by decide +kernel)
  exact ⟨env', _, h, rfl, rows, hr, hn⟩

end Dune.Props
