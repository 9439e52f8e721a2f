import Verif.Props.Dashboard
import Verif.Props.WeatherIcons

/-! The widget of the weather of the default prelude. -/

namespace Dune.Props

open Spec Spec.Calendar Calc Prelude Repl

/-! ### Specification -/

/-- The text, followed by spaces if it is shorter than two thirds of a line, is wrapped to lines that fit. -/
def WrapsTo (P : Plat) (s : Str) (n : Nat) (lines : List Str) : Prop :=
  P.fill (s ++ List.replicate (n * 2 / 3 - s.length) ' ') n = below lines ∧ lines ≠ [] ∧
    ∀ l ∈ lines, ('\n' ∉ l ∧ '\r' ∉ l) ∧ l.length ≤ n

/-- The widget of the weather: the header above the numbers and the picture. -/
def IsWeather (rows header stats icon : List Str) : Prop := ∃ a b c, rows = a ++ beside 7 [b, c] ∧
  IsBox a c!"Weather" header 36 4 ∧ IsBox b c!"Stats" stats 21 7 ∧ IsBox c c!"Icon" icon 15 7

/-! ### Proofs -/

/-- the widget of these texts -/
abbrev weatherCall (a b c : Expr) : Expr := call c!"widget" c!"joiny"
  [.group (call c!"widget" c!"create" [.str c!"Weather", a, .int (.lit 36), .int (.lit 4)]),
   .group (call c!"widget" c!"joinx"
    [.group (call c!"widget" c!"create" [.str c!"Stats", b, .int (.lit 21), .int (.lit 7)]),
     .group (call c!"widget" c!"create" [.str c!"Icon", c, .int (.lit 15), .int (.lit 7)])])]

theorem weatherWidget_parse (P : Plat) : parseText P weatherWidgetText =
    .ok (.do_ [weatherCall (.symbol c!"header-text") (.symbol c!"stats-text") (.symbol c!"weather-ascii")]) := by kernel_rfl

theorem noWeather_parse (P : Plat) : parseText P noWeatherText =
    .ok (.do_ [weatherCall (.str c!"?") (.str c!"?") (member c!"WEATHER-ASCII" c!"Unknown")]) := by kernel_rfl

section

variable {W : Type} {H : Host W} {P : Plat} {L : Lib} {n k : Nat} {w w' : W} {env env' env2 : Env}

theorem do_call (hs : Std env) {m f nm hlp : Str} {id : BId} {tbl : List (Str × Expr)} {args : List Expr}
    (hm : (m, tbl) ∈ Init.modules) (hf : (f, .builtin nm id hlp) ∈ tbl) :
    evalN P H (stdB P L) (n + 1) (.do_ [call m f args]) env w =
      evalN P H (stdB P L) (n + 1) (call m f args) env w := by
  have h1 := Dune.evalD_lib (P := P) (H := H) (L := L) (n := n) (w := w) (args := args) (k := 797) hs hm hf
  have h2 := Dune.evalD_lib (P := P) (H := H) (L := L) (n := n) (w := w) (args := args) (k := 798) hs hm hf
  have e : ∀ x, evalN P H (stdB P L) (n + 1) x env w = evalD P H (bodyRun P H (stdB P L) n) (797 + 3 + 1) x env w :=
    fun _ => rfl
  rw [e, e, h2, evalD]
  simp only [evalStep, evalDo]
  rw [h1]

theorem joiny_corners {a b : List Str} (ha : Corners a) (hb : Corners b) : Corners (a ++ b) := by
  obtain ⟨⟨c, l, rs, rfl, h1⟩, -⟩ := ha
  obtain ⟨-, c', l', rs', rfl, h2⟩ := hb
  exact ⟨⟨c, l, _, rfl, h1⟩, c', l', _, (List.append_assoc ..).symm, h2⟩

theorem weather_joined (hs : Std env) {a b c : Expr} {s t u : Str} {hl sl il : List Str}
    (ha : evalN P H (stdB P L) (n + 2) a env w = (.ok (.str s), env, w))
    (hb : evalN P H (stdB P L) (n + 1) b env w = (.ok (.str t), env, w))
    (hc : evalN P H (stdB P L) (n + 1) c env w = (.ok (.str u), env, w))
    (h1 : WrapsTo P s 34 hl) (h2 : WrapsTo P t 19 sl) (h3 : WrapsTo P u 13 il) :
    ∃ rows, evalN P H (stdB P L) (n + 4) (weatherCall a b c) env w = (.ok (.str (below rows)), env, w) ∧
      IsWeather rows hl sl il ∧ Picture rows 11 36 ∧ Corners rows := by
  obtain ⟨ra, ea, ba⟩ := C77_create (P := P) (H := H) (L := L) (n := n + 2) (w := w) hs (t := .str c!"Weather")
    (a := .int (.lit 36)) (b := .int (.lit 4)) (lines := hl) rfl rfl ha rfl
    (by decide) (by decide) (show ((c!"Weather").length : Int) + 2 ≤ 36 by decide)
    (show '\n' ∉ c!"Weather" ∧ '\r' ∉ c!"Weather" by decide) h1.1 h1.2.1
    (fun l hl => ⟨(h1.2.2 l hl).1, by have := (h1.2.2 l hl).2; show (l.length : Int) + 2 ≤ 36; omega⟩)
  obtain ⟨rb, eb, bb⟩ := C77_create (P := P) (H := H) (L := L) (n := n + 1) (w := w) hs (t := .str c!"Stats")
    (a := .int (.lit 21)) (b := .int (.lit 7)) (lines := sl) rfl rfl hb rfl
    (by decide) (by decide) (show ((c!"Stats").length : Int) + 2 ≤ 21 by decide)
    (show '\n' ∉ c!"Stats" ∧ '\r' ∉ c!"Stats" by decide) h2.1 h2.2.1
    (fun l hl => ⟨(h2.2.2 l hl).1, by have := (h2.2.2 l hl).2; show (l.length : Int) + 2 ≤ 21; omega⟩)
  obtain ⟨rc, ec, bc⟩ := C77_create (P := P) (H := H) (L := L) (n := n + 1) (w := w) hs (t := .str c!"Icon")
    (a := .int (.lit 15)) (b := .int (.lit 7)) (lines := il) rfl rfl hc rfl
    (by decide) (by decide) (show ((c!"Icon").length : Int) + 2 ≤ 15 by decide)
    (show '\n' ∉ c!"Icon" ∧ '\r' ∉ c!"Icon" by decide) h3.1 h3.2.1
    (fun l hl => ⟨(h3.2.2 l hl).1, by have := (h3.2.2 l hl).2; show (l.length : Int) + 2 ≤ 15; omega⟩)
  rw [← group_call hs (tbl := Init.widgetM) (by mem_tac) (by mem_tac)] at ea eb ec
  have pa : Picture ra 4 36 := ba.picture
  have pb : Picture rb 7 21 := bb.picture
  have pc : Picture rc 7 15 := bc.picture
  obtain ⟨x, hjoin, hdisp⟩ := C77_joinx (P := P) (H := H) (L := L) (n := n + 2) (w := w) hs
    (args := [_, _]) (ss := [below rb, below rc]) (pics := [rb, rc]) (h := 7)
    (by simp) (by decide) (.cons eb (.cons ec .nil))
    (.cons ⟨.inl rfl, 21, by decide, pb⟩ (.cons ⟨.inl rfl, 15, by decide, pc⟩ .nil))
  rw [← group_call hs (tbl := Init.widgetM) (by mem_tac) (by mem_tac)] at hjoin
  have hsize : Picture (beside 7 [rb, rc]) 7 36 := C77_joinx_size (ws := [21, 15]) (.cons pb (.cons pc .nil))
  have hcor : Corners (beside 7 [rb, rc]) := by
    refine C77_joinx_corners (by simp) fun p hp => ?_
    rcases List.mem_pair.1 hp with rfl | rfl
    · exact ⟨pb.height, (C77_box_corners bb).2⟩
    · exact ⟨pc.height, (C77_box_corners bc).2⟩
  have hall := C77_joiny (P := P) (H := H) (L := L) (n := n + 3) (w := w) hs
    (args := [_, _]) (ss := [below ra, x]) (pics := [ra, beside 7 [rb, rc]]) (wd := 36) (by simp) (by decide)
    (.cons ea (.cons hjoin .nil))
    (.cons ⟨.inl rfl, (C77_box_corners ba).2, 4, pa⟩ (.cons ⟨hdisp, hcor, 7, hsize⟩ .nil))
  have hsz := C77_joiny_size (pics := [ra, beside 7 [rb, rc]]) (wd := 36) (hs := [4, 7]) (.cons pa (.cons hsize .nil))
  simp only [List.flatten_cons, List.flatten_nil, List.append_nil] at hall hsz
  exact ⟨_, hall, ⟨_, _, _, rfl, ba, bb, bc⟩, hsz, joiny_corners (C77_box_corners ba).2 hcor⟩

/-- C130.  The widget of the weather is the header above the numbers and the picture, in eleven rows of thirty-six characters,
whatever these texts are. -/
theorem C130_weather (hs : Std env) {s t u : Str} {hl sl il : List Str}
    (ha : env.get c!"header-text" = some (.str s)) (hb : env.get c!"stats-text" = some (.str t))
    (hc : env.get c!"weather-ascii" = some (.str u))
    (h1 : WrapsTo P s 34 hl) (h2 : WrapsTo P t 19 sl) (h3 : WrapsTo P u 13 il) (hk : 4 ≤ k) :
    ∃ rows, runText P (evalN P H (stdB P L) k) weatherWidgetText env w = (.ok (.str (below rows)), env, w) ∧
      IsWeather rows hl sl il ∧ Picture rows 11 36 ∧ Corners rows := by
  obtain ⟨k, rfl⟩ : ∃ j, k = j + 4 := ⟨k - 4, by omega⟩
  rw [run_of_parse (weatherWidget_parse P), do_call hs (tbl := Init.widgetM) (by mem_tac) (by mem_tac)]
  exact weather_joined hs (evalN_sym ha) (evalN_sym hb) (evalN_sym hc) h1 h2 h3

/-- C130.  So it is without data, if the table of the pictures is the one of the prelude. -/
theorem C130_unknown (hs : Std env) (hk0 : Kept [c!"==", c!"||", c!"@"] env2) (hn : 5 ≤ n)
    (he : Entered H P L n w' [asciiText, getAsciiText] env2 env')
    (ht : env.get c!"WEATHER-ASCII" = env'.get c!"WEATHER-ASCII") {u : Str} (hu : (c!"Unknown", u) ∈ pictures)
    {hl sl il : List Str}
    (h1 : WrapsTo P c!"?" 34 hl) (h2 : WrapsTo P c!"?" 19 sl) (h3 : WrapsTo P u 13 il) (hk : 4 ≤ k) :
    ∃ rows, runText P (evalN P H (stdB P L) k) noWeatherText env w = (.ok (.str (below rows)), env, w) ∧
      IsWeather rows hl sl il ∧ Picture rows 11 36 ∧ Corners rows := by
  obtain ⟨v, hr, -⟩ := ascii_define (H := H) (P := P) (L := L) hk0
  cases he.unique (enter_text (ascii_parse P) ascii_run (by omega) (enter_text (getAscii_parse P) hr (by omega) (.nil _)))
  rw [Env.get_define, if_neg (by decide), Env.get_define, if_pos rfl] at ht
  have hat := hs.op (Init.b c!"@" .index) (by mem_tac)
  have hg : BMap.get? asciiBody c!"Unknown" = some (.str u) := ascii_get _ hu
  obtain ⟨k, rfl⟩ : ∃ j, k = j + 4 := ⟨k - 4, by omega⟩
  rw [run_of_parse (noWeather_parse P), do_call hs (tbl := Init.widgetM) (by mem_tac) (by mem_tac)]
  exact weather_joined hs rfl rfl (evalD_member (k := 799) hat ht hg) h1 h2 h3

end

/-- Cutting off what is too long gives lines that fit. -/
theorem cut_wraps {s : Str} {n : Nat} (h : ∀ l ∈ (s ++ List.replicate (n * 2 / 3 - s.length) ' ').splitOn '\n',
      '\n' ∉ l.take n ∧ '\r' ∉ l.take n) :
    WrapsTo cutPlat s n (((s ++ List.replicate (n * 2 / 3 - s.length) ' ').splitOn '\n').map (List.take n)) := by
  refine ⟨rfl, by simp, fun l hl => ?_⟩
  obtain ⟨x, hx, rfl⟩ := List.mem_map.1 hl
  exact ⟨h x hx, by simp⟩

/-- An environment with the texts. -/
def weatherEnv : Env :=
  ((Demo.env.define c!"header-text" (.str c!"Weather in Knoxville, at 12:00")).define c!"stats-text"
        (.str c!"Temp now: 70\nHumidity: 40%")).define c!"weather-ascii" (.str c!"     .-.\n    (   ).")

example : ∃ rows hl sl il, runText cutPlat (evalN cutPlat Demo.host (stdB cutPlat Demo.lib) 4) weatherWidgetText
      weatherEnv [] = (.ok (.str (below rows)), weatherEnv, []) ∧ IsWeather rows hl sl il := by
  obtain ⟨rows, h, hw, -⟩ := C130_weather (P := cutPlat) (H := Demo.host) (L := Demo.lib) (k := 4) (w := [])
    (env := weatherEnv)
    (std_define (std_define (std_define demo_std (by decide +kernel) (by decide +kernel) (by decide +kernel))
      (by decide +kernel) (by decide +kernel) (by decide +kernel)) (by decide +kernel) (by decide +kernel) (by decide +kernel))
    (by rw [weatherEnv, Env.get_define, if_neg (by decide), Env.get_define, if_neg (by decide), Env.get_define, if_pos rfl])
    (by rw [weatherEnv, Env.get_define, if_neg (by decide), Env.get_define, if_pos rfl])
    (by rw [weatherEnv, Env.get_define, if_pos rfl])
    (cut_wraps (by decide +kernel)) (cut_wraps (by decide +kernel))
    (cut_wraps (by decide +kernel)) (by decide)
  exact ⟨rows, _, _, _, h, hw⟩

example : ∃ env' rows hl sl il, Entered Demo.host cutPlat Demo.lib 9 [] [asciiText, getAsciiText] Demo.env env' ∧
    runText cutPlat (evalN cutPlat Demo.host (stdB cutPlat Demo.lib) 4) noWeatherText env' [] =
      (.ok (.str (below rows)), env', []) ∧ IsWeather rows hl sl il := by
  have hk := kept_of_std demo_std [c!"==", c!"||", c!"@"]
  obtain ⟨env', h, hsame⟩ := C119_defines (H := Demo.host) (P := cutPlat) (L := Demo.lib) (n := 9) (w := []) hk (by decide)
  have hs' : Std env' := ⟨
    fun p hp => by rw [hsame _ ((by decide +kernel : ∀ p ∈ Init.ops, p.1 ≠ c!"WEATHER-ASCII") p hp)
      ((by decide +kernel : ∀ p ∈ Init.ops, p.1 ≠ c!"get-weather-ascii") p hp)]; exact demo_std.op p hp,
    fun p hp => by rw [hsame _ ((by decide +kernel : ∀ p ∈ Init.top, p.1 ≠ c!"WEATHER-ASCII") p hp)
      ((by decide +kernel : ∀ p ∈ Init.top, p.1 ≠ c!"get-weather-ascii") p hp)]; exact demo_std.top p hp,
    fun p hp => by rw [hsame _ ((by decide +kernel : ∀ p ∈ Init.modules, p.1 ≠ c!"WEATHER-ASCII") p hp)
      ((by decide +kernel : ∀ p ∈ Init.modules, p.1 ≠ c!"get-weather-ascii") p hp)]; exact demo_std.mod p hp⟩
  obtain ⟨rows, hr, hw, -⟩ := C130_unknown (k := 4) (w := []) hs' hk (by decide) h rfl
    (u := c!"    .-.      \n     __)     \n    (        \n     `-’     \n      •") (by simp [pictures])
    (cut_wraps (by decide +kernel)) (cut_wraps (by decide +kernel))
    (cut_wraps (by decide +kernel)) (by decide)
  exact ⟨env', rows, _, _, _, h, hr, hw⟩

end Dune.Props
