import Verif.Model.Dashboard
import Verif.Props.Pictures

/-! The widgets of the dashboard of the default prelude. -/

namespace Dune.Props

open Spec Spec.Calendar Calc Prelude Repl

/-! ### Specification -/

/-- A dictionary with this month, day and year. -/
def IsDate (v : Expr) (m d y : I64) : Prop := ∃ t, v = .map t ∧ BMap.get? t c!"month" = some (.int m) ∧
  BMap.get? t c!"day" = some (.int d) ∧ BMap.get? t c!"year" = some (.int y)

/-! ### Proofs -/

/-- `make-calendar now@month now@day now@year` -/
abbrev pageCall : Expr := .apply (.symbol c!"make-calendar") [member c!"now" c!"month", member c!"now" c!"day",
  member c!"now" c!"year"]

theorem widgets_parse (P : Plat) : parseText P widgetsText =
    .ok (.do_ [.group (call c!"widget" c!"joinx" [.group pageCall, .group catBox])]) := by kernel_rfl

theorem dashboard_parse (P : Plat) : parseText P dashboardText =
    .ok (.do_ [.group (call c!"widget" c!"joiny" [.symbol c!"default-widgets",
      .group (call c!"widget" c!"joinx" [.group flowerBox, .symbol c!"weather-widget"])])]) := by kernel_rfl

section

variable {W : Type} {H : Host W} {P : Plat} {L : Lib} {n k N : Nat} {w w' : W} {env env1 env' env2 : Env}

theorem do_group_call (hs : Std env) {m f nm hlp : Str} {id : BId} {tbl : List (Str × Expr)} {args : List Expr}
    (hm : (m, tbl) ∈ Init.modules) (hf : (f, .builtin nm id hlp) ∈ tbl) :
    evalN P H (stdB P L) (n + 1) (.do_ [.group (call m f args)]) env w =
      evalN P H (stdB P L) (n + 1) (call m f args) env w := by
  have h1 : evalD P H (bodyRun P H (stdB P L) n) 800 (.group (call m f args)) env w = _ :=
    (kept_of_std hs [c!"@", m]).libD (k := 796) (by simp) (by simp) hm hf
  have h2 := Dune.evalD_lib (P := P) (H := H) (L := L) (n := n) (w := w) (args := args) (k := 798) hs hm hf
  have e : ∀ x, evalN P H (stdB P L) (n + 1) x env w = evalD P H (bodyRun P H (stdB P L) n) (800 + 1) x env w := fun _ => rfl
  rw [e, e, h2, evalD]
  simp only [evalStep, evalDo]
  rw [h1]

theorem page_yields {first : Nat} (h : Usual env) (hP : Centuries P N)
    (hN : N ≤ 10 ^ 12) (hw : Wraps P 28) (hn : 5 ≤ n) (he : Entered H P L n w calendarTexts env env')
    (h2 : env2.get c!"make-calendar" = env'.get c!"make-calendar")
    (hat : env2.get c!"@" = some (.builtin c!"@" .index [])) {v : Expr} {y m d : I64}
    (hnow : env2.get c!"now" = some v) (hdate : IsDate v m d y) (hy : y.val < N)
    (hpos : 1 ≤ y.val ∧ 1 ≤ m.val ∧ 1 ≤ d.val) (hv : (⟨y.val.toNat, m.val.toNat, d.val.toNat⟩ : Date).Valid)
    (hf : Weekday ⟨y.val.toNat, m.val.toNat, 1⟩ first) :
    ∃ rows, Yields H P L 103 env2 pageCall (.str (below rows)) ∧
      Page rows y.val.toNat m.val.toNat d.val.toNat first := by
  obtain ⟨env1, u, a, b, c, he', hg, hfun, hquot, _⟩ := calendar_entered (H := H) (L := L) (w := w) h hP hn
  cases he.unique he'
  rw [hg] at h2
  obtain ⟨t, rfl, t1, t2, t3⟩ := hdate
  obtain ⟨_, rfl⟩ := weekday_formula hf
  obtain ⟨_, _, h12, _, hd⟩ := id hv
  simp only at h12 hd
  have h6 : formula y.val.toNat m.val.toNat 1 ≤ 6 := by
    have : formula y.val.toNat m.val.toNat 1 < 7 := Nat.mod_lt _ (by decide)
    omega
  have hle : ∀ y m, monthDays y m ≤ 31 := by
    intro y m
    unfold monthDays
    repeat' split
    all_goals decide
  have := hle y.val.toNat m.val.toNat
  have hN' : N ≤ 1000000000000 := hN
  obtain ⟨rows, hr, hpage⟩ := page_of_text (P := P) hw hv (by omega) h6
  refine ⟨rows, ?_, hpage⟩
  have hyn : ((y.val.toNat : Nat) : Int) = y.val := Int.toNat_of_nonneg (by omega)
  have hdn : ((d.val.toNat : Nat) : Int) = d.val := Int.toNat_of_nonneg (by omega)
  rw [hyn, hdn] at hr
  have yn : Yields H P L 1 env2 (.symbol c!"now") (.map t) := yields_symbol hnow
  refine yields_call (d := 3) [_, _, _] [.int m, .int d, .int y]
    (.cons (yields_member hat yn (by decide) t1) (.cons (yields_member hat yn (by decide) t2)
      (.cons (yields_member hat yn (by decide) t3) .nil))) _ _ _
    (CalFn P (DowFn P a b c) DaysFn) (yields_symbol h2) hfun
    ⟨m, d, y, ⟨(formula y.val.toNat m.val.toNat 1 : Nat), by omega, by omega⟩,
      ⟨(monthDays y.val.toNat m.val.toNat : Nat), by omega, by omega⟩, monthDays y.val m.val.toNat, rfl,
      ⟨m, .lit 1, y, rfl, hpos.2.1, by omega, hpos.1, by omega, by decide, by decide, ?_, _, rfl, rfl⟩,
      ⟨m, y, rfl, hpos.2.1, by omega, _, by simp only [hyn], rfl⟩, by simp only [hyn], hle _ _, by simp only; omega,
      hpos.2.1, by omega, ?_, ?_⟩
  · intro y' hy'
    exact hquot y' (by split at hy' <;> omega) (by split at hy' <;> omega)
  · have := (title_ok (m := m.val.toNat) (d := d.val.toNat) (y := y.val.toNat) (by omega) (by omega) (by omega)
      (by omega)).1
    rwa [hyn, hdn] at this
  · rw [← hr]
    rfl

/-- C129.  Without the weather, the dashboard shows the page of the month and, beside it, a whole cat, in ten rows of fifty
characters.  This is so for all dates and whatever the source of random numbers answers. -/
theorem C129_widgets {first : Nat} (hs : Std env) (hR : RandomSource H) (hP : Centuries P N) (hN : N ≤ 10 ^ 12)
    (hw : Wraps P 28) (hw' : Keeps P 18) (hn : 5 ≤ n) (he1 : Entered H P L n w [plantsText, catsText] env env1)
    (he : Entered H P L n w calendarTexts env1 env') (hs2 : Std env2)
    (h2 : env2.get c!"make-calendar" = env'.get c!"make-calendar") (h3 : env2.get c!"CATS" = env'.get c!"CATS")
    {v : Expr} {y m d : I64} (hnow : env2.get c!"now" = some v) (hdate : IsDate v m d y) (hy : y.val < N)
    (hpos : 1 ≤ y.val ∧ 1 ≤ m.val ∧ 1 ≤ d.val) (hv : (⟨y.val.toNat, m.val.toNat, d.val.toNat⟩ : Date).Valid)
    (hf : Weekday ⟨y.val.toNat, m.val.toNat, 1⟩ first) (hk : 120 ≤ k) :
    ∃ s page cat w2, runText P (evalN P H (stdB P L) k) widgetsText env2 w' = (.ok (.str s), env2, w2) ∧
      Displays s (beside 10 [page, cat]) ∧ Picture (beside 10 [page, cat]) 10 50 ∧ Corners (beside 10 [page, cat]) ∧
      Page page y.val.toNat m.val.toNat d.val.toNat first ∧
      (∃ lines, IsBox cat c!"Cat" lines 20 10) ∧ ∃ c ∈ cats, ShowsAll cat c 20 := by
  obtain ⟨hs1, -, hcats⟩ := pictures_env hs hn he1
  obtain ⟨e2, he2, hsame⟩ := C106_defines (H := H) (P := P) (L := L) (n := n) (w := w) (usual_of_std hs1) hP hn
  cases he.unique he2
  rw [hsame _ (by decide), hcats] at h3
  have hat := hs2.op (Init.b c!"@" .index) (by mem_tac)
  obtain ⟨page, hpage, hpg⟩ := page_yields (usual_of_std hs1) hP hN hw hn he h2 hat hnow hdate hy hpos hv hf
  obtain ⟨k, rfl⟩ : ∃ j, k = j + 3 := ⟨k - 3, by omega⟩
  obtain ⟨c, hc, cat, w2, hcat, ⟨clines, hcbox⟩, hall⟩ := cat_box (P := P) (L := L) (m := k) (w' := w') hs2 hR hw' h3
  rw [← group_call hs2 (tbl := Init.widgetM) (by mem_tac) (by mem_tac)] at hcat
  obtain ⟨lines, hbox⟩ := hpg.box
  obtain ⟨s, hjoin, hdisp⟩ := C77_joinx (P := P) (H := H) (L := L) (n := k + 2) (w := w') hs2
    (args := [.group pageCall, .group catBox]) (ss := [below page, below cat]) (pics := [page, cat]) (h := 10)
    (by simp) (by decide)
    (.cons (Run.evalN (Run.group hpage) (by omega) (by decide) w') (.cons hcat .nil))
    (.cons ⟨.inl rfl, 30, by decide, hbox.picture⟩ (.cons ⟨.inl rfl, 20, by decide, hcbox.picture⟩ .nil))
  refine ⟨s, page, cat, w2, ?_, hdisp, C77_joinx_size (ws := [30, 20]) (.cons hbox.picture (.cons hcbox.picture .nil)),
    C77_joinx_corners (by simp) ?_, hpg, ⟨_, hcbox⟩, c, hc, hall⟩
  · rw [run_of_parse (widgets_parse P), do_group_call hs2 (tbl := Init.widgetM) (by mem_tac) (by mem_tac)]
    exact hjoin
  · intro p hp
    rcases List.mem_pair.1 hp with rfl | rfl
    · exact ⟨hbox.picture.height, (C77_box_corners hbox).2⟩
    · exact ⟨hcbox.picture.height, (C77_box_corners hcbox).2⟩

/-- C129.  With the weather, a widget of eleven rows of thirty-six characters, the dashboard shows the widgets above
a flower and the weather, in twenty-one rows of fifty characters, whatever the source of random numbers answers. -/
theorem C129_weather (hs : Std env) (hR : RandomSource H) (hn : 5 ≤ n)
    (he : Entered H P L n w [plantsText, catsText] env env') (hs2 : Std env2)
    (h3 : env2.get c!"PLANTS" = env'.get c!"PLANTS")
    (hw : ∀ c ∈ plants, ∃ lines, lines ≠ [] ∧ P.fill c 12 = below lines ∧
      ∀ l ∈ lines, ('\n' ∉ l ∧ '\r' ∉ l) ∧ l.length ≤ 12)
    {s1 s2 : Str} {p1 p2 : List Str} (hv1 : env2.get c!"default-widgets" = some (.str s1)) (hd1 : Displays s1 p1)
    (hc1 : Corners p1) (hp1 : Picture p1 10 50) (hv2 : env2.get c!"weather-widget" = some (.str s2))
    (hd2 : Displays s2 p2) (hc2 : Corners p2) (hp2 : Picture p2 11 36) (hk : 4 ≤ k) :
    ∃ flower w2, runText P (evalN P H (stdB P L) k) dashboardText env2 w' =
        (.ok (.str (below (p1 ++ beside 11 [flower, p2]))), env2, w2) ∧
      Picture (p1 ++ beside 11 [flower, p2]) 21 50 ∧ ∃ lines, IsBox flower c!"Flower" lines 14 11 := by
  obtain ⟨-, hplants, -⟩ := pictures_env hs hn he
  rw [hplants] at h3
  obtain ⟨k, rfl⟩ : ∃ j, k = j + 4 := ⟨k - 4, by omega⟩
  obtain ⟨v, hv, w2, hch⟩ := C76_choose (P := P) (L := L) (n := k) (w := w') hs2 hR (evalN_sym h3) (by decide)
  obtain ⟨c, hm, rfl⟩ := List.mem_map.1 hv
  rw [← group_call hs2 (tbl := Init.randM) (by mem_tac) (by mem_tac)] at hch
  obtain ⟨lines, h0, hfill, hlines⟩ := hw c hm
  have f6 : 8 - c.length = 0 := (by decide +kernel : ∀ c ∈ plants, 8 - c.length = 0) c hm
  obtain ⟨rows, hfl, hb⟩ := C77_create (P := P) (H := H) (L := L) (n := k + 1) (w := w') hs2 (t := .str c!"Flower")
    (a := .int (.lit 14)) (b := .int (.lit 11)) (lines := lines) rfl rfl hch rfl
    (by decide) (by decide) (show ((c!"Flower").length : Int) + 2 ≤ 14 by decide)
    (show '\n' ∉ c!"Flower" ∧ '\r' ∉ c!"Flower" by decide)
    (by show P.fill (c ++ List.replicate (8 - c.length) ' ') 12 = _; rw [f6]; simpa using hfill) h0
    (fun l hl => ⟨(hlines l hl).1, by have := (hlines l hl).2; show (l.length : Int) + 2 ≤ 14; omega⟩)
  have hpic : Picture rows 11 14 := hb.picture
  rw [← group_call hs2 (tbl := Init.widgetM) (by mem_tac) (by mem_tac)] at hfl
  obtain ⟨s, hjoin, hdisp⟩ := C77_joinx (P := P) (H := H) (L := L) (n := k + 2) (w := w') hs2
    (args := [.group flowerBox, .symbol c!"weather-widget"]) (ss := [below rows, s2]) (pics := [rows, p2]) (h := 11)
    (by simp) (by decide) (.cons hfl (.cons (evalN_sym hv2) .nil))
    (.cons ⟨.inl rfl, 14, by decide, hpic⟩ (.cons ⟨hd2, 36, by decide, hp2⟩ .nil))
  rw [← group_call hs2 (tbl := Init.widgetM) (by mem_tac) (by mem_tac)] at hjoin
  have hsize : Picture (beside 11 [rows, p2]) 11 50 := C77_joinx_size (ws := [14, 36]) (.cons hpic (.cons hp2 .nil))
  have hcor : Corners (beside 11 [rows, p2]) := by
    refine C77_joinx_corners (by simp) fun p hp => ?_
    rcases List.mem_pair.1 hp with rfl | rfl
    · exact ⟨hpic.height, (C77_box_corners hb).2⟩
    · exact ⟨hp2.height, hc2⟩
  have hall := C77_joiny (P := P) (H := H) (L := L) (n := k + 3) (w := w') hs2
    (args := [.symbol c!"default-widgets", .group (call c!"widget" c!"joinx" [.group flowerBox, .symbol c!"weather-widget"])])
    (ss := [s1, s]) (pics := [p1, beside 11 [rows, p2]]) (wd := 50) (by simp) (by decide)
    (.cons (evalN_sym hv1) (.cons hjoin .nil))
    (.cons ⟨hd1, hc1, 10, hp1⟩ (.cons ⟨hdisp, hcor, 11, hsize⟩ .nil))
  have hsz := C77_joiny_size (pics := [p1, beside 11 [rows, p2]]) (wd := 50) (hs := [10, 11]) (.cons hp1 (.cons hsize .nil))
  simp only [List.flatten_cons, List.flatten_nil, List.append_nil] at hall hsz
  refine ⟨rows, w2, ?_, hsz, _, hb⟩
  rw [run_of_parse (dashboard_parse P), do_group_call hs2 (tbl := Init.widgetM) (by mem_tac) (by mem_tac)]
  exact hall

end

/-- The widgets on the 29th of February 2024. -/
example : ∃ env1 env' env2, Entered lowest PreludeDemo.plat Demo.lib 5 () [plantsText, catsText] Demo.env env1 ∧
    Entered lowest PreludeDemo.plat Demo.lib 5 () calendarTexts env1 env' ∧
    ∃ s page cat w2, runText PreludeDemo.plat (evalN PreludeDemo.plat lowest (stdB PreludeDemo.plat Demo.lib) 120)
        widgetsText env2 () = (.ok (.str s), env2, w2) ∧
      Displays s (beside 10 [page, cat]) ∧ Page page 2024 2 29 4 := by
  obtain ⟨env1, h1, -⟩ := C128_defines (H := lowest) (P := PreludeDemo.plat) (L := Demo.lib) (n := 5) (w := ())
    (env := Demo.env) (by decide)
  obtain ⟨hs1, -, -⟩ := pictures_env demo_std (by decide) h1
  obtain ⟨env', h2, hsame⟩ := C106_defines (H := lowest) (P := PreludeDemo.plat) (L := Demo.lib) (n := 5) (w := ())
    (usual_of_std hs1) PreludeDemo.centuries (by decide)
  have hs' : Std env' := ⟨
    fun p hp => by rw [hsame _ ((by decide +kernel : ∀ p ∈ Init.ops, p.1 ∉ _) p hp)]; exact hs1.op p hp,
    fun p hp => by rw [hsame _ ((by decide +kernel : ∀ p ∈ Init.top, p.1 ∉ _) p hp)]; exact hs1.top p hp,
    fun p hp => by rw [hsame _ ((by decide +kernel : ∀ p ∈ Init.modules, p.1 ∉ _) p hp)]; exact hs1.mod p hp⟩
  obtain ⟨q, hq, _⟩ := C106_dates (t := ⟨2024, 2, 1⟩) (by decide)
  have : q = 4 := by rw [(weekday_formula hq).2]; rfl
  subst this
  obtain ⟨s, page, cat, w2, h, hd, -, -, hp, -⟩ := C129_widgets (k := 120) (w' := ()) (y := .lit 2024) (m := .lit 2) (d := .lit 29)
    (env2 := env'.define c!"now" (.map [(c!"day", .int (.lit 29)), (c!"month", .int (.lit 2)), (c!"year", .int (.lit 2024))]))
    demo_std lowest_source PreludeDemo.centuries (Nat.le_refl _) PreludeDemo.wraps (keeps_demo 18) (by decide) h1 h2
    (std_define hs' (by decide +kernel) (by decide +kernel) (by decide +kernel))
    (by rw [Env.get_define, if_neg (by decide)]) (by rw [Env.get_define, if_neg (by decide)])
    (by rw [Env.get_define, if_pos rfl]) ⟨_, rfl, rfl, rfl, rfl⟩ (by decide) (by decide) (by decide) hq (by decide)
  exact ⟨env1, env', _, h1, h2, s, page, cat, w2, h, hd, hp⟩

/-- There are such widgets, and such a way of wrapping. -/
example : (∃ p1 p2, Corners p1 ∧ Picture p1 10 50 ∧ Corners p2 ∧ Picture p2 11 36) ∧
    ∀ c ∈ plants, ∃ lines, lines ≠ [] ∧ cutPlat.fill c 12 = below lines ∧
      ∀ l ∈ lines, ('\n' ∉ l ∧ '\r' ∉ l) ∧ l.length ≤ 12 := by
  have pic : ∀ h w : Nat, Corners (List.replicate (h + 2) (List.replicate (w + 2) '#')) ∧
      Picture (List.replicate (h + 2) (List.replicate (w + 2) '#')) (h + 2) (w + 2) := by
    intro h w
    refine ⟨⟨⟨'#', List.replicate (w + 1) '#', List.replicate (h + 1) (List.replicate (w + 2) '#'), rfl, by decide⟩,
      '#', List.replicate (w + 1) '#', List.replicate (h + 1) (List.replicate (w + 2) '#'), ?_, by decide⟩, by simp, ?_, ?_⟩
    · rw [← List.replicate_succ', ← List.replicate_succ']
    · intro r hr
      rw [List.eq_of_mem_replicate hr]
      simp
    · intro r hr
      rw [List.eq_of_mem_replicate hr]
      simp
  refine ⟨⟨_, _, (pic 8 48).1, (pic 8 48).2, (pic 9 34).1, (pic 9 34).2⟩, fun c hc => ⟨(c.splitOn '\n').map (List.take 12), ?_⟩⟩
  have h : ∀ c ∈ plants, (c.splitOn '\n').map (List.take 12) ≠ [] ∧
      ∀ l ∈ (c.splitOn '\n').map (List.take 12), ('\n' ∉ l ∧ '\r' ∉ l) ∧ l.length ≤ 12 := by decide +kernel
  exact ⟨(h c hc).1, rfl, (h c hc).2⟩

end Dune.Props
