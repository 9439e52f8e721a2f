import Verif.Proof.Numeral
import Verif.Spec.Terminal
import Verif.Props.Basics
import Verif.Props.Insert
import Verif.Props.Text
import Verif.Props.Styles
import Verif.Props.Widget

/-! C84: the functions of `console` that draw on the terminal. -/

namespace Dune.Props

open Spec

/-! ### The terminal -/

theorem feed_append (t : Term) (a b : Str) : t.feed (a ++ b) = (t.feed a).feed b :=
  List.foldl_append

theorem feed_cons (t : Term) (c : Char) (s : Str) : t.feed (c :: s) = (t.next c).feed s := rfl

theorem control_state (t : Term) (ps : Str) (f : Char) (s : TermState) :
    { ({ t with state := s } : Term).control ps f with state := t.state } = t.control ps f := by
  unfold Term.control
  split <;> (repeat' split) <;> rfl

theorem control_keeps (t : Term) (ps : Str) (f : Char) : (t.control ps f).state = t.state := by
  unfold Term.control
  split <;> (repeat' split) <;> rfl

theorem feed_params {t : Term} {qs : Str} (hq : ∀ c ∈ qs, c.toNat < 64 ∧ c ≠ '\x1b') : ∀ {ps : Str},
    t.state = .csi ps → t.feed qs = { t with state := .csi (ps ++ qs) } := by
  induction qs generalizing t with
  | nil => intro ps h; rw [List.append_nil, ← h]; rfl
  | cons c qs ih =>
    intro ps h
    simp only [List.forall_mem_cons] at hq
    have h1 : t.next c = { t with state := .csi (ps ++ [c]) } := by
      unfold Term.next
      rw [h]
      simp only [if_neg hq.1.2, if_neg (Nat.not_le.2 hq.1.1)]
    rw [feed_cons, h1, ih hq.2 rfl]
    simp

/-- a control sequence -/
theorem feed_csi {t : Term} (hg : t.state = .ground) {ps : Str}
    (hp : ∀ c ∈ ps, c.toNat < 64 ∧ c ≠ '\x1b') {f : Char} (hf : 64 ≤ f.toNat) :
    t.feed (c!"\x1b[" ++ ps ++ [f]) = t.control ps f := by
  have h1 : t.feed c!"\x1b[" = { t with state := .csi [] } := by
    show (t.next '\x1b').next '[' = _
    have : t.next '\x1b' = { t with state := .esc } := by unfold Term.next; rw [hg]; rfl
    rw [this]
    rfl
  rw [feed_append, feed_append, h1, feed_params hp rfl]
  rw [show ∀ t' : Term, t'.feed [f] = t'.next f from fun _ => rfl]
  unfold Term.next
  have hf' : f ≠ '\x1b' := by rintro rfl; exact absurd hf (by decide)
  simp only [if_neg hf', if_pos hf, List.nil_append]
  rw [← hg]
  exact control_state t ps f _

/-- printable text which fits into the row -/
theorem feed_text {l : Str} (hl : ∀ c ∈ l, Printable c) : ∀ {t : Term}, t.state = .ground →
    t.col + l.length ≤ t.cols + 1 →
    t.feed l = { t with
      cell := fun r c => if r = t.row ∧ t.col ≤ c then (l[c - t.col]?).getD (t.cell r c)
        else t.cell r c
      col := t.col + l.length } := by
  induction l with
  | nil =>
    intro t _ _
    have : t.cell = fun r c => if r = t.row ∧ t.col ≤ c then (([] : Str)[c - t.col]?).getD (t.cell r c)
        else t.cell r c := by funext r c; simp
    rw [← this]
    rfl
  | cons x l ih =>
    intro t hg hfit
    simp only [List.forall_mem_cons] at hl
    simp only [List.length_cons] at hfit
    have hn : t.next x = { t with
        cell := fun r c => if r = t.row ∧ c = t.col then x else t.cell r c, col := t.col + 1 } := by
      have h32 : ¬ x.toNat < 32 := Nat.not_lt.2 hl.1.1
      unfold Term.next
      rw [hg]
      simp only
      rw [if_neg (by rintro rfl; exact h32 (by decide)), if_neg (by rintro rfl; exact h32 (by decide)),
        if_neg (by rintro rfl; exact h32 (by decide)), if_pos hl.1, Term.put]
      simp only [if_neg (show ¬ t.cols < t.col by omega)]
      rw [hg]
    rw [feed_cons, hn, ih hl.2 (t := { t with
        cell := fun r c => if r = t.row ∧ c = t.col then x else t.cell r c, col := t.col + 1 }) hg
      (by simp only; omega)]
    simp only [List.length_cons, Term.mk.injEq, true_and, and_true]
    refine ⟨?_, by omega⟩
    funext r c
    by_cases hr : r = t.row
    · by_cases h1 : t.col + 1 ≤ c
      · obtain ⟨k, hk⟩ : ∃ k, c - t.col = k + 1 := ⟨c - t.col - 1, by omega⟩
        have h2 : c - (t.col + 1) = k := by omega
        simp [hr, h1, show t.col ≤ c by omega, show c ≠ t.col by omega, hk, h2]
      · by_cases h3 : c = t.col
        · simp [hr, h3, show ¬ t.col + 1 ≤ t.col by omega]
        · simp [hr, h1, h3, show ¬ t.col ≤ c by omega]
    · simp [hr]

theorem natToStr_params (n : Nat) : ∀ c ∈ natToStr n, c.toNat < 64 ∧ c ≠ '\x1b' := by
  rw [natToStr_toDigits]
  intro c hc
  exact (show ∀ c ∈ digitChars, c.toNat < 64 ∧ c ≠ '\x1b' by decide) c (toDigits_digits n c hc)

theorem natToStr_noSemi (n : Nat) : ∀ c ∈ natToStr n, decide (c ≠ ';') = true := by
  rw [natToStr_toDigits]
  intro c hc
  exact (show ∀ c ∈ digitChars, decide (c ≠ ';') = true by decide) c (toDigits_digits n c hc)

theorem firstParam_one (n : Nat) : firstParam (natToStr n) = max 1 n := by
  rw [firstParam, List.takeWhile_eq_self_iff.2 (natToStr_noSemi n), decimal_natToStr]

theorem params_two (m n : Nat) : firstParam (natToStr m ++ ';' :: natToStr n) = max 1 m ∧
    secondParam (natToStr m ++ ';' :: natToStr n) = max 1 n := by
  have h1 : (natToStr m ++ ';' :: natToStr n).takeWhile (· ≠ ';') = natToStr m := by
    rw [List.takeWhile_append_of_pos (natToStr_noSemi m)]
    simp
  have h2 : (natToStr m ++ ';' :: natToStr n).dropWhile (· ≠ ';') = ';' :: natToStr n := by
    rw [List.dropWhile_append_of_pos (natToStr_noSemi m)]
    simp
  rw [firstParam, secondParam, h1, h2, List.drop_one, List.tail_cons,
    List.takeWhile_eq_self_iff.2 (natToStr_noSemi n), decimal_natToStr, decimal_natToStr]
  exact ⟨rfl, rfl⟩

/-- what `console@write` sends for one line -/
theorem feed_line {t : Term} (hg : t.state = .ground) {x y : Nat} (hx : 1 ≤ x) (hy : 1 ≤ y)
    (hrow : y ≤ t.rows) {l : Str} (hl : ∀ c ∈ l, Printable c) (hfit : x + l.length ≤ t.cols + 1) :
    t.feed (c!"\x1b[s\x1b[" ++ (natToStr y ++ c!";" ++ natToStr x) ++ c!"H\x1b[" ++
      (natToStr y ++ c!";" ++ natToStr x) ++ c!"f" ++ l ++ c!"\x1b[u") =
    { t with
      cell := fun r c => if r = y ∧ x ≤ c then (l[c - x]?).getD (t.cell r c) else t.cell r c
      saved := (t.row, t.col) } := by
  have hps : ∀ c ∈ natToStr y ++ c!";" ++ natToStr x, c.toNat < 64 ∧ c ≠ '\x1b' := by
    simp only [List.mem_append]
    rintro c ((h | h) | h)
    · exact natToStr_params _ c h
    · simp only [List.mem_cons, List.not_mem_nil, or_false] at h; subst h; decide
    · exact natToStr_params _ c h
  have hpar := params_two y x
  rw [show natToStr y ++ ';' :: natToStr x = natToStr y ++ c!";" ++ natToStr x by simp] at hpar
  generalize natToStr y ++ c!";" ++ natToStr x = ps at hps hpar
  have e : c!"\x1b[s\x1b[" ++ ps ++ c!"H\x1b[" ++ ps ++ c!"f" ++ l ++ c!"\x1b[u" =
      (c!"\x1b[" ++ [] ++ ['s']) ++ ((c!"\x1b[" ++ ps ++ ['H']) ++ ((c!"\x1b[" ++ ps ++ ['f']) ++
        (l ++ (c!"\x1b[" ++ [] ++ ['u'])))) := by simp
  rw [e, feed_append, feed_csi hg (by simp) (by decide), feed_append,
    feed_csi (by rw [control_keeps, hg]) hps (by decide), feed_append,
    feed_csi (by rw [control_keeps, control_keeps, hg]) hps (by decide), feed_append]
  simp only [Term.control, hpar.1, hpar.2]
  rw [show onAxis t.rows (max 1 y) = y by rw [onAxis]; omega]
  by_cases hx' : x ≤ t.cols
  · rw [show onAxis t.cols (max 1 x) = x by rw [onAxis]; omega]
    rw [feed_text hl (t := { t with row := y, col := x, saved := (t.row, t.col) }) hg hfit]
    refine Eq.trans (feed_csi (ps := []) (f := 'u') ?_ (by simp) (by decide)) ?_
    · exact hg
    · rfl
  · have : l = [] := List.length_eq_zero_iff.1 (by omega)
    subst this
    rw [show ∀ t' : Term, t'.feed [] = t' from fun _ => rfl]
    refine Eq.trans (feed_csi (ps := []) (f := 'u') ?_ (by simp) (by decide)) ?_
    · exact hg
    · simp [Term.control]

theorem inLines_linesOf {s : Str} {ls : List Str} (h : InLines s ls) : linesOf s = ls := by
  induction h with
  | none => rfl
  | last h0 hn => exact linesOf_one hn h0
  | @line l l' rest ls hn hb _ ih =>
    cases hb with
    | cr =>
      rw [List.append_assoc, List.append_assoc]
      simp only [List.cons_append, List.nil_append]
      rw [linesOf_cons_cr (by intro h; exact hn (by simp [h])), ih]
    | plain _ h =>
      rw [List.append_assoc]
      simp only [List.cons_append, List.nil_append]
      rw [linesOf_cons ⟨hn, h⟩, ih]

section

variable {W : Type} {P : Plat} {H : Host W} {L : Lib} {n : Nat} {env env1 env2 env3 : Env}
  {w w1 w2 w3 : W} {shown : W → Str}

theorem arith_small {z : Int} (h0 : 0 ≤ z) (h1 : z < 2 ^ 62) :
    ∃ i : I64, Builtins.arith P z = .ok i ∧ i.val = z := by
  refine ⟨⟨z, by omega, by omega⟩, ?_, rfl⟩
  rw [Builtins.arith, ofInt_some ⟨z, by omega, by omega⟩ rfl]

theorem run_writeLoop {ev0 : Expr → M W Expr} (hc : Console H shown) (t0 : Term) {X Y : I64}
    {x y : Nat} (hX : X.val = x) (hY : Y.val = y) (hx : 1 ≤ x) (hy : 1 ≤ y) :
    ∀ (ls : List Str) (i : Nat) (w : W), (t0.feed (shown w)).state = .ground →
      (∀ l ∈ ls, ∀ c ∈ l, Printable c) →
      (∀ l ∈ ls, x + l.length ≤ (t0.feed (shown w)).cols + 1) →
      y + i + ls.length ≤ (t0.feed (shown w)).rows + 1 → (t0.feed (shown w)).rows < 65536 →
      ∃ w', (Builtins.writeLoop P X Y i ls).run H ev0 env w = (.ok (), env, w') ∧
        t0.feed (shown w') = { t0.feed (shown w) with
          cell := fun r c => (pictureAt ls x (y + i) r c).getD ((t0.feed (shown w)).cell r c)
          saved := if ls = [] then (t0.feed (shown w)).saved
            else ((t0.feed (shown w)).row, (t0.feed (shown w)).col) }
  | [], i, w, _, _, _, _, _ => by
    refine ⟨w, rfl, ?_⟩
    simp only [if_true]
    have : (fun r c => (pictureAt [] x (y + i) r c).getD ((t0.feed (shown w)).cell r c)) =
        (t0.feed (shown w)).cell := by
      funext r c
      simp [pictureAt]
    rw [this]
  | l :: ls, i, w, hg, hp, hfit, hrows, hsize => by
    simp only [List.forall_mem_cons] at hp hfit
    simp only [List.length_cons] at hrows
    obtain ⟨R, hR, hRv⟩ := arith_small (P := P) (z := Y.val + i) (by omega) (by omega)
    have hRs : intToStr R.val = natToStr (y + i) := by rw [hRv, hY]; rfl
    have hXs : intToStr X.val = natToStr x := by rw [hX]; rfl
    have hl := feed_line hg hx (y := y + i) (by omega) (by omega) hp.1 hfit.1
    have hw := hc.print (c!"\x1b[s\x1b[" ++ (natToStr (y + i) ++ c!";" ++ natToStr x) ++ c!"H\x1b[" ++
      (natToStr (y + i) ++ c!";" ++ natToStr x) ++ c!"f" ++ l ++ c!"\x1b[u") w
    rw [← feed_append, ← hw] at hl
    generalize hgen : (H.io (.print (c!"\x1b[s\x1b[" ++ (natToStr (y + i) ++ c!";" ++ natToStr x) ++
      c!"H\x1b[" ++ (natToStr (y + i) ++ c!";" ++ natToStr x) ++ c!"f" ++ l ++ c!"\x1b[u")) w).2 = w1
      at hl hw
    obtain ⟨w', h1, h2⟩ := run_writeLoop (ev0 := ev0) hc t0 hX hY hx hy ls (i + 1) w1
      (by rw [hl]; exact hg) hp.2 (by rw [hl]; exact hfit.2) (by rw [hl]; simp only; omega)
      (by rw [hl]; exact hsize)
    refine ⟨w', ?_, ?_⟩
    · rw [Builtins.writeLoop, hR]
      simp only [BProg.run_bind, hXs]
      rw [M.bind_ok (show (BProg.lift (Outcome.ok R)).run H ev0 env w = (.ok R, env, w) from rfl),
        M.bind_ok (run_out_shown hc _), hRs, hgen]
      exact h1
    · rw [h2, hl]
      simp only [Term.mk.injEq, true_and, and_true, if_neg (List.cons_ne_nil l ls)]
      refine ⟨?_, by split <;> rfl⟩
      funext r c
      simp only [pictureAt]
      by_cases hcx : x ≤ c
      · by_cases h1 : y + (i + 1) ≤ r
        · obtain ⟨k, hk⟩ : ∃ k, r - (y + i) = k + 1 := ⟨r - (y + i) - 1, by omega⟩
          have hk2 : r - (y + (i + 1)) = k := by omega
          simp [hcx, h1, show y + i ≤ r by omega, show r ≠ y + i by omega, hk, hk2]
        · by_cases h3 : r = y + i
          · subst h3
            simp [hcx, h1]
          · simp [hcx, h1, h3, show ¬ y + i ≤ r by omega]
      · simp [hcx]

/-- C84.  `console@write x y v` shows the lines of the text of `v` one below the other, the first
character of the first one in column `x` of row `y`, if they fit on the screen.  Nothing else on the
screen changes and the cursor stays where it was; the position saved last is replaced. -/
theorem C84_write (hs : Std env) (hc : Console H shown) (t0 : Term) {a b d v : Expr} {X Y : I64}
    (ha : evalN P H (stdB P L) n a env w = (.ok (.int X), env1, w1))
    (hb : evalN P H (stdB P L) n b env1 w1 = (.ok (.int Y), env2, w2))
    (hd : evalN P H (stdB P L) n d env2 w2 = (.ok v, env3, w3)) {x y : Nat} (hX : X.val = x)
    (hY : Y.val = y) (hx : 1 ≤ x) (hy : 1 ≤ y) {ls : List Str} (hl : InLines (display P v) ls)
    (hp : ∀ l ∈ ls, ∀ c ∈ l, Printable c) {t : Term} (ht : t0.feed (shown w3) = t)
    (hg : t.state = .ground) (hcols : ∀ l ∈ ls, x + l.length ≤ t.cols + 1)
    (hrows : y + ls.length ≤ t.rows + 1) (hsize : t.rows < 65536) :
    ∃ w', evalN P H (stdB P L) (n + 1) (call c!"console" c!"write" [a, b, d]) env w =
        (.ok .none, env3, w') ∧
      t0.feed (shown w') = { t with
        cell := fun r c => (pictureAt ls x y r c).getD (t.cell r c)
        saved := if ls = [] then t.saved else (t.row, t.col) } := by
  subst ht
  obtain ⟨w', h1, h2⟩ := run_writeLoop (P := P) (ev0 := evalN P H (stdB P L) n) (env := env3) hc t0
    hX hY hx hy ls 0 w3 hg hp hcols hrows hsize
  refine ⟨w', ?_, h2⟩
  lib hs, Init.consoleM
  rw [← inLines_linesOf hl] at h1
  brun [Builtins.consoleWriteB, ha, hb, hd]
  rw [h1]

/-- C84.  Showing a picture of `widget` changes exactly a rectangle of its size. -/
theorem C84_picture (hs : Std env) (hc : Console H shown) (t0 : Term) {a b d : Expr} {X Y : I64}
    {rows : List Str} {h wd : Nat} (hpic : Picture rows h wd) (hw : 0 < wd)
    (ha : evalN P H (stdB P L) n a env w = (.ok (.int X), env1, w1))
    (hb : evalN P H (stdB P L) n b env1 w1 = (.ok (.int Y), env2, w2))
    (hd : evalN P H (stdB P L) n d env2 w2 = (.ok (.str (below rows)), env3, w3)) {x y : Nat}
    (hX : X.val = x) (hY : Y.val = y) (hx : 1 ≤ x) (hy : 1 ≤ y)
    (hp : ∀ l ∈ rows, ∀ c ∈ l, Printable c) {t : Term} (ht : t0.feed (shown w3) = t)
    (hg : t.state = .ground) (hcols : x + wd ≤ t.cols + 1) (hrows : y + h ≤ t.rows + 1)
    (hsize : t.rows < 65536) :
    ∃ w', evalN P H (stdB P L) (n + 1) (call c!"console" c!"write" [a, b, d]) env w =
        (.ok .none, env3, w') ∧
      (∀ r c, (t0.feed (shown w')).cell r c =
        if y ≤ r ∧ r < y + h ∧ x ≤ c ∧ c < x + wd then ((rows.getD (r - y) []).getD (c - x) ' ')
        else t.cell r c) := by
  have hl : InLines (below rows) rows := by
    have := inLines_go (below rows) [] (by simp)
    rw [show linesGo (below rows) [] = rows from picture_lines hpic hw] at this
    simpa using this
  obtain ⟨w', h1, h2⟩ := C84_write (v := .str (below rows)) hs hc t0 ha hb hd hX hY hx hy hl hp ht hg
    (fun l hl => by rw [hpic.width l hl]; exact hcols) (by rw [hpic.height]; exact hrows) hsize
  refine ⟨w', h1, fun r c => ?_⟩
  rw [h2]
  simp only [pictureAt]
  by_cases hr : y ≤ r ∧ x ≤ c
  · by_cases hin : r - y < rows.length
    · have hlen : (rows[r - y]).length = wd := hpic.width _ (List.getElem_mem hin)
      rw [if_pos ⟨hr.2, hr.1⟩, List.getElem?_eq_getElem hin, Option.bind_some]
      by_cases hc' : c - x < wd
      · rw [if_pos ⟨hr.1, by rw [← hpic.height]; omega, hr.2, by omega⟩,
          List.getElem?_eq_getElem (by rw [hlen]; exact hc')]
        simp [hin, hlen, hc']
      · rw [if_neg (by rintro ⟨_, _, _, h⟩; omega), List.getElem?_eq_none (by omega)]
        rfl
    · rw [if_pos ⟨hr.2, hr.1⟩, List.getElem?_eq_none (by omega), if_neg (by
        rw [← hpic.height]; rintro ⟨_, h, _⟩; omega)]
      rfl
  · rw [if_neg (by rintro ⟨h1, h2⟩; exact hr ⟨h2, h1⟩),
      if_neg (by rintro ⟨h1, _, h2, _⟩; exact hr ⟨h1, h2⟩)]
    rfl

/-- a call of a member of `console@cursor` or `console@mode` -/
theorem eval_console2 {m f nm hlp : Str} {tbl : List (Str × Expr)} {id : BId} {args : List Expr}
    (hs : Std env) (hm : (m, Expr.map (BMap.ofList tbl)) ∈ Init.consoleM)
    (hf : BMap.get? (BMap.ofList tbl) f = some (.builtin nm id hlp)) :
    evalN P H (stdB P L) (n + 1) (call2 c!"console" m f args) env w =
      evalN P H (stdB P L) (n + 1) (.apply (.builtin nm id hlp) args) env w := by
  refine evalN_call n ?_ (env1 := env) (w1 := w)
  obtain ⟨t, ht, h⟩ := hs.mod (c!"console", Init.consoleM) (by mem_tac)
  have ht' : env.get c!"console" = some (.map t) := ht
  have hat : env.get c!"@" = some (.builtin c!"@" .index []) :=
    hs.op (Init.b c!"@" .index) (by mem_tac)
  have hd : t.get? m = some (.map (BMap.ofList tbl)) := h _ hm
  rw [evalD]
  simp only [evalStep]
  rw [M.bind_ok (evalD_symbol hat)]
  simp only [applyValue, bodyRun, stdB, Builtins.indexB, Builtins.evArg, Builtins.arg,
    List.getElem?_cons_zero, BProg.run_bind, BProg.run_ret, pure_bind, BProg.run_ev, List.tail_cons,
    Builtins.indexLoop]
  rw [M.bind_ok (evalN_sym ht')]
  simp only [Expr.index, hd, Option.getD_some, hf]
  rfl

/-- C84.  `console@cursor@move-to x y` puts the cursor into column `x` of row `y`, or as near as the
screen allows. -/
theorem C84_move_to (hs : Std env) (hc : Console H shown) (t0 : Term) {a b : Expr} {X Y : I64}
    (ha : evalN P H (stdB P L) n a env w = (.ok (.int X), env1, w1))
    (hb : evalN P H (stdB P L) n b env1 w1 = (.ok (.int Y), env2, w2)) {x y : Nat} (hX : X.val = x)
    (hY : Y.val = y) {t : Term} (ht : t0.feed (shown w2) = t) (hg : t.state = .ground) :
    ∃ w', evalN P H (stdB P L) (n + 1) (call2 c!"console" c!"cursor" c!"move-to" [a, b]) env w =
        (.ok .none, env2, w') ∧
      t0.feed (shown w') = { t with row := onAxis t.rows y, col := onAxis t.cols x } := by
  have hps : ∀ c ∈ natToStr y ++ c!";" ++ natToStr x, c.toNat < 64 ∧ c ≠ '\x1b' := by
    simp only [List.mem_append]
    rintro c ((h | h) | h)
    · exact natToStr_params _ c h
    · simp only [List.mem_cons, List.not_mem_nil, or_false] at h; subst h; decide
    · exact natToStr_params _ c h
  have hpar := params_two y x
  rw [show natToStr y ++ ';' :: natToStr x = natToStr y ++ c!";" ++ natToStr x by simp] at hpar
  have hYs : intToStr Y.val = natToStr y := by rw [hY]; rfl
  have hXs : intToStr X.val = natToStr x := by rw [hX]; rfl
  refine ⟨(H.io (.print (c!"\x1b[" ++ (natToStr y ++ c!";" ++ natToStr x) ++ ['f'])) w2).2, ?_, ?_⟩
  · rw [eval_console2 hs (tbl := Init.cursorM) (nm := c!"move-to") (id := .cMoveTo) (hlp := [])
      (by mem_tac) rfl]
    brun [Builtins.moveToB, ha, hb, hYs, hXs]
    have := run_out_shown (ev0 := evalN P H (stdB P L) n) (env := env2) (w := w2) hc
      (c!"\x1b[" ++ (natToStr y ++ c!";" ++ natToStr x) ++ ['f'])
    simp only [List.append_assoc, List.cons_append, List.nil_append] at this ⊢
    rw [this]
  · rw [hc.print, feed_append, ht, feed_csi hg hps (by decide)]
    simp only [Term.control, hpar.1, hpar.2]
    rw [show ∀ l k, onAxis l (max 1 k) = onAxis l k by intro l k; simp only [onAxis]; omega]
    rw [show ∀ l k, onAxis l (max 1 k) = onAxis l k by intro l k; simp only [onAxis]; omega]

/-- a function that sends a control sequence with at most one number -/
theorem run_send {ev0 : Expr → M W Expr} (hc : Console H shown) (t0 : Term) {ps : Str} {f : Char}
    (hp : ∀ c ∈ ps, c.toNat < 64 ∧ c ≠ '\x1b') (hf : 64 ≤ f.toNat)
    (hg : (t0.feed (shown w)).state = .ground) :
    ∃ w', (Builtins.out (c!"\x1b[" ++ ps ++ [f])).run H ev0 env w = (.ok (), env, w') ∧
      t0.feed (shown w') = (t0.feed (shown w)).control ps f :=
  ⟨_, run_out_shown hc _, by rw [hc.print, feed_append, feed_csi hg hp hf]⟩

theorem run_moveB (hc : Console H shown) (t0 : Term) {a : Expr} {X : I64} {name : Str} {dir : Char}
    (hdir : 64 ≤ dir.toNat)
    (ha : evalN P H (stdB P L) n a env w = (.ok (.int X), env1, w1)) {x : Nat} (hX : X.val = x)
    {t : Term} (ht : t0.feed (shown w1) = t) (hg : t.state = .ground) :
    ∃ w', (Builtins.moveB P name dir [a]).run H (evalN P H (stdB P L) n) env w =
        (.ok .none, env1, w') ∧ t0.feed (shown w') = t.control (natToStr x) dir := by
  subst ht
  obtain ⟨w', h1, h2⟩ := run_send (ev0 := evalN P H (stdB P L) n) (env := env1) hc t0
    (natToStr_params x) hdir hg
  refine ⟨w', ?_, h2⟩
  have hXs : intToStr X.val = natToStr x := by rw [hX]; rfl
  rw [← hXs] at h1
  brun [Builtins.moveB, ha]
  simp only [List.cons_append, List.nil_append] at h1 ⊢
  rw [h1]

/-- C84.  `move-up`, `move-down`, `move-left` and `move-right` move the cursor that far, but not off
the screen.  Zero means one. -/
theorem C84_move (hs : Std env) (hc : Console H shown) (t0 : Term) {a : Expr} {X : I64}
    (ha : evalN P H (stdB P L) n a env w = (.ok (.int X), env1, w1)) {x : Nat} (hX : X.val = x)
    {t : Term} (ht : t0.feed (shown w1) = t) (hg : t.state = .ground) (hcol : t.col ≤ t.cols)
    {name : Str} {row col : Nat}
    (hdir : (name = c!"move-up" ∧ row = onAxis t.rows (t.row - max 1 x) ∧ col = t.col) ∨
      (name = c!"move-down" ∧ row = onAxis t.rows (t.row + max 1 x) ∧ col = t.col) ∨
      (name = c!"move-left" ∧ row = t.row ∧ col = onAxis t.cols (t.col - max 1 x)) ∨
      (name = c!"move-right" ∧ row = t.row ∧ col = onAxis t.cols (t.col + max 1 x))) :
    ∃ w', evalN P H (stdB P L) (n + 1) (call2 c!"console" c!"cursor" name [a]) env w =
        (.ok .none, env1, w') ∧ t0.feed (shown w') = { t with row := row, col := col } := by
  have hfp := firstParam_one x
  rcases hdir with ⟨rfl, rfl, rfl⟩ | ⟨rfl, rfl, rfl⟩ | ⟨rfl, rfl, rfl⟩ | ⟨rfl, rfl, rfl⟩
  · obtain ⟨w', h1, h2⟩ := run_moveB (name := c!"move-up") (dir := 'A') hc t0 (by decide) ha hX ht hg
    refine ⟨w', ?_, by rw [h2]; simp only [Term.control, hfp]⟩
    rw [eval_console2 hs (tbl := Init.cursorM) (nm := c!"move-up") (id := .cMove c!"move-up" 'A')
      (hlp := []) (by mem_tac) rfl, evalN_builtin]
    exact h1
  · obtain ⟨w', h1, h2⟩ := run_moveB (name := c!"move-down") (dir := 'B') hc t0 (by decide) ha hX ht hg
    refine ⟨w', ?_, by rw [h2]; simp only [Term.control, hfp]⟩
    rw [eval_console2 hs (tbl := Init.cursorM) (nm := c!"move-down") (id := .cMove c!"move-down" 'B')
      (hlp := []) (by mem_tac) rfl, evalN_builtin]
    exact h1
  · obtain ⟨w', h1, h2⟩ := run_moveB (name := c!"move-left") (dir := 'D') hc t0 (by decide) ha hX ht hg
    refine ⟨w', ?_, by rw [h2]; simp only [Term.control, hfp, Nat.min_eq_right hcol]⟩
    rw [eval_console2 hs (tbl := Init.cursorM) (nm := c!"move-left") (id := .cMove c!"move-left" 'D')
      (hlp := []) (by mem_tac) rfl, evalN_builtin]
    exact h1
  · obtain ⟨w', h1, h2⟩ := run_moveB (name := c!"move-right") (dir := 'C') hc t0 (by decide) ha hX ht hg
    refine ⟨w', ?_, by rw [h2]; simp only [Term.control, hfp]⟩
    rw [eval_console2 hs (tbl := Init.cursorM) (nm := c!"move-right") (id := .cMove c!"move-right" 'C')
      (hlp := []) (by mem_tac) rfl, evalN_builtin]
    exact h1

theorem run_seqB (hc : Console H shown) (t0 : Term) {ps : Str} {f : Char} {args : List Expr}
    (hp : ∀ c ∈ ps, c.toNat < 64 ∧ c ≠ '\x1b') (hf : 64 ≤ f.toNat) {nm hlp : Str}
    {t : Term} (ht : t0.feed (shown w) = t) (hg : t.state = .ground) :
    ∃ w', evalN P H (stdB P L) (n + 1)
        (.apply (.builtin nm (.cSeq (c!"\x1b[" ++ ps ++ [f])) hlp) args) env w = (.ok .none, env, w') ∧
      t0.feed (shown w') = t.control ps f := by
  subst ht
  obtain ⟨w', h1, h2⟩ := run_send (ev0 := evalN P H (stdB P L) n) (env := env) hc t0 hp hf hg
  refine ⟨w', ?_, h2⟩
  rw [evalN_builtin]
  brun [Builtins.seqB]
  simp only [List.cons_append, List.nil_append] at h1 ⊢
  rw [h1]

/-- C84.  `save-position` remembers where the cursor is and `restore-position` puts it there; `hide`
and `show` switch the cursor, and `mode@alternate` and `mode@normal` the screen.  Whatever is given to
them is not even evaluated. -/
theorem C84_switches (hs : Std env) (hc : Console H shown) (t0 : Term) (args : List Expr)
    {t : Term} (ht : t0.feed (shown w) = t) (hg : t.state = .ground) {m f : Str} {t' : Term}
    (h : (m = c!"cursor" ∧ ((f = c!"save-position" ∧ t' = { t with saved := (t.row, t.col) }) ∨
        (f = c!"restore-position" ∧ t' = { t with row := t.saved.1, col := t.saved.2 }) ∨
        (f = c!"hide" ∧ t' = { t with cursor := false }) ∨
        (f = c!"show" ∧ t' = { t with cursor := true }))) ∨
      (m = c!"mode" ∧ ((f = c!"alternate" ∧ t' = { t with alternate := true }) ∨
        (f = c!"normal" ∧ t' = { t with alternate := false })))) :
    ∃ w', evalN P H (stdB P L) (n + 1) (call2 c!"console" m f args) env w = (.ok .none, env, w') ∧
      t0.feed (shown w') = t' := by
  rcases h with ⟨rfl, ⟨rfl, rfl⟩ | ⟨rfl, rfl⟩ | ⟨rfl, rfl⟩ | ⟨rfl, rfl⟩⟩ |
    ⟨rfl, ⟨rfl, rfl⟩ | ⟨rfl, rfl⟩⟩
  · rw [eval_console2 hs (tbl := Init.cursorM) (nm := c!"save-position") (id := .cSeq c!"\x1b[s")
      (hlp := []) (by mem_tac) rfl]
    exact run_seqB hc t0 (ps := []) (f := 's') (by decide) (by decide) ht hg
  · rw [eval_console2 hs (tbl := Init.cursorM) (nm := c!"restore-position") (id := .cSeq c!"\x1b[u")
      (hlp := []) (by mem_tac) rfl]
    exact run_seqB hc t0 (ps := []) (f := 'u') (by decide) (by decide) ht hg
  · rw [eval_console2 hs (tbl := Init.cursorM) (nm := c!"hide") (id := .cSeq c!"\x1b[?25l")
      (hlp := []) (by mem_tac) rfl]
    exact run_seqB hc t0 (ps := c!"?25") (f := 'l') (by decide) (by decide) ht hg
  · rw [eval_console2 hs (tbl := Init.cursorM) (nm := c!"show") (id := .cSeq c!"\x1b[?25h")
      (hlp := []) (by mem_tac) rfl]
    exact run_seqB hc t0 (ps := c!"?25") (f := 'h') (by decide) (by decide) ht hg
  · rw [eval_console2 hs (tbl := Init.modeM) (nm := c!"alternate") (id := .cSeq c!"\x1b[?1049h")
      (hlp := []) (by mem_tac) rfl]
    exact run_seqB hc t0 (ps := c!"?1049") (f := 'h') (by decide) (by decide) ht hg
  · rw [eval_console2 hs (tbl := Init.modeM) (nm := c!"normal") (id := .cSeq c!"\x1b[?1049l")
      (hlp := []) (by mem_tac) rfl]
    exact run_seqB hc t0 (ps := c!"?1049") (f := 'l') (by decide) (by decide) ht hg

/-- C84.  `console@clear` empties the screen and puts the cursor into its corner, whatever its argument
is: that is not evaluated. -/
theorem C84_clear (hs : Std env) (hc : Console H shown) (t0 : Term) (a : Expr)
    {t : Term} (ht : t0.feed (shown w) = t) (hg : t.state = .ground) (hr : 1 ≤ t.rows)
    (hcl : 1 ≤ t.cols) :
    ∃ w', evalN P H (stdB P L) (n + 1) (call c!"console" c!"clear" [a]) env w = (.ok .none, env, w') ∧
      t0.feed (shown w') = { t with cell := fun _ _ => ' ', row := 1, col := 1 } := by
  subst ht
  refine ⟨(H.io (.print c!"\x1b[2J\x1b[H") w).2, ?_, ?_⟩
  · lib hs, Init.consoleM
    brun [Builtins.clearB]
    rw [run_out_shown hc]
  · rw [hc.print, feed_append, show c!"\x1b[2J\x1b[H" = (c!"\x1b[" ++ c!"2" ++ ['J']) ++
      (c!"\x1b[" ++ [] ++ ['H']) from rfl, feed_append, feed_csi hg (by decide) (by decide),
      feed_csi (by rw [control_keeps, hg]) (by decide) (by decide)]
    simp only [Term.control, if_true]
    rw [show firstParam [] = 1 by decide, show secondParam [] = 1 by decide]
    rw [show ∀ l, 1 ≤ l → onAxis l 1 = 1 by intro l hl; rw [onAxis]; omega]
    · rw [show ∀ l, 1 ≤ l → onAxis l 1 = 1 by intro l hl; rw [onAxis]; omega]
      exact hcl
    · exact hr

/-- C84.  Without an argument, the way it is meant to be called, `console@clear` is an error and shows
nothing. -/
theorem C84_clear_refuted (hs : Std env) :
    ∃ m, evalN P H (stdB P L) (n + 1) (call c!"console" c!"clear" []) env w =
      (.err (.customError m), env, w) := by
  refine ⟨c!"too few arguments to function clear", ?_⟩
  lib hs, Init.consoleM
  brun [Builtins.clearB, Builtins.checkExact]

theorem feed_osc {t : Term} {l : Str} (hl : ∀ c ∈ l, Printable c) : ∀ {s : Str}, t.state = .osc s →
    t.feed l = { t with state := .osc (s ++ l) } := by
  induction l generalizing t with
  | nil => intro s h; rw [List.append_nil, ← h]; rfl
  | cons c l ih =>
    intro s h
    simp only [List.forall_mem_cons] at hl
    have h32 : ¬ c.toNat < 32 := Nat.not_lt.2 hl.1.1
    have h1 : t.next c = { t with state := .osc (s ++ [c]) } := by
      unfold Term.next
      rw [h]
      simp only
      rw [if_neg (by rintro rfl; exact h32 (by decide)), if_neg (by rintro rfl; exact h32 (by decide))]
    rw [feed_cons, h1, ih hl.2 rfl]
    simp

/-- C84.  `console@title v` makes the text of `v` the title of the window and shows nothing on the
screen. -/
theorem C84_title (hs : Std env) (hc : Console H shown) (t0 : Term) {a v : Expr}
    (ha : evalN P H (stdB P L) n a env w = (.ok v, env1, w1))
    (hp : ∀ c ∈ display P v, Printable c) {t : Term} (ht : t0.feed (shown w1) = t)
    (hg : t.state = .ground) :
    ∃ w', evalN P H (stdB P L) (n + 1) (call c!"console" c!"title" [a]) env w = (.ok .none, env1, w') ∧
      t0.feed (shown w') = { t with title := display P v } := by
  subst ht
  refine ⟨(H.io (.print (c!"\x1b]2;" ++ display P v ++ c!"\x1b[0m")) w1).2, ?_, ?_⟩
  · lib hs, Init.consoleM
    brun [Builtins.titleB, ha]
    have := run_out_shown (ev0 := evalN P H (stdB P L) n) (env := env1) (w := w1) hc
      (c!"\x1b]2;" ++ display P v ++ c!"\x1b[0m")
    simp only [List.cons_append, List.nil_append] at this ⊢
    rw [this]
  · generalize ht : t0.feed (shown w1) = t at hg ⊢
    have h1 : t.feed c!"\x1b]2;" = { t with state := .osc c!"2;" } := by
      rw [feed_cons, show t.next '\x1b' = { t with state := .esc } by unfold Term.next; rw [hg]; rfl]
      rfl
    rw [hc.print, feed_append, ht, feed_append, feed_append, h1, feed_osc hp rfl, feed_cons]
    rw [show (({ t with state := .osc (c!"2;" ++ display P v) } : Term).next '\x1b') =
      { t with title := display P v, state := .esc } from rfl]
    rw [hg]
    rfl

/-- C84.  `console@width` and `console@height` are the numbers of columns and rows of the terminal, and
`None` if there is no terminal. -/
theorem C84_size (hs : Std env) (args : List Expr) :
    (∀ cols rows w', H.io .terminalSize w = (.size cols rows, w') → cols < 65536 → rows < 65536 →
      (∃ i : I64, evalN P H (stdB P L) (n + 1) (call c!"console" c!"width" args) env w =
        (.ok (.int i), env, w') ∧ i.val = cols) ∧
      ∃ i : I64, evalN P H (stdB P L) (n + 1) (call c!"console" c!"height" args) env w =
        (.ok (.int i), env, w') ∧ i.val = rows) ∧
    (∀ w', H.io .terminalSize w = (.unit, w') →
      evalN P H (stdB P L) (n + 1) (call c!"console" c!"width" args) env w = (.ok .none, env, w') ∧
      evalN P H (stdB P L) (n + 1) (call c!"console" c!"height" args) env w = (.ok .none, env, w')) := by
  have hv : ∀ k : Nat, k < 65536 → (I64.wrap k).val = k := by
    intro k hk
    exact wrap_small (by omega) (by omega)
  refine ⟨fun cols rows w' hw h1 h2 => ⟨⟨I64.wrap cols, ?_, hv _ h1⟩, I64.wrap rows, ?_, hv _ h2⟩,
    fun w' hw => ⟨?_, ?_⟩⟩ <;>
  · lib hs, Init.consoleM
    brun [Builtins.sizeB, M.io, hw]

end

/-! ### Examples -/

/-- a screen of five rows with ten columns -/
def demoTerm : Term :=
  { rows := 5, cols := 10, cell := fun _ _ => '.', row := 4, col := 3, saved := (1, 1), cursor := true
    alternate := false, title := [], state := .ground }

/-- two lines, at the second column of the third row -/
example : ∃ w', evalN Demo.plat Demo.host (stdB Demo.plat Demo.lib) 2
      (call c!"console" c!"write" [.int (I64.wrap 2), .int (I64.wrap 3), .str c!"ab\ncd"]) Demo.env [] =
    (.ok .none, Demo.env, w') ∧
    (demoTerm.feed (demoShown w')).row = 4 ∧ (demoTerm.feed (demoShown w')).col = 3 ∧
    (demoTerm.feed (demoShown w')).cell 3 2 = 'a' ∧ (demoTerm.feed (demoShown w')).cell 4 3 = 'd' ∧
    (demoTerm.feed (demoShown w')).cell 4 4 = '.' := by
  obtain ⟨w', h1, h2⟩ := C84_write (P := Demo.plat) (L := Demo.lib) (n := 1) demo_std demo_console
    demoTerm (a := .int (I64.wrap 2)) (b := .int (I64.wrap 3)) (d := .str c!"ab\ncd")
    (v := .str c!"ab\ncd") rfl rfl rfl (x := 2) (y := 3) rfl rfl (by decide) (by decide)
    (ls := [c!"ab", c!"cd"])
    (.line (l := c!"ab") (by decide) (.plain _ (by decide)) (.last (by decide) (by decide)))
    (by decide) (t := demoTerm) (w3 := []) rfl rfl (by decide) (by decide) (by decide)
  refine ⟨w', h1, ?_⟩
  rw [h2]
  exact ⟨rfl, rfl, rfl, rfl, rfl⟩

/-- the same for a picture of two by two, from which exactly four cells change -/
example : ∃ w', evalN Demo.plat Demo.host (stdB Demo.plat Demo.lib) 2
      (call c!"console" c!"write" [.int (I64.wrap 9), .int (I64.wrap 1), .str c!"ab\ncd"]) Demo.env [] =
    (.ok .none, Demo.env, w') ∧
    ∀ r c, (demoTerm.feed (demoShown w')).cell r c =
      if 1 ≤ r ∧ r < 3 ∧ 9 ≤ c ∧ c < 11 then (([c!"ab", c!"cd"].getD (r - 1) []).getD (c - 9) ' ')
      else '.' :=
  C84_picture (P := Demo.plat) (L := Demo.lib) (n := 1) demo_std demo_console demoTerm
    (a := .int (I64.wrap 9)) (b := .int (I64.wrap 1)) (d := .str c!"ab\ncd")
    (rows := [c!"ab", c!"cd"]) (h := 2) (wd := 2)
    ⟨rfl, by simp, by simp⟩ (by decide) rfl rfl rfl (x := 9) (y := 1) rfl rfl (by decide) (by decide)
    (by decide) (t := demoTerm) (w3 := []) rfl rfl (by decide) (by decide) (by decide)

/-- beyond the last column and the last row -/
example : ∃ w', evalN Demo.plat Demo.host (stdB Demo.plat Demo.lib) 2
      (call2 c!"console" c!"cursor" c!"move-to" [.int (I64.wrap 7), .int (I64.wrap 80)]) Demo.env [] =
    (.ok .none, Demo.env, w') ∧ demoTerm.feed (demoShown w') = { demoTerm with row := 5, col := 7 } :=
  C84_move_to (P := Demo.plat) (L := Demo.lib) (n := 1) demo_std demo_console demoTerm
    (a := .int (I64.wrap 7)) (b := .int (I64.wrap 80)) rfl rfl (x := 7) (y := 80) rfl rfl (w2 := []) rfl
    rfl

/-- three to the left from the third column -/
example : ∃ w', evalN Demo.plat Demo.host (stdB Demo.plat Demo.lib) 2
      (call2 c!"console" c!"cursor" c!"move-left" [.int (I64.wrap 3)]) Demo.env [] =
    (.ok .none, Demo.env, w') ∧ demoTerm.feed (demoShown w') = { demoTerm with row := 4, col := 1 } :=
  C84_move (P := Demo.plat) (L := Demo.lib) (n := 1) demo_std demo_console demoTerm
    (a := .int (I64.wrap 3)) rfl (x := 3) rfl (w1 := []) rfl rfl (by decide)
    (.inr (.inr (.inl ⟨rfl, rfl, rfl⟩)))

example : ∃ w', evalN Demo.plat Demo.host (stdB Demo.plat Demo.lib) 2
      (call2 c!"console" c!"cursor" c!"hide" []) Demo.env [] =
    (.ok .none, Demo.env, w') ∧ demoTerm.feed (demoShown w') = { demoTerm with cursor := false } :=
  C84_switches (P := Demo.plat) (L := Demo.lib) (n := 1) demo_std demo_console demoTerm [] (w := []) rfl
    rfl (.inl ⟨rfl, .inr (.inr (.inl ⟨rfl, rfl⟩))⟩)

example : ∃ w', evalN Demo.plat Demo.host (stdB Demo.plat Demo.lib) 2
      (call c!"console" c!"clear" [.symbol c!"nonsense"]) Demo.env [] =
    (.ok .none, Demo.env, w') ∧
      demoTerm.feed (demoShown w') = { demoTerm with cell := fun _ _ => ' ', row := 1, col := 1 } :=
  C84_clear (P := Demo.plat) (L := Demo.lib) (n := 1) demo_std demo_console demoTerm _ (w := []) rfl
    rfl (by decide) (by decide)

example : ∃ w', evalN Demo.plat Demo.host (stdB Demo.plat Demo.lib) 2
      (call c!"console" c!"title" [.str c!"dune"]) Demo.env [] =
    (.ok .none, Demo.env, w') ∧ demoTerm.feed (demoShown w') = { demoTerm with title := c!"dune" } :=
  C84_title (P := Demo.plat) (L := Demo.lib) (n := 1) demo_std demo_console demoTerm
    (a := .str c!"dune") (v := .str c!"dune") rfl (by decide) (w1 := []) rfl rfl

/-- a terminal with eighty columns and twenty-four rows -/
def sizeHost : Host Unit where
  io _ w := (.size 80 24, w)

example : ∃ i : I64, evalN Demo.plat sizeHost (stdB Demo.plat Demo.lib) 2
    (call c!"console" c!"width" []) Demo.env () = (.ok (.int i), Demo.env, ()) ∧ i.val = 80 :=
  ((C84_size demo_std []).1 80 24 () rfl (by decide) (by decide)).1

end Dune.Props
