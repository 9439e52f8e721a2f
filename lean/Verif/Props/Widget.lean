import Mathlib.Data.List.TakeWhile
import Verif.Proof.Lib
import Verif.Proof.Lines

/-! C77: the module `widget`: boxes of text, and pictures beside and above each other. -/

namespace Dune.Props

open Spec

/-! ### Specification -/

/-- A row of a box: a space, the text, and spaces up to the width. -/
def row (width : Nat) (l : Str) : Str := ' ' :: l ++ List.replicate (width - 1 - l.length) ' '

/-- A picture of `h` rows of `w` characters each. -/
structure Picture (rows : List Str) (h w : Nat) : Prop where
  height : rows.length = h
  width : ∀ r ∈ rows, r.length = w
  line : ∀ r ∈ rows, '\n' ∉ r ∧ '\r' ∉ r

/-- The rows, one below the other. -/
def below (rows : List Str) : Str := List.intercalate c!"\n" rows

/-- The box with a title, `height` rows of `width` characters: the title in the middle of the upper
border (a half character to the left, if need be), the first `height - 2` lines of the text, empty
rows, the lower border. -/
structure IsBox (rows : List Str) (title : Str) (lines : List Str) (width height : Nat) : Prop where
  picture : Picture rows height width
  top : ∃ a b, rows.head? = some ('┌' :: List.replicate a '─' ++ title ++ List.replicate b '─' ++ c!"┐") ∧
    a ≤ b ∧ b ≤ a + 1
  body : ∀ j, j < height - 2 → rows[j + 1]? = some (row width (lines.getD j []))
  bottom : rows.getLast? = some ('└' :: List.replicate (width - 2) '─' ++ c!"┘")

/-- A text that shows these rows, with or without an end of line after the last one. -/
def Displays (s : Str) (rows : List Str) : Prop := s = below rows ∨ s = below rows ++ c!"\n"

/-- The pictures, beside each other. -/
def beside (h : Nat) (pics : List (List Str)) : List Str :=
  (List.range h).map fun j => pics.flatMap fun p => p.getD j []

/-- No white space in the upper left and the lower right corner. -/
def Corners (rows : List Str) : Prop :=
  (∃ c l rs, rows = (c :: l) :: rs ∧ isWhitespace c = false) ∧
    ∃ c l rs, rows = rs ++ [l ++ [c]] ∧ isWhitespace c = false

/-! ### Helper lemmas -/

section

variable {width height : Nat}

theorem below_cons (r r' : Str) (rs : List Str) :
    below (r :: r' :: rs) = r ++ '\n' :: below (r' :: rs) := by
  simp [below, List.intercalate, List.intersperse]

theorem below_one (r : Str) : below [r] = r := by simp [below, List.intercalate]

theorem below_snoc : ∀ {rs : List Str} (_ : rs ≠ []) (r : Str), below (rs ++ [r]) = below rs ++ '\n' :: r
  | [a], _, r => by rw [List.singleton_append, below_cons, below_one, below_one]
  | a :: b :: rs, _, r => by
    rw [List.cons_append, List.cons_append, below_cons, below_cons, ← List.cons_append,
      below_snoc (List.cons_ne_nil _ _), List.append_assoc, List.cons_append]

theorem below_append : ∀ {rs ss : List Str} (_ : rs ≠ []) (_ : ss ≠ []),
    below (rs ++ ss) = below rs ++ '\n' :: below ss
  | [a], s :: ss, _, _ => by rw [List.singleton_append, below_cons, below_one]
  | a :: b :: rs, ss, _, hs => by
    rw [List.cons_append, List.cons_append, below_cons, below_cons, ← List.cons_append,
      below_append (List.cons_ne_nil _ _) hs, List.append_assoc, List.cons_append]

theorem below_noCr : ∀ ls : List Str, (∀ l ∈ ls, '\r' ∉ l) → '\r' ∉ below ls := by
  intro ls
  induction ls with
  | nil => intro _; simp [below, List.intercalate]
  | cons l ls ih =>
    intro h
    cases ls with
    | nil => rw [below_one]; exact h l (by simp)
    | cons l' ls =>
      rw [below_cons]
      simp only [List.mem_append, List.mem_cons, not_or]
      exact ⟨h l (by simp), by decide, ih fun x hx => h x (List.mem_cons_of_mem _ hx)⟩

theorem boxLoop_chars : ∀ (l cs : Str) (i lines : Nat), '\n' ∉ l → 1 ≤ i →
    i + l.length ≤ width - 1 → lines ≠ height - 1 →
    Builtins.boxLoop width height (l ++ cs) i lines =
      (l ++ (Builtins.boxLoop width height cs (i + l.length) lines).1,
        (Builtins.boxLoop width height cs (i + l.length) lines).2)
  | [], cs, i, lines, _, _, _, _ => by simp
  | c :: l, cs, i, lines, h, hi, hw, hl => by
    simp only [List.mem_cons, not_or] at h
    simp only [List.length_cons] at hw
    rw [List.cons_append, Builtins.boxLoop]
    have h0 : i ≠ 0 := by omega
    have hc : c ≠ '\n' := Ne.symm h.1
    have h1 : ¬ width - 1 ≤ i := by omega
    simp only [h0, hc, if_false, hl, h1]
    rw [boxLoop_chars l cs (i + 1) lines h.2 (by omega) (by omega) hl]
    simp only [List.length_cons, List.nil_append, List.singleton_append]
    rw [show i + 1 + l.length = i + (l.length + 1) by omega]
    simp

/-- one line of the text, at the beginning of a row -/
theorem boxLoop_line (l cs : Str) (lines : Nat) (h : '\n' ∉ l) (h0 : l ≠ [])
    (hw : l.length + 2 ≤ width) (hw3 : 4 < width) (hl : lines ≠ height - 1) :
    Builtins.boxLoop width height (l ++ cs) 0 lines =
      (' ' :: l ++ (Builtins.boxLoop width height cs (l.length + 1) lines).1,
        (Builtins.boxLoop width height cs (l.length + 1) lines).2) := by
  match l, h0 with
  | c :: l, _ =>
    simp only [List.mem_cons, not_or] at h
    simp only [List.length_cons] at hw
    rw [List.cons_append, Builtins.boxLoop]
    have hc : c ≠ '\n' := Ne.symm h.1
    have h1 : ¬ width - 1 ≤ 1 := by omega
    simp only [hc, if_false, hl, h1, if_true]
    rw [boxLoop_chars l cs 2 lines h.2 (by omega) (by omega) hl]
    simp only [List.length_cons]
    rw [show 2 + l.length = l.length + 1 + 1 by omega]
    simp

/-- the end of a line -/
theorem boxLoop_newline (cs : Str) (k lines : Nat) (hk : k + 1 ≤ width) (h1 : 1 ≤ k) :
    Builtins.boxLoop width height ('\n' :: cs) k lines =
      if lines + 1 = height - 1 then (List.replicate (width - k) ' ', width)
      else (List.replicate (width - k) ' ' ++
        '\n' :: (Builtins.boxLoop width height cs 0 (lines + 1)).1,
        (Builtins.boxLoop width height cs 0 (lines + 1)).2) := by
  rw [Builtins.boxLoop]
  have h0 : k ≠ 0 := by omega
  have hw : width - 1 ≤ width := by omega
  simp only [h0, if_false, if_true, hw]
  split <;> simp

theorem boxLoop_newline0 (cs : Str) (lines : Nat) :
    Builtins.boxLoop width height ('\n' :: cs) 0 lines =
      if lines + 1 = height - 1 then (' ' :: List.replicate (width - 1) ' ', width)
      else (' ' :: List.replicate (width - 1) ' ' ++
        '\n' :: (Builtins.boxLoop width height cs 0 (lines + 1)).1,
        (Builtins.boxLoop width height cs 0 (lines + 1)).2) := by
  rw [Builtins.boxLoop]
  have hw : width - 1 ≤ width := by omega
  simp only [if_true, hw]
  split <;> simp

/-- what the loop over the characters makes, with the spaces added after it -/
theorem boxLoop_lines (hw : 4 < width) : ∀ (ls : List Str) (lines : Nat), ls ≠ [] →
    (∀ l ∈ ls, '\n' ∉ l ∧ l.length + 2 ≤ width) → lines < height - 1 →
    (Builtins.boxLoop width height (below ls) 0 lines).1 ++
        List.replicate (width - (Builtins.boxLoop width height (below ls) 0 lines).2) ' ' =
      below ((ls.take (height - 1 - lines)).map (row width))
  | [l], lines, _, h, hl => by
    obtain ⟨h1, h2⟩ := h l (by simp)
    have ht : [l].take (height - 1 - lines) = [l] := List.take_of_length_le (by simp; omega)
    rw [ht, List.map_cons, List.map_nil, below_one, below_one]
    by_cases h0 : l = []
    · subst h0
      simp only [Builtins.boxLoop, row, List.nil_append]
      show List.replicate width ' ' = ' ' :: List.replicate (width - 1) ' '
      rw [← List.replicate_succ]
      congr 1
      omega
    · have := boxLoop_line (height := height) l [] lines h1 h0 h2 hw (by omega)
      rw [List.append_nil] at this
      rw [this]
      simp only [Builtins.boxLoop, List.append_nil, row]
      rw [show width - (l.length + 1) = width - 1 - l.length by omega]
  | l :: l' :: ls, lines, _, h, hl => by
    obtain ⟨h1, h2⟩ := h l (by simp)
    have ih := boxLoop_lines hw (l' :: ls) (lines + 1) (List.cons_ne_nil _ _)
      (fun x hx => h x (List.mem_cons_of_mem _ hx))
    rw [below_cons]
    have key : Builtins.boxLoop width height (l ++ '\n' :: below (l' :: ls)) 0 lines =
        if lines + 1 = height - 1 then (row width l, width)
        else (row width l ++ '\n' :: (Builtins.boxLoop width height (below (l' :: ls)) 0 (lines + 1)).1,
          (Builtins.boxLoop width height (below (l' :: ls)) 0 (lines + 1)).2) := by
      by_cases h0 : l = []
      · subst h0
        rw [List.nil_append, boxLoop_newline0]
        rfl
      · rw [boxLoop_line l _ lines h1 h0 h2 hw (by omega),
          boxLoop_newline _ _ _ (by omega) (by omega), row,
          show width - (l.length + 1) = width - 1 - l.length by omega]
        split <;> simp
    rw [key]
    by_cases he : lines + 1 = height - 1
    · rw [if_pos he]
      have ht : (l :: l' :: ls).take (height - 1 - lines) = [l] := by
        rw [show height - 1 - lines = 1 by omega]
        rfl
      rw [ht, List.map_cons, List.map_nil, below_one]
      simp
    · rw [if_neg he]
      have ht : (l :: l' :: ls).take (height - 1 - lines) =
          l :: (l' :: ls).take (height - 1 - (lines + 1)) := by
        rw [show height - 1 - lines = (height - 1 - (lines + 1)) + 1 by omega]
        rfl
      rw [ht, List.map_cons]
      have hne : ((l' :: ls).take (height - 1 - (lines + 1))).map (row width) ≠ [] := by
        rw [show height - 1 - (lines + 1) = (height - 1 - (lines + 1) - 1) + 1 by omega]
        simp
      have e := below_append (rs := [row width l]) (List.cons_ne_nil _ _) hne
      rw [List.singleton_append, below_one] at e
      rw [e, ← ih (by omega)]
      simp

theorem row_length {l : Str} (h : l.length + 2 ≤ width) : (row width l).length = width := by
  simp [row]
  omega

theorem row_line {l : Str} (h : '\n' ∉ l ∧ '\r' ∉ l) : '\n' ∉ row width l ∧ '\r' ∉ row width l := by
  simp [row, h]

theorem picture_lines {rows : List Str} {h w : Nat} (hp : Picture rows h w) (hw : 0 < w) :
    linesOf (below rows) = rows := by
  cases rows with
  | nil => rfl
  | cons r rs =>
    refine linesOf_join (List.cons_ne_nil _ _) ?_ ?_
    · intro m hm
      refine ⟨(hp.line m hm).1, fun h => (hp.line m hm).2 ?_⟩
      exact List.mem_of_getLast? h
    · have := hp.width _ (List.getLast_mem (List.cons_ne_nil r rs))
      intro h
      rw [h] at this
      simp at this
      omega

theorem boxFill_eq : ∀ (fuel : Nat) (rows : List Str) (w : Nat), 0 < w →
    Picture rows rows.length w → rows ≠ [] → height - 1 ≤ rows.length + fuel →
    Builtins.boxFill w height fuel (below rows) =
      below (rows ++ List.replicate (height - 1 - rows.length) (List.replicate w ' '))
  | 0, rows, w, _, _, _, hf => by
    rw [show height - 1 - rows.length = 0 by omega]
    simp [Builtins.boxFill]
  | fuel + 1, rows, w, hw, hp, h0, hf => by
    rw [Builtins.boxFill, picture_lines hp hw]
    by_cases h : rows.length < height - 1
    · rw [if_pos h, ← below_snoc h0, boxFill_eq fuel _ w hw ?_ (by simp) (by simp; omega)]
      · rw [List.append_assoc]
        congr 1
        rw [show height - 1 - rows.length = (height - 1 - (rows ++ [List.replicate w ' ']).length) + 1
          by simp; omega, List.replicate_succ, List.singleton_append]
      · refine ⟨rfl, ?_, ?_⟩
        · intro r hr
          rcases List.mem_append.1 hr with hr | hr
          · exact hp.width r hr
          · rw [List.mem_singleton.1 hr]
            simp
        · intro r hr
          rcases List.mem_append.1 hr with hr | hr
          · exact hp.line r hr
          · rw [List.mem_singleton.1 hr]
            simp
    · rw [if_neg h, show height - 1 - rows.length = 0 by omega]
      simp

/-- `box` makes a box. -/
theorem box_isBox {title : Str} {ls : List Str} {n height : Nat} (hn : 4 < n) (hh : 3 ≤ height)
    (ht : title.length + 2 ≤ n) (htl : '\n' ∉ title ∧ '\r' ∉ title) (h0 : ls ≠ [])
    (hls : ∀ l ∈ ls, ('\n' ∉ l ∧ '\r' ∉ l) ∧ l.length + 2 ≤ n) :
    ∃ rows, Builtins.box title (below ls) (n - 2) height = below rows ∧
      IsBox rows title ls n height := by
  obtain ⟨a, b, hab, hl, hr, hb1, hb2⟩ : ∃ a b, a + title.length + b + 2 = n ∧
      (if n - 2 + 2 < (n - 2 - title.length + 1) / 2 * 2 + title.length + 2 then
        (List.replicate ((n - 2 - title.length + 1) / 2) '─').dropLast
        else List.replicate ((n - 2 - title.length + 1) / 2) '─') = List.replicate a '─' ∧
      (n - 2 - title.length + 1) / 2 = b ∧ a ≤ b ∧ b ≤ a + 1 := by
    refine ⟨n - 2 - title.length - (n - 2 - title.length + 1) / 2, _, by omega, ?_, rfl, by omega,
      by omega⟩
    split
    · rw [List.dropLast_replicate]
      congr 1
      omega
    · congr 1
      omega
  let top : Str := '┌' :: List.replicate a '─' ++ title ++ List.replicate b '─' ++ c!"┐"
  have htop : top.length = n := by simp [top]; omega
  have hfilter : (below ls).filter (fun c => decide (c ≠ '\r')) = below ls := by
    refine List.filter_eq_self.2 ?_
    intro c hc
    have : '\r' ∉ below ls := below_noCr ls fun l hl => (hls l hl).1.2
    simp only [decide_eq_true_eq]
    rintro rfl
    exact this hc
  let rows0 : List Str := top :: (ls.take (height - 2)).map (row n)
  let rows1 := rows0 ++ List.replicate (height - 1 - rows0.length) (List.replicate n ' ')
  let bottom : Str := '└' :: List.replicate (n - 2) '─' ++ c!"┘"
  have hp0 : Picture rows0 rows0.length n := by
    refine ⟨rfl, ?_, ?_⟩
    · intro r hr
      rcases List.mem_cons.1 hr with rfl | hr
      · exact htop
      · obtain ⟨l, hl, rfl⟩ := List.mem_map.1 hr
        exact row_length (hls l (List.mem_of_mem_take hl)).2
    · intro r hr
      rcases List.mem_cons.1 hr with rfl | hr
      · simp [top, htl]
      · obtain ⟨l, hl, rfl⟩ := List.mem_map.1 hr
        exact row_line (hls l (List.mem_of_mem_take hl)).1
  have hne1 : rows1 ≠ [] := by simp [rows1, rows0]
  have hlen1 : rows1.length = height - 1 := by
    simp only [rows1, rows0, List.length_append, List.length_cons, List.length_map,
      List.length_take, List.length_replicate]
    omega
  refine ⟨rows1 ++ [bottom], ?_, ?_⟩
  · rw [below_snoc hne1]
    have hbox := boxLoop_lines (width := n) (height := height) hn ls 1 h0
      (fun l hl => ⟨(hls l hl).1.1, (hls l hl).2⟩) (by omega)
    have hne : (ls.take (height - 2)).map (row n) ≠ [] := by
      rw [show height - 2 = (height - 3) + 1 by omega]
      cases ls with
      | nil => exact absurd rfl h0
      | cons => simp
    have hb0 : below rows0 = top ++ '\n' :: below ((ls.take (height - 2)).map (row n)) := by
      have := below_append (rs := [top]) (List.cons_ne_nil _ _) hne
      rwa [below_one] at this
    have hf := boxFill_eq (height := height) height rows0 n (by omega) hp0 (by simp [rows0])
      (by simp [rows0]; omega)
    rw [hb0] at hf
    rw [show height - 1 - 1 = height - 2 by omega] at hbox
    rw [hr] at hl
    simp only [Builtins.box, hr, hl]
    have hw : ('┌' :: List.replicate a '─' ++ title ++ List.replicate b '─' ++ c!"┐\n").length - 1 = n := by
      have : ('┌' :: List.replicate a '─' ++ title ++ List.replicate b '─' ++ c!"┐\n").length = n + 1 := by
        simp only [List.length_append, List.length_cons, List.length_replicate, List.length_nil]
        omega
      omega
    rw [hw, hfilter]
    have e : '┌' :: List.replicate a '─' ++ title ++ List.replicate b '─' ++ c!"┐\n" ++
        (Builtins.boxLoop n height (below ls) 0 1).1 ++
        List.replicate (n - (Builtins.boxLoop n height (below ls) 0 1).2) ' ' =
        top ++ '\n' :: below ((ls.take (height - 2)).map (row n)) := by
      rw [← hbox]
      simp [top]
    rw [e, hf]
    have e2 : List.replicate a '─' ++ (List.replicate title.length '─' ++
        (List.replicate b '─' ++ c!"┘")) = List.replicate (n - 2) '─' ++ c!"┘" := by
      rw [← List.append_assoc, ← List.append_assoc, List.replicate_append_replicate,
        List.replicate_append_replicate, show a + title.length + b = n - 2 by omega]
    simp only [List.append_assoc, List.cons_append, e2]
    rfl
  · refine ⟨⟨?_, ?_, ?_⟩, ⟨a, b, ?_, hb1, hb2⟩, ?_, ?_⟩
    · rw [List.length_append, hlen1]
      simp
      omega
    · intro r hr
      simp only [rows1, List.mem_append, List.mem_singleton, List.mem_replicate] at hr
      rcases hr with (hr | ⟨_, rfl⟩) | rfl
      · exact hp0.width r hr
      · simp
      · simp [bottom]
        omega
    · intro r hr
      simp only [rows1, List.mem_append, List.mem_singleton, List.mem_replicate] at hr
      rcases hr with (hr | ⟨_, rfl⟩) | rfl
      · exact hp0.line r hr
      · simp
      · simp [bottom]
    · rfl
    · intro j hj
      have hblank : row n [] = List.replicate n ' ' := by
        simp only [row, List.length_nil]
        show ' ' :: List.replicate (n - 1) ' ' = _
        rw [← List.replicate_succ]
        congr 1
        omega
      rw [List.getElem?_append_left (by omega)]
      simp only [rows1]
      by_cases hjl : j < ls.length
      · rw [List.getElem?_append_left (by simp [rows0]; omega)]
        simp only [rows0, List.getElem?_cons_succ, List.getElem?_map, List.getElem?_take]
        rw [if_pos hj, List.getElem?_eq_getElem hjl, List.getD_eq_getElem?_getD,
          List.getElem?_eq_getElem hjl]
        rfl
      · have hl0 : rows0.length = ls.length + 1 := by
          simp only [rows0, List.length_cons, List.length_map, List.length_take]
          omega
        rw [List.getElem?_append_right (by omega), List.getElem?_replicate, if_pos (by omega),
          List.getD_eq_getElem?_getD, List.getElem?_eq_none (by omega)]
        simp [hblank]
    · simp [bottom]

end

section

variable {W : Type} {P : Plat} {H : Host W} {L : Lib} {n : Nat} {env env1 env2 env3 env4 : Env}
  {w w1 w2 w3 w4 : W}

/-! ### Boxes -/

/-- C77.  `widget@create title text width height` is a box of `height` rows of `width` characters
with the title in its upper border and the wrapped text in it; rows that do not fit are left out,
missing ones are empty.  (`lines` is what the library wraps the text to, followed by spaces if it is shorter than
two thirds of a line; it uses lines of at most `width - 2` characters.) -/
theorem C77_create (hs : Std env) {t x a b tv xv : Expr} {wd ht : I64} {lines : List Str}
    (h1 : evalN P H (stdB P L) n t env w = (.ok tv, env1, w1))
    (h2 : evalN P H (stdB P L) n a env1 w1 = (.ok (.int wd), env2, w2))
    (h3 : evalN P H (stdB P L) n x env2 w2 = (.ok xv, env3, w3))
    (h4 : evalN P H (stdB P L) n b env3 w3 = (.ok (.int ht), env4, w4))
    (hwd : 4 < wd.val) (hht : 3 ≤ ht.val)
    (hfit : ((display P tv).length : Int) + 2 ≤ wd.val)
    (htl : '\n' ∉ display P tv ∧ '\r' ∉ display P tv)
    (hfill : P.fill (display P xv ++
        List.replicate ((wd.val.toNat - 2) * 2 / 3 - (display P xv).length) ' ') (wd.val.toNat - 2) =
      below lines) (h0 : lines ≠ [])
    (hlines : ∀ l ∈ lines, ('\n' ∉ l ∧ '\r' ∉ l) ∧ (l.length : Int) + 2 ≤ wd.val) :
    ∃ rows, evalN P H (stdB P L) (n + 1) (call c!"widget" c!"create" [t, x, a, b]) env w =
        (.ok (.str (below rows)), env4, w4) ∧
      IsBox rows (display P tv) lines wd.val.toNat ht.val.toNat := by
  obtain ⟨rows, hb, hbox⟩ := box_isBox (title := display P tv) (ls := lines) (n := wd.val.toNat)
    (height := ht.val.toNat) (by omega) (by omega) (by omega) htl h0
    (fun l hl => ⟨(hlines l hl).1, by have := (hlines l hl).2; omega⟩)
  refine ⟨rows, ?_, hbox⟩
  have hnot : ¬ wd.val.toNat - 2 < (display P tv).length := by omega
  lib hs, Init.widgetM
  brun [Builtins.createB, Builtins.padRight, h1, h2, h3, h4, hwd, hht, hnot, hfill, hb]

/-- C77.  A width below 5 is refused. -/
theorem C77_create_narrow (hs : Std env) {t x a b tv : Expr} {wd : I64}
    (h1 : evalN P H (stdB P L) n t env w = (.ok tv, env1, w1))
    (h2 : evalN P H (stdB P L) n a env1 w1 = (.ok (.int wd), env2, w2)) (hwd : wd.val ≤ 4) :
    ∃ m, evalN P H (stdB P L) (n + 1) (call c!"widget" c!"create" [t, x, a, b]) env w =
      (.err (.customError m), env2, w2) := by
  refine ⟨c!"expected width argument to be integer greater than 4, but got " ++ display P (.int wd), ?_⟩
  have : ¬ 4 < wd.val := by omega
  lib hs, Init.widgetM
  brun [Builtins.createB, h1, h2, this]

/-- C77.  So is a height below 3, and a title that is longer than the border. -/
theorem C77_create_low (hs : Std env) {t x a b tv xv : Expr} {wd ht : I64}
    (h1 : evalN P H (stdB P L) n t env w = (.ok tv, env1, w1))
    (h2 : evalN P H (stdB P L) n a env1 w1 = (.ok (.int wd), env2, w2))
    (h3 : evalN P H (stdB P L) n x env2 w2 = (.ok xv, env3, w3))
    (h4 : evalN P H (stdB P L) n b env3 w3 = (.ok (.int ht), env4, w4))
    (hwd : 4 < wd.val) (hbad : ht.val < 3 ∨ wd.val < (display P tv).length + 2) :
    ∃ m, evalN P H (stdB P L) (n + 1) (call c!"widget" c!"create" [t, x, a, b]) env w =
      (.err (.customError m), env4, w4) := by
  by_cases hht : 3 ≤ ht.val
  · have hlong : wd.val.toNat - 2 < (display P tv).length := by omega
    refine ⟨c!"width is less than title length", ?_⟩
    lib hs, Init.widgetM
    brun [Builtins.createB, h1, h2, h3, h4, hwd, hht, hlong]
  · refine ⟨c!"expected height argument to be an integer greater than 2, but got " ++
      display P (.int ht), ?_⟩
    lib hs, Init.widgetM
    brun [Builtins.createB, h1, h2, h3, h4, hwd, hht]

/-! ### Beside each other -/

theorem shows_lines {s : Str} {rows : List Str} {h wd : Nat} (hs : Displays s rows)
    (hp : Picture rows h wd) (hw : 0 < wd) (hh : 0 < h) : linesOf s = rows := by
  rcases hs with rfl | rfl
  · exact picture_lines hp hw
  · have hne : rows ≠ [] := by
      intro e
      have := hp.height
      rw [e] at this
      simp at this
      omega
    have : ∀ rows : List Str, rows ≠ [] → (∀ r ∈ rows, '\n' ∉ r ∧ '\r' ∉ r) →
        linesOf (below rows ++ c!"\n") = rows := by
      intro rows
      induction rows with
      | nil => intro h _; exact absurd rfl h
      | cons r rs ih =>
        intro _ hl
        have hin : InLine r := ⟨(hl r (by simp)).1, fun h => (hl r (by simp)).2 (List.mem_of_getLast? h)⟩
        cases rs with
        | nil =>
          rw [below_one, linesOf_cons hin]
          rfl
        | cons r' rs =>
          rw [below_cons, List.append_assoc, List.cons_append, linesOf_cons hin,
            ih (by simp) fun x hx => hl x (List.mem_cons_of_mem _ hx)]
    exact this rows hne hp.line

theorem run_joinx {ev0 : Expr → M W Expr} {args vs : List Expr} (hE : Evals ev0 args vs env w env1 w1) :
    ∀ (ss : List Str) (acc : List (List Str)) (h : Nat), vs = ss.map .str →
      (∀ s ∈ ss, (linesOf s).length = h) → (∀ ls ∈ acc, ls.length = h) →
      (Builtins.joinxLoop P args acc).run H ev0 env w = (.ok (acc ++ ss.map linesOf), env1, w1) := by
  induction hE with
  | nil =>
    intro ss acc h he _ _
    rw [List.map_eq_nil_iff.1 he.symm]
    simp [Builtins.joinxLoop, BProg.run]
  | @cons a as v vs env w env1 w1 env2 w2 ha hE ih =>
    intro ss acc h he hs hacc
    cases ss with
    | nil => simp at he
    | cons s ss =>
      simp only [List.map_cons, List.cons.injEq] at he
      obtain ⟨rfl, he⟩ := he
      have hl := hs s (by simp)
      have hhead : ¬ ((acc ++ [linesOf s]).headD []).length ≠ (linesOf s).length := by
        rw [hl]
        cases acc with
        | nil => simpa using hl
        | cons l acc => simpa using hacc l (by simp)
      have := ih ss (acc ++ [linesOf s]) h he (fun x hx => hs x (List.mem_cons_of_mem _ hx)) (by
        intro ls hls
        rcases List.mem_append.1 hls with h1 | h1
        · exact hacc ls h1
        · rw [List.mem_singleton.1 h1, hl])
      simp only [Builtins.joinxLoop, BProg.run_bind, BProg.run_ev]
      rw [M.bind_ok ha]
      simp only [hhead, if_false]
      rw [this]
      simp

theorem dropCr_self {s : Str} (h : '\r' ∉ s) : Builtins.dropCr s = s := by
  refine List.filter_eq_self.2 fun c hc => ?_
  simp only [decide_eq_true_eq]
  rintro rfl
  exact h hc

theorem joinx_rows : ∀ (rows : List Str), rows ≠ [] →
    rows.flatMap (· ++ c!"\n") = below rows ++ c!"\n"
  | [r], _ => by simp [below_one]
  | r :: r' :: rs, _ => by
    rw [List.flatMap_cons, joinx_rows (r' :: rs) (by simp), below_cons]
    simp

/-- C77.  `widget@joinx` puts pictures of the same height beside each other: every row of the result
is the rows of the pictures one after the other. -/
theorem C77_joinx (hs : Std env) {args : List Expr} {ss : List Str} {pics : List (List Str)}
    {h : Nat} (h2 : 2 ≤ args.length) (hh : 0 < h)
    (hE : Evals (evalN P H (stdB P L) n) args (ss.map .str) env w env1 w1)
    (hp : List.Forall₂ (fun s p => Displays s p ∧ ∃ wd, 0 < wd ∧ Picture p h wd) ss pics) :
    ∃ s, evalN P H (stdB P L) (n + 1) (call c!"widget" c!"joinx" args) env w =
        (.ok (.str s), env1, w1) ∧ Displays s (beside h pics) := by
  have hlines : ss.map linesOf = pics := by
    clear hE
    induction hp with
    | nil => rfl
    | cons hsp _ ih =>
      obtain ⟨h1, wd, hw, hpic⟩ := hsp
      rw [List.map_cons, ih, shows_lines h1 hpic hw hh]
  have hlen : ∀ p ∈ pics, p.length = h := by
    clear hE hlines
    induction hp with
    | nil => simp
    | cons hsp _ ih =>
      intro p hpp
      rcases List.mem_cons.1 hpp with rfl | hpp
      · obtain ⟨_, wd, hw, hpic⟩ := hsp
        exact hpic.height
      · exact ih p hpp
  have hcr : ∀ p ∈ pics, ∀ r ∈ p, '\r' ∉ r := by
    clear hE hlines hlen
    induction hp with
    | nil => simp
    | cons hsp _ ih =>
      intro p hpp
      rcases List.mem_cons.1 hpp with rfl | hpp
      · obtain ⟨_, wd, hw, hpic⟩ := hsp
        exact fun r hr => (hpic.line r hr).2
      · exact ih p hpp
  have hrun := run_joinx (P := P) (H := H) hE ss [] h rfl (by
    intro s hss
    exact hlen _ (hlines ▸ List.mem_map_of_mem hss)) (by simp)
  rw [List.nil_append, hlines] at hrun
  have hne : pics ≠ [] := by
    rintro rfl
    cases hp
    cases hE
    simp at h2
  have hh0 : (pics.headD []).length = h := by
    match pics, hne with
    | p :: ps, _ => exact hlen p (by simp)
  refine ⟨below (beside h pics) ++ c!"\n", ?_, .inr rfl⟩
  have hres : (List.range h).flatMap (Builtins.joinxLine pics) = below (beside h pics) ++ c!"\n" := by
    rw [← joinx_rows _ (by simp [beside]; omega), beside, List.flatMap_map]
    refine List.flatMap_congr fun j hj => ?_
    rw [Builtins.joinxLine]
    congr 1
    refine List.flatMap_congr fun p hpp => ?_
    refine dropCr_self ?_
    have hj : j < p.length := by rw [hlen p hpp]; exact List.mem_range.1 hj
    rw [List.getD_eq_getElem?_getD, List.getElem?_eq_getElem hj]
    exact hcr p hpp _ (List.getElem_mem _)
  lib hs, Init.widgetM
  rw [List.headD_eq_head?_getD] at hh0
  brun [Builtins.joinxB, Builtins.checkArgs, h2, pure, M.pure, hrun, hh0, hres]

/-- C77.  The result is a picture of the same height; its width is the sum of the widths. -/
theorem C77_joinx_size {pics : List (List Str)} {h : Nat} {ws : List Nat}
    (hp : List.Forall₂ (fun p wd => Picture p h wd) pics ws) : Picture (beside h pics) h ws.sum := by
  refine ⟨by simp [beside], ?_, ?_⟩
  · intro r hr
    obtain ⟨j, hj, rfl⟩ := List.mem_map.1 hr
    have hj := List.mem_range.1 hj
    clear hr
    induction hp with
    | nil => rfl
    | @cons p wd _ _ hpw _ ih =>
      have hj' : j < p.length := by rw [hpw.height]; exact hj
      rw [List.flatMap_cons, List.length_append, List.sum_cons, ih, List.getD_eq_getElem?_getD,
        List.getElem?_eq_getElem hj']
      congr 1
      exact hpw.width _ (List.getElem_mem _)
  · intro r hr
    obtain ⟨j, hj, rfl⟩ := List.mem_map.1 hr
    have hj := List.mem_range.1 hj
    clear hr
    induction hp with
    | nil => simp
    | @cons p wd _ _ hpw _ ih =>
      have hj' : j < p.length := by rw [hpw.height]; exact hj
      rw [List.flatMap_cons, List.getD_eq_getElem?_getD, List.getElem?_eq_getElem hj']
      have := hpw.line _ (List.getElem_mem hj')
      simp only [List.mem_append, not_or, Option.getD_some]
      exact ⟨⟨this.1, ih.1⟩, ⟨this.2, ih.2⟩⟩

/-- C77.  Texts with different numbers of lines are refused. -/
theorem C77_joinx_heights (hs : Std env) {a b : Expr} {s t : Str}
    (h1 : evalN P H (stdB P L) n a env w = (.ok (.str s), env1, w1))
    (h2 : evalN P H (stdB P L) n b env1 w1 = (.ok (.str t), env2, w2))
    (hne : (linesOf s).length ≠ (linesOf t).length) :
    ∃ m, evalN P H (stdB P L) (n + 1) (call c!"widget" c!"joinx" [a, b]) env w =
      (.err (.customError m), env2, w2) := by
  refine ⟨c!"Heights of horizontally added widgets must be equal, first widget height=" ++
    natToStr (linesOf s).length ++ c!", " ++ natToStr 1 ++ c!"th widget height=" ++
    natToStr (linesOf t).length, ?_⟩
  lib hs, Init.widgetM
  brun [Builtins.joinxB, Builtins.checkArgs, pure, M.pure, Builtins.joinxLoop, h1, h2, hne]

/-! ### Above each other -/

theorem trim_corners {s : Str} {rows : List Str} (hs : Displays s rows) (hc : Corners rows) :
    trim s = below rows := by
  obtain ⟨⟨c, l, rs, rfl, hcw⟩, ⟨d, l', rs', he, hdw⟩⟩ := hc
  have hfirst : ∃ t, below ((c :: l) :: rs) = c :: t := by
    cases rs with
    | nil => exact ⟨l, below_one _⟩
    | cons r rs => exact ⟨_, by rw [below_cons, List.cons_append]⟩
  have hlast : ∃ t, below ((c :: l) :: rs) = t ++ [d] := by
    rw [he]
    by_cases h0 : rs' = []
    · subst h0
      exact ⟨l', by rw [List.nil_append, below_one]⟩
    · exact ⟨below rs' ++ '\n' :: l', by rw [below_snoc h0]; simp⟩
  obtain ⟨t, ht⟩ := hfirst
  obtain ⟨t', ht'⟩ := hlast
  have hstart : trimStart s = s := by
    rcases hs with rfl | rfl <;> rw [ht] <;> simp [trimStart, hcw]
  rw [trim, hstart]
  rcases hs with rfl | rfl
  · rw [ht']
    simp [trimEnd, hdw]
  · rw [ht']
    have hn : isWhitespace '\n' = true := rfl
    simp [trimEnd, hdw, hn]

theorem run_joiny {ev0 : Expr → M W Expr} {args vs : List Expr} (hE : Evals ev0 args vs env w env1 w1) :
    ∀ (ss acc : List Str) (wd : Nat), vs = ss.map .str →
      (∀ s ∈ ss, ∃ l, (linesOf (trim s)).head? = some l ∧ l.length = wd) →
      (∀ s ∈ acc, ∃ l, (linesOf s).head? = some l ∧ l.length = wd) →
      (Builtins.joinyLoop P args acc).run H ev0 env w = (.ok (acc ++ ss.map trim), env1, w1) := by
  induction hE with
  | nil =>
    intro ss acc h he _ _
    rw [List.map_eq_nil_iff.1 he.symm]
    simp [Builtins.joinyLoop, BProg.run]
  | @cons a as v vs env w env1 w1 env2 w2 ha hE ih =>
    intro ss acc wd he hs hacc
    cases ss with
    | nil => simp at he
    | cons s ss =>
      simp only [List.map_cons, List.cons.injEq] at he
      obtain ⟨rfl, he⟩ := he
      obtain ⟨l, hl, hlw⟩ := hs s (by simp)
      obtain ⟨l1, hl1, hlw1⟩ : ∃ l1, (linesOf ((acc ++ [trim s]).headD [])).head? = some l1 ∧
          l1.length = wd := by
        cases acc with
        | nil => exact ⟨l, hl, hlw⟩
        | cons x acc => exact hacc x (by simp)
      have := ih ss (acc ++ [trim s]) wd he (fun x hx => hs x (List.mem_cons_of_mem _ hx)) (by
        intro x hx
        rcases List.mem_append.1 hx with h1 | h1
        · exact hacc x h1
        · rw [List.mem_singleton.1 h1]
          exact ⟨l, hl, hlw⟩)
      simp only [Builtins.joinyLoop, BProg.run_bind, BProg.run_ev]
      rw [M.bind_ok ha]
      have hne : ¬ l1.length ≠ l.length := by omega
      simp only [hl1, hl, hne, if_false]
      rw [this]
      simp

theorem joinStr_below : ∀ ls : List Str, joinStr c!"\n" ls = below ls
  | [] => rfl
  | [l] => (below_one l).symm
  | l :: l' :: ls => by
    rw [below_cons, ← joinStr_below (l' :: ls), joinStr]
    simp

theorem below_flatten : ∀ (pics : List (List Str)), (∀ p ∈ pics, p ≠ []) →
    below (pics.map below) = below pics.flatten
  | [], _ => rfl
  | [p], _ => by simp [below_one]
  | p :: q :: pics, h => by
    have hq : (q :: pics).flatten ≠ [] := by
      rw [List.flatten_cons]
      simp [h q (by simp)]
    rw [List.map_cons, List.map_cons, below_cons, ← List.map_cons,
      below_flatten (q :: pics) fun x hx => h x (List.mem_cons_of_mem _ hx),
      List.flatten_cons (l := p), below_append (h p (by simp)) hq]

/-- C77.  `widget@joiny` puts pictures of the same width above each other: the rows of the result
are the rows of the first picture, then those of the second, and so on.  (White space around a
picture is removed, so the corners must not be blank.) -/
theorem C77_joiny (hs : Std env) {args : List Expr} {ss : List Str} {pics : List (List Str)}
    {wd : Nat} (h2 : 2 ≤ args.length) (hwd : 0 < wd)
    (hE : Evals (evalN P H (stdB P L) n) args (ss.map .str) env w env1 w1)
    (hp : List.Forall₂ (fun s p => Displays s p ∧ Corners p ∧ ∃ h, Picture p h wd) ss pics) :
    evalN P H (stdB P L) (n + 1) (call c!"widget" c!"joiny" args) env w =
      (.ok (.str (below pics.flatten)), env1, w1) := by
  have htrim : ss.map trim = pics.map below := by
    clear hE
    induction hp with
    | nil => rfl
    | cons hsp _ ih => rw [List.map_cons, List.map_cons, ih, trim_corners hsp.1 hsp.2.1]
  have hpic : ∀ p ∈ pics, p ≠ [] ∧ ∃ h, Picture p h wd := by
    clear hE htrim
    induction hp with
    | nil => simp
    | cons hsp _ ih =>
      intro p hpp
      rcases List.mem_cons.1 hpp with rfl | hpp
      · refine ⟨?_, hsp.2.2⟩
        obtain ⟨⟨c, l, rs, he, _⟩, _⟩ := hsp.2.1
        rw [he]
        simp
      · exact ih p hpp
  have hrun := run_joiny (P := P) (H := H) hE ss [] wd rfl (by
    intro s hss
    have : trim s ∈ pics.map below := htrim ▸ List.mem_map_of_mem hss
    obtain ⟨p, hpp, he⟩ := List.mem_map.1 this
    obtain ⟨hne, h, hP⟩ := hpic p hpp
    rw [← he, picture_lines hP hwd]
    match p, hne with
    | r :: rs, _ => exact ⟨r, rfl, hP.width r (by simp)⟩) (by simp)
  rw [List.nil_append, htrim] at hrun
  have hres : joinStr c!"\n" ((pics.map below).map Builtins.dropCr) = below pics.flatten := by
    have : (pics.map below).map Builtins.dropCr = pics.map below := by
      rw [List.map_map]
      refine List.map_congr_left fun p hpp => ?_
      obtain ⟨_, h, hP⟩ := hpic p hpp
      exact dropCr_self (below_noCr _ fun r hr => (hP.line r hr).2)
    rw [this, joinStr_below, below_flatten _ fun p hpp => (hpic p hpp).1]
  lib hs, Init.widgetM
  rw [List.map_map] at hres
  brun [Builtins.joinyB, Builtins.checkArgs, h2, pure, M.pure, hrun, hres]

/-- C77.  The result is a picture of the same width; its height is the sum of the heights. -/
theorem C77_joiny_size {pics : List (List Str)} {wd : Nat} {hs : List Nat}
    (hp : List.Forall₂ (fun p h => Picture p h wd) pics hs) : Picture pics.flatten hs.sum wd := by
  induction hp with
  | nil => exact ⟨rfl, by simp, by simp⟩
  | cons hph _ ih =>
    rw [List.flatten_cons, List.sum_cons]
    refine ⟨by rw [List.length_append, hph.height, ih.height], ?_, ?_⟩
    · intro r hr
      rcases List.mem_append.1 hr with hr | hr
      · exact hph.width r hr
      · exact ih.width r hr
    · intro r hr
      rcases List.mem_append.1 hr with hr | hr
      · exact hph.line r hr
      · exact ih.line r hr

/-- C77.  A text of white space only makes `widget@joiny` crash the shell. -/
theorem C77_joiny_blank (hs : Std env) {a b : Expr} {s : Str}
    (h1 : evalN P H (stdB P L) n a env w = (.ok (.str s), env1, w1))
    (hblank : ∀ c ∈ s, isWhitespace c = true) :
    evalN P H (stdB P L) (n + 1) (call c!"widget" c!"joiny" [a, b]) env w = (.panic, env1, w1) := by
  have ht : trim s = [] := by
    have : trimStart s = [] := by
      rw [trimStart]
      exact List.dropWhile_eq_nil_iff.2 hblank
    rw [trim, this]
    rfl
  have hl : linesOf ([] : Str) = [] := rfl
  lib hs, Init.widgetM
  brun [Builtins.joinyB, Builtins.checkArgs, pure, M.pure, Builtins.joinyLoop, h1, ht, hl]

/-! ### Boxes can be joined -/

/-- C77.  A box is such a picture: it has the height and the width that was asked for, and its
corners are not blank. -/
theorem C77_box_corners {rows : List Str} {title : Str} {lines : List Str} {wd ht : Nat}
    (hb : IsBox rows title lines wd ht) : Picture rows ht wd ∧ Corners rows := by
  refine ⟨hb.picture, ?_, ?_⟩
  · obtain ⟨a, b, h, _⟩ := hb.top
    match rows, h with
    | r :: rs, h =>
      simp only [List.head?_cons, Option.some.injEq] at h
      exact ⟨_, _, rs, by rw [h]; rfl, by decide⟩
  · have h := hb.bottom
    have hne : rows ≠ [] := by
      rintro rfl
      simp at h
    refine ⟨'┘', '└' :: List.replicate (wd - 2) '─', rows.dropLast, ?_, by decide⟩
    rw [List.getLast?_eq_some_getLast hne] at h
    simp only [Option.some.injEq] at h
    rw [← List.dropLast_append_getLast hne, h]
    simp

end

/-- C77.  So is what `widget@joinx` makes of such pictures. -/
theorem C77_joinx_corners {pics : List (List Str)} {h : Nat} (h0 : pics ≠ [])
    (hp : ∀ p ∈ pics, p.length = h ∧ Corners p) : Corners (beside h pics) := by
  have hh : h ≠ 0 := by
    rintro rfl
    match pics, h0 with
    | p :: ps, _ =>
      obtain ⟨hl, ⟨c, l, rs, rfl, _⟩, _⟩ := hp p (by simp)
      simp at hl
  constructor
  · match pics, h0 with
    | p :: ps, _ =>
      obtain ⟨hl, ⟨c, l, rs, rfl, hc⟩, _⟩ := hp p (by simp)
      obtain ⟨k, rfl⟩ : ∃ k, h = k + 1 := ⟨h - 1, by omega⟩
      refine ⟨c, l ++ ps.flatMap (fun p => p.getD 0 []), ?_, ?_, hc⟩
      · exact (List.range k).map fun j => (((c :: l) :: rs) :: ps).flatMap fun p => p.getD (j + 1) []
      · rw [beside, List.range_succ_eq_map, List.map_cons, List.map_map]
        rfl
  · have hlast := List.dropLast_append_getLast h0
    obtain ⟨hl, _, c, l, rs, he, hc⟩ := hp _ (List.getLast_mem h0)
    obtain ⟨k, rfl⟩ : ∃ k, h = k + 1 := ⟨h - 1, by omega⟩
    have hk : rs.length = k := by
      have := congrArg List.length he
      simp at this
      omega
    refine ⟨c, (pics.dropLast.flatMap fun p => p.getD k []) ++ l,
      (List.range k).map (fun j => pics.flatMap fun p => p.getD j []), ?_, hc⟩
    rw [beside, List.range_succ, List.map_append, List.map_singleton]
    congr 2
    conv => lhs; rw [← hlast]
    rw [List.flatMap_append, List.flatMap_singleton, he, List.append_assoc]
    congr 1
    rw [List.getD_eq_getElem?_getD, List.getElem?_append_right (by omega), hk]
    simp

/-! ### Examples -/

def boxCall (f : Str) (args : List Expr) : Outcome Expr :=
  (evalN Demo.plat Demo.host (stdB Demo.plat Demo.lib) 3 (call c!"widget" f args) Demo.env []).1

example : boxCall c!"create" [.str c!"Hi", .str c!"text", .int (.lit 9), .int (.lit 4)] =
    .ok (.str c!"┌──Hi───┐\n text    \n         \n└───────┘") := rfl

example : Picture [c!"ab", c!"cd"] 2 2 := ⟨rfl, by simp, by simp⟩

example : boxCall c!"joinx" [.str c!"ab\ncd", .str c!"x\ny\n"] = .ok (.str c!"abx\ncdy\n") := rfl
example : boxCall c!"joiny" [.str c!"ab\ncd", .str c!"xy\n"] = .ok (.str c!"ab\ncd\nxy") := rfl
example : boxCall c!"joiny" [.str c!" \n", .str c!"xy\n"] = .panic := rfl
example : Corners [c!"ab", c!"cd"] := ⟨⟨_, _, _, rfl, rfl⟩, 'd', c!"c", [c!"ab"], rfl, rfl⟩

/-! ### Instances: the hypotheses can be met -/

example := C77_create_narrow (P := Demo.plat) (H := Demo.host) (L := Demo.lib) (n := 0) (w := [])
  demo_std (t := .str c!"Hi") (x := .str c!"text") (a := .int (.lit 4)) (b := .int (.lit 4))
  rfl rfl (by decide)

example := C77_create_low (P := Demo.plat) (H := Demo.host) (L := Demo.lib) (n := 0) (w := [])
  demo_std (t := .str c!"Hi") (x := .str c!"text") (a := .int (.lit 9)) (b := .int (.lit 2))
  rfl rfl rfl rfl (by decide) (.inl (by decide))

example := C77_create (P := Demo.plat) (H := Demo.host) (L := Demo.lib) (n := 0) (w := [])
  demo_std (t := .str c!"Hi") (x := .str c!"text") (a := .int (.lit 9)) (b := .int (.lit 4))
  (lines := [c!"text"]) rfl rfl rfl rfl (by decide) (by decide) (by decide) (by decide) rfl (by simp) (by decide)

example := C77_joinx_size (pics := [[c!"ab", c!"cd"], [c!"x", c!"y"]]) (h := 2) (ws := [2, 1])
  (.cons ⟨rfl, by simp, by simp⟩ (.cons ⟨rfl, by simp, by simp⟩ .nil))

example := C77_joinx_heights (P := Demo.plat) (H := Demo.host) (L := Demo.lib) (n := 0) (w := [])
  demo_std (a := .str c!"ab\ncd") (b := .str c!"x") rfl rfl (by decide)

example := C77_joiny_size (pics := [[c!"ab", c!"cd"], [c!"xy"]]) (wd := 2) (hs := [2, 1])
  (.cons ⟨rfl, by simp, by simp⟩ (.cons ⟨rfl, by simp, by simp⟩ .nil))

example := C77_joiny_blank (P := Demo.plat) (H := Demo.host) (L := Demo.lib) (n := 0) (w := [])
  demo_std (a := .str c!" \n") (b := .str c!"xy\n") rfl (by decide)

example := C77_joinx (P := Demo.plat) (H := Demo.host) (L := Demo.lib) (n := 0) (w := [])
  demo_std (args := [.str c!"ab\ncd", .str c!"x\ny\n"]) (ss := [c!"ab\ncd", c!"x\ny\n"]) (h := 2)
  (pics := [[c!"ab", c!"cd"], [c!"x", c!"y"]]) (by decide) (by decide) (.cons rfl (.cons rfl .nil))
  (.cons ⟨.inl rfl, 2, by decide, rfl, by simp, by simp⟩ (.cons ⟨.inr rfl, 1, by decide, rfl, by simp, by simp⟩ .nil))

example := C77_joiny (P := Demo.plat) (H := Demo.host) (L := Demo.lib) (n := 0) (w := [])
  demo_std (args := [.str c!"ab\ncd", .str c!"xy\n"]) (ss := [c!"ab\ncd", c!"xy\n"]) (wd := 2)
  (pics := [[c!"ab", c!"cd"], [c!"xy"]]) (by decide) (by decide) (.cons rfl (.cons rfl .nil))
  (.cons ⟨.inl rfl, ⟨⟨_, _, _, rfl, rfl⟩, 'd', c!"c", [c!"ab"], rfl, rfl⟩, 2, rfl, by simp, by simp⟩
    (.cons ⟨.inr rfl, ⟨⟨_, _, _, rfl, rfl⟩, 'y', c!"x", [], rfl, rfl⟩, 1, rfl, by simp, by simp⟩ .nil))

end Dune.Props
