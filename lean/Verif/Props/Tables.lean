import Verif.Props.Text
import Verif.Spec.Demo
import Verif.Proof.Numeral
import Verif.Proof.Prompt
import Mathlib.Data.List.Forall2

/-! C98: how lists and maps are printed. -/

namespace Dune.Props

open Spec

/-! ### When printing crashes -/

/-- `Draws v m`: the map `m` is `v` or is in `v`, inside of lists and maps only. -/
inductive Draws : Expr → BMap Expr → Prop
  | here (m : BMap Expr) : Draws (.map m) m
  | item {l : List Expr} {e : Expr} {m : BMap Expr} : e ∈ l → Draws e m → Draws (.list l) m
  | entry {m' : BMap Expr} {k : Str} {e : Expr} {m : BMap Expr} : (k, e) ∈ m' → Draws e m →
      Draws (.map m') m

/-- `v` has, in a map, a list under a key too long for the terminal. -/
def TooNarrow (P : Plat) (v : Expr) : Prop :=
  ∃ m k l, Draws v m ∧ (k, Expr.list l) ∈ m ∧ P.width < utf8Len k + 3

section

variable {P : Plat}

theorem tooNarrow_list {l : List Expr} : TooNarrow P (.list l) ↔ ∃ e ∈ l, TooNarrow P e := by
  constructor
  · rintro ⟨m, k, l', h, hk, hw⟩
    cases h with
    | item he h => exact ⟨_, he, m, k, l', h, hk, hw⟩
  · rintro ⟨e, he, m, k, l', h, hk, hw⟩
    exact ⟨m, k, l', .item he h, hk, hw⟩

theorem tooNarrow_map {m : BMap Expr} : TooNarrow P (.map m) ↔
    ∃ p ∈ m, TooNarrow P p.2 ∨ (∃ l, p.2 = .list l) ∧ P.width < utf8Len p.1 + 3 := by
  constructor
  · rintro ⟨m', k, l', h, hk, hw⟩
    cases h with
    | here => exact ⟨_, hk, .inr ⟨⟨_, rfl⟩, hw⟩⟩
    | entry he h => exact ⟨_, he, .inl ⟨m', k, l', h, hk, hw⟩⟩
  · rintro ⟨⟨k, e⟩, hp, ⟨m', k', l', h, hk, hw⟩ | ⟨⟨l, h⟩, hw⟩⟩
    · exact ⟨m', k', l', .entry hp h, hk, hw⟩
    · have h : e = .list l := h
      subst h
      exact ⟨m, k, l, .here m, hp, hw⟩

theorem not_tooNarrow {v : Expr} (h1 : ∀ l, v ≠ .list l) (h2 : ∀ m, v ≠ .map m) : ¬ TooNarrow P v := by
  rintro ⟨m, k, l, h, -, -⟩
  cases h with
  | here => exact h2 _ rfl
  | item => exact h1 _ rfl
  | entry => exact h2 _ rfl

theorem innerWidth_none {w : Nat} {k : Str} :
    innerWidth P w k = none ↔ P.overflowChecks = true ∧ w < utf8Len k + 3 := by
  unfold innerWidth
  by_cases h : utf8Len k + 3 ≤ w
  · rw [if_pos h]
    simp
    omega
  · rw [if_neg h]
    cases P.overflowChecks <;> simp
    omega

mutual

theorem shown_none : ∀ (v : Expr) (w : Nat), ((∃ m, v = .map m) → w = P.width) →
    (shown P w v = none ↔ P.overflowChecks = true ∧ TooNarrow P v)
  | .list l, w, _ => by
    rw [tooNarrow_list, ← shownCells_none l, shown]
    cases h : shownCells P l <;> simp
    split <;> simp
  | .map m, w, hw => by
    obtain rfl := hw ⟨m, rfl⟩
    rw [tooNarrow_map, ← shownRows_none m, shown]
    cases h : shownRows P P.width m <;> simp
  | .str _, _, _ | .int _, _, _ | .float _, _, _ | .bool _, _, _ | .bytes _, _, _ | .none, _, _
  | .symbol _, _, _ | .quote _, _, _ | .group _, _, _ | .lambda .., _, _ | .macro_ .., _, _
  | .for_ .., _, _ | .do_ _, _, _ | .assign .., _, _ | .ite .., _, _ | .apply .., _, _
  | .builtin .., _, _ => by
    simp only [shown, reduceCtorEq, false_iff, not_and]
    exact fun _ => not_tooNarrow (by simp) (by simp)

theorem shownCells_none : ∀ l : List Expr, shownCells P l = none ↔
    P.overflowChecks = true ∧ ∃ e ∈ l, TooNarrow P e
  | [] => by simp [shownCells]
  | e :: es => by
    have h1 := shown_none e P.width fun _ => rfl
    have h2 := shownCells_none es
    simp only [List.mem_cons, exists_eq_or_imp, and_or_left, ← h1, ← h2, shownCells]
    cases shown P P.width e <;> cases shownCells P es <;> simp

theorem shownRows_none : ∀ m : List (Str × Expr), shownRows P P.width m = none ↔
    P.overflowChecks = true ∧ ∃ p ∈ m, TooNarrow P p.2 ∨ (∃ l, p.2 = .list l) ∧ P.width < utf8Len p.1 + 3
  | [] => by simp [shownRows]
  | (k, e) :: m => by
    have h1 := fun w h => shown_none e w h
    have h2 := shownRows_none m
    simp only [List.mem_cons, exists_eq_or_imp, and_or_left (a := P.overflowChecks = true), ← h2,
      shownRows]
    cases e with
    | list l =>
      have h0 := innerWidth_none (P := P) (w := P.width) (k := k)
      simp only [entryWidth, Expr.list.injEq, exists_eq', true_and]
      cases hi : innerWidth P P.width k with
      | none => simp [h0.mp hi]
      | some w' =>
        have h0 := (not_congr h0).mp (by simp [hi])
        simp only [Option.bind_eq_bind, Option.bind_some, ← h1 w' (by simp)]
        cases shown P w' (.list l) <;> cases shownRows P P.width m <;> simp
        exact fun h => by simpa [h] using h0
    | _ =>
      simp only [entryWidth, Option.bind_eq_bind, Option.bind_some,
        ← h1 P.width (fun _ => rfl), reduceCtorEq, exists_false, false_and, and_false, or_false]
      cases shown P P.width _ <;> cases shownRows P P.width m <;> simp

end

/-- C98, in a build with overflow checks printing a value crashes exactly if somewhere in it, inside of
lists and maps, a map has a list under a key with more than (width of the terminal - 3) bytes; without
overflow checks it never does. -/
theorem C98_crash (v : Expr) :
    shown P P.width v = none ↔ P.overflowChecks = true ∧ TooNarrow P v :=
  shown_none v P.width fun _ => rfl

/-! ### Lines -/

theorem linesGo_other {c : Char} (hc : c ≠ '\n') (cs cur : Str) :
    linesGo (c :: cs) cur = linesGo cs (c :: cur) := by
  simp only [linesGo, if_neg hc]

theorem bareRev_eq {cur : Str} (h : cur.head? ≠ some '\r') : bareRev cur = cur.reverse := by
  cases cur with
  | nil => rfl
  | cons c cur =>
    have hc : c ≠ '\r' := by simpa using h
    unfold bareRev
    split
    · rename_i h'
      exact absurd (List.cons.inj h').1 hc
    · rfl

theorem linesGo_row : ∀ (a cur rest : Str), '\n' ∉ a → (a.reverse ++ cur).head? ≠ some '\r' →
    linesGo (a ++ '\n' :: rest) cur = (a.reverse ++ cur).reverse :: linesGo rest []
  | [], cur, rest, _, h => by
    simp only [List.nil_append, List.reverse_nil] at h ⊢
    rw [linesGo_newline', bareRev_eq h]
  | c :: a, cur, rest, hn, h => by
    have hc : c ≠ '\n' := fun e => hn (by simp [e])
    rw [List.cons_append, linesGo_other hc,
      linesGo_row a (c :: cur) rest (fun e => hn (by simp [e])) (by simpa using h)]
    simp

/-- a text of lines, each ended by a newline -/
def ofLines (ls : List Str) : Str := ls.flatMap fun l => l ++ ['\n']

/-- a line that ends with neither newline nor carriage return -/
def CleanLine (l : Str) : Prop := '\n' ∉ l ∧ l.getLast? ≠ some '\r'

theorem linesOf_ofLines : ∀ ls : List Str, (∀ l ∈ ls, CleanLine l) → linesOf (ofLines ls) = ls
  | [], _ => rfl
  | l :: ls, h => by
    have hl := h l (by simp)
    have ih := linesOf_ofLines ls fun x hx => h x (by simp [hx])
    have : ofLines (l :: ls) = l ++ '\n' :: ofLines ls := by simp [ofLines]
    rw [this, linesOf, linesGo_row l [] _ hl.1 (by simpa [List.head?_reverse] using hl.2)]
    rw [linesOf] at ih
    simp [ih]

theorem linesGo_clean : ∀ (s cur : Str), '\n' ∉ cur → ∀ l ∈ linesGo s cur, '\n' ∉ l
  | [], cur, h => by
    simp only [linesGo]
    split <;> simp_all
  | c :: cs, cur, h => by
    by_cases hc : c = '\n'
    · subst hc
      rw [linesGo_newline']
      intro l hl
      rcases List.mem_cons.mp hl with rfl | hl
      · have hb : bareRev cur <+: cur.reverse := by
          unfold bareRev
          split <;> simp
        exact fun hm => h (by simpa using hb.subset hm)
      · exact linesGo_clean cs [] (by simp) l hl
    · rw [linesGo_other hc]
      exact linesGo_clean cs (c :: cur) (by simp [h, Ne.symm hc])

theorem linesOf_clean {s l : Str} (h : l ∈ linesOf s) : '\n' ∉ l := linesGo_clean s [] (by simp) l h

/-! ### The lines of a table -/

def sepBody (c : Char × Char × Char × Char) (ws : List Nat) : Str :=
  c.2.2.1 :: joinStr [c.2.1] (ws.map fun w => List.replicate (w + 2) c.1) ++ [c.2.2.2]

def rowBody (P : Plat) (side : Char) (ws : List Nat) (row : List Str) (i : Nat) : Str :=
  side :: joinStr [side] (rowCells P i ws row) ++ [side]

def rowLines (P : Plat) (side : Char) (ws : List Nat) (row : List Str) : List Str :=
  (List.range (rowHeight row)).map (rowBody P side ws row)

def bodyLines (P : Plat) (st : TableStyle) (ws : List Nat) : List (List Str) → List Str
  | [] => []
  | [r] => rowLines P st.side ws r
  | r :: r' :: rs => rowLines P st.side ws r ++ sepBody st.inner ws :: bodyLines P st ws (r' :: rs)

def tableLines (P : Plat) (st : TableStyle) (rows : List (List Str)) : List Str :=
  let ws := columnWidths P rows
  sepBody st.top ws :: bodyLines P st ws rows ++ [sepBody st.bottom ws]

theorem ofLines_append (a b : List Str) : ofLines (a ++ b) = ofLines a ++ ofLines b := by
  simp [ofLines]

theorem rowText_lines (side : Char) (ws : List Nat) (row : List Str) :
    rowText P side ws row = ofLines (rowLines P side ws row) := by
  simp only [rowText, ofLines, rowLines, List.flatMap_map]
  congr 1
  funext i
  simp [rowLine, rowBody]

theorem sepLine_lines (c : Char × Char × Char × Char) (ws : List Nat) :
    sepLine c ws = ofLines [sepBody c ws] := by
  simp [sepLine, sepBody, ofLines]

theorem body_lines (st : TableStyle) (ws : List Nat) : ∀ rows : List (List Str),
    joinStr (sepLine st.inner ws) (rows.map (rowText P st.side ws)) = ofLines (bodyLines P st ws rows)
  | [] => rfl
  | [r] => by simp [joinStr, bodyLines, rowText_lines]
  | r :: r' :: rs => by
    have ih := body_lines st ws (r' :: rs)
    simp only [List.map_cons] at ih
    simp only [List.map_cons, joinStr, bodyLines, ih]
    rw [rowText_lines, sepLine_lines, ← ofLines_append, ← ofLines_append]
    simp

theorem render_lines (st : TableStyle) (rows : List (List Str)) :
    renderTable P st rows = ofLines (tableLines P st rows) := by
  simp only [renderTable, tableLines]
  rw [body_lines, sepLine_lines, sepLine_lines, ← ofLines_append, ← ofLines_append]
  simp

/-! ### Widths -/

theorem foldl_max {α : Type} (f : α → Nat) : ∀ (l : List α) (n : Nat),
    n ≤ l.foldl (fun w x => max w (f x)) n ∧ (∀ x ∈ l, f x ≤ l.foldl (fun w x => max w (f x)) n) ∧
    (l.foldl (fun w x => max w (f x)) n = n ∨ ∃ x ∈ l, l.foldl (fun w x => max w (f x)) n = f x)
  | [], n => by simp
  | a :: l, n => by
    obtain ⟨h1, h2, h3⟩ := foldl_max f l (max n (f a))
    simp only [List.foldl_cons]
    refine ⟨by omega, ?_, ?_⟩
    · intro x hx
      rcases List.mem_cons.mp hx with rfl | hx
      · omega
      · exact h2 x hx
    · rcases h3 with h3 | ⟨x, hx, h3⟩
      · rcases Nat.le_total n (f a) with h | h
        · exact .inr ⟨a, by simp, by rw [h3]; omega⟩
        · exact .inl (by rw [h3]; omega)
      · exact .inr ⟨x, by simp [hx], h3⟩

/-- the sum of the widths of the characters -/
def sumWidth (P : Plat) (s : Str) : Nat := (s.map P.charWidth).sum

theorem displayWidth_sum : ∀ {s : Str}, '\x1b' ∉ s → displayWidth P s = sumWidth P s
  | [], _ => rfl
  | c :: s, h => by
    have hc : c ≠ '\x1b' := fun e => h (by simp [e])
    have ih := displayWidth_sum (s := s) fun e => h (by simp [e])
    rw [displayWidth] at ih
    rw [displayWidth, displayWidthGo, if_neg hc, ih]
    simp [sumWidth]

theorem sumWidth_append (a b : Str) : sumWidth P (a ++ b) = sumWidth P a + sumWidth P b := by
  simp [sumWidth]

theorem sumWidth_replicate (n : Nat) (c : Char) : sumWidth P (List.replicate n c) = n * P.charWidth c := by
  simp [sumWidth]

theorem mem_joinStr {sep : Str} {x : Char} : ∀ {ps : List Str} {p : Str}, p ∈ ps → x ∈ p →
    x ∈ joinStr sep ps
  | [q], p, hp, hx => by
    obtain rfl : p = q := by simpa using hp
    exact hx
  | q :: q' :: ps, p, hp, hx => by
    rw [joinStr]
    rcases List.mem_cons.mp hp with rfl | hp
    · simp [hx]
    · have := mem_joinStr (sep := sep) hp hx
      simp [this]

/-- every cell of the row fits into its column -/
def Fit (P : Plat) : List Nat → List Str → Prop
  | [], _ => True
  | w :: ws, cs => cellWidth P (cs.headD []) ≤ w ∧ Fit P ws cs.tail

theorem fit_of : ∀ {ws : List Nat} {cs : List Str},
    (∀ j w, ws[j]? = some w → cellWidth P (cs.getD j []) ≤ w) → Fit P ws cs
  | [], _, _ => trivial
  | w :: ws, cs, h => by
    refine ⟨?_, fit_of fun j w' hw => ?_⟩
    · have := h 0 w rfl
      cases cs <;> simpa using this
    · have := h (j + 1) w' (by simpa using hw)
      cases cs <;> simpa using this

theorem columnWidths_get {rows : List (List Str)} {j w : Nat} (h : (columnWidths P rows)[j]? = some w) :
    w = rows.foldl (fun w r => max w (cellWidth P (r.getD j []))) 0 := by
  simp only [columnWidths, List.getElem?_map, Option.map_eq_some_iff] at h
  obtain ⟨k, hk, rfl⟩ := h
  rw [List.getElem?_eq_some_iff] at hk
  obtain ⟨hk, rfl⟩ := hk
  simp

theorem fit_columns {rows : List (List Str)} {row : List Str} (h : row ∈ rows) :
    Fit P (columnWidths P rows) row :=
  fit_of fun j w hw => by
    rw [columnWidths_get hw]
    exact (foldl_max (fun r : List Str => cellWidth P (r.getD j [])) rows 0).2.1 row h

theorem line_le_cell {s : Str} (i : Nat) : displayWidth P ((linesOf s).getD i []) ≤ cellWidth P s := by
  rw [List.getD_eq_getElem?_getD]
  cases h : (linesOf s)[i]? with
  | none => simp [displayWidth, displayWidthGo]
  | some l => exact (foldl_max (displayWidth P) (linesOf s) 0).2.1 l (List.mem_of_getElem? h)

theorem padCell_width (hb : P.charWidth ' ' = 1) {w : Nat} {s : Str} (h : displayWidth P s ≤ w)
    (he : '\x1b' ∉ s) : sumWidth P (padCell P w s) = w := by
  rw [padCell, sumWidth_append, sumWidth_replicate, hb, displayWidth_sum he]
  rw [displayWidth_sum he] at h
  omega

theorem rowCells_width (hb : P.charWidth ' ' = 1) (i : Nat) : ∀ {ws : List Nat} {cs : List Str},
    Fit P ws cs → (∀ p ∈ rowCells P i ws cs, '\x1b' ∉ p) →
    List.Forall₂ (fun w p => sumWidth P p = w + 2) ws (rowCells P i ws cs)
  | [], _, _, _ => .nil
  | w :: ws, cs, hf, he => by
    rw [rowCells] at he ⊢
    refine .cons ?_ (rowCells_width hb i hf.2 fun p hp => he p (by simp [hp]))
    have h1 : '\x1b' ∉ (linesOf (cs.headD [])).getD i [] := fun hm =>
      he _ (List.mem_cons_self ..) (by
        simp only [padCell, List.cons_append, List.mem_cons, List.mem_append]
        exact .inr (.inl (.inl hm)))
    have := padCell_width hb (Nat.le_trans (line_le_cell i) hf.1) h1
    rw [sumWidth_append, ← List.singleton_append, sumWidth_append, this]
    simp [sumWidth, hb]
    omega

theorem join_width {c : Char} (hc : P.charWidth c = 1) : ∀ {ws : List Nat} {ps : List Str},
    List.Forall₂ (fun w p => sumWidth P p = w + 2) ws ps → ws ≠ [] →
    sumWidth P (joinStr [c] ps) + 1 = (ws.map (· + 3)).sum
  | _, _, .nil, h => absurd rfl h
  | _, _, .cons h1 .nil, _ => by simp [joinStr, h1]
  | _, _, .cons h1 (.cons h2 h3), _ => by
    have ih := join_width hc (.cons h2 h3) (by simp)
    rw [joinStr, sumWidth_append, sumWidth_append, h1]
    rw [List.map_cons, List.sum_cons, ← ih]
    simp [sumWidth, hc]
    omega

/-- the width of a table with these columns -/
def tableWidth : List Nat → Nat
  | [] => 2
  | ws => (ws.map (· + 3)).sum + 1

theorem framed_width {l c r : Char} (hl : P.charWidth l = 1) (hc : P.charWidth c = 1)
    (hr : P.charWidth r = 1) {ws : List Nat} {ps : List Str}
    (h : List.Forall₂ (fun w p => sumWidth P p = w + 2) ws ps) :
    sumWidth P (l :: joinStr [c] ps ++ [r]) = tableWidth ws := by
  rw [sumWidth_append, ← List.singleton_append, sumWidth_append]
  have h1 : ∀ {x : Char}, P.charWidth x = 1 → sumWidth P [x] = 1 := fun h => by simp [sumWidth, h]
  rw [h1 hl, h1 hr]
  cases ws with
  | nil =>
    cases h
    rfl
  | cons w ws =>
    have := join_width hc h (by simp)
    simp only [tableWidth]
    omega

/-- the characters of the frame -/
def _root_.Dune.TableStyle.chars (st : TableStyle) : Str :=
  [st.side, st.top.1, st.top.2.1, st.top.2.2.1, st.top.2.2.2, st.inner.1, st.inner.2.1, st.inner.2.2.1,
    st.inner.2.2.2, st.bottom.1, st.bottom.2.1, st.bottom.2.2.1, st.bottom.2.2.2]

theorem sep_width {c : Char × Char × Char × Char}
    (h : P.charWidth c.1 = 1 ∧ P.charWidth c.2.1 = 1 ∧ P.charWidth c.2.2.1 = 1 ∧ P.charWidth c.2.2.2 = 1)
    (ws : List Nat) : sumWidth P (sepBody c ws) = tableWidth ws := by
  refine framed_width h.2.2.1 h.2.1 h.2.2.2 ?_
  rw [List.forall₂_map_right_iff]
  exact List.forall₂_same.mpr fun w _ => by rw [sumWidth_replicate, h.1, Nat.mul_one]

theorem row_width (hb : P.charWidth ' ' = 1) {side : Char} (hs : P.charWidth side = 1) {i : Nat}
    {ws : List Nat} {row : List Str} (hf : Fit P ws row) (he : '\x1b' ∉ rowBody P side ws row i) :
    sumWidth P (rowBody P side ws row i) = tableWidth ws :=
  framed_width hs hs hs (rowCells_width hb i hf fun p hp hm => he (by
    simp only [rowBody, List.mem_append, List.mem_cons]
    exact .inl (.inr (mem_joinStr hp hm))))

theorem mem_body {st : TableStyle} {ws : List Nat} {l : Str} : ∀ {rows : List (List Str)},
    l ∈ bodyLines P st ws rows → l = sepBody st.inner ws ∨
      ∃ row ∈ rows, ∃ i < rowHeight row, l = rowBody P st.side ws row i
  | [r], h => by
    simp only [bodyLines, rowLines, List.mem_map, List.mem_range] at h
    obtain ⟨i, hi, rfl⟩ := h
    exact .inr ⟨r, by simp, i, hi, rfl⟩
  | r :: r' :: rs, h => by
    rw [bodyLines, List.mem_append, List.mem_cons] at h
    rcases h with h | h | h
    · simp only [rowLines, List.mem_map, List.mem_range] at h
      obtain ⟨i, hi, rfl⟩ := h
      exact .inr ⟨r, by simp, i, hi, rfl⟩
    · exact .inl h
    · rcases mem_body h with h | ⟨row, hr, h⟩
      · exact .inl h
      · exact .inr ⟨row, List.mem_cons_of_mem _ hr, h⟩

theorem table_width {st : TableStyle} (hb : P.charWidth ' ' = 1) (hst : ∀ c ∈ st.chars, P.charWidth c = 1)
    {rows : List (List Str)} {l : Str} (hl : l ∈ tableLines P st rows) (he : '\x1b' ∉ l) :
    displayWidth P l = tableWidth (columnWidths P rows) := by
  rw [displayWidth_sum he]
  simp only [TableStyle.chars, List.mem_cons, List.not_mem_nil, or_false, forall_eq_or_imp, forall_eq] at hst
  obtain ⟨h1, h2, h3, h4, h5, h6, h7, h8, h9, h10, h11, h12, h13⟩ := hst
  simp only [tableLines, List.mem_append, List.mem_cons, List.not_mem_nil, or_false] at hl
  rcases hl with (rfl | hl) | rfl
  · exact sep_width ⟨h2, h3, h4, h5⟩ _
  · rcases mem_body hl with rfl | ⟨row, hr, i, _, rfl⟩
    · exact sep_width ⟨h6, h7, h8, h9⟩ _
    · exact row_width hb h1 (fit_columns hr) he
  · exact sep_width ⟨h10, h11, h12, h13⟩ _

/-! ### Positions -/

/-- No escape sequences, and every character takes one column. -/
def PlainText (P : Plat) (s : Str) : Prop := ∀ c ∈ s, c ≠ '\x1b' ∧ P.charWidth c = 1

theorem plain_width {s : Str} (h : PlainText P s) : displayWidth P s = s.length := by
  rw [displayWidth_sum fun he => (h _ he).1 rfl]
  induction s with
  | nil => rfl
  | cons c s ih =>
    have := ih fun x hx => h x (by simp [hx])
    simp only [sumWidth] at this
    simp [sumWidth, (h c (by simp)).2, this]
    omega

/-- every line of the cell is plain -/
def PlainCell (P : Plat) (c : Str) : Prop := ∀ l ∈ linesOf c, PlainText P l

theorem plain_getD {c : Str} (h : PlainCell P c) (i : Nat) : PlainText P ((linesOf c).getD i []) := by
  rw [List.getD_eq_getElem?_getD]
  cases hl : (linesOf c)[i]? with
  | none => simp [PlainText]
  | some l => exact h l (List.mem_of_getElem? hl)

/-- what the cell holds: the line, and blanks up to the width -/
def padded (w : Nat) (s : Str) : Str := s ++ List.replicate (w - s.length) ' '

theorem rowCells_get {i : Nat} : ∀ {ws : List Nat} {cs : List Str} {j : Nat}, j < ws.length →
    (∀ c ∈ cs, PlainCell P c) → (rowCells P i ws cs)[j]? =
      some (' ' :: padded (ws.getD j 0) ((linesOf (cs.getD j [])).getD i []) ++ [' '])
  | w :: ws, cs, 0, _, h => by
    have : PlainCell P (cs.headD []) := by
      cases cs with
      | nil => simp [PlainCell, linesOf, linesGo]
      | cons c cs => exact h c (by simp)
    have e : cs.getD 0 [] = cs.headD [] := by cases cs <;> rfl
    simp only [rowCells, List.getElem?_cons_zero, e, padCell, padded, plain_width (plain_getD this i),
      List.getD_cons_zero]
  | w :: ws, cs, j + 1, hj, h => by
    have e : cs.getD (j + 1) [] = cs.tail.getD j [] := by cases cs <;> rfl
    rw [rowCells, List.getElem?_cons_succ, e, List.getD_cons_succ]
    exact rowCells_get (by simpa using hj) fun c hc => h c (List.mem_of_mem_tail hc)

theorem rowCells_lengths {i : Nat} : ∀ {ws : List Nat} {cs : List Str}, Fit P ws cs →
    (∀ c ∈ cs, PlainCell P c) → (rowCells P i ws cs).map List.length = ws.map (· + 2)
  | [], _, _, _ => rfl
  | w :: ws, cs, hf, h => by
    have hp : PlainCell P (cs.headD []) := by
      cases cs with
      | nil => simp [PlainCell, linesOf, linesGo]
      | cons c cs => exact h c (by simp)
    have h1 := Nat.le_trans (line_le_cell (P := P) (s := cs.headD []) i) hf.1
    have h2 := plain_width (plain_getD hp i)
    rw [rowCells, List.map_cons, List.map_cons,
      rowCells_lengths hf.2 fun c hc => h c (List.mem_of_mem_tail hc)]
    congr 1
    rw [h2] at h1
    simp only [padCell, h2, List.length_append, List.length_cons, List.length_replicate,
      List.length_nil]
    omega

theorem join_drop {c : Char} : ∀ {ps : List Str} {j : Nat} {p : Str}, ps[j]? = some p → ∃ rest,
    (joinStr [c] ps).drop (((ps.map List.length).take j).map (· + 1)).sum = p ++ rest
  | [q], 0, p, h => ⟨[], by simpa [joinStr] using h⟩
  | q :: q' :: ps, 0, p, h => ⟨[c] ++ joinStr [c] (q' :: ps), by
      obtain rfl : q = p := by simpa using h
      simp [joinStr]⟩
  | q :: q' :: ps, j + 1, p, h => by
    obtain ⟨rest, hr⟩ := join_drop (c := c) (ps := q' :: ps) (j := j) (p := p) (by simpa using h)
    refine ⟨rest, ?_⟩
    rw [List.map_cons, List.take_succ_cons, List.map_cons, List.sum_cons, joinStr]
    have : q.length + 1 = (q ++ [c]).length := by simp
    rw [this, ← List.drop_drop, List.drop_left, hr]

/-- the first column of cell `j`, if `W j` is the width of column `j` -/
def cellColumn (W : Nat → Nat) (j : Nat) : Nat := 2 + ((List.range j).map fun i => W i + 3).sum

/-- the first line of row `r`, if `H r` is its height -/
def rowStart (H : Nat → Nat) (r : Nat) : Nat := 1 + ((List.range r).map fun i => H i + 1).sum

theorem take_sum {α : Type} (f : α → Nat) (d : α) (l : List α) : ∀ j ≤ l.length,
    ((l.take j).map f).sum = ((List.range j).map fun i => f (l.getD i d)).sum
  | 0, _ => by simp
  | j + 1, h => by
    have ih := take_sum f d l j (by omega)
    have hj : l[j]? = some l[j] := List.getElem?_eq_getElem (by omega)
    rw [List.range_succ, List.map_append, List.sum_append, ← ih, List.take_add_one, hj, List.map_append,
      List.sum_append]
    simp only [Option.toList_some, List.map_cons, List.map_nil, List.getD_eq_getElem?_getD, hj,
      Option.getD_some]

theorem row_cell {side : Char} {ws : List Nat} {cs : List Str} {i j : Nat} (hf : Fit P ws cs)
    (hp : ∀ c ∈ cs, PlainCell P c) (hj : j < ws.length) :
    ((rowBody P side ws cs i).drop (cellColumn (fun i => ws.getD i 0) j)).take (ws.getD j 0) =
      padded (ws.getD j 0) ((linesOf (cs.getD j [])).getD i []) := by
  obtain ⟨rest, h⟩ := join_drop (c := side) (rowCells_get (P := P) (i := i) hj hp)
  have e : (((rowCells P i ws cs).map List.length).take j).map (· + 1) = (ws.take j).map (· + 3) := by
    rw [rowCells_lengths hf hp, List.map_take, List.map_take, List.map_map]
    rfl
  rw [e, take_sum (· + 3) 0 ws j (by omega)] at h
  have hle : ((List.range j).map fun i => ws.getD i 0 + 3).sum ≤
      (joinStr [side] (rowCells P i ws cs)).length := by
    by_contra hc
    rw [List.drop_eq_nil_of_le (by omega)] at h
    simp at h
  have h2 : cellColumn (fun i => ws.getD i 0) j =
      ((List.range j).map fun i => ws.getD i 0 + 3).sum + 1 + 1 := by
    simp only [cellColumn]
    omega
  have hl : (padded (ws.getD j 0) ((linesOf (cs.getD j [])).getD i [])).length = ws.getD j 0 := by
    have hp' : PlainCell P (cs.getD j []) := by
      rw [List.getD_eq_getElem?_getD]
      cases hc : cs[j]? with
      | none => simp [PlainCell, linesOf, linesGo]
      | some c => exact hp c (List.mem_of_getElem? hc)
    have h1 := line_le_cell (P := P) (s := cs.getD j []) i
    rw [plain_width (plain_getD hp' i)] at h1
    have h3 : ∀ {ws : List Nat} {cs : List Str} {j : Nat}, Fit P ws cs → j < ws.length →
        cellWidth P (cs.getD j []) ≤ ws.getD j 0 := by
      intro ws
      induction ws with
      | nil => intro cs j _ h; simp at h
      | cons w ws ih =>
        intro cs j hf hj
        cases j with
        | zero =>
          have := hf.1
          cases cs <;> simpa using this
        | succ j =>
          have := ih hf.2 (j := j) (by simpa using hj)
          cases cs <;> simpa using this
    have := h3 hf hj
    simp only [padded, List.length_append, List.length_replicate]
    omega
  rw [h2, ← List.drop_drop, rowBody, List.cons_append, Nat.add_comm _ 1, ← List.drop_drop,
    List.drop_succ_cons, List.drop_zero, List.drop_append_of_le_length hle, h, List.cons_append,
    List.cons_append, List.cons_append, List.drop_succ_cons, List.drop_zero]
  simp only [List.append_assoc]
  exact List.take_left' hl

theorem body_get {st : TableStyle} {ws : List Nat} : ∀ {rows : List (List Str)} {r i : Nat}
    {row : List Str}, rows[r]? = some row → i < rowHeight row →
    (bodyLines P st ws rows)[((rows.take r).map fun row => rowHeight row + 1).sum + i]? =
      some (rowBody P st.side ws row i)
  | [q], 0, i, row, h, hi => by
    obtain rfl : q = row := by simpa using h
    simp [bodyLines, rowLines, hi]
  | q :: q' :: rows, 0, i, row, h, hi => by
    obtain rfl : q = row := by simpa using h
    rw [bodyLines, List.getElem?_append_left (by simp [rowLines, hi])]
    simp [rowLines, hi]
  | q :: q' :: rows, r + 1, i, row, h, hi => by
    have ih := body_get (st := st) (ws := ws) (rows := q' :: rows) (r := r) (by simpa using h) hi
    rw [bodyLines, List.take_succ_cons, List.map_cons, List.sum_cons, List.getElem?_append_right
      (by simp [rowLines]; omega)]
    have : rowHeight q + 1 + ((List.take r (q' :: rows)).map fun row => rowHeight row + 1).sum + i -
        (rowLines P st.side ws q).length =
        (((List.take r (q' :: rows)).map fun row => rowHeight row + 1).sum + i) + 1 := by
      simp [rowLines]
      omega
    rw [this, List.getElem?_cons_succ, ih]

theorem body_length {st : TableStyle} {ws : List Nat} : ∀ {rows : List (List Str)}, rows ≠ [] →
    (bodyLines P st ws rows).length + 1 = (rows.map fun row => rowHeight row + 1).sum
  | [q], _ => by simp [bodyLines, rowLines]
  | q :: q' :: rows, _ => by
    have := body_length (st := st) (ws := ws) (rows := q' :: rows) (by simp)
    rw [bodyLines, List.map_cons, List.sum_cons, ← this]
    simp [rowLines]
    omega

/-- `W` is the length of the longest line in column `j`. -/
def Widest (rows : List (List Str)) (j W : Nat) : Prop :=
  (∀ row ∈ rows, ∀ l ∈ linesOf (row.getD j []), l.length ≤ W) ∧
  (W = 0 ∨ ∃ row ∈ rows, ∃ l ∈ linesOf (row.getD j []), l.length = W)

/-- `H` is the number of lines of the tallest cell, and at least one. -/
def Tallest (row : List Str) (H : Nat) : Prop :=
  1 ≤ H ∧ (∀ c ∈ row, (linesOf c).length ≤ H) ∧ (H = 1 ∨ ∃ c ∈ row, (linesOf c).length = H)

/-- `n` is the number of cells of the longest row. -/
def Longest (rows : List (List Str)) (n : Nat) : Prop :=
  (∀ row ∈ rows, row.length ≤ n) ∧ (n = 0 ∨ ∃ row ∈ rows, row.length = n)

/-- A line of the frame, drawn like `cs` = "left end, line, junction, right end". -/
def edge (cs : Str) (W : Nat → Nat) (n : Nat) : Str :=
  [cs.getD 0 ' '] ++ List.intercalate [cs.getD 2 ' '] ((List.range n).map fun j =>
    List.replicate (W j + 2) (cs.getD 1 ' ')) ++ [cs.getD 3 ' ']

/-- What a frame is drawn with: the lines above, between and below the rows, as `edge` takes them, and
the line beside the cells. -/
structure Frame where
  top : Str
  between : Str
  bottom : Str
  side : Char

/-- The text is a table of these cells: a line above, a line below and a line between two rows; every
row is as tall as its tallest cell; every cell starts in the column where its column starts, whatever
the row, and each of its lines is there, unchanged, followed by blanks up to the width of the widest
line of the column; the cells of a line are between side lines. -/
def Grid (f : Frame) (rows : List (List Str)) (t : Str) : Prop :=
  ∃ (ls : List Str) (W H : Nat → Nat) (n : Nat),
    t = ofLines ls ∧ (∀ l ∈ ls, '\n' ∉ l) ∧ Longest rows n ∧
    (∀ j, Widest rows j (W j)) ∧ (∀ r row, rows[r]? = some row → Tallest row (H r)) ∧
    (rows ≠ [] → ls.length = rowStart H rows.length) ∧
    ls.head? = some (edge f.top W n) ∧ ls.getLast? = some (edge f.bottom W n) ∧
    (∀ r, r + 1 < rows.length → ls[rowStart H r + H r]? = some (edge f.between W n)) ∧
    ∀ r row i, rows[r]? = some row → i < H r → ∃ l, ls[rowStart H r + i]? = some l ∧
      (∃ ps : List Str, l = [f.side] ++ List.intercalate [f.side] ps ++ [f.side] ∧
        ps.map List.length = (List.range n).map fun j => W j + 2) ∧
      ∀ j c, row[j]? = some c →
        (l.drop (cellColumn W j)).take (W j) = padded (W j) ((linesOf c).getD i [])

/-- the characters of a style as a frame -/
def _root_.Dune.TableStyle.frame (st : TableStyle) : Frame :=
  let e (c : Char × Char × Char × Char) : Str := [c.2.2.1, c.1, c.2.1, c.2.2.2]
  ⟨e st.top, e st.inner, e st.bottom, st.side⟩

theorem join_eq (sep : Str) (ls : List Str) : joinStr sep ls = List.intercalate sep ls := by
  induction ls with
  | nil => rfl
  | cons a l ih =>
    cases l with
    | nil => simp [joinStr, List.intercalate]
    | cons b l => simp [joinStr, ih, List.intercalate]

theorem sep_edge (c : Char × Char × Char × Char) (rows : List (List Str)) :
    sepBody c (columnWidths P rows) = edge [c.2.2.1, c.1, c.2.1, c.2.2.2]
      (fun j => rows.foldl (fun w r => max w (cellWidth P (r.getD j []))) 0)
      (rows.foldl (fun n r => max n r.length) 0) := by
  simp only [sepBody, edge, join_eq, columnWidths, List.map_map]
  rfl

theorem body_between {st : TableStyle} {ws : List Nat} : ∀ {rows : List (List Str)} {r : Nat},
    r + 1 < rows.length →
    (bodyLines P st ws rows)[((rows.take r).map fun row => rowHeight row + 1).sum +
      rowHeight (rows.getD r [])]? = some (sepBody st.inner ws)
  | [], r, h => by simp at h
  | [q], r, h => by simp at h
  | q :: q' :: rows, 0, h => by
    rw [bodyLines, List.getElem?_append_right (by simp [rowLines])]
    simp [rowLines]
  | q :: q' :: rows, r + 1, h => by
    have ih := body_between (st := st) (ws := ws) (rows := q' :: rows) (r := r) (by simpa using h)
    rw [bodyLines, List.take_succ_cons, List.map_cons, List.sum_cons, List.getElem?_append_right
      (by simp [rowLines]; omega), List.getD_cons_succ]
    have : rowHeight q + 1 + ((List.take r (q' :: rows)).map fun row => rowHeight row + 1).sum +
          rowHeight ((q' :: rows).getD r []) - (rowLines P st.side ws q).length =
        (((List.take r (q' :: rows)).map fun row => rowHeight row + 1).sum +
          rowHeight ((q' :: rows).getD r [])) + 1 := by
      simp [rowLines]
      omega
    rw [this, List.getElem?_cons_succ, ih]

theorem widest_column {rows : List (List Str)} (hp : ∀ row ∈ rows, ∀ c ∈ row, PlainCell P c) (j : Nat) :
    Widest rows j (rows.foldl (fun w r => max w (cellWidth P (r.getD j []))) 0) := by
  obtain ⟨-, h2, h3⟩ := foldl_max (fun r : List Str => cellWidth P (r.getD j [])) rows 0
  have hpl : ∀ row ∈ rows, PlainCell P (row.getD j []) := by
    intro row hr
    rw [List.getD_eq_getElem?_getD]
    cases hc : row[j]? with
    | none => simp [PlainCell, linesOf, linesGo]
    | some c => exact hp row hr c (List.mem_of_getElem? hc)
  refine ⟨fun row hr l hl => ?_, ?_⟩
  · have := (foldl_max (displayWidth P) (linesOf (row.getD j [])) 0).2.1 l hl
    rw [plain_width (hpl row hr l hl)] at this
    exact Nat.le_trans this (h2 row hr)
  · rcases h3 with h3 | ⟨row, hr, h3⟩
    · exact .inl h3
    · rcases (foldl_max (displayWidth P) (linesOf (row.getD j [])) 0).2.2 with h4 | ⟨l, hl, h4⟩
      · exact .inl (h3.trans h4)
      · refine .inr ⟨row, hr, l, hl, ?_⟩
        rw [plain_width (hpl row hr l hl)] at h4
        exact (h3.trans h4).symm

theorem tallest_row (row : List Str) : Tallest row (rowHeight row) := by
  obtain ⟨h1, h2, h3⟩ := foldl_max (fun c : Str => (linesOf c).length) row 1
  refine ⟨h1, h2, ?_⟩
  rcases h3 with h3 | ⟨c, hc, h3⟩
  · exact .inl h3
  · exact .inr ⟨c, hc, h3.symm⟩

theorem columnWidths_length (rows : List (List Str)) :
    (columnWidths P rows).length = rows.foldl (fun n r => max n r.length) 0 := by
  simp [columnWidths]

theorem columnWidths_getD {rows : List (List Str)} {j : Nat} (hj : j < (columnWidths P rows).length) :
    (columnWidths P rows).getD j 0 = rows.foldl (fun w r => max w (cellWidth P (r.getD j []))) 0 := by
  have := List.getElem?_eq_getElem hj
  rw [List.getD_eq_getElem?_getD, this, Option.getD_some]
  exact columnWidths_get this

theorem mem_join {sep : Str} {x : Char} : ∀ {ps : List Str}, x ∈ joinStr sep ps → x ∈ sep ∨ ∃ p ∈ ps, x ∈ p
  | [q], h => .inr ⟨q, by simp, h⟩
  | q :: q' :: ps, h => by
    simp only [joinStr, List.mem_append] at h
    rcases h with (h | h) | h
    · exact .inr ⟨q, by simp, h⟩
    · exact .inl h
    · rcases mem_join h with h | ⟨p, hp, h⟩
      · exact .inl h
      · exact .inr ⟨p, List.mem_cons_of_mem _ hp, h⟩

theorem sep_clean {c : Char × Char × Char × Char} {ws : List Nat}
    (h : c.1 ≠ '\n' ∧ c.2.1 ≠ '\n' ∧ c.2.2.1 ≠ '\n' ∧ c.2.2.2 ≠ '\n') : '\n' ∉ sepBody c ws := by
  intro hm
  simp only [sepBody, List.cons_append, List.mem_cons, List.mem_append, List.not_mem_nil, or_false] at hm
  rcases hm with hm | hm | hm
  · exact h.2.2.1 hm.symm
  · rcases mem_join hm with hm | ⟨p, hp, hm⟩
    · exact h.2.1 (List.mem_singleton.mp hm).symm
    · simp only [List.mem_map] at hp
      obtain ⟨w, _, rfl⟩ := hp
      exact h.1 (List.eq_of_mem_replicate hm).symm
  · exact h.2.2.2 hm.symm

theorem rowCells_clean {i : Nat} : ∀ {ws : List Nat} {cs : List Str} {p : Str}, p ∈ rowCells P i ws cs →
    '\n' ∉ p
  | w :: ws, cs, p, h => by
    rw [rowCells, List.mem_cons] at h
    rcases h with rfl | h
    · intro hm
      simp only [padCell, List.cons_append, List.mem_cons, List.mem_append, List.not_mem_nil, or_false] at hm
      rcases hm with hm | (hm | hm) | hm
      · exact absurd hm (by decide)
      · rw [List.getD_eq_getElem?_getD] at hm
        cases hl : (linesOf (cs.headD []))[i]? with
        | none =>
          rw [hl] at hm
          exact absurd hm (by simp)
        | some l =>
          rw [hl] at hm
          exact linesOf_clean (List.mem_of_getElem? hl) hm
      · exact absurd (List.eq_of_mem_replicate hm) (by decide)
      · exact absurd hm (by decide)
    · exact rowCells_clean h

theorem row_clean {side : Char} (hs : side ≠ '\n') {ws : List Nat} {row : List Str} {i : Nat} :
    '\n' ∉ rowBody P side ws row i := by
  intro hm
  simp only [rowBody, List.cons_append, List.mem_cons, List.mem_append, List.not_mem_nil, or_false] at hm
  rcases hm with hm | hm | hm
  · exact hs hm.symm
  · rcases mem_join hm with hm | ⟨p, hp, hm⟩
    · exact hs (List.mem_singleton.mp hm).symm
    · exact rowCells_clean hp hm
  · exact hs hm.symm

theorem table_clean {st : TableStyle} (hst : '\n' ∉ st.chars) {rows : List (List Str)} {l : Str}
    (hl : l ∈ tableLines P st rows) : '\n' ∉ l := by
  simp only [TableStyle.chars, List.mem_cons, List.not_mem_nil, or_false, not_or] at hst
  obtain ⟨h1, h2, h3, h4, h5, h6, h7, h8, h9, h10, h11, h12, h13⟩ := hst
  simp only [tableLines, List.mem_append, List.mem_cons, List.not_mem_nil, or_false] at hl
  rcases hl with (rfl | hl) | rfl
  · exact sep_clean ⟨Ne.symm h2, Ne.symm h3, Ne.symm h4, Ne.symm h5⟩
  · rcases mem_body hl with rfl | ⟨row, hr, i, _, rfl⟩
    · exact sep_clean ⟨Ne.symm h6, Ne.symm h7, Ne.symm h8, Ne.symm h9⟩
    · exact row_clean (Ne.symm h1)
  · exact sep_clean ⟨Ne.symm h10, Ne.symm h11, Ne.symm h12, Ne.symm h13⟩

theorem render_grid {st : TableStyle} (hst : '\n' ∉ st.chars) {rows : List (List Str)}
    (hp : ∀ row ∈ rows, ∀ c ∈ row, PlainCell P c) : Grid st.frame rows (renderTable P st rows) := by
  refine ⟨tableLines P st rows, fun j => rows.foldl (fun w r => max w (cellWidth P (r.getD j []))) 0,
    fun r => rowHeight (rows.getD r []), rows.foldl (fun n r => max n r.length) 0,
    render_lines st rows, fun l hl => table_clean hst hl, ?_,
    widest_column hp, ?_, ?_, ?_, ?_, ?_, ?_⟩
  · obtain ⟨-, h2, h3⟩ := foldl_max (fun r : List Str => r.length) rows 0
    exact ⟨h2, h3.imp id fun ⟨row, hr, h⟩ => ⟨row, hr, h.symm⟩⟩
  · intro r row hr
    simp only [List.getD_eq_getElem?_getD, hr, Option.getD_some]
    exact tallest_row row
  · intro hne
    have := body_length (P := P) (st := st) (ws := columnWidths P rows) hne
    have h2 := take_sum (fun row : List Str => rowHeight row + 1) [] rows rows.length (Nat.le_refl _)
    rw [List.take_length] at h2
    simp only [tableLines, rowStart, List.length_append, List.length_cons, List.length_nil, ← h2]
    omega
  · simp only [tableLines, sep_edge]
    rfl
  · simp only [tableLines, sep_edge]
    rw [List.getLast?_concat]
    rfl
  · intro r hr
    have hb := body_between (P := P) (st := st) (ws := columnWidths P rows) hr
    rw [take_sum (fun row : List Str => rowHeight row + 1) [] rows r (by omega)] at hb
    simp only [tableLines, rowStart]
    rw [Nat.add_comm 1, Nat.add_right_comm, List.cons_append, List.getElem?_cons_succ,
      List.getElem?_append_left (List.getElem?_eq_some_iff.mp hb).1, hb, sep_edge]
    rfl
  · intro r row i hr hi
    simp only [List.getD_eq_getElem?_getD, hr, Option.getD_some] at hi
    have hlen : r < rows.length := (List.getElem?_eq_some_iff.mp hr).1
    refine ⟨rowBody P st.side (columnWidths P rows) row i, ?_, ⟨_, ?_,
      (rowCells_lengths (i := i) (fit_columns (List.mem_of_getElem? hr))
        (hp row (List.mem_of_getElem? hr))).trans ?_⟩, ?_⟩
    · have hb := body_get (P := P) (st := st) (ws := columnWidths P rows) hr hi
      rw [take_sum (fun row : List Str => rowHeight row + 1) [] rows r (by omega)] at hb
      simp only [tableLines, rowStart]
      rw [Nat.add_comm 1, Nat.add_right_comm, List.cons_append, List.getElem?_cons_succ,
        List.getElem?_append_left (List.getElem?_eq_some_iff.mp hb).1]
      exact hb
    · rw [rowBody, join_eq]
      rfl
    · simp only [columnWidths, List.map_map]
      rfl
    · intro j c hc
      have hmem := List.mem_of_getElem? hr
      have hj : j < (columnWidths P rows).length := by
        rw [columnWidths_length]
        exact Nat.lt_of_lt_of_le (List.getElem?_eq_some_iff.mp hc).1
          ((foldl_max (fun r : List Str => r.length) rows 0).2.1 row hmem)
      have := row_cell (side := st.side) (i := i) (fit_columns hmem) (hp row hmem) hj
      rw [columnWidths_getD hj] at this
      have hcol : cellColumn (fun i => (columnWidths P rows).getD i 0) j =
          cellColumn (fun j => rows.foldl (fun w r => max w (cellWidth P (r.getD j []))) 0) j := by
        simp only [cellColumn]
        congr 2
        refine List.map_congr_left fun k hk => ?_
        rw [columnWidths_getD (by have := List.mem_range.mp hk; omega)]
      rw [hcol, List.getD_eq_getElem?_getD (l := row), hc] at this
      exact this

/-! ### What is printed -/

/-- the frame of a list -/
def listFrame : Frame := ⟨c!"┏━┳┓", c!"┣━╋┫", c!"┗━┻┛", '┃'⟩

/-- the frame of a map -/
def mapFrame : Frame := ⟨c!"╒═╤╕", c!"├─┼┤", c!"└─┴┘", '│'⟩

/-- What stands in the cell of an item of a list: a string is quoted, anything else as if printed alone. -/
def itemText (P : Plat) : Expr → Str
  | .str s => debug P (.str s)
  | e => display P e

theorem cells_eq : ∀ {l : List Expr} {cells : List Str}, shownCells P l = some cells →
    cells = l.map (itemText P)
  | [], _, h => by
    rw [shownCells] at h
    cases h
    rfl
  | e :: l, cells, h => by
    rw [shownCells] at h
    simp only [Option.bind_eq_bind, Option.bind_eq_some_iff, Option.some.injEq] at h
    obtain ⟨s, hs, ss, hss, rfl⟩ := h
    rw [cells_eq hss, List.map_cons]
    congr 1
    cases e <;> simp [cellText, itemText, debug, display, hs]

theorem linesGo_plain : ∀ (s cur : Str), '\n' ∉ s → linesGo s cur =
    if (s.reverse ++ cur) = [] then [] else [(s.reverse ++ cur).reverse]
  | [], cur, _ => by cases cur <;> simp [linesGo]
  | c :: s, cur, h => by
    rw [linesGo_other fun e => h (by simp [e]), linesGo_plain s _ fun e => h (by simp [e])]
    simp

theorem firstLen_eq (s : Str) : firstLen s = utf8Len ((linesOf s).headD []) := by
  rw [firstLen]
  split
  · rfl
  · rename_i h
    have h : '\n' ∉ s := by simpa using h
    rw [linesOf, linesGo_plain s [] h]
    cases s <;> simp

theorem totalLen_eq (cells : List Str) :
    totalLen cells = 1 + (cells.map fun c => utf8Len ((linesOf c).headD []) + 1).sum := by
  have : ∀ (cells : List Str) (n : Nat), cells.foldl (fun n c => n + (firstLen c + 1)) n =
      n + (cells.map fun c => utf8Len ((linesOf c).headD []) + 1).sum := by
    intro cells
    induction cells with
    | nil => simp
    | cons c cells ih =>
      intro n
      rw [List.foldl_cons, ih, firstLen_eq, List.map_cons, List.sum_cons]
      omega
  exact this cells 1

/-- A list is printed as one row of cells if their first lines fit on the terminal, and as code if not. -/
theorem C98_list {w : Nat} {l : List Expr} {t : Str} (h : shown P w (.list l) = some t) :
    (1 + ((l.map (itemText P)).map fun c => utf8Len ((linesOf c).headD []) + 1).sum ≤ w ∧
      ((∀ c ∈ l.map (itemText P), PlainCell P c) → Grid listFrame [l.map (itemText P)] t)) ∨
    (w < 1 + ((l.map (itemText P)).map fun c => utf8Len ((linesOf c).headD []) + 1).sum ∧
      t = debug P (.list l)) := by
  rw [shown] at h
  simp only [Option.bind_eq_bind, Option.bind_eq_some_iff] at h
  obtain ⟨cells, hc, h⟩ := h
  rw [← cells_eq hc, ← totalLen_eq]
  split at h
  · rename_i hw
    exact .inr ⟨hw, (Option.some.inj h).symm⟩
  · rename_i hw
    refine .inl ⟨by omega, fun hp => ?_⟩
    rw [← Option.some.inj h]
    refine render_grid (st := listStyle) (by decide) fun row hr => ?_
    rw [List.mem_singleton.mp hr]
    exact hp

/-- The row of an entry of a map on a terminal `P.width` wide: the key, then what the value is. -/
inductive EntryRow (P : Plat) (k : Str) : Expr → List Str → Prop
  | builtin (n : Str) (b : BId) (help : Str) :
      EntryRow P k (.builtin n b help) [k, c!"builtin@" ++ n, P.fill help (P.width / 6)]
  | map (m : BMap Expr) : EntryRow P k (.map m) [k, display P (.map m)]
  | list (l : List Expr) (t : Str) : utf8Len k + 3 ≤ P.width →
      shown P (P.width - utf8Len k - 3) (.list l) = some t →
      EntryRow P k (.list l) [k, P.fill t (P.width - utf8Len k - 3)]
  | other (v : Expr) : (∀ n b help, v ≠ .builtin n b help) → (∀ m, v ≠ .map m) → (∀ l, v ≠ .list l) →
      EntryRow P k v [k, P.fill (debug P v) (P.width / 3)]

theorem rows_entries : ∀ {m : List (Str × Expr)} {rows : List (List Str)},
    (∀ k l, (k, Expr.list l) ∈ m → utf8Len k + 3 ≤ P.width) → shownRows P P.width m = some rows →
    List.Forall₂ (fun ke row => EntryRow P ke.1 ke.2 row) m rows
  | [], _, _, h => by
    rw [shownRows] at h
    cases h
    exact .nil
  | (k, e) :: m, rows, hk, h => by
    rw [shownRows] at h
    simp only [Option.bind_eq_bind, Option.bind_eq_some_iff, Option.some.injEq] at h
    obtain ⟨w', hw', s, hs, rows, hr, rfl⟩ := h
    refine .cons ?_ (rows_entries (fun k l hm => hk k l (by simp [hm])) hr)
    cases e
    case builtin => exact .builtin ..
    case map m' =>
      obtain rfl : P.width = w' := by simpa [entryWidth] using hw'
      simp only [entryRow]
      have : s = display P (.map m') := by simp [display, hs]
      rw [this]
      exact .map m'
    case list l =>
      have := hk k l (by simp)
      simp only [entryWidth, innerWidth, if_pos this, Option.some.injEq] at hw'
      subst hw'
      exact .list l s this hs
    all_goals exact .other _ (by simp) (by simp) (by simp)

/-- A map is printed as a table with one row for each entry, in the order of the keys. -/
theorem C98_map {m : BMap Expr} {t : Str} (h : shown P P.width (.map m) = some t)
    (hk : ∀ k l, (k, Expr.list l) ∈ (m : List (Str × Expr)) → utf8Len k + 3 ≤ P.width) :
    ∃ rows, List.Forall₂ (fun ke row => EntryRow P ke.1 ke.2 row) (m : List (Str × Expr)) rows ∧
      ((∀ row ∈ rows, ∀ c ∈ row, PlainCell P c) → Grid mapFrame rows t) := by
  rw [shown] at h
  simp only [Option.bind_eq_bind, Option.bind_eq_some_iff] at h
  obtain ⟨rows, hr, h⟩ := h
  refine ⟨rows, rows_entries hk hr, fun hp => ?_⟩
  rw [← Option.some.inj h]
  exact render_grid (st := mapStyle) (by decide) hp

/-- the characters frames are drawn with -/
def frameChars : Str := c!" ┃━┳┏┓╋┣┫┻┗┛│═╤╒╕─┼├┤┴└┘"

theorem table_cleanLine {st : TableStyle} (hst : ∀ c ∈ st.chars, c ∈ frameChars) {rows : List (List Str)}
    {l : Str} (hl : l ∈ tableLines P st rows) : CleanLine l := by
  have hn : '\n' ∉ st.chars := fun h => absurd (hst _ h) (by decide)
  have hr : ∀ c ∈ st.chars, c ≠ '\r' := fun c h e => absurd (hst _ h) (by rw [e]; decide)
  refine ⟨table_clean hn hl, ?_⟩
  simp only [tableLines, List.mem_append, List.mem_cons, List.not_mem_nil, or_false] at hl
  have hx : ∀ (a : Str) {c : Char}, c ∈ st.chars → (a ++ [c]).getLast? ≠ some '\r' := by
    intro a c hc h
    rw [List.getLast?_append] at h
    exact hr c hc (by simpa using h)
  rcases hl with (rfl | hl) | rfl
  · exact hx _ (by simp [TableStyle.chars])
  · rcases mem_body hl with rfl | ⟨row, _, i, _, rfl⟩
    · exact hx _ (by simp [TableStyle.chars])
    · exact hx _ (by simp [TableStyle.chars])
  · exact hx _ (by simp [TableStyle.chars])

theorem render_rectangle {st : TableStyle} (hst : ∀ c ∈ st.chars, c ∈ frameChars)
    (hf : ∀ c ∈ frameChars, P.charWidth c = 1) {rows : List (List Str)}
    (he : '\x1b' ∉ renderTable P st rows) :
    ∀ l ∈ linesOf (renderTable P st rows), displayWidth P l = tableWidth (columnWidths P rows) := by
  have hlast : ∀ l ∈ tableLines P st rows, CleanLine l := fun l hl => table_cleanLine hst hl
  rw [render_lines] at he ⊢
  rw [linesOf_ofLines _ hlast]
  intro l hl
  refine table_width (hf _ (by decide)) (fun c hc => hf c (hst c hc)) hl fun hm => he ?_
  simp only [ofLines, List.mem_flatMap]
  exact ⟨l, hl, by simp [hm]⟩

/-- The picture of a list or map is a rectangle: all its lines are equally wide on the terminal. -/
theorem C98_rectangle (hf : ∀ c ∈ frameChars, P.charWidth c = 1) {w : Nat} {v : Expr} {t : Str}
    (hv : (∃ l, v = .list l) ∨ ∃ m, v = .map m) (h : shown P w v = some t) (he : '\x1b' ∉ t) :
    t = debug P v ∨ ∃ k, ∀ l ∈ linesOf t, displayWidth P l = k := by
  rcases hv with ⟨l, rfl⟩ | ⟨m, rfl⟩
  · rw [shown] at h
    simp only [Option.bind_eq_bind, Option.bind_eq_some_iff] at h
    obtain ⟨cells, _, h⟩ := h
    split at h
    · exact .inl (Option.some.inj h).symm
    · have h := Option.some.inj h
      subst h
      exact .inr ⟨_, render_rectangle (by decide) hf he⟩
  · rw [shown] at h
    simp only [Option.bind_eq_bind, Option.bind_eq_some_iff] at h
    obtain ⟨rows, _, h⟩ := h
    have h := Option.some.inj h
    subst h
    exact .inr ⟨_, render_rectangle (by decide) hf he⟩

/-! ### Coloured texts -/

/-- the characters between `[` and `m` of a colour -/
def CodeChar (c : Char) : Prop := c.isDigit = true ∨ c = ';'

/-- `Tinted s t`: `t` is the text `s` without the sequences `ESC [ 3 1 m` which colour it. -/
inductive Tinted : Str → Str → Prop
  | nil : Tinted [] []
  | char {c : Char} {s t : Str} : c ≠ '\x1b' → Tinted s t → Tinted (c :: s) (c :: t)
  | seq {code s t : Str} : (∀ c ∈ code, CodeChar c) → Tinted s t →
      Tinted ('\x1b' :: '[' :: code ++ 'm' :: s) t

/-- Every escape character of the text begins a sequence which ends. -/
def Sequences (s : Str) : Prop :=
  ∀ x y, s = x ++ '\x1b' :: y → ∃ code rest, y = '[' :: code ++ 'm' :: rest ∧ ∀ c ∈ code, CodeChar c

/-- The terminal does not move for the escape character; the other characters of a sequence count as one. -/
def EscapeWidths (P : Plat) : Prop :=
  P.charWidth '\x1b' = 0 ∧ P.charWidth '[' = 1 ∧ P.charWidth 'm' = 1 ∧ ∀ c, CodeChar c → P.charWidth c = 1

theorem Sequences.tinted : ∀ (n : Nat) {s : Str}, s.length ≤ n → Sequences s → ∃ t, Tinted s t
  | _, [], _, _ => ⟨[], .nil⟩
  | n + 1, c :: s, hn, h => by
    have hs : ∀ {x r : Str}, c :: s = x ++ r → Sequences r := fun {x r} e x' y e' =>
      h (x ++ x') y (by rw [e, e', List.append_assoc])
    by_cases hc : c = '\x1b'
    · subst hc
      obtain ⟨code, rest, rfl, hcode⟩ := h [] s rfl
      obtain ⟨t, ht⟩ := Sequences.tinted n (s := rest) (by simp at hn; omega)
        (hs (x := '\x1b' :: '[' :: code ++ ['m']) (by simp))
      exact ⟨t, .seq hcode ht⟩
    · obtain ⟨t, ht⟩ := Sequences.tinted n (s := s) (by simpa using hn) (hs (x := [c]) rfl)
      exact ⟨c :: t, .char hc ht⟩

/-- A part which is followed by a character no sequence contains has whole sequences only. -/
theorem Sequences.part {s a p b : Str} {c : Char} (h : Sequences s) (hs : s = a ++ p ++ c :: b)
    (hc : ¬ CodeChar c ∧ c ≠ '[' ∧ c ≠ 'm') : Sequences p := by
  rintro x y rfl
  obtain ⟨code, rest, e, hcode⟩ := h (a ++ x) (y ++ c :: b) (by simp [hs])
  have e' : y ++ c :: b = ('[' :: code ++ ['m']) ++ rest := by simpa using e
  rcases List.append_eq_append_iff.mp e' with ⟨r, h1, h2⟩ | ⟨r, h1, h2⟩
  · cases r with
    | nil => exact ⟨code, [], by simpa using h1.symm, hcode⟩
    | cons d r =>
      exfalso
      obtain ⟨rfl, -⟩ : d = c ∧ _ := by simpa [eq_comm] using h2
      have : d ∈ '[' :: code ++ ['m'] := by rw [h1]; simp
      simp only [List.cons_append, List.mem_cons, List.mem_append, List.not_mem_nil, or_false] at this
      rcases this with h | h | h
      · exact hc.2.1 h
      · exact hc.1 (hcode _ h)
      · exact hc.2.2 h
  · exact ⟨code, r, by simpa using h1, hcode⟩

theorem Tinted.append {s t s' t' : Str} (h : Tinted s t) (h' : Tinted s' t') : Tinted (s ++ s') (t ++ t') := by
  induction h with
  | nil => exact h'
  | char hc _ ih => exact .char hc ih
  | seq hc _ ih =>
    have := Tinted.seq hc ih
    simpa using this

theorem Tinted.plain : ∀ {s : Str}, '\x1b' ∉ s → Tinted s s
  | [], _ => .nil
  | c :: s, h => .char (fun e => h (by simp [e])) (.plain fun e => h (by simp [e]))

theorem Tinted.sequences {s t : Str} (h : Tinted s t) : Sequences s := by
  induction h with
  | nil => intro x y e; simp at e
  | char hc _ ih =>
    intro x y e
    cases x with
    | nil => exact absurd (List.cons.inj e).1 hc
    | cons d x => exact ih x y (List.cons.inj e).2
  | @seq code s t hc _ ih =>
    intro x y e
    cases x with
    | nil => exact ⟨code, s, (List.cons.inj e).2.symm, hc⟩
    | cons d x =>
      have e' : ('[' :: code ++ ['m']) ++ s = x ++ '\x1b' :: y := by
        have := (List.cons.inj e).2
        simpa using this
      rcases List.append_eq_append_iff.mp e' with ⟨r, _, h2⟩ | ⟨r, h1, h2⟩
      · exact ih r y h2
      · cases r with
        | nil => exact ih [] y (by simpa using h2.symm)
        | cons d r =>
          exfalso
          obtain ⟨rfl, -⟩ := List.cons.inj h2
          have : '\x1b' ∈ '[' :: code ++ ['m'] := by rw [h1]; simp
          simp only [List.cons_append, List.mem_cons, List.mem_append, List.not_mem_nil, or_false] at this
          rcases this with h | h | h
          · exact absurd h (by decide)
          · rcases hc _ h with h | h <;> exact absurd h (by decide)
          · exact absurd h (by decide)

theorem Tinted.width (hE : EscapeWidths P) {s t : Str} (h : Tinted s t) :
    displayWidth P s = sumWidth P t := by
  obtain ⟨h0, h1, h2, h3⟩ := hE
  have code : ∀ {code s : Str}, (∀ c ∈ code, CodeChar c) →
      displayWidthGo P 2 (code ++ 'm' :: s) = displayWidthGo P 0 s := by
    intro code s
    induction code with
    | nil => intro _; simp [displayWidthGo, h2]
    | cons c code ih =>
      intro hc
      have hm : c ≠ 'm' := by
        rintro rfl
        rcases hc 'm' (by simp) with h | h <;> exact absurd h (by decide)
      rw [List.cons_append, displayWidthGo, if_neg hm, h3 c (hc c (by simp)), Nat.sub_self, Nat.zero_add]
      exact ih fun c h => hc c (by simp [h])
  rw [displayWidth]
  induction h with
  | nil => rfl
  | char hc _ ih => rw [displayWidthGo, if_neg hc, ih]; simp [sumWidth]
  | seq hc _ ih =>
    rw [List.cons_append, List.cons_append, displayWidthGo, if_pos rfl, displayWidthGo, if_pos rfl, code hc, ih, h0, h1]
    simp

theorem joinStr_sub {sep : Str} : ∀ {ps : List Str} {p : Str}, p ∈ ps → ∃ a b, joinStr sep ps = a ++ p ++ b
  | [q], p, hp => by
    obtain rfl : p = q := by simpa using hp
    exact ⟨[], [], by simp [joinStr]⟩
  | q :: q' :: ps, p, hp => by
    rw [joinStr]
    rcases List.mem_cons.mp hp with rfl | hp
    · exact ⟨[], sep ++ joinStr sep (q' :: ps), by simp⟩
    · obtain ⟨a, b, h⟩ := joinStr_sub (sep := sep) hp
      exact ⟨q ++ sep ++ a, b, by rw [h]; simp⟩

theorem join_tinted {c : Char} (hc : c ≠ '\x1b') : ∀ {ps qs : List Str}, List.Forall₂ Tinted ps qs →
    Tinted (joinStr [c] ps) (joinStr [c] qs)
  | _, _, .nil => .nil
  | _, _, .cons h .nil => h
  | _, _, .cons h (.cons h' hs) => (h.append (.char hc .nil)).append (join_tinted hc (.cons h' hs))

theorem rowCells_tinted (hb : P.charWidth ' ' = 1) (hE : EscapeWidths P) {line : Str} (hl : Sequences line)
    (i : Nat) : ∀ {ws : List Nat} {cs : List Str}, Fit P ws cs →
    (∀ p ∈ rowCells P i ws cs, ∃ a b, line = a ++ p ++ b) →
    ∃ qs, List.Forall₂ Tinted (rowCells P i ws cs) qs ∧
      List.Forall₂ (fun w q => sumWidth P q = w + 2) ws qs
  | [], _, _, _ => ⟨[], .nil, .nil⟩
  | w :: ws, cs, hf, he => by
    rw [rowCells] at he ⊢
    obtain ⟨qs, h1, h2⟩ := rowCells_tinted hb hE hl i hf.2 fun p hp => he p (by simp [hp])
    obtain ⟨a, b, e⟩ := he _ (List.mem_cons_self ..)
    have hw := Nat.le_trans (line_le_cell (P := P) (s := cs.headD []) i) hf.1
    generalize (linesOf (cs.headD [])).getD i [] = s at e hw ⊢
    rw [padCell] at e
    have hs : Sequences s := hl.part (a := a ++ [' ']) (c := ' ')
        (b := List.replicate (w - displayWidth P s) ' ' ++ b) (by
          rw [e]
          have : List.replicate (w - displayWidth P s) ' ' ++ c!" " =
              ' ' :: List.replicate (w - displayWidth P s) ' ' := by
            rw [← List.replicate_succ', List.replicate_succ]
          have h2 := congrArg (· ++ b) this
          simp only [List.append_assoc, List.cons_append, List.nil_append] at h2 ⊢
          rw [h2]) ⟨by unfold CodeChar; decide, by decide, by decide⟩
    obtain ⟨t, ht⟩ := hs.tinted _ (Nat.le_refl _)
    have hd := ht.width hE
    refine ⟨(' ' :: t ++ List.replicate (w - displayWidth P s) ' ' ++ c!" ") :: qs, .cons ?_ h1, .cons ?_ h2⟩
    · rw [padCell, List.cons_append, List.cons_append, List.cons_append]
      refine .char (by decide) ((ht.append (.plain fun h => ?_)).append (.plain (by decide)))
      exact absurd (List.eq_of_mem_replicate h) (by decide)
    · rw [sumWidth_append, sumWidth_append, ← List.singleton_append, sumWidth_append, sumWidth_replicate, hb]
      rw [hd] at hw ⊢
      simp [sumWidth, hb] at hw ⊢
      omega

theorem row_tinted (hb : P.charWidth ' ' = 1) (hE : EscapeWidths P) {side : Char} (hs : P.charWidth side = 1)
    (hside : side ≠ '\x1b') {i : Nat} {ws : List Nat} {row : List Str} (hf : Fit P ws row)
    (he : Sequences (rowBody P side ws row i)) :
    ∃ q, Tinted (rowBody P side ws row i) q ∧ sumWidth P q = tableWidth ws := by
  obtain ⟨qs, h1, h2⟩ := rowCells_tinted hb hE he i hf fun p hp => by
    obtain ⟨a, b, e⟩ := joinStr_sub (sep := [side]) hp
    exact ⟨side :: a, b ++ [side], by simp [rowBody, e]⟩
  refine ⟨side :: joinStr [side] qs ++ [side], ?_, framed_width hs hs hs h2⟩
  exact .char hside ((join_tinted hside h1).append (.char hside .nil))

theorem joinStr_no {c x : Char} (hc : c ≠ x) : ∀ (ps : List Str), (∀ p ∈ ps, x ∉ p) → x ∉ joinStr [c] ps
  | [], _ => by simp [joinStr]
  | [p], hp => hp p (by simp)
  | p :: p' :: ps, hp => by
    have := joinStr_no hc (p' :: ps) fun q hq => hp q (by simp [hq])
    have h1 := hp p (by simp)
    simp only [joinStr, List.mem_append, not_or]
    exact ⟨⟨h1, by simpa [eq_comm] using hc⟩, this⟩

theorem sep_plain {c : Char × Char × Char × Char} (ws : List Nat)
    (h : ∀ x ∈ [c.1, c.2.1, c.2.2.1, c.2.2.2], x ≠ '\x1b') : '\x1b' ∉ sepBody c ws := by
  intro hm
  simp only [sepBody, List.mem_append, List.mem_cons, List.not_mem_nil, or_false] at hm
  rcases hm with (hm | hm) | hm
  · exact h _ (by simp) hm.symm
  · refine joinStr_no (h _ (by simp)) _ ?_ hm
    intro p hp hx
    simp only [List.mem_map] at hp
    obtain ⟨w, _, rfl⟩ := hp
    exact h c.1 (by simp) (List.eq_of_mem_replicate hx).symm
  · exact h _ (by simp) hm.symm

theorem render_tinted {st : TableStyle} (hst : ∀ c ∈ st.chars, c ∈ frameChars)
    (hf : ∀ c ∈ frameChars, P.charWidth c = 1) (hE : EscapeWidths P) {rows : List (List Str)}
    (he : Sequences (renderTable P st rows)) :
    ∀ l ∈ linesOf (renderTable P st rows), ∃ s, Tinted l s ∧
      sumWidth P s = tableWidth (columnWidths P rows) := by
  have hlast : ∀ l ∈ tableLines P st rows, CleanLine l := fun l hl => table_cleanLine hst hl
  have hne : ∀ c ∈ st.chars, c ≠ '\x1b' := fun c hc e => absurd (hst c hc) (by rw [e]; decide)
  rw [render_lines] at he ⊢
  rw [linesOf_ofLines _ hlast]
  intro l hl
  have hq : Sequences l := by
    obtain ⟨a, b, e⟩ := List.append_of_mem hl
    exact he.part (a := ofLines a) (c := '\n') (b := ofLines b) (by rw [e]; simp [ofLines])
      ⟨by unfold CodeChar; decide, by decide, by decide⟩
  have hst' : ∀ c ∈ st.chars, P.charWidth c = 1 := fun c hc => hf c (hst c hc)
  simp only [TableStyle.chars, List.mem_cons, List.not_mem_nil, or_false, forall_eq_or_imp, forall_eq] at hst' hne
  obtain ⟨h1, h2, h3, h4, h5, h6, h7, h8, h9, h10, h11, h12, h13⟩ := hst'
  obtain ⟨n1, n2, n3, n4, n5, n6, n7, n8, n9, n10, n11, n12, n13⟩ := hne
  simp only [tableLines, List.mem_append, List.mem_cons, List.not_mem_nil, or_false] at hl
  rcases hl with (rfl | hl) | rfl
  · exact ⟨_, .plain (sep_plain _ (by simp [*])), sep_width ⟨h2, h3, h4, h5⟩ _⟩
  · rcases mem_body hl with rfl | ⟨row, hr, i, _, rfl⟩
    · exact ⟨_, .plain (sep_plain _ (by simp [*])), sep_width ⟨h6, h7, h8, h9⟩ _⟩
    · exact row_tinted (hf _ (by decide)) hE h1 n1 (fit_columns hr) hq
  · exact ⟨_, .plain (sep_plain _ (by simp [*])), sep_width ⟨h10, h11, h12, h13⟩ _⟩

/-- C98.  Colours take no columns: the picture of a list or map in which there are coloured texts is a
rectangle as well, if the escape sequences, which the terminal does not show, are left out. -/
theorem C98_colours (hf : ∀ c ∈ frameChars, P.charWidth c = 1) (hE : EscapeWidths P) {w : Nat} {v : Expr}
    {t : Str} (hv : (∃ l, v = .list l) ∨ ∃ m, v = .map m) (h : shown P w v = some t) (he : Sequences t) :
    t = debug P v ∨ ∃ k, ∀ l ∈ linesOf t, ∃ s, Tinted l s ∧ sumWidth P s = k := by
  rcases hv with ⟨l, rfl⟩ | ⟨m, rfl⟩
  · rw [shown] at h
    simp only [Option.bind_eq_bind, Option.bind_eq_some_iff] at h
    obtain ⟨cells, _, h⟩ := h
    split at h
    · exact .inl (Option.some.inj h).symm
    · have h := Option.some.inj h
      subst h
      exact .inr ⟨_, render_tinted (by decide) hf hE he⟩
  · rw [shown] at h
    simp only [Option.bind_eq_bind, Option.bind_eq_some_iff] at h
    obtain ⟨rows, _, h⟩ := h
    have h := Option.some.inj h
    subst h
    exact .inr ⟨_, render_tinted (by decide) hf hE he⟩

/-! ### Lists of integers -/

theorem intToStr_chars (z : Int) : ∀ c ∈ intToStr z, c = '-' ∨ c.isDigit = true := by
  have h : ∀ n : Nat, ∀ c ∈ natToStr n, c.isDigit = true := by
    intro n c hc
    rw [natToStr_toDigits] at hc
    exact Nat.isDigit_of_mem_toDigits (by decide) (by decide) hc
  intro c hc
  cases z with
  | ofNat n => exact .inr (h n c hc)
  | negSucc n =>
    rcases List.mem_cons.mp hc with rfl | hc
    · exact .inl rfl
    · exact .inr (h _ c hc)

theorem intToStr_not {z : Int} {c : Char} (h1 : c ≠ '-') (h2 : c.isDigit = false) : c ∉ intToStr z := by
  intro h
  rcases intToStr_chars z c h with h | h
  · exact h1 h
  · simp [h2] at h

theorem intToStr_ne (n : I64) : intToStr n.val ≠ [] := by
  intro h
  have := (intToStr_lexeme n).2
  rw [h] at this
  simp [parseI64] at this

theorem intToStr_inj {a b : I64} (h : intToStr a.val = intToStr b.val) : a = b := by
  have h1 := (intToStr_lexeme a).2
  rw [h, (intToStr_lexeme b).2] at h1
  exact (Option.some.inj h1).symm

theorem joinStr_inj {c : Char} {rest : Str} : ∀ {ps qs : List Str}, (∀ p ∈ ps, c ∉ p ∧ p ≠ []) →
    (∀ q ∈ qs, c ∉ q ∧ q ≠ []) → joinStr (c :: rest) ps = joinStr (c :: rest) qs → ps = qs := by
  have key : ∀ {a b x y : Str}, c ∉ a → c ∉ b → a ++ c :: x = b ++ c :: y → a = b ∧ x = y := by
    intro a b x y ha hb h
    rcases append_cons_inj h with h | ⟨z, rfl⟩ | ⟨z, rfl⟩
    · exact ⟨h.1, h.2.2⟩
    · simp at hb
    · simp at ha
  intro ps
  induction ps with
  | nil =>
    intro qs _ hq h
    match qs with
    | [] => rfl
    | [q] => exact absurd h.symm (hq q (by simp)).2
    | q :: q' :: qs => simp [joinStr] at h
  | cons p ps ih =>
    intro qs hp hq h
    match ps, qs with
    | [], [] => exact absurd h (hp p (by simp)).2
    | [], [q] => exact congrArg (fun x => [x]) h
    | [], q :: q' :: qs =>
      have : c ∈ p := by
        have h : p = _ := h
        rw [h]
        simp [joinStr]
      exact absurd this (hp p (by simp)).1
    | p' :: ps, [] => simp [joinStr] at h
    | p' :: ps, [q] =>
      have : c ∈ q := by
        have h : _ = q := h
        rw [← h]
        simp [joinStr]
      exact absurd this (hq q (by simp)).1
    | p' :: ps, q :: q' :: qs =>
      simp only [joinStr, List.append_assoc, List.cons_append] at h
      obtain ⟨rfl, h'⟩ := key (hp p (by simp)).1 (hq q (by simp)).1 h
      have h' := List.append_cancel_left h'
      rw [ih (fun x hx => hp x (List.mem_cons_of_mem _ hx)) (fun x hx => hq x (List.mem_cons_of_mem _ hx))
        h']

theorem debugList_ints (l : List I64) : debugList P (l.map .int) = l.map fun n => intToStr n.val := by
  induction l with
  | nil => rfl
  | cons n l ih => simp only [List.map_cons, debugList, ih, debug]

theorem map_int_inj {l l' : List I64}
    (h : (l.map fun n => intToStr n.val) = l'.map fun n => intToStr n.val) : l = l' :=
  List.map_injective_iff.mpr (fun _ _ => intToStr_inj) h

theorem shownCells_ints (l : List I64) :
    shownCells P (l.map .int) = some (l.map fun n => intToStr n.val) := by
  induction l with
  | nil => rfl
  | cons n l ih => simp [shownCells, ih, shown, debug, cellText]

theorem linesOf_int (n : I64) : linesOf (intToStr n.val) = [intToStr n.val] := by
  rw [linesOf, linesGo_plain _ _ (intToStr_not (by decide) (by decide))]
  simp [intToStr_ne]

/-- the piece of an integer in the line of its row -/
theorem rowCells_ints {l : List I64} : ∀ {ws : List Nat}, ws.length = l.length →
    ∃ ks : List Nat, ks.length = l.length ∧ rowCells P 0 ws (l.map fun n => intToStr n.val) =
      List.zipWith (fun n k => ' ' :: (intToStr (I64.val n) ++ List.replicate (k + 1) ' ')) l ks := by
  induction l with
  | nil =>
    intro ws h
    obtain rfl : ws = [] := by simpa using h
    exact ⟨[], rfl, rfl⟩
  | cons n l ih =>
    intro ws h
    match ws with
    | w :: ws =>
      obtain ⟨ks, h1, h2⟩ := ih (ws := ws) (by simpa using h)
      refine ⟨(w - displayWidth P (intToStr n.val)) :: ks, by simp [h1], ?_⟩
      rw [List.map_cons, rowCells, List.tail_cons, h2, List.zipWith_cons_cons]
      congr 1
      simp only [List.headD_cons, linesOf_int, padCell, List.getD_cons_zero, List.replicate_succ']
      simp

theorem pieces_inj : ∀ {l l' : List I64} {ks ks' : List Nat}, ks.length = l.length → ks'.length = l'.length →
    List.zipWith (fun n k => ' ' :: (intToStr (I64.val n) ++ List.replicate (k + 1) ' ')) l ks =
      List.zipWith (fun n k => ' ' :: (intToStr (I64.val n) ++ List.replicate (k + 1) ' ')) l' ks' → l = l'
  | [], [], _, _, _, _, _ => rfl
  | [], n :: l, [], k :: ks, _, _, h => by simp at h
  | n :: l, [], k :: ks, [], _, _, h => by simp at h
  | n :: l, n' :: l', k :: ks, k' :: ks', h1, h2, h => by
    rw [List.zipWith_cons_cons, List.zipWith_cons_cons] at h
    obtain ⟨ha, hb⟩ := List.cons.inj h
    have hb := pieces_inj (by simpa using h1) (by simpa using h2) hb
    have ha := (List.cons.inj ha).2
    rw [List.replicate_succ, List.replicate_succ] at ha
    rcases append_cons_inj ha with ha | ⟨z, ha⟩ | ⟨z, ha⟩
    · rw [intToStr_inj ha.1, hb]
    · exact absurd (by rw [ha]; simp) (intToStr_not (z := n'.val) (c := ' ') (by decide) (by decide))
    · exact absurd (by rw [ha]; simp) (intToStr_not (z := n.val) (c := ' ') (by decide) (by decide))

theorem rowHeight_ints (l : List I64) : rowHeight (l.map fun n => intToStr n.val) = 1 := by
  obtain ⟨h1, -, h3⟩ := foldl_max (fun c : Str => (linesOf c).length) (l.map fun n => intToStr n.val) 1
  rcases h3 with h3 | ⟨c, hc, h3⟩
  · exact h3
  · obtain ⟨n, _, rfl⟩ := List.mem_map.mp hc
    rw [linesOf_int] at h3
    exact h3

/-- Two lists of integers which print alike are the same. -/
theorem C98_ints {l l' : List I64}
    (h : display P (.list (l.map .int)) = display P (.list (l'.map .int))) : l = l' := by
  have hd : ∀ l : List I64, (display P (.list (l.map .int)) = debug P (.list (l.map .int))) ∨
      display P (.list (l.map .int)) = renderTable P listStyle [l.map fun n => intToStr n.val] := by
    intro l
    simp only [display, shown, shownCells_ints, Option.bind_eq_bind, Option.bind_some]
    split
    · exact .inl rfl
    · exact .inr rfl
  have hr : ∀ l : List I64, ∃ rest, renderTable P listStyle [l.map fun n => intToStr n.val] = '┏' :: rest :=
    fun l => ⟨_, rfl⟩
  have hb : ∀ l : List I64, ∃ rest, debug P (.list (l.map .int)) = '[' :: rest := fun l => ⟨_, rfl⟩
  rcases hd l with h1 | h1 <;> rcases hd l' with h2 | h2 <;> rw [h1, h2] at h
  · simp only [debug, debugList_ints] at h
    have h := List.append_cancel_left (List.append_cancel_right h)
    have hp : ∀ l : List I64, ∀ p ∈ l.map fun n => intToStr n.val, ',' ∉ p ∧ p ≠ [] := by
      intro l p hp
      obtain ⟨n, _, rfl⟩ := List.mem_map.mp hp
      exact ⟨intToStr_not (by decide) (by decide), intToStr_ne n⟩
    exact map_int_inj (joinStr_inj (hp l) (hp l') h)
  · obtain ⟨r, hr⟩ := hr l'
    obtain ⟨r', hb⟩ := hb l
    rw [hr, hb] at h
    exact absurd (List.cons.inj h).1 (by decide)
  · obtain ⟨r, hr⟩ := hr l
    obtain ⟨r', hb⟩ := hb l'
    rw [hr, hb] at h
    exact absurd (List.cons.inj h).1 (by decide)
  · have hlines : ∀ l : List I64, tableLines P listStyle [l.map fun n => intToStr n.val] =
        [sepBody listStyle.top (columnWidths P [l.map fun n => intToStr n.val]),
          rowBody P '┃' (columnWidths P [l.map fun n => intToStr n.val]) (l.map fun n => intToStr n.val) 0,
          sepBody listStyle.bottom (columnWidths P [l.map fun n => intToStr n.val])] := by
      intro l
      simp only [tableLines, bodyLines, rowLines, rowHeight_ints]
      rfl
    have hpc : ∀ l : List I64, ∃ ks : List Nat, ks.length = l.length ∧
        rowBody P '┃' (columnWidths P [l.map fun n => intToStr n.val]) (l.map fun n => intToStr n.val) 0 =
        '┃' :: joinStr ['┃']
          (List.zipWith (fun n k => ' ' :: (intToStr (I64.val n) ++ List.replicate (k + 1) ' ')) l ks) ++
          ['┃'] := by
      intro l
      obtain ⟨ks, h1, h2⟩ := rowCells_ints (P := P)
        (ws := columnWidths P [l.map fun n => intToStr n.val]) (l := l) (by simp [columnWidths_length])
      exact ⟨ks, h1, by rw [rowBody, h2]⟩
    have hclean : ∀ l : List I64, ∀ x ∈ tableLines P listStyle [l.map fun n => intToStr n.val],
        CleanLine x := fun l x hx => table_cleanLine (by decide) hx
    rw [render_lines, render_lines] at h
    have h := congrArg linesOf h
    rw [linesOf_ofLines _ (hclean l), linesOf_ofLines _ (hclean l'), hlines, hlines] at h
    have h := (List.cons.inj (List.cons.inj h).2).1
    obtain ⟨ks, h3, h4⟩ := hpc l
    obtain ⟨ks', h5, h6⟩ := hpc l'
    rw [h4, h6] at h
    have h := List.append_cancel_right (List.cons.inj h).2
    have hp : ∀ (l : List I64) (ks : List Nat), ∀ p ∈ List.zipWith
        (fun n k => ' ' :: (intToStr (I64.val n) ++ List.replicate (k + 1) ' ')) l ks, '┃' ∉ p ∧ p ≠ [] := by
      intro l ks p hp
      obtain ⟨i, hi, rfl⟩ := List.getElem_of_mem hp
      simp only [List.getElem_zipWith]
      refine ⟨?_, by simp⟩
      intro hm
      simp only [List.mem_cons, List.mem_append] at hm
      rcases hm with hm | hm | hm
      · exact absurd hm (by decide)
      · exact intToStr_not (by decide) (by decide) hm
      · exact absurd (List.eq_of_mem_replicate hm) (by decide)
    exact pieces_inj h3 h5 (joinStr_inj (hp l ks) (hp l' ks') h)

end

/-! ### Examples -/

example : ∃ v, TooNarrow Demo.plat v ∧ shown Demo.plat Demo.plat.width v = none :=
  have h : TooNarrow Demo.plat (.list [.map [(List.replicate 118 'k', .list [])]]) :=
    ⟨_, List.replicate 118 'k', [], .item (List.mem_cons_self ..) (.here _), List.mem_cons_self .., by decide⟩
  ⟨_, h, (C98_crash (P := Demo.plat) _).mpr ⟨rfl, h⟩⟩

example : shown Demo.plat 120 (.list [.int (.lit 12), .str c!"ab"]) =
    some c!"┏━━━━┳━━━━━━┓\n┃ 12 ┃ \"ab\" ┃\n┗━━━━┻━━━━━━┛\n" := by decide +kernel

example : shown Demo.plat 10 (.list [.int (.lit 12), .str c!"abcdef"]) = some c!"[12, \"abcdef\"]" := by
  decide +kernel

example : shown Demo.plat Demo.plat.width
      (.map [(c!"a", .list [.int (.lit 1)]), (c!"bc", .str c!"x")]) =
    some (c!"╒════╤═══════╕\n│ a  │ ┏━━━┓ │\n│    │ ┃ 1 ┃ │\n│    │ ┗━━━┛ │\n├────┼───────┤\n" ++
      c!"│ bc │ \"x\"   │\n└────┴───────┘\n") := by decide +kernel

example : ∀ c ∈ [.int (.lit 12), .str c!"ab"].map (itemText Demo.plat), PlainCell Demo.plat c := by
  intro c hc
  have : ∀ c ∈ [.int (.lit 12), .str c!"ab"].map (itemText Demo.plat),
      ∀ l ∈ linesOf c, ∀ x ∈ l, x ≠ '\x1b' := by decide +kernel
  exact fun l hl x hx => ⟨this c hc l hl x hx, rfl⟩

example : ∀ c ∈ frameChars, Demo.plat.charWidth c = 1 := fun _ _ => rfl

/-- a terminal on which the escape character takes no column -/
def escPlat : Plat := { Demo.plat with charWidth := fun c => if c = '\x1b' then 0 else 1 }

/-- a red key -/
def redTable : Str :=
  c!"╒════╤═══╕\n│ \x1b[31ma\x1b[m\x1b[0m  │ 1 │\n├────┼───┤\n│ bc │ 2 │\n└────┴───┘\n"

theorem redTable_shown : shown escPlat 120
    (.map [(c!"\x1b[31ma\x1b[m\x1b[0m", .int (.lit 1)), (c!"bc", .int (.lit 2))]) = some redTable := by
  decide +kernel

theorem escPlat_widths : EscapeWidths escPlat := by
  refine ⟨rfl, rfl, rfl, fun c h => if_neg ?_⟩
  rintro rfl
  rcases h with h | h <;> exact absurd h (by decide)

theorem redTable_tinted : Tinted redTable
    c!"╒════╤═══╕\n│ a  │ 1 │\n├────┼───┤\n│ bc │ 2 │\n└────┴───┘\n" :=
  (Tinted.plain (s := c!"╒════╤═══╕\n│ ") (by decide)).append
    (.seq (code := c!"31") (by unfold CodeChar; decide) (.char (by decide) (.seq (code := []) (by simp)
      (.seq (code := c!"0") (by unfold CodeChar; decide) (.plain (by decide))))))

example := C98_colours (fun c hc => if_neg fun e => absurd hc (by rw [e]; decide)) escPlat_widths
  (.inr ⟨_, rfl⟩) redTable_shown redTable_tinted.sequences

/-! ### Instances: the hypotheses can be met -/

example := C98_list (P := Demo.plat) (w := 120) (l := [.int (.lit 12), .str c!"ab"])
  (t := c!"┏━━━━┳━━━━━━┓\n┃ 12 ┃ \"ab\" ┃\n┗━━━━┻━━━━━━┛\n") (by decide +kernel)

example := C98_list (P := Demo.plat) (w := 10) (l := [.int (.lit 12), .str c!"abcdef"])
  (t := c!"[12, \"abcdef\"]") (by decide +kernel)

example := C98_map (P := Demo.plat) (m := [(c!"a", .list [.int (.lit 1)]), (c!"bc", .str c!"x")])
  (t := c!"╒════╤═══════╕\n│ a  │ ┏━━━┓ │\n│    │ ┃ 1 ┃ │\n│    │ ┗━━━┛ │\n├────┼───────┤\n" ++
      c!"│ bc │ \"x\"   │\n└────┴───────┘\n") (by decide +kernel)
  (by
    intro k l h
    simp at h
    obtain ⟨rfl, -⟩ := h
    decide +kernel)

example := C98_rectangle (P := Demo.plat) (fun _ _ => rfl) (w := 120) (.inl ⟨[.int (.lit 12), .str c!"ab"], rfl⟩)
  (t := c!"┏━━━━┳━━━━━━┓\n┃ 12 ┃ \"ab\" ┃\n┗━━━━┻━━━━━━┛\n") (by decide +kernel) (by decide)

end Dune.Props
