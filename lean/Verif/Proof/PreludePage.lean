import Verif.Proof.PreludeCal
import Verif.Proof.Numeral
import Verif.Props.Widget

/-! The text that `make-calendar` puts into a box, line by line. -/

namespace Dune.Prelude

open Spec Spec.Calendar Props Props.Calc

theorem numText_eq {d k : Nat} (h1 : 1 ≤ k) (h2 : k ≤ 31) : numText d k = dayField d k := by
  have a : ∀ k, k < 32 → 1 ≤ k → (if (intToStr (k : Nat)).length < 2 then c!" *" ++ intToStr (k : Nat)
      else c!"*" ++ intToStr (k : Nat)) = flush (c!"*" ++ (toString k).toList) := by decide +kernel
  have b : ∀ k, k < 32 → 1 ≤ k → (if (intToStr (k : Nat)).length < 2 then c!"  " ++ intToStr (k : Nat)
      else c!" " ++ intToStr (k : Nat)) = flush ([] ++ (toString k).toList) := by decide +kernel
  unfold numText dayField
  by_cases h : k = d
  · subst h
    simp only [if_true]
    exact a k (by omega) h1
  · have h' : ¬ (d : Int) = (k : Int) := by omega
    simp only [h, h', if_false]
    exact b k (by omega) h1

/-- what follows a field -/
def gap (j : Nat) : Str := if (j + 1) % 7 = 0 then c!"\n" else c!" "

theorem replicateList_eq (s : Str) (n : Nat) : Expr.replicateList s n = (List.range n).flatMap fun _ => s := by
  induction n with
  | zero => rfl
  | succ n ih =>
    rw [Expr.replicateList, ih, List.range_succ_eq_map, List.flatMap_cons, List.flatMap_map]

theorem flatMap_congr' {α β : Type} {l : List α} {f g : α → List β} (h : ∀ a ∈ l, f a = g a) :
    l.flatMap f = l.flatMap g := by
  induction l with
  | nil => rfl
  | cons a l ih =>
    rw [List.flatMap_cons, List.flatMap_cons, h a (by simp), ih fun b hb => h b (by simp [hb])]

theorem fields_eq {d first len : Nat} (h6 : first ≤ 6) (hl : len ≤ 31) :
    Expr.replicateList c!"    " first ++ daysText d first len =
      (List.range (first + len)).flatMap fun j => field d first len j ++ gap j := by
  rw [List.range_add, List.flatMap_append, List.flatMap_map, replicateList_eq]
  congr 1
  · refine flatMap_congr' fun j hj => ?_
    have hj := List.mem_range.1 hj
    rw [field, if_neg (by omega), gap, if_neg (by omega)]
    rfl
  · unfold daysText
    rw [List.range'_eq_map_range, List.flatMap_map]
    refine flatMap_congr' fun j hj => ?_
    have hj := List.mem_range.1 hj
    rw [numText_eq (by omega) (by omega), field, if_pos (by omega), sepText, gap]
    congr 1
    · congr 1
      omega
    · rw [Int.tmod_eq_emod_of_nonneg (by omega)]
      have : (((1 + j : Nat) : Int) + (first : Int)) % 7 = 0 ↔ (first + j + 1) % 7 = 0 := by omega
      simp only [this]

/-- seven by seven -/
theorem range_weeks {β : Type} (g : Nat → List β) (S : Nat) : ∀ R, (List.range (7 * R + S)).flatMap g =
    ((List.range R).flatMap fun r => (List.range 7).flatMap fun j => g (7 * r + j)) ++
      (List.range S).flatMap fun j => g (7 * R + j) := by
  intro R
  induction R generalizing S with
  | zero => simp
  | succ R ih =>
    rw [show 7 * (R + 1) + S = 7 * R + (7 + S) by omega, ih (7 + S), List.range_add, List.flatMap_append,
      List.flatMap_map, List.range_succ (n := R), List.flatMap_append, List.flatMap_singleton, List.append_assoc]
    congr 2
    refine flatMap_congr' fun j _ => ?_
    rw [show 7 * R + (7 + j) = 7 * (R + 1) + j by omega]

/-- a line with seven fields, without the end -/
def fullLine (f : Nat → Str) : Str :=
  f 0 ++ c!" " ++ f 1 ++ c!" " ++ f 2 ++ c!" " ++ f 3 ++ c!" " ++ f 4 ++ c!" " ++ f 5 ++ c!" " ++ f 6

/-- the last line -/
def lastLine (f : Nat → Str) (S : Nat) : Str := (List.range S).flatMap fun j => f j ++ c!" "

theorem below_end (x : Str) : ∀ ls : List Str, below (ls ++ [x]) = ls.flatMap (· ++ c!"\n") ++ x := by
  intro ls
  induction ls with
  | nil => simp [below_one]
  | cons l ls ih =>
    rw [List.flatMap_cons, List.append_assoc, ← ih]
    have : ls ++ [x] ≠ [] := by simp
    obtain ⟨y, ys, hy⟩ := List.exists_cons_of_ne_nil this
    rw [List.cons_append, hy, below_cons]
    simp

/-- the lines of the weeks -/
def weekLines (f : Nat → Str) (N : Nat) : List Str :=
  (List.range (N / 7)).map (fun r => fullLine fun j => f (7 * r + j)) ++ [lastLine (fun j => f (7 * (N / 7) + j)) (N % 7)]

theorem weeks_below (f : Nat → Str) (N : Nat) :
    (List.range N).flatMap (fun j => f j ++ gap j) = below (weekLines f N) := by
  rw [weekLines, below_end]
  have := range_weeks (fun j => f j ++ gap j) (N % 7) (N / 7)
  rw [Nat.div_add_mod] at this
  rw [this, List.flatMap_map]
  congr 1
  · refine flatMap_congr' fun r _ => ?_
    have g : ∀ j, j < 6 → gap (7 * r + j) = c!" " := fun j hj => if_neg (by omega)
    have g6 : gap (7 * r + 6) = c!"\n" := if_pos (by omega)
    show (([0, 1, 2, 3, 4, 5, 6] : List Nat).flatMap _) = _
    simp only [List.flatMap_cons, List.flatMap_nil, g 0, g 1, g 2, g 3, g 4, g 5, g6, fullLine,
      Nat.reduceLT, List.append_assoc, List.append_nil]
  · unfold lastLine
    refine flatMap_congr' fun j hj => ?_
    have hj := List.mem_range.1 hj
    rw [gap, if_neg (by omega)]

theorem noTrailing_split (l : Str) : ∃ n, l = noTrailing l ++ List.replicate n ' ' := by
  unfold noTrailing
  have h := List.takeWhile_append_dropWhile (p := (· == ' ')) (l := l.reverse)
  have e := congrArg List.reverse h
  rw [List.reverse_append, List.reverse_reverse] at e
  refine ⟨(l.reverse.takeWhile (· == ' ')).length, ?_⟩
  have : l.reverse.takeWhile (· == ' ') = List.replicate (l.reverse.takeWhile (· == ' ')).length ' ' := by
    refine List.eq_replicate_iff.2 ⟨rfl, fun b hb => ?_⟩
    have := List.mem_takeWhile_imp hb
    simpa using this
  conv_lhs => rw [← e]
  rw [this, List.reverse_replicate]
  simp

theorem row_noTrailing {n : Nat} {l : Str} (h : l.length + 1 ≤ n) : row n (noTrailing l) = row n l := by
  obtain ⟨k, hk⟩ := noTrailing_split l
  have hl := congrArg List.length hk
  rw [List.length_append, List.length_replicate] at hl
  unfold row
  conv_rhs => rw [hk]
  rw [List.length_append, List.length_replicate]
  rw [List.cons_append, List.cons_append, List.append_assoc, List.replicate_append_replicate]
  congr 3
  omega

theorem row_full {f : Nat → Str} (h : ∀ j, (f j).length = 3) :
    row 30 (fullLine f) = gridRow ((List.range 7).map f) := by
  have c : ∀ j, ∃ a b c, f j = [a, b, c] := fun j => List.length_eq_three.1 (h j)
  obtain ⟨_, _, _, h0⟩ := c 0
  obtain ⟨_, _, _, h1⟩ := c 1
  obtain ⟨_, _, _, h2⟩ := c 2
  obtain ⟨_, _, _, h3⟩ := c 3
  obtain ⟨_, _, _, h4⟩ := c 4
  obtain ⟨_, _, _, h5⟩ := c 5
  obtain ⟨_, _, _, h6⟩ := c 6
  show _ = gridRow (([0, 1, 2, 3, 4, 5, 6] : List Nat).map f)
  simp only [fullLine, h0, h1, h2, h3, h4, h5, h6, List.map_cons, List.map_nil]
  rfl

theorem row_last {f : Nat → Str} {S : Nat} (hS : S < 7) (h : ∀ j, (f j).length = 3) (hb : ∀ j, S ≤ j → j < 7 → f j = c!"   ") :
    row 30 (lastLine f S) = gridRow ((List.range 7).map f) := by
  have c : ∀ j, ∃ a b c, f j = [a, b, c] := fun j => List.length_eq_three.1 (h j)
  show _ = gridRow (([0, 1, 2, 3, 4, 5, 6] : List Nat).map f)
  obtain ⟨_, _, _, h0⟩ := c 0
  obtain ⟨_, _, _, h1⟩ := c 1
  obtain ⟨_, _, _, h2⟩ := c 2
  obtain ⟨_, _, _, h3⟩ := c 3
  obtain ⟨_, _, _, h4⟩ := c 4
  obtain ⟨_, _, _, h5⟩ := c 5
  have hS : S = 0 ∨ S = 1 ∨ S = 2 ∨ S = 3 ∨ S = 4 ∨ S = 5 ∨ S = 6 := by omega
  rcases hS with rfl | rfl | rfl | rfl | rfl | rfl | rfl
  · rw [lastLine]
    simp only [hb 0, hb 1, hb 2, hb 3, hb 4, hb 5, hb 6, Nat.reduceLT, Nat.reduceLeDiff, List.map_cons, List.map_nil]
    rfl
  · show row 30 (([0] : List Nat).flatMap _) = _
    simp only [h0, hb 1, hb 2, hb 3, hb 4, hb 5, hb 6, Nat.reduceLT, Nat.reduceLeDiff, List.map_cons, List.map_nil,
      List.flatMap_cons, List.flatMap_nil]
    rfl
  · show row 30 (([0, 1] : List Nat).flatMap _) = _
    simp only [h0, h1, hb 2, hb 3, hb 4, hb 5, hb 6, Nat.reduceLT, Nat.reduceLeDiff, List.map_cons, List.map_nil,
      List.flatMap_cons, List.flatMap_nil]
    rfl
  · show row 30 (([0, 1, 2] : List Nat).flatMap _) = _
    simp only [h0, h1, h2, hb 3, hb 4, hb 5, hb 6, Nat.reduceLT, Nat.reduceLeDiff, List.map_cons, List.map_nil,
      List.flatMap_cons, List.flatMap_nil]
    rfl
  · show row 30 (([0, 1, 2, 3] : List Nat).flatMap _) = _
    simp only [h0, h1, h2, h3, hb 4, hb 5, hb 6, Nat.reduceLT, Nat.reduceLeDiff, List.map_cons, List.map_nil,
      List.flatMap_cons, List.flatMap_nil]
    rfl
  · show row 30 (([0, 1, 2, 3, 4] : List Nat).flatMap _) = _
    simp only [h0, h1, h2, h3, h4, hb 5, hb 6, Nat.reduceLT, Nat.reduceLeDiff, List.map_cons, List.map_nil,
      List.flatMap_cons, List.flatMap_nil]
    rfl
  · show row 30 (([0, 1, 2, 3, 4, 5] : List Nat).flatMap _) = _
    simp only [h0, h1, h2, h3, h4, h5, hb 6, Nat.reduceLT, Nat.reduceLeDiff, List.map_cons, List.map_nil,
      List.flatMap_cons, List.flatMap_nil]
    rfl

/-! ### All lines -/

theorem _root_.Dune.Spec.Calendar.Plain.append {a b : Str} (ha : Plain a) (hb : Plain b) : Plain (a ++ b) := by
  intro c hc
  rcases List.mem_append.1 hc with h | h
  · exact ha c h
  · exact hb c h

theorem _root_.Dune.Spec.Calendar.Plain.line {l : Str} (h : Plain l) : '\n' ∉ l ∧ '\r' ∉ l :=
  ⟨fun hc => absurd (h _ hc).1 (by decide), fun hc => absurd (h _ hc).1 (by decide)⟩

theorem plain_spaces (n : Nat) : Plain (List.replicate n ' ') := by
  intro c hc
  rw [(List.mem_replicate.1 hc).2]
  decide

theorem plain_number (n : Nat) : Plain (natToStr n) := by
  intro c hc
  rw [natToStr_toDigits] at hc
  have h := toDigits_digits n c hc
  have : ∀ c ∈ digitChars, 32 ≤ c.toNat ∧ c.toNat ≤ 126 := by decide
  exact this c h

theorem dayField_ok (d k : Nat) (h1 : 1 ≤ k) (h2 : k ≤ 31) : (dayField d k).length = 3 ∧ Plain (dayField d k) := by
  have a : ∀ k, k < 32 → 1 ≤ k → (flush (c!"*" ++ (toString k).toList)).length = 3 ∧
      Plain (flush (c!"*" ++ (toString k).toList)) := by decide +kernel
  have b : ∀ k, k < 32 → 1 ≤ k → (flush ([] ++ (toString k).toList)).length = 3 ∧
      Plain (flush ([] ++ (toString k).toList)) := by decide +kernel
  unfold dayField
  split
  · exact a k (by omega) h1
  · exact b k (by omega) h1

theorem field_ok (d first len j : Nat) (hl : len ≤ 31) :
    (field d first len j).length = 3 ∧ Plain (field d first len j) := by
  unfold field
  split
  · exact dayField_ok _ _ (by omega) (by omega)
  · decide

/-- the first line -/
def titleLine (m d y : Nat) : Str :=
  List.replicate ((28 - (headText m d y).length) / 2 + 1) ' ' ++
    (monthName m ++ c!" " ++ natToStr d ++ c!", " ++ natToStr y)

def pageLines (m d y first len : Nat) : List Str :=
  titleLine m d y :: c!" Su  Mo  Tu  We  Th  Fr  Sa" :: weekLines (field d first len) (first + len)

theorem page_below {m d y first len : Nat} (h6 : first ≤ 6) (hl : len ≤ 31) :
    pageText m d y first len = below (pageLines m d y first len) := by
  have hne : weekLines (field d first len) (first + len) ≠ [] := by simp [weekLines]
  obtain ⟨x, xs, hx⟩ := List.exists_cons_of_ne_nil hne
  rw [pageText, List.append_assoc, fields_eq h6 hl, weeks_below, pageLines, hx, below_cons, below_cons, middle,
    headText, titleLine]
  have e : ∀ n, Expr.replicateList c!" " n = List.replicate n ' ' := by
    intro n
    induction n with
    | zero => rfl
    | succ n ih => rw [Expr.replicateList, ih, List.replicate_succ]; rfl
  rw [e]
  simp only [headText, List.append_assoc]
  rfl

theorem monthName_ok (m : Nat) (h1 : 1 ≤ m) (h2 : m ≤ 12) : 3 ≤ (monthName m).length ∧ (monthName m).length ≤ 9 ∧
    Plain (monthName m) := by
  have : ∀ m, m < 13 → 1 ≤ m → 3 ≤ (monthName m).length ∧ (monthName m).length ≤ 9 ∧ Plain (monthName m) := by decide
  exact this m (by omega) h1

theorem natToStr_length (n k : Nat) (hk : 0 < k) (h : n < 10 ^ k) : 1 ≤ (natToStr n).length ∧ (natToStr n).length ≤ k := by
  rw [natToStr_toDigits]
  exact ⟨Nat.length_toDigits_pos, (Nat.length_toDigits_le_iff (by decide) hk).2 h⟩

theorem head_length (m d y : Nat) : (headText m d y).length =
    (monthName m ++ c!" " ++ natToStr d ++ c!", " ++ natToStr y).length + 1 := by
  show (monthNames.getD (m - 1) [] ++ c!" " ++ natToStr d ++ c!", " ++ natToStr y ++ c!"\n").length = _
  rw [List.length_append]
  rfl

theorem full_ok {f : Nat → Str} (h : ∀ j, (f j).length = 3 ∧ Plain (f j)) :
    (fullLine f).length = 27 ∧ Plain (fullLine f) := by
  constructor
  · simp only [fullLine, List.length_append, (h _).1, List.length_cons, List.length_nil]
  · have hs : Plain c!" " := by decide
    exact ((((((((((((h 0).2.append hs).append (h 1).2).append hs).append (h 2).2).append hs).append (h 3).2).append
      hs).append (h 4).2).append hs).append (h 5).2).append hs).append (h 6).2

theorem last_ok {f : Nat → Str} (h : ∀ j, (f j).length = 3 ∧ Plain (f j)) (S : Nat) :
    (lastLine f S).length = 4 * S ∧ Plain (lastLine f S) := by
  induction S with
  | zero => exact ⟨rfl, fun c hc => by cases hc⟩
  | succ S ih =>
    unfold lastLine at ih ⊢
    rw [List.range_succ, List.flatMap_append, List.flatMap_singleton]
    refine ⟨?_, ih.2.append ((h S).2.append (by decide))⟩
    rw [List.length_append, ih.1, List.length_append, (h S).1]
    simp
    omega

theorem title_ok {m d y : Nat} (h1 : 1 ≤ m) (h2 : m ≤ 12) (hd : d ≤ 31) (hy : y < 10 ^ 12) :
    (headText m d y).length ≤ 28 ∧ 9 ≤ (headText m d y).length ∧
      (titleLine m d y).length < 28 ∧ Plain (titleLine m d y) := by
  have a := monthName_ok m h1 h2
  have b := natToStr_length d 2 (by decide) (by omega)
  have c := natToStr_length y 12 (by decide) hy
  have hh := head_length m d y
  have hl : (monthName m ++ c!" " ++ natToStr d ++ c!", " ++ natToStr y).length =
      (monthName m).length + 1 + (natToStr d).length + 2 + (natToStr y).length := by
    simp only [List.length_append, List.length_cons, List.length_nil]
  refine ⟨by omega, by omega, ?_, ?_⟩
  · rw [titleLine, List.length_append, List.length_replicate]
    omega
  · exact (plain_spaces _).append ((((a.2.2.append (by decide)).append (plain_number d)).append (by decide)).append
      (plain_number y))

theorem lines_ok {m d y first len : Nat} (h1 : 1 ≤ m) (h2 : m ≤ 12) (hd : d ≤ 31) (hy : y < 10 ^ 12) (hl : len ≤ 31) :
    ∀ l ∈ pageLines m d y first len, l.length < 28 ∧ Plain l := by
  intro l hm
  rcases List.mem_cons.1 hm with rfl | hm
  · exact (title_ok h1 h2 hd hy).2.2
  rcases List.mem_cons.1 hm with rfl | hm
  · decide
  rcases List.mem_append.1 hm with hm | hm
  · obtain ⟨r, _, rfl⟩ := List.mem_map.1 hm
    have := full_ok (f := fun j => field d first len (7 * r + j)) fun j => field_ok d first len _ hl
    exact ⟨by omega, this.2⟩
  · rw [List.mem_singleton.1 hm]
    have := last_ok (f := fun j => field d first len (7 * ((first + len) / 7) + j)) (fun j => field_ok d first len _ hl)
      ((first + len) % 7)
    exact ⟨by omega, this.2⟩

/-- the weeks in the box -/
theorem week_row {d first len r : Nat} (hl : len ≤ 31) :
    row 30 ((weekLines (field d first len) (first + len)).getD r []) =
      gridRow ((List.range 7).map fun j => field d first len (7 * r + j)) := by
  have hlen : (weekLines (field d first len) (first + len)).length = (first + len) / 7 + 1 := by
    simp [weekLines]
  by_cases h : r < (first + len) / 7
  · rw [weekLines, List.getD_eq_getElem?_getD, List.getElem?_append_left (by simpa using h), List.getElem?_map,
      List.getElem?_range h]
    exact row_full (f := fun j => field d first len (7 * r + j)) fun j => (field_ok d first len _ hl).1
  · by_cases h' : r = (first + len) / 7
    · rw [weekLines, List.getD_eq_getElem?_getD, List.getElem?_append_right (by simp [h']), h']
      simp only [List.length_map, List.length_range, Nat.sub_self, List.getElem?_cons_zero, Option.getD_some]
      refine row_last (f := fun j => field d first len (7 * ((first + len) / 7) + j)) (Nat.mod_lt _ (by decide))
        (fun j => (field_ok d first len _ hl).1) fun j h1 h2 => ?_
      rw [field, if_neg (by omega)]
    · rw [List.getD_eq_getElem?_getD, List.getElem?_eq_none (by omega)]
      have : ∀ j, field d first len (7 * r + j) = c!"   " := fun j => if_neg (by omega)
      simp only [this]
      rfl

end Dune.Prelude
