import Verif.Model.ErrorFmt
import Verif.Spec.Excerpt
import Verif.Proof.Lex
import Verif.Proof.Numeral

/-! `str::lines` and the source excerpts of error messages. -/

namespace Dune

open Spec

/-- a reversed line without the carriage return at its end -/
def chopCr (cur : Str) : Str :=
  match cur with
  | '\r' :: cur' => cur'.reverse
  | _ => cur.reverse

theorem linesGo_cons' (c : Char) (cs cur : Str) : linesGo (c :: cs) cur =
    if c = '\n' then chopCr cur :: linesGo cs [] else linesGo cs (c :: cur) := rfl

theorem linesGo_newline (rest cur : Str) :
    linesGo ('\n' :: rest) cur = chopCr cur :: linesGo rest [] := rfl

theorem linesGo_run {l : Str} (h : '\n' ∉ l) (rest : Str) : ∀ cur,
    linesGo (l ++ rest) cur = linesGo rest (l.reverse ++ cur) := by
  induction l with
  | nil => exact fun _ => rfl
  | cons c l ih =>
    intro cur
    simp only [List.mem_cons, not_or] at h
    rw [List.cons_append, linesGo_cons', if_neg (Ne.symm h.1), ih h.2]
    simp

theorem linesOf_one {l : Str} (h : '\n' ∉ l) (h0 : l ≠ []) : linesOf l = [l] := by
  have := linesGo_run h [] []
  rw [List.append_nil, List.append_nil] at this
  rw [linesOf, this, linesGo, if_neg (by simpa using h0), List.reverse_reverse]

theorem linesOf_cons {l : Str} (h : InLine l) (rest : Str) :
    linesOf (l ++ '\n' :: rest) = l :: linesOf rest := by
  rw [linesOf, linesGo_run h.1, linesGo_newline, List.append_nil]
  unfold chopCr
  split
  · rename_i cur' heq
    refine absurd ?_ h.2
    rw [← List.reverse_reverse l, heq]
    simp
  · rw [List.reverse_reverse]
    rfl

theorem linesOf_cons_cr {l : Str} (h : '\n' ∉ l) (rest : Str) :
    linesOf (l ++ '\r' :: '\n' :: rest) = l :: linesOf rest := by
  have h' : '\n' ∉ l ++ ['\r'] := by simp [h]
  have := linesGo_run h' ('\n' :: rest) []
  rw [List.append_assoc] at this
  rw [linesOf]
  simp only [List.singleton_append] at this
  rw [this, linesGo_newline]
  simp [linesOf, chopCr]

theorem linesGo_append (a l : Str) : ∀ cur,
    linesGo (a ++ '\n' :: l) cur = linesGo (a ++ ['\n']) cur ++ linesOf l := by
  induction a with
  | nil =>
    intro cur
    simp [linesGo, linesOf]
  | cons c a ih =>
    intro cur
    rw [List.cons_append, List.cons_append, linesGo_cons', linesGo_cons']
    split
    · rw [ih, List.cons_append]
    · rw [ih]

theorem linesGo_length (a : Str) : ∀ cur, (linesGo (a ++ ['\n']) cur).length = a.count '\n' + 1 := by
  induction a with
  | nil =>
    intro cur
    simp [linesGo]
  | cons c a ih =>
    intro cur
    rw [List.cons_append, linesGo_cons']
    split
    · rename_i h
      rw [h, List.length_cons, ih, List.count_cons_self]
    · rename_i h
      rw [ih, List.count_cons_of_ne h]

theorem linesOf_whole {a : Str} (h : WholeLines a) (l : Str) :
    linesOf (a ++ l) = linesOf a ++ linesOf l := by
  rcases h with rfl | ⟨b, rfl⟩
  · rfl
  · rw [List.append_assoc]
    exact linesGo_append b l []

theorem linesOf_length {a : Str} (h : WholeLines a) : (linesOf a).length = a.count '\n' := by
  rcases h with rfl | ⟨b, rfl⟩
  · rfl
  · rw [linesOf, linesGo_length, List.count_append]
    simp

theorem linesOf_head {r tail : Str} (h : InLine r) (ht : LineEnd tail) :
    (linesOf (r ++ tail)).head?.getD [] = r := by
  rcases ht with rfl | ⟨t, rfl | rfl⟩
  · rw [List.append_nil]
    by_cases hr : r = []
    · subst hr
      rfl
    · rw [linesOf_one h.1 hr]
      rfl
  · rw [linesOf_cons h]
    rfl
  · rw [linesOf_cons_cr h.1]
    rfl

theorem linesOf_join : ∀ {ms : List Str} (h0 : ms ≠ []), (∀ m ∈ ms, InLine m) →
    ms.getLast h0 ≠ [] → linesOf (List.intercalate ['\n'] ms) = ms
  | [m], _, h, hl => by
    simp only [List.getLast_singleton] at hl
    have : List.intercalate ['\n'] [m] = m := by simp [List.intercalate]
    rw [this, linesOf_one (h m (by simp)).1 hl]
  | m :: m' :: ms, _, h, hl => by
    have : List.intercalate ['\n'] (m :: m' :: ms) = m ++ '\n' :: List.intercalate ['\n'] (m' :: ms) := by
      simp [List.intercalate, List.intersperse]
    rw [this, linesOf_cons (h m (by simp)), linesOf_join (List.cons_ne_nil _ _)
      (fun x hx => h x (List.mem_cons_of_mem _ hx)) (by rwa [List.getLast_cons] at hl)]

theorem pad5_eq (n : Nat) : pad5 n = shownNo n := by
  rw [pad5, shownNo, natToStr_eq, List.leftpad]

/-- what `print_error_lines` works on, for a range that lies in the text -/
theorem printErrorLines_eq (P : Plat) (pre mid post : Str) (w : Nat) :
    printErrorLines P (pre ++ mid ++ post) ⟨utf8Len pre, utf8Len (pre ++ mid)⟩ w =
      match linesOf mid with
      | l :: l' :: ls =>
        (subUsize P w ((l' :: ls).getLast (List.cons_ne_nil _ _)).length).map fun k =>
        c!"      |\n" ++ pad5 (max (linesOf pre).length 1) ++ c!" | " ++
          (((linesOf pre).getLast?.getD []) ++ redStart ++ l).take w ++ resetStyle ++
          errorTail w (max (linesOf pre).length 1 + 1) (l' :: ls) ++ c!"\n" ++
          takeUpTo ((linesOf post).head?.getD []) k ++ resetStyle ++ c!"\n" ++ c!"      |\n"
      | ls =>
        some (c!"      |\n" ++ pad5 (max (linesOf pre).length 1) ++ c!" | " ++
          ((linesOf pre).getLast?.getD []).take w ++ redStart ++ ls.head?.getD [] ++ resetStyle ++
          ((linesOf post).head?.getD []).take (w - (((linesOf pre).getLast?.getD []).take w).length) ++
          c!"\n" ++ c!"      |\n") := by
  have h1 : sliceStr (pre ++ mid ++ post) (utf8Len pre) (utf8Len (pre ++ mid)) = some mid := by
    rw [utf8Len_append]
    exact sliceStr_mid ..
  have h2 : takeBytes (utf8Len pre) (pre ++ mid ++ post) = some (pre, mid ++ post) := by
    rw [List.append_assoc]
    exact takeBytes_append ..
  have h3 := takeBytes_append (pre ++ mid) post
  rw [printErrorLines]
  simp only [h1, h2, h3, Option.bind_some]
  rfl

theorem errorTail_eq (w : Nat) (ls : List Str) : ∀ n, errorTail w n ls =
    (ls.zipIdx n).flatMap fun p => c!"\n" ++ shownNo p.2 ++ c!" | " ++ red (p.1.take w) := by
  induction ls with
  | nil => exact fun _ => rfl
  | cons l ls ih =>
    intro n
    rw [errorTail, ih, List.zipIdx_cons, List.flatMap_cons, pad5_eq]
    simp [red, redStart, resetStyle]

/-- the part of the line in front of the error and the line number -/
theorem before_facts {a l : Str} (ha : WholeLines a) (hl : '\n' ∉ l) (h : l ≠ [] ∨ a = []) :
    (linesOf (a ++ l)).getLast?.getD [] = l ∧ max (linesOf (a ++ l)).length 1 = lineNo a := by
  rw [linesOf_whole ha]
  by_cases h0 : l = []
  · have : a = [] := by
      rcases h with h | h
      · exact absurd h0 h
      · exact h
    subst this
    subst h0
    exact ⟨rfl, rfl⟩
  · rw [linesOf_one hl h0]
    constructor
    · simp
    · rw [List.length_append, linesOf_length ha, lineNo]
      simp

end Dune
