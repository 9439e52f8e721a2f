import Verif.Props.Strings
import Mathlib.Data.List.TakeWhile

/-! C72: working with text. -/

namespace Dune.Props

open Spec

/-! ### Specifications -/

/-- White space: the characters with the Unicode property `White_Space`. -/
def Space (c : Char) : Prop :=
  c.toNat ∈ [0x9, 0xA, 0xB, 0xC, 0xD, 0x20, 0x85, 0xA0, 0x1680, 0x2000, 0x2001, 0x2002, 0x2003,
    0x2004, 0x2005, 0x2006, 0x2007, 0x2008, 0x2009, 0x200A, 0x2028, 0x2029, 0x202F, 0x205F, 0x3000]

def Blank (s : Str) : Prop := ∀ c ∈ s, Space c

/-- Cutting a text at the occurrences of `sep`, always taking the leftmost one, from left to
right. -/
inductive Cut (sep : Str) : Str → List Str → Prop
  | last {s : Str} : ¬ Occurs sep s → Cut sep s [s]
  | cut {p rest : Str} {ps : List Str} : ¬ Occurs sep (p ++ sep.dropLast) → Cut sep rest ps →
      Cut sep (p ++ sep ++ rest) (p :: ps)

/-- Texts put together with `sep` between them. -/
def glue (sep : Str) : List Str → Str
  | [] => []
  | [s] => s
  | s :: t :: r => s ++ sep ++ glue sep (t :: r)

/-- The words of a text: maximal pieces without white space. -/
inductive InWords : Str → List Str → Prop
  | none {s : Str} : Blank s → InWords s []
  | word {a u rest : Str} {us : List Str} : Blank a → u ≠ [] → (∀ c ∈ u, ¬ Space c) →
      (∀ c, rest.head? = some c → Space c) → InWords rest us → InWords (a ++ u ++ rest) (u :: us)

/-- A line without the carriage return at its end. -/
inductive Bare : Str → Str → Prop
  | cr (l : Str) : Bare (l ++ c!"\r") l
  | plain (l : Str) : l.getLast? ≠ some '\r' → Bare l l

/-- The lines of a text; a line ends with a newline, or a carriage return and a newline; the newline
may be missing at the end of the text. -/
inductive InLines : Str → List Str → Prop
  | none : InLines [] []
  | last {l : Str} : l ≠ [] → '\n' ∉ l → InLines l [l]
  | line {l l' rest : Str} {ls : List Str} : '\n' ∉ l → Bare l l' → InLines rest ls →
      InLines (l ++ c!"\n" ++ rest) (l' :: ls)

/-! ### White space -/

theorem isWhitespace_iff {c : Char} : isWhitespace c = true ↔ Space c := by
  simp only [isWhitespace, Space, Bool.or_eq_true, Bool.and_eq_true, decide_eq_true_eq,
    List.mem_cons, List.not_mem_nil, or_false]
  omega

theorem isWhitespace_false {c : Char} : isWhitespace c = false ↔ ¬ Space c := by
  rw [← isWhitespace_iff, Bool.not_eq_true]

theorem trimStart_spec (s : Str) : ∃ a, s = a ++ trimStart s ∧ Blank a ∧
    ∀ c, (trimStart s).head? = some c → ¬ Space c := by
  refine ⟨s.takeWhile isWhitespace, (List.takeWhile_append_dropWhile).symm, ?_, ?_⟩
  · intro c hc
    exact isWhitespace_iff.mp (List.mem_takeWhile_imp hc)
  · intro c hc
    have := List.head?_dropWhile_not isWhitespace s
    rw [trimStart] at hc
    rw [hc] at this
    exact isWhitespace_false.mp (by simpa using this)

theorem trimEnd_spec (s : Str) : ∃ b, s = trimEnd s ++ b ∧ Blank b ∧
    ∀ c, (trimEnd s).getLast? = some c → ¬ Space c := by
  obtain ⟨a, h1, h2, h3⟩ := trimStart_spec s.reverse
  refine ⟨a.reverse, ?_, ?_, ?_⟩
  · have := congrArg List.reverse h1
    simpa [trimEnd, trimStart] using this
  · intro c hc
    exact h2 c (by simpa using hc)
  · intro c hc
    exact h3 c (by simpa [trimEnd, trimStart] using hc)

/-! ### Occurrences -/

theorem containsStr_iff (sub : Str) : ∀ s, containsStr sub s = true ↔ Occurs sub s
  | [] => by
    simp only [containsStr, List.isEmpty_iff]
    constructor
    · rintro rfl
      exact ⟨[], [], rfl⟩
    · rintro ⟨a, b, h⟩
      simp only [List.nil_eq, List.append_eq_nil_iff] at h
      exact h.1.2
  | c :: cs => by
    rw [containsStr, Bool.or_eq_true, containsStr_iff sub cs, List.isPrefixOf_iff_prefix]
    constructor
    · rintro (⟨b, hb⟩ | ⟨a, b, hb⟩)
      · exact ⟨[], b, by simp [hb]⟩
      · exact ⟨c :: a, b, by simp [hb]⟩
    · rintro ⟨a, b, h⟩
      cases a with
      | nil => exact .inl ⟨b, by simpa using h.symm⟩
      | cons x a =>
        simp only [List.cons_append, List.cons.injEq] at h
        exact .inr ⟨a, b, h.2⟩

theorem glue_eq (sep : Str) : ∀ l, joinStr sep l = glue sep l
  | [] => rfl
  | [_] => rfl
  | s :: t :: r => by
    rw [joinStr_cons _ _ (by simp), glue_eq sep (t :: r)]
    rfl

theorem cut_splitGo {sep : Str} (h : sep ≠ []) : ∀ (k : Nat) (s cur : Str),
    (k ≠ 0 → cur = []) → k ≤ s.length →
    (∀ i, i < cur.length → ¬ sep <+: (cur.reverse ++ s).drop i) →
    Cut sep (cur.reverse ++ s.drop k) (splitGo sep k s cur)
  | k, [], cur, _, _, hi => by
    simp only [splitGo, List.drop_nil, List.append_nil]
    refine .last ?_
    rintro ⟨a, b, hab⟩
    have hl := congrArg List.length hab
    simp only [List.length_reverse, List.length_append] at hl
    have : 0 < sep.length := List.length_pos_iff.mpr h
    refine hi a.length (by omega) ?_
    rw [List.append_nil, hab, List.append_assoc, List.drop_left]
    exact List.prefix_append _ _
  | k + 1, c :: cs, cur, hc, hk, hi => by
    have hc := hc (by simp)
    subst hc
    simp only [splitGo]
    simpa using cut_splitGo h k cs [] (fun _ => rfl) (by simpa using hk) (by simp)
  | 0, c :: cs, cur, hc, _, hi => by
    simp only [splitGo]
    split
    · rename_i hp
      rw [List.isPrefixOf_iff_prefix] at hp
      obtain ⟨t, ht⟩ := hp
      obtain ⟨d, ds, rfl⟩ : ∃ d ds, sep = d :: ds := by
        cases sep with
        | nil => exact absurd rfl h
        | cons d ds => exact ⟨d, ds, rfl⟩
      simp only [List.cons_append, List.cons.injEq] at ht
      obtain ⟨rfl, rfl⟩ := ht
      have hcut := cut_splitGo h ds.length (ds ++ t) [] (fun _ => rfl) (by simp) (by simp)
      simp only [List.reverse_nil, List.nil_append, List.drop_left] at hcut
      have e : cur.reverse ++ List.drop 0 (d :: (ds ++ t)) = cur.reverse ++ (d :: ds) ++ t := by simp
      rw [e, show (d :: ds).length - 1 = ds.length from rfl]
      refine .cut ?_ hcut
      rintro ⟨a, b, hab⟩
      have hl := congrArg List.length hab
      simp only [List.length_append, List.length_reverse, List.length_dropLast,
        List.length_cons] at hl
      refine hi a.length (by omega) ?_
      have hd : ∃ z, (d :: ds) = (d :: ds).dropLast ++ z :=
        ⟨_, (List.dropLast_concat_getLast (by simp)).symm⟩
      obtain ⟨z, hz⟩ := hd
      have e2 : cur.reverse ++ d :: (ds ++ t) = a ++ (d :: ds) ++ (b ++ z ++ t) := by
        calc cur.reverse ++ d :: (ds ++ t) = cur.reverse ++ (d :: ds) ++ t := by simp
          _ = cur.reverse ++ ((d :: ds).dropLast ++ z) ++ t := by rw [← hz]
          _ = (cur.reverse ++ (d :: ds).dropLast) ++ z ++ t := by simp only [List.append_assoc]
          _ = a ++ (d :: ds) ++ b ++ z ++ t := by rw [hab]
          _ = _ := by simp only [List.append_assoc]
      rw [e2, List.append_assoc, List.drop_left]
      exact List.prefix_append _ _
    · rename_i hn
      have := cut_splitGo h 0 cs (c :: cur) (by simp) (by simp) (by
        intro i hil
        simp only [List.length_cons] at hil
        have e : (c :: cur).reverse ++ cs = cur.reverse ++ c :: cs := by simp
        rw [e]
        by_cases hlt : i < cur.length
        · exact hi i hlt
        · have : i = cur.reverse.length := by simp; omega
          rw [this, List.drop_left]
          rw [List.isPrefixOf_iff_prefix] at hn
          exact hn)
      simpa using this

theorem cut_splitStr {sep : Str} (h : sep ≠ []) (s : Str) : Cut sep s (splitStr sep s) := by
  rw [splitStr, if_neg h]
  simpa using cut_splitGo h 0 s [] (by simp) (by simp) (by simp)

/-- There is only one way to cut a text. -/
theorem Cut.unique {sep s : Str} (h : sep ≠ []) {ps qs : List Str} (h1 : Cut sep s ps)
    (h2 : Cut sep s qs) : ps = qs := by
  induction h1 generalizing qs with
  | last hn =>
    cases h2 with
    | last => rfl
    | cut _ _ => exact absurd ⟨_, _, rfl⟩ hn
  | @cut p rest ps hp hr ih =>
    generalize hs : p ++ sep ++ rest = s' at h2
    cases h2 with
    | last hn => exact absurd ⟨_, _, hs.symm⟩ hn
    | @cut q rest' qs hq hr' =>
      obtain ⟨z, hz⟩ : ∃ z, sep = sep.dropLast ++ [z] :=
        ⟨_, (List.dropLast_concat_getLast h).symm⟩
      have hlen : ∀ {p q rest rest' : Str}, p ++ sep ++ rest = q ++ sep ++ rest' →
          ¬ Occurs sep (q ++ sep.dropLast) → ¬ p.length < q.length := by
        intro p q rest rest' he hn hlt
        refine hn ?_
        have h1 : (p ++ sep) <+: (q ++ sep.dropLast) := by
          have h3 : q ++ sep.dropLast <+: p ++ sep ++ rest := by
            rw [he]
            refine ⟨[z] ++ rest', ?_⟩
            conv_rhs => rw [hz]
            simp only [List.append_assoc]
          refine List.prefix_of_prefix_length_le (List.prefix_append _ rest) h3 ?_
          have : 0 < sep.length := List.length_pos_iff.mpr h
          simp only [List.length_append, List.length_dropLast]
          omega
        obtain ⟨b, hb⟩ := h1
        exact ⟨p, b, hb.symm⟩
      have e : p.length = q.length := by
        have a1 := hlen hs hq
        have a2 := hlen hs.symm hp
        omega
      rw [List.append_assoc, List.append_assoc] at hs
      obtain ⟨rfl, h3⟩ := List.append_inj hs e
      obtain rfl := List.append_cancel_left h3
      rw [ih hr']

theorem cut_glue {sep s : Str} {ps : List Str} (h : Cut sep s ps) : ps ≠ [] ∧ glue sep ps = s := by
  induction h with
  | last => exact ⟨by simp, rfl⟩
  | @cut p rest ps _ _ ih =>
    refine ⟨by simp, ?_⟩
    cases ps with
    | nil => exact absurd rfl ih.1
    | cons q qs => rw [glue, ih.2]

theorem replaceStr_eq (s old new : Str) : replaceStr s old new = glue new (splitStr old s) := by
  have key : ∀ (p : Str) (ps : List Str), p ++ ps.flatMap (fun q => new ++ q) = glue new (p :: ps) := by
    intro p ps
    induction ps generalizing p with
    | nil => simp [glue]
    | cons q ps ih =>
      rw [glue, ← ih q]
      simp
  unfold replaceStr
  split
  · rename_i h
    rw [h]
    rfl
  · rename_i p ps h
    rw [h, key]

/-! ### Words, lines, width -/

theorem inWords_blank {a s : Str} {us : List Str} (ha : Blank a) (h : InWords s us) :
    InWords (a ++ s) us := by
  cases h with
  | none h =>
    refine .none fun c hc => ?_
    rw [List.mem_append] at hc
    exact hc.elim (ha c) (h c)
  | @word b u rest us hb hu hn hr hi =>
    rw [← List.append_assoc, ← List.append_assoc]
    refine .word (fun c hc => ?_) hu hn hr hi
    rw [List.mem_append] at hc
    exact hc.elim (ha c) (hb c)

theorem inWords_go : ∀ (s cur : Str), (∀ c ∈ cur, ¬ Space c) →
    InWords (cur.reverse ++ s) (wordsGo s cur)
  | [], cur, hc => by
    simp only [wordsGo]
    split
    · rename_i h
      subst h
      exact .none (by simp [Blank])
    · rename_i h
      have := InWords.word (a := []) (u := cur.reverse) (rest := []) (us := []) (by simp [Blank])
        (by simpa using h) (by simpa using hc) (by simp) (.none (by simp [Blank]))
      simpa using this
  | c :: cs, cur, hc => by
    simp only [wordsGo]
    split
    · rename_i hw
      have hw := isWhitespace_iff.mp hw
      have hb : InWords (c :: cs) (wordsGo cs []) :=
        inWords_blank (a := [c]) (by simpa [Blank] using hw) (by
          simpa using inWords_go cs [] (by simp))
      split
      · rename_i h
        subst h
        simpa using hb
      · rename_i h
        have := InWords.word (a := []) (u := cur.reverse) (rest := c :: cs) (by simp [Blank])
          (by simpa using h) (by simpa using hc) (by simpa using hw) hb
        simpa using this
    · rename_i hw
      have := inWords_go cs (c :: cur) (by
        intro d hd
        rw [List.mem_cons] at hd
        rcases hd with rfl | hd
        · exact isWhitespace_false.mp (by simpa using hw)
        · exact hc d hd)
      simpa using this

/-- The reversed line without its carriage return. -/
def bareRev (cur : Str) : Str :=
  match cur with
  | '\r' :: cur' => cur'.reverse
  | _ => cur.reverse

theorem linesGo_newline' (cs cur : Str) : linesGo ('\n' :: cs) cur = bareRev cur :: linesGo cs [] := rfl

theorem bare_rev (cur : Str) : Bare cur.reverse (bareRev cur) := by
  unfold bareRev
  split
  · rw [List.reverse_cons]
    exact .cr _
  · rename_i h
    refine .plain _ ?_
    rw [List.getLast?_reverse]
    cases cur with
    | nil => simp
    | cons d cur =>
      rw [List.head?_cons]
      intro he
      exact h cur (by rw [Option.some.inj he])

theorem inLines_go : ∀ (s cur : Str), '\n' ∉ cur → InLines (cur.reverse ++ s) (linesGo s cur)
  | [], cur, hc => by
    simp only [linesGo]
    split
    · rename_i h
      subst h
      exact .none
    · rename_i h
      simpa using InLines.last (l := cur.reverse) (by simpa using h) (by simpa using hc)
  | c :: cs, cur, hc => by
    by_cases h : c = '\n'
    · subst h
      rw [linesGo_newline']
      have := InLines.line (l := cur.reverse) (by simpa using hc) (bare_rev cur)
        (by simpa using inLines_go cs [] (by simp))
      simpa using this
    · have := inLines_go cs (c :: cur) (by simp [Ne.symm h, hc])
      simp only [linesGo, if_neg h]
      simpa using this

theorem widthLoop_ge : ∀ (s : Str) (w m : Nat), m ≤ Builtins.widthLoop s w m
  | [], w, m => by
    simp only [Builtins.widthLoop]
    split <;> omega
  | c :: cs, w, m => by
    simp only [Builtins.widthLoop]
    split
    · exact Nat.le_trans (by split <;> omega) (widthLoop_ge cs _ _)
    · exact widthLoop_ge cs _ _

theorem widthLoop_run {l : Str} (hl : '\n' ∉ l) (b : Str) : ∀ (w m : Nat),
    Builtins.widthLoop (l ++ b) w m = Builtins.widthLoop b (w + l.length) m := by
  induction l with
  | nil => simp
  | cons c l ih =>
    intro w m
    simp only [List.mem_cons, not_or] at hl
    rw [List.cons_append, Builtins.widthLoop, if_neg (Ne.symm hl.1), ih hl.2]
    simp only [List.length_cons]
    congr 1
    omega

theorem widthLoop_ge_cur : ∀ (s : Str) (w m : Nat), w ≤ Builtins.widthLoop s w m
  | [], w, m => by
    simp only [Builtins.widthLoop]
    split <;> omega
  | c :: cs, w, m => by
    simp only [Builtins.widthLoop]
    split
    · exact Nat.le_trans (by split <;> omega) (widthLoop_ge cs _ _)
    · exact Nat.le_trans (by omega) (widthLoop_ge_cur cs _ _)

theorem widthLoop_bound {l : Str} (hl : '\n' ∉ l) (b : Str) : ∀ (a : Str) (w m : Nat),
    l.length ≤ Builtins.widthLoop (a ++ (l ++ b)) w m
  | [], w, m => by
    rw [List.nil_append, widthLoop_run hl]
    exact Nat.le_trans (by omega) (widthLoop_ge_cur _ _ _)
  | c :: a, w, m => by
    simp only [List.cons_append, Builtins.widthLoop]
    split <;> exact widthLoop_bound hl b a _ _

theorem widthLoop_attained : ∀ (s : Str) (w m : Nat),
    (Builtins.widthLoop s w m = m) ∨
    (∃ l b, '\n' ∉ l ∧ s = l ++ b ∧ Builtins.widthLoop s w m = w + l.length) ∨
    (∃ a l b, '\n' ∉ l ∧ s = a ++ l ++ b ∧ Builtins.widthLoop s w m = l.length)
  | [], w, m => by
    simp only [Builtins.widthLoop]
    split
    · exact .inr (.inl ⟨[], [], by simp, rfl, rfl⟩)
    · exact .inl rfl
  | c :: cs, w, m => by
    simp only [Builtins.widthLoop]
    split
    · rename_i hc
      rcases widthLoop_attained cs 0 (if m < w then w else m) with h | ⟨l, b, h1, h2, h3⟩ | ⟨a, l, b, h1, h2, h3⟩
      · rw [h]
        split
        · exact .inr (.inl ⟨[], c :: cs, by simp, rfl, rfl⟩)
        · exact .inl rfl
      · exact .inr (.inr ⟨[c], l, b, h1, by simp [h2], by simpa using h3⟩)
      · exact .inr (.inr ⟨c :: a, l, b, h1, by simp [h2], h3⟩)
    · rename_i hc
      rcases widthLoop_attained cs (w + 1) m with h | ⟨l, b, h1, h2, h3⟩ | ⟨a, l, b, h1, h2, h3⟩
      · exact .inl h
      · exact .inr (.inl ⟨c :: l, b, by simp [Ne.symm hc, h1], by simp [h2], by
          rw [h3]
          simp only [List.length_cons]
          omega⟩)
      · exact .inr (.inr ⟨c :: a, l, b, h1, by simp [h2], h3⟩)

section

variable {W : Type} {P : Plat} {H : Host W} {L : Lib} {n : Nat} {env env1 env2 env3 : Env}
  {w w1 w2 w3 : W}

/-- C72, `string@trim` removes exactly the white space at both ends. -/
theorem C72_trim (hs : Std env) {a : Expr} {s : Str}
    (ha : evalN P H (stdB P L) n a env w = (.ok (.str s), env1, w1)) :
    ∃ x t y, s = x ++ t ++ y ∧ Blank x ∧ Blank y ∧ (∀ c, t.head? = some c → ¬ Space c) ∧
      (∀ c, t.getLast? = some c → ¬ Space c) ∧
      evalN P H (stdB P L) (n + 1) (call c!"string" c!"trim" [a]) env w =
        (.ok (.str t), env1, w1) := by
  obtain ⟨x, h1, h2, h3⟩ := trimStart_spec s
  obtain ⟨y, h4, h5, h6⟩ := trimEnd_spec (trimStart s)
  refine ⟨x, trim s, y, ?_, h2, h5, ?_, h6, ?_⟩
  · rw [trim, List.append_assoc, ← h4, ← h1]
  · intro c hc
    refine h3 c ?_
    rw [h4]
    rw [trim] at hc
    rw [List.head?_append, hc]
    rfl
  · lib hs, Init.stringM
    brun [Builtins.onStr, ha, Builtins.strOrSym]

/-- C72, `string@trim-start` removes exactly the white space at the start. -/
theorem C72_trim_start (hs : Std env) {a : Expr} {s : Str}
    (ha : evalN P H (stdB P L) n a env w = (.ok (.str s), env1, w1)) :
    ∃ x t, s = x ++ t ∧ Blank x ∧ (∀ c, t.head? = some c → ¬ Space c) ∧
      evalN P H (stdB P L) (n + 1) (call c!"string" c!"trim-start" [a]) env w =
        (.ok (.str t), env1, w1) := by
  obtain ⟨x, h1, h2, h3⟩ := trimStart_spec s
  refine ⟨x, trimStart s, h1, h2, h3, ?_⟩
  lib hs, Init.stringM
  brun [Builtins.onStr, ha, Builtins.strOrSym]

/-- C72, `string@trim-end` removes exactly the white space at the end. -/
theorem C72_trim_end (hs : Std env) {a : Expr} {s : Str}
    (ha : evalN P H (stdB P L) n a env w = (.ok (.str s), env1, w1)) :
    ∃ t y, s = t ++ y ∧ Blank y ∧ (∀ c, t.getLast? = some c → ¬ Space c) ∧
      evalN P H (stdB P L) (n + 1) (call c!"string" c!"trim-end" [a]) env w =
        (.ok (.str t), env1, w1) := by
  obtain ⟨y, h1, h2, h3⟩ := trimEnd_spec s
  refine ⟨trimEnd s, y, h1, h2, h3, ?_⟩
  lib hs, Init.stringM
  brun [Builtins.onStr, ha, Builtins.strOrSym]

/-- C72, `string@is-whitespace?` holds of the texts with white space only, the empty one included. -/
theorem C72_is_whitespace (hs : Std env) {a : Expr} {s : Str}
    (ha : evalN P H (stdB P L) n a env w = (.ok (.str s), env1, w1)) :
    ∃ r, evalN P H (stdB P L) (n + 1) (call c!"string" c!"is-whitespace?" [a]) env w =
        (.ok (.bool r), env1, w1) ∧ (r = true ↔ Blank s) := by
  refine ⟨s.all isWhitespace, ?_, ?_⟩
  · lib hs, Init.stringM
    brun [Builtins.onStr, ha, Builtins.strOrSym]
  · simp only [List.all_eq_true, isWhitespace_iff]
    rfl

/-- C72, `string@contains?`, `string@starts-with?` and `string@ends-with?` find exactly the texts that
occur somewhere, at the start, at the end. -/
theorem C72_tests (hs : Std env) {a b : Expr} {s x : Str}
    (ha : evalN P H (stdB P L) n a env w = (.ok (.str s), env1, w1))
    (hb : evalN P H (stdB P L) n b env1 w1 = (.ok (.str x), env2, w2)) :
    (∃ r, evalN P H (stdB P L) (n + 1) (call c!"string" c!"contains?" [a, b]) env w =
        (.ok (.bool r), env2, w2) ∧ (r = true ↔ ∃ p q, s = p ++ x ++ q)) ∧
    (∃ r, evalN P H (stdB P L) (n + 1) (call c!"string" c!"starts-with?" [a, b]) env w =
        (.ok (.bool r), env2, w2) ∧ (r = true ↔ ∃ q, s = x ++ q)) ∧
    ∃ r, evalN P H (stdB P L) (n + 1) (call c!"string" c!"ends-with?" [a, b]) env w =
        (.ok (.bool r), env2, w2) ∧ (r = true ↔ ∃ p, s = p ++ x) := by
  have hd : display P (.str x) = x := rfl
  refine ⟨⟨containsStr x s, ?_, containsStr_iff x s⟩, ⟨x.isPrefixOf s, ?_, ?_⟩,
    ⟨x.isSuffixOf s, ?_, ?_⟩⟩
  · lib hs, Init.stringM
    brun [Builtins.strTestB, ha, hb, Builtins.strOrSym, hd]
  · lib hs, Init.stringM
    brun [Builtins.strTestB, ha, hb, Builtins.strOrSym, hd]
  · rw [List.isPrefixOf_iff_prefix]
    exact ⟨fun ⟨q, h⟩ => ⟨q, h.symm⟩, fun ⟨q, h⟩ => ⟨q, h.symm⟩⟩
  · lib hs, Init.stringM
    brun [Builtins.strTestB, ha, hb, Builtins.strOrSym, hd]
  · rw [List.isSuffixOf_iff_suffix]
    exact ⟨fun ⟨q, h⟩ => ⟨q, h.symm⟩, fun ⟨q, h⟩ => ⟨q, h.symm⟩⟩

/-- C72, `string@replace s old new`: `s` is cut at the leftmost occurrences of `old` one after the
other, and the pieces are put together with `new`. -/
theorem C72_replace (hs : Std env) {a b c : Expr} {s old new : Str} (h0 : old ≠ [])
    (ha : evalN P H (stdB P L) n a env w = (.ok (.str s), env1, w1))
    (hb : evalN P H (stdB P L) n b env1 w1 = (.ok (.str old), env2, w2))
    (hc : evalN P H (stdB P L) n c env2 w2 = (.ok (.str new), env3, w3)) :
    ∃ ps, Cut old s ps ∧ glue old ps = s ∧
      evalN P H (stdB P L) (n + 1) (call c!"string" c!"replace" [a, b, c]) env w =
        (.ok (.str (glue new ps)), env3, w3) := by
  have h := cut_splitStr h0 s
  refine ⟨splitStr old s, h, (cut_glue h).2, ?_⟩
  have hd : ∀ x, display P (.str x) = x := fun _ => rfl
  lib hs, Init.stringM
  brun [Builtins.replaceB, ha, hb, hc, Builtins.strOrSym, hd, replaceStr_eq]

/-- C72, there is only one way to cut a text. -/
theorem C72_cut_unique {sep s : Str} (h : sep ≠ []) {ps qs : List Str} (h1 : Cut sep s ps)
    (h2 : Cut sep s qs) : ps = qs := h1.unique h h2

/-- C72, a text that does not contain `old` is left as it is. -/
theorem C72_replace_absent (hs : Std env) {a b c : Expr} {s old new : Str} (h0 : old ≠ [])
    (hno : ¬ ∃ p q, s = p ++ old ++ q)
    (ha : evalN P H (stdB P L) n a env w = (.ok (.str s), env1, w1))
    (hb : evalN P H (stdB P L) n b env1 w1 = (.ok (.str old), env2, w2))
    (hc : evalN P H (stdB P L) n c env2 w2 = (.ok (.str new), env3, w3)) :
    evalN P H (stdB P L) (n + 1) (call c!"string" c!"replace" [a, b, c]) env w =
      (.ok (.str s), env3, w3) := by
  obtain ⟨ps, h1, _, h2⟩ := C72_replace (P := P) (L := L) hs h0 ha hb hc
  obtain rfl := h1.unique h0 (.last hno)
  exact h2

/-- C72, replacing the empty text puts `new` before every character and at the end. -/
theorem C72_replace_empty (hs : Std env) {a b c : Expr} {s new : Str}
    (ha : evalN P H (stdB P L) n a env w = (.ok (.str s), env1, w1))
    (hb : evalN P H (stdB P L) n b env1 w1 = (.ok (.str []), env2, w2))
    (hc : evalN P H (stdB P L) n c env2 w2 = (.ok (.str new), env3, w3)) :
    evalN P H (stdB P L) (n + 1) (call c!"string" c!"replace" [a, b, c]) env w =
      (.ok (.str ((s.map fun c => new ++ [c]).flatten ++ new)), env3, w3) := by
  have hd : ∀ x, display P (.str x) = x := fun _ => rfl
  have h : replaceStr s [] new = (s.map fun c => new ++ [c]).flatten ++ new := by
    have h1 : splitStr [] s = [] :: ((s.map fun c => [c]) ++ [[]]) := by
      rw [splitStr, if_pos rfl]
      rfl
    unfold replaceStr
    rw [h1]
    simp only [List.nil_append, List.flatMap_append, List.flatMap_cons, List.flatMap_nil,
      List.append_nil, List.flatMap_map]
    rfl
  lib hs, Init.stringM
  brun [Builtins.replaceB, ha, hb, hc, Builtins.strOrSym, hd, h]

/-- C72, splitting cuts at the leftmost occurrences one after the other. -/
theorem C72_split (hs : Std env) (h0 : env.get c!"arg0" = none) {a b : Expr} {sep s : Str}
    (hne : sep ≠ [])
    (ha : evalD P H (bodyRun P H (stdB P L) n) 800 a env w = (.ok (.str sep), env1, w1))
    (hb : evalD P H (bodyRun P H (stdB P L) n) 799 b env1 w1 = (.ok (.str s), env2, w2)) :
    ∃ ps : List Str, Cut sep s ps ∧
      evalN P H (stdB P L) (n + 2) (call c!"string" c!"split" [a, b]) env w =
        (.ok (.list (ps.map .str)), env2, w2) :=
  ⟨splitStr sep s, cut_splitStr hne s, eval_split_str hs h0 ha hb⟩

/-- C72, `string@paragraphs` cuts at empty lines. -/
theorem C72_paragraphs (hs : Std env) {a : Expr} {s : Str}
    (ha : evalN P H (stdB P L) n a env w = (.ok (.str s), env1, w1)) :
    ∃ ps : List Str, Cut c!"\n\n" s ps ∧
      evalN P H (stdB P L) (n + 1) (call c!"string" c!"paragraphs" [a]) env w =
        (.ok (.list (ps.map .str)), env1, w1) := by
  refine ⟨splitStr c!"\n\n" s, cut_splitStr (by simp) s, ?_⟩
  lib hs, Init.stringM
  brun [Builtins.onStr1, ha, Builtins.strOrSym]

/-- C72, `string@words` gives the maximal pieces without white space, in order. -/
theorem C72_words (hs : Std env) {a : Expr} {s : Str}
    (ha : evalN P H (stdB P L) n a env w = (.ok (.str s), env1, w1)) :
    ∃ us : List Str, InWords s us ∧
      evalN P H (stdB P L) (n + 1) (call c!"string" c!"words" [a]) env w =
        (.ok (.list (us.map .str)), env1, w1) := by
  refine ⟨wordsGo s [], by simpa using inWords_go s [] (by simp), ?_⟩
  lib hs, Init.stringM
  brun [Builtins.onStr1, ha, Builtins.strOrSym, wordsOf]

/-- C72, `string@lines` and `lines` give the lines, without their ends. -/
theorem C72_lines (hs : Std env) {a : Expr} {s : Str}
    (ha : evalN P H (stdB P L) n a env w = (.ok (.str s), env1, w1)) :
    ∃ ls : List Str, InLines s ls ∧
      evalN P H (stdB P L) (n + 1) (call c!"string" c!"lines" [a]) env w =
        (.ok (.list (ls.map .str)), env1, w1) ∧
      evalN P H (stdB P L) (n + 1) (.apply (.symbol c!"lines") [a]) env w =
        (.ok (.list (ls.map .str)), env1, w1) := by
  refine ⟨linesGo s [], by simpa using inLines_go s [] (by simp), ?_, ?_⟩
  · lib hs, Init.stringM
    brun [Builtins.onStr1, ha, Builtins.strOrSym, linesOf]
  · rw [eval_top hs (nm := c!"lines") (id := .lines) (hlp := []) (by mem_tac)]
    brun [Builtins.linesB, ha, linesOf]

/-- C72, `string@chars` gives the characters as texts; joining them gives the text back. -/
theorem C72_chars (hs : Std env) {a : Expr} {s : Str}
    (ha : evalN P H (stdB P L) n a env w = (.ok (.str s), env1, w1)) :
    evalN P H (stdB P L) (n + 1) (call c!"string" c!"chars" [a]) env w =
        (.ok (.list (s.map fun c => .str [c])), env1, w1) ∧
    evalN P H (stdB P L) (n + 2)
        (call c!"string" c!"join" [call c!"string" c!"chars" [a], .str []]) env w =
      (.ok (.str s), env1, w1) := by
  have h1 : evalN P H (stdB P L) (n + 1) (call c!"string" c!"chars" [a]) env w =
        (.ok (.list (s.map fun c => .str [c])), env1, w1) := by
    lib hs, Init.stringM
    brun [Builtins.charsB, ha, Builtins.strOrSym]
  refine ⟨h1, ?_⟩
  have hd : ∀ x, display P (.str x) = x := fun _ => rfl
  have hj : ∀ s : Str, joinStr [] (s.map fun c => [c]) = s := by
    intro s
    induction s with
    | nil => rfl
    | cons c s ih =>
      cases s with
      | nil => rfl
      | cons d s =>
        rw [List.map_cons, joinStr_cons _ _ (by simp), ih]
        simp
  lib hs, Init.stringM
  brun [Builtins.joinB, h1, hd]
  have : (display P ∘ fun c => Expr.str [c]) = fun c => [c] := rfl
  rw [this]
  exact hj s

/-- C72, `string@get-width` is the number of characters of the longest line. -/
theorem C72_width (hs : Std env) {a : Expr} {s : Str} (hl : s.length < 2 ^ 63)
    (ha : evalN P H (stdB P L) n a env w = (.ok (.str s), env1, w1)) :
    ∃ i : I64, evalN P H (stdB P L) (n + 1) (call c!"string" c!"get-width" [a]) env w =
        (.ok (.int i), env1, w1) ∧
      (∀ x l y, s = x ++ l ++ y → '\n' ∉ l → (l.length : Int) ≤ i.val) ∧
      ∃ x l y, s = x ++ l ++ y ∧ '\n' ∉ l ∧ (l.length : Int) = i.val := by
  have hat : ∃ x l y, s = x ++ l ++ y ∧ '\n' ∉ l ∧ l.length = Builtins.widthLoop s 0 0 := by
    rcases widthLoop_attained s 0 0 with h | ⟨l, b, h1, h2, h3⟩ | ⟨x, l, b, h1, h2, h3⟩
    · exact ⟨[], [], s, rfl, by simp, by simp [h]⟩
    · exact ⟨[], l, b, by simpa using h2, h1, by omega⟩
    · exact ⟨x, l, b, h2, h1, h3.symm⟩
  have hw : (I64.wrap (Builtins.widthLoop s 0 0)).val = Builtins.widthLoop s 0 0 := by
    obtain ⟨x, l, y, h1, _, h2⟩ := hat
    have := congrArg List.length h1
    simp only [List.length_append] at this
    simp only [I64.wrap]
    rw [Int.bmod_eq_of_le (by omega) (by omega)]
  refine ⟨I64.wrap (Builtins.widthLoop s 0 0), ?_, ?_, ?_⟩
  · lib hs, Init.stringM
    brun [Builtins.getWidthB, ha, Builtins.strOrSym, Builtins.lenInt]
  · intro x l y h1 h2
    rw [hw]
    have := widthLoop_bound h2 y x 0 0
    rw [← List.append_assoc, ← h1] at this
    omega
  · obtain ⟨x, l, y, h1, h2, h3⟩ := hat
    exact ⟨x, l, y, h1, h2, by rw [hw, h3]⟩

end

section

/-- a call in the initial environment -/
abbrev strCall (f : Str) (args : List Expr) : Outcome Expr :=
  (evalN Demo.plat Demo.host (stdB Demo.plat Demo.lib) 2 (call c!"string" f args) Demo.env []).1

example : strCall c!"trim" [.str c!" \ta b\n"] = .ok (.str c!"a b") := rfl
example : strCall c!"trim-start" [.str c!" a "] = .ok (.str c!"a ") := rfl
example : strCall c!"trim-end" [.str c!" a "] = .ok (.str c!" a") := rfl
example : strCall c!"is-whitespace?" [.str c!" \t"] = .ok (.bool true) := rfl
example : strCall c!"contains?" [.str c!"abc", .str c!"bc"] = .ok (.bool true) := rfl
example : strCall c!"starts-with?" [.str c!"abc", .str c!"bc"] = .ok (.bool false) := rfl
example : strCall c!"ends-with?" [.str c!"abc", .str c!"bc"] = .ok (.bool true) := rfl
example : strCall c!"replace" [.str c!"aaab", .str c!"aa", .str c!"x"] = .ok (.str c!"xab") := rfl
example : strCall c!"replace" [.str c!"ab", .str c!"", .str c!"-"] = .ok (.str c!"-a-b-") := rfl
example : strCall c!"words" [.str c!" ab  c "] = .ok (.list [.str c!"ab", .str c!"c"]) := rfl
example : strCall c!"lines" [.str c!"a\r\n\nb"] =
    .ok (.list [.str c!"a", .str c!"", .str c!"b"]) := rfl
example : strCall c!"paragraphs" [.str c!"a\n\n\nb"] =
    .ok (.list [.str c!"a", .str c!"\nb"]) := rfl
example : strCall c!"chars" [.str c!"hé"] = .ok (.list [.str c!"h", .str c!"é"]) := rfl
example : strCall c!"get-width" [.str c!"ab\nabc\na"] = .ok (Builtins.lenInt 3) := rfl

end

/-! ### Instances: the hypotheses can be met -/

section

example := C72_trim (P := Demo.plat) (H := Demo.host) (L := Demo.lib) (n := 0) (w := [])
  demo_std (a := .str c!" \ta b\n") rfl

example := C72_tests (P := Demo.plat) (H := Demo.host) (L := Demo.lib) (n := 0) (w := [])
  demo_std (a := .str c!"abc") (b := .str c!"bc") rfl rfl

example := C72_replace (P := Demo.plat) (H := Demo.host) (L := Demo.lib) (n := 0) (w := [])
  demo_std (a := .str c!"aXbX") (b := .str c!"X") (c := .str c!"é")
  (old := c!"X") (by decide) rfl rfl rfl

example := C72_replace_absent (P := Demo.plat) (H := Demo.host) (L := Demo.lib) (n := 0) (w := [])
  demo_std (a := .str c!"a") (b := .str c!"ab") (c := .str c!"é") (s := c!"a")
  (old := c!"ab") (by decide) (by
    rintro ⟨p, q, h⟩
    have := congrArg List.length h
    simp at this
    omega) rfl rfl rfl

example := C72_replace_empty (P := Demo.plat) (H := Demo.host) (L := Demo.lib) (n := 0) (w := [])
  demo_std (a := .str c!"ab") (b := .str []) (c := .str c!"-") rfl rfl rfl

example := C72_split (P := Demo.plat) (H := Demo.host) (L := Demo.lib) (n := 0) (w := [])
  demo_std rfl (a := .str c!",") (b := .str c!"a,,b") (sep := c!",") (by decide) rfl rfl

example := C72_paragraphs (P := Demo.plat) (H := Demo.host) (L := Demo.lib) (n := 0) (w := [])
  demo_std (a := .str c!"a\n\n\nb") rfl

example := C72_words (P := Demo.plat) (H := Demo.host) (L := Demo.lib) (n := 0) (w := [])
  demo_std (a := .str c!" a  b ") rfl

example := C72_lines (P := Demo.plat) (H := Demo.host) (L := Demo.lib) (n := 0) (w := [])
  demo_std (a := .str c!"a\r\n\nb") rfl

example := C72_chars (P := Demo.plat) (H := Demo.host) (L := Demo.lib) (n := 0) (w := [])
  demo_std (a := .str c!"aé") rfl

example := C72_width (P := Demo.plat) (H := Demo.host) (L := Demo.lib) (n := 0) (w := [])
  demo_std (a := .str c!"a\nabc\n") (s := c!"a\nabc\n") (by decide) rfl

end

example := C72_trim_start (P := Demo.plat) (H := Demo.host) (L := Demo.lib) (n := 0) (w := [])
  demo_std (a := .str c!" \ta ") rfl

example := C72_trim_end (P := Demo.plat) (H := Demo.host) (L := Demo.lib) (n := 0) (w := [])
  demo_std (a := .str c!" a \n") rfl

example := C72_is_whitespace (P := Demo.plat) (H := Demo.host) (L := Demo.lib) (n := 0) (w := [])
  demo_std (a := .str c!" \n") rfl

end Dune.Props
