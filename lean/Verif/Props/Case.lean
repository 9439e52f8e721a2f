import Verif.Spec.Case
import Verif.Props.Text

/-! C86: letters and digits, small letters, capitals and titles. -/

namespace Dune.Props

open Spec

/-! ### ASCII characters -/

theorem ascii_forall {p : Char → Prop} (h : ∀ n < 128, p (Char.ofNat n)) {c : Char}
    (hc : c.toNat < 128) : p c := by
  have := h _ hc
  rwa [Char.ofNat_toNat] at this

instance (c d : Char) : Decidable (AsCapital c d) :=
  decidable_of_iff ((∃ i ∈ List.range 26, smallLetters[i]? = some c ∧ capitals[i]? = some d) ∨
      c ∉ smallLetters ∧ d = c) (by
    constructor
    · rintro (⟨i, _, h1, h2⟩ | ⟨h1, rfl⟩)
      · exact .letter i h1 h2
      · exact .other h1
    · rintro (⟨i, h1, h2⟩ | h1)
      · refine .inl ⟨i, ?_, h1, h2⟩
        obtain ⟨h, _⟩ := List.getElem?_eq_some_iff.1 h1
        exact List.mem_range.2 h
      · exact .inr ⟨h1, rfl⟩)

instance (c d : Char) : Decidable (AsSmall c d) :=
  decidable_of_iff ((∃ i ∈ List.range 26, capitals[i]? = some c ∧ smallLetters[i]? = some d) ∨
      c ∉ capitals ∧ d = c) (by
    constructor
    · rintro (⟨i, _, h1, h2⟩ | ⟨h1, rfl⟩)
      · exact .letter i h1 h2
      · exact .other h1
    · rintro (⟨i, h1, h2⟩ | h1)
      · refine .inl ⟨i, ?_, h1, h2⟩
        obtain ⟨h, _⟩ := List.getElem?_eq_some_iff.1 h1
        exact List.mem_range.2 h
      · exact .inr ⟨h1, rfl⟩)

theorem asciiUp_spec {c : Char} (hc : c.toNat < 128) : AsCapital c (asciiUp c) := by
  revert hc c
  exact fun {c} => ascii_forall (p := fun c => AsCapital c (asciiUp c)) (by decide +kernel)

theorem asciiDown_spec {c : Char} (hc : c.toNat < 128) : AsSmall c (asciiDown c) := by
  revert hc c
  exact fun {c} => ascii_forall (p := fun c => AsSmall c (asciiDown c)) (by decide +kernel)

theorem asciiLower_iff {c : Char} (hc : c.toNat < 128) : asciiLower c = true ↔ c ∈ smallLetters := by
  revert hc c
  exact fun {c} => ascii_forall (p := fun c => asciiLower c = true ↔ c ∈ smallLetters)
    (by decide +kernel)

theorem asciiUpper_iff {c : Char} (hc : c.toNat < 128) : asciiUpper c = true ↔ c ∈ capitals := by
  revert hc c
  exact fun {c} => ascii_forall (p := fun c => asciiUpper c = true ↔ c ∈ capitals) (by decide +kernel)

theorem isDigit_iff {c : Char} (hc : c.toNat < 128) : isDigit c = true ↔ c ∈ numerals := by
  revert hc c
  exact fun {c} => ascii_forall (p := fun c => isDigit c = true ↔ c ∈ numerals) (by decide +kernel)

theorem asciiUp_fix {c : Char} (hc : c.toNat < 128) : c = asciiUp c ↔ c ∉ smallLetters := by
  revert hc c
  exact fun {c} => ascii_forall (p := fun c => c = asciiUp c ↔ c ∉ smallLetters) (by decide +kernel)

theorem asciiDown_fix {c : Char} (hc : c.toNat < 128) : c = asciiDown c ↔ c ∉ capitals := by
  revert hc c
  exact fun {c} => ascii_forall (p := fun c => c = asciiDown c ↔ c ∉ capitals) (by decide +kernel)

theorem asciiUp_keeps {c : Char} (hc : c.toNat < 128) : (asciiUp c).toNat < 128 ∧
    asciiUp (asciiUp c) = asciiUp c ∧ isWhitespace (asciiUp c) = isWhitespace c := by
  revert hc c
  exact fun {c} => ascii_forall (p := fun c => (asciiUp c).toNat < 128 ∧
    asciiUp (asciiUp c) = asciiUp c ∧ isWhitespace (asciiUp c) = isWhitespace c) (by decide +kernel)

theorem asciiDown_keeps {c : Char} (hc : c.toNat < 128) : (asciiDown c).toNat < 128 ∧
    asciiDown (asciiDown c) = asciiDown c ∧ isWhitespace (asciiDown c) = isWhitespace c := by
  revert hc c
  exact fun {c} => ascii_forall (p := fun c => (asciiDown c).toNat < 128 ∧
    asciiDown (asciiDown c) = asciiDown c ∧ isWhitespace (asciiDown c) = isWhitespace c)
    (by decide +kernel)

theorem all_ascii {s : Str} (h : Ascii s) : s.all isAscii = true := by
  rw [List.all_eq_true]
  exact fun c hc => by simpa [isAscii] using h c hc

theorem toUpper_ascii {P : Plat} {s : Str} (h : Ascii s) : toUpper P s = s.map asciiUp := by
  rw [toUpper, if_pos (all_ascii h)]

theorem toLower_ascii {P : Plat} {s : Str} (h : Ascii s) : toLower P s = s.map asciiDown := by
  rw [toLower, if_pos (all_ascii h)]

/-! ### An answer "y" -/

/-- The answer is `y` or `Y`, perhaps with white space around it. -/
def SaysYes (answer : Str) : Prop :=
  ∃ a c b, answer = a ++ [c] ++ b ∧ Blank a ∧ Blank b ∧ (c = 'y' ∨ c = 'Y')

theorem trim_around {a b : Str} {c : Char} (ha : Blank a) (hb : Blank b) (hc : ¬ Space c) :
    trim (a ++ [c] ++ b) = [c] := by
  have hc' : isWhitespace c = false := isWhitespace_false.2 hc
  have h1 : ∀ x ∈ a, isWhitespace x = true := fun x hx => isWhitespace_iff.2 (ha x hx)
  have h2 : ∀ x ∈ b.reverse, isWhitespace x = true :=
    fun x hx => isWhitespace_iff.2 (hb x (List.mem_reverse.1 hx))
  rw [trim, trimStart, List.append_assoc, List.dropWhile_append_of_pos h1, List.singleton_append,
    List.dropWhile_cons_of_neg (by simp [hc']), trimEnd, List.reverse_cons,
    List.dropWhile_append_of_pos h2, List.dropWhile_cons_of_neg (by simp [hc'])]
  rfl

theorem trim_parts (s : Str) : ∃ a b, s = a ++ trim s ++ b ∧ Blank a ∧ Blank b := by
  obtain ⟨a, h1, h2, _⟩ := trimStart_spec s
  obtain ⟨b, h4, h5, _⟩ := trimEnd_spec (trimStart s)
  exact ⟨a, b, by rw [trim, List.append_assoc, ← h4, ← h1], h2, h5⟩

theorem isYes_iff {P : Plat} {answer : Str} (hA : Ascii answer) :
    trim (toLower P answer) = c!"y" ↔ SaysYes answer := by
  rw [toLower_ascii hA]
  constructor
  · intro h
    obtain ⟨a, b, h1, h2, h3⟩ := trim_parts (answer.map asciiDown)
    rw [h, List.map_eq_append_iff] at h1
    obtain ⟨l, b', rfl, h4, rfl⟩ := h1
    rw [List.map_eq_append_iff] at h4
    obtain ⟨a', m, rfl, rfl, h5⟩ := h4
    obtain ⟨c, t, rfl, h6, h7⟩ := List.map_eq_cons_iff.1 h5
    obtain rfl := List.map_eq_nil_iff.1 h7
    have blank : ∀ l : Str, Ascii l → Blank (l.map asciiDown) → Blank l := by
      intro l hl hb x hx
      have := isWhitespace_iff.2 (hb _ (List.mem_map_of_mem hx))
      rw [(asciiDown_keeps (hl x hx)).2.2] at this
      exact isWhitespace_iff.1 this
    refine ⟨a', c, b', rfl, blank a' (fun x hx => hA x (by simp [hx])) h2,
      blank b' (fun x hx => hA x (by simp [hx])) h3, ?_⟩
    have hc : c.toNat < 128 := hA c (by simp)
    revert h6
    exact ascii_forall (p := fun c => asciiDown c = 'y' → c = 'y' ∨ c = 'Y') (by decide +kernel) hc
  · rintro ⟨a, c, b, rfl, ha, hb, hc⟩
    have blank : ∀ l : Str, Ascii l → Blank l → Blank (l.map asciiDown) := by
      intro l hl hb x hx
      obtain ⟨y, hy, rfl⟩ := List.mem_map.1 hx
      rw [← isWhitespace_iff, (asciiDown_keeps (hl y hy)).2.2, isWhitespace_iff]
      exact hb y hy
    rw [List.map_append, List.map_append, List.map_singleton]
    rw [trim_around (blank a (fun x hx => hA x (by simp [hx])) ha)
      (blank b (fun x hx => hA x (by simp [hx])) hb)]
    · rcases hc with rfl | rfl <;> rfl
    · rcases hc with rfl | rfl <;> (unfold Space; decide)

/-! ### Titles -/

theorem titleLoop_ascii {P : Plat} : ∀ {s : Str} (_ : Ascii s) (cap : Bool),
    Builtins.titleLoop P cap s = match s with
      | [] => []
      | c :: cs => (if cap then asciiUp c else asciiDown c) ::
          Builtins.titleLoop P (isWhitespace c) cs
  | [], _, _ => rfl
  | c :: cs, h, cap => by
    have hc : isAscii c = true := by simpa [isAscii] using h c (by simp)
    simp only [Builtins.titleLoop, Builtins.charToUpper, Builtins.charToLower, hc, if_true]

/-- the characters of a title -/
theorem titleLoop_get {P : Plat} : ∀ {s : Str} (_ : Ascii s) (cap : Bool) (i : Nat),
    (Builtins.titleLoop P cap s)[i]? = s[i]?.map fun c =>
      if (if i = 0 then cap else (s[i - 1]?.map isWhitespace).getD false) then asciiUp c
      else asciiDown c
  | [], _, _, _ => by simp [Builtins.titleLoop]
  | c :: cs, h, cap, i => by
    rw [titleLoop_ascii h]
    cases i with
    | zero => simp
    | succ i =>
      rw [List.getElem?_cons_succ, titleLoop_get (fun d hd => h d (by simp [hd]))]
      cases i with
      | zero => simp
      | succ i => simp

theorem titleLoop_length {P : Plat} : ∀ (cap : Bool) (s : Str),
    (Builtins.titleLoop P cap s).length = s.length
  | _, [] => rfl
  | cap, c :: cs => by simp [Builtins.titleLoop, titleLoop_length]

theorem titleLoop_ascii_out {P : Plat} : ∀ {s : Str} (_ : Ascii s) (cap : Bool),
    Ascii (Builtins.titleLoop P cap s)
  | [], _, _ => fun _ hc => absurd hc List.not_mem_nil
  | c :: cs, h, cap => by
    have hc := h c List.mem_cons_self
    rw [titleLoop_ascii h]
    intro d hd
    rcases List.mem_cons.1 hd with rfl | hd
    · cases cap
      · exact (asciiDown_keeps hc).1
      · exact (asciiUp_keeps hc).1
    · exact titleLoop_ascii_out (fun d hd => h d (List.mem_cons_of_mem _ hd)) _ d hd

theorem titleLoop_twice {P : Plat} : ∀ {s : Str} (_ : Ascii s) (cap : Bool),
    Builtins.titleLoop P cap (Builtins.titleLoop P cap s) = Builtins.titleLoop P cap s
  | [], _, _ => rfl
  | c :: cs, h, cap => by
    have hc := h c List.mem_cons_self
    have ih := fun cap => titleLoop_twice (P := P) (s := cs) (fun d hd => h d (List.mem_cons_of_mem _ hd)) cap
    have ho := titleLoop_ascii_out (P := P) h cap
    rw [titleLoop_ascii h] at ho ⊢
    simp only at ho ⊢
    rw [titleLoop_ascii ho]
    cases cap <;> simp [ih, asciiDown_keeps hc, asciiUp_keeps hc]

section

variable {W : Type} {P : Plat} {H : Host W} {L : Lib} {n : Nat} {env env1 : Env} {w w1 : W}

theorem mayStart_iff {s : Str} {i : Nat} :
    (if i = 0 then true else (s[i - 1]?.map isWhitespace).getD false) = true ↔ MayStart Space s i := by
  by_cases hi : i = 0
  · simp [hi, MayStart]
  · simp only [hi, if_false, MayStart, false_or]
    cases h : s[i - 1]? with
    | none => simp
    | some e => simp [isWhitespace_iff]

/-- C86.  Of an ASCII text, `string@to-upper` makes every letter a capital and `string@to-lower` every
letter a small one; nothing else changes. -/
theorem C86_upper_lower (hs : Std env) {a : Expr} {s : Str}
    (ha : evalN P H (stdB P L) n a env w = (.ok (.str s), env1, w1)) (hA : Ascii s) :
    (∃ t, evalN P H (stdB P L) (n + 1) (call c!"string" c!"to-upper" [a]) env w =
        (.ok (.str t), env1, w1) ∧ List.Forall₂ AsCapital s t) ∧
    ∃ t, evalN P H (stdB P L) (n + 1) (call c!"string" c!"to-lower" [a]) env w =
        (.ok (.str t), env1, w1) ∧ List.Forall₂ AsSmall s t := by
  have key : ∀ {R : Char → Char → Prop} {f : Char → Char},
      (∀ c, c.toNat < 128 → R c (f c)) → List.Forall₂ R s (s.map f) := by
    intro R f hf
    rw [List.forall₂_map_right_iff, List.forall₂_same]
    exact fun c hc => hf c (hA c hc)
  refine ⟨⟨s.map asciiUp, ?_, key fun c => asciiUp_spec⟩,
    s.map asciiDown, ?_, key fun c => asciiDown_spec⟩ <;>
  · lib hs, Init.stringM
    brun [Builtins.onStr, ha, Builtins.strOrSym, toUpper_ascii hA, toLower_ascii hA]

/-- C86.  The tests of an ASCII text: every character is a letter, a letter or a digit, a digit, a
small letter, a capital.  So the empty text passes every one, and a text with a space none. -/
theorem C86_classes (hs : Std env) {a : Expr} {s : Str}
    (ha : evalN P H (stdB P L) n a env w = (.ok (.str s), env1, w1)) (hA : Ascii s) {f : Str}
    {cls : Char → Prop}
    (hf : (f = c!"is-alpha?" ∧ cls = fun c => c ∈ smallLetters ∨ c ∈ capitals) ∨
      (f = c!"is-alphanumeric?" ∧ cls = fun c => (c ∈ smallLetters ∨ c ∈ capitals) ∨ c ∈ numerals) ∨
      (f = c!"is-numeric?" ∧ cls = fun c => c ∈ numerals) ∨
      (f = c!"is-lower" ∧ cls = fun c => c ∈ smallLetters) ∨
      (f = c!"is-upper" ∧ cls = fun c => c ∈ capitals)) :
    ∃ r, evalN P H (stdB P L) (n + 1) (call c!"string" f [a]) env w = (.ok (.bool r), env1, w1) ∧
      (r = true ↔ ∀ c ∈ s, cls c) := by
  have key : ∀ {p : Char → Bool}, (∀ c, c.toNat < 128 → (p c = true ↔ cls c)) →
      (s.all p = true ↔ ∀ c ∈ s, cls c) := by
    intro p hp
    rw [List.all_eq_true]
    exact ⟨fun h c hc => (hp c (hA c hc)).1 (h c hc), fun h c hc => (hp c (hA c hc)).2 (h c hc)⟩
  have asc : ∀ c : Char, c.toNat < 128 → isAscii c = true := fun c hc => by simpa [isAscii] using hc
  rcases hf with ⟨rfl, rfl⟩ | ⟨rfl, rfl⟩ | ⟨rfl, rfl⟩ | ⟨rfl, rfl⟩ | ⟨rfl, rfl⟩
  · refine ⟨s.all (Builtins.charAlpha P), ?_, key fun c hc => ?_⟩
    · lib hs, Init.stringM
      brun [Builtins.onStr, ha, Builtins.strOrSym]
    · simp only [Builtins.charAlpha, asc c hc, if_true, Bool.or_eq_true, asciiLower_iff hc,
        asciiUpper_iff hc]
  · refine ⟨s.all (Builtins.charAlnum P), ?_, key fun c hc => ?_⟩
    · lib hs, Init.stringM
      brun [Builtins.onStr, ha, Builtins.strOrSym]
    · simp only [Builtins.charAlnum, asc c hc, if_true, Bool.or_eq_true, asciiLower_iff hc,
        asciiUpper_iff hc, isDigit_iff hc]
  · refine ⟨s.all (Builtins.charNumeric P), ?_, key fun c hc => ?_⟩
    · lib hs, Init.stringM
      brun [Builtins.onStr, ha, Builtins.strOrSym]
    · simp only [Builtins.charNumeric, asc c hc, if_true, isDigit_iff hc]
  · refine ⟨s.all (Builtins.charLower P), ?_, key fun c hc => ?_⟩
    · lib hs, Init.stringM
      brun [Builtins.onStr, ha, Builtins.strOrSym]
    · simp only [Builtins.charLower, asc c hc, if_true, asciiLower_iff hc]
  · refine ⟨s.all (Builtins.charUpper P), ?_, key fun c hc => ?_⟩
    · lib hs, Init.stringM
      brun [Builtins.onStr, ha, Builtins.strOrSym]
    · simp only [Builtins.charUpper, asc c hc, if_true, asciiUpper_iff hc]

/-- C86.  `string@to-title` makes the letters at the start and after spaces capitals, and all others
small. -/
theorem C86_title (hs : Std env) {a : Expr} {s : Str}
    (ha : evalN P H (stdB P L) n a env w = (.ok (.str s), env1, w1)) (hA : Ascii s) :
    ∃ t, evalN P H (stdB P L) (n + 1) (call c!"string" c!"to-title" [a]) env w =
        (.ok (.str t), env1, w1) ∧ t.length = s.length ∧
      ∀ i c d, s[i]? = some c → t[i]? = some d →
        (MayStart Space s i → AsCapital c d) ∧ (¬ MayStart Space s i → AsSmall c d) := by
  refine ⟨Builtins.titleLoop P true s, ?_, titleLoop_length _ _, fun i c d hc hd => ?_⟩
  · lib hs, Init.stringM
    brun [Builtins.onStr, ha, Builtins.strOrSym]
  · have hc' : c.toNat < 128 := hA c (List.mem_of_getElem? hc)
    rw [titleLoop_get hA, hc, Option.map_some, Option.some.injEq] at hd
    rw [← mayStart_iff]
    subst hd
    refine ⟨fun h => ?_, fun h => ?_⟩
    · rw [if_pos h]
      exact asciiUp_spec hc'
    · rw [if_neg h]
      exact asciiDown_spec hc'

/-- C86.  `string@is-title` holds of an ASCII text if no small letter is at the start or after a space,
and every capital is. -/
theorem C86_is_title (hs : Std env) {a : Expr} {s : Str}
    (ha : evalN P H (stdB P L) n a env w = (.ok (.str s), env1, w1)) (hA : Ascii s) :
    ∃ r, evalN P H (stdB P L) (n + 1) (call c!"string" c!"is-title" [a]) env w =
        (.ok (.bool r), env1, w1) ∧
      (r = true ↔ ∀ i c, s[i]? = some c →
        (MayStart Space s i → c ∉ smallLetters) ∧ (c ∈ capitals → MayStart Space s i)) := by
  refine ⟨decide (s = Builtins.titleLoop P true s), ?_, ?_⟩
  · lib hs, Init.stringM
    brun [Builtins.onStr, ha, Builtins.strOrSym]
  · rw [decide_eq_true_iff]
    have step : ∀ i c, s[i]? = some c → ((Builtins.titleLoop P true s)[i]? = some c ↔
        (MayStart Space s i → c ∉ smallLetters) ∧ (c ∈ capitals → MayStart Space s i)) := by
      intro i c hc
      have hc' : c.toNat < 128 := hA c (List.mem_of_getElem? hc)
      rw [titleLoop_get hA, hc, Option.map_some, Option.some.injEq]
      by_cases h : MayStart Space s i
      · rw [if_pos (mayStart_iff.2 h), eq_comm, asciiUp_fix hc']
        simp [h]
      · rw [if_neg (fun h' => h (mayStart_iff.1 h')), eq_comm, asciiDown_fix hc']
        simp [h]
    constructor
    · intro h i c hc
      exact (step i c hc).1 (h ▸ hc)
    · intro h
      apply List.ext_getElem?
      intro i
      cases hc : s[i]? with
      | none =>
        rw [List.getElem?_eq_none_iff] at hc
        rw [eq_comm, List.getElem?_eq_none_iff, titleLoop_length]
        exact hc
      | some c => exact ((step i c hc).2 (h i c hc)).symm

/-- C86.  What `string@to-title` makes of an ASCII text is a title for `string@is-title`. -/
theorem C86_title_is_title (hs : Std env) {a b : Expr} {s t : Str} {env2 : Env} {w2 : W}
    (ha : evalN P H (stdB P L) n a env w = (.ok (.str s), env1, w1)) (hA : Ascii s)
    (ht : evalN P H (stdB P L) (n + 1) (call c!"string" c!"to-title" [a]) env w =
      (.ok (.str t), env1, w1)) (hs2 : Std env2)
    (hb : evalN P H (stdB P L) n b env2 w2 = (.ok (.str t), env2, w2)) :
    evalN P H (stdB P L) (n + 1) (call c!"string" c!"is-title" [b]) env2 w2 =
      (.ok (.bool true), env2, w2) := by
  have e : evalN P H (stdB P L) (n + 1) (call c!"string" c!"to-title" [a]) env w =
      (.ok (.str (Builtins.titleLoop P true s)), env1, w1) := by
    lib hs, Init.stringM
    brun [Builtins.onStr, ha, Builtins.strOrSym]
  rw [e] at ht
  obtain rfl : Builtins.titleLoop P true s = t := by simpa using ht
  lib hs2, Init.stringM
  brun [Builtins.onStr, hb, Builtins.strOrSym, titleLoop_twice hA true]

/-- C86.  Without an argument all of these functions crash the shell. -/
theorem C86_missing (hs : Std env) {f : Str}
    (hf : f ∈ [c!"to-upper", c!"to-lower", c!"to-title", c!"is-alpha?", c!"is-alphanumeric?",
      c!"is-numeric?", c!"is-lower", c!"is-upper", c!"is-title", c!"is-whitespace?"]) :
    evalN P H (stdB P L) (n + 1) (call c!"string" f []) env w = (.panic, env, w) := by
  simp only [List.mem_cons, List.not_mem_nil, or_false] at hf
  rcases hf with rfl | rfl | rfl | rfl | rfl | rfl | rfl | rfl | rfl | rfl <;>
  · lib hs, Init.stringM
    brun [Builtins.onStr]

end

/-! ### Examples -/

def caseCall (f : Str) (s : Str) : Outcome Expr :=
  (evalN Demo.plat Demo.host (stdB Demo.plat Demo.lib) 2 (call c!"string" f [.str s]) Demo.env []).1

example : caseCall c!"to-upper" c!"a1 Z" = .ok (.str c!"A1 Z") := rfl
example : caseCall c!"to-title" c!"the 2nd oNE" = .ok (.str c!"The 2nd One") := rfl
example : caseCall c!"is-title" c!"The 2Nd" = .ok (.bool false) := rfl
example : caseCall c!"is-lower" c!"a b" = .ok (.bool false) := rfl
example : caseCall c!"is-upper" c!"" = .ok (.bool true) := rfl
example : Ascii c!"the 2nd oNE" := by unfold Ascii; decide
example : AsCapital 'x' 'X' := .letter 23 rfl rfl
example : AsCapital '2' '2' := .other (by decide)
example : MayStart Space c!"a b" 2 := .inr ⟨' ', rfl, by unfold Space; decide⟩
example : SaysYes c!" Y\n" :=
  ⟨c!" ", 'Y', c!"\n", rfl, by unfold Blank Space; decide, by unfold Blank Space; decide, .inr rfl⟩

example : evalN Demo.plat Demo.host (stdB Demo.plat Demo.lib) 2
    (call c!"string" c!"is-title" [.str c!"The One"]) Demo.env [] = (.ok (.bool true), Demo.env, []) :=
  C86_title_is_title (P := Demo.plat) (L := Demo.lib) (n := 1) demo_std (a := .str c!"the oNE") rfl
    (by unfold Ascii; decide) (w := []) rfl demo_std rfl

/-! ### Instances: the hypotheses can be met -/

example := C86_upper_lower (P := Demo.plat) (H := Demo.host) (L := Demo.lib) (n := 0) (w := [])
  demo_std (a := .str c!"a1 Z") rfl (by unfold Ascii; decide)

example := C86_classes (P := Demo.plat) (H := Demo.host) (L := Demo.lib) (n := 0) (w := [])
  demo_std (a := .str c!"a1 Z") rfl (by unfold Ascii; decide) (f := c!"is-numeric?")
  (.inr (.inr (.inl ⟨rfl, rfl⟩)))

example := C86_is_title (P := Demo.plat) (H := Demo.host) (L := Demo.lib) (n := 0) (w := [])
  demo_std (a := .str c!"The 2nd") rfl (by unfold Ascii; decide)

end Dune.Props
