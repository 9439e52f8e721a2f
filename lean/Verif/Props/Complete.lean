import Verif.Model.Complete
import Verif.Props.Text
import Mathlib.Data.List.Forall2

/-! C117: completion of file names in a directory that cannot be entered. -/

namespace Dune.Props

open Complete

/-! ### Specification -/

/-- What the editor does with a proposal: the text from byte `start` up to the cursor, which is between `before` and
`after`, is replaced. -/
def Accepted (before after : Str) (start : Nat) (replacement line : Str) : Prop :=
  ∃ keep cut, before = keep ++ cut ∧ utf8Len keep = start ∧ line = keep ++ replacement ++ after

/-- The characters that end a word. -/
def EndsWord (c : Char) : Prop := isWhitespace c = true ∨ c ∈ c!";'(){}\""

/-- `word` is the last word of the line. -/
def LastWord (line word : Str) : Prop :=
  ∃ front, line = front ++ word ∧ word ≠ [] ∧ (∀ c ∈ word, ¬ EndsWord c) ∧ ∀ c, front.getLast? = some c → EndsWord c

/-- The path of a word: the word itself if it is absolute, else below the directory. -/
def PathOf (cwd word path : Str) : Prop :=
  word.head? = some '/' ∧ path = word ∨
    word.head? ≠ some '/' ∧ cwd.getLast? ≠ some '/' ∧ cwd.head? = some '/' ∧ path = cwd ++ '/' :: word

/-- The path has no empty names and no `.` inside. -/
def Tidy (path : Str) : Prop := ¬ c!"//" <:+: path ∧ ¬ c!"/./" <:+: path

/-- The rest of a name, with a slash if it is a directory. -/
def RestOfName (s : Str) : Prop := '/' ∉ s.dropLast

/-! ### Proofs -/

theorem separates_iff {c : Char} : separates c = true ↔ EndsWord c := by
  simp only [separates, EndsWord, Bool.or_eq_true, beq_iff_eq, List.mem_cons, List.not_mem_nil, or_false, or_assoc]

theorem len_le : ∀ s : Str, s.length ≤ utf8Len s
  | [] => Nat.le_refl _
  | c :: cs => by
    have := len_le cs
    have := c.utf8Size_pos
    simp only [List.length_cons, utf8Len]
    omega

/-- Up to the end of the line the loop collects the last word. -/
theorem segment_front {pos : Nat} : ∀ (front rest seg : Str) (i : Nat), i + front.length ≤ pos →
    segment pos i seg (front ++ rest) = segment pos (i + front.length) (segment pos i seg front) rest
  | [], rest, seg, i, _ => rfl
  | c :: cs, rest, seg, i, h => by
    simp only [List.length_cons] at h
    simp only [List.cons_append, segment, List.length_cons]
    rw [if_neg (show i ≠ pos by omega), if_neg (show i ≠ pos by omega), segment_front cs rest _ _ (by omega)]
    congr 1
    omega

theorem segment_word {pos : Nat} : ∀ (word seg : Str) (i : Nat), i + word.length ≤ pos → (∀ c ∈ word, ¬ EndsWord c) →
    segment pos i seg word = seg ++ word
  | [], seg, i, _, _ => by simp [segment]
  | c :: cs, seg, i, h, hw => by
    simp only [List.length_cons] at h
    have hc : separates c = false := by
      rw [Bool.eq_false_iff]; exact fun e => hw c (by simp) (separates_iff.1 e)
    simp only [segment, hc]
    rw [if_neg (by omega), segment_word cs _ _ (by omega) fun c hc => hw c (by simp [hc])]
    simp

theorem segment_ended {pos : Nat} {front : Str} (i : Nat) (seg : Str) (h : i + front.length ≤ pos) (h0 : front ≠ [])
    (hl : ∀ c, front.getLast? = some c → EndsWord c) : segment pos i seg front = [] := by
  obtain ⟨a, c, rfl⟩ : ∃ a c, front = a ++ [c] := ⟨_, _, (List.dropLast_concat_getLast h0).symm⟩
  have hc : separates c = true := separates_iff.2 (hl c (by simp))
  simp only [List.length_append, List.length_cons, List.length_nil] at h
  rw [segment_front _ _ _ _ (by omega)]
  simp only [segment, hc]
  split <;> rfl

theorem segment_end {line word : Str} (h : LastWord line word) : segment (utf8Len line) 0 [] line = word := by
  obtain ⟨front, rfl, -, hw, hf⟩ := h
  have hn := len_le (front ++ word)
  rw [List.length_append] at hn
  rw [segment_front _ _ _ _ (by omega)]
  by_cases h0 : front = []
  · subst h0
    rw [segment, segment_word _ _ _ (by simpa using hn) hw, List.nil_append]
  · rw [segment_ended _ _ (by omega) h0 hf, segment_word _ _ _ (by omega) hw, List.nil_append]

theorem replace_absent {s old new : Str} (h0 : old ≠ []) (h : ¬ old <:+: s) : replaceStr s old new = s := by
  rw [replaceStr_eq]
  have h1 := cut_splitStr h0 s
  obtain e := h1.unique h0 (.last fun ⟨p, q, e⟩ => h ⟨p, q, e.symm⟩)
  rw [e]
  rfl

theorem pathFor_word {cwd word path : Str} (h0 : word ≠ []) (h : PathOf cwd word path) (ht : Tidy path) :
    pathFor cwd word = path := by
  have e : pathJoin cwd word = path := by
    rcases h with ⟨h1, rfl⟩ | ⟨h1, h2, h3, rfl⟩
    · cases path with
      | nil => exact absurd rfl h0
      | cons c cs => cases h1; rfl
    · have hc : cwd ≠ [] := by rintro rfl; cases h3
      cases word with
      | nil => exact absurd rfl h0
      | cons c cs =>
        have : c ≠ '/' := fun e => h1 (by rw [e]; rfl)
        unfold pathJoin
        split
        · rename_i heq; cases heq; exact absurd rfl this
        · rw [if_neg (by simp [hc, h2])]
  rw [pathFor, if_neg h0, e, replace_absent (by decide) ht.2, replace_absent (by decide) ht.1]

theorem path_head {cwd word path : Str} (h : PathOf cwd word path) : ∃ rest, path = '/' :: rest := by
  rcases h with ⟨h1, rfl⟩ | ⟨-, -, h3, rfl⟩
  · cases path with
    | nil => cases h1
    | cons c cs => cases h1; exact ⟨_, rfl⟩
  · cases cwd with
    | nil => cases h3
    | cons c cs => cases h3; exact ⟨_, rfl⟩

/-- Cutting the path off leaves the rest. -/
theorem replace_path {rest s : Str} (h0 : rest ≠ []) (hs : RestOfName s) :
    replaceStr ('/' :: rest ++ s) ('/' :: rest) [] = s := by
  have hno : ¬ ∃ p q, s = p ++ '/' :: rest ++ q := by
    rintro ⟨p, q, rfl⟩
    apply hs
    obtain ⟨a, c, e⟩ : ∃ a c, rest ++ q = a ++ [c] :=
      ⟨_, _, (List.dropLast_concat_getLast (l := rest ++ q) (by simp [h0])).symm⟩
    rw [List.append_assoc, List.cons_append, e, ← List.cons_append, ← List.append_assoc, List.dropLast_concat]
    simp
  rw [replaceStr_eq]
  have h1 := cut_splitStr (sep := '/' :: rest) (by simp) ('/' :: rest ++ s)
  have h2 : Cut ('/' :: rest) ('/' :: rest ++ s) [[], s] := by
    refine Cut.cut (p := []) ?_ (.last hno)
    rintro ⟨p, q, e⟩
    have := congrArg List.length e
    simp only [List.length_append, List.length_dropLast, List.length_cons, List.length_nil] at this
    omega
  rw [h1.unique (by simp) h2]
  simp [glue]

/-- C117, at the end of the line, accepting a proposal puts the rest of the name after the line. -/
theorem C117_end {files : Files} {cwd line word path : Str} {pairs : List Pair} (hw : LastWord line word)
    (hp : PathOf cwd word path) (ht : Tidy path) (h1 : path ≠ c!"/")
    (hf : files path (utf8Len path) = some (0, pairs)) :
    ∃ pairs', complete files false cwd line (utf8Len line) = some (0, pairs') ∧
      List.Forall₂ (fun a b => b.shown = a.shown ∧ ∀ s, RestOfName s → a.replacement = path ++ s →
        Accepted line [] 0 b.replacement (line ++ s)) pairs pairs' := by
  refine ⟨pairs.map fun p => { p with replacement := line ++ replaceStr p.replacement path [] }, ?_, ?_⟩
  · rw [complete, segment_end hw, pathFor_word hw.choose_spec.2.1 hp ht]
    simp only [hf]
    rfl
  · rw [List.forall₂_map_right_iff, List.forall₂_same]
    rintro a -
    refine ⟨rfl, fun s hs e => ⟨[], line, rfl, rfl, ?_⟩⟩
    obtain ⟨rest, rfl⟩ := path_head hp
    have h0 : rest ≠ [] := by rintro rfl; exact h1 rfl
    simp only [e, replace_path h0 hs, List.nil_append, List.append_nil]

/-- C117, contrary to what a user expects, in the middle of a line accepting a proposal repeats the text after
the cursor. -/
theorem C117_middle_refuted {files : Files} {cwd before after line : Str} {pairs : List Pair} {b : Pair}
    (hc : complete files false cwd (before ++ after) (utf8Len before) = some (0, pairs)) (hb : b ∈ pairs)
    (ha : Accepted before after 0 b.replacement line) : ∃ s, line = before ++ after ++ s ++ after := by
  rw [complete] at hc
  simp only [Bool.false_eq_true, if_false] at hc
  split at hc
  · cases hc
  · rename_i start ps _
    cases hc
    obtain ⟨p, -, rfl⟩ := List.mem_map.1 hb
    obtain ⟨keep, cut, rfl, hk, rfl⟩ := ha
    have : keep = [] := by
      cases keep with
      | nil => rfl
      | cons c cs => have := c.utf8Size_pos; simp only [utf8Len] at hk; omega
    subst this
    exact ⟨_, rfl⟩

/-- C117, and if a blank follows the cursor, the word before it plays no role: what is proposed are the names in
the directory. -/
theorem C117_word_refuted {files : Files} {cwd before after : Str} {c : Char} (ha : ∀ x ∈ before, x.toNat < 128)
    (hc : EndsWord c) (ht : Tidy (cwd ++ c!"/")) :
    (complete files false cwd (before ++ c :: after) (utf8Len before)).map (fun r => r.2.map Pair.shown) =
      (files (cwd ++ c!"/") (utf8Len (cwd ++ c!"/"))).map (fun r => r.2.map Pair.shown) := by
  have hl : utf8Len before = before.length := by
    induction before with
    | nil => rfl
    | cons x xs ih =>
      have h1 : x.utf8Size = 1 := by
        have := ha x (by simp)
        unfold Char.utf8Size
        rw [if_pos]
        exact UInt32.le_iff_toNat_le.2 (by show x.toNat ≤ 127; omega)
      rw [utf8Len, ih fun y hy => ha y (by simp [hy]), h1, List.length_cons]
      omega
  have hs : segment (utf8Len before) 0 [] (before ++ c :: after) = [] := by
    rw [segment_front _ _ _ _ (by omega), segment]
    simp only [separates_iff.2 hc, if_true]
    rw [if_pos (by omega)]
  have hp : pathFor cwd [] = cwd ++ c!"/" := by
    rw [pathFor, if_pos rfl, replace_absent (by decide) ht.2, replace_absent (by decide) ht.1]
  rw [complete, hs, hp]
  simp only [Bool.false_eq_true, if_false]
  cases files (cwd ++ c!"/") (utf8Len (cwd ++ c!"/")) with
  | none => rfl
  | some r => simp [Function.comp_def]

/-! ### Instances -/

/-- A completer that knows `/etc/hosts` and the directory `/etc/httpd`. -/
def demoFiles : Files := fun p _ =>
  if p = c!"/etc/h" then some (0, [⟨c!"hosts", c!"/etc/hosts"⟩, ⟨c!"httpd/", c!"/etc/httpd/"⟩]) else some (0, [])

/-- In a directory that is gone, `cat /etc/h` is completed to `cat /etc/hosts`. -/
example : ∃ pairs', complete demoFiles false c!"/tmp/gone" c!"cat /etc/h" (utf8Len c!"cat /etc/h") = some (0, pairs') ∧
    List.Forall₂ (fun a b : Pair => b.shown = a.shown ∧ ∀ s, RestOfName s → a.replacement = c!"/etc/h" ++ s →
      Accepted c!"cat /etc/h" [] 0 b.replacement (c!"cat /etc/h" ++ s))
      [(⟨c!"hosts", c!"/etc/hosts"⟩ : Pair), ⟨c!"httpd/", c!"/etc/httpd/"⟩] pairs' :=
  C117_end (word := c!"/etc/h") ⟨c!"cat ", rfl, by decide, by unfold EndsWord; decide, by simp [EndsWord]; decide⟩ (.inl ⟨rfl, rfl⟩)
    ⟨by decide, by decide⟩ (by decide) rfl

example : complete demoFiles false c!"/tmp/gone" c!"cat /etc/h" 10 =
    some (0, [⟨c!"hosts", c!"cat /etc/hosts"⟩, ⟨c!"httpd/", c!"cat /etc/httpd/"⟩]) := by decide +kernel

/-- With the cursor after the h of `/etc/hx`, the word asked about is `/etc/hx`. -/
example : complete (fun p n => if p = c!"/etc/hx" then some (0, [⟨c!"hxx", c!"/etc/hxx"⟩]) else demoFiles p n) false
    c!"/tmp/gone" c!"/etc/hx" 6 = some (0, [⟨c!"hxx", c!"/etc/hxx"⟩]) := by decide +kernel

/-- Accepting it there gives `/etc/hxxx`. -/
example : ∃ s, c!"/etc/hxxx" = c!"/etc/h" ++ c!"x" ++ s ++ c!"x" :=
  C117_middle_refuted (files := fun p n => if p = c!"/etc/hx" then some (0, [⟨c!"hxx", c!"/etc/hxx"⟩]) else demoFiles p n)
    (cwd := c!"/tmp/gone") (b := ⟨c!"hxx", c!"/etc/hxx"⟩) (by decide +kernel) (List.mem_singleton.2 rfl)
    ⟨[], c!"/etc/h", rfl, rfl, rfl⟩

/-- Before a blank nothing is proposed, though there are names that start with `/etc/h`. -/
example : (complete demoFiles false c!"/tmp/gone" (c!"cat /etc/h" ++ ' ' :: c!"x") (utf8Len c!"cat /etc/h")).map
    (fun r => r.2.map Pair.shown) = some [] :=
  C117_word_refuted (files := demoFiles) (by decide) (.inl (by decide)) ⟨by decide, by decide⟩

end Dune.Props
