import Verif.Proof.Scan
import Verif.Proof.Readable

/-!
A quick way to the words of a long text: cut it, and check that each piece is a word that ends where the next
begins.  Nothing is proved of the cutting; the check suffices.
-/

namespace Dune.Pieces

open Spec Lex

/-- the kind of a piece of characters of names -/
def kindOf (s : Str) : TokenKind :=
  if s ∈ [c!"None", c!"then", c!"else", c!"let", c!"for", c!"if", c!"in"] then .keyword
  else if s ∈ opNames then .operator
  else if s ∈ [c!"->", c!"~>"] then .punctuation
  else .symbol

/-- the pieces of a text without escapes and numbers -/
def cut : Nat → Str → List Word
  | 0, _ => []
  | _, [] => []
  | n + 1, c :: s =>
    if isAsciiWhitespace c then
      (.whitespace, c :: s.takeWhile isAsciiWhitespace) :: cut n (s.dropWhile isAsciiWhitespace)
    else if c = '#' then
      (.comment, c :: s.takeWhile fun x => x ≠ '\n') :: cut n (s.dropWhile fun x => x ≠ '\n')
    else if c = '"' then
      (.stringLiteral, '"' :: (s.takeWhile fun x => x ≠ '"') ++ ['"']) :: cut n ((s.dropWhile fun x => x ≠ '"').drop 1)
    else if isSymbolChar c then
      (kindOf (c :: s.takeWhile isSymbolChar), c :: s.takeWhile isSymbolChar) :: cut n (s.dropWhile isSymbolChar)
    else if (c = '=' || c = '|' || c = '!') && s.head? = some c then (.operator, [c, c]) :: cut n (s.drop 1)
    else if c = '@' || c = '!' || c = '|' || c = '*' then (.operator, [c]) :: cut n s
    else (.punctuation, [c]) :: cut n s

/-- no character of the text has a meaning of its own in a literal -/
def isPlain (d : Str) : Bool := d.all fun c => c ≠ '"' && c ≠ '\\'

theorem denotes_plain : ∀ {d : Str}, isPlain d = true → Denotes d d
  | [], _ => .nil
  | c :: d, h => by
    simp only [isPlain, List.all_cons, Bool.and_eq_true, decide_eq_true_eq] at h
    exact .char h.1.1 h.1.2 (denotes_plain (by simpa [isPlain] using h.2))

/-- a word, for sure -/
def lexB : Word → Bool
  | (.whitespace, s) => decide (s ≠ []) && s.all fun c => decide (c ∈ spaceChars)
  | (.comment, c :: s) => c = '#' && s.all fun x => x ≠ '\n' && x ≠ '\r'
  | (.punctuation, s) => decide (s ∈ [c!"(", c!")", c!"[", c!"]", c!"{", c!"}", c!"'", c!",", c!";", c!"=", c!"->", c!"~>"])
  | (.operator, s) => decide (s ∈ c!"@" :: opNames)
  | (.keyword, s) => decide (s ∈ [c!"None", c!"then", c!"else", c!"let", c!"for", c!"if", c!"in"])
  | (.stringLiteral, c :: s) => c = '"' && s.getLast? = some '"' && isPlain s.dropLast
  | (.symbol, c :: s) => (c :: s).all isSymbolChar && decide (c :: s ∉ reserved) &&
      decide (c :: s ∉ [c!"True", c!"False"]) && decide (c ≠ '#') && decide (c ∉ digitChars) && decide (c ≠ '-')
  | _ => false

theorem lexB_sound : ∀ {w : Word}, lexB w = true → Lexeme w
  | (.whitespace, s), h => by
    simp only [lexB, Bool.and_eq_true, decide_eq_true_eq, List.all_eq_true] at h
    exact .space h.1 h.2
  | (.comment, c :: s), h => by
    simp only [lexB, Bool.and_eq_true, decide_eq_true_eq, List.all_eq_true] at h
    obtain ⟨rfl, h⟩ := h
    exact .comment (fun hm => (h _ hm).1 rfl) (fun hm => (h _ hm).2 rfl)
  | (.punctuation, s), h => .punct (by simpa only [lexB, decide_eq_true_eq] using h)
  | (.operator, s), h => .op (by simpa only [lexB, decide_eq_true_eq] using h)
  | (.keyword, s), h => .keyword (by simpa only [lexB, decide_eq_true_eq] using h)
  | (.stringLiteral, c :: s), h => by
    simp only [lexB, Bool.and_eq_true, decide_eq_true_eq] at h
    obtain ⟨⟨rfl, h1⟩, h2⟩ := h
    have e : s.dropLast ++ ['"'] = s := by
      obtain ⟨y, rfl⟩ := List.getLast?_eq_some_iff.1 h1
      simp
    have := Lexeme.str (denotes_plain h2)
    rwa [List.cons_append, e] at this
  | (.symbol, c :: s), h => by
    simp only [lexB, Bool.and_eq_true, decide_eq_true_eq, List.all_eq_true] at h
    obtain ⟨⟨⟨⟨⟨h1, h2⟩, h3⟩, h4⟩, h5⟩, h6⟩ := h
    exact .name (fun x hx => (symbolChar_iff x).1 (h1 x hx)) h2 h3 h4 h5 fun _ _ e => absurd e h6
  | (.comment, []), h | (.stringLiteral, []), h | (.symbol, []), h | (.booleanLiteral, _), h
  | (.integerLiteral, _), h | (.floatLiteral, _), h => nomatch h

/-- the text does not go on with a word -/
def stopsB (rest : Str) : Bool :=
  match rest with
  | [] => true
  | c :: _ => !isSymbolChar c && c ≠ '=' && c ≠ '|'

theorem stopsB_sound {rest : Str} (h : stopsB rest = true) : Stops rest := by
  rintro c r rfl
  simp only [stopsB, Bool.and_eq_true, decide_eq_true_eq, Bool.not_eq_true'] at h
  exact ⟨fun hm => by rw [(symbolChar_iff c).2 hm] at h; exact absurd h.1.1 (by simp), h.1.2, h.2⟩

/-- the word ends there, for sure -/
def endsB (w : Word) (rest : Str) : Bool :=
  match w.1 with
  | .whitespace => match rest with | [] => true | c :: _ => decide (c ∉ spaceChars)
  | .comment => match rest with | [] => true | c :: _ => c = '\n'
  | .punctuation => decide (w.2 ∉ [c!"=", c!"->", c!"~>"]) || stopsB rest
  | .operator => decide (w.2 = c!"@") || stopsB rest
  | .stringLiteral => true
  | _ => stopsB rest

theorem endsB_sound {w : Word} {rest : Str} (h : endsB w rest = true) : EndsAt w rest := by
  obtain ⟨k, s⟩ := w
  cases k <;> simp only [endsB, EndsAt] at h ⊢
  case whitespace =>
    rintro c r rfl
    simpa using h
  case comment =>
    rintro c r rfl
    exact .inl (by simpa using h)
  case punctuation =>
    intro hm
    rw [decide_eq_false (not_not_intro hm), Bool.false_or] at h
    exact stopsB_sound h
  case operator =>
    intro hm
    rw [decide_eq_false hm, Bool.false_or] at h
    exact stopsB_sound h
  all_goals exact stopsB_sound h

/-- what follows: the first word is not empty, so its text tells -/
def lineB : List Word → Bool
  | [] => true
  | [w] => lexB w && endsB w []
  | w :: (k, s) :: ws => lexB w && decide (s ≠ []) && endsB w (s.take 1) && lineB ((k, s) :: ws)

theorem endsB_take {w : Word} {s t : Str} (h : s ≠ []) : endsB w (s ++ t) = endsB w (s.take 1) := by
  obtain ⟨c, s, rfl⟩ := List.exists_cons_of_ne_nil h
  obtain ⟨k, _⟩ := w
  cases k <;> rfl

theorem lineB_sound : ∀ {ws : List Word}, lineB ws = true → Line ws
  | [], _ => trivial
  | [w], h => by
    simp only [lineB, Bool.and_eq_true] at h
    exact ⟨lexB_sound h.1, endsB_sound h.2, trivial⟩
  | w :: (k, s) :: ws, h => by
    simp only [lineB, Bool.and_eq_true, decide_eq_true_eq] at h
    refine ⟨lexB_sound h.1.1.1, endsB_sound (w := w) ?_, lineB_sound h.2⟩
    rw [← h.1.2]
    exact endsB_take h.1.1.2

/-- may touch another word -/
def softB (w : Word) : Bool :=
  w.1 == .whitespace || w.1 == .comment || w.1 == .punctuation || w.1 == .stringLiteral || w.2 == c!"@"

theorem softB_sound {a b : Word} (h : softB a = true ∨ softB b = true) : ¬ Clash a b := by
  rintro ⟨h1, h2, h3, h4⟩
  rcases h with h | h <;> simp only [softB, Bool.or_eq_true, beq_iff_eq, wordLike] at h h1 h2
  · rcases h with (((h | h) | h) | h) | h <;> first | exact h3 h | simp [h] at h1
  · rcases h with (((h | h) | h) | h) | h <;> first | exact h4 h | simp [h] at h2

def apartB : List Word → Bool
  | a :: b :: l => (softB a || softB b) && apartB (b :: l)
  | _ => true

theorem apartB_sound : ∀ {ws : List Word}, apartB ws = true → Apart ws
  | [], _ => .nil
  | [_], _ => .singleton _
  | a :: b :: l, h => by
    simp only [apartB, Bool.and_eq_true, Bool.or_eq_true] at h
    exact .cons_cons (softB_sound h.1) (apartB_sound h.2)

/-- the check -/
def check (src : Str) (ws all : List Word) : Bool :=
  textOf all == src && lineB all && apartB all && all.filter Spec.isSolid == ws

theorem words_of_check {src : Str} {ws : List Word} {n : Nat} (h : check src ws (cut n src) = true) : Words src ws := by
  simp only [check, Bool.and_eq_true, beq_iff_eq] at h
  obtain ⟨⟨⟨h1, h2⟩, h3⟩, h4⟩ := h
  refine ⟨_, ?_, h4⟩
  have := reads_line (lineB_sound h2) (apartB_sound h3).split
  rwa [h1] at this

end Dune.Pieces
