import Verif.Spec.Readable
import Verif.Proof.Numeral

/-! Printed values are lines of words that derive the value. -/

namespace Dune

open Spec

/-! ### Strings -/

theorem denotes_quoted (s : Str) :
    Lex.Denotes (s.flatMap fun c => if c = '"' ∨ c = '\\' then ['\\', c] else [c]) s := by
  induction s with
  | nil => exact .nil
  | cons c s ih =>
    rw [List.flatMap_cons]
    by_cases h : c = '"' ∨ c = '\\'
    · rw [if_pos h]
      refine .esc ?_ ih
      rcases h with rfl | rfl <;> simp
    · rw [if_neg h]
      simp only [not_or] at h
      exact .char h.1 h.2 ih

theorem toHexAux_eq (fuel n : Nat) (acc : Str) :
    toHexAux fuel n acc = Nat.toDigitsCore 16 fuel n acc := by
  induction fuel generalizing n acc with
  | zero => rfl
  | succ fuel ih =>
    have hd : hexDigit (n % 16) = Nat.digitChar (n % 16) :=
      (show ∀ k < 16, hexDigit k = Nat.digitChar k by decide) _ (Nat.mod_lt _ (by decide))
    rw [toHexAux, Nat.toDigitsCore, ih, hd]

theorem toHex_eq (n : Nat) : toHex n = Nat.toDigits 16 n := toHexAux_eq _ _ _

theorem digitChar_hex : ∀ k < 16, Lex.isHexDigit (Nat.digitChar k) = true ∧
    Lex.hexVal (Nat.digitChar k) = k := by decide

theorem toHex_spec (n : Nat) : toHex n ≠ [] ∧ (∀ c ∈ toHex n, Lex.isHexDigit c = true) ∧
    Lex.hexNum (toHex n) = n := by
  rw [toHex_eq]
  refine ⟨Nat.toDigits_ne_nil, ?_⟩
  induction n using Nat.strongRecOn with
  | _ n ih =>
    by_cases h : n < 16
    · rw [Nat.toDigits_of_lt_base h]
      have := digitChar_hex n h
      refine ⟨by simpa using this.1, ?_⟩
      simp [Lex.hexNum, this.2]
    · rw [Nat.toDigits_of_base_le (by decide) (by omega)]
      obtain ⟨h1, h2⟩ := ih (n / 16) (by omega)
      have := digitChar_hex (n % 16) (Nat.mod_lt _ (by decide))
      refine ⟨?_, ?_⟩
      · intro c hc
        rcases List.mem_append.mp hc with hc | hc
        · exact h1 c hc
        · simp only [List.mem_singleton] at hc
          rw [hc]; exact this.1
      · rw [Lex.hexNum, List.foldl_append]
        rw [Lex.hexNum] at h2
        simp only [List.foldl_cons, List.foldl_nil, h2, this.2]
        omega

theorem toHex_length {n : Nat} (h : n < 0x100000) : (toHex n).length ≤ 5 := by
  rw [toHex_eq, Nat.length_toDigits_le_iff (by decide) (by decide)]
  omega

theorem isScalar_toNat (c : Char) : Lex.isScalar c.toNat = true := by
  have h := c.valid
  simp only [UInt32.isValidChar, Nat.isValidChar] at h
  simp only [Lex.isScalar, Bool.or_eq_true, Bool.and_eq_true, decide_eq_true_eq]
  exact h

theorem denotes_unicode {c : Char} (h : c.toNat < 0x100000) {s v : Str} (hs : Lex.Denotes s v) :
    Lex.Denotes (c!"\\u{" ++ toHex c.toNat ++ c!"}" ++ s) (c :: v) := by
  obtain ⟨h1, h2, h3⟩ := toHex_spec c.toNat
  have := Lex.Denotes.unicode h1 (toHex_length h) (Lex.hex_of_digits rfl h2)
    ((Lex.isScalar_iff _).1 (by rw [h3]; exact isScalar_toNat c)) hs
  rwa [h3, Char.ofNat_toNat] at this

theorem denotes_debug {P : Plat} {s : Str} (h : ∀ c ∈ s, readableChar P c) :
    Lex.Denotes (s.flatMap (escapeDebugChar P)) s := by
  induction s with
  | nil => exact .nil
  | cons c s ih =>
    simp only [List.forall_mem_cons] at h
    have ih := ih h.2
    rw [List.flatMap_cons, escapeDebugChar]
    split
    · exact absurd (by assumption) h.1.1
    · split
      · rename_i h; subst h; exact .esc (by simp) ih
      · split
        · rename_i h; subst h; exact .esc (by simp) ih
        · split
          · rename_i h; subst h; exact .esc (by simp) ih
          · split
            · rename_i h; subst h; exact .esc (by simp) ih
            · split
              · rename_i h; subst h; exact .esc (by simp) ih
              · split
                · split
                  · exact .char (by assumption) (by assumption) ih
                  · exact denotes_unicode (by omega) ih
                · split
                  · exact denotes_unicode (h.1.2 (by assumption)) ih
                  · exact .char (by assumption) (by assumption) ih

/-! ### Lines before a text -/

/-- A line followed by more text. -/
def LineTo : List Word → Str → Prop
  | [], _ => True
  | w :: ws, r => Lexeme w ∧ EndsAt w (textOf ws ++ r) ∧ LineTo ws r

theorem textOf_append (a b : List Word) : textOf (a ++ b) = textOf a ++ textOf b :=
  List.flatMap_append ..

theorem textOf_cons (w : Word) (b : List Word) : textOf (w :: b) = w.2 ++ textOf b := rfl

theorem LineTo.append {a b : List Word} {r : Str} (ha : LineTo a (textOf b ++ r)) (hb : LineTo b r) :
    LineTo (a ++ b) r := by
  induction a with
  | nil => exact hb
  | cons w a ih =>
    have := ha.2.1
    rw [← List.append_assoc, ← textOf_append] at this
    exact ⟨ha.1, this, ih ha.2.2⟩

theorem LineTo.line {a : List Word} (h : LineTo a []) : Line a := by
  induction a with
  | nil => trivial
  | cons w a ih => exact ⟨h.1, by simpa using h.2.1, ih h.2.2⟩

/-- Neighbours may touch. -/
def Apart (ws : List Word) : Prop := ws.IsChain fun a b => ¬ Clash a b

theorem Apart.split {ws : List Word} (h : Apart ws) (u : List Word) (a b : Word) (v : List Word)
    (hw : ws = u ++ a :: b :: v) : ¬ Clash a b := by
  subst hw
  induction u with
  | nil => exact (List.isChain_cons_cons.mp h).1
  | cons x u ih =>
    refine ih ?_
    cases u with
    | nil => exact (List.isChain_cons_cons.mp h).2
    | cons y u => exact (List.isChain_cons_cons.mp h).2

theorem not_clash_left {s : Str} (b : Word) : ¬ Clash (pw s) b := by
  rintro ⟨h, _⟩
  simp [wordLike, pw] at h

theorem not_clash_right {s : Str} (a : Word) : ¬ Clash a (pw s) := by
  rintro ⟨_, h, _⟩
  simp [wordLike, pw] at h

theorem not_clash_space {s : Str} (b : Word) : ¬ Clash (.whitespace, s) b := by
  rintro ⟨h, _⟩
  simp [wordLike] at h

theorem not_clash_space' {s : Str} (a : Word) : ¬ Clash a (.whitespace, s) := by
  rintro ⟨_, h, _⟩
  simp [wordLike] at h

theorem Apart.cons {w : Word} {ws : List Word} (hw : ∀ b, ¬ Clash w b) (h : Apart ws) :
    Apart (w :: ws) := by
  cases ws with
  | nil => exact .singleton _
  | cons b ws => exact .cons_cons (hw b) h

theorem Apart.join {a b : List Word} {w : Word} (ha : Apart a) (hw : ∀ x, ¬ Clash x w)
    (hb : Apart (w :: b)) : Apart (a ++ w :: b) := by
  induction a with
  | nil => exact hb
  | cons x a ih =>
    cases a with
    | nil => exact .cons_cons (hw x) hb
    | cons y a =>
      have := List.isChain_cons_cons.mp ha
      exact .cons_cons this.1 (ih this.2)

/-- These words are the printed form of the value. -/
structure Printed (P : Plat) (e : Expr) (ws : List Word) : Prop where
  text : textOf ws = debug P e
  line : ∀ r, Stops r → LineTo ws r
  apart : Apart ws
  solid : ∃ c r, debug P e = c :: r ∧ c ∉ spaceChars
  derives : G P .two (ws.filter Spec.isSolid) e

theorem G.expr_of_two {P : Plat} {u : List Word} {x : Expr} (h : G P .two u x) : G P .expr u x :=
  .seven (.noCall (.cmp (.rel (.sum (.prod (.two h))))))

theorem filter_solid {w : Word} (h : Spec.isSolid w = true) (ws : List Word) :
    (w :: ws).filter Spec.isSolid = w :: ws.filter Spec.isSolid := by
  rw [List.filter_cons, if_pos h]

theorem printed_word {P : Plat} {e : Expr} {k : TokenKind} (hl : Lexeme (k, debug P e))
    (he : ∀ r, Stops r → EndsAt (k, debug P e) r) (hs : Spec.isSolid (k, debug P e) = true)
    (hc : ∃ c r, debug P e = c :: r ∧ c ∉ spaceChars)
    (hg : G P .base [(k, debug P e)] e) : Printed P e [(k, debug P e)] where
  text := by simp [textOf]
  line r hr := ⟨hl, by simpa [textOf] using he r hr, trivial⟩
  apart := .singleton _
  solid := hc
  derives := by
    rw [filter_solid hs]
    exact .base hg

theorem name_not_space {c : Char} (h : c ∈ nameChars) : c ∉ spaceChars :=
  (show ∀ c ∈ nameChars, c ∉ spaceChars by decide) c h

theorem stops_punct {s : Str} (h : s ∈ [c!",", c!"]", c!")", c!"}", c!" ", c!";"]) (r : Str) : Stops (s ++ r) := by
  simp only [List.mem_cons, List.not_mem_nil, or_false] at h
  rcases h with rfl | rfl | rfl | rfl | rfl | rfl <;>
  · rintro c r hc
    simp only [List.cons_append, List.nil_append, List.cons.injEq] at hc
    rw [← hc.1]
    decide

/-- the elements of a printed list -/
structure PrintedItems (P : Plat) (l : List Expr) (ws : List Word) : Prop where
  text : textOf ws = joinStr c!", " (debugList P l)
  line : ∀ r, Stops r → LineTo ws r
  apart : Apart ws
  solid : ∃ c r, textOf ws = c :: r ∧ c ∉ spaceChars
  derives : G P .items (ws.filter Spec.isSolid) l

theorem printed_items {P : Plat} : ∀ {l : List Expr}, l ≠ [] → (∀ e ∈ l, ∃ ws, Printed P e ws) →
    ∃ ws, PrintedItems P l ws
  | [], h, _ => absurd rfl h
  | [e], _, h => by
    obtain ⟨ws, h⟩ := h e (by simp)
    exact ⟨ws, by rw [h.text]; rfl, h.line, h.apart, by rw [h.text]; exact h.solid,
      .item (G.expr_of_two h.derives)⟩
  | e :: e' :: l, _, h => by
    obtain ⟨u, hu⟩ := h e (by simp)
    obtain ⟨v, hv⟩ := printed_items (l := e' :: l) (by simp) fun x hx => h x (by simp [hx])
    obtain ⟨c, r, hcr, hc⟩ := hv.solid
    refine ⟨u ++ pw c!"," :: (.whitespace, c!" ") :: v, ?_, ?_, ?_, ?_, ?_⟩
    · rw [textOf_append, textOf_cons, textOf_cons, hu.text, hv.text]
      simp only [debugList, joinStr, pw]
      simp
    · intro r hr
      refine .append (hu.line _ ?_) ⟨.punct (by decide), ?_, .space (by simp) (by decide), ?_, hv.line r hr⟩
      · rw [textOf_cons, List.append_assoc]
        exact stops_punct (by decide) _
      · exact fun hm => absurd hm (by decide)
      · show ∀ c r, _ → _
        rw [hcr]
        rintro c' r' h
        rw [List.cons_append] at h
        rw [← (List.cons.inj h).1]
        exact hc
    · exact hu.apart.join (fun x => not_clash_right x)
        (.cons (not_clash_left) (.cons not_clash_space hv.apart))
    · obtain ⟨c, r, hcr, hc⟩ := hu.solid
      exact ⟨c, r ++ textOf (pw c!"," :: (.whitespace, c!" ") :: v),
        by rw [textOf_append, hu.text, hcr]; rfl, hc⟩
    · rw [List.filter_append, filter_solid rfl, List.filter_cons, if_neg (by decide)]
      exact .items (G.expr_of_two hu.derives) hv.derives

theorem lexeme_symbol {x : Str} (h : Lexeme (.symbol, x)) : x ∉ reserved ∧
    ∃ c r, x = c :: r ∧ c ∈ nameChars := by
  cases h with
  | name h1 h2 _ _ _ _ => exact ⟨h2, _, _, rfl, h1 _ (List.mem_cons_self ..)⟩

theorem printed_readable {P : Plat} {e : Expr} (h : Readable P e) : ∃ ws, Printed P e ws := by
  induction h with
  | int n =>
    obtain ⟨h1, h2⟩ := intToStr_lexeme n
    have hne := Lex.lexeme_ne h1
    refine ⟨_, printed_word (k := .integerLiteral) h1 (fun r hr => hr) rfl ?_ (.atom (.int h2))⟩
    rw [debug]
    generalize hz : n.val = z
    cases z with
    | ofNat k =>
      obtain ⟨d, r, h, hd, _⟩ := Lex.canonical_head (natToStr_canonical k)
      exact ⟨d, r, h, name_not_space (Lex.digit_name hd)⟩
    | negSucc k => exact ⟨'-', _, rfl, by decide⟩
  | bool b =>
    cases b with
    | true =>
      exact ⟨_, printed_word (k := .booleanLiteral) (.bool (s := c!"True") (by simp))
        (fun r hr => hr) rfl ⟨'T', _, rfl, by decide⟩ (.atom .true_)⟩
    | false =>
      exact ⟨_, printed_word (k := .booleanLiteral) (.bool (s := c!"False") (by simp))
        (fun r hr => hr) rfl ⟨'F', _, rfl, by decide⟩ (.atom .false_)⟩
  | none =>
    exact ⟨_, printed_word (k := .keyword) (.keyword (s := c!"None") (by simp))
      (fun r hr => hr) rfl ⟨'N', _, rfl, by decide⟩ (.atom .none)⟩
  | @str s h =>
    have hd := denotes_debug h
    refine ⟨_, printed_word (k := .stringLiteral) (e := .str s) (.str hd) (fun _ _ => trivial) rfl
      ⟨'"', _, rfl, by decide⟩ (.atom (.str ⟨_, hd, .inr rfl⟩))⟩
  | @name x h =>
    obtain ⟨h1, c, r, h2, h3⟩ := lexeme_symbol h
    exact ⟨_, printed_word (k := .symbol) (e := .symbol x) h (fun r hr => hr) rfl
      ⟨c, r, h2, name_not_space h3⟩ (.atom (.name h1))⟩
  | @list l h ih =>
    by_cases hl : l = []
    · subst hl
      refine ⟨[pw c!"[", pw c!"]"], rfl, fun r _ => ?_, ?_, ⟨'[', _, rfl, by decide⟩, .base .list0⟩
      · refine ⟨.punct (by decide), ?_, .punct (by decide), ?_, trivial⟩
        · exact fun hm => absurd hm (by decide)
        · exact fun hm => absurd hm (by decide)
      · exact .cons not_clash_left (.singleton _)
    · obtain ⟨ws, hw⟩ := printed_items hl ih
      refine ⟨pw c!"[" :: (ws ++ [pw c!"]"]), ?_, ?_, ?_, ⟨'[', _, rfl, by decide⟩, ?_⟩
      · rw [textOf_cons, textOf_append, hw.text, debug]
        simp [pw, textOf]
      · intro r _
        refine ⟨.punct (by decide), fun hm => absurd hm (by decide), .append (hw.line _ ?_) ?_⟩
        · exact stops_punct (s := c!"]") (by decide) r
        · exact ⟨.punct (by decide), fun hm => absurd hm (by decide), trivial⟩
      · exact .cons not_clash_left (hw.apart.join not_clash_right (.singleton _))
      · rw [filter_solid rfl, List.filter_append, filter_solid rfl]
        exact .base (.list hw.derives)
  | @quote e _ ih =>
    obtain ⟨ws, hw⟩ := ih
    refine ⟨pw c!"'" :: ws, ?_, ?_, ?_, ⟨'\'', _, rfl, by decide⟩, ?_⟩
    · rw [textOf_cons, hw.text, debug]; rfl
    · exact fun r hr => ⟨.punct (by decide), fun hm => absurd hm (by decide), hw.line r hr⟩
    · exact .cons not_clash_left hw.apart
    · rw [filter_solid rfl]
      exact .quote hw.derives
  | @group e _ ih =>
    obtain ⟨ws, hw⟩ := ih
    refine ⟨pw c!"(" :: (ws ++ [pw c!")"]), ?_, ?_, ?_, ⟨'(', _, rfl, by decide⟩, ?_⟩
    · rw [textOf_cons, textOf_append, hw.text, debug]
      simp [pw, textOf]
    · intro r _
      refine ⟨.punct (by decide), fun hm => absurd hm (by decide), .append (hw.line _ ?_) ?_⟩
      · exact stops_punct (s := c!")") (by decide) r
      · exact ⟨.punct (by decide), fun hm => absurd hm (by decide), trivial⟩
    · exact .cons not_clash_left (hw.apart.join not_clash_right (.singleton _))
    · rw [filter_solid rfl, List.filter_append, filter_solid rfl]
      exact .base (.group (G.expr_of_two hw.derives))

theorem stops_nil : Stops [] := fun _ _ h => by simp at h

theorem Printed.reads {P : Plat} {e : Expr} {ws : List Word} (h : Printed P e ws) :
    Words (debug P e) (ws.filter Spec.isSolid) := by
  rw [← h.text]
  exact ⟨ws, Lex.reads_line (h.line [] stops_nil).line h.apart.split, rfl⟩

end Dune
