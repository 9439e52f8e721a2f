import Verif.Proof.Hex
import Verif.Model.Highlight

/-! What the parts of the tokenizer consume. -/

namespace Dune

theorem utf8Len_append (a b : Str) : utf8Len (a ++ b) = utf8Len a + utf8Len b := by
  induction a with
  | nil => simp [utf8Len]
  | cons c a ih => simp [utf8Len, ih, Nat.add_assoc]

theorem utf8Len_eq_zero {s : Str} : utf8Len s = 0 ↔ s = [] := by
  cases s with
  | nil => simp [utf8Len]
  | cons c s =>
    have := c.utf8Size_pos
    simp only [utf8Len, reduceCtorEq, iff_false]
    omega

theorem takeBytes_eq {n : Nat} {s p q : Str} (h : takeBytes n s = some (p, q)) :
    s = p ++ q ∧ utf8Len p = n := by
  induction s generalizing n p q with
  | nil => cases n <;> simp_all [takeBytes, utf8Len]
  | cons c s ih =>
    cases n with
    | zero => simp_all [takeBytes, utf8Len]
    | succ n =>
      simp only [takeBytes] at h
      split at h
      · rename_i hc
        rw [Option.map_eq_some_iff] at h
        obtain ⟨⟨p', q'⟩, h1, h2⟩ := h
        obtain ⟨rfl, h3⟩ := ih h1
        simp only [Prod.mk.injEq] at h2
        obtain ⟨rfl, rfl⟩ := h2
        exact ⟨rfl, by simp only [utf8Len]; omega⟩
      · simp at h

theorem takeBytes_append (p q : Str) : takeBytes (utf8Len p) (p ++ q) = some (p, q) := by
  induction p with
  | nil => cases q <;> rfl
  | cons c p ih =>
    have hc := c.utf8Size_pos
    obtain ⟨n, hn⟩ : ∃ n, utf8Len (c :: p) = n + 1 := ⟨utf8Len (c :: p) - 1, by
      simp only [utf8Len]; omega⟩
    rw [hn, List.cons_append, takeBytes]
    have h1 : c.utf8Size + utf8Len p = n + 1 := hn
    rw [if_pos (by omega), show n + 1 - c.utf8Size = utf8Len p by omega, ih]
    rfl

theorem sliceStr_mid (a b c : Str) :
    sliceStr (a ++ b ++ c) (utf8Len a) (utf8Len a + utf8Len b) = some b := by
  rw [sliceStr, List.append_assoc, takeBytes_append]
  simp only [Nat.le_add_right, if_true]
  rw [Nat.add_sub_cancel_left, takeBytes_append]
  rfl

namespace Lex

section

variable {α β : Type} (f : Input → α → R β)

theorem R.bind_ok (i : Input) (a : α) : (R.ok i a).bind f = f i a := rfl
theorem R.bind_notFound : (R.notFound : R α).bind f = .notFound := rfl
theorem R.bind_panic : (R.panic : R α).bind f = .panic := rfl
theorem R.bind_noFuel : (R.noFuel : R α).bind f = .noFuel := rfl

end

/-- From `i`, consuming the text `t` leads to `r`. -/
def Eats (i : Input) (t : Str) (r : Input) : Prop :=
  i.rest = t ++ r.rest ∧ r.off = i.off + utf8Len t

theorem Eats.refl (i : Input) : Eats i [] i := ⟨rfl, by simp [utf8Len]⟩

theorem Eats.trans {i j k : Input} {s t : Str} (h : Eats i s j) (h' : Eats j t k) :
    Eats i (s ++ t) k :=
  ⟨by rw [h.1, h'.1, List.append_assoc], by rw [h'.2, h.2, utf8Len_append, Nat.add_assoc]⟩

theorem Eats.len {i j : Input} {t : Str} (h : Eats i t j) : i.len = utf8Len t + j.len := by
  rw [Input.len, h.1, utf8Len_append]; rfl

theorem Eats.lt {i j : Input} {t : Str} (h : Eats i t j) (ht : t ≠ []) :
    j.rest.length < i.rest.length := by
  rw [h.1, List.length_append]
  have := List.length_pos_iff.mpr ht
  omega

theorem splitAt_eats {i : Input} {t q : Str} (h : i.rest = t ++ q) :
    i.splitAt (utf8Len t) = .ok ⟨i.off + utf8Len t, q⟩ ⟨i.off, i.off + utf8Len t⟩ ∧
      Eats i t ⟨i.off + utf8Len t, q⟩ := by
  rw [Input.splitAt, h, takeBytes_append]
  exact ⟨rfl, h, rfl⟩

theorem splitUntil_eats {i j : Input} {t : Str} (h : Eats i t j) :
    i.splitUntil j = .ok j ⟨i.off, j.off⟩ := by
  rw [Input.splitUntil, if_pos (by rw [h.len]; omega), h.len, Nat.add_sub_cancel,
    (splitAt_eats h.1).1, ← h.2]

/-- The parser fails, or consumes some text and returns its range. -/
def Lexes (p : Input → R Range) : Prop :=
  ∀ i, p i = .notFound ∨ ∃ r t, t ≠ [] ∧ Eats i t r ∧ p i = .ok r ⟨i.off, r.off⟩

theorem stripPrefix_cases (p : Str) (i : Input) :
    (i.stripPrefix p = .notFound ∧ p.isPrefixOf i.rest = false) ∨
    ∃ r, Eats i p r ∧ i.stripPrefix p = .ok r ⟨i.off, r.off⟩ := by
  rw [Input.stripPrefix]
  by_cases h : p.isPrefixOf i.rest = true
  · right
    rw [if_pos h]
    obtain ⟨q, hq⟩ := List.isPrefixOf_iff_prefix.mp h
    obtain ⟨h1, h2⟩ := splitAt_eats hq.symm
    exact ⟨_, h2, h1⟩
  · left
    exact ⟨if_neg h, Bool.eq_false_iff.mpr h⟩

theorem lexes_punct {p : Str} (hp : p ≠ []) : Lexes (punctuationTag p) := fun i => by
  rcases stripPrefix_cases p i with ⟨h, _⟩ | ⟨r, h1, h2⟩
  · exact .inl h
  · exact .inr ⟨r, p, hp, h1, h2⟩

theorem lexes_keyword {p : Str} (hp : p ≠ []) : Lexes (keywordTag p) := fun i => by
  rw [keywordTag]
  rcases stripPrefix_cases p i with ⟨h, _⟩ | ⟨r, h1, h2⟩
  · rw [h]; exact .inl rfl
  · rw [h2]
    simp only
    split
    · exact .inl rfl
    · exact .inr ⟨r, p, hp, h1, rfl⟩

theorem lexes_alt : ∀ {ps : List (Input → R Range)}, (∀ p ∈ ps, Lexes p) → Lexes (alt ps)
  | [], _, _ => .inl rfl
  | p :: ps, h, i => by
    rw [alt]
    rcases h p (List.mem_cons_self ..) i with h' | ⟨r, t, ht, he, h'⟩
    · rw [h']
      exact lexes_alt (fun q hq => h q (List.mem_cons_of_mem _ hq)) i
    · rw [h']
      exact .inr ⟨r, t, ht, he, rfl⟩

theorem lexes_longOperator : Lexes longOperator := lexes_alt (by
  simp only [List.forall_mem_cons, List.not_mem_nil, false_imp_iff, implies_true, and_true]
  refine ⟨?_, ?_, ?_, ?_, ?_, ?_, ?_, ?_, ?_, ?_, ?_⟩ <;> exact lexes_keyword (by simp))

theorem lexes_anyPunctuation : Lexes anyPunctuation := lexes_alt (by
  simp only [List.forall_mem_cons, List.not_mem_nil, false_imp_iff, implies_true, and_true]
  refine ⟨?_, ?_, ?_, ?_, ?_, ?_, ?_, ?_, ?_, ?_, ?_, ?_⟩ <;>
    first | exact lexes_punct (by simp) | exact lexes_keyword (by simp))

theorem lexes_anyKeyword : Lexes anyKeyword := lexes_alt (by
  simp only [List.forall_mem_cons, List.not_mem_nil, false_imp_iff, implies_true, and_true]
  refine ⟨?_, ?_, ?_, ?_, ?_, ?_, ?_⟩ <;> exact lexes_keyword (by simp))

theorem lexes_shortOperator : Lexes shortOperator := lexes_alt (by
  simp only [List.forall_mem_cons, List.not_mem_nil, false_imp_iff, implies_true, and_true]
  refine ⟨?_, ?_, ?_, ?_, ?_, ?_, ?_, ?_, ?_⟩ <;>
    first | exact lexes_punct (by simp) | exact lexes_keyword (by simp))

theorem lexes_boolLiteral : Lexes boolLiteral := lexes_alt (by
  simp only [List.forall_mem_cons, List.not_mem_nil, false_imp_iff, implies_true, and_true]
  refine ⟨?_, ?_⟩ <;> exact lexes_keyword (by simp))

theorem lexes_symbol : Lexes symbol := fun i => by
  rw [symbol]
  simp only [utf8Len_eq_zero]
  split
  · exact .inl rfl
  · rename_i h
    obtain ⟨h1, h2⟩ := splitAt_eats (i := i) (List.takeWhile_append_dropWhile (p := isSymbolChar)).symm
    exact .inr ⟨_, _, h, h2, h1⟩

theorem utf8Size_ascii {c : Char} (h : c.toNat < 128) : c.utf8Size = 1 := by
  have : c.val.toNat < 128 := h
  have h2 : c.val ≤ 127 := by
    rw [UInt32.le_iff_toNat_le]
    show c.val.toNat ≤ 127
    omega
  simp [Char.utf8Size, h2]

theorem utf8Len_ascii {s : Str} (h : ∀ c ∈ s, c.toNat < 128) : utf8Len s = s.length := by
  induction s with
  | nil => rfl
  | cons c s ih =>
    simp only [List.forall_mem_cons] at h
    simp only [utf8Len, List.length_cons, utf8Size_ascii h.1, ih h.2]
    omega

theorem takeWhile_forall {p : Char → Bool} {q : Char → Prop} (h : ∀ c, p c = true → q c) (s : Str) :
    ∀ c ∈ s.takeWhile p, q c := fun c hc => h c (List.all_eq_true.mp List.all_takeWhile c hc)

theorem isDigit_ascii {c : Char} (h : isDigit c = true) : c.toNat < 128 := by
  simp only [isDigit, Bool.and_eq_true, decide_eq_true_eq] at h
  have h2 : c.toNat ≤ '9'.toNat := h.2
  have : '9'.toNat = 57 := rfl
  omega

theorem isHexDigit_ascii {c : Char} (h : isHexDigit c = true) : c.toNat < 128 := by
  simp only [isHexDigit, Bool.or_eq_true, Bool.and_eq_true, decide_eq_true_eq] at h
  rcases h with (h | h) | h
  · exact isDigit_ascii h
  · have h2 : c.toNat ≤ 'f'.toNat := h.2
    have : 'f'.toNat = 102 := rfl
    omega
  · have h2 : c.toNat ≤ 'F'.toNat := h.2
    have : 'F'.toNat = 70 := rfl
    omega

theorem isAsciiWhitespace_ascii {c : Char} (h : isAsciiWhitespace c = true) : c.toNat < 128 := by
  simp only [isAsciiWhitespace, Bool.or_eq_true, decide_eq_true_eq] at h
  rcases h with (((h | h) | h) | h) | h <;> subst h <;> decide

theorem lexes_whitespace : Lexes whitespace := fun i => by
  rw [whitespace]
  have hl := utf8Len_ascii (takeWhile_forall (fun c => isAsciiWhitespace_ascii) i.rest)
  simp only [← hl, utf8Len_eq_zero]
  split
  · exact .inl rfl
  · rename_i h
    obtain ⟨h1, h2⟩ := splitAt_eats (i := i)
      (List.takeWhile_append_dropWhile (p := isAsciiWhitespace)).symm
    exact .inr ⟨_, _, h, h2, h1⟩

theorem lexes_comment : Lexes comment := fun i => by
  rw [comment]
  split
  · rename_i cs hcs
    obtain ⟨h1, h2⟩ := splitAt_eats (i := i)
      (List.takeWhile_append_dropWhile (p := fun c => !(c = '\r' || c = '\n'))).symm
    exact .inr ⟨_, _, by rw [hcs]; simp, h2, h1⟩
  · exact .inl rfl

/-- Ranges that lie one after the other in the text `t`, which starts at `off`, on character
boundaries. -/
inductive Pieces : Nat → Str → List Range → Prop
  | nil {off t} : Pieces off t []
  | cons {off t rs} (a b : Str) : Pieces (off + utf8Len a + utf8Len b) t rs →
      Pieces off (a ++ b ++ t) (⟨off + utf8Len a, off + utf8Len a + utf8Len b⟩ :: rs)

theorem Pieces.skip {off : Nat} {s t : Str} {rs : List Range} (h : Pieces (off + utf8Len s) t rs) :
    Pieces off (s ++ t) rs := by
  generalize ho : off + utf8Len s = o at h
  cases h with
  | nil => exact .nil
  | cons a b h =>
    subst ho
    have h2 : Pieces off ((s ++ a) ++ b ++ _) _ := Pieces.cons (s ++ a) b (by
      rw [utf8Len_append]; rw [Nat.add_assoc off (utf8Len s)] at h; exact h)
    rw [utf8Len_append, ← Nat.add_assoc off] at h2
    simpa only [List.append_assoc] using h2

theorem Pieces.extend {off : Nat} {t : Str} {rs : List Range} (h : Pieces off t rs) (s : Str) :
    Pieces off (t ++ s) rs := by
  induction h with
  | nil => exact .nil
  | cons a b _ ih => rw [List.append_assoc]; exact .cons a b ih

/-- Somewhere a backslash stands right before a character that is not ASCII. -/
def BadEscape (s : Str) : Prop := ∃ a c b, s = a ++ '\\' :: c :: b ∧ 128 ≤ c.toNat

theorem BadEscape.skip {s : Str} (t : Str) (h : BadEscape s) : BadEscape (t ++ s) := by
  obtain ⟨a, c, b, rfl, hc⟩ := h
  exact ⟨t ++ a, c, b, by rw [List.append_assoc], hc⟩

theorem parseHexDigit_cases (i : Input) : parseHexDigit i = .notFound ∨
    ∃ c r, isHexDigit c = true ∧ Eats i [c] r ∧ parseHexDigit i = .ok r ⟨i.off, r.off⟩ := by
  rw [parseHexDigit]
  split
  · rename_i c cs hcs
    split
    · rename_i hc
      have h1 : utf8Len [c] = 1 := by simp [utf8Len, utf8Size_ascii (isHexDigit_ascii hc)]
      obtain ⟨h2, h3⟩ := splitAt_eats (i := i) (t := [c]) (q := cs) hcs
      rw [h1] at h2 h3
      exact .inr ⟨c, _, hc, h3, h2⟩
    · exact .inl rfl
  · exact .inl rfl

theorem manyHex_ok : ∀ (n : Nat) (i : Input), ∃ t r, (∀ c ∈ t, isHexDigit c = true) ∧
    t.length ≤ n ∧ Eats i t r ∧ manyHex n i = .ok r ()
  | 0, i => ⟨[], i, by simp, by simp, .refl i, rfl⟩
  | n + 1, i => by
    rw [manyHex]
    rcases parseHexDigit_cases i with h | ⟨c, r, hc, he, h⟩
    · rw [h]
      exact ⟨[], i, by simp, by simp, .refl i, rfl⟩
    · rw [h]
      obtain ⟨t, r', ht, hl, he', h'⟩ := manyHex_ok n r
      exact ⟨c :: t, r', by simpa using ⟨hc, ht⟩, by simpa using hl, he.trans he', h'⟩

theorem hexDigits_cases (i : Input) : hexDigits i = .notFound ∨
    ∃ t r, t ≠ [] ∧ t.length ≤ 5 ∧ (∀ c ∈ t, isHexDigit c = true) ∧ Eats i t r ∧
      hexDigits i = .ok r ⟨i.off, r.off⟩ := by
  rw [hexDigits]
  rcases parseHexDigit_cases i with h | ⟨c, r, hc, he, h⟩
  · rw [h]; exact .inl rfl
  · rw [h]
    obtain ⟨t, r', ht, hl, he', h'⟩ := manyHex_ok 4 r
    refine .inr ⟨c :: t, r', by simp, by simpa using hl, by simpa using ⟨hc, ht⟩, he.trans he', ?_⟩
    simp only [R.bind_ok, h']

theorem alt_punct_cases (i : Input) : ∀ l : List Str, alt (l.map punctuationTag) i = .notFound ∨
    ∃ p ∈ l, ∃ r, Eats i p r ∧ alt (l.map punctuationTag) i = .ok r ⟨i.off, r.off⟩
  | [] => .inl rfl
  | p :: l => by
    rw [List.map_cons, alt]
    rcases stripPrefix_cases p i with ⟨h, _⟩ | ⟨r, h1, h2⟩
    · rw [punctuationTag, h]
      rcases alt_punct_cases i l with h' | ⟨q, hq, r, h'⟩
      · exact .inl h'
      · exact .inr ⟨q, List.mem_cons_of_mem _ hq, r, h'⟩
    · rw [punctuationTag, h2]
      exact .inr ⟨p, List.mem_cons_self .., r, h1, rfl⟩

/-- What `parse_escape` can do on input that starts with a backslash. -/
theorem parseEscape_cases {i : Input} {cs : Str} (hi : i.rest = '\\' :: cs) :
    (parseEscape i = .panic ∧ BadEscape i.rest) ∨
    ∃ r t, t ≠ [] ∧ Eats i t r ∧ ((parseEscape i = .ok r .valid ∧
      ∃ x, ∀ s v, Denotes s v → Denotes (t ++ s) (x :: v)) ∨
      ∃ a b c, t = a ++ b ++ c ∧ parseEscape i = .ok r (.invalidStringEscapes
        [⟨i.off + utf8Len a, i.off + utf8Len a + utf8Len b⟩])) := by
  rw [parseEscape]
  rcases stripPrefix_cases c!"\\" i with ⟨_, h⟩ | ⟨r, he, h⟩
  · rw [hi] at h
    simp at h
  rw [punctuationTag, h]
  simp only [R.bind_ok]
  have hr : r.rest = cs := by
    have := he.1
    rw [hi] at this
    simpa using this.symm
  have h7 := alt_punct_cases r [c!"\"", c!"\\", c!"b", c!"f", c!"n", c!"r", c!"t"]
  simp only [List.map_cons, List.map_nil] at h7
  rcases h7 with h7 | ⟨p, hp, r', he', h7⟩
  rotate_left
  · rw [h7]
    refine .inr ⟨r', _, by simp, he.trans he', .inl ⟨rfl, ?_⟩⟩
    simp only [List.mem_cons, List.not_mem_nil, or_false] at hp
    rcases hp with rfl | rfl | rfl | rfl | rfl | rfl | rfl
    all_goals exact ⟨_, fun s v h => .esc (by simp; rfl) h⟩
  rw [h7]
  simp only
  have hsat : (i.splitSaturating 2 = .panic ∧ BadEscape i.rest) ∨
      ∃ r t, t ≠ [] ∧ Eats i t r ∧ i.splitSaturating 2 = .ok r ⟨i.off, i.off + utf8Len t⟩ := by
    have hb : utf8Len c!"\\" = 1 := by decide
    cases cs with
    | nil =>
      right
      obtain ⟨h1, h2⟩ := splitAt_eats (i := i) (t := c!"\\") (q := []) hi
      refine ⟨_, _, by simp, h2, ?_⟩
      rw [Input.splitSaturating, Input.len, hi, hb]
      rw [hb] at h1
      exact h1
    | cons c cs =>
      have hc := c.utf8Size_pos
      have hm : min 2 i.len = 2 := by
        rw [Input.len, hi]
        simp only [utf8Len]
        have : ('\\' : Char).utf8Size = 1 := by decide
        omega
      rw [Input.splitSaturating, hm]
      by_cases hcs : c.toNat < 128
      · right
        obtain ⟨h1, h2⟩ := splitAt_eats (i := i) (t := ['\\', c]) (q := cs) hi
        have h3 : utf8Len ['\\', c] = 2 := by
          simp only [utf8Len, utf8Size_ascii hcs]
          decide
        rw [h3] at h1 h2
        exact ⟨_, ['\\', c], by simp, h2, by rw [h3]; exact h1⟩
      · left
        refine ⟨?_, [], c, cs, hi, by omega⟩
        have h2 : ¬ c.utf8Size ≤ 1 := by
          intro h
          have := Char.utf8Size_eq_one_iff.mp (show c.utf8Size = 1 by omega)
          rw [UInt32.le_iff_toNat_le] at this
          have h127 : (127 : UInt32).toNat = 127 := rfl
          have : c.toNat ≤ 127 := by simpa [h127] using this
          omega
        have h1 : ('\\' : Char).utf8Size = 1 := by decide
        rw [Input.splitAt, hi]
        simp [takeBytes, h1, h2]
  have hfall : ∀ (x : R Range), x = i.splitSaturating 2 →
      ((x.bind fun r range => R.ok r (Diagnostic.invalidStringEscapes [range])) = R.panic ∧ BadEscape i.rest) ∨
      ∃ r t, t ≠ [] ∧ Eats i t r ∧
        (((x.bind fun r range => R.ok r (Diagnostic.invalidStringEscapes [range])) =
            R.ok r Diagnostic.valid ∧ ∃ x, ∀ s v, Denotes s v → Denotes (t ++ s) (x :: v)) ∨
        ∃ a b c, t = a ++ b ++ c ∧
          (x.bind fun r range => R.ok r (Diagnostic.invalidStringEscapes [range])) =
            .ok r (.invalidStringEscapes
              [⟨i.off + utf8Len a, i.off + utf8Len a + utf8Len b⟩])) := by
    rintro _ rfl
    rcases hsat with ⟨h1, h2⟩ | ⟨r, t, ht, he, h1⟩
    · exact .inl ⟨by rw [h1]; rfl, h2⟩
    · refine .inr ⟨r, t, ht, he, .inr ⟨[], t, [], by simp, ?_⟩⟩
      rw [h1]
      simp [R.bind, utf8Len]
  rcases stripPrefix_cases c!"u{" r with ⟨h1, _⟩ | ⟨r1, he1, h1⟩
  · rw [show punctuationTag c!"u{" r = _ from h1]
    exact hfall _ rfl
  rw [show punctuationTag c!"u{" r = _ from h1]
  simp only [R.bind_ok]
  rcases hexDigits_cases r1 with h2 | ⟨t2, r2, ht2, hl2, hd2, he2, h2⟩
  · rw [h2]
    exact hfall _ rfl
  rw [h2]
  simp only [R.bind_ok]
  have heu := (he.trans he1).trans he2
  have hhex : r1.rest.take (r2.off - r1.off) = t2 := by
    rw [he2.2, Nat.add_sub_cancel_left, utf8Len_ascii fun c hc => isHexDigit_ascii (hd2 c hc), he2.1,
      List.take_left]
  rw [hhex]
  split
  · rcases stripPrefix_cases c!"}" r2 with ⟨h3, _⟩ | ⟨r3, he3, h3⟩
    · rw [show punctuationTag c!"}" r2 = _ from h3]
      simp only
      rw [splitUntil_eats heu]
      refine .inr ⟨r2, _, by simp, heu, .inr ⟨[], _, [], by rw [List.nil_append, List.append_nil], ?_⟩⟩
      simp [R.bind, utf8Len, heu.2]
    · rw [show punctuationTag c!"}" r2 = _ from h3]
      rename_i hsc
      refine .inr ⟨r3, _, by simp, heu.trans he3, .inl ⟨rfl, Char.ofNat (hexNum t2), fun s v h => ?_⟩⟩
      exact .unicode ht2 hl2 (hex_of_digits rfl hd2) ((isScalar_iff _).1 hsc) h
  · refine .inr ⟨r2, _, by simp, heu, .inr ⟨c!"\\" ++ c!"u{", t2, [], by
      rw [List.append_nil], ?_⟩⟩
    rw [(he.trans he1).2, heu.2, utf8Len_append (_ ++ _) t2, Nat.add_assoc i.off (utf8Len (_ ++ _))]

/-- What `parse_string_inner` does. -/
theorem stringInner_cases : ∀ (fuel : Nat) (i : Input) (errors : List Range),
    i.rest.length < fuel → (stringInner fuel i errors = .panic ∧ BadEscape i.rest) ∨
    ∃ r t new, Eats i t r ∧ (r.rest = [] ∨ ∃ cs, r.rest = '"' :: cs) ∧ Pieces i.off t new ∧
      (new = [] → ∃ v, Denotes t v) ∧ stringInner fuel i errors = .ok r (errors ++ new)
  | 0, _, _, h => absurd h (by omega)
  | fuel + 1, i, errors, hf => by
    rw [stringInner]
    split
    · rename_i h
      exact .inr ⟨i, [], [], .refl i, .inl h, .nil, fun _ => ⟨[], .nil⟩, by simp⟩
    · rename_i c cs hcs
      split
      · rename_i hc
        exact .inr ⟨i, [], [], .refl i, .inr ⟨cs, hc ▸ hcs⟩, .nil, fun _ => ⟨[], .nil⟩, by simp⟩
      split
      · rename_i hc
        subst hc
        rcases parseEscape_cases hcs with ⟨h1, h2⟩ | ⟨r, t, ht, he, h1⟩
        · rw [h1]; exact .inl ⟨rfl, h2⟩
        have hlt := he.lt ht
        rcases h1 with ⟨h1, x, hx⟩ | ⟨a, b, c, habc, h1⟩
        · rw [h1]
          simp only [R.bind_ok]
          rcases stringInner_cases fuel r errors (by omega) with
            ⟨h2, h3⟩ | ⟨r', t', new, he', hr', hp, hv, h2⟩
          · exact .inl ⟨h2, by rw [he.1]; exact h3.skip t⟩
          · refine .inr ⟨r', t ++ t', new, he.trans he', hr', Pieces.skip (by rw [← he.2]; exact hp),
              fun hn => ?_, h2⟩
            obtain ⟨v, hv⟩ := hv hn
            exact ⟨x :: v, hx _ _ hv⟩
        · rw [h1]
          simp only [R.bind_ok]
          rcases stringInner_cases fuel r (errors ++ [⟨i.off + utf8Len a, i.off + utf8Len a + utf8Len b⟩])
            (by omega) with ⟨h2, h3⟩ | ⟨r', t', new, he', hr', hp, _, h2⟩
          · exact .inl ⟨h2, by rw [he.1]; exact h3.skip t⟩
          · refine .inr ⟨r', t ++ t', _ :: new, he.trans he', hr', ?_, by simp, by
              rw [h2, List.append_assoc, List.singleton_append]⟩
            subst habc
            have hp' : Pieces (i.off + utf8Len a + utf8Len b) (c ++ t') new := Pieces.skip (by
              have := he.2
              rw [utf8Len_append, utf8Len_append, ← Nat.add_assoc, ← Nat.add_assoc] at this
              rw [← this]; exact hp)
            simpa only [List.append_assoc] using Pieces.cons a b hp'
      · obtain ⟨h1, he⟩ := splitAt_eats (i := i) (t := [c]) (q := cs) hcs
        have h0 : utf8Len [c] = c.utf8Size := by simp [utf8Len]
        rw [h0] at h1 he
        rw [h1]
        simp only [R.bind_ok]
        rcases stringInner_cases fuel _ errors (by
          have := he.lt (by simp)
          exact Nat.lt_of_lt_of_le this (by omega)) with
          ⟨h2, h3⟩ | ⟨r', t', new, he', hr', hp, hv, h2⟩
        · exact .inl ⟨h2, by rw [he.1]; exact h3.skip [c]⟩
        · refine .inr ⟨r', [c] ++ t', new, he.trans he', hr', Pieces.skip (by rw [← he.2]; exact hp),
            fun hn => ?_, h2⟩
          obtain ⟨v, hv⟩ := hv hn
          exact ⟨c :: v, .char ‹_› ‹_› hv⟩

/-- How the diagnostic of a token describes its text `t`, which starts at `off`. -/
inductive DiagOk (off : Nat) (t : Str) : TokenKind → Diagnostic → Prop
  | valid {k} : (k = .stringLiteral → ∃ v, StrLit t v) → DiagOk off t k .valid
  | escapes {rs} : rs ≠ [] → Pieces off t rs → DiagOk off t .stringLiteral (.invalidStringEscapes rs)
  | number : DiagOk off t .floatLiteral (.invalidNumber ⟨off, off + utf8Len t⟩)
  | char : DiagOk off t .symbol (.illegalChar ⟨off, off + utf8Len t⟩)

/-- The parser fails, panics at a bad escape, or consumes some text and returns its token. -/
def LexesT (p : Input → R (Token × Diagnostic)) : Prop :=
  ∀ i, p i = .notFound ∨ (p i = .panic ∧ BadEscape i.rest) ∨ ∃ r t k d, t ≠ [] ∧ Eats i t r ∧
    DiagOk i.off t k d ∧ p i = .ok r (⟨k, ⟨i.off, r.off⟩⟩, d)

theorem lexesT_valid {p : Input → R Range} (h : Lexes p) {k : TokenKind} (hk : k ≠ .stringLiteral) :
    LexesT (validToken p k) :=
  fun i => by
    rw [validToken]
    rcases h i with h | ⟨r, t, ht, he, h⟩
    · rw [h]; exact .inl rfl
    · rw [h]; exact .inr (.inr ⟨r, t, k, _, ht, he, .valid (absurd · hk), rfl⟩)

theorem lexesT_string : LexesT stringLiteral := fun i => by
  rw [stringLiteral]
  rcases stripPrefix_cases c!"\"" i with ⟨h, _⟩ | ⟨r, he, h⟩
  · rw [show punctuationTag c!"\"" i = _ from h]; exact .inl rfl
  rw [show punctuationTag c!"\"" i = _ from h]
  simp only [R.bind_ok]
  rcases stringInner_cases (r.rest.length + 1) r [] (by omega) with
    ⟨h1, h2⟩ | ⟨r1, t1, new, he1, hr1, hp, hv, h1⟩
  · rw [h1]
    exact .inr (.inl ⟨rfl, by rw [he.1]; exact h2.skip _⟩)
  rw [h1]
  simp only [List.nil_append, R.bind_ok]
  have key : ∀ r2 t2, Eats i t2 r2 → t2 ≠ [] → Pieces i.off t2 new →
      (new = [] → ∃ v, StrLit t2 v) → ∃ r t k d, t ≠ [] ∧ Eats i t r ∧ DiagOk i.off t k d ∧
        ((i.splitUntil r2).bind fun r range => R.ok r ((⟨.stringLiteral, range⟩ : Token),
            if new = [] then Diagnostic.valid else .invalidStringEscapes new)) =
          .ok r (⟨k, ⟨i.off, r.off⟩⟩, d) := by
    intro r2 t2 h2 ht hp2 hv2
    rw [splitUntil_eats h2]
    refine ⟨r2, t2, _, _, ht, h2, ?_, rfl⟩
    split
    · rename_i hn
      exact .valid fun _ => hv2 hn
    · rename_i hn
      exact .escapes hn hp2
  have hp1 : Pieces i.off (c!"\"" ++ t1) new := Pieces.skip (by rw [← he.2]; exact hp)
  right; right
  rcases hr1 with hr1 | ⟨cs, hr1⟩
  · rcases stripPrefix_cases c!"\"" r1 with ⟨h2, _⟩ | ⟨r2, he2, _⟩
    · simp only [alt, show punctuationTag c!"\"" r1 = _ from h2, hr1, if_true]
      refine key r1 _ (he.trans he1) (by simp) hp1 fun hn => ?_
      obtain ⟨v, hv⟩ := hv hn
      exact ⟨v, t1, hv, .inl rfl⟩
    · have := he2.1
      rw [hr1] at this
      simp at this
  · rcases stripPrefix_cases c!"\"" r1 with ⟨_, h2⟩ | ⟨r2, he2, h2⟩
    · rw [hr1] at h2
      simp at h2
    · simp only [alt, show punctuationTag c!"\"" r1 = _ from h2]
      refine key r2 _ ((he.trans he1).trans he2) (by simp) (hp1.extend _) fun hn => ?_
      obtain ⟨v, hv⟩ := hv hn
      exact ⟨v, t1, hv, .inr rfl⟩

theorem places_split (i : Input) : ∃ t r, (∀ c ∈ t, isDigit c = true) ∧
    t.length = places i.rest ∧ Eats i t r ∧ i.splitAt (places i.rest) = .ok r ⟨i.off, r.off⟩ := by
  have hl := utf8Len_ascii (takeWhile_forall (fun c => isDigit_ascii) i.rest)
  obtain ⟨h1, h2⟩ := splitAt_eats (i := i) (List.takeWhile_append_dropWhile (p := isDigit)).symm
  refine ⟨i.rest.takeWhile isDigit, _, takeWhile_forall (fun _ h => h) _, rfl, h2, ?_⟩
  rw [places, ← hl]
  exact h1

theorem lexesT_number : LexesT numberLiteral := fun i => by
  rw [numberLiteral]
  obtain ⟨r0, t0, he0, h0⟩ : ∃ r t, Eats i t r ∧ (i.stripPrefix c!"-").orElse (i.splitAt 0) = .ok r ⟨i.off, r.off⟩ := by
    rcases stripPrefix_cases c!"-" i with ⟨h, _⟩ | ⟨r, he, h⟩
    · rw [h]
      obtain ⟨h1, h2⟩ := splitAt_eats (i := i) (t := []) (q := i.rest) rfl
      exact ⟨_, _, h2, h1⟩
    · rw [h]
      exact ⟨r, _, he, rfl⟩
  rw [h0]
  simp only [R.bind_ok]
  obtain h1 | ⟨r1, t1, ht1, he1, h1⟩ : (r0.stripPrefix c!"0").orElse
        (if places r0.rest > 0 then r0.splitAt (places r0.rest) else .notFound) = .notFound ∨
      ∃ r t, t ≠ [] ∧ Eats r0 t r ∧ (r0.stripPrefix c!"0").orElse
        (if places r0.rest > 0 then r0.splitAt (places r0.rest) else .notFound) =
          .ok r ⟨r0.off, r.off⟩ := by
    rcases stripPrefix_cases c!"0" r0 with ⟨h, _⟩ | ⟨r, he, h⟩
    · rw [h]
      simp only [R.orElse]
      split
      · rename_i hp
        obtain ⟨t, r, _, hl, he, h'⟩ := places_split r0
        exact .inr ⟨r, t, by rintro rfl; simp at hl; omega, he, h'⟩
      · exact .inl rfl
    · rw [h]
      exact .inr ⟨r, _, by simp, he, rfl⟩
  · rw [h1]; exact .inl rfl
  rw [h1]
  simp only [R.bind_ok]
  right; right
  have he01 := he0.trans he1
  have hne : ∀ x : Str, t0 ++ t1 ++ x ≠ [] := by simp [ht1]
  rcases stripPrefix_cases c!"." r1 with ⟨h2, _⟩ | ⟨r2, he2, h2⟩
  · rw [h2]
    simp only
    rw [splitUntil_eats he01]
    exact ⟨r1, _, _, _, by simpa using hne [], he01, .valid (by simp), rfl⟩
  rw [h2]
  simp only
  have he02 := he01.trans he2
  split
  · rw [splitUntil_eats he02]
    refine ⟨r2, _, _, _, hne _, he02, ?_, rfl⟩
    rw [he02.2]
    exact .number
  · obtain ⟨t3, r3, _, _, he3, h3⟩ := places_split r2
    rw [h3]
    simp only [R.bind_ok]
    have he03 := he02.trans he3
    rw [splitUntil_eats he03]
    exact ⟨r3, _, _, _, by rw [List.append_assoc]; exact hne _, he03, .valid (by simp), rfl⟩

theorem lexesT_alt : ∀ {ps : List (Input → R (Token × Diagnostic))}, (∀ p ∈ ps, LexesT p) →
    LexesT (alt ps)
  | [], _, _ => .inl rfl
  | p :: ps, h, i => by
    rw [alt]
    rcases h p (List.mem_cons_self ..) i with h' | ⟨h', hb⟩ | ⟨r, t, k, d, ht, he, hd, h'⟩
    · rw [h']
      exact lexesT_alt (fun q hq => h q (List.mem_cons_of_mem _ hq)) i
    · rw [h']
      exact .inr (.inl ⟨rfl, hb⟩)
    · rw [h']
      exact .inr (.inr ⟨r, t, k, d, ht, he, hd, rfl⟩)

/-- `parse_token` fails only at the end of the input. -/
theorem parseToken_cases (i : Input) : (i.rest = [] ∧ parseToken i = .notFound) ∨
    (parseToken i = .panic ∧ BadEscape i.rest) ∨ ∃ r t k d, t ≠ [] ∧ Eats i t r ∧
      DiagOk i.off t k d ∧ parseToken i = .ok r (⟨k, ⟨i.off, r.off⟩⟩, d) := by
  rw [parseToken]
  split
  · rename_i h
    exact .inl ⟨h, rfl⟩
  · rename_i c cs hcs
    right
    have hall : LexesT (alt [validToken longOperator .operator,
        validToken anyPunctuation .punctuation,
        validToken anyKeyword .keyword, validToken shortOperator .operator,
        validToken boolLiteral .booleanLiteral, validToken comment .comment, stringLiteral,
        numberLiteral, validToken symbol .symbol, validToken whitespace .whitespace]) :=
      lexesT_alt (by
        simp only [List.forall_mem_cons, List.not_mem_nil, false_imp_iff, implies_true, and_true]
        exact ⟨lexesT_valid lexes_longOperator (by simp), lexesT_valid lexes_anyPunctuation (by simp),
          lexesT_valid lexes_anyKeyword (by simp), lexesT_valid lexes_shortOperator (by simp),
          lexesT_valid lexes_boolLiteral (by simp), lexesT_valid lexes_comment (by simp), lexesT_string,
          lexesT_number, lexesT_valid lexes_symbol (by simp), lexesT_valid lexes_whitespace (by simp)⟩)
    rcases hall i with h | ⟨h, hb⟩ | ⟨r, t, k, d, ht, he, hd, h⟩
    · rw [h]
      simp only
      obtain ⟨h1, he⟩ := splitAt_eats (i := i) (t := [c]) (q := cs) hcs
      have h0 : utf8Len [c] = c.utf8Size := by simp [utf8Len]
      rw [h0] at h1 he
      rw [h1]
      refine .inr ⟨_, [c], _, _, by simp, he, ?_, rfl⟩
      have := DiagOk.char (off := i.off) (t := [c])
      rw [h0] at this
      exact this
    · rw [h]; exact .inl ⟨rfl, hb⟩
    · rw [h]; exact .inr ⟨r, t, k, d, ht, he, hd, rfl⟩

/-- The tokens and diagnostics of a text that starts at `off`. -/
inductive Tiles : Nat → Str → List Token → List Diagnostic → Prop
  | nil {off} : Tiles off [] [] []
  | cons {off s ts ds} {t : Str} {k : TokenKind} {d : Diagnostic} : t ≠ [] → DiagOk off t k d →
      Tiles (off + utf8Len t) s ts ds →
      Tiles off (t ++ s) (⟨k, ⟨off, off + utf8Len t⟩⟩ :: ts) (d :: ds)

theorem parseTokens_cases : ∀ (fuel : Nat) (i : Input) (ts : List Token) (ds : List Diagnostic),
    i.rest.length < fuel → (parseTokens fuel i ts ds = .panic ∧ BadEscape i.rest) ∨
    ∃ ts' ds', Tiles i.off i.rest ts' ds' ∧ parseTokens fuel i ts ds = .ok (ts ++ ts', ds ++ ds')
  | 0, _, _, _, h => absurd h (by omega)
  | fuel + 1, i, ts, ds, hf => by
    rw [parseTokens]
    rcases parseToken_cases i with ⟨h1, h⟩ | ⟨h, hb⟩ | ⟨r, t, k, d, ht, he, hd, h⟩
    · rw [h]
      simp only
      rw [if_pos h1, h1]
      exact .inr ⟨[], [], .nil, by simp⟩
    · rw [h]
      exact .inl ⟨rfl, hb⟩
    · rw [h]
      simp only
      have hlt := he.lt ht
      rcases parseTokens_cases fuel r (ts ++ [⟨k, ⟨i.off, r.off⟩⟩]) (ds ++ [d]) (by omega) with
        ⟨h2, hb⟩ | ⟨ts', ds', htl, h2⟩
      · exact .inl ⟨h2, by rw [he.1]; exact hb.skip t⟩
      · refine .inr ⟨⟨k, ⟨i.off, r.off⟩⟩ :: ts', d :: ds', ?_, by
          rw [h2, List.append_assoc, List.append_assoc]; rfl⟩
        rw [he.1]
        rw [he.2] at htl ⊢
        exact .cons ht hd htl

end Lex

theorem tokenizeN_cases {fuel : Nat} {s : Str} (h : s.length < fuel) :
    (tokenizeN fuel s = .panic ∧ Lex.BadEscape s) ∨
    ∃ ts ds, Lex.Tiles 0 s ts ds ∧ tokenizeN fuel s = .ok (ts, ds) := by
  simpa [tokenizeN] using Lex.parseTokens_cases fuel ⟨0, s⟩ [] [] h

end Dune
