import Verif.Proof.Scan
import Verif.Proof.Grammar
import Verif.Model.Fmt

/-! Decimal numbers: what they denote, and how the parser reads them. -/

namespace Dune

open Spec

/-! ### Printing -/

theorem natDigitsAux_eq (fuel n : Nat) (acc : Str) :
    natDigitsAux fuel n acc = Nat.toDigitsCore 10 fuel n acc := by
  induction fuel generalizing n acc with
  | zero => rfl
  | succ fuel ih =>
    have hd : Char.ofNat (48 + n % 10) = Nat.digitChar (n % 10) :=
      (show ∀ k < 10, Char.ofNat (48 + k) = Nat.digitChar k by decide) _ (Nat.mod_lt _ (by decide))
    rw [natDigitsAux, Nat.toDigitsCore, ih, hd]

/-- Numbers are printed in decimal. -/
theorem natToStr_eq (n : Nat) : natToStr n = (toString n).toList := by
  rw [natToStr, natDigitsAux_eq]
  exact Nat.toList_repr.symm

theorem intToStr_eq (z : Int) : intToStr z = (toString z).toList := by
  cases z with
  | ofNat n => exact natToStr_eq n
  | negSucc n =>
    rw [intToStr, natToStr_eq]
    show _ = (String.append "-" (toString (n + 1))).toList
    rw [show String.append "-" (toString (n + 1)) = "-" ++ toString (n + 1) from rfl,
      String.toList_append]
    rfl

theorem toDigits_digits (n : Nat) : ∀ c ∈ Nat.toDigits 10 n, c ∈ digitChars := by
  intro c hc
  have h := Nat.isDigit_of_mem_toDigits (by decide) (by decide) hc
  rw [← Lex.isDigit_iff]
  simp only [Char.isDigit, Bool.and_eq_true, decide_eq_true_eq] at h
  simp only [Lex.isDigit, Bool.and_eq_true, decide_eq_true_eq]
  exact ⟨h.1, h.2⟩

theorem toDigits_head {n : Nat} (hn : 0 < n) : ∃ d r, Nat.toDigits 10 n = d :: r ∧ d ≠ '0' := by
  induction n using Nat.strongRecOn with
  | _ n ih =>
    by_cases h : n < 10
    · rw [Nat.toDigits_of_lt_base h]
      refine ⟨_, _, rfl, ?_⟩
      exact (show ∀ k < 10, 0 < k → Nat.digitChar k ≠ '0' by decide) n h hn
    · rw [Nat.toDigits_of_base_le (by decide) (by omega)]
      obtain ⟨d, r, h1, h2⟩ := ih (n / 10) (by omega) (by omega)
      exact ⟨d, _, by rw [h1]; rfl, h2⟩

theorem natToStr_toDigits (n : Nat) : natToStr n = Nat.toDigits 10 n := by
  rw [natToStr_eq]
  exact Nat.toList_repr

theorem natToStr_canonical (n : Nat) : Canonical (natToStr n) := by
  rw [natToStr_toDigits]
  by_cases hn : n = 0
  · subst hn
    exact .inl (Nat.toDigits_zero 10)
  · obtain ⟨d, r, h1, h2⟩ := toDigits_head (n := n) (by omega)
    refine .inr ⟨d, r, h1, h2, ?_⟩
    rw [← h1]
    exact toDigits_digits n

theorem decimal_natToStr (n : Nat) : decimal (natToStr n) = n := by
  rw [natToStr_toDigits]
  have := Nat.ofDigitChars_toDigits (b := 10) (n := n) (by decide) (by decide)
  simpa [decimal, Nat.ofDigitChars] using this

/-! ### Reading -/

theorem digitsVal_eq : ∀ {ds : Str} {acc : Nat}, (∀ c ∈ ds, c ∈ digitChars) →
    digitsVal ds acc = some (ds.foldl (fun n c => 10 * n + (c.toNat - 48)) acc)
  | [], _, _ => rfl
  | c :: ds, acc, h => by
    simp only [List.forall_mem_cons] at h
    have hd : isDigit c = true :=
      (show ∀ c ∈ digitChars, isDigit c = true by decide) c h.1
    rw [digitsVal, if_pos hd, digitsVal_eq h.2, List.foldl_cons, Nat.mul_comm]

theorem parseI64_eq {sign ds : Str} (hs : sign ∈ [[], c!"-"]) (hne : ds ≠ [])
    (h : ∀ c ∈ ds, c ∈ digitChars) : parseI64 (sign ++ ds) = I64.ofInt? (signed sign ds) := by
  simp only [List.mem_cons, List.not_mem_nil, or_false] at hs
  cases ds with
  | nil => exact absurd rfl hne
  | cons c ds =>
    rcases hs with rfl | rfl
    · have h1 : c ≠ '-' := by
        rintro rfl
        exact absurd (h _ (List.mem_cons_self ..)) (by decide)
      have h2 : c ≠ '+' := by
        rintro rfl
        exact absurd (h _ (List.mem_cons_self ..)) (by decide)
      rw [List.nil_append, parseI64.eq_def]
      split <;> simp_all
      rw [digitsVal_eq (by simpa using h), Option.bind_some, signed, if_pos rfl]
      rfl
    · have : parseI64 ('-' :: c :: ds) = (digitsVal (c :: ds) 0).bind fun n => I64.ofInt? (-(n : Int)) := by
        rw [parseI64.eq_def]
        split <;> simp_all
      rw [List.cons_append, List.nil_append, this, digitsVal_eq h, Option.bind_some, signed, if_neg (by simp)]
      rfl

theorem ofInt_some {z : Int} (n : I64) (h : n.val = z) : I64.ofInt? z = some n := by
  subst h
  rw [I64.ofInt?, dif_pos ⟨n.lo, n.hi⟩]

/-- A printed integer is a word, and has the value of the integer. -/
theorem intToStr_lexeme (n : I64) : Lexeme (.integerLiteral, intToStr n.val) ∧
    parseI64 (intToStr n.val) = some n := by
  obtain ⟨z, lo, hi⟩ := n
  cases z with
  | ofNat k =>
    obtain ⟨d, r, h1, _, h2⟩ := Lex.canonical_head (natToStr_canonical k)
    refine ⟨.int (sign := []) (by simp) (natToStr_canonical k), ?_⟩
    have := parseI64_eq (sign := []) (ds := natToStr k) (by simp) (by rw [h1]; simp) (by rw [h1]; exact h2)
    rw [List.nil_append] at this
    rw [intToStr, this]
    refine ofInt_some ⟨_, lo, hi⟩ ?_
    simp [signed, decimal_natToStr]
  | negSucc k =>
    obtain ⟨d, r, h1, _, h2⟩ := Lex.canonical_head (natToStr_canonical (k + 1))
    refine ⟨.int (sign := c!"-") (by simp) (natToStr_canonical (k + 1)), ?_⟩
    have := parseI64_eq (sign := c!"-") (ds := natToStr (k + 1)) (by simp) (by rw [h1]; simp) (by rw [h1]; exact h2)
    rw [intToStr, show '-' :: natToStr (k + 1) = c!"-" ++ natToStr (k + 1) from rfl, this]
    refine ofInt_some ⟨_, lo, hi⟩ ?_
    simp [signed, decimal_natToStr, Int.negSucc_eq]

/-! ### Numbers with leading zeros are several numbers -/

/-- A digit string, cut after each leading zero. -/
def zeros : Str → List Word
  | [] => []
  | c :: ds => if c = '0' then (.integerLiteral, c!"0") :: zeros ds else [(.integerLiteral, c :: ds)]

theorem textOf_zeros (ds : Str) : textOf (zeros ds) = ds := by
  induction ds with
  | nil => rfl
  | cons c ds ih =>
    rw [zeros]
    split
    · rename_i h
      subst h
      show c!"0" ++ textOf (zeros ds) = _
      rw [ih]; rfl
    · simp [textOf]

namespace Lex

/-- A zero is a number of its own. -/
theorem parseToken_zero {sign rest : Str} {off : Nat} (hs : sign ∈ [[], c!"-"])
    (hr : ∀ c r, rest = c :: r → c ∈ digitChars) :
    parseToken ⟨off, sign ++ c!"0" ++ rest⟩ = .ok ⟨off + utf8Len (sign ++ c!"0"), rest⟩
      (⟨.integerLiteral, ⟨off, off + utf8Len (sign ++ c!"0")⟩⟩, .valid) := by
  have hk : numberLiteral ⟨off, sign ++ c!"0" ++ rest⟩ = .ok ⟨off + utf8Len (sign ++ c!"0"), rest⟩
      (⟨.integerLiteral, ⟨off, off + utf8Len (sign ++ c!"0")⟩⟩, .valid) := by
    rw [numberLiteral, List.append_assoc, sign_ok hs (by rintro c r h rfl; simp at h), R.bind_ok]
    simp only
    rw [stripPrefix_ok, orElse_ok, R.bind_ok, stripPrefix_none (p := c!".")]
    · simp only
      rw [Nat.add_assoc, ← utf8Len_append, ← List.append_assoc, splitUntil_ok]
      rfl
    · cases rest with
      | nil => rfl
      | cons c r =>
        have : '.' ≠ c := by
          rintro rfl
          exact absurd (hr _ r rfl) (by decide)
        simpa [List.isPrefixOf] using this
  simp only [List.mem_cons, List.not_mem_nil, or_false] at hs
  rcases hs with rfl | rfl
  · refine parseToken_later (c := '0') (s := rest) rfl (no_tag (by decide) _) ?_
    rw [later_number (c := '0') (s := rest) rfl (by decide) (by decide)]
    exact alt_ok hk
  · refine parseToken_later (c := '-') (s := '0' :: rest) rfl ?_ ?_
    · have h1 : ∀ q ∈ allTags, q.2.isPrefixOf ('-' :: '0' :: rest) = true → q = (true, c!"-") := by
        intro q hq h
        obtain ⟨b, p⟩ := q
        match p, h with
        | [], _ =>
          exact absurd rfl ((show ∀ q ∈ allTags, q.2 ≠ [] by decide) _ hq)
        | [c], h =>
          simp only [List.isPrefixOf, Bool.and_true, beq_iff_eq] at h
          subst h
          rw [(show ∀ b, (b, c!"-") ∈ allTags → b = true by decide) b hq]
        | c :: d :: p, h =>
          simp only [List.isPrefixOf, Bool.and_eq_true, beq_iff_eq] at h
          have := (show ∀ q ∈ allTags, '0' ∉ q.2 by decide) _ hq
          rw [h.2.1] at this
          simp at this
      intro g hg q hq
      rw [Bool.eq_false_iff]
      intro h
      have h2 : q.2.isPrefixOf ('-' :: '0' :: rest) = true := by
        simp only [tagAt, Bool.and_eq_true] at h
        exact h.1
      have := h1 q (mem_allTags hg hq) h2
      subst this
      simp [tagAt, startsSymbol, isSymbolChar] at h
    · rw [later_number (c := '-') (s := '0' :: rest) rfl (by decide) (by decide)]
      exact alt_ok hk

theorem parseTokens_zeros : ∀ {ds : Str} {fuel off : Nat} {ts : List Token} {vs : List Diagnostic},
    (∀ c ∈ ds, c ∈ digitChars) → ds.length < fuel →
      parseTokens fuel ⟨off, ds⟩ ts vs =
        .ok (ts ++ tokensAt off (zeros ds), vs ++ (zeros ds).map fun _ => .valid)
  | [], fuel + 1, off, ts, vs, _, _ => by
    rw [parseTokens]
    simp [parseToken, tokensAt, zeros]
  | _ :: _, 0, _, _, _, _, h => by simp at h
  | c :: ds, fuel + 1, off, ts, vs, hd, hf => by
    rw [parseTokens]
    by_cases hc : c = '0'
    · subst hc
      have := parseToken_zero (sign := []) (rest := ds) (off := off) (by simp)
        (fun c r h => hd c (by rw [h]; simp))
      rw [List.nil_append] at this
      rw [show '0' :: ds = c!"0" ++ ds from rfl, this]
      simp only
      rw [parseTokens_zeros (fun c hc => hd c (List.mem_cons_of_mem _ hc)) (by simpa using hf)]
      have hz : zeros (c!"0" ++ ds) = (.integerLiteral, c!"0") :: zeros ds := by
        show zeros ('0' :: ds) = _
        rw [zeros, if_pos rfl]
      rw [hz]
      simp [tokensAt]
    · have := parseToken_lexeme (w := (.integerLiteral, c :: ds)) (rest := []) (off := off)
        (.int (sign := []) (by simp) (.inr ⟨c, ds, rfl, hc, hd⟩))
        (show Stops [] from fun _ _ h => by simp at h)
      rw [List.append_nil] at this
      rw [this]
      simp only
      cases fuel with
      | zero => simp at hf
      | succ fuel =>
        rw [parseTokens, zeros, if_neg hc]
        simp [parseToken, tokensAt]

/-- The tokens of a number with leading zeros. -/
theorem tokens_zeros {sign ds : Str} (hs : sign ∈ [[], c!"-"]) (hd : ∀ c ∈ ds, c ∈ digitChars) :
    Tokens (sign ++ '0' :: ds) ((.integerLiteral, sign ++ c!"0") :: zeros ds) := by
  have h1 : tokenize (sign ++ '0' :: ds) = .ok (tokensAt 0 ((.integerLiteral, sign ++ c!"0") :: zeros ds),
      ((.integerLiteral, sign ++ c!"0") :: zeros ds).map fun _ => .valid) := by
    rw [tokenize, tokenizeN, parseTokens, show sign ++ '0' :: ds = sign ++ c!"0" ++ ds by simp,
      parseToken_zero hs (fun c r h => hd c (by rw [h]; simp))]
    simp only
    rw [parseTokens_zeros hd (by simp; omega)]
    simp [tokensAt]
  have h2 := slices_line ((.integerLiteral, sign ++ c!"0") :: zeros ds) []
  rw [List.nil_append, show textOf ((TokenKind.integerLiteral, sign ++ c!"0") :: zeros ds) =
    sign ++ c!"0" ++ textOf (zeros ds) from rfl, textOf_zeros,
    show sign ++ c!"0" ++ ds = sign ++ '0' :: ds by simp] at h2
  exact ⟨_, _, h1, h2⟩

end Lex

/-! ### Failures -/

namespace Parse

/-- A hard failure at a literal is a hard failure of the script. -/
theorem script_failure {C : Ctx} {n : Nat} {t : Tok} {r : List Tok} {e : SyntaxError}
    (hk : t.kind ∉ [.punctuation, .symbol, .operator]) (ht : t.text ∉ reserved)
    (h : parseOne C n (t :: r) = .failure e) : scriptN C n (t :: r) = .err true e := by
  simp only [List.mem_cons, List.not_mem_nil, or_false, not_or] at hk
  obtain ⟨hk1, hk2, hk3⟩ := hk
  have hno := noTerm_ok' (C := C) hk1 r
  have htx : ∀ s ∈ reserved, Soft (text s (t :: r)) := fun s hs =>
    text_soft' (fun he => ht (by rw [he]; exact hs)) r
  have h2 : precTwo C (parseOne C n) (t :: r) = .failure e := by
    rw [precTwo, hno]
    simp only [PR.bind, h]
  have h7 : ∀ ex, precSeven C (parseOne C n) ex (t :: r) = .failure e := by
    intro ex
    rw [precSeven, hno]
    simp only [PR.bind]
    obtain ⟨e1, h1⟩ : Soft (parseFor C (parseOne C n) ex (t :: r)) := (htx _ (by decide)).bind _
    obtain ⟨e2, h2'⟩ : Soft (parseIf C (parseOne C n) (t :: r)) := by
      rw [parseIf, parseIfN]
      exact (htx _ (by decide)).bind _
    obtain ⟨e3, h3⟩ : Soft (parseAssign C ex (t :: r)) := (htx _ (by decide)).bind _
    obtain ⟨e4, h4⟩ : Soft (parseCallable C ex (t :: r)) := ((kind_soft hk2 r).map _).bind _
    rw [alt, h1]
    simp only [altGo, h2', h3, h4, parseApply, alt, h2, PR.bind]
  have he : parseExpr C (parseOne C n) (t :: r) = .failure e := by
    rw [parseExpr, List.length_cons, exprN, exprStep, hno]
    simp only [PR.bind, h7]
  rw [scriptN, parseScriptTokens, many0, manyGo, parseStatement, he]
  rfl

theorem int_failure {C : Ctx} {n : Nat} {t : Tok} {r : List Tok} (hk : t.kind = .integerLiteral)
    (ht : t.text ∉ reserved) (h : parseI64 t.text = none) :
    ∃ e, parseOne C (n + 1) (t :: r) = .failure e := by
  have hbr : t.text ∉ [c!"(", c!"'", c!"{", c!"["] :=
    fun hm => ht ((show [c!"(", c!"'", c!"{", c!"["] ⊆ reserved by decide) hm)
  have hsoft : ∀ {k' : TokenKind}, t.kind ≠ k' → Soft (kind k' (t :: r)) :=
    fun h => kind_soft h r
  have hb := brackets_soft (C := C) (one := parseOne C n) hbr r
  simp only [List.forall_mem_cons, List.not_mem_nil, false_implies, implies_true, and_true] at hb
  obtain ⟨⟨e1, h1⟩, ⟨e2, h2⟩, ⟨e3, h3⟩, ⟨e4, h4⟩, e5, h5⟩ := hb
  obtain ⟨e6, h6⟩ : Soft ((parseBoolean (t :: r)).map Expr.bool) :=
    ((hsoft (by rw [hk]; simp)).map _).map _
  obtain ⟨e7, h7⟩ : Soft ((parseNone C (t :: r)).map fun _ => Expr.none) :=
    (none_soft (fun he => ht (by rw [show t.text = _ from he]; decide))
        (fun he => ht (by rw [show t.text = _ from he]; decide)) r).map _
  obtain ⟨e8, h8⟩ : Soft ((parseFloat C (t :: r)).map Expr.float) :=
    ((hsoft (by rw [hk]; simp)).bind _).map _
  rw [parseOne, oneStep, alt, h1]
  refine ⟨.expected t.range c!"integer" (some c!"error"), ?_⟩
  simp only [altGo, h2, h3, h4, h5, h6, h7, h8]
  rw [parseInteger, kind_ok hk]
  simp only [PR.bind, h, PR.map]

end Parse

end Dune
