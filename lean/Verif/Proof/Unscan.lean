import Verif.Spec.Accepts
import Verif.Proof.Scan
import Verif.Proof.Script

/-! Every token without a diagnostic is a word of the lexical grammar. -/

namespace Dune.Lex

open Spec

/-- From `i`, a word of kind `k` was read, leaving `r`. -/
def Got (i : Input) (k : TokenKind) (r : Input) : Prop :=
  ∃ s, Eats i s r ∧ (Lexeme (k, s) ∨ r.rest = [] ∧ OpenString (k, s))

theorem bind_inv {α β : Type} {x : R α} {f : Input → α → R β} {r : Input} {b : β}
    (h : x.bind f = .ok r b) : ∃ j a, x = .ok j a ∧ f j a = .ok r b := by
  cases x with
  | ok j a => exact ⟨j, a, rfl, h⟩
  | notFound => simp [R.bind] at h
  | panic => simp [R.bind] at h
  | noFuel => simp [R.bind] at h

theorem validToken_inv {p : Input → R Range} {k : TokenKind} {i r : Input} {t : Token}
    {d : Diagnostic} (h : validToken p k i = .ok r (t, d)) :
    t.kind = k ∧ ∃ x, p i = .ok r x := by
  rw [validToken] at h
  obtain ⟨j, a, h1, h2⟩ := bind_inv h
  simp only [R.ok.injEq, Prod.mk.injEq] at h2
  obtain ⟨rfl, rfl, _⟩ := h2
  exact ⟨rfl, a, h1⟩

theorem tag_inv {p : Bool × Str} {i r : Input} {x : Range} (h : tag p i = .ok r x) :
    Eats i p.2 r := by
  obtain ⟨b, p⟩ := p
  rcases stripPrefix_cases p i with ⟨h1, _⟩ | ⟨j, he, h1⟩
  · cases b with
    | false => rw [tag, punctuationTag, h1] at h; simp at h
    | true => rw [tag, keywordTag, h1] at h; simp at h
  · cases b with
    | false =>
      rw [tag, punctuationTag, h1] at h
      simp only [R.ok.injEq] at h
      exact h.1 ▸ he
    | true =>
      rw [tag, keywordTag, h1] at h
      simp only at h
      split at h
      · simp at h
      · simp only [R.ok.injEq] at h
        exact h.1 ▸ he

theorem tags_inv {l : List (Bool × Str)} {i r : Input} {x : Range}
    (h : alt (l.map tag) i = .ok r x) : ∃ p ∈ l, Eats i p.2 r := by
  induction l with
  | nil => simp [alt] at h
  | cons p l ih =>
    rw [List.map_cons, alt] at h
    split at h
    · obtain ⟨q, hq, hq'⟩ := ih h
      exact ⟨q, by simp [hq], hq'⟩
    · exact ⟨p, by simp, tag_inv h⟩

/-- No tag matches where an alternative of tags fails. -/
theorem tags_none_inv {l : List (Bool × Str)} {i : Input} (h : alt (l.map tag) i = .notFound) :
    ∀ p ∈ l, tagAt p i.rest = false := by
  induction l with
  | nil => simp
  | cons p l ih =>
    rw [List.map_cons, alt] at h
    split at h
    · rename_i h0
      rw [List.forall_mem_cons]
      refine ⟨?_, ih h⟩
      rw [Bool.eq_false_iff]
      intro ht
      obtain ⟨b, p⟩ := p
      simp only [tagAt, Bool.and_eq_true, Bool.or_eq_true, Bool.not_eq_true'] at ht
      obtain ⟨q, hq⟩ := List.isPrefixOf_iff_prefix.mp ht.1
      have := tag_ok (p := (b, p)) (off := i.off) (rest := q) (fun hb => by
        rw [← hq, List.drop_left] at ht
        rcases ht.2 with h' | h'
        · simp only at hb; rw [hb] at h'; simp at h'
        · exact h')
      obtain ⟨off, rest⟩ := i
      simp only at hq this
      rw [hq, h0] at this
      simp at this
    · rename_i h0
      rw [h] at h0
      exact absurd rfl h0

theorem alt_inv {α : Type} {p : Input → R α} {ps : List (Input → R α)} {i r : Input} {a : α}
    (h : alt (p :: ps) i = .ok r a) : p i = .ok r a ∨ p i = .notFound ∧ alt ps i = .ok r a := by
  rw [alt] at h
  split at h
  · exact .inr ⟨‹_›, h⟩
  · exact .inl h

theorem splitAt_inv {i r : Input} {n : Nat} {x : Range} (h : i.splitAt n = .ok r x) :
    ∃ t, Eats i t r ∧ utf8Len t = n := by
  rw [Input.splitAt] at h
  split at h
  · rename_i p q hq
    simp only [R.ok.injEq] at h
    obtain ⟨h1, h2⟩ := takeBytes_eq hq
    refine ⟨p, ⟨?_, ?_⟩, ?_⟩
    · rw [← h.1]; exact h1
    · rw [← h.1, ← h2]
    · exact h2
  · simp at h

theorem eats_prefix {i r : Input} {s t q : Str} (h : Eats i s r) (hi : i.rest = t ++ q)
    (hl : utf8Len s = utf8Len t) : s = t := by
  have h1 := takeBytes_append s r.rest
  have h2 := takeBytes_append t q
  rw [hl, ← h.1, hi, h2] at h1
  simp only [Option.some.injEq, Prod.mk.injEq] at h1
  exact h1.1.symm

theorem got_comment {i r : Input} {x : Range} (h : comment i = .ok r x) : Got i .comment r := by
  rw [comment] at h
  split at h
  · rename_i s hs
    obtain ⟨t, he, hl⟩ := splitAt_inv h
    have hw := eats_prefix he (List.takeWhile_append_dropWhile
      (p := fun c => !(c = '\r' || c = '\n'))).symm hl
    refine ⟨t, he, .inl ?_⟩
    rw [hs, List.takeWhile_cons] at hw
    simp only [Char.reduceEq, decide_false, Bool.or_false, Bool.not_false, if_true] at hw
    rw [hw]
    have hall : ∀ c ∈ s.takeWhile (fun c => !(c = '\r' || c = '\n')), c ≠ '\r' ∧ c ≠ '\n' := by
      apply takeWhile_forall
      intro c hc
      simpa using hc
    exact .comment (fun hm => (hall _ hm).2 rfl) (fun hm => (hall _ hm).1 rfl)
  · simp at h

theorem got_space {i r : Input} {x : Range} (h : whitespace i = .ok r x) : Got i .whitespace r := by
  simp only [whitespace] at h
  split at h
  · simp at h
  · rename_i hn
    obtain ⟨t, he, hl⟩ := splitAt_inv h
    have h1 : ∀ c ∈ i.rest.takeWhile isAsciiWhitespace, c ∈ spaceChars :=
      takeWhile_forall (fun c hc => (isSpace_iff c).mp hc) _
    have h2 := utf8Len_ascii (takeWhile_forall (fun c => isAsciiWhitespace_ascii) i.rest)
    have hw := eats_prefix he (List.takeWhile_append_dropWhile (p := isAsciiWhitespace)).symm
      (hl.trans h2.symm)
    refine ⟨t, he, .inl (.space ?_ (hw ▸ h1))⟩
    rw [hw]
    intro h0
    rw [h0] at hn
    exact hn rfl

theorem got_string {i r : Input} {t : Token} (h : stringLiteral i = .ok r (t, .valid)) :
    t.kind = .stringLiteral ∧ Got i .stringLiteral r := by
  rw [stringLiteral] at h
  rcases stripPrefix_cases c!"\"" i with ⟨h0, _⟩ | ⟨j, he, h0⟩
  · rw [show punctuationTag c!"\"" i = _ from h0] at h; simp [R.bind] at h
  rw [show punctuationTag c!"\"" i = _ from h0] at h
  simp only [R.bind_ok] at h
  rcases stringInner_cases (j.rest.length + 1) j [] (by omega) with
    ⟨h1, h2⟩ | ⟨r1, t1, new, he1, hr1, hp, hv, h1⟩
  · rw [h1] at h; simp [R.bind] at h
  rw [h1] at h
  simp only [List.nil_append, R.bind_ok] at h
  obtain ⟨j2, a2, h2, h3⟩ := bind_inv h
  obtain ⟨j3, a3, h4, h5⟩ := bind_inv h3
  simp only [R.ok.injEq, Prod.mk.injEq] at h5
  obtain ⟨rfl, rfl, h5⟩ := h5
  have hnew : new = [] := by
    by_contra hn
    rw [if_neg hn] at h5
    simp at h5
  obtain ⟨v, hv⟩ := hv hnew
  refine ⟨rfl, ?_⟩
  rcases stripPrefix_cases c!"\"" r1 with ⟨h6, _⟩ | ⟨r2, he2, h6⟩
  · rw [alt, show punctuationTag c!"\"" r1 = _ from h6] at h2
    simp only at h2
    rw [alt] at h2
    by_cases hr : r1.rest = []
    · rw [if_pos hr] at h2
      simp only [R.ok.injEq] at h2
      have h7 : Eats i (c!"\"" ++ t1) j2 := h2.1 ▸ he.trans he1
      rw [splitUntil_eats h7] at h4
      simp only [R.ok.injEq] at h4
      obtain ⟨rfl, rfl⟩ := h4
      exact ⟨_, h7, .inr ⟨by rw [← h2.1]; exact hr, rfl, t1, v, hv, rfl⟩⟩
    · rw [if_neg hr] at h2
      simp [alt] at h2
  · rw [alt, show punctuationTag c!"\"" r1 = _ from h6] at h2
    simp only [R.ok.injEq] at h2
    have h7 : Eats i (c!"\"" ++ t1 ++ c!"\"") j2 := h2.1 ▸ (he.trans he1).trans he2
    rw [splitUntil_eats h7] at h4
    simp only [R.ok.injEq] at h4
    obtain ⟨rfl, rfl⟩ := h4
    exact ⟨_, h7, .inl (.str hv)⟩

/-- The whole part of a number. -/
theorem whole_inv {i r : Input} {x : Range} (h : (i.stripPrefix c!"0").orElse
    (if places i.rest > 0 then i.splitAt (places i.rest) else .notFound) = .ok r x) :
    ∃ ds, Eats i ds r ∧ Canonical ds := by
  rcases stripPrefix_cases c!"0" i with ⟨h0, hz⟩ | ⟨j, he, h0⟩
  · rw [h0] at h
    simp only [R.orElse] at h
    split at h
    · rename_i hp
      obtain ⟨t, r', hd, hl, he, h'⟩ := places_split i
      rw [h'] at h
      simp only [R.ok.injEq] at h
      obtain ⟨rfl, _⟩ := h
      refine ⟨t, he, .inr ?_⟩
      cases t with
      | nil => simp at hl; omega
      | cons d s =>
        refine ⟨d, s, rfl, ?_, fun c hc => (isDigit_iff c).mp (hd c hc)⟩
        rintro rfl
        rw [he.1] at hz
        simp [List.isPrefixOf] at hz
    · simp at h
  · rw [h0] at h
    simp only [R.orElse, R.ok.injEq] at h
    exact ⟨_, h.1 ▸ he, .inl rfl⟩

theorem got_number {i r : Input} {t : Token} (h : numberLiteral i = .ok r (t, .valid)) :
    Got i t.kind r := by
  rw [numberLiteral] at h
  obtain ⟨r0, _, h0, h⟩ := bind_inv h
  obtain ⟨sign, hs, he0⟩ : ∃ sign, sign ∈ [[], c!"-"] ∧ Eats i sign r0 := by
    rcases stripPrefix_cases c!"-" i with ⟨h1, _⟩ | ⟨j, he, h1⟩
    · rw [h1] at h0
      simp only [R.orElse] at h0
      obtain ⟨t, he, hl⟩ := splitAt_inv h0
      exact ⟨t, by rw [utf8Len_eq_zero.mp hl]; simp, he⟩
    · rw [h1] at h0
      simp only [R.orElse, R.ok.injEq] at h0
      exact ⟨_, by simp, h0.1 ▸ he⟩
  obtain ⟨r1, _, h1, h⟩ := bind_inv h
  obtain ⟨ds, he1, hc⟩ := whole_inv h1
  have he01 := he0.trans he1
  rcases stripPrefix_cases c!"." r1 with ⟨h2, _⟩ | ⟨r2, he2, h2⟩
  · rw [h2] at h
    simp only [splitUntil_eats he01, R.bind_ok, R.ok.injEq, Prod.mk.injEq] at h
    obtain ⟨rfl, rfl, _⟩ := h
    exact ⟨_, he01, .inl (.int hs hc)⟩
  rw [h2] at h
  simp only at h
  have he02 := he01.trans he2
  split at h
  · rw [splitUntil_eats he02] at h
    simp [R.bind] at h
  · rename_i hp
    obtain ⟨t3, r3, hd, hl, he3, h3⟩ := places_split r2
    have he03 := he02.trans he3
    rw [h3] at h
    simp only [R.bind_ok, splitUntil_eats he03, R.ok.injEq, Prod.mk.injEq] at h
    obtain ⟨rfl, rfl, _⟩ := h
    refine ⟨_, he03, .inl ?_⟩
    have := Lexeme.float (fs := t3) hs hc (by rintro rfl; simp at hl; omega)
      fun c hc => (isDigit_iff c).mp (hd c hc)
    simpa using this

theorem number_found {i : Input} {sign : Str} {d : Char} {s : Str} (hs : sign ∈ [[], c!"-"])
    (hd : d ∈ digitChars) (hi : i.rest = sign ++ d :: s) : numberLiteral i ≠ .notFound := by
  intro h
  have hne : ∀ c ∈ digitChars, c ≠ '-' := by decide
  have hd' := (isDigit_iff d).mpr hd
  obtain ⟨off, rest⟩ := i
  simp only at hi
  subst hi
  have h0 := sign_ok (sign := sign) (s := d :: s) (off := off) hs (by
    intro c r hc; simp only [List.cons.injEq] at hc; rw [← hc.1]; exact hne d hd)
  rw [numberLiteral, h0] at h
  simp only [R.bind_ok] at h
  generalize hj : (⟨off + utf8Len sign, d :: s⟩ : Input) = j at h
  have hjr : j.rest = d :: s := by rw [← hj]
  have hpl : places j.rest > 0 := by
    rw [hjr, places, List.takeWhile_cons, if_pos hd']
    simp
  obtain ⟨r, t, he, h1⟩ : ∃ r t, Eats j t r ∧ (j.stripPrefix c!"0").orElse
      (if places j.rest > 0 then j.splitAt (places j.rest) else .notFound) = .ok r ⟨j.off, r.off⟩ := by
    rcases stripPrefix_cases c!"0" j with ⟨h1, _⟩ | ⟨r, he, h1⟩
    · rw [h1]
      simp only [R.orElse]
      rw [if_pos hpl]
      obtain ⟨t, r, _, _, he, h'⟩ := places_split j
      exact ⟨r, t, he, h'⟩
    · rw [h1]
      exact ⟨r, _, he, rfl⟩
  rw [hjr] at h1
  rw [h1] at h
  simp only [R.bind_ok] at h
  have hej : Eats ⟨off, sign ++ d :: s⟩ sign j := by subst hj; exact ⟨rfl, rfl⟩
  rcases stripPrefix_cases c!"." r with ⟨h2, _⟩ | ⟨r2, he2, h2⟩
  · rw [h2] at h
    simp only [splitUntil_eats (hej.trans he), R.bind_ok] at h
    simp at h
  · rw [h2] at h
    simp only at h
    split at h
    · rw [splitUntil_eats ((hej.trans he).trans he2)] at h
      simp [R.bind] at h
    · obtain ⟨t3, r3, _, _, he3, h3⟩ := places_split r2
      rw [h3] at h
      simp only [R.bind_ok, splitUntil_eats (((hej.trans he).trans he2).trans he3)] at h
      simp at h

theorem got_symbol {i r : Input} {x : Range} (h : symbol i = .ok r x)
    (ht : ∀ q ∈ allTags, tagAt q i.rest = false) (hcm : comment i = .notFound)
    (hnum : numberLiteral i = .notFound) : Got i .symbol r := by
  simp only [symbol] at h
  split at h
  · simp at h
  · rename_i hn
    obtain ⟨t, he, hl⟩ := splitAt_inv h
    have h1 : ∀ c ∈ i.rest.takeWhile isSymbolChar, c ∈ nameChars :=
      takeWhile_forall (fun c hc => (symbolChar_iff c).mp hc) _
    have hsplit : i.rest = i.rest.takeWhile isSymbolChar ++ i.rest.dropWhile isSymbolChar :=
      (List.takeWhile_append_dropWhile (p := isSymbolChar)).symm
    have hw := eats_prefix he hsplit hl
    rw [← hw] at h1
    have hstop : startsSymbol r.rest = false := by
      have h2 : r.rest = i.rest.dropWhile isSymbolChar := by
        rw [← hw] at hsplit
        exact List.append_cancel_left (he.1.symm.trans hsplit)
      rw [h2]
      cases hd : i.rest.dropWhile isSymbolChar with
      | nil => rfl
      | cons c s =>
        have := List.head?_dropWhile_not isSymbolChar i.rest
        rw [hd] at this
        simpa [startsSymbol] using this
    have htag : ∀ q ∈ allTags, q.2 ≠ t := by
      intro q hq hqt
      have := ht q hq
      rw [he.1, ← hqt] at this
      have hp : q.2.isPrefixOf (q.2 ++ r.rest) = true := List.isPrefixOf_iff_prefix.mpr ⟨r.rest, rfl⟩
      simp [tagAt, hstop, hp] at this
    refine ⟨t, he, .inl ?_⟩
    cases t with
    | nil => rw [show utf8Len [] = 0 from rfl] at hl; omega
    | cons c s =>
      refine .name h1 ?_ ?_ ?_ ?_ ?_
      · intro hm
        exact (show ∀ t ∈ reserved, ∃ q ∈ allTags, q.2 = t by decide) _ hm |>.elim
          fun q hq => htag q hq.1 hq.2
      · intro hm
        exact (show ∀ t ∈ [c!"True", c!"False"], ∃ q ∈ allTags, q.2 = t by decide) _ hm |>.elim
          fun q hq => htag q hq.1 hq.2
      · rintro rfl
        rw [comment, he.1] at hcm
        simp only [List.cons_append] at hcm
        rw [← List.cons_append, ← he.1] at hcm
        have h3 := (splitAt_eats (i := i) (List.takeWhile_append_dropWhile
          (p := fun c => !(c = '\r' || c = '\n'))).symm).1
        rw [h3] at hcm
        simp at hcm
      · intro hd
        exact number_found (sign := []) (by simp) hd he.1 hnum
      · rintro d r' rfl rfl hd
        exact number_found (sign := c!"-") (d := d) (s := r' ++ r.rest) (by simp) hd
          (by rw [he.1]; rfl) hnum

/-- A token without a diagnostic is a word. -/
theorem got_token {i r : Input} {t : Token} (h : parseToken i = .ok r (t, .valid)) :
    Got i t.kind r := by
  cases hi : i.rest with
  | nil => rw [parseToken, hi] at h; simp at h
  | cons c s =>
    rw [parseToken_eq hi] at h
    split at h
    · obtain ⟨j, a, _, h2⟩ := bind_inv h
      simp at h2
    · have hvt : ∀ {k : TokenKind} {l : List (Bool × Str)},
          validToken (alt (l.map tag)) k i = .notFound → ∀ q ∈ l, tagAt q i.rest = false := by
        intro k l hg
        apply tags_none_inv
        rw [validToken] at hg
        cases ha : alt (l.map tag) i with
        | notFound => rfl
        | ok j a => rw [ha] at hg; simp [R.bind] at hg
        | panic => rw [ha] at hg; simp [R.bind] at hg
        | noFuel => rw [ha] at hg; simp [R.bind] at hg
      have hnf : ∀ {p : Input → R Range} {k : TokenKind},
          validToken p k i = .notFound → p i = .notFound := by
        intro p k hg
        rw [validToken] at hg
        cases ha : p i with
        | notFound => rfl
        | ok j a => rw [ha] at hg; simp [R.bind] at hg
        | panic => rw [ha] at hg; simp [R.bind] at hg
        | noFuel => rw [ha] at hg; simp [R.bind] at hg
      have hin : ∀ {k : TokenKind} {l : List (Bool × Str)}, (∀ q ∈ l, Lexeme (k, q.2)) →
          validToken (alt (l.map tag)) k i = .ok r (t, .valid) → Got i t.kind r := by
        intro k l hl h
        obtain ⟨rfl, x, h⟩ := validToken_inv h
        obtain ⟨q, hq, he⟩ := tags_inv h
        exact ⟨_, he, .inl (hl q hq)⟩
      simp only [groups, later, List.map_cons, List.map_nil, List.cons_append, List.nil_append] at h
      rcases alt_inv h with h | ⟨n1, h⟩
      · exact hin (fun q hq => .op ((show ∀ q ∈ longTags, q.2 ∈ c!"@" :: opNames by decide) q hq)) h
      rcases alt_inv h with h | ⟨n2, h⟩
      · exact hin (fun q hq => .punct ((show ∀ q ∈ punctTags, q.2 ∈ [c!"(", c!")", c!"[", c!"]", c!"{",
          c!"}", c!"'", c!",", c!";", c!"=", c!"->", c!"~>"] by decide) q hq)) h
      rcases alt_inv h with h | ⟨n3, h⟩
      · exact hin (fun q hq => .keyword ((show ∀ q ∈ keywordTags, q.2 ∈ [c!"None", c!"then", c!"else",
          c!"let", c!"for", c!"if", c!"in"] by decide) q hq)) h
      rcases alt_inv h with h | ⟨n4, h⟩
      · exact hin (fun q hq => .op ((show ∀ q ∈ shortTags, q.2 ∈ c!"@" :: opNames by decide) q hq)) h
      rcases alt_inv h with h | ⟨n5, h⟩
      · exact hin (fun q hq => .bool ((show ∀ q ∈ boolTags, q.2 ∈ [c!"True", c!"False"] by decide)
          q hq)) h
      rcases alt_inv h with h | ⟨n6, h⟩
      · obtain ⟨hk, x, h⟩ := validToken_inv h
        rw [hk]; exact got_comment h
      rcases alt_inv h with h | ⟨n7, h⟩
      · obtain ⟨hk, h⟩ := got_string h
        rw [hk]; exact h
      rcases alt_inv h with h | ⟨n8, h⟩
      · exact got_number h
      rcases alt_inv h with h | ⟨n9, h⟩
      · obtain ⟨hk, x, h⟩ := validToken_inv h
        rw [hk]
        refine got_symbol h ?_ (hnf n6) n8
        intro q hq
        simp only [allTags, List.mem_append] at hq
        rcases hq with (((hq | hq) | hq) | hq) | hq
        · exact hvt n1 q hq
        · exact hvt n2 q hq
        · exact hvt n3 q hq
        · exact hvt n4 q hq
        · exact hvt n5 q hq
      rcases alt_inv h with h | ⟨_, h⟩
      · obtain ⟨hk, x, h⟩ := validToken_inv h
        rw [hk]; exact got_space h
      · simp [alt] at h

theorem parseTokens_diags : ∀ {fuel : Nat} {i : Input} {ts ts' : List Token} {ds ds' : List Diagnostic},
    parseTokens fuel i ts ds = .ok (ts', ds') → ∀ d ∈ ds, d ∈ ds'
  | 0, _, _, _, _, _, h => by simp [parseTokens] at h
  | fuel + 1, i, ts, ts', ds, ds', h => by
    rw [parseTokens] at h
    intro d hd
    split at h
    · exact parseTokens_diags h d (by simp [hd])
    · split at h
      · simp only [Outcome.ok.injEq, Prod.mk.injEq] at h
        rw [← h.2]; exact hd
      · simp only [Outcome.ok.injEq, Prod.mk.injEq] at h
        rw [← h.2]; simp [hd]
    · simp at h
    · simp at h

theorem Written.cons {w : Word} {ws : List Word} (h : Lexeme w ∨ ws = [] ∧ OpenString w)
    (hw : Written ws) : Written (w :: ws) := by
  intro u x v he
  cases u with
  | nil =>
    simp only [List.nil_append, List.cons.injEq] at he
    obtain ⟨rfl, rfl⟩ := he
    exact h
  | cons y u =>
    simp only [List.cons_append, List.cons.injEq] at he
    exact hw u x v he.2

/-- The tokens of a text without diagnostics are the words that make it up. -/
theorem parseTokens_inv : ∀ {fuel : Nat} {i : Input} {ts ts' : List Token} {ds ds' : List Diagnostic},
    parseTokens fuel i ts ds = .ok (ts', ds') → (∀ d ∈ ds', d = .valid) →
      ∃ ws, ts' = ts ++ tokensAt i.off ws ∧ i.rest = textOf ws ∧ Written ws
  | 0, _, _, _, _, _, h, _ => by simp [parseTokens] at h
  | fuel + 1, i, ts, ts', ds, ds', h, hv => by
    rw [parseTokens] at h
    rcases parseToken_cases i with ⟨h0, h1⟩ | ⟨h1, _⟩ | ⟨r, s, k, d, hs, he, _, h1⟩
    · rw [h1] at h
      simp only [h0, if_true, Outcome.ok.injEq, Prod.mk.injEq] at h
      refine ⟨[], by simp [h.1, tokensAt], by rw [h0]; rfl, ?_⟩
      intro u w v hu
      simp at hu
    · rw [h1] at h
      simp at h
    · rw [h1] at h
      simp only at h
      obtain ⟨ws, h2, h3, h4⟩ := parseTokens_inv h hv
      have hd : d = .valid := hv d (parseTokens_diags h d (by simp))
      subst hd
      obtain ⟨s', he', hl⟩ := got_token h1
      obtain rfl : s' = s := List.append_cancel_right (he'.1.symm.trans he.1)
      refine ⟨(k, s') :: ws, ?_, ?_, ?_⟩
      · rw [h2, tokensAt, he.2]
        simp
      · rw [he.1, h3]; rfl
      · refine Written.cons ?_ h4
        rcases hl with hl | ⟨hr, ho⟩
        · exact .inl hl
        · refine .inr ⟨?_, ho⟩
          rw [hr] at h3
          cases ws with
          | nil => rfl
          | cons w ws =>
            have ht : textOf (w :: ws) = w.2 ++ textOf ws := rfl
            rw [ht] at h3
            have hne : w.2 ≠ [] := by
              rcases h4 [] w ws rfl with hl | ⟨_, ho⟩
              · exact lexeme_ne hl
              · obtain ⟨_, b, v, _, hb⟩ := ho
                rw [hb]; simp
            simp [hne] at h3

/-- The words of a text that passes the lexical checks: they make up the text. -/
theorem reads_written {src : Str} {ws : List Word} (h : Reads src ws) :
    textOf ws = src ∧ Written ws := by
  obtain ⟨ts, ds, h1, h2, h3⟩ := h.tokens
  obtain ⟨ts', ds', h1', hv⟩ := h.valid
  rw [h1] at h1'
  simp only [Outcome.ok.injEq, Prod.mk.injEq] at h1'
  obtain ⟨rfl, rfl⟩ := h1'
  rw [tokenize, tokenizeN] at h1
  obtain ⟨ws', h4, h5, h6⟩ := parseTokens_inv h1 hv
  simp only [List.nil_append] at h4 h5
  obtain ⟨h7, h8⟩ := slices_line ws' []
  simp only [List.nil_append, ← h5, show utf8Len [] = 0 from rfl, ← h4] at h7 h8
  have := words_ext (h2.symm.trans h7) (h3.symm.trans h8)
  subst this
  exact ⟨h5.symm, h6⟩

end Dune.Lex
