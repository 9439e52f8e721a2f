import Verif.Spec.Nested
import Verif.Proof.Grammar
import Verif.Proof.Looks
/-! Every level of brackets at the start of an expression doubles the looks of the parser. -/

namespace Dune.Looks
open Parse Spec

variable {α β : Type}

/-! ### Costs of combinators -/

theorem left_bind {r : LR α} {k : Nat} (h : k ≤ r.1) (f : List Tok → α → LR β) :
    k ≤ (r.bind f).1 := by
  obtain ⟨n, r⟩ := r; cases r <;> simp only [LR.bind] at h ⊢ <;> omega

theorem bind_fst_ok {r : LR α} {i : List Tok} {a : α} (h : r.2 = .ok i a)
    (f : List Tok → α → LR β) : (r.bind f).1 = r.1 + (f i a).1 := by
  obtain ⟨n, r⟩ := r
  simp only at h
  subst h
  rfl

theorem le_bind {r : LR α} {i : List Tok} {a : α} (h : r.2 = .ok i a)
    {f : List Tok → α → LR β} {k : Nat} (hk : k ≤ (f i a).1) : k ≤ (r.bind f).1 := by
  rw [bind_fst_ok h]; omega

/-- At least `k` looks are spent on the alternatives. -/
def AltLe (k : Nat) (ps : List (Looker α)) (i : List Tok) : Prop := ∀ e, k ≤ (altGo i e ps).1

theorem AltLe.here {p : Looker α} {ps : List (Looker α)} {i : List Tok} {k : Nat}
    (h : k ≤ (p i).1) : AltLe k (p :: ps) i := by
  intro e
  rw [altGo]
  rcases hp : p i with ⟨n, r⟩
  rw [hp] at h
  cases r <;> simp only [LR.add] <;> omega

theorem AltLe.both {p : Looker α} {ps : List (Looker α)} {i : List Tok} {k m : Nat}
    (h : k ≤ (p i).1) (hs : Soft (p i).2) (hm : AltLe m ps i) : AltLe (k + m) (p :: ps) i := by
  intro e
  rw [altGo]
  obtain ⟨e', he⟩ := hs
  rcases hp : p i with ⟨n, r⟩
  rw [hp] at h he
  simp only at he h
  subst he
  have := hm (errOr e e')
  simp only [LR.add]
  omega

theorem AltLe.there {p : Looker α} {ps : List (Looker α)} {i : List Tok} {m : Nat}
    (hs : Soft (p i).2) (hm : AltLe m ps i) : AltLe m (p :: ps) i := by
  have := AltLe.both (Nat.zero_le _) hs hm
  rwa [Nat.zero_add] at this

theorem AltLe.alt {p : Looker α} {ps : List (Looker α)} {i : List Tok} {k : Nat}
    (h : AltLe k (p :: ps) i) : k ≤ (alt p ps i).1 := by
  have := h .internalError
  rw [altGo] at this
  rw [Looks.alt]
  rcases hp : p i with ⟨n, r⟩
  rw [hp] at this
  cases r with
  | error e => exact this
  | _ => exact this

theorem manyGo_le {p : Looker α} {kind : Str} {i j : List Tok} {l : List α} {k n : Nat}
    (h : Steps (erase p) i l j) (hk : k ≤ (p j).1) (hn : i.length < n) :
    k ≤ (manyGo kind p n i).1 := by
  induction h generalizing n with
  | nil =>
    cases n with
    | zero => omega
    | succ n =>
      rw [manyGo]
      rcases hp : p _ with ⟨m, r⟩
      rw [hp] at hk
      cases r <;> simp only at hk ⊢ <;> try exact hk
      split
      · exact hk
      · simp only [LR.add]; omega
  | @cons i i1 j a l h1 h2 h3 ih =>
    cases n with
    | zero => omega
    | succ n =>
      rw [manyGo]
      rcases hp : p i with ⟨m, r⟩
      simp only [erase, hp] at h1
      subst h1
      simp only
      rw [if_neg (by omega)]
      have := ih hk (n := n) (by omega)
      simp only [LR.add, LR.map]
      omega

theorem many0_le {p : Looker α} {i j : List Tok} {l : List α} {k : Nat}
    (h : Steps (erase p) i l j) (hk : k ≤ (p j).1) : k ≤ (many0 p i).1 :=
  manyGo_le h hk (Nat.lt_succ_self _)

theorem separated_le {s : Looker β} {p : Looker α} {i : List Tok} {k : Nat} (hk : k ≤ (p i).1) :
    k ≤ (separatedList0 s p i).1 := by
  rw [separatedList0]
  rcases hp : p i with ⟨m, r⟩
  rw [hp] at hk
  cases r <;> simp only [LR.add] at hk ⊢ <;> omega

theorem opt_le {p : Looker α} {i : List Tok} {k : Nat} (hk : k ≤ (p i).1) : k ≤ (opt p i).1 := by
  rw [opt]
  rcases hp : p i with ⟨m, r⟩
  rw [hp] at hk
  cases r <;> simp only [LR.map, PR.map, PR.bind, LR.orElse, LR.pure] at hk ⊢ <;> omega

/-! ### Operands -/

section
variable {C : Ctx} {one : Looker Expr} {i : List Tok} {k : Nat}

theorem noTerm_le {f : List Tok → Unit → LR β} (h : Parse.noTermPunct C i = .ok i ())
    (hk : k ≤ (f i ()).1) : k ≤ ((noTermPunct C i).bind f).1 := le_bind h hk

theorem two_le (h : Parse.noTermPunct C i = .ok i ()) (hk : k ≤ (one i).1) :
    k ≤ (precTwo C one i).1 := noTerm_le h (left_bind hk _)

theorem three_le (h : Parse.noTermPunct C i = .ok i ()) (hk : k ≤ (one i).1) :
    k ≤ (precThree C one i).1 := noTerm_le h (left_bind (two_le h hk) _)

theorem four_le (h : Parse.noTermPunct C i = .ok i ()) (hk : k ≤ (one i).1) :
    k ≤ (precFour C one i).1 := noTerm_le h (left_bind (three_le h hk) _)

theorem five_le (h : Parse.noTermPunct C i = .ok i ()) (hk : k ≤ (one i).1) :
    k ≤ (precFive C one i).1 := noTerm_le h (left_bind (four_le h hk) _)

theorem six_le (h : Parse.noTermPunct C i = .ok i ()) (hk : k ≤ (one i).1) :
    k ≤ (precSix C one i).1 := noTerm_le h (left_bind (five_le h hk) _)

theorem expr_le {expr : Looker Expr} (h : Parse.noTermPunct C i = .ok i ())
    (hk : k ≤ (precSeven C one expr i).1) : k ≤ (exprStep C one expr i).1 :=
  noTerm_le h (left_bind hk _)

end

section
variable {C : Ctx}

/-- An operand at the start of an expression is read twice: as the function of an application, and
as an operand. -/
theorem operand_twice {ws : List Word} {x : Expr} (h : Sound C .logic ws x) {i r : List Tok} {m m' k : Nat}
    (hi : i.map Tok.word = ws) (hm : (i ++ r).length < m) (hr : Ends r)
    (hk : k ≤ (parseOne C m (i ++ r)).1) :
    2 * k ≤ (exprN C (parseOne C m) (m' + 1) (i ++ r)).1 := by
  have hnt := h.1.1.noTerm (C := C) hi r
  rw [exprN]
  refine expr_le hnt (noTerm_le hnt (AltLe.alt ?_))
  obtain ⟨t, b, rfl, hop, ht⟩ := h.1.1.first hi
  have hs : ∀ {s}, s ∈ notOpening → Soft (Parse.text s (t :: b ++ r)) := fun hs =>
    text_soft' (fun he => ht (by rw [he]; exact hs)) _
  have hq : Quiet r := .inl hr
  refine .there ?_ (.there ?_ (.there ?_ (.there ?_ ?_)))
  · rw [snd_eq (erase_for C _ _)]
    exact (hs (by decide)).bind _
  · rw [snd_eq (erase_if C _)]
    exact (hs (by decide)).bind _
  · rw [snd_eq (erase_assign C _)]
    exact (hs (by decide)).bind _
  · rw [snd_eq (erase_callable C _)]
    exact callable_soft ((second_starts h.1.2.1 hi (hq.dead.startsNot.mono (by decide))).mono (by decide))
  · rw [Nat.two_mul]
    refine .both ?_ ?_ (.there ?_ (.here (six_le hnt hk)))
    · exact left_bind (AltLe.alt (.here (two_le hnt hk))) _
    · rw [snd_eq (erase_apply C _), erase_parseOne]
      obtain ⟨j, y, h1, h2⟩ := h.1.2.2 _ r m hi hm hq.dead
      rw [Parse.parseApply, alt_hits (.here h1)]
      simp only [PR.bind]
      obtain ⟨e, he⟩ := five_soft (C := C) (n := m) (by omega) h2
      rw [Parse.many1, he]
      exact ⟨_, rfl⟩
    · rw [snd_eq (erase_applyOp C _)]
      exact (((kind_soft hop _).map _).map _).bind _

/-! ### Brackets -/

theorem erase_expr (m : Nat) :
    erase (parseExpr C (parseOne C m)) = Parse.parseExpr C (Parse.parseOne C m) := by
  rw [erase_parseExpr, erase_parseOne]

theorem paren_le {t : Tok} (ht : t.word = pw c!"(") {i : List Tok} {m k : Nat}
    (hk : k ≤ (parseExpr C (parseOne C m) i).1) : k ≤ (parseOne C (m + 1) (t :: i)).1 := by
  rw [parseOne, oneStep]
  refine AltLe.alt (.here ?_)
  exact le_bind (text_word ht i) (left_bind hk _)

theorem list_le {t : Tok} (ht : t.word = pw c!"[") {i : List Tok} {m k : Nat}
    (hk : k ≤ (parseExpr C (parseOne C m) i).1) : k ≤ (parseOne C (m + 1) (t :: i)).1 := by
  rw [parseOne, oneStep]
  refine AltLe.alt (.there ?_ (.there ?_ (.there ?_ (.there ?_ (.here ?_)))))
  · rw [snd_eq (erase_group C _)]; exact (text_word_soft ht (by decide) _).bind _
  · rw [snd_eq (erase_quote C _)]; exact (text_word_soft ht (by decide) _).bind _
  · rw [snd_eq (erase_map C _)]; exact (text_word_soft ht (by decide) _).bind _
  · rw [snd_eq (erase_block C _)]; exact (text_word_soft ht (by decide) _).bind _
  exact le_bind (text_word ht i) (left_bind (separated_le hk) _)

theorem map_le {t t' t'' : Tok} (ht : t.word = pw c!"{") (ht' : Named t'.word)
    (ht'' : t''.word = pw c!"=") {i : List Tok} {m k : Nat}
    (hk : k ≤ (parseExpr C (parseOne C m) i).1) :
    k ≤ (parseOne C (m + 1) (t :: t' :: t'' :: i)).1 := by
  rw [parseOne, oneStep]
  refine AltLe.alt (.there ?_ (.there ?_ (.here ?_)))
  · rw [snd_eq (erase_group C _)]; exact (text_word_soft ht (by decide) _).bind _
  · rw [snd_eq (erase_quote C _)]; exact (text_word_soft ht (by decide) _).bind _
  refine le_bind (text_word ht _) (left_bind (separated_le ?_) _)
  refine le_bind (i := t'' :: i) (a := t'.text) ?_ (le_bind (text_word ht'' _) hk)
  rw [snd_eq (erase_alt _ _)]
  exact named_ok ht' _

/-- Statements with semicolons are read one after the other. -/
theorem semis_steps {m : Nat} {stmts : List (List Word × Expr)}
    (hs : ∀ p ∈ stmts, Sound C .expr p.1 p.2) {i r : List Tok}
    (hi : i.map Tok.word = stmts.flatMap fun p => p.1 ++ [pw c!";"])
    (hm : (i ++ r).length < m) :
    ∃ l, Steps (Parse.parseStatement C (Parse.parseExpr C (Parse.parseOne C m))) (i ++ r) l r := by
  induction stmts generalizing i with
  | nil =>
    simp only [List.flatMap_nil, List.map_eq_nil_iff] at hi
    subst hi
    exact ⟨_, .nil⟩
  | cons p stmts ih =>
    simp only [List.flatMap_cons] at hi
    obtain ⟨a, b, rfl, ha, hb⟩ := split_append hi
    obtain ⟨a, c, rfl, ha', hc⟩ := split_append ha
    obtain ⟨t, c, rfl, ht, hc⟩ := split_cons hc
    simp only [List.map_eq_nil_iff] at hc
    subst hc
    simp only [List.append_assoc, List.cons_append, List.nil_append, List.length_append,
      List.length_cons] at hm ⊢
    obtain ⟨l, hl⟩ := ih (fun p hp => hs p (List.mem_cons_of_mem _ hp)) hb (by simp; omega)
    have h1 := (hs p (List.mem_cons_self ..)).2.2 a (t :: (b ++ r)) m ha' (by simp; omega)
      (ends_of ht (by decide) _)
    exact ⟨_, .cons (statement_semi h1 ht) (by simp; omega) hl⟩

/-- The start of an expression is no entry of a map. -/
theorem mapHead_soft {e : Parser Expr} {w : List Word} {x : Expr} (h : Sound C .expr w x) {t : Tok}
    (ht : t.word = pw c!"{") {j s : List Tok} (hj : j.map Tok.word = w) (hs : Ends s) :
    Soft (Parse.parseMap C e (t :: (j ++ s))) := by
  obtain ⟨e1, he1⟩ : Soft (Parse.parseEntry e (j ++ s)) := by
    apply entry_soft
    rintro a b r hz
    cases j with
    | nil => exact absurd hj.symm h.1.ne_nil
    | cons b1 j =>
      simp only [List.cons_append, List.cons.injEq] at hz
      have h2 : StartsNot [c!"="] (j ++ s) := second_starts h.2.1 hj
        ((Quiet.dead (.inl hs)).startsNot.mono (by decide))
      simpa using h2 b r hz.2
  obtain ⟨e2, he2⟩ : Soft (Parse.text c!"}" (j ++ s)) := by
    apply text_soft
    obtain ⟨w, v, rfl, hw⟩ := h.1
    obtain ⟨y, b, rfl, rfl, _⟩ := split_cons hj
    refine startsNot_cons (fun hm => hw ?_) _
    exact (show [c!"}"] ⊆ closing by decide) hm
  rw [Parse.parseMap, text_word ht]
  simp only [PR.bind, Parse.separatedList0, he1, List.isEmpty_nil, if_true, he2, PR.orError, PR.map]
  exact ⟨_, rfl⟩

theorem statement_le {e : Looker Expr} {i : List Tok} {k : Nat} (hk : k ≤ (e i).1) :
    k ≤ (parseStatement C e i).1 := left_bind hk _

theorem block_le {t t' : Tok} (ht : t.word = pw c!"{") (ht' : t'.word = pw c!"}")
    {stmts : List (List Word × Expr)} (hs : ∀ p ∈ stmts, Sound C .expr p.1 p.2)
    {u : List Word} {y : Expr} (hu : Sound C .expr u y) (hy : ¬ Control y)
    {a b r : List Tok} (ha : a.map Tok.word = stmts.flatMap fun p => p.1 ++ [pw c!";"])
    (hb : b.map Tok.word = u) {m k : Nat} (hm : (a ++ (b ++ t' :: r)).length < m)
    (hk : k ≤ (parseExpr C (parseOne C m) (b ++ t' :: r)).1) :
    2 * k ≤ (parseOne C (m + 1) (t :: (a ++ (b ++ t' :: r)))).1 := by
  obtain ⟨l, hl⟩ := semis_steps (C := C) (m := m) hs (r := b ++ t' :: r) ha hm
  have hm' : (b ++ t' :: r).length < m := by simp at hm ⊢; omega
  have he := hu.2.2 b (t' :: r) m hb hm' (ends_of ht' (by decide) _)
  have hsoft : Soft (Parse.parseStatement C (Parse.parseExpr C (Parse.parseOne C m)) (b ++ t' :: r)) :=
    statement_soft he (fun h => hy (by cases y <;> simp_all [isCtrl, Control]))
      (startsNot_cons (by rw [word_text ht']; decide) _)
  rw [parseOne, oneStep]
  refine AltLe.alt (.there ?_ (.there ?_ (.there ?_ (.here ?_))))
  · rw [snd_eq (erase_group C _)]; exact (text_word_soft ht (by decide) _).bind _
  · rw [snd_eq (erase_quote C _)]; exact (text_word_soft ht (by decide) _).bind _
  · rw [snd_eq (erase_map C _)]
    cases stmts with
    | nil =>
      simp only [List.flatMap_nil, List.map_eq_nil_iff] at ha
      subst ha
      rw [List.nil_append]
      exact mapHead_soft hu ht hb (ends_of ht' (by decide) _)
    | cons p stmts =>
      rw [List.flatMap_cons, List.append_assoc] at ha
      obtain ⟨j, a, rfl, hj, ha⟩ := split_append ha
      obtain ⟨t2, a, rfl, ht2, ha⟩ := split_cons ha
      rw [List.append_assoc]
      exact mapHead_soft (hs p (List.mem_cons_self ..)) ht hj (ends_of ht2 (by decide) _)
  refine le_bind (text_word ht _) (left_bind ?_ _)
  rw [parseScriptTokens, bind_fst_ok (i := b ++ t' :: r) (a := l), Nat.two_mul]
  · refine Nat.add_le_add (many0_le (l := l) ?_ (statement_le hk)) (left_bind (opt_le (left_bind hk _)) _)
    rw [erase_statement, erase_expr]
    exact hl
  · rw [snd_eq (erase_many0 _), erase_statement, erase_expr]
    exact hl.many0 hsoft

theorem nested_expr {n : Nat} {u : List Word} {x : Expr} {P : Plat} (h : Bracketed P n u x) :
    G P .expr u x := by
  induction h with
  | expr h => exact h
  | paren _ h _ => exact .seven (.noCall h)
  | list _ _ h _ => exact .seven (.noCall h)
  | map _ _ _ h _ => exact .seven (.noCall h)
  | block _ _ _ h _ => exact .seven (.noCall h)
  | lambda hx _ ih => exact .lambda hx ih
  | let_ hw _ ih => exact .let_ hw ih

/-- every `parse_expression` looks at the next token -/
theorem exprN_pos (one : Looker Expr) (m : Nat) (i : List Tok) : 1 ≤ (exprN C one (m + 1) i).1 := by
  rw [exprN, exprStep]
  exact left_bind (Nat.le_refl 1) _

theorem nested_le {n : Nat} {u : List Word} {x : Expr} (h : Bracketed C.plat n u x) :
    ∀ {i r : List Tok} {m m' : Nat}, i.map Tok.word = u → (i ++ r).length < m →
      (i ++ r).length < m' → Ends r → 2 ^ n ≤ (exprN C (parseOne C m) m' (i ++ r)).1 := by
  induction h with
  | expr h =>
    intro i r m m' hi hm hm' hr
    obtain ⟨m', rfl⟩ := Nat.exists_eq_succ_of_ne_zero (by omega : m' ≠ 0)
    exact exprN_pos _ _ _
  | @paren n u y v x h hg ih =>
    intro i r m m' hi hm hm' hr
    obtain ⟨m', rfl⟩ := Nat.exists_eq_succ_of_ne_zero (by omega : m' ≠ 0)
    obtain ⟨m, rfl⟩ := Nat.exists_eq_succ_of_ne_zero (by omega : m ≠ 0)
    rw [Nat.pow_succ, Nat.mul_comm]
    refine operand_twice (sound hg) hi hm hr ?_
    obtain ⟨t, b, rfl, ht, hb⟩ := split_cons hi
    obtain ⟨b, c, rfl, hb', hc⟩ := split_append hb
    obtain ⟨t', c, rfl, ht', hc⟩ := split_cons hc
    simp only [List.cons_append, List.append_assoc, List.length_cons] at hm ⊢
    exact paren_le ht (ih hb' (by omega) (Nat.lt_succ_self _) (ends_of ht' (by decide) _))
  | @list n u y c v x h hc hg ih =>
    intro i r m m' hi hm hm' hr
    obtain ⟨m', rfl⟩ := Nat.exists_eq_succ_of_ne_zero (by omega : m' ≠ 0)
    obtain ⟨m, rfl⟩ := Nat.exists_eq_succ_of_ne_zero (by omega : m ≠ 0)
    rw [Nat.pow_succ, Nat.mul_comm]
    refine operand_twice (sound hg) hi hm hr ?_
    obtain ⟨t, b, rfl, ht, hb⟩ := split_cons hi
    obtain ⟨b, d, rfl, hb', hd⟩ := split_append hb
    obtain ⟨t', d, rfl, ht', hd⟩ := split_cons hd
    simp only [List.cons_append, List.append_assoc, List.length_cons] at hm ⊢
    exact list_le ht (ih hb' (by omega) (Nat.lt_succ_self _) (ends_of ht'
      ((show ∀ s ∈ [c!"]", c!","], s ∈ [c!";", c!",", c!"]", c!")", c!"}"] by decide) c hc) _))
  | @map n w u y c v x hw h hc hg ih =>
    intro i r m m' hi hm hm' hr
    obtain ⟨m', rfl⟩ := Nat.exists_eq_succ_of_ne_zero (by omega : m' ≠ 0)
    obtain ⟨m, rfl⟩ := Nat.exists_eq_succ_of_ne_zero (by omega : m ≠ 0)
    rw [Nat.pow_succ, Nat.mul_comm]
    refine operand_twice (sound hg) hi hm hr ?_
    obtain ⟨t, b, rfl, ht, hb⟩ := split_cons hi
    obtain ⟨t1, b, rfl, rfl, hb1⟩ := split_cons hb
    obtain ⟨t2, b, rfl, ht2, hb2⟩ := split_cons hb1
    obtain ⟨b, d, rfl, hb', hd⟩ := split_append hb2
    obtain ⟨t', d, rfl, ht', hd⟩ := split_cons hd
    simp only [List.cons_append, List.append_assoc, List.length_cons] at hm ⊢
    exact map_le ht hw ht2 (ih hb' (by omega) (Nat.lt_succ_self _) (ends_of ht'
      ((show ∀ s ∈ [c!"}", c!","], s ∈ [c!";", c!",", c!"]", c!")", c!"}"] by decide) c hc) _))
  | @block n u y v x stmts hs h hy hg ih =>
    intro i r m m' hi hm hm' hr
    obtain ⟨m', rfl⟩ := Nat.exists_eq_succ_of_ne_zero (by omega : m' ≠ 0)
    obtain ⟨m, rfl⟩ := Nat.exists_eq_succ_of_ne_zero (by omega : m ≠ 0)
    rw [show 2 ^ (n + 2) = 2 * (2 * 2 ^ n) by rw [Nat.pow_succ, Nat.pow_succ]; omega]
    refine operand_twice (sound hg) hi hm hr ?_
    obtain ⟨t, b, rfl, ht, hb⟩ := split_cons hi
    obtain ⟨a, b, rfl, ha, hb⟩ := split_append hb
    obtain ⟨b, c, rfl, hb', hc⟩ := split_append hb
    obtain ⟨t', c, rfl, ht', hc⟩ := split_cons hc
    simp only [List.cons_append, List.append_assoc, List.length_cons] at hm ⊢
    refine block_le ht ht' (fun p hp => sound (hs p hp)) (sound (nested_expr h)) hy ha hb' (by omega)
      (ih hb' (by simp at hm ⊢; omega) (Nat.lt_succ_self _) (ends_of ht' (by decide) _))
  | @lambda n x u b hx h ih =>
    intro i r m m' hi hm hm' hr
    obtain ⟨m', rfl⟩ := Nat.exists_eq_succ_of_ne_zero (by omega : m' ≠ 0)
    obtain ⟨t, i, rfl, ht, hi⟩ := split_cons hi
    obtain ⟨t', i, rfl, ht', hi⟩ := split_cons hi
    simp only [List.cons_append, List.length_cons] at hm hm' ⊢
    have hnt : Parse.noTermPunct C (t :: t' :: (i ++ r)) = .ok _ () :=
      noTerm_ok' (by rw [word_kind ht]; simp) _
    have hs : ∀ {s}, s ∈ reserved → Soft (Parse.text s (t :: t' :: (i ++ r))) := fun hs =>
      text_soft' (fun he => hx (by rw [← word_text ht, he]; exact hs)) _
    rw [exprN]
    refine expr_le hnt (noTerm_le hnt (AltLe.alt (.there ?_ (.there ?_ (.there ?_ (.here ?_))))))
    · rw [snd_eq (erase_for C _ _)]; exact (hs (by decide)).bind _
    · rw [snd_eq (erase_if C _)]; exact (hs (by decide)).bind _
    · rw [snd_eq (erase_assign C _)]; exact (hs (by decide)).bind _
    refine le_bind (i := t' :: (i ++ r)) (a := t.text) ?_ (le_bind (i := i ++ r) (a := t') ?_ ?_)
    · show Parse.parseSymbol _ = _
      rw [Parse.parseSymbol, kind_ok (word_kind ht)]; rfl
    · rw [snd_eq (erase_alt _ _)]
      exact texts_ok (l := [c!"~>"]) (by rw [word_text ht']; decide) _
    · exact ih hi (by omega) (by omega) hr
  | @let_ n w u x hw h ih =>
    intro i r m m' hi hm hm' hr
    obtain ⟨m', rfl⟩ := Nat.exists_eq_succ_of_ne_zero (by omega : m' ≠ 0)
    obtain ⟨t, i, rfl, ht, hi⟩ := split_cons hi
    obtain ⟨t', i, rfl, rfl, hi1⟩ := split_cons hi
    obtain ⟨t'', i, rfl, ht'', hi⟩ := split_cons hi1
    simp only [List.cons_append, List.length_cons] at hm hm' ⊢
    have hnt : Parse.noTermPunct C (t :: t' :: t'' :: (i ++ r)) = .ok _ () :=
      noTerm_ok' (by rw [word_kind ht]; simp) _
    rw [exprN]
    refine expr_le hnt (noTerm_le hnt (AltLe.alt (.there ?_ (.there ?_ (.here ?_)))))
    · rw [snd_eq (erase_for C _ _)]; exact (text_word_soft ht (by decide) _).bind _
    · rw [snd_eq (erase_if C _)]; exact (text_word_soft ht (by decide) _).bind _
    refine le_bind (text_word ht _) (le_bind (i := t'' :: (i ++ r)) (a := t'.text) ?_
      (le_bind (i := i ++ r) (a := t'') ?_ ?_))
    · rw [orFail_snd, snd_eq (erase_alt _ _)]
      simp only [erase_symbol, List.map_cons, List.map_nil, erase_operator]
      rw [named_ok hw]; rfl
    · rw [orFail_snd, snd_eq (erase_text _), text_word ht'']; rfl
    · exact ih hi (by omega) (by omega) hr

theorem scriptN_fst (m : Nat) (i : List Tok) :
    (scriptN C m i).1 = (parseScriptTokens C (parseExpr C (parseOne C m)) true i).1 := by
  rw [scriptN]
  rcases parseScriptTokens C (parseExpr C (parseOne C m)) true i with ⟨k, q⟩
  cases q <;> rfl

theorem nested_tokens {n m : Nat} {u : List Word} {x : Expr} (h : Bracketed C.plat n u x)
    {i r : List Tok} (hi : i.map Tok.word = u) (hr : Ends r) (hm : (i ++ r).length < m) (b : Bool) :
    2 ^ n ≤ (parseScriptTokens C (parseExpr C (parseOne C m)) b (i ++ r)).1 := by
  rw [parseScriptTokens]
  refine left_bind (many0_le (j := i ++ r) (l := []) .nil (statement_le ?_)) _
  rw [parseExpr]
  exact nested_le h (C := C) hi (by omega) (by omega) hr

/-- The first expression of a script, followed by anything. -/
theorem nested_script {n : Nat} {u : List Word} {x : Expr} (h : Bracketed C.plat n u x)
    {i r : List Tok} (hi : i.map Tok.word = u) (hr : r = [] ∨ Closes c!";" r) (m : Nat)
    (hm : (i ++ r).length < m) : 2 ^ n ≤ (scriptN C m (i ++ r)).1 := by
  have hr' : Ends r := by
    rcases hr with rfl | ⟨t, r, rfl, ht⟩
    · exact .inl rfl
    · exact ends_of ht (by decide) _
  rw [scriptN_fst]
  exact nested_tokens h hi hr' hm true

end

end Dune.Looks
