import Verif.Proof.Nested
/-! Commands without brackets and operators are read in linear time. -/

namespace Dune.Looks
open Parse Spec

variable {α β : Type}

theorem bind_soft {r : LR α} (h : Soft r.2) (f : List Tok → α → LR β) : (r.bind f).1 = r.1 := by
  obtain ⟨n, r⟩ := r
  obtain ⟨e, rfl⟩ := h
  rfl

theorem bind_pure (r : LR α) (g : List Tok → α → β) :
    (r.bind fun i a => LR.pure i (g i a)).1 = r.1 := by
  obtain ⟨n, r⟩ := r
  cases r <;> rfl

theorem alt_first {p : Looker α} {i r : List Tok} {x : α} (h : (p i).2 = .ok r x)
    (ps : List (Looker α)) : alt p ps i = p i := by
  rw [alt]
  rcases hp : p i with ⟨n, q⟩
  rw [hp] at h
  simp only at h
  subst h
  rfl

/-- At most `k` looks are spent on the alternatives. -/
def AltUp (k : Nat) (ps : List (Looker α)) (i : List Tok) : Prop := ∀ e, (altGo i e ps).1 ≤ k

theorem AltUp.nil {i : List Tok} : AltUp 0 ([] : List (Looker α)) i := fun _ => Nat.le_refl _

theorem AltUp.cons {p : Looker α} {ps : List (Looker α)} {i : List Tok} {k m : Nat}
    (h : (p i).1 ≤ k) (hm : AltUp m ps i) : AltUp (k + m) (p :: ps) i := by
  intro e
  rw [altGo]
  rcases hp : p i with ⟨n, r⟩
  rw [hp] at h
  cases r with
  | error e' =>
    have := hm (errOr e e')
    simp only [LR.add] at h ⊢
    omega
  | _ => simp only at h ⊢; omega

theorem AltUp.alt {p : Looker α} {ps : List (Looker α)} {i : List Tok} {k : Nat}
    (h : AltUp k (p :: ps) i) : (alt p ps i).1 ≤ k := by
  have := h .internalError
  rw [altGo] at this
  rw [Looks.alt]
  rcases hp : p i with ⟨n, r⟩
  rw [hp] at this
  cases r <;> exact this

theorem altUp_texts (l : List Str) (i : List Tok) : AltUp l.length (l.map text) i := by
  induction l with
  | nil => exact .nil
  | cons s l ih =>
    rw [List.length_cons, Nat.add_comm]
    exact .cons (Nat.le_refl 1) ih

theorem texts_up (s : Str) (l : List Str) (i : List Tok) :
    (alt (text s) (l.map text) i).1 ≤ l.length + 1 := (altUp_texts (s :: l) i).alt

theorem many0_soft {p : Looker α} {i : List Tok} (h : Soft (p i).2) :
    (many0 p i).1 = (p i).1 ∧ (many0 p i).2 = .ok i [] := by
  refine ⟨?_, ?_⟩
  · obtain ⟨e, he⟩ := h
    rw [many0, manyGo]
    rcases hp : p i with ⟨n, r⟩
    rw [hp] at he
    simp only at he
    subst he
    rfl
  · rw [snd_eq (erase_many0 p)]
    exact many0_stop h

section
variable {C : Ctx} {one : Looker Expr} {i : List Tok}

/-- Without a bracket or quote, a constant number of looks decides on a literal or name. -/
theorem one_up (h : StartsNot [c!"(", c!"'", c!"{", c!"["] i) : (oneStep C one i).1 ≤ 12 := by
  have hs : ∀ s, s ∈ [c!"(", c!"'", c!"{", c!"["] → Soft (Parse.text s i) := fun s hm =>
    text_soft (h.mono (by simpa using hm))
  rw [oneStep]
  refine AltUp.alt (k := 1 + (1 + (1 + (1 + (1 + (1 + (2 + (1 + (1 + (1 + (1 + 0))))))))))) ?_
  refine .cons ?_ (.cons ?_ (.cons ?_ (.cons ?_ (.cons ?_ (.cons (Nat.le_refl 1) (.cons ?_
    (.cons (Nat.le_refl 1) (.cons (Nat.le_refl 1) (.cons (Nat.le_refl 1)
    (.cons (Nat.le_refl 1) .nil))))))))))
  · rw [parseGroup, bind_soft (hs _ (by decide))]; exact Nat.le_refl 1
  · rw [parseQuote, bind_soft (hs _ (by decide))]; exact Nat.le_refl 1
  · rw [parseMap, bind_soft (hs _ (by decide))]; exact Nat.le_refl 1
  · rw [parseBlock, bind_soft (hs _ (by decide))]; exact Nat.le_refl 1
  · rw [parseList, bind_soft (hs _ (by decide))]; exact Nat.le_refl 1
  · show (parseNone C i).1 ≤ 2
    rw [parseNone, LR.map]
    cases hq : (text c!"None" i).2 <;>
      simp only [PR.map, PR.bind, LR.orElseAny, text, look] <;> omega

theorem two_up {c : Nat} {r : List Tok} {x : Expr} (hnt : Parse.noTermPunct C i = .ok i ())
    (hc : (one i).1 ≤ c) (h1 : (one i).2 = .ok r x) (hr : StartsNot [c!"@"] r) :
    (precTwo C one i).1 ≤ c + 2 := by
  have hs : Soft (preceded (text c!"@") (alt one [operatorAsSymbol]) r).2 := by
    rw [snd_eq (erase_preceded _ _)]
    exact (text_soft hr).bind _
  rw [precTwo, bind_fst_ok hnt, bind_fst_ok h1, bind_fst_ok (many0_soft hs).2, (many0_soft hs).1,
    preceded, bind_soft (text_soft hr)]
  simp only [noTermPunct, look, text, LR.pure]
  omega

theorem chain_up {p : Looker Expr} {ops : Looker Tok} {c d : Nat} {r : List Tok} {x : Expr}
    (hnt : Parse.noTermPunct C i = .ok i ()) (hc : (p i).1 ≤ c) (h1 : (p i).2 = .ok r x)
    (hd : (ops r).1 ≤ d) (hr : Soft (ops r).2) :
    ((noTermPunct C i).bind fun _ _ => (p i).bind fun i head =>
      (many0 (pair ops p) i).bind fun i list => LR.pure i (leftFold head list)).1 ≤ 1 + c + d := by
  have hs : Soft (pair ops p r).2 := by
    rw [snd_eq (erase_pair _ _)]
    exact hr.bind _
  rw [bind_fst_ok hnt, bind_fst_ok h1, bind_fst_ok (many0_soft hs).2, (many0_soft hs).1,
    pair, bind_soft hr]
  simp only [noTermPunct, look, LR.pure]
  omega

theorem texts_soft_snd {s : Str} {l : List Str} {r : List Tok} (h : StartsNot (s :: l) r) :
    Soft (alt (text s) (l.map text) r).2 := by
  rw [snd_eq (erase_alt _ _), List.map_map]
  exact texts_soft h

theorem five_up {c : Nat} {r : List Tok} {x : Expr} (hnt : Parse.noTermPunct C i = .ok i ())
    (hc : (precFour C one i).1 ≤ c) (h1 : (precFour C one i).2 = .ok r x)
    (hr : StartsNot (relOps ++ [c!"to", c!"!"]) r) : (precFive C one i).1 ≤ c + 9 := by
  have h6 := texts_up c!"==" [c!"!=", c!">=", c!"<=", c!">", c!"<"] r
  have h6' := texts_soft_snd (s := c!"==") (l := [c!"!=", c!">=", c!"<=", c!">", c!"<"])
    (r := r) (hr.mono (by decide))
  simp only [List.map_cons, List.map_nil, List.length_cons, List.length_nil] at h6 h6'
  have hs : Soft (pair (alt (text c!"==")
      [text c!"!=", text c!">=", text c!"<=", text c!">", text c!"<"]) (precFour C one) r).2 := by
    rw [snd_eq (erase_pair _ _)]
    exact Soft.bind h6' _
  have hto : Soft (text c!"to" r).2 := text_soft (hr.mono (by decide))
  have hno : Soft (text c!"!" r).2 := text_soft (hr.mono (by decide))
  rw [precFive, bind_fst_ok hnt, bind_fst_ok h1, bind_fst_ok (many0_soft hs).2, (many0_soft hs).1,
    pair, bind_soft h6']
  simp only [List.isEmpty_nil, if_true]
  obtain ⟨e, he⟩ := hto
  rcases ht : text c!"to" r with ⟨n, q⟩
  have hn : n = 1 := by have := congrArg Prod.fst ht; simpa [text, look] using this.symm
  rw [ht] at he
  simp only at he
  subst he
  have hnot : ((parseNot C one r).orElseAny (LR.pure r x)).1 = 1 := by
    rw [parseNot]
    obtain ⟨e, he⟩ := hno
    rcases ht : text c!"!" r with ⟨n, q⟩
    have hn : n = 1 := by have := congrArg Prod.fst ht; simpa [text, look] using this.symm
    rw [ht] at he
    simp only at he
    subst he hn
    rfl
  simp only [LR.add, hnot, hn]
  simp only [noTermPunct, look]
  omega

end

section
variable {C : Ctx}

theorem snd_parse {p : Looker α} {q : Parser α} {i r : List Tok} {x : α} (h : erase p = q)
    (hq : q i = .ok r x) : (p i).2 = .ok r x := by rw [snd_eq h]; exact hq

/-- What is known of an argument that is a literal or a name. -/
structure AtomCost (C : Ctx) (m : Nat) (t : Tok) (r : List Tok) : Prop where
  two : (precTwo C (parseOne C m) (t :: r)).1 ≤ 14
  five : (precFive C (parseOne C m) (t :: r)).1 ≤ 30
  six : (precSix C (parseOne C m) (t :: r)).1 ≤ 33

theorem atom_cost {t : Tok} {x : Expr} (h : Atom C.plat t.word x) {m : Nat} {r : List Tok}
    (hm : (t :: r).length < m) (hr : StartsNot s6 r) : AtomCost C m t r := by
  have hb := sound_atom h
  have hi : [t].map Tok.word = [t.word] := rfl
  have hnt : Parse.noTermPunct C (t :: r) = .ok (t :: r) () := hb.1.noTerm hi r
  have e0 := erase_parseOne C m
  have hone : (parseOne C m (t :: r)).2 = .ok r x := snd_parse e0 (hb.2.2 [t] r m hi hm)
  have h12 : (parseOne C m (t :: r)).1 ≤ 12 := by
    cases m with
    | zero => simp at hm
    | succ m =>
      refine one_up (startsNot_cons (fun hmem => ?_) _)
      rcases Atom.notReserved h with hw | ⟨hw, _⟩
      · rw [word_text hw] at hmem
        exact absurd hmem (by decide)
      · exact hw ((show [c!"(", c!"'", c!"{", c!"["] ⊆ reserved by decide) hmem)
  have h2 := two_of_base hb
  have h3 := prod_of_two h2
  have h4 := sum_of_prod h3
  have h5 := cmp_of_rel (rel_of_sum h4)
  have two := two_up hnt h12 hone (hr.mono (by decide))
  have r2 : (precTwo C (parseOne C m) (t :: r)).2 = .ok r x := by
    rw [snd_eq (erase_two C _), e0]
    exact two_run h2 hi hm (hr.mono (by decide))
  have three := chain_up (ops := alt (text c!"*") [text c!"//", text c!"%"]) hnt two r2
    (texts_up _ [_, _] r) (texts_soft_snd (l := [_, _]) (hr.mono (by decide)))
  have r3 : (precThree C (parseOne C m) (t :: r)).2 = .ok r x := by
    rw [snd_eq (erase_three C _), e0]
    exact prod_run h3 hi hm (hr.mono (by decide))
  have four := chain_up (ops := alt (text c!"+") [text c!"-"]) hnt three r3
    (texts_up _ [_] r) (texts_soft_snd (l := [_]) (hr.mono (by decide)))
  have r4 : (precFour C (parseOne C m) (t :: r)).2 = .ok r x := by
    rw [snd_eq (erase_four C _), e0]
    exact sum_run h4 hi hm (hr.mono (by decide))
  have five := five_up hnt four r4 (hr.mono (by decide))
  have r5 : (precFive C (parseOne C m) (t :: r)).2 = .ok r x := by
    rw [snd_eq (erase_five C _), e0]
    exact h5.2 [t] r m hi hm (hr.mono (by decide))
  have six := chain_up (ops := alt (text c!"&&") [text c!"||"]) hnt five r5
    (texts_up _ [_] r) (texts_soft_snd (l := [_]) (hr.mono (by decide)))
  exact ⟨two, five, six⟩

theorem _root_.Dune.Spec.PlainWords.starts {ws : List Word} (h : PlainWords C.plat ws) {i r : List Tok} (hi : i.map Tok.word = ws)
    (hr : Quiet r) : StartsNot s6 (i ++ r) := by
  cases i with
  | nil => exact hr.startsNot
  | cons t i =>
    subst hi
    obtain ⟨x, hx⟩ := h t.word (by simp)
    refine startsNot_cons (fun hm => ?_) _
    rcases Atom.notReserved hx with hw | ⟨hw, _⟩
    · rw [word_text hw] at hm
      exact absurd hm (by decide)
    · exact hw ((show s6 ⊆ reserved by decide) hm)

theorem _root_.Dune.Spec.PlainWords.cmps {P : Plat} {ws : List Word} (h : PlainWords P ws) (hne : ws ≠ []) :
    ∃ l, G P .args ws l := by
  induction ws with
  | nil => exact absurd rfl hne
  | cons w ws ih =>
    obtain ⟨x, hx⟩ := h w (by simp)
    have hc : G P .cmp [w] x := .rel (.sum (.prod (.two (.base (.atom hx)))))
    cases ws with
    | nil => exact ⟨_, .arg hc⟩
    | cons w' ws =>
      obtain ⟨l, hl⟩ := ih (fun v hv => h v (List.mem_cons_of_mem _ hv)) (by simp)
      exact ⟨_, .args hc hl⟩

theorem _root_.Dune.Spec.PlainWords.seven {P : Plat} {ws : List Word} (h : PlainWords P ws) (hne : ws ≠ []) :
    ∃ x, G P .seven ws x := by
  cases ws with
  | nil => exact absurd rfl hne
  | cons w ws =>
    obtain ⟨x, hx⟩ := h w (by simp)
    cases ws with
    | nil => exact ⟨_, .noCall (.cmp (.rel (.sum (.prod (.two (.base (.atom hx)))))))⟩
    | cons w' ws =>
      obtain ⟨l, hl⟩ := PlainWords.cmps (ws := w' :: ws) (fun v hv => h v (List.mem_cons_of_mem _ hv))
        (by simp)
      exact ⟨_, .call (u := [w]) (.base (.atom hx)) hl⟩

/-- no argument starts at a separator -/
theorem five_end {t : Tok} (ht : t.word = pw c!";") (one : Looker Expr) (r : List Tok) :
    (precFive C one (t :: r)).1 = 1 ∧ Soft (precFive C one (t :: r)).2 := by
  have hs : Soft (noTermPunct C (t :: r)).2 := noTerm_soft ht (by decide) r
  refine ⟨by rw [precFive, bind_soft hs]; rfl, ?_⟩
  rw [precFive, bind_snd]
  exact hs.bind _

theorem arg_run {a : Tok} {x : Expr} (h : Atom C.plat a.word x) {r : List Tok} {m : Nat}
    (hr : StartsNot s6 r) (hm : (a :: r).length < m) :
    (precFive C (parseOne C m) (a :: r)).1 ≤ 30 ∧ (precFive C (parseOne C m) (a :: r)).2 = .ok r x := by
  refine ⟨(atom_cost h hm hr).five, ?_⟩
  rw [snd_eq (erase_five C _), erase_parseOne]
  exact (cmp_of_rel (rel_of_sum (sum_of_prod (prod_of_two (two_of_base (sound_atom h)))))).2
    [a] _ m rfl hm (hr.mono (by decide))

theorem args_up {kind : Str} {m : Nat} {t : Tok} (ht : t.word = pw c!";") {r : List Tok}
    {ws : List Word} (h : PlainWords C.plat ws) {i : List Tok} (hi : i.map Tok.word = ws)
    (hm : (i ++ t :: r).length < m) (n : Nat) :
    (manyGo kind (precFive C (parseOne C m)) n (i ++ t :: r)).1 ≤ 30 * i.length + 1 := by
  induction i generalizing ws n with
  | nil =>
    cases n with
    | zero => simp [manyGo]
    | succ n =>
      rw [manyGo, List.nil_append]
      obtain ⟨h1, e, h2⟩ := five_end (C := C) ht (parseOne C m) r
      rcases hp : precFive C (parseOne C m) (t :: r) with ⟨k, q⟩
      rw [hp] at h1 h2
      simp only at h1 h2
      subst h2
      simp only
      omega
  | cons a i ih =>
    subst hi
    cases n with
    | zero => simp [manyGo]
    | succ n =>
      have hq : Quiet (t :: r) := .inl (ends_of ht (by decide) r)
      have h' : PlainWords C.plat (i.map Tok.word) := fun w hw => h w (by simp at hw ⊢; exact .inr hw)
      obtain ⟨x, hx⟩ := h a.word (by simp)
      obtain ⟨hcost, hres⟩ := arg_run hx (h'.starts rfl hq) hm
      have ih := ih h' rfl (by simp at hm ⊢; omega) n
      rw [manyGo, List.cons_append]
      rcases hp : precFive C (parseOne C m) (a :: (i ++ t :: r)) with ⟨k, q⟩
      rw [hp] at hcost hres
      simp only at hcost hres
      subst hres
      simp only
      rw [if_neg (by simp)]
      simp only [LR.add, LR.map, List.length_cons]
      omega

theorem many1_up {m : Nat} {t : Tok} (ht : t.word = pw c!";") {r : List Tok}
    {ws : List Word} (h : PlainWords C.plat ws) {i : List Tok} (hi : i.map Tok.word = ws)
    (hm : (i ++ t :: r).length < m) :
    (many1 (precFive C (parseOne C m)) (i ++ t :: r)).1 ≤ 30 * i.length + 1 := by
  cases i with
  | nil =>
    rw [many1, List.nil_append]
    obtain ⟨h1, e, h2⟩ := five_end (C := C) ht (parseOne C m) r
    rcases hp : precFive C (parseOne C m) (t :: r) with ⟨k, q⟩
    rw [hp] at h1 h2
    simp only at h1 h2
    subst h2
    simp only
    omega
  | cons a i =>
    subst hi
    have hq : Quiet (t :: r) := .inl (ends_of ht (by decide) r)
    have h' : PlainWords C.plat (i.map Tok.word) := fun w hw => h w (by simp at hw ⊢; exact .inr hw)
    obtain ⟨x, hx⟩ := h a.word (by simp)
    obtain ⟨h1, h2⟩ := arg_run hx (h'.starts rfl hq) hm
    rw [many1, List.cons_append]
    rcases hp : precFive C (parseOne C m) (a :: (i ++ t :: r)) with ⟨k, q⟩
    rw [hp] at h1 h2
    simp only at h1 h2
    subst h2
    have := args_up (kind := c!"Many1") ht h' rfl (by simp at hm ⊢; omega : (i ++ t :: r).length < m)
      ((i ++ t :: r).length + 1)
    simp only [LR.add, LR.map, List.length_cons]
    omega

/-- a command -/
theorem command_up {m : Nat} {t : Tok} (ht : t.word = pw c!";") {r : List Tok}
    {ws : List Word} (h : PlainWords C.plat ws) (hne : ws ≠ []) {i : List Tok} (hi : i.map Tok.word = ws)
    (hm : (i ++ t :: r).length < m) :
    (parseExpr C (parseOne C m) (i ++ t :: r)).1 ≤ 30 * i.length + 31 := by
  subst hi
  have hq : Quiet (t :: r) := .inl (ends_of ht (by decide) r)
  obtain ⟨x7, hx7⟩ := h.seven hne
  have h7 := sound (C := C) hx7
  cases i with
  | nil => exact absurd rfl hne
  | cons a i =>
    have h' : PlainWords C.plat (i.map Tok.word) := fun w hw => h w (by simp at hw ⊢; exact .inr hw)
    obtain ⟨x, hx⟩ := h a.word (by simp)
    have hst := h'.starts (i := i) rfl hq
    have hc := atom_cost (C := C) (m := m) hx hm hst
    have hb := sound_atom hx
    have hnt : Parse.noTermPunct C (a :: (i ++ t :: r)) = .ok (a :: (i ++ t :: r)) () :=
      hb.1.noTerm (i := [a]) rfl _
    obtain ⟨a', b', he, hop, hn⟩ := hb.1.first (i := [a]) rfl
    simp only [List.cons.injEq] at he
    obtain ⟨rfl, rfl⟩ := he
    have hs : ∀ {s}, s ∈ notOpening → Soft (Parse.text s (a :: (i ++ t :: r))) := fun hs =>
      text_soft' (fun he => hn (by rw [he]; exact hs)) _
    have hr2 : (precTwo C (parseOne C m) (a :: (i ++ t :: r))).2 = .ok (i ++ t :: r) x := by
      rw [snd_eq (erase_two C _), erase_parseOne]
      exact two_run (two_of_base hb) (i := [a]) rfl hm (hst.mono (by decide))
    have hm1 := many1_up (C := C) ht h' rfl (by simp at hm ⊢; omega : (i ++ t :: r).length < m)
    rw [parseExpr, exprN, List.cons_append]
    generalize exprN C (parseOne C m) (a :: (i ++ t :: r)).length = e
    have hseven : (precSeven C (parseOne C m) e (a :: (i ++ t :: r))).1 ≤ 30 * i.length + 56 := by
      rw [precSeven, bind_fst_ok hnt]
      refine Nat.le_trans (Nat.add_le_add_left (AltUp.alt
        (k := 1 + (1 + (1 + (3 + (14 + (30 * i.length + 1) + (1 + (33 + 0))))))) ?_) _) ?_
      · refine .cons ?_ (.cons ?_ (.cons ?_ (.cons ?_ (.cons ?_ (.cons ?_ (.cons hc.six .nil))))))
        · rw [parseFor, bind_soft (hs (by decide))]; exact Nat.le_refl 1
        · rw [parseIf, parseIfN, bind_soft (hs (by decide))]; exact Nat.le_refl 1
        · rw [parseAssign, bind_soft (hs (by decide))]; exact Nat.le_refl 1
        · have hto : StartsNot [c!"->", c!"~>"] (i ++ t :: r) := by
            cases i with
            | nil => exact startsNot_cons (by rw [word_text ht]; decide) r
            | cons b i =>
              obtain ⟨y, hy⟩ := h' b.word (by simp)
              refine startsNot_cons (fun hm => ?_) _
              rcases Atom.notReserved hy with hw | ⟨hw, _⟩
              · rw [word_text hw] at hm
                exact absurd hm (by decide)
              · exact hw ((show [c!"->", c!"~>"] ⊆ reserved by decide) hm)
          rw [parseCallable]
          by_cases hk : a.kind = .symbol
          · have h1 : (parseSymbol (a :: (i ++ t :: r))).2 = .ok (i ++ t :: r) a.text := by
              show Parse.parseSymbol _ = _
              rw [Parse.parseSymbol, kind_ok hk]; rfl
            have hsoft := texts_soft_snd (s := c!"->") (l := [c!"~>"]) hto
            have h2 := texts_up c!"->" [c!"~>"] (i ++ t :: r)
            simp only [List.map_cons, List.map_nil, List.length_cons, List.length_nil] at hsoft h2
            rw [bind_fst_ok h1, bind_soft hsoft]
            show 1 + _ ≤ 3
            omega
          · rw [bind_soft (show Soft (parseSymbol _).2 from (kind_soft hk _).map _)]
            exact (by decide : 1 ≤ 3)
        · have h2 := alt_first hr2 [operatorAsSymbol]
          rw [parseApply, h2, bind_fst_ok hr2, bind_pure]
          exact Nat.add_le_add hc.two hm1
        · rw [parseApplyOperator, bind_soft]
          · exact Nat.le_refl 1
          · exact ((kind_soft hop _).map _).map _
      · show 1 + _ ≤ _
        omega
    have h7' : (precSeven C (parseOne C m) e (a :: (i ++ t :: r))).2 = .ok (t :: r) x7 := by
      rw [snd_eq (erase_seven C _ _), erase_parseOne]
      exact h7.2.2 (a :: i) (t :: r) m _ rfl hm hq
    have hsoft := texts_soft_snd (s := c!"|") (l := [c!">>>", c!">>", c!"<<"]) (r := t :: r)
      (startsNot_cons (by rw [word_text ht]; decide) r)
    have h4 := texts_up c!"|" [c!">>>", c!">>", c!"<<"] (t :: r)
    simp only [List.map_cons, List.map_nil, List.length_cons, List.length_nil] at hsoft h4
    have hp : Soft (pair (alt (text c!"|") [text c!">>>", text c!">>", text c!"<<"])
        (precSeven C (parseOne C m) e) (t :: r)).2 := by
      rw [snd_eq (erase_pair _ _)]
      exact Soft.bind hsoft _
    rw [exprStep, bind_fst_ok hnt, bind_fst_ok h7', bind_pure, (many0_soft hp).1, pair,
      bind_soft hsoft]
    show 1 + _ ≤ 30 * (i.length + 1) + 31
    omega

/-- at the end of the text -/
theorem expr_nil (m : Nat) (hm : 0 < m) :
    (parseExpr C (parseOne C m) []).1 ≤ 38 ∧ Soft (parseExpr C (parseOne C m) []).2 := by
  refine ⟨?_, ?_⟩
  · obtain ⟨m, rfl⟩ := Nat.exists_eq_succ_of_ne_zero (by omega : m ≠ 0)
    have h1 : (parseOne C (m + 1) []).1 ≤ 12 := one_up startsNot_nil
    have hs : Soft (parseOne C (m + 1) []).2 := by
      rw [snd_eq (erase_parseOne C _)]
      exact one_soft (by omega) (.inl rfl)
    generalize parseOne C (m + 1) = one at h1 hs ⊢
    have hnt : (noTermPunct C []).2 = .ok [] () := rfl
    have s2 : (precTwo C one []).1 ≤ 13 ∧ Soft (precTwo C one []).2 := by
      rw [precTwo, bind_fst_ok hnt, bind_soft hs, bind_snd, bind_snd]
      refine ⟨?_, hs.bind _⟩
      show 1 + _ ≤ _
      omega
    have s3 : (precThree C one []).1 ≤ 14 ∧ Soft (precThree C one []).2 := by
      rw [precThree, bind_fst_ok hnt, bind_soft s2.2, bind_snd, bind_snd]
      refine ⟨?_, s2.2.bind _⟩
      show 1 + _ ≤ _
      omega
    have s4 : (precFour C one []).1 ≤ 15 ∧ Soft (precFour C one []).2 := by
      rw [precFour, bind_fst_ok hnt, bind_soft s3.2, bind_snd, bind_snd]
      refine ⟨?_, s3.2.bind _⟩
      show 1 + _ ≤ _
      omega
    have s5 : (precFive C one []).1 ≤ 16 ∧ Soft (precFive C one []).2 := by
      rw [precFive, bind_fst_ok hnt, bind_soft s4.2, bind_snd, bind_snd]
      refine ⟨?_, s4.2.bind _⟩
      show 1 + _ ≤ _
      omega
    have s6 : (precSix C one []).1 ≤ 17 := by
      rw [precSix, bind_fst_ok hnt, bind_soft s5.2]
      show 1 + _ ≤ _
      omega
    have hap : (alt (precTwo C one) [operatorAsSymbol] []).1 ≤ 13 + (1 + 0) :=
      AltUp.alt (.cons s2.1 (.cons (Nat.le_refl 1) .nil))
    have hap' : Soft (alt (precTwo C one) [operatorAsSymbol] []).2 := by
      rw [snd_eq (erase_alt _ _)]
      refine alt_soft ?_
      simp only [List.map_cons, List.map_nil, List.forall_mem_cons]
      exact ⟨s2.2, ⟨_, rfl⟩, by simp⟩
    have h7 : ∀ e, (precSeven C one e []).1 ≤ 1 + (1 + (1 + (1 + (1 + (14 + (1 + (17 + 0))))))) := by
      intro e
      rw [precSeven, bind_fst_ok hnt]
      refine Nat.add_le_add_left (AltUp.alt ?_) 1
      refine .cons (Nat.le_refl 1) (.cons (Nat.le_refl 1) (.cons (Nat.le_refl 1)
        (.cons (Nat.le_refl 1) (.cons ?_ (.cons (Nat.le_refl 1) (.cons s6 .nil))))))
      rw [parseApply, bind_soft hap']
      exact hap
    have h7' : ∀ e, Soft (precSeven C one e []).2 := by
      intro e
      rw [snd_eq (erase_seven C _ _)]
      show Soft (Parse.alt (Parse.parseFor C (erase one) (erase e)) [Parse.parseIf C (erase one),
        Parse.parseAssign C (erase e), Parse.parseCallable C (erase e), Parse.parseApply C (erase one),
        Parse.parseApplyOperator C (erase one), Parse.precSix C (erase one)] [])
      refine alt_soft ?_
      simp only [List.forall_mem_cons]
      refine ⟨⟨_, rfl⟩, ⟨_, rfl⟩, ⟨_, rfl⟩, ⟨_, rfl⟩, ?_, ⟨_, rfl⟩, ?_, by simp⟩
      · have : Soft (Parse.alt (Parse.precTwo C (erase one)) [Parse.operatorAsSymbol] []) := by
          refine alt_soft ?_
          simp only [List.forall_mem_cons]
          exact ⟨precTwo_soft hs, ⟨_, rfl⟩, by simp⟩
        exact this.bind _
      · exact precSix_soft hs
    rw [parseExpr, exprN, exprStep, bind_fst_ok hnt, bind_soft (h7' _)]
    have := h7 (exprN C one ([] : List Tok).length)
    show 1 + _ ≤ _
    omega
  · rw [snd_eq (erase_parseExpr C _), erase_parseOne]
    exact expr_soft_nil hm

theorem commands_up {m n : Nat} {cs : List (List Word)} (h : ∀ c ∈ cs, PlainWords C.plat c ∧ c ≠ [])
    {i : List Tok} (hi : i.map Tok.word = commandWords cs) (hm : i.length < m) {kind : Str} :
    (manyGo kind (parseStatement C (parseExpr C (parseOne C m))) n i).1 ≤ 31 * i.length + 38 := by
  induction cs generalizing i n with
  | nil =>
    simp only [commandWords, List.flatMap_nil, List.map_eq_nil_iff] at hi
    subst hi
    cases n with
    | zero => simp [manyGo]
    | succ n =>
      obtain ⟨h1, h2⟩ := expr_nil (C := C) m (by omega)
      have h3 : (parseStatement C (parseExpr C (parseOne C m)) []).1 ≤ 38 := by
        rw [parseStatement, bind_soft h2]
        exact h1
      obtain ⟨e, h4⟩ : Soft (parseStatement C (parseExpr C (parseOne C m)) []).2 := by
        rw [parseStatement, bind_snd]
        exact h2.bind _
      rw [manyGo]
      rcases hp : parseStatement C (parseExpr C (parseOne C m)) [] with ⟨k, q⟩
      rw [hp] at h3 h4
      simp only at h3 h4
      subst h4
      simpa using h3
  | cons c cs ih =>
    simp only [commandWords, List.flatMap_cons] at hi
    obtain ⟨a, b, rfl, ha, hb⟩ := split_append hi
    obtain ⟨a, d, rfl, ha', hd⟩ := split_append ha
    obtain ⟨t, d, rfl, ht, hd⟩ := split_cons hd
    simp only [List.map_eq_nil_iff] at hd
    subst hd
    cases n with
    | zero => simp [manyGo]
    | succ n =>
      simp only [List.append_assoc, List.cons_append, List.nil_append, List.length_append,
        List.length_cons] at hm ⊢
      have ih := ih (n := n) (fun c hc => h c (List.mem_cons_of_mem _ hc)) hb (by omega)
      obtain ⟨hc, hne⟩ := h c (List.mem_cons_self ..)
      have h1 := command_up (C := C) (m := m) ht (r := b) hc hne ha' (by simp; omega)
      obtain ⟨x, hx⟩ := hc.seven hne
      have h2 : (parseExpr C (parseOne C m) (a ++ t :: b)).2 = .ok (t :: b) x := by
        rw [snd_eq (erase_parseExpr C _), erase_parseOne]
        exact (sound (C := C) (.seven hx)).2.2 a (t :: b) m ha' (by simp; omega)
          (ends_of ht (by decide) b)
      have h3 : parseStatement C (parseExpr C (parseOne C m)) (a ++ t :: b) =
          ((parseExpr C (parseOne C m) (a ++ t :: b)).1 + 1, .ok b x) := by
        rw [parseStatement]
        rcases hp : parseExpr C (parseOne C m) (a ++ t :: b) with ⟨k, q⟩
        rw [hp] at h2
        simp only at h2
        subst h2
        simp only [LR.bind, text, look, text_word ht]
      rw [manyGo, h3]
      simp only
      rw [if_neg (by simp; omega)]
      simp only [LR.add, LR.map]
      have : a.length ≠ 0 := by
        intro h0
        rw [List.length_eq_zero_iff] at h0
        subst h0
        exact hne ha'.symm
      omega

theorem flat_script {cs : List (List Word)} (h : ∀ c ∈ cs, PlainWords C.plat c ∧ c ≠ []) {i : List Tok}
    (hi : i.map Tok.word = commandWords cs) {m : Nat} (hm : i.length < m) :
    (scriptN C m i).1 ≤ 31 * i.length + 77 := by
  have hl : ∃ l, Steps (Parse.parseStatement C (Parse.parseExpr C (Parse.parseOne C m))) (i ++ []) l [] := by
    have hx : ∃ stmts : List (List Word × Expr), (∀ p ∈ stmts, Sound C .expr p.1 p.2) ∧
        commandWords cs = stmts.flatMap fun p => p.1 ++ [pw c!";"] := by
      clear hi
      induction cs with
      | nil => exact ⟨[], by simp, rfl⟩
      | cons c cs ih =>
        obtain ⟨stmts, h1, h2⟩ := ih fun c hc => h c (List.mem_cons_of_mem _ hc)
        obtain ⟨hc, hne⟩ := h c (List.mem_cons_self ..)
        obtain ⟨x, hx⟩ := hc.seven hne
        refine ⟨(c, x) :: stmts, ?_, ?_⟩
        · simp only [List.forall_mem_cons]
          exact ⟨sound (.seven hx), h1⟩
        · rw [List.flatMap_cons, ← h2]
          rfl
    obtain ⟨stmts, h1, h2⟩ := hx
    exact semis_steps h1 (hi.trans h2) (by simpa using hm)
  obtain ⟨l, hl⟩ := hl
  rw [List.append_nil] at hl
  obtain ⟨hn1, hn2⟩ := expr_nil (C := C) m (by omega)
  have hst : Soft (parseStatement C (parseExpr C (parseOne C m)) []).2 := by
    rw [parseStatement, bind_snd]
    exact hn2.bind _
  have hst' := hst
  rw [snd_eq (erase_statement C _), erase_expr] at hst'
  have hmany : (many0 (parseStatement C (parseExpr C (parseOne C m))) i).2 = .ok [] l := by
    rw [snd_eq (erase_many0 _), erase_statement, erase_expr]
    exact hl.many0 hst'
  have hcost : (many0 (parseStatement C (parseExpr C (parseOne C m))) i).1 ≤ 31 * i.length + 38 :=
    commands_up h hi hm
  have hterm : Soft (terminated (parseExpr C (parseOne C m)) (opt (text c!";")) []).2 := by
    rw [terminated, bind_snd]
    exact hn2.bind _
  have hopt : opt (terminated (parseExpr C (parseOne C m)) (opt (text c!";"))) [] =
      ((parseExpr C (parseOne C m) []).1, .ok [] none) := by
    rw [opt]
    have h1 : (terminated (parseExpr C (parseOne C m)) (opt (text c!";")) []).1 =
        (parseExpr C (parseOne C m) []).1 := by rw [terminated, bind_soft hn2]
    obtain ⟨e, he⟩ := hterm
    rcases hp : terminated (parseExpr C (parseOne C m)) (opt (text c!";")) [] with ⟨k, q⟩
    rw [hp] at h1 he
    simp only at h1 he
    subst he h1
    rfl
  rw [scriptN_fst, parseScriptTokens, bind_fst_ok hmany, hopt]
  simp only [LR.bind, if_true, LR.map, LR.orError, look]
  omega

end

end Dune.Looks
