import Verif.Model.Parser
import Mathlib.Data.List.Forall2

/-!
One relational induction over the whole parser: on two token sequences that agree up to positions
it does the same, it never runs out of fuel, it consumes tokens, and the positions in its errors
come from the tokens or are the end of the input.
-/

namespace Dune.Parse

variable {α β γ δ : Type}

/-- The relation between two runs: how positions are related, and whether panics may occur. -/
structure Rel where
  pos : Range → Range → Prop
  pan : Prop

variable (R : Rel)

/-- Tokens that agree up to positions; string literals are well-formed unless panics may occur. -/
structure TokSim (a b : Tok) : Prop where
  kind : a.kind = b.kind
  text : a.text = b.text
  pos : R.pos a.range b.range
  str : ¬ R.pan → a.kind = .stringLiteral → ∃ s, unescape a.text = some s

abbrev ToksSim : List Tok → List Tok → Prop := List.Forall₂ (TokSim R)

/-- Errors that agree up to positions. -/
inductive ErrSim : SyntaxError → SyntaxError → Prop
  | expected {a b s f} : R.pos a b → ErrSim (.expected a s f) (.expected b s f)
  | nomNone {k} : ErrSim (.nomError k none) (.nomError k none)
  | nomSome {k a b} : R.pos a b → ErrSim (.nomError k (some a)) (.nomError k (some b))
  | byNone {k e e'} : ErrSim e e' → ErrSim (.nomErrorBy k none e) (.nomErrorBy k none e')
  | bySome {k a b e e'} : R.pos a b → ErrSim e e' →
      ErrSim (.nomErrorBy k (some a) e) (.nomErrorBy k (some b) e')
  | internal : ErrSim .internalError .internalError

/-- Results that agree up to positions, with values related by `V` and less than `m` tokens left. -/
inductive PSim (V : α → β → Prop) (m : Nat) : PR α → PR β → Prop
  | ok {i i' a a'} : ToksSim R i i' → i.length < m → V a a' → PSim V m (.ok i a) (.ok i' a')
  | error {e e'} : ErrSim R e e' → PSim V m (.error e) (.error e')
  | failure {e e'} : ErrSim R e e' → PSim V m (.failure e) (.failure e')
  | panic : R.pan → PSim V m .panic .panic

/-- Contexts that agree up to positions. -/
structure CtxSim (C C' : Ctx) : Prop where
  plat : C.plat = C'.plat
  eoi : R.pos C.eoi C'.eoi

/-- Parsers that agree on all inputs shorter than `k` and consume a token. -/
def Sim (k : Nat) (V : α → β → Prop) (p : Parser α) (p' : Parser β) : Prop :=
  ∀ i i', ToksSim R i i' → i.length < k → PSim R V i.length (p i) (p' i')

variable {R} {V : α → γ → Prop} {W : β → δ → Prop}

theorem PR.bind_ok_inv {r : PR α} {f : List Tok → α → PR β} {i : List Tok} {b : β}
    (h : r.bind f = .ok i b) : ∃ j a, r = .ok j a ∧ f j a = .ok i b := by
  cases r with
  | ok j a => exact ⟨j, a, rfl, h⟩
  | error e => simp [PR.bind] at h
  | failure e => simp [PR.bind] at h
  | panic => simp [PR.bind] at h
  | noFuel => simp [PR.bind] at h

namespace PSim

theorem mono {m n : Nat} (hmn : m ≤ n) {r : PR α} {r' : PR γ} (h : PSim R V m r r') :
    PSim R V n r r' := by
  cases h with
  | ok h1 h2 h3 => exact .ok h1 (by omega) h3
  | error h => exact .error h
  | failure h => exact .failure h
  | panic h => exact .panic h

theorem bind {m n : Nat} {r : PR α} {r' : PR γ} (h : PSim R V m r r')
    {f : List Tok → α → PR β} {f' : List Tok → γ → PR δ}
    (hf : ∀ i i' a a', ToksSim R i i' → i.length < m → V a a' → PSim R W n (f i a) (f' i' a')) :
    PSim R W n (r.bind f) (r'.bind f') := by
  cases h with
  | ok h1 h2 h3 => exact hf _ _ _ _ h1 h2 h3
  | error h => exact .error h
  | failure h => exact .failure h
  | panic h => exact .panic h

theorem map {m : Nat} {r : PR α} {r' : PR γ} (h : PSim R V m r r') {f : α → β} {f' : γ → δ}
    (hf : ∀ a a', V a a' → W (f a) (f' a')) : PSim R W m (r.map f) (r'.map f') :=
  h.bind fun _ _ _ _ h1 h2 h3 => .ok h1 h2 (hf _ _ h3)

theorem orFail {m : Nat} {r : PR α} {r' : PR γ} (h : PSim R V m r r') {e e' : SyntaxError}
    (he : ErrSim R e e') : PSim R V m (r.orFail e) (r'.orFail e') := by
  cases h with
  | ok h1 h2 h3 => exact .ok h1 h2 h3
  | error h => exact .failure he
  | failure h => exact .failure he
  | panic h => exact .panic h

theorem orError {m : Nat} {r : PR α} {r' : PR γ} (h : PSim R V m r r') {e e' : SyntaxError}
    (he : ErrSim R e e') : PSim R V m (r.orError e) (r'.orError e') := by
  cases h with
  | ok h1 h2 h3 => exact .ok h1 h2 h3
  | error h => exact .error he
  | failure h => exact .error he
  | panic h => exact .panic h

theorem orElse {m : Nat} {r s : PR α} {r' s' : PR γ} (h : PSim R V m r r') (hs : PSim R V m s s') :
    PSim R V m (r.orElse s) (r'.orElse s') := by
  cases h with
  | ok h1 h2 h3 => exact .ok h1 h2 h3
  | error h => exact hs
  | failure h => exact .failure h
  | panic h => exact .panic h

theorem orElseAny {m : Nat} {r s : PR α} {r' s' : PR γ} (h : PSim R V m r r')
    (hs : PSim R V m s s') : PSim R V m (r.orElseAny s) (r'.orElseAny s') := by
  cases h with
  | ok h1 h2 h3 => exact .ok h1 h2 h3
  | error h => exact hs
  | failure h => exact hs
  | panic h => exact .panic h

end PSim

theorem ToksSim.length {i i' : List Tok} (h : ToksSim R i i') : i.length = i'.length :=
  List.Forall₂.length_eq h

theorem expect_sim {C C' : Ctx} (hC : CtxSim R C C') {i i' : List Tok} (h : ToksSim R i i') (s : Str)
    (f : Option Str) : ErrSim R (expect C i s f) (expect C' i' s f) := by
  cases h with
  | nil => exact .expected hC.eoi
  | cons h _ => exact .expected h.pos

theorem errBy_sim {i i' : List Tok} (h : ToksSim R i i') (k : Str) {e e' : SyntaxError}
    (he : ErrSim R e e') :
    ErrSim R (.nomErrorBy k (firstRange i) e) (.nomErrorBy k (firstRange i') e') := by
  cases h with
  | nil => exact .byNone he
  | cons h _ => exact .bySome h.pos he

theorem errNom_sim {i i' : List Tok} (h : ToksSim R i i') (k : Str) :
    ErrSim R (.nomError k (firstRange i)) (.nomError k (firstRange i')) := by
  cases h with
  | nil => exact .nomNone
  | cons h _ => exact .nomSome h.pos

theorem errOr_sim {a a' b b' : SyntaxError} (h : ErrSim R a a') (h' : ErrSim R b b') :
    ErrSim R (errOr a b) (errOr a' b') := by
  cases h with
  | internal => exact h'
  | expected h => exact .expected h
  | nomNone => exact .nomNone
  | nomSome h => exact .nomSome h
  | byNone h => exact .byNone h
  | bySome h h2 => exact .bySome h h2

/-! ### nom -/

theorem altGo_sim {i i' : List Tok} (hi : ToksSim R i i') {m : Nat} {ps : List (Parser α)}
    {ps' : List (Parser γ)} (h : List.Forall₂ (fun p p' => PSim R V m (p i) (p' i')) ps ps') :
    ∀ {e e' : SyntaxError}, ErrSim R e e' → PSim R V m (altGo i e ps) (altGo i' e' ps') := by
  induction h with
  | nil => exact fun he => .error (errBy_sim hi _ he)
  | @cons p p' ps ps' hp _ ih =>
    intro e e' he
    rw [altGo, altGo]
    generalize p i = r at hp ⊢
    generalize p' i' = r' at hp ⊢
    cases hp with
    | ok h1 h2 h3 => exact .ok h1 h2 h3
    | error h => exact ih (errOr_sim he h)
    | failure h => exact .failure h
    | panic h => exact .panic h

theorem alt_sim {i i' : List Tok} (hi : ToksSim R i i') {m : Nat} {p : Parser α} {p' : Parser γ}
    (hp : PSim R V m (p i) (p' i')) {ps : List (Parser α)}
    {ps' : List (Parser γ)} (h : List.Forall₂ (fun p p' => PSim R V m (p i) (p' i')) ps ps') :
    PSim R V m (alt p ps i) (alt p' ps' i') := by
  rw [alt, alt]
  generalize p i = r at hp ⊢
  generalize p' i' = r' at hp ⊢
  cases hp with
  | ok h1 h2 h3 => exact .ok h1 h2 h3
  | error he => exact altGo_sim hi h he
  | failure h => exact .failure h
  | panic h => exact .panic h

theorem manyGo_sim (kind : Str) {k : Nat} {p : Parser α} {p' : Parser γ} (h : Sim R k V p p') :
    ∀ (n n' : Nat) (i i' : List Tok), ToksSim R i i' → i.length < k → i.length < n →
      i.length < n' → PSim R (List.Forall₂ V) (i.length + 1) (manyGo kind p n i)
        (manyGo kind p' n' i')
  | 0, _, _, _, _, _, h, _ => absurd h (by omega)
  | _ + 1, 0, _, _, _, _, _, h => absurd h (by omega)
  | n + 1, n' + 1, i, i', hi, hk, hn, hn' => by
    have hp := h i i' hi hk
    rw [manyGo, manyGo]
    generalize p i = r at hp ⊢
    generalize p' i' = r' at hp ⊢
    cases hp with
    | @ok j j' a a' h1 h2 h3 =>
      have hl := hi.length
      have hl' := h1.length
      simp only [show ¬ j.length = i.length by omega, show ¬ j'.length = i'.length by omega,
        if_false]
      refine PSim.map (V := List.Forall₂ V) ?_ fun l l' hll => .cons h3 hll
      exact (manyGo_sim kind h n n' j j' h1 (by omega) (by omega) (by omega)).mono (by omega)
    | error h => exact .ok hi (by omega) .nil
    | failure h => exact .failure h
    | panic h => exact .panic h

theorem many0_sim {k : Nat} {p : Parser α} {p' : Parser γ} (h : Sim R k V p p') {i i' : List Tok}
    (hi : ToksSim R i i') (hk : i.length < k) :
    PSim R (List.Forall₂ V) (i.length + 1) (many0 p i) (many0 p' i') :=
  manyGo_sim _ h _ _ i i' hi hk (by omega) (by rw [hi.length]; omega)

theorem many1_sim {k : Nat} {p : Parser α} {p' : Parser γ} (h : Sim R k V p p') {i i' : List Tok}
    (hi : ToksSim R i i') (hk : i.length < k) :
    PSim R (List.Forall₂ V) i.length (many1 p i) (many1 p' i') := by
  have hp := h i i' hi hk
  rw [many1, many1]
  generalize p i = r at hp ⊢
  generalize p' i' = r' at hp ⊢
  cases hp with
  | @ok j j' a a' h1 h2 h3 =>
    refine PSim.map (V := List.Forall₂ V) ?_ fun l l' hll => .cons h3 hll
    exact (manyGo_sim _ h _ _ j j' h1 (by omega) (by omega) (by rw [h1.length]; omega)).mono
      (by omega)
  | error h => exact .error (errBy_sim hi _ h)
  | failure h => exact .failure h
  | panic h => exact .panic h

theorem pair_sim {k : Nat} {p : Parser α} {p' : Parser γ} {q : Parser β} {q' : Parser δ}
    (h : Sim R k V p p') (h' : Sim R k W q q') :
    Sim R k (fun a a' => V a.1 a'.1 ∧ W a.2 a'.2) (pair p q) (pair p' q') := by
  intro i i' hi hk
  refine (h i i' hi hk).bind fun j j' a a' hj hlt ha => ?_
  exact ((h' j j' hj (by omega)).mono (by omega)).map fun b b' hb => ⟨ha, hb⟩

theorem preceded_sim {k : Nat} {p : Parser α} {p' : Parser γ} {q : Parser β} {q' : Parser δ}
    (h : Sim R k V p p') (h' : Sim R k W q q') :
    Sim R k W (preceded p q) (preceded p' q') := by
  intro i i' hi hk
  exact (h i i' hi hk).bind fun j j' a a' hj hlt ha => (h' j j' hj (by omega)).mono (by omega)

theorem opt_sim {p : Parser α} {p' : Parser γ} {i i' : List Tok} (hi : ToksSim R i i') {m : Nat}
    (hm : i.length < m) (h : PSim R V m (p i) (p' i')) :
    PSim R (Option.Rel V) m (opt p i) (opt p' i') := by
  rw [opt, opt]
  exact (h.map fun _ _ h => Option.Rel.some h).orElse (.ok hi hm .none)

theorem separatedList0_sim {k : Nat} {p : Parser α} {p' : Parser γ} {q : Parser β} {q' : Parser δ}
    (h : Sim R k V p p') (h' : Sim R k W q q') {i i' : List Tok}
    (hi : ToksSim R i i') (hk : i.length < k) :
    PSim R (List.Forall₂ V) (i.length + 1) (separatedList0 q p i) (separatedList0 q' p' i') := by
  have hp := h i i' hi hk
  rw [separatedList0, separatedList0]
  generalize p i = r at hp ⊢
  generalize p' i' = r' at hp ⊢
  cases hp with
  | @ok j j' a a' h1 h2 h3 =>
    refine PSim.map (V := List.Forall₂ V) ?_ fun l l' hll => .cons h3 hll
    exact (manyGo_sim _ (preceded_sim h' h) _ _ j j' h1 (by omega) (by omega)
      (by rw [h1.length]; omega)).mono (by omega)
  | error h => exact .ok hi (by omega) .nil
  | failure h => exact .failure h
  | panic h => exact .panic h

theorem eof_sim {i i' : List Tok} (hi : ToksSim R i i') :
    PSim R Eq (i.length + 1) (eof i) (eof i') := by
  cases hi with
  | nil => exact .ok .nil (by simp) rfl
  | cons h1 h2 => exact .error (errNom_sim (.cons h1 h2) _)

/-! ### Tokens -/

theorem kind_sim (k : Nat) (kd : TokenKind) :
    Sim R k (fun t t' => TokSim R t t' ∧ t.kind = kd) (kind kd) (kind kd) := by
  intro i i' hi _
  cases hi with
  | nil => exact .error .internal
  | @cons a b l l' h1 h2 =>
    simp only [kind, ← h1.kind]
    split
    · exact .ok h2 (by simp) ⟨h1, by assumption⟩
    · exact .error .internal

theorem text_sim (k : Nat) (s : Str) : Sim R k (TokSim R) (text s) (text s) := by
  intro i i' hi _
  cases hi with
  | nil => exact .error .internal
  | @cons a b l l' h1 h2 =>
    simp only [text, ← h1.text]
    split
    · exact .ok h2 (by simp) h1
    · exact .error .internal

theorem empty_sim {i i' : List Tok} (hi : ToksSim R i i') :
    PSim R Eq (i.length + 1) (empty i) (empty i') := by
  cases hi with
  | nil => exact .ok .nil (by simp) rfl
  | cons h1 h2 => exact .error .internal

theorem noTermPunct_sim {C C' : Ctx} (hC : CtxSim R C C') {i i' : List Tok} (hi : ToksSim R i i') :
    PSim R Eq (i.length + 1) (noTermPunct C i) (noTermPunct C' i') := by
  cases hi with
  | nil => exact .ok .nil (by simp) rfl
  | @cons a b l l' h1 h2 =>
    simp only [noTermPunct, ← h1.kind, ← h1.text]
    split
    · exact .error (expect_sim hC (.cons h1 h2) _ _)
    · exact .ok (.cons h1 h2) (by simp) rfl

theorem parseSymbol_sim (k : Nat) : Sim R k Eq parseSymbol parseSymbol := fun i i' hi hk =>
  (kind_sim k _ i i' hi hk).map fun _ _ h => h.1.text

theorem parseOperator_sim (k : Nat) : Sim R k Eq parseOperator parseOperator := fun i i' hi hk =>
  (kind_sim k _ i i' hi hk).map fun _ _ h => h.1.text

theorem operatorAsSymbol_sim (k : Nat) : Sim R k Eq operatorAsSymbol operatorAsSymbol :=
  fun i i' hi hk => (parseOperator_sim k i i' hi hk).map fun _ _ h => by rw [h]

theorem parseBoolean_sim (k : Nat) : Sim R k Eq parseBoolean parseBoolean := fun i i' hi hk =>
  (kind_sim k _ i i' hi hk).map fun _ _ h => by rw [h.1.text]

theorem parseInteger_sim (k : Nat) : Sim R k Eq parseInteger parseInteger := by
  intro i i' hi hk
  refine (kind_sim k _ i i' hi hk).bind fun j j' t t' hj hlt ht => ?_
  simp only [← ht.1.text]
  split
  · exact .ok hj hlt rfl
  · exact .failure (.expected ht.1.pos)

theorem parseFloat_sim {C C' : Ctx} (hC : CtxSim R C C') (k : Nat) :
    Sim R k Eq (parseFloat C) (parseFloat C') := by
  intro i i' hi hk
  refine (kind_sim k _ i i' hi hk).bind fun j j' t t' hj hlt ht => ?_
  simp only [← ht.1.text, ← hC.plat]
  split
  · exact .ok hj hlt rfl
  · exact .failure (.expected ht.1.pos)

theorem parseString_sim (k : Nat) : Sim R k Eq parseString parseString := by
  intro i i' hi hk
  refine (kind_sim k _ i i' hi hk).bind fun j j' t t' hj hlt ht => ?_
  simp only [← ht.1.text]
  split
  · exact .ok hj hlt rfl
  · rename_i h
    refine .panic ?_
    by_cases hp : R.pan
    · exact hp
    · obtain ⟨s, hs⟩ := ht.1.str hp ht.2
      rw [hs] at h
      simp at h

theorem parseNone_sim {C C' : Ctx} (hC : CtxSim R C C') (k : Nat) :
    Sim R k Eq (parseNone C) (parseNone C') := by
  intro i i' hi hk
  refine ((text_sim k c!"None" i i' hi hk).map fun _ _ _ => rfl).orElseAny ?_
  cases hi with
  | nil => exact .error (expect_sim hC .nil _ _)
  | @cons a a' l l' h1 h2 =>
    cases h2 with
    | nil => exact .error (expect_sim hC (.cons h1 .nil) _ _)
    | @cons b b' l l' h2 h3 =>
      simp only [unitParens, ← h1.text, ← h2.text]
      split
      · exact .ok h3 (by simp; omega) rfl
      · exact .error (expect_sim hC (.cons h1 (.cons h2 h3)) _ _)

/-! ### Operators -/

theorem leftFold_sim {l l' : List (Tok × Expr)}
    (h : List.Forall₂ (fun a a' => TokSim R a.1 a'.1 ∧ a.2 = a'.2) l l') :
    ∀ head, leftFold head l = leftFold head l' := by
  induction h with
  | nil => exact fun _ => rfl
  | @cons a a' l l' h _ ih =>
    intro head
    obtain ⟨op, x⟩ := a
    obtain ⟨op', x'⟩ := a'
    obtain ⟨h1, rfl⟩ := h
    have h1 : TokSim R op op' := h1
    simp only [leftFold, h1.text, ih]

theorem isEmpty_sim {l : List α} {l' : List γ} (h : List.Forall₂ V l l') : l.isEmpty = l'.isEmpty := by
  cases h <;> rfl

theorem forall₂_eq {l l' : List α} (h : List.Forall₂ Eq l l') : l = l' :=
  List.forall₂_eq_eq_eq ▸ h

theorem option_rel_eq {o o' : Option α} (h : Option.Rel Eq o o') : o = o' := by
  cases h with
  | none => rfl
  | some h => rw [h]

/-- an alternative of token texts -/
theorem altText_sim (k : Nat) (s : Str) (l : List Str) :
    Sim R k (TokSim R) (alt (text s) (l.map text)) (alt (text s) (l.map text)) := by
  intro i i' hi hk
  refine alt_sim hi (text_sim k s i i' hi hk) ?_
  induction l with
  | nil => exact .nil
  | cons a l ih => exact .cons (text_sim k a i i' hi hk) ih

section
variable {C C' : Ctx} (hC : CtxSim R C C') {k : Nat} {one one' : Parser Expr}
  (h : Sim R k Eq one one')
include hC h

theorem precTwo_sim : Sim R k Eq (precTwo C one) (precTwo C' one') := by
  intro i i' hi hk
  refine (noTermPunct_sim hC hi).bind fun _ _ _ _ _ _ _ => ?_
  refine (h i i' hi hk).bind fun j j' a a' hj hlt ha => ?_
  subst ha
  refine (many0_sim (preceded_sim (text_sim k c!"@") (V := TokSim R) (W := Eq)
    (fun i i' hi hk => alt_sim hi (h i i' hi hk) (.cons (operatorAsSymbol_sim k i i' hi hk) .nil)))
    hj (by omega)).bind fun l l' b b' hl hlt' hb => ?_
  rw [forall₂_eq hb]
  exact .ok hl (by omega) rfl

theorem precThree_sim : Sim R k Eq (precThree C one) (precThree C' one') := by
  intro i i' hi hk
  refine (noTermPunct_sim hC hi).bind fun _ _ _ _ _ _ _ => ?_
  refine (precTwo_sim hC h i i' hi hk).bind fun j j' a a' hj hlt ha => ?_
  subst ha
  refine (many0_sim (pair_sim (altText_sim k c!"*" [c!"//", c!"%"]) (precTwo_sim hC h))
    hj (by omega)).bind fun l l' b b' hl hlt' hb => ?_
  rw [leftFold_sim hb]
  exact .ok hl (by omega) rfl

theorem precFour_sim : Sim R k Eq (precFour C one) (precFour C' one') := by
  intro i i' hi hk
  refine (noTermPunct_sim hC hi).bind fun _ _ _ _ _ _ _ => ?_
  refine (precThree_sim hC h i i' hi hk).bind fun j j' a a' hj hlt ha => ?_
  subst ha
  refine (many0_sim (pair_sim (altText_sim k c!"+" [c!"-"]) (precThree_sim hC h))
    hj (by omega)).bind fun l l' b b' hl hlt' hb => ?_
  rw [leftFold_sim hb]
  exact .ok hl (by omega) rfl

theorem parseNot_sim : Sim R k Eq (parseNot C one) (parseNot C' one') := by
  intro i i' hi hk
  refine (text_sim k _ i i' hi hk).bind fun j j' a a' hj hlt ha => ?_
  exact ((precFour_sim hC h j j' hj (by omega)).mono (by omega)).map fun _ _ h => by rw [h]

theorem rangeEnd_sim (head : Expr) {i i' : List Tok} (hi : ToksSim R i i') (hk : i.length < k) :
    PSim R Eq i.length (rangeEnd C one head i) (rangeEnd C' one' head i') :=
  ((precFour_sim hC h i i' hi hk).orFail (expect_sim hC hi _ _)).map fun _ _ h => by rw [h]

theorem precFive_sim : Sim R k Eq (precFive C one) (precFive C' one') := by
  intro i i' hi hk
  refine (noTermPunct_sim hC hi).bind fun _ _ _ _ _ _ _ => ?_
  refine (precFour_sim hC h i i' hi hk).bind fun j j' a a' hj hlt ha => ?_
  subst ha
  refine (many0_sim (pair_sim (altText_sim k c!"==" [c!"!=", c!">=", c!"<=", c!">", c!"<"])
    (precFour_sim hC h)) hj (by omega)).bind fun l l' b b' hl hlt' hb => ?_
  rw [isEmpty_sim hb]
  split
  · have ht := text_sim (R := R) k c!"to" l l' hl (by omega)
    generalize text c!"to" l = r at ht ⊢
    generalize text c!"to" l' = r' at ht ⊢
    have hnot : PSim R Eq i.length ((parseNot C one l).orElseAny (.ok l a))
        ((parseNot C' one' l').orElseAny (.ok l' a)) :=
      ((parseNot_sim hC h l l' hl (by omega)).mono (by omega)).orElseAny (.ok hl (by omega) rfl)
    cases ht with
    | ok h1 h2 h3 => exact (rangeEnd_sim hC h a h1 (by omega)).mono (by omega)
    | error _ => exact hnot
    | failure _ => exact hnot
    | panic _ => exact hnot
  · rw [leftFold_sim hb]
    exact .ok hl (by omega) rfl

theorem precSix_sim : Sim R k Eq (precSix C one) (precSix C' one') := by
  intro i i' hi hk
  refine (noTermPunct_sim hC hi).bind fun _ _ _ _ _ _ _ => ?_
  refine (precFive_sim hC h i i' hi hk).bind fun j j' a a' hj hlt ha => ?_
  subst ha
  refine (many0_sim (pair_sim (altText_sim k c!"&&" [c!"||"]) (precFive_sim hC h))
    hj (by omega)).bind fun l l' b b' hl hlt' hb => ?_
  rw [leftFold_sim hb]
  exact .ok hl (by omega) rfl

theorem parseRange_sim : Sim R k Eq (parseRange C one) (parseRange C' one') := by
  intro i i' hi hk
  refine (noTermPunct_sim hC hi).bind fun _ _ _ _ _ _ _ => ?_
  refine (precFour_sim hC h i i' hi hk).bind fun j j' a a' hj hlt ha => ?_
  subst ha
  refine (text_sim k _ j j' hj (by omega)).bind fun l l' b b' hl hlt' hb => ?_
  exact (rangeEnd_sim hC h a hl (by omega)).mono (by omega)

theorem parseApply_sim : Sim R k Eq (parseApply C one) (parseApply C' one') := by
  intro i i' hi hk
  refine (alt_sim hi (precTwo_sim hC h i i' hi hk)
    (.cons (operatorAsSymbol_sim k i i' hi hk) .nil)).bind fun j j' a a' hj hlt ha => ?_
  subst ha
  refine (many1_sim (precFive_sim hC h) hj (by omega)).bind fun l l' b b' hl hlt' hb => ?_
  rw [forall₂_eq hb]
  exact .ok hl (by omega) rfl

theorem parseApplyOperator_sim :
    Sim R k Eq (parseApplyOperator C one) (parseApplyOperator C' one') := by
  intro i i' hi hk
  refine (operatorAsSymbol_sim k i i' hi hk).bind fun j j' a a' hj hlt ha => ?_
  subst ha
  refine (many0_sim (precFive_sim hC h) hj (by omega)).bind fun l l' b b' hl hlt' hb => ?_
  rw [forall₂_eq hb]
  exact .ok hl (by omega) rfl

theorem parseIfN_sim : ∀ (n n' : Nat) (i i' : List Tok), ToksSim R i i' → i.length < k →
    i.length < n → i.length < n' → PSim R Eq i.length (parseIfN C one n i) (parseIfN C' one' n' i')
  | 0, _, _, _, _, _, h, _ => absurd h (by omega)
  | _ + 1, 0, _, _, _, _, _, h => absurd h (by omega)
  | n + 1, n' + 1, i, i', hi, hk, hn, hn' => by
    rw [parseIfN, parseIfN]
    refine (text_sim k _ i i' hi hk).bind fun j j' a a' hj hlt ha => ?_
    refine ((precSix_sim hC h j j' hj (by omega)).orFail (expect_sim hC hj _ _)).bind
      fun l l' cond cond' hl hlt' hc => ?_
    subst hc
    refine ((precFour_sim hC h l l' hl (by omega)).orFail (expect_sim hC hl _ _)).bind
      fun q q' t t' hq hlt'' ht => ?_
    subst ht
    have hb : PSim R Eq (q.length + 1)
        (preceded (text c!"else") (alt (parseIfN C one n) [precFour C one]) q)
        (preceded (text c!"else") (alt (parseIfN C' one' n') [precFour C' one']) q') := by
      refine (text_sim k _ q q' hq (by omega)).bind fun w w' _ _ hw hlw _ => ?_
      exact (alt_sim hw (parseIfN_sim n n' w w' hw (by omega) (by omega) (by omega))
        (.cons (precFour_sim hC h w w' hw (by omega)) .nil)).mono (by omega)
    refine (opt_sim hq (by omega) hb).bind fun w w' e e' hw hlw he => ?_
    rw [option_rel_eq he]
    exact .ok hw (by omega) rfl

theorem parseIf_sim : Sim R k Eq (parseIf C one) (parseIf C' one') := fun i i' hi hk =>
  parseIfN_sim hC h _ _ i i' hi hk (by omega) (by rw [hi.length]; omega)

end

section
variable {C C' : Ctx} (hC : CtxSim R C C') {k : Nat} {expr expr' : Parser Expr}
  (h : Sim R k Eq expr expr')
include hC h

theorem parseStatement_sim : Sim R k Eq (parseStatement C expr) (parseStatement C' expr') := by
  intro i i' hi hk
  refine (h i i' hi hk).bind fun j j' a a' hj hlt ha => ?_
  subst ha
  have ht := text_sim (R := R) k c!";" j j' hj (by omega)
  generalize text c!";" j = r at ht ⊢
  generalize text c!";" j' = r' at ht ⊢
  have hrest : PSim R Eq i.length
      (match a with
        | .for_ .. => .ok j a
        | .ite .. => .ok j a
        | _ => .error (expect C j c!";"))
      (match a with
        | .for_ .. => .ok j' a
        | .ite .. => .ok j' a
        | _ => .error (expect C' j' c!";")) := by
    split
    · exact .ok hj hlt rfl
    · exact .ok hj hlt rfl
    · exact .error (expect_sim hC hj _ _)
  cases ht with
  | ok h1 h2 h3 => exact .ok h1 (by omega) rfl
  | error _ => exact hrest
  | failure _ => exact hrest
  | panic _ => exact hrest

theorem parseScriptTokens_sim (b : Bool) {i i' : List Tok} (hi : ToksSim R i i')
    (hk : i.length < k) : PSim R Eq (i.length + 1) (parseScriptTokens C expr b i)
      (parseScriptTokens C' expr' b i') := by
  refine (many0_sim (parseStatement_sim hC h) hi hk).bind fun j j' a a' hj hlt ha => ?_
  rw [forall₂_eq ha]
  have hb : PSim R Eq (j.length + 1) (terminated expr (opt (text c!";")) j)
      (terminated expr' (opt (text c!";")) j') := by
    refine (h j j' hj (by omega)).bind fun w w' e e' hw hlw he => ?_
    subst he
    exact ((opt_sim hw (m := w.length + 1) (by omega)
      ((text_sim k _ w w' hw (by omega)).mono (by omega))).mono (by omega)).map fun _ _ _ => rfl
  refine (opt_sim hj (by omega) hb).bind fun w w' e e' hw hlw he => ?_
  rw [option_rel_eq he]
  split
  · exact (((eof_sim hw).orError (expect_sim hC hw _ _)).mono (by omega)).map fun _ _ _ => rfl
  · exact .ok hw (by omega) rfl

theorem parseBlock_sim {i i' : List Tok} (hi : ToksSim R i i') (hk : i.length ≤ k) :
    PSim R Eq i.length (parseBlock C expr i) (parseBlock C' expr' i') := by
  refine (text_sim (k + 1) _ i i' hi (by omega)).bind fun j j' a a' hj hlt ha => ?_
  refine (parseScriptTokens_sim hC h false hj (by omega)).bind fun w w' e e' hw hlw he => ?_
  exact (((text_sim k _ w w' hw (by omega)).orFail (expect_sim hC hw _ _)).mono (by omega)).map
    fun _ _ _ => he

theorem parseAssign_sim {i i' : List Tok} (hi : ToksSim R i i') (hk : i.length ≤ k) :
    PSim R Eq i.length (parseAssign C expr i) (parseAssign C' expr' i') := by
  refine (text_sim (k + 1) _ i i' hi (by omega)).bind fun j j' a a' hj hlt ha => ?_
  refine ((alt_sim hj (parseSymbol_sim k j j' hj (by omega))
    (.cons (parseOperator_sim k j j' hj (by omega)) .nil)).orFail (expect_sim hC hj _ _)).bind
    fun l l' x x' hl hll hx => ?_
  subst hx
  refine ((text_sim k _ l l' hl (by omega)).orFail (expect_sim hC hl _ _)).bind
    fun w w' _ _ hw hlw _ => ?_
  exact ((h w w' hw (by omega)).mono (by omega)).map fun _ _ h => by rw [h]

theorem parseGroup_sim {i i' : List Tok} (hi : ToksSim R i i') (hk : i.length ≤ k) :
    PSim R Eq i.length (parseGroup C expr i) (parseGroup C' expr' i') := by
  refine (text_sim (k + 1) _ i i' hi (by omega)).bind fun j j' a a' hj hlt ha => ?_
  refine (h j j' hj (by omega)).bind fun w w' e e' hw hlw he => ?_
  subst he
  refine ((alt_sim hw (V := Eq) (m := w.length + 1) (((text_sim k _ w w' hw (by omega)).map
    (W := Eq) fun _ _ _ => rfl).mono (by omega)) (.cons (empty_sim hw) .nil)).orFail
    (expect_sim hC hw _ _)).mono (by omega) |>.map fun _ _ _ => rfl

theorem parseList_sim {i i' : List Tok} (hi : ToksSim R i i') (hk : i.length ≤ k) :
    PSim R Eq i.length (parseList C expr i) (parseList C' expr' i') := by
  refine (text_sim (k + 1) _ i i' hi (by omega)).bind fun j j' a a' hj hlt ha => ?_
  refine (separatedList0_sim h (text_sim k c!",") hj (by omega)).bind fun w w' e e' hw hlw he => ?_
  rw [forall₂_eq he]
  exact (((text_sim k _ w w' hw (by omega)).orFail (expect_sim hC hw _ _)).mono (by omega)).map
    fun _ _ _ => rfl

omit hC in
theorem parseEntry_sim : Sim R k Eq (parseEntry expr) (parseEntry expr') := by
  intro i i' hi hk
  refine (alt_sim hi (parseSymbol_sim k i i' hi hk)
    (.cons (parseOperator_sim k i i' hi hk) .nil)).bind fun j j' x x' hj hlt hx => ?_
  subst hx
  refine (text_sim k _ j j' hj (by omega)).bind fun w w' _ _ hw hlw _ => ?_
  exact ((h w w' hw (by omega)).mono (by omega)).map fun _ _ h => by rw [h]

theorem parseMap_sim {i i' : List Tok} (hi : ToksSim R i i') (hk : i.length ≤ k) :
    PSim R Eq i.length (parseMap C expr i) (parseMap C' expr' i') := by
  refine (text_sim (k + 1) _ i i' hi (by omega)).bind fun j j' a a' hj hlt ha => ?_
  refine (separatedList0_sim (parseEntry_sim h) (text_sim k c!",") hj (by omega)).bind
    fun w w' e e' hw hlw he => ?_
  rw [forall₂_eq he]
  split
  · exact (((text_sim k _ w w' hw (by omega)).orError (expect_sim hC hw _ _)).mono (by omega)).map
      fun _ _ _ => rfl
  · exact (((text_sim k _ w w' hw (by omega)).orFail (expect_sim hC hw _ _)).mono (by omega)).map
      fun _ _ _ => rfl

theorem parseCallable_sim {i i' : List Tok} (hi : ToksSim R i i') (hk : i.length ≤ k) :
    PSim R Eq i.length (parseCallable C expr i) (parseCallable C' expr' i') := by
  refine (parseSymbol_sim (k + 1) i i' hi (by omega)).bind fun j j' x x' hj hlt hx => ?_
  subst hx
  refine (altText_sim k c!"->" [c!"~>"] j j' hj (by omega)).bind fun w w' op op' hw hlw hop => ?_
  rw [hop.text]
  exact (((h w w' hw (by omega)).orFail (expect_sim hC hw _ _)).mono (by omega)).map
    fun _ _ h => by rw [h]

end

theorem pipeArgs_sim {l l' : List (Tok × Expr)}
    (h : List.Forall₂ (fun a a' => TokSim R a.1 a'.1 ∧ a.2 = a'.2) l l') :
    ∀ args, pipeArgs args l = pipeArgs args l' := by
  induction h with
  | nil => exact fun _ => rfl
  | @cons a a' l l' h _ ih =>
    intro args
    obtain ⟨op, x⟩ := a
    obtain ⟨op', x'⟩ := a'
    obtain ⟨h1, rfl⟩ := h
    have h1 : TokSim R op op' := h1
    simp only [pipeArgs, h1.text, ih]

section
variable {C C' : Ctx} (hC : CtxSim R C C') {k : Nat} {one one' : Parser Expr}
  (h : Sim R k Eq one one')
include hC h

theorem parseFor_sim {expr expr' : Parser Expr} {n : Nat} (he : Sim R n Eq expr expr')
    {i i' : List Tok} (hi : ToksSim R i i') (hk : i.length < k) (hn : i.length ≤ n) :
    PSim R Eq i.length (parseFor C one expr i) (parseFor C' one' expr' i') := by
  refine (text_sim k _ i i' hi hk).bind fun j j' a a' hj hlt ha => ?_
  refine ((parseSymbol_sim k j j' hj (by omega)).orFail (expect_sim hC hj _ _)).bind
    fun l l' x x' hl hll hx => ?_
  subst hx
  refine ((text_sim k _ l l' hl (by omega)).orFail (expect_sim hC hl _ _)).bind
    fun w w' _ _ hw hlw _ => ?_
  refine ((alt_sim hw (parseRange_sim hC h w w' hw (by omega))
    (.cons (precFour_sim hC h w w' hw (by omega)) .nil)).orFail (expect_sim hC hw _ _)).bind
    fun q q' e e' hq hlq hee => ?_
  subst hee
  exact (((parseBlock_sim hC he hq (by omega)).orFail (expect_sim hC hq _ _)).mono (by omega)).map
    fun _ _ h => by rw [h]

theorem precSeven_sim {expr expr' : Parser Expr} {n : Nat} (he : Sim R n Eq expr expr')
    {i i' : List Tok} (hi : ToksSim R i i') (hk : i.length < k) (hn : i.length ≤ n) :
    PSim R Eq i.length (precSeven C one expr i) (precSeven C' one' expr' i') := by
  refine (noTermPunct_sim hC hi).bind fun _ _ _ _ _ _ _ => ?_
  exact alt_sim hi (parseFor_sim hC h he hi hk hn)
    (.cons (parseIf_sim hC h i i' hi hk) (.cons (parseAssign_sim hC he hi hn)
      (.cons (parseCallable_sim hC he hi hn) (.cons (parseApply_sim hC h i i' hi hk)
        (.cons (parseApplyOperator_sim hC h i i' hi hk)
          (.cons (precSix_sim hC h i i' hi hk) .nil))))))

theorem exprStep_sim {expr expr' : Parser Expr} {n : Nat} (he : Sim R n Eq expr expr')
    {i i' : List Tok} (hi : ToksSim R i i') (hk : i.length < k) (hn : i.length ≤ n) :
    PSim R Eq i.length (exprStep C one expr i) (exprStep C' one' expr' i') := by
  refine (noTermPunct_sim hC hi).bind fun _ _ _ _ _ _ _ => ?_
  refine (precSeven_sim hC h he hi hk hn).bind fun j j' a a' hj hlt ha => ?_
  subst ha
  have h7 : Sim R i.length Eq (precSeven C one expr) (precSeven C' one' expr') :=
    fun w w' hw hlw => precSeven_sim hC h he hw (by omega) (by omega)
  refine (many0_sim (pair_sim (altText_sim _ c!"|" [c!">>>", c!">>", c!"<<"]) h7) hj hlt).bind
    fun l l' b b' hl hlt' hb => ?_
  rw [isEmpty_sim hb, pipeArgs_sim hb]
  exact .ok hl (by omega) rfl

theorem exprN_sim : ∀ (n n' : Nat) (i i' : List Tok), ToksSim R i i' → i.length < k →
    i.length < n → i.length < n' → PSim R Eq i.length (exprN C one n i) (exprN C' one' n' i')
  | 0, _, _, _, _, _, h, _ => absurd h (by omega)
  | _ + 1, 0, _, _, _, _, _, h => absurd h (by omega)
  | n + 1, n' + 1, i, i', hi, hk, hn, hn' => by
    rw [exprN, exprN]
    exact exprStep_sim hC h (n := i.length)
      (fun w w' hw hlw => exprN_sim n n' w w' hw (by omega) (by omega) (by omega)) hi hk (by omega)

theorem parseExpr_sim : Sim R k Eq (parseExpr C one) (parseExpr C' one') := fun i i' hi hk =>
  exprN_sim hC h _ _ i i' hi hk (by omega) (by rw [hi.length]; omega)

theorem parseQuote_sim {i i' : List Tok} (hi : ToksSim R i i') (hk : i.length ≤ k) :
    PSim R Eq i.length (parseQuote C one i) (parseQuote C' one' i') := by
  refine (text_sim (k + 1) _ i i' hi (by omega)).bind fun j j' a a' hj hlt ha => ?_
  exact ((precTwo_sim hC h j j' hj (by omega)).mono (by omega)).map fun _ _ h => by rw [h]

theorem oneStep_sim : Sim R (k + 1) Eq (oneStep C one) (oneStep C' one') := by
  intro i i' hi hk
  have he := parseExpr_sim hC h
  have hk' : i.length ≤ k := by omega
  exact alt_sim hi (parseGroup_sim hC he hi hk')
    (.cons (parseQuote_sim hC h hi hk') (.cons (parseMap_sim hC he hi hk')
    (.cons (parseBlock_sim hC he hi hk') (.cons (parseList_sim hC he hi hk')
    (.cons ((parseBoolean_sim (k + 1) i i' hi hk).map fun _ _ h => by rw [h])
    (.cons ((parseNone_sim hC (k + 1) i i' hi hk).map fun _ _ _ => rfl)
    (.cons ((parseFloat_sim hC (k + 1) i i' hi hk).map fun _ _ h => by rw [h])
    (.cons ((parseInteger_sim (k + 1) i i' hi hk).map fun _ _ h => by rw [h])
    (.cons ((parseString_sim (k + 1) i i' hi hk).map fun _ _ h => by rw [h])
    (.cons ((parseSymbol_sim (k + 1) i i' hi hk).map fun _ _ h => by rw [h]) .nil))))))))))

end

theorem parseOne_sim {C C' : Ctx} (hC : CtxSim R C C') : ∀ n n' : Nat,
    Sim R (min n n') Eq (parseOne C n) (parseOne C' n')
  | 0, _ => fun _ _ _ h => absurd h (by omega)
  | _ + 1, 0 => fun _ _ _ h => absurd h (by omega)
  | n + 1, n' + 1 => fun i i' hi hk =>
    oneStep_sim hC (parseOne_sim hC n n') i i' hi (by omega)

/-- the outcomes of two scripts agree up to positions -/
inductive ResSim (R : Rel) : Result → Result → Prop
  | ok {e} : ResSim R (.ok e) (.ok e)
  | err {b e e'} : ErrSim R e e' → ResSim R (.err b e) (.err b e')
  | panic : R.pan → ResSim R .panic .panic

theorem scriptN_sim {C C' : Ctx} (hC : CtxSim R C C') {n n' : Nat} {i i' : List Tok}
    (hi : ToksSim R i i') (hn : i.length < n) (hn' : i.length < n') :
    ResSim R (scriptN C n i) (scriptN C' n' i') := by
  have h := parseScriptTokens_sim hC (parseExpr_sim hC (parseOne_sim hC n n')) true hi (by omega)
  rw [scriptN, scriptN]
  generalize parseScriptTokens C (parseExpr C (parseOne C n)) true i = r at h ⊢
  generalize parseScriptTokens C' (parseExpr C' (parseOne C' n')) true i' = r' at h ⊢
  cases h with
  | ok h1 h2 h3 => subst h3; exact .ok
  | error h => exact .err h
  | failure h => exact .err h
  | panic h => exact .panic h

end Dune.Parse
