import Verif.Proof.Unscan
import Verif.Proof.StrLit
import Verif.Proof.Pipes

/-! Whatever the parser accepts is described by the grammar `A`. -/

namespace Dune.Parse

open Spec

variable {α β : Type}

/-! ### Words -/

/-- Every token is a word of the lexical grammar. -/
def Good (i : List Tok) : Prop := ∀ t ∈ i, Lexeme t.word ∨ OpenString t.word

theorem Good.tail {u i : List Tok} (h : Good (u ++ i)) : Good i := fun t ht => h t (by simp [ht])

theorem Good.tail1 {t : Tok} {i : List Tok} (h : Good (t :: i)) : Good i :=
  fun s hs => h s (by simp [hs])

def punctTexts : List Str :=
  [c!"(", c!")", c!"[", c!"]", c!"{", c!"}", c!"'", c!",", c!";", c!"=", c!"->", c!"~>"]

def keywordTexts : List Str := [c!"None", c!"then", c!"else", c!"let", c!"for", c!"if", c!"in"]

/-- The text of a word with a meaning of its own determines its kind. -/
theorem reserved_kind {w : Word} (h : Lexeme w ∨ OpenString w) (hr : w.2 ∈ reserved) :
    (w.1 = .punctuation ∧ w.2 ∈ punctTexts) ∨ (w.1 = .operator ∧ w.2 ∈ allOps) ∨
      (w.1 = .keyword ∧ w.2 ∈ keywordTexts) := by
  have hd : ∀ t ∈ reserved, ∀ c ∈ t, c ∉ digitChars ∧ c ∉ spaceChars ∧ c ≠ '#' ∧ c ≠ '"' := by decide
  rcases h with h | ⟨_, b, v, _, hb⟩
  · cases h with
    | @space s hs h =>
      cases s with
      | nil => exact absurd rfl hs
      | cons c s => exact absurd (h c (by simp)) (hd _ hr c (by simp)).2.1
    | comment h1 h2 => exact absurd rfl (hd _ hr '#' (by simp)).2.2.1
    | punct h => exact .inl ⟨rfl, h⟩
    | op h => exact .inr (.inl ⟨rfl, h⟩)
    | keyword h => exact .inr (.inr ⟨rfl, h⟩)
    | bool h => exact absurd hr ((show ∀ t ∈ [c!"True", c!"False"], t ∉ reserved by decide) _ h)
    | str h => exact absurd rfl (hd _ hr '"' (by simp)).2.2.2
    | int h h' =>
      obtain ⟨d, r, rfl, hd', _⟩ := Lex.canonical_head h'
      exact absurd hd' (hd _ hr d (by simp)).1
    | float h h' =>
      obtain ⟨d, r, rfl, hd', _⟩ := Lex.canonical_head h'
      exact absurd hd' (hd _ hr d (by simp)).1
    | name h1 h2 => exact absurd hr h2
  · rw [hb] at hr
    exact absurd rfl (hd _ hr '"' (by simp)).2.2.2

theorem text_inv {s : Str} {i i' : List Tok} {t : Tok} (h : text s i = .ok i' t) :
    i = t :: i' ∧ t.text = s := by
  cases i with
  | nil => simp [text] at h
  | cons a i =>
    rw [text] at h
    split at h
    · simp only [PR.ok.injEq] at h
      obtain ⟨rfl, rfl⟩ := h
      exact ⟨rfl, ‹_›⟩
    · simp at h

theorem kind_inv {k : TokenKind} {i i' : List Tok} {t : Tok} (h : kind k i = .ok i' t) :
    i = t :: i' ∧ t.kind = k := by
  cases i with
  | nil => simp [kind] at h
  | cons a i =>
    rw [kind] at h
    split at h
    · simp only [PR.ok.injEq] at h
      obtain ⟨rfl, rfl⟩ := h
      exact ⟨rfl, ‹_›⟩
    · simp at h

theorem good_word {t : Tok} {i : List Tok} (hg : Good (t :: i)) : Lexeme t.word ∨ OpenString t.word :=
  hg t (by simp)

theorem punct_word {s : Str} (hs : s ∈ punctTexts) {i i' : List Tok} {t : Tok} (hg : Good i)
    (h : text s i = .ok i' t) : i = t :: i' ∧ t.word = pw s := by
  obtain ⟨rfl, hx⟩ := text_inv h
  refine ⟨rfl, ?_⟩
  have hr : t.word.2 ∈ reserved := by
    rw [show t.word.2 = s from hx]
    exact (show ∀ s ∈ punctTexts, s ∈ reserved by decide) s hs
  have h1 := reserved_kind (good_word hg) hr
  rw [show t.word.2 = s from hx] at h1
  have h2 := (show ∀ s ∈ punctTexts, s ∉ allOps ∧ s ∉ keywordTexts by decide) s hs
  rcases h1 with h1 | h1 | h1
  · exact Prod.ext h1.1 hx
  · exact absurd h1.2 h2.1
  · exact absurd h1.2 h2.2

theorem op_word {s : Str} (hs : s ∈ allOps) {i i' : List Tok} {t : Tok} (hg : Good i)
    (h : text s i = .ok i' t) : i = t :: i' ∧ t.word = ow s := by
  obtain ⟨rfl, hx⟩ := text_inv h
  refine ⟨rfl, ?_⟩
  have hr : t.word.2 ∈ reserved := by
    rw [show t.word.2 = s from hx]
    exact (show ∀ s ∈ allOps, s ∈ reserved by decide) s hs
  have h1 := reserved_kind (good_word hg) hr
  rw [show t.word.2 = s from hx] at h1
  have h2 := (show ∀ s ∈ allOps, s ∉ punctTexts ∧ s ∉ keywordTexts by decide) s hs
  rcases h1 with h1 | h1 | h1
  · exact absurd h1.2 h2.1
  · exact Prod.ext h1.1 hx
  · exact absurd h1.2 h2.2

theorem keyword_word {s : Str} (hs : s ∈ keywordTexts) {i i' : List Tok} {t : Tok} (hg : Good i)
    (h : text s i = .ok i' t) : i = t :: i' ∧ t.word = kw s := by
  obtain ⟨rfl, hx⟩ := text_inv h
  refine ⟨rfl, ?_⟩
  have hr : t.word.2 ∈ reserved := by
    rw [show t.word.2 = s from hx]
    exact (show ∀ s ∈ keywordTexts, s ∈ reserved by decide) s hs
  have h1 := reserved_kind (good_word hg) hr
  rw [show t.word.2 = s from hx] at h1
  have h2 := (show ∀ s ∈ keywordTexts, s ∉ punctTexts ∧ s ∉ allOps by decide) s hs
  rcases h1 with h1 | h1 | h1
  · exact absurd h1.2 h2.1
  · exact absurd h1.2 h2.2
  · exact Prod.ext h1.1 hx

/-- A word of another kind is not reserved. -/
theorem free_word {t : Tok} {i : List Tok} (hg : Good (t :: i)) (h1 : t.kind ≠ .punctuation)
    (h2 : t.kind ≠ .operator) (h3 : t.kind ≠ .keyword) : t.text ∉ reserved := by
  intro hr
  rcases reserved_kind (good_word hg) hr with h | h | h
  · exact h1 h.1
  · exact h2 h.1
  · exact h3 h.1

theorem operator_word {t : Tok} {i : List Tok} (hg : Good (t :: i)) (h : t.kind = .operator) :
    t.text ∈ allOps := by
  have hk : t.word.1 = .operator := h
  rcases good_word hg with hw | ⟨hw, _⟩
  · have : t.text = t.word.2 := rfl
    rw [this]
    generalize t.word = w at hk hw
    cases hw with
    | op h => exact h
    | _ => simp [pw, kw] at hk
  · rw [hk] at hw; simp at hw

theorem symbol_inv {i i' : List Tok} {x : Str} (hg : Good i) (h : parseSymbol i = .ok i' x) :
    ∃ t, i = t :: i' ∧ t.word = (.symbol, x) ∧ x ∉ reserved := by
  rw [parseSymbol, PR.map] at h
  cases hk : kind .symbol i with
  | ok j t =>
    obtain ⟨rfl, h1⟩ := kind_inv hk
    rw [hk] at h
    simp only [PR.bind, PR.ok.injEq] at h
    obtain ⟨rfl, rfl⟩ := h
    exact ⟨t, rfl, Prod.ext h1 rfl, free_word hg (by rw [h1]; simp) (by rw [h1]; simp)
      (by rw [h1]; simp)⟩
  | _ => rw [hk] at h; simp [PR.bind] at h

theorem operator_inv {i i' : List Tok} {x : Str} (hg : Good i) (h : parseOperator i = .ok i' x) :
    ∃ t, i = t :: i' ∧ t.word = ow x ∧ x ∈ allOps := by
  rw [parseOperator, PR.map] at h
  cases hk : kind .operator i with
  | ok j t =>
    obtain ⟨rfl, h1⟩ := kind_inv hk
    rw [hk] at h
    simp only [PR.bind, PR.ok.injEq] at h
    obtain ⟨rfl, rfl⟩ := h
    exact ⟨t, rfl, Prod.ext h1 rfl, operator_word hg h1⟩
  | _ => rw [hk] at h; simp [PR.bind] at h

/-! ### Inversion of the combinators -/

theorem bind_inv {r : PR α} {f : List Tok → α → PR β} {i : List Tok} {b : β}
    (h : r.bind f = .ok i b) : ∃ j a, r = .ok j a ∧ f j a = .ok i b := by
  cases r with
  | ok j a => exact ⟨j, a, rfl, h⟩
  | _ => simp [PR.bind] at h

theorem map_inv {r : PR α} {f : α → β} {i : List Tok} {b : β} (h : r.map f = .ok i b) :
    ∃ a, r = .ok i a ∧ f a = b := by
  obtain ⟨j, a, h1, h2⟩ := bind_inv h
  simp only [PR.ok.injEq] at h2
  exact ⟨a, h2.1 ▸ h1, h2.2⟩

theorem orFail_inv {r : PR α} {e : SyntaxError} {i : List Tok} {a : α}
    (h : r.orFail e = .ok i a) : r = .ok i a := by
  cases r <;> simp_all [PR.orFail]

theorem orError_inv {r : PR α} {e : SyntaxError} {i : List Tok} {a : α}
    (h : r.orError e = .ok i a) : r = .ok i a := by
  cases r <;> simp_all [PR.orError]

theorem orElse_inv {r s : PR α} {i : List Tok} {a : α}
    (h : r.orElse s = .ok i a) : r = .ok i a ∨ s = .ok i a := by
  cases r <;> simp_all [PR.orElse]

theorem orElseAny_inv {r s : PR α} {i : List Tok} {a : α}
    (h : r.orElseAny s = .ok i a) : r = .ok i a ∨ s = .ok i a := by
  cases r <;> simp_all [PR.orElseAny]

theorem altGo_inv {i j : List Tok} {a : α} : ∀ {ps : List (Parser α)} {e : SyntaxError},
    altGo i e ps = .ok j a → ∃ p ∈ ps, p i = .ok j a
  | [], _, h => by simp [altGo] at h
  | p :: ps, e, h => by
    rw [altGo] at h
    split at h
    · obtain ⟨q, hq, hq'⟩ := altGo_inv h
      exact ⟨q, by simp [hq], hq'⟩
    · exact ⟨p, by simp, h⟩

theorem alt_inv {p : Parser α} {ps : List (Parser α)} {i j : List Tok} {a : α}
    (h : alt p ps i = .ok j a) : p i = .ok j a ∨ ∃ q ∈ ps, q i = .ok j a := by
  rw [alt] at h
  split at h
  · exact .inr (altGo_inv h)
  · exact .inl h

theorem manyGo_inv {kind : Str} {p : Parser α} {n : Nat} {i j : List Tok} {l : List α}
    (h : manyGo kind p (n + 1) i = .ok j l) : (l = [] ∧ j = i) ∨
      ∃ i1 a l', p i = .ok i1 a ∧ manyGo kind p n i1 = .ok j l' ∧ l = a :: l' := by
  rw [manyGo] at h
  split at h
  · simp only [PR.ok.injEq] at h
    exact .inl ⟨h.2.symm, h.1.symm⟩
  · simp at h
  · simp at h
  · simp at h
  · rename_i i1 a h1
    split at h
    · simp at h
    · obtain ⟨l', h2, h3⟩ := map_inv h
      exact .inr ⟨i1, a, l', h1, h2, h3.symm⟩

theorem opt_inv {p : Parser α} {i j : List Tok} {a : Option α} (h : opt p i = .ok j a) :
    (∃ b, a = some b ∧ p i = .ok j b) ∨ (a = none ∧ j = i) := by
  rw [opt] at h
  rcases orElse_inv h with h | h
  · obtain ⟨b, h1, h2⟩ := map_inv h
    exact .inl ⟨b, h2.symm, h1⟩
  · simp only [PR.ok.injEq] at h
    exact .inr ⟨h.2.symm, h.1.symm⟩

theorem noTerm_inv {C : Ctx} {i j : List Tok} {f : List Tok → Unit → PR α} {a : α}
    (h : (noTermPunct C i).bind f = .ok j a) : f i () = .ok j a := by
  obtain ⟨k, b, h1, h2⟩ := bind_inv h
  have : k = i := by
    cases i with
    | nil =>
      simp only [noTermPunct, PR.ok.injEq] at h1
      exact h1.1.symm
    | cons t i =>
      simp only [noTermPunct] at h1
      split at h1
      · simp at h1
      · simp only [PR.ok.injEq] at h1; exact h1.1.symm
  exact this ▸ h2

/-! ### Derivations for consumed tokens -/

/-- The tokens between `i` and `j`, at least one, derive `v`; closing parentheses may be missing, but
only at the end. -/
def Der (B : List Word → α → Prop) (i j : List Tok) (v : α) : Prop :=
  ∃ u n, u ≠ [] ∧ i = u ++ j ∧ (n ≠ 0 → j = []) ∧
    B (u.map Tok.word ++ List.replicate n (pw c!")")) v

/-- The same without missing parentheses. -/
def Cl (B : List Word → α → Prop) (i j : List Tok) (v : α) : Prop :=
  ∃ u, u ≠ [] ∧ i = u ++ j ∧ B (u.map Tok.word) v

def Snd (B : List Word → α → Prop) (p : Parser α) : Prop :=
  ∀ {i j v}, Good i → p i = .ok j v → Der B i j v

variable {B : List Word → α → Prop} {D : List Word → β → Prop}

theorem Der.closed {i j : List Tok} {v : α} (h : Der B i j v) (hj : j ≠ []) : Cl B i j v := by
  obtain ⟨u, n, h1, h2, h3, h4⟩ := h
  have : n = 0 := by
    by_contra hn
    exact hj (h3 hn)
  subst this
  exact ⟨u, h1, h2, by simpa using h4⟩

theorem Cl.der {i j : List Tok} {v : α} (h : Cl B i j v) : Der B i j v := by
  obtain ⟨u, h1, h2, h3⟩ := h
  exact ⟨u, 0, h1, h2, by simp, by simpa using h3⟩

theorem Der.good {i j : List Tok} {v : α} (h : Der B i j v) (hg : Good i) : Good j := by
  obtain ⟨u, n, _, h2, _⟩ := h
  rw [h2] at hg
  exact hg.tail

theorem Der.ne {i j : List Tok} {v : α} (h : Der B i j v) : i ≠ [] := by
  obtain ⟨u, n, h1, h2, _⟩ := h
  rw [h2]
  simp [h1]

/-- A derivation, after some more tokens. -/
theorem Der.after {p i j : List Tok} {v : α} {v' : β} (h : Der B i j v)
    (f : ∀ ws, B ws v → D (p.map Tok.word ++ ws) v') : Der D (p ++ i) j v' := by
  obtain ⟨u, n, h1, h2, h3, h4⟩ := h
  refine ⟨p ++ u, n, by simp [h1], by rw [h2]; simp, h3, ?_⟩
  have := f _ h4
  simpa using this

theorem Der.after' {p i i0 j : List Tok} {v : α} {v' : β} (h : Der B i j v) (hi : i0 = p ++ i)
    (f : ∀ ws, B ws v → D (p.map Tok.word ++ ws) v') : Der D i0 j v' := hi ▸ h.after f

theorem Der.mono {i j : List Tok} {v : α} {v' : β} (h : Der B i j v) (f : ∀ ws, B ws v → D ws v') :
    Der D i j v' := h.after (p := []) f

theorem Cl.mono {i j : List Tok} {v : α} {v' : β} (h : Cl B i j v) (f : ∀ ws, B ws v → D ws v') :
    Cl D i j v' := by
  obtain ⟨u, h1, h2, h3⟩ := h
  exact ⟨u, h1, h2, f _ h3⟩

/-- A closed derivation followed by another. -/
theorem Cl.andThen {γ : Type} {E : List Word → γ → Prop} {i k j : List Tok} {a : α} {b : β} {c : γ}
    (h : Cl B i k a) (h' : Der D k j b) (f : ∀ u v, B u a → D v b → E (u ++ v) c) : Der E i j c := by
  obtain ⟨u, h1, rfl, h3⟩ := h
  exact h'.after fun ws hw => f _ _ h3 hw

/-- A chain of infix operators. -/
theorem chain_sound {B Q : List Word → Expr → Prop} {ops : Parser Tok} {p : Parser Expr} {S : List Str}
    (hops : ∀ {i j t}, Good i → ops i = .ok j t → i = t :: j ∧ ∃ op ∈ S, t.word = ow op)
    (hstep : ∀ {u x op v y}, B u x → op ∈ S → Q v y → B (u ++ ow op :: v) (infix_ op x y))
    (hp : Snd Q p) {kind : Str} : ∀ {n : Nat} {i i1 j : List Tok} {x : Expr} {l : List (Tok × Expr)},
      Good i → Der B i i1 x → manyGo kind (pair ops p) n i1 = .ok j l → Der B i j (leftFold x l)
  | 0, _, _, _, _, _, _, _, h => by simp [manyGo] at h
  | n + 1, i, i1, j, x, l, hg, hd, h => by
    rcases manyGo_inv h with ⟨rfl, rfl⟩ | ⟨i2, a, l', h1, h2, rfl⟩
    · exact hd
    · rw [pair] at h1
      obtain ⟨i3, t, h3, h4⟩ := bind_inv h1
      obtain ⟨y, h5, rfl⟩ := map_inv h4
      obtain ⟨rfl, op, hop, ht⟩ := hops (hd.good hg) h3
      have hdy := hp (hd.good hg).tail1 h5
      obtain ⟨u, hu, rfl, hB⟩ := hd.closed (by simp)
      have hd2 : Der B (u ++ t :: i3) i2 (infix_ op x y) := by
        have := hdy.after (p := u ++ [t]) (D := B) (v' := infix_ op x y) fun ws hw => by
          have := hstep hB hop hw
          simpa [ht] using this
        simpa using this
      have hx : infix_ op x y = .group (.apply (.symbol t.text) [x, y]) := by
        rw [show t.text = op from congrArg Prod.snd ht]; rfl
      rw [leftFold, ← hx]
      exact chain_sound hops hstep hp hg hd2 h2

/-- An alternative of operator texts. -/
theorem ops_inv {s : Str} {ss S : List Str} (hs : ∀ x ∈ s :: ss, x ∈ S) (hS : ∀ x ∈ S, x ∈ allOps)
    {i j : List Tok} {t : Tok} (hg : Good i)
    (h : alt (text s) (ss.map text) i = .ok j t) : i = t :: j ∧ ∃ op ∈ S, t.word = ow op := by
  obtain ⟨x, hx, h⟩ : ∃ x ∈ s :: ss, text x i = .ok j t := by
    rcases alt_inv h with h | ⟨q, hq, h⟩
    · exact ⟨s, by simp, h⟩
    · obtain ⟨x, hx, rfl⟩ := List.mem_map.mp hq
      exact ⟨x, by simp [hx], h⟩
  obtain ⟨h1, h2⟩ := op_word (hS x (hs x hx)) hg h
  exact ⟨h1, x, hs x hx, h2⟩

theorem many_sound {B : List Word → β → Prop} {D : List Word → List β → Prop} {p : Parser β}
    (hp : Snd B p) (hone : ∀ {u x}, B u x → D u [x])
    (hcons : ∀ {u x v l}, B u x → D v l → D (u ++ v) (x :: l)) {kind : Str} :
    ∀ {n : Nat} {i j : List Tok} {l : List β}, Good i → manyGo kind p n i = .ok j l →
      (l = [] ∧ j = i) ∨ Der D i j l
  | 0, _, _, _, _, h => by simp [manyGo] at h
  | n + 1, i, j, l, hg, h => by
    rcases manyGo_inv h with ⟨rfl, rfl⟩ | ⟨i1, a, l', h2, h3, rfl⟩
    · exact .inl ⟨rfl, rfl⟩
    · have hd := hp hg h2
      rcases many_sound hp hone hcons (hd.good hg) h3 with ⟨rfl, rfl⟩ | hd'
      · exact .inr (hd.mono fun ws hw => hone hw)
      · exact .inr ((hd.closed hd'.ne).andThen hd' fun u v hu hv => hcons hu hv)

theorem snd_fields_ne {P : Plat} {u : List Word} {l : List Expr} (h : A P .fields u l) : l ≠ [] := by
  have : ∀ {k : NT} {u : List Word} {v : k.Val}, A P k u v → ∀ hk : k = .fields,
      (hk ▸ v : NT.Val .fields) ≠ ([] : List Expr) := by
    intro k u v h
    induction h with
    | field => intro hk; exact List.cons_ne_nil _ _
    | fieldOp => intro hk; exact List.cons_ne_nil _ _
    | fields _ _ ih => intro hk h0; exact ih rfl (List.append_eq_nil_iff.mp h0).1
    | _ => intro hk; cases hk
  exact this h rfl

theorem args_ne {P : Plat} {u : List Word} {l : List Expr} (h : A P .args u l) : l ≠ [] := by
  cases h <;> exact List.cons_ne_nil _ _

section
variable {C : Ctx} {one : Parser Expr} (h1 : Snd (α := Expr) (A C.plat .base) one)
include h1

theorem fieldOp_sound : Snd (α := Expr) (fun u x => A C.plat .fields u [x])
    (preceded (text c!"@") (alt one [operatorAsSymbol])) := by
  intro i j v hg h
  rw [preceded] at h
  obtain ⟨i1, t, h2, h3⟩ := bind_inv h
  obtain ⟨rfl, ht⟩ := op_word (by decide) hg h2
  rcases alt_inv h3 with h3 | ⟨q, hq, h3⟩
  · exact (h1 hg.tail1 h3).after (p := [t]) fun ws hw => by
      simp only [List.map_cons, List.map_nil, ht]
      exact .field hw
  · simp only [List.mem_singleton] at hq
    subst hq
    rw [operatorAsSymbol] at h3
    obtain ⟨x, h4, rfl⟩ := map_inv h3
    obtain ⟨t', rfl, ht', hx⟩ := operator_inv hg.tail1 h4
    exact Cl.der ⟨[t, t'], by simp, rfl, by
      simp only [List.map_cons, List.map_nil, ht, ht']
      exact .fieldOp hx⟩

theorem precTwo_sound : Snd (α := Expr) (A C.plat .two) (precTwo C one) := by
  intro i j v hg h
  rw [precTwo] at h
  obtain ⟨i1, x, h2, h⟩ := bind_inv (noTerm_inv h)
  obtain ⟨i2, args, h3, h⟩ := bind_inv h
  simp only [PR.ok.injEq] at h
  obtain ⟨rfl, rfl⟩ := h
  have hd := h1 hg h2
  rcases many_sound (D := A C.plat .fields) (fieldOp_sound h1) (fun h => h)
      (fun hu hv => .fields hu hv) (hd.good hg) h3 with ⟨rfl, rfl⟩ | hd'
  · exact hd.mono fun ws hw => .base hw
  · have hne : args ≠ [] := by
      rintro rfl
      obtain ⟨u, n, _, _, _, hA⟩ := hd'
      exact snd_fields_ne hA rfl
    rw [if_neg (by simpa using hne)]
    exact (hd.closed hd'.ne).andThen hd' fun u v hu hv => .access hu hv

theorem precThree_sound : Snd (α := Expr) (A C.plat .prod) (precThree C one) := by
  intro i j v hg h
  rw [precThree] at h
  obtain ⟨i1, x, h2, h⟩ := bind_inv (noTerm_inv h)
  obtain ⟨i2, l, h3, h⟩ := bind_inv h
  simp only [PR.ok.injEq] at h
  obtain ⟨rfl, rfl⟩ := h
  exact chain_sound (B := A C.plat .prod) (Q := A C.plat .two) (S := mulOps)
    (ops_inv (ss := [c!"//", c!"%"]) (by decide) (by decide))
    (fun hu hop hv => .mul hu hop hv) (precTwo_sound h1) hg
    ((precTwo_sound h1 hg h2).mono fun ws hw => .two hw) h3

theorem precFour_sound : Snd (α := Expr) (A C.plat .sum) (precFour C one) := by
  intro i j v hg h
  rw [precFour] at h
  obtain ⟨i1, x, h2, h⟩ := bind_inv (noTerm_inv h)
  obtain ⟨i2, l, h3, h⟩ := bind_inv h
  simp only [PR.ok.injEq] at h
  obtain ⟨rfl, rfl⟩ := h
  exact chain_sound (B := A C.plat .sum) (Q := A C.plat .prod) (S := addOps)
    (ops_inv (ss := [c!"-"]) (by decide) (by decide))
    (fun hu hop hv => .add hu hop hv) (precThree_sound h1) hg
    ((precThree_sound h1 hg h2).mono fun ws hw => .prod hw) h3

theorem rangeEnd_inv {x : Expr} {i j : List Tok} {v : Expr} (hg : Good i)
    (h : rangeEnd C one x i = .ok j v) : ∃ y, v = .apply (.symbol c!"to") [x, y] ∧
      Der (α := Expr) (A C.plat .sum) i j y := by
  rw [rangeEnd] at h
  obtain ⟨y, h2, rfl⟩ := map_inv h
  exact ⟨y, rfl, precFour_sound h1 hg (orFail_inv h2)⟩

theorem precFive_sound : Snd (α := Expr) (A C.plat .cmp) (precFive C one) := by
  intro i j v hg h
  rw [precFive] at h
  obtain ⟨i1, x, h2, h⟩ := bind_inv (noTerm_inv h)
  obtain ⟨i2, l, h3, h'⟩ := bind_inv h
  clear h
  have hd := precFour_sound h1 hg h2
  have hch := chain_sound (B := A C.plat .rel) (Q := A C.plat .sum) (S := relOps)
    (ops_inv (ss := [c!"!=", c!">=", c!"<=", c!">", c!"<"]) (by decide) (by decide))
    (fun hu hop hv => .compare hu hop hv) (precFour_sound h1) hg
    (hd.mono fun ws hw => .sum hw) h3
  split at h'
  · rename_i hl
    have hl : l = [] := by simpa using hl
    subst hl
    have hi2 : i2 = i1 := by
      rcases manyGo_inv h3 with ⟨_, h⟩ | ⟨_, _, _, _, _, h⟩
      · exact h
      · simp at h
    subst hi2
    split at h'
    · rename_i i3 t h4
      obtain ⟨rfl, ht⟩ := op_word (by decide) (hd.good hg) h4
      obtain ⟨y, rfl, hd'⟩ := rangeEnd_inv h1 (hd.good hg).tail1 h'
      obtain ⟨u, hu, rfl, hB⟩ := hd.closed (by simp)
      exact hd'.after' (β := Expr) (p := u ++ [t]) (D := A C.plat .cmp) (by simp)
        fun ws hw => by
          have := A.range hB hw
          simpa [ht] using this
    · rcases orElseAny_inv h' with h' | h'
      · rw [parseNot] at h'
        obtain ⟨i3, t, h4, h'⟩ := bind_inv h'
        obtain ⟨y, h5, rfl⟩ := map_inv h'
        obtain ⟨rfl, ht⟩ := op_word (by decide) (hd.good hg) h4
        have hd' := precFour_sound h1 (hd.good hg).tail1 h5
        obtain ⟨u, hu, rfl, hB⟩ := hd.closed (by simp)
        exact hd'.after' (β := Expr) (p := u ++ [t]) (D := A C.plat .cmp)
          (by simp) fun ws hw => by
            have := A.dropped hB hw
            simpa [ht] using this
      · simp only [PR.ok.injEq] at h'
        obtain ⟨rfl, rfl⟩ := h'
        exact hd.mono fun ws hw => .rel (.sum hw)
  · simp only [PR.ok.injEq] at h'
    obtain ⟨rfl, rfl⟩ := h'
    exact hch.mono fun ws hw => .rel hw

theorem precSix_sound : Snd (α := Expr) (A C.plat .logic) (precSix C one) := by
  intro i j v hg h
  rw [precSix] at h
  obtain ⟨i1, x, h2, h⟩ := bind_inv (noTerm_inv h)
  obtain ⟨i2, l, h3, h⟩ := bind_inv h
  simp only [PR.ok.injEq] at h
  obtain ⟨rfl, rfl⟩ := h
  exact chain_sound (B := A C.plat .logic) (Q := A C.plat .cmp) (S := logicOps)
    (ops_inv (ss := [c!"||"]) (by decide) (by decide))
    (fun hu hop hv => .logic hu hop hv) (precFive_sound h1) hg
    ((precFive_sound h1 hg h2).mono fun ws hw => .cmp hw) h3

theorem args_sound {kind : Str} {n : Nat} {i j : List Tok} {l : List Expr} (hg : Good i)
    (h : manyGo kind (precFive C one) n i = .ok j l) :
    (l = [] ∧ j = i) ∨ Der (α := List Expr) (A C.plat .args) i j l :=
  many_sound (precFive_sound h1) (fun hu => .arg hu) (fun hu hv => .args hu hv) hg h

theorem args1_sound {i j : List Tok} {l : List Expr} (hg : Good i)
    (h : many1 (precFive C one) i = .ok j l) : Der (α := List Expr) (A C.plat .args) i j l := by
  rw [many1] at h
  split at h
  · simp at h
  · simp at h
  · simp at h
  · simp at h
  · rename_i i1 a h2
    obtain ⟨l', h3, rfl⟩ := map_inv h
    have hd := precFive_sound h1 hg h2
    rcases args_sound h1 (hd.good hg) h3 with ⟨rfl, rfl⟩ | hd'
    · exact hd.mono fun ws hw => .arg hw
    · exact (hd.closed hd'.ne).andThen hd' fun u v hu hv => .args hu hv

theorem parseApply_sound : Snd (α := Expr) (A C.plat .seven) (parseApply C one) := by
  intro i j v hg h
  rw [parseApply] at h
  obtain ⟨i1, f, h2, h⟩ := bind_inv h
  obtain ⟨i2, l, h3, h⟩ := bind_inv h
  simp only [PR.ok.injEq] at h
  obtain ⟨rfl, rfl⟩ := h
  rcases alt_inv h2 with h2 | ⟨q, hq, h2⟩
  · have hd := precTwo_sound h1 hg h2
    have hd' := args1_sound h1 (hd.good hg) h3
    exact (hd.closed hd'.ne).andThen hd' fun u v hu hv => .call hu hv
  · simp only [List.mem_singleton] at hq
    subst hq
    rw [operatorAsSymbol] at h2
    obtain ⟨x, h4, rfl⟩ := map_inv h2
    obtain ⟨t, rfl, ht, hx⟩ := operator_inv hg h4
    exact (args1_sound h1 hg.tail1 h3).after (p := [t]) fun ws hw => by
      simp only [List.map_cons, List.map_nil, ht]
      exact .opCall hx hw

theorem parseApplyOperator_sound : Snd (α := Expr) (A C.plat .seven) (parseApplyOperator C one) := by
  intro i j v hg h
  rw [parseApplyOperator] at h
  obtain ⟨i1, f, h2, h⟩ := bind_inv h
  obtain ⟨i2, l, h3, h⟩ := bind_inv h
  simp only [PR.ok.injEq] at h
  obtain ⟨rfl, rfl⟩ := h
  rw [operatorAsSymbol] at h2
  obtain ⟨x, h4, rfl⟩ := map_inv h2
  obtain ⟨t, rfl, ht, hx⟩ := operator_inv hg h4
  rcases args_sound h1 hg.tail1 h3 with ⟨rfl, rfl⟩ | hd
  · exact Cl.der ⟨[t], by simp, rfl, by
      simp only [List.map_cons, List.map_nil, ht]
      exact .opName hx⟩
  · have hne : l ≠ [] := by
      rintro rfl
      obtain ⟨u, n, _, _, _, hA⟩ := hd
      exact args_ne hA rfl
    rw [if_neg (by simpa using hne)]
    exact hd.after (p := [t]) fun ws hw => by
      simp only [List.map_cons, List.map_nil, ht]
      exact .opCall hx hw

theorem parseIfN_sound : ∀ n, Snd (α := Expr) (A C.plat .cond) (parseIfN C one n)
  | 0, _, _, _, _, h => by simp [parseIfN] at h
  | n + 1, i, j, v, hg, h => by
    rw [parseIfN] at h
    obtain ⟨i1, t, h2, ha⟩ := bind_inv h
    obtain ⟨rfl, ht⟩ := keyword_word (by decide) hg h2
    obtain ⟨i2, c, h3, hb⟩ := bind_inv ha
    obtain ⟨i3, x, h4, hc⟩ := bind_inv hb
    obtain ⟨i4, e, h5, hv⟩ := bind_inv hc
    injection hv with hv1 hv2
    subst hv1 hv2
    have hd1 := precSix_sound h1 hg.tail1 (orFail_inv h3)
    have hg2 := hd1.good hg.tail1
    have hd2 := precFour_sound h1 hg2 (orFail_inv h4)
    have hg3 := hd2.good hg2
    obtain ⟨u, hu, rfl, hA⟩ := hd1.closed hd2.ne
    rcases opt_inv h5 with ⟨b, rfl, h6⟩ | ⟨rfl, rfl⟩
    · rw [preceded] at h6
      obtain ⟨i5, t', h7, h8⟩ := bind_inv h6
      obtain ⟨rfl, ht'⟩ := keyword_word (by decide) hg3 h7
      obtain ⟨w, hw, rfl, hA2⟩ := hd2.closed (by simp)
      rcases alt_inv h8 with h8 | ⟨q, hq, h8⟩
      · exact (parseIfN_sound n hg3.tail1 h8).after' (β := Expr) (p := t :: (u ++ (w ++ [t']))) (D := A C.plat .cond)
          (by simp) fun ws hws => by
            have := A.elseIf hA hA2 hws
            simpa [ht, ht'] using this
      · simp only [List.mem_singleton] at hq
        subst hq
        exact (precFour_sound h1 hg3.tail1 h8).after' (β := Expr) (p := t :: (u ++ (w ++ [t']))) (D := A C.plat .cond)
          (by simp) fun ws hws => by
            have := A.iteElse hA hA2 hws
            simpa [ht, ht'] using this
    · exact hd2.after' (β := Expr) (p := t :: u) (D := A C.plat .cond)
        (by simp) fun ws hws => by
          have := A.ite hA hws
          simpa [ht] using this

end

/-! ### Statements and expressions -/

/-- a conditional or a loop -/
def IsCtrl : Expr → Prop
  | .ite .. => True
  | .for_ .. => True
  | _ => False

theorem atom_ctrl {P : Plat} {w : Word} {x : Expr} (h : Atom P w x) : ¬ IsCtrl x := by
  cases h <;> exact id

/-- What `IsCtrl` says about the value of each nonterminal. -/
def CtrlOf (P : Plat) : (k : NT) → List Word → k.Val → Prop
  | .base, _, v | .two, _, v | .prod, _, v | .sum, _, v | .rel, _, v | .cmp, _, v | .logic, _, v =>
    ¬ IsCtrl v
  | .seven, u, v | .expr, u, v => IsCtrl v → A P .ctrl u v
  | _, _, _ => True

theorem ctrlOf {P : Plat} {k : NT} {u : List Word} {v : k.Val} (h : A P k u v) : CtrlOf P k u v := by
  induction h with
  | atom h => exact atom_ctrl h
  | unit | list0 | map0 => exact id
  | group | list | map | block | quote | access | mul | add | compare | range | dropped | logic =>
    exact id
  | base _ ih | two _ ih | prod _ ih | sum _ ih | rel _ ih | cmp _ ih => exact ih
  | noCall _ ih => exact fun h => absurd h ih
  | call | opCall | opName | let_ | lambda | macro_ | pipe => exact fun h => absurd h id
  | ctrl h => exact fun _ => h
  | seven _ ih => exact ih
  | _ => exact trivial

theorem ctrl_of {P : Plat} {u : List Word} {v : Expr} (h : A P .expr u v) (hv : IsCtrl v) :
    A P .ctrl u v := ctrlOf h hv

/-- The statements between `i` and `j`. -/
def DerS (P : Plat) (i j : List Tok) (l : List Expr) : Prop :=
  (l = [] ∧ i = j) ∨ Der (α := List Expr) (A P .stmts) i j l

theorem DerS.good {P : Plat} {i j : List Tok} {l : List Expr} (h : DerS P i j l) (hg : Good i) :
    Good j := by
  rcases h with ⟨_, rfl⟩ | h
  · exact hg
  · exact h.good hg

section
variable {C : Ctx} {expr : Parser Expr} (he : Snd (α := Expr) (A C.plat .expr) expr)
include he

theorem statement_sound {i k j : List Tok} {x : Expr} {l : List Expr} (hg : Good i)
    (h : parseStatement C expr i = .ok k x) (hr : Good k → DerS C.plat k j l) :
    Der (α := List Expr) (A C.plat .stmts) i j (x :: l) := by
  rw [parseStatement] at h
  obtain ⟨i1, e, h2, h'⟩ := bind_inv h
  have hd := he hg h2
  split at h'
  · rename_i i2 t h3
    obtain ⟨rfl, ht⟩ := punct_word (by decide) (hd.good hg) h3
    injection h' with ha hb
    subst ha hb
    obtain ⟨u, hu, rfl, hA⟩ := hd.closed (by simp)
    rcases hr (hd.good hg).tail1 with ⟨rfl, rfl⟩ | hd'
    · exact Cl.der ⟨u ++ [t], by simp, by simp, by
        have := A.stmt hA .done
        simpa [ht] using this⟩
    · exact hd'.after' (p := u ++ [t]) (by simp) fun ws hw => by
        have := A.stmt hA hw
        simpa [ht] using this
  · have key : IsCtrl e → i1 = k → e = x → Der (α := List Expr) (A C.plat .stmts) i j (x :: l) := by
      rintro hc rfl rfl
      rcases hr (hd.good hg) with ⟨rfl, rfl⟩ | hd'
      · exact hd.mono fun ws hw => .last hw
      · exact (hd.closed hd'.ne).andThen hd' fun u v hu hv => .ctrlStmt (ctrl_of hu hc) hv
    split at h'
    · injection h' with ha hb
      exact key trivial ha hb
    · injection h' with ha hb
      exact key trivial ha hb
    · simp at h'

theorem statements_sound {kind : Str} {j : List Tok} {m : List Expr} : ∀ {n : Nat} {i k : List Tok}
    {l : List Expr}, Good i → manyGo kind (parseStatement C expr) n i = .ok k l →
      (Good k → DerS C.plat k j m) → DerS C.plat i j (l ++ m)
  | 0, _, _, _, _, h, _ => by simp [manyGo] at h
  | n + 1, i, k, l, hg, h, hr => by
    rcases manyGo_inv h with ⟨rfl, rfl⟩ | ⟨i1, a, l', h2, h3, rfl⟩
    · exact hr hg
    · exact .inr (statement_sound he hg h2 fun hg1 => statements_sound hg1 h3 hr)

theorem script_sound {i j : List Tok} {b : Bool} {v : Expr} (hg : Good i)
    (h : parseScriptTokens C expr b i = .ok j v) :
    ∃ l, v = .do_ l ∧ DerS C.plat i j l ∧ (b = true → j = []) := by
  rw [parseScriptTokens] at h
  obtain ⟨i1, l, h2, h'⟩ := bind_inv h
  obtain ⟨i2, last, h3, h''⟩ := bind_inv h'
  have hd : DerS C.plat i i2 (l ++ last.toList) := by
    refine statements_sound he hg h2 fun hg1 => ?_
    rcases opt_inv h3 with ⟨e, rfl, h4⟩ | ⟨rfl, rfl⟩
    · rw [terminated] at h4
      obtain ⟨i3, e', h5, h6⟩ := bind_inv h4
      obtain ⟨o, h7, rfl⟩ := map_inv h6
      have hd := he hg1 h5
      right
      rcases opt_inv h7 with ⟨t, rfl, h8⟩ | ⟨rfl, rfl⟩
      · obtain ⟨rfl, ht⟩ := punct_word (by decide) (hd.good hg1) h8
        obtain ⟨u, hu, rfl, hA⟩ := hd.closed (by simp)
        exact Cl.der ⟨u ++ [t], by simp, by simp, by
          have := A.stmt hA .done
          simpa [ht] using this⟩
      · exact hd.mono fun ws hw => .last hw
    · exact .inl ⟨rfl, rfl⟩
  cases b with
  | false =>
    simp only [Bool.false_eq_true, if_false, PR.ok.injEq] at h''
    obtain ⟨rfl, rfl⟩ := h''
    exact ⟨_, rfl, hd, by simp⟩
  | true =>
    simp only [if_true] at h''
    obtain ⟨_, h4, rfl⟩ := map_inv h''
    have h5 := orError_inv h4
    cases i2 with
    | nil =>
      simp only [eof, PR.ok.injEq] at h5
      obtain ⟨rfl, _⟩ := h5
      exact ⟨_, rfl, hd, fun _ => rfl⟩
    | cons t i2 => simp [eof] at h5

/-- A block: the braces and the statements between them. -/
theorem block_sound {i j : List Tok} {v : Expr} (hg : Good i) (h : parseBlock C expr i = .ok j v) :
    ∃ t u t' l, i = t :: (u ++ t' :: j) ∧ t.word = pw c!"{" ∧ t'.word = pw c!"}" ∧ v = .do_ l ∧
      A C.plat .stmts (u.map Tok.word) l := by
  rw [parseBlock] at h
  obtain ⟨i1, t, h2, h'⟩ := bind_inv h
  obtain ⟨rfl, ht⟩ := punct_word (by decide) hg h2
  obtain ⟨i2, e, h3, h''⟩ := bind_inv h'
  obtain ⟨t', h4, rfl⟩ := map_inv h''
  obtain ⟨l, rfl, hd, _⟩ := script_sound he hg.tail1 h3
  obtain ⟨rfl, ht'⟩ := punct_word (by decide) (hd.good hg.tail1) (orFail_inv h4)
  rcases hd with ⟨rfl, rfl⟩ | hd
  · exact ⟨t, [], t', [], rfl, ht, ht', rfl, .done⟩
  · obtain ⟨u, hu, rfl, hA⟩ := hd.closed (by simp)
    exact ⟨t, u, t', l, rfl, ht, ht', rfl, hA⟩

omit he in
theorem named_inv {i j : List Tok} {x : Str} (hg : Good i)
    (h : alt parseSymbol [parseOperator] i = .ok j x) :
    ∃ t, i = t :: j ∧ NamedAny t.word ∧ t.text = x := by
  rcases alt_inv h with h | ⟨q, hq, h⟩
  · obtain ⟨t, rfl, ht, hx⟩ := symbol_inv hg h
    have h2 : t.text = x := congrArg Prod.snd ht
    exact ⟨t, rfl, .inl ⟨congrArg Prod.fst ht, by rw [show t.word.2 = x from h2]; exact hx⟩, h2⟩
  · simp only [List.mem_singleton] at hq
    subst hq
    obtain ⟨t, rfl, ht, hx⟩ := operator_inv hg h
    have h2 : t.text = x := congrArg Prod.snd ht
    exact ⟨t, rfl, .inr ⟨congrArg Prod.fst ht, by rw [show t.word.2 = x from h2]; exact hx⟩, h2⟩

theorem assign_sound : Snd (α := Expr) (A C.plat .seven) (parseAssign C expr) := by
  intro i j v hg h
  rw [parseAssign] at h
  obtain ⟨i1, t, h2, h'⟩ := bind_inv h
  obtain ⟨rfl, ht⟩ := keyword_word (by decide) hg h2
  obtain ⟨i2, x, h3, h''⟩ := bind_inv h'
  obtain ⟨w, rfl, hw, hx⟩ := named_inv hg.tail1 (orFail_inv h3)
  obtain ⟨i3, t', h4, h5⟩ := bind_inv h''
  obtain ⟨rfl, ht'⟩ := punct_word (by decide) hg.tail1.tail1 (orFail_inv h4)
  obtain ⟨e, h6, rfl⟩ := map_inv h5
  exact (he hg.tail1.tail1.tail1 h6).after' (p := [t, w, t']) rfl fun ws hws => by
    have := A.let_ hw hws
    rw [show w.word.2 = x from hx] at this
    simpa [ht, ht'] using this

theorem group_sound : Snd (α := Expr) (A C.plat .base) (parseGroup C expr) := by
  intro i j v hg h
  rw [parseGroup] at h
  obtain ⟨i1, t, h2, h'⟩ := bind_inv h
  obtain ⟨rfl, ht⟩ := punct_word (by decide) hg h2
  obtain ⟨i2, e, h3, h''⟩ := bind_inv h'
  obtain ⟨_, h4, rfl⟩ := map_inv h''
  have hd := he hg.tail1 h3
  rcases alt_inv (orFail_inv h4) with h4 | ⟨q, hq, h4⟩
  · obtain ⟨t', h5, _⟩ := map_inv h4
    obtain ⟨rfl, ht'⟩ := punct_word (by decide) (hd.good hg.tail1) h5
    obtain ⟨u, hu, rfl, hA⟩ := hd.closed (by simp)
    exact Cl.der ⟨t :: (u ++ [t']), by simp, by simp, by
      have := A.group hA
      simpa [ht, ht'] using this⟩
  · simp only [List.mem_singleton] at hq
    subst hq
    cases i2 with
    | cons t' i2 => simp [empty] at h4
    | nil =>
      simp only [empty, PR.ok.injEq] at h4
      obtain ⟨rfl, _⟩ := h4
      obtain ⟨u, n, hu, rfl, _, hA⟩ := hd
      refine ⟨t :: u, n + 1, by simp, by simp, by simp, ?_⟩
      have := A.group hA
      rw [List.append_assoc, ← List.replicate_succ'] at this
      simpa [ht] using this

theorem list_items {i j : List Tok} {l : List Expr} (hg : Good i)
    (h : separatedList0 (text c!",") expr i = .ok j l) :
    (l = [] ∧ j = i) ∨ Der (α := List Expr) (A C.plat .items) i j l := by
  rw [separatedList0] at h
  split at h
  · injection h with h1 h2
    exact .inl ⟨h2.symm, h1.symm⟩
  · simp at h
  · simp at h
  · simp at h
  · rename_i i1 a h2
    obtain ⟨l', h3, rfl⟩ := map_inv h
    right
    have hd := he hg h2
    have hp : Snd (α := Expr) (fun u x => ∃ v, u = pw c!"," :: v ∧ A C.plat .expr v x)
        (preceded (text c!",") expr) := by
      intro i j v hg h
      rw [preceded] at h
      obtain ⟨i1, t, h2, h'⟩ := bind_inv h
      obtain ⟨rfl, ht⟩ := punct_word (by decide) hg h2
      exact (he hg.tail1 h').after' (p := [t]) rfl fun ws hw => ⟨ws, by simp [ht], hw⟩
    rcases many_sound (D := fun u (l : List Expr) => ∃ v, u = pw c!"," :: v ∧ A C.plat .items v l) hp
        (fun ⟨v, hv, hA⟩ => ⟨v, hv, .item hA⟩)
        (fun ⟨v, hv, hA⟩ ⟨w, hw, hB⟩ => ⟨v ++ pw c!"," :: w, by rw [hv, hw]; rfl, .items hA hB⟩)
        (hd.good hg) h3 with ⟨rfl, rfl⟩ | hd'
    · exact hd.mono fun ws hw => .item hw
    · exact (hd.closed hd'.ne).andThen hd' fun u v hu ⟨w, hv, hw⟩ => by
        rw [hv]; exact .items hu hw

theorem list_sound : Snd (α := Expr) (A C.plat .base) (parseList C expr) := by
  intro i j v hg h
  rw [parseList] at h
  obtain ⟨i1, t, h2, h'⟩ := bind_inv h
  obtain ⟨rfl, ht⟩ := punct_word (by decide) hg h2
  obtain ⟨i2, l, h3, h''⟩ := bind_inv h'
  obtain ⟨t', h4, rfl⟩ := map_inv h''
  rcases list_items he hg.tail1 h3 with ⟨rfl, rfl⟩ | hd
  · obtain ⟨rfl, ht'⟩ := punct_word (by decide) hg.tail1 (orFail_inv h4)
    exact Cl.der ⟨[t, t'], by simp, rfl, by
      simp only [List.map_cons, List.map_nil, ht, ht']
      exact .list0⟩
  · obtain ⟨rfl, ht'⟩ := punct_word (by decide) (hd.good hg.tail1) (orFail_inv h4)
    obtain ⟨u, hu, rfl, hA⟩ := hd.closed (by simp)
    exact Cl.der ⟨t :: (u ++ [t']), by simp, by simp, by
      have := A.list hA
      simpa [ht, ht'] using this⟩

theorem entry_sound : Snd (α := Str × Expr) (fun u p => ∃ w v, u = w :: pw c!"=" :: v ∧ NamedAny w ∧
    w.2 = p.1 ∧ A C.plat .expr v p.2) (parseEntry expr) := by
  intro i j v hg h
  rw [parseEntry] at h
  obtain ⟨i1, k, h2, h'⟩ := bind_inv h
  obtain ⟨w, rfl, hw, hx⟩ := named_inv hg h2
  obtain ⟨i2, t, h3, h''⟩ := bind_inv h'
  obtain ⟨rfl, ht⟩ := punct_word (by decide) hg.tail1 h3
  obtain ⟨e, h4, rfl⟩ := map_inv h''
  exact (he hg.tail1.tail1 h4).after' (p := [w, t]) rfl fun ws hws =>
    ⟨w.word, ws, by simp [ht], hw, hx, hws⟩

theorem map_items {i j : List Tok} {l : List (Str × Expr)} (hg : Good i)
    (h : separatedList0 (text c!",") (parseEntry expr) i = .ok j l) :
    (l = [] ∧ j = i) ∨ Der (α := List (Str × Expr)) (A C.plat .entries) i j l := by
  rw [separatedList0] at h
  split at h
  · injection h with h1 h2
    exact .inl ⟨h2.symm, h1.symm⟩
  · simp at h
  · simp at h
  · simp at h
  · rename_i i1 a h2
    obtain ⟨l', h3, rfl⟩ := map_inv h
    right
    have hd := entry_sound he hg h2
    have hp : Snd (α := Str × Expr) (fun u p => ∃ w v, u = pw c!"," :: w :: pw c!"=" :: v ∧
        NamedAny w ∧ w.2 = p.1 ∧ A C.plat .expr v p.2) (preceded (text c!",") (parseEntry expr)) := by
      intro i j v hg h
      rw [preceded] at h
      obtain ⟨i1, t, h2, h'⟩ := bind_inv h
      obtain ⟨rfl, ht⟩ := punct_word (by decide) hg h2
      exact (entry_sound he hg.tail1 h').after' (p := [t]) rfl fun ws ⟨w, v, h1, h2⟩ =>
        ⟨w, v, by simp [ht, h1], h2⟩
    rcases many_sound (D := fun u (l : List (Str × Expr)) =>
          ∃ v, u = pw c!"," :: v ∧ A C.plat .entries v l) hp
        (fun {u x} ⟨w, v, hv, hn, hk, hA⟩ => ⟨w :: pw c!"=" :: v, hv, by
          have := A.entry hn hA
          rw [hk] at this
          exact this⟩)
        (fun {u x _ l} ⟨w, v, hv, hn, hk, hA⟩ ⟨w', hw, hB⟩ =>
          ⟨w :: pw c!"=" :: (v ++ pw c!"," :: w'), by rw [hv, hw]; simp, by
            have := A.entries hn hA hB
            rw [hk] at this
            exact this⟩)
        (hd.good hg) h3 with ⟨rfl, rfl⟩ | hd'
    · exact hd.mono fun ws ⟨w, v, hv, hn, hk, hA⟩ => by
        have := A.entry hn hA
        rw [hk] at this
        rw [hv]
        exact this
    · exact (hd.closed hd'.ne).andThen hd' fun u v ⟨w, v', hu, hn, hk, hA⟩ ⟨w', hv, hw⟩ => by
        have := A.entries hn hA hw
        rw [hk] at this
        rw [hv, hu]
        simpa using this

theorem map_sound : Snd (α := Expr) (A C.plat .base) (parseMap C expr) := by
  intro i j v hg h
  rw [parseMap] at h
  obtain ⟨i1, t, h2, h'⟩ := bind_inv h
  obtain ⟨rfl, ht⟩ := punct_word (by decide) hg h2
  obtain ⟨i2, l, h3, h''⟩ := bind_inv h'
  obtain ⟨t', h4, rfl⟩ := map_inv h''
  have h5 : text c!"}" i2 = .ok j t' := by
    split at h4
    · exact orError_inv h4
    · exact orFail_inv h4
  rcases map_items he hg.tail1 h3 with ⟨rfl, rfl⟩ | hd
  · obtain ⟨rfl, ht'⟩ := punct_word (by decide) hg.tail1 h5
    exact Cl.der ⟨[t, t'], by simp, rfl, by
      simp only [List.map_cons, List.map_nil, ht, ht']
      exact .map0⟩
  · obtain ⟨rfl, ht'⟩ := punct_word (by decide) (hd.good hg.tail1) h5
    obtain ⟨u, hu, rfl, hA⟩ := hd.closed (by simp)
    exact Cl.der ⟨t :: (u ++ [t']), by simp, by simp, by
      have := A.map hA
      simpa [ht, ht'] using this⟩

theorem callable_sound : Snd (α := Expr) (A C.plat .seven) (parseCallable C expr) := by
  intro i j v hg h
  rw [parseCallable] at h
  obtain ⟨i1, x, h2, h'⟩ := bind_inv h
  obtain ⟨w, rfl, hw, hx⟩ := symbol_inv hg h2
  obtain ⟨i2, t, h3, h''⟩ := bind_inv h'
  obtain ⟨e, h4, rfl⟩ := map_inv h''
  have key : ∀ s ∈ [c!"->", c!"~>"], text s i1 = .ok i2 t →
      Der (α := Expr) (A C.plat .seven) (w :: i1) j
        (if t.text = c!"->" then .lambda x e [] [] else .macro_ x e) := by
    intro s hs h5
    have hp : s ∈ punctTexts := (show ∀ s ∈ [c!"->", c!"~>"], s ∈ punctTexts by decide) s hs
    obtain ⟨rfl, ht⟩ := punct_word hp hg.tail1 h5
    have ht2 : t.text = s := congrArg Prod.snd ht
    rw [ht2]
    refine (he hg.tail1.tail1 (orFail_inv h4)).after' (p := [w, t]) rfl fun ws hws => ?_
    simp only [List.mem_cons, List.not_mem_nil, or_false] at hs
    rcases hs with rfl | rfl
    · rw [if_pos rfl]
      have := A.lambda hx hws
      simpa [hw, ht] using this
    · rw [if_neg (by decide)]
      have := A.macro_ hx hws
      simpa [hw, ht] using this
  rcases alt_inv h3 with h3 | ⟨q, hq, h3⟩
  · exact key _ (by simp) h3
  · simp only [List.mem_singleton] at hq
    subst hq
    exact key _ (by simp) h3

end

section
variable {C : Ctx} {one expr : Parser Expr} (h1 : Snd (α := Expr) (A C.plat .base) one)
include h1

theorem for_sound (he : Snd (α := Expr) (A C.plat .expr) expr) :
    Snd (α := Expr) (A C.plat .ctrl) (parseFor C one expr) := by
  intro i j v hg h
  rw [parseFor] at h
  obtain ⟨i1, t, h2, ha⟩ := bind_inv h
  obtain ⟨rfl, ht⟩ := keyword_word (by decide) hg h2
  obtain ⟨i2, x, h3, hb⟩ := bind_inv ha
  obtain ⟨w, rfl, hw, hx⟩ := symbol_inv hg.tail1 (orFail_inv h3)
  obtain ⟨i3, t', h4, hc⟩ := bind_inv hb
  obtain ⟨rfl, ht'⟩ := keyword_word (by decide) hg.tail1.tail1 (orFail_inv h4)
  obtain ⟨i4, e, h5, hd⟩ := bind_inv hc
  obtain ⟨b, h6, rfl⟩ := map_inv hd
  have hg3 := hg.tail1.tail1.tail1
  rcases alt_inv (orFail_inv h5) with h5 | ⟨q, hq, h5⟩
  · rw [parseRange] at h5
    obtain ⟨i5, y, h7, hr⟩ := bind_inv (noTerm_inv h5)
    obtain ⟨i6, o, h8, hr'⟩ := bind_inv hr
    have hd1 := precFour_sound h1 hg3 h7
    obtain ⟨rfl, ho⟩ := op_word (by decide) (hd1.good hg3) h8
    obtain ⟨z, rfl, hd2⟩ := rangeEnd_inv h1 (hd1.good hg3).tail1 hr'
    obtain ⟨b1, u, b2, l, rfl, hb1, hb2, rfl, hA⟩ :=
      block_sound he (hd2.good (hd1.good hg3).tail1) (orFail_inv h6)
    obtain ⟨u1, _, h9, hA1⟩ := hd1.closed (by simp)
    obtain ⟨u2, _, h10, hA2⟩ := hd2.closed (by simp)
    refine Cl.der ⟨t :: w :: t' :: (u1 ++ o :: (u2 ++ b1 :: (u ++ [b2]))), by simp, by
      rw [h9, h10]; simp, ?_⟩
    have := A.forRange hx hA1 hA2 hA
    simpa [ht, hw, ht', ho, hb1, hb2] using this
  · simp only [List.mem_singleton] at hq
    subst hq
    have hd1 := precFour_sound h1 hg3 h5
    obtain ⟨b1, u, b2, l, rfl, hb1, hb2, rfl, hA⟩ := block_sound he (hd1.good hg3) (orFail_inv h6)
    obtain ⟨u1, _, h9, hA1⟩ := hd1.closed (by simp)
    refine Cl.der ⟨t :: w :: t' :: (u1 ++ b1 :: (u ++ [b2])), by simp, by rw [h9]; simp, ?_⟩
    have := A.for_ hx hA1 hA
    simpa [ht, hw, ht', hb1, hb2] using this

theorem precSeven_sound (he : Snd (α := Expr) (A C.plat .expr) expr) :
    Snd (α := Expr) (A C.plat .seven) (precSeven C one expr) := by
  intro i j v hg h
  rw [precSeven] at h
  rcases alt_inv (noTerm_inv h) with h | ⟨q, hq, h⟩
  · exact (for_sound h1 he hg h).mono fun ws hw => .ctrl hw
  · simp only [List.mem_cons, List.not_mem_nil, or_false] at hq
    rcases hq with rfl | rfl | rfl | rfl | rfl | rfl
    · exact (parseIfN_sound h1 _ hg h).mono fun ws hw => .ctrl (.cond hw)
    · exact assign_sound he hg h
    · exact callable_sound he hg h
    · exact parseApply_sound h1 hg h
    · exact parseApplyOperator_sound h1 hg h
    · exact (precSix_sound h1 hg h).mono fun ws hw => .noCall hw

omit h1 in
theorem pipeOps_inv {i j : List Tok} {t : Tok} (hg : Good i)
    (h : alt (text c!"|") [text c!">>>", text c!">>", text c!"<<"] i = .ok j t) :
    i = t :: j ∧ ∃ op ∈ pipeOps, t.word = ow op :=
  ops_inv (s := c!"|") (ss := [c!">>>", c!">>", c!"<<"]) (by decide) (by decide) hg h

omit h1 in
/-- The words of the stages after the first. -/
theorem pipe_sound {p : Parser Expr} (hp : Snd (α := Expr) (A C.plat .seven) p) {i j : List Tok}
    {l : List (Tok × Expr)} (hg : Good i)
    (h : many0 (pair (alt (text c!"|") [text c!">>>", text c!">>", text c!"<<"]) p) i = .ok j l) :
    (l = [] ∧ j = i) ∨ Der (α := List (Tok × Expr)) (fun ws l => l ≠ [] ∧
      ∃ m : List (Str × List Word × Expr), ws = m.flatMap (fun p => ow p.1 :: p.2.1) ∧
        l.map (fun p => (p.1.text, p.2)) = m.map (fun p => (p.1, p.2.2)) ∧
        (∀ p ∈ m, p.1 ∈ pipeOps) ∧ ∀ p ∈ m, A C.plat .seven p.2.1 p.2.2) i j l := by
  refine many_sound (B := fun ws (q : Tok × Expr) => ∃ v, ws = ow q.1.text :: v ∧
    q.1.text ∈ pipeOps ∧ A C.plat .seven v q.2) ?_ ?_ ?_ hg h
  · intro i j v hg h
    rw [pair] at h
    obtain ⟨i1, t, h2, ha⟩ := bind_inv h
    obtain ⟨y, h3, rfl⟩ := map_inv ha
    obtain ⟨rfl, op, hop, ht⟩ := pipeOps_inv hg h2
    have ht2 : t.text = op := congrArg Prod.snd ht
    exact (hp hg.tail1 h3).after' (p := [t]) rfl fun ws hw =>
      ⟨ws, by simp [ht, ht2], by rw [ht2]; exact hop, hw⟩
  · rintro u x ⟨v, rfl, h2, h3⟩
    exact ⟨by simp, [(x.1.text, v, x.2)], by simp, by simp, by simpa using h2, by simpa using h3⟩
  · rintro u x v l ⟨w, rfl, h2, h3⟩ ⟨_, m, rfl, h4, h5, h6⟩
    refine ⟨by simp, (x.1.text, w, x.2) :: m, by simp, by simp [h4], ?_, ?_⟩
    · rw [List.forall_mem_cons]; exact ⟨h2, h5⟩
    · rw [List.forall_mem_cons]; exact ⟨h3, h6⟩

theorem exprStep_sound (he : Snd (α := Expr) (A C.plat .expr) expr) :
    Snd (α := Expr) (A C.plat .expr) (exprStep C one expr) := by
  intro i j v hg h
  rw [exprStep] at h
  obtain ⟨i1, x, h2, ha⟩ := bind_inv (noTerm_inv h)
  obtain ⟨i2, l, h3, hb⟩ := bind_inv ha
  injection hb with hb1 hb2
  subst hb1 hb2
  have hd := precSeven_sound h1 he hg h2
  rcases pipe_sound (precSeven_sound h1 he) (hd.good hg) h3 with ⟨rfl, rfl⟩ | hd'
  · exact hd.mono fun ws hw => .seven hw
  · refine (hd.closed hd'.ne).andThen hd' fun u v hu ⟨hl, m, hv, hm, hops, hA⟩ => ?_
    have hne : m ≠ [] := by
      rintro rfl
      exact hl (by simpa using hm)
    rw [if_neg (by simpa using hl)]
    have hs := pipeArgs_stages l [] x
    rw [List.nil_append, hm] at hs
    obtain ⟨a, b, r, hab⟩ := stages_two (m.map fun p => (p.1, p.2.2)) [] x (.inl (by simpa using hne))
    rw [hs, hab]
    simp only
    rw [← hab, hv]
    exact .pipe hu hne hops hA

theorem exprN_sound : ∀ n, Snd (α := Expr) (A C.plat .expr) (exprN C one n)
  | 0, _, _, _, _, h => by simp [exprN] at h
  | n + 1, _, _, _, hg, h => exprStep_sound h1 (exprN_sound n) hg h

theorem parseExpr_sound : Snd (α := Expr) (A C.plat .expr) (parseExpr C one) :=
  fun hg h => exprN_sound h1 _ hg h

omit h1 in
theorem altGo_block {i j : List Tok} {v : Expr} {q r : Parser Expr} {e : SyntaxError}
    {ps : List (Parser Expr)} (h : altGo i e (q :: r :: ps) = .ok j v) :
    q i = .ok j v ∨ (∃ e, q i = .error e) ∧ (r i = .ok j v ∨ ∃ p ∈ ps, p i = .ok j v) := by
  rw [altGo] at h
  split at h
  · rename_i e' h'
    refine .inr ⟨⟨_, h'⟩, ?_⟩
    obtain ⟨p, hp, h2⟩ := altGo_inv h
    simp only [List.mem_cons] at hp
    rcases hp with rfl | hp
    · exact .inl h2
    · exact .inr ⟨p, hp, h2⟩
  · exact .inl h

omit h1 in
/-- The empty braces are a map. -/
theorem map_empty {t t' : Tok} {i : List Tok} (ht : t.word = pw c!"{")
    (ht' : t'.word = pw c!"}") : parseMap C expr (t :: t' :: i) = .ok i (.map (BMap.ofList [])) := by
  have h1 : t.text = c!"{" := congrArg Prod.snd ht
  have h2 : t'.text = c!"}" := congrArg Prod.snd ht'
  have h3 : t'.kind = .punctuation := congrArg Prod.fst ht'
  simp [parseMap, text, h1, h2, PR.bind, separatedList0, parseEntry, alt, altGo, parseSymbol,
    parseOperator, kind, h3, PR.map, PR.orError]

theorem one_sound : Snd (α := Expr) (A C.plat .base) (oneStep C one) := by
  intro i j v hg h
  have he : Snd (α := Expr) (A C.plat .expr) (parseExpr C one) := parseExpr_sound h1
  have hrest : ∀ q ∈ [parseList C (parseExpr C one),
      fun i => (parseBoolean i).map Expr.bool,
      fun i => (parseNone C i).map fun _ => Expr.none,
      fun i => (parseFloat C i).map Expr.float,
      fun i => (parseInteger i).map Expr.int,
      fun i => (parseString i).map Expr.str,
      fun i => (parseSymbol i).map Expr.symbol], q i = .ok j v →
        Der (α := Expr) (A C.plat .base) i j v := by
    intro q hq h
    have atom : ∀ t : Tok, i = t :: j → Atom C.plat t.word v →
        Der (α := Expr) (A C.plat .base) i j v := fun t hi ha =>
      Cl.der ⟨[t], by simp, hi, .atom ha⟩
    simp only [List.mem_cons, List.not_mem_nil, or_false] at hq
    rcases hq with rfl | rfl | rfl | rfl | rfl | rfl | rfl
    · exact list_sound he hg h
    · simp only [parseBoolean] at h
      obtain ⟨b, h2, rfl⟩ := map_inv h
      obtain ⟨t, h3, rfl⟩ := map_inv h2
      obtain ⟨rfl, hk⟩ := kind_inv h3
      refine atom t rfl ?_
      have hb : t.text ∈ [c!"True", c!"False"] := by
        have hk' : t.word.1 = .booleanLiteral := hk
        rcases good_word hg with hw | ⟨hw, _⟩
        · have : t.text = t.word.2 := rfl
          rw [this]
          generalize t.word = w at hk' hw
          cases hw with
          | bool h => exact h
          | _ => simp [pw, kw, ow] at hk'
        · rw [hk'] at hw; simp at hw
      have hw : t.word = (.booleanLiteral, t.text) := Prod.ext hk rfl
      simp only [List.mem_cons, List.not_mem_nil, or_false] at hb
      rcases hb with hb | hb
      · rw [hw, hb]; exact .true_
      · rw [hw, hb]; exact .false_
    · obtain ⟨_, h2, rfl⟩ := map_inv h
      rw [parseNone] at h2
      rcases orElseAny_inv h2 with h2 | h2
      · obtain ⟨t, h3, _⟩ := map_inv h2
        obtain ⟨rfl, ht⟩ := keyword_word (by decide) hg h3
        exact atom t rfl (by rw [ht]; exact .none)
      · cases i with
        | nil => simp [unitParens] at h2
        | cons a i =>
          cases i with
          | nil => simp [unitParens] at h2
          | cons b r =>
            rw [unitParens] at h2
            split at h2
            · rename_i hab
              injection h2 with h3
              subst h3
              obtain ⟨_, ha⟩ := punct_word (s := c!"(") (by decide) hg
                (show text c!"(" (a :: b :: r) = .ok (b :: r) a by rw [text, if_pos hab.1])
              obtain ⟨_, hb⟩ := punct_word (s := c!")") (by decide) hg.tail1
                (show text c!")" (b :: r) = .ok r b by rw [text, if_pos hab.2])
              exact Cl.der ⟨[a, b], by simp, rfl, by
                simp only [List.map_cons, List.map_nil, ha, hb]; exact .unit⟩
            · simp at h2
    · obtain ⟨x, h2, rfl⟩ := map_inv h
      rw [parseFloat] at h2
      obtain ⟨i1, t, h3, h4⟩ := bind_inv h2
      obtain ⟨rfl, hk⟩ := kind_inv h3
      split at h4
      · rename_i n hn
        injection h4 with h5 h6
        subst h5 h6
        have hw : t.word = (.floatLiteral, t.text) := Prod.ext hk rfl
        exact atom t rfl (by
          rw [hw]
          exact .float hn (free_word hg (by rw [hk]; simp) (by rw [hk]; simp) (by rw [hk]; simp)))
      · simp at h4
    · obtain ⟨x, h2, rfl⟩ := map_inv h
      rw [parseInteger] at h2
      obtain ⟨i1, t, h3, h4⟩ := bind_inv h2
      obtain ⟨rfl, hk⟩ := kind_inv h3
      split at h4
      · rename_i n hn
        injection h4 with h5 h6
        subst h5 h6
        have hw : t.word = (.integerLiteral, t.text) := Prod.ext hk rfl
        exact atom t rfl (by rw [hw]; exact .int hn)
      · simp at h4
    · obtain ⟨x, h2, rfl⟩ := map_inv h
      rw [parseString] at h2
      obtain ⟨i1, t, h3, h4⟩ := bind_inv h2
      obtain ⟨rfl, hk⟩ := kind_inv h3
      split at h4
      · rename_i s hs
        injection h4 with h5 h6
        subst h5 h6
        have hw : t.word = (.stringLiteral, t.text) := Prod.ext hk rfl
        obtain ⟨v, hv⟩ : ∃ v, Lex.StrLit t.text v := by
          have hk' : t.word.1 = .stringLiteral := hk
          have : t.text = t.word.2 := rfl
          rw [this]
          rcases good_word hg with hw | ⟨hw, b, v, hb, he⟩
          · generalize t.word = w at hk' hw
            cases hw with
            | @str b v h => exact ⟨v, b, h, .inr rfl⟩
            | _ => simp [pw, kw, ow] at hk'
          · exact ⟨v, b, hb, .inl he⟩
        have := unescape_strLit hv
        rw [hs] at this
        injection this with this
        subst this
        exact atom t rfl (by rw [hw]; exact .str hv)
      · simp at h4
    · obtain ⟨x, h2, rfl⟩ := map_inv h
      obtain ⟨t, rfl, ht, hx⟩ := symbol_inv hg h2
      exact atom t rfl (by rw [ht]; exact .name hx)
  rw [oneStep, alt] at h
  split at h
  · rw [altGo] at h
    split at h
    · rcases altGo_block h with h | ⟨⟨e, hm⟩, h | ⟨q, hq, h⟩⟩
      · exact map_sound he hg h
      · obtain ⟨t, u, t', l, rfl, ht, ht', rfl, hA⟩ := block_sound he hg h
        have hu : u ≠ [] := by
          rintro rfl
          rw [List.nil_append] at hg hm
          rw [map_empty ht ht'] at hm
          simp at hm
        exact Cl.der ⟨t :: (u ++ [t']), by simp, by simp, by
          have := A.block hA (by simpa using hu)
          simpa [ht, ht'] using this⟩
      · exact hrest q hq h
    · rw [parseQuote] at h
      obtain ⟨i1, t, h2, h'⟩ := bind_inv h
      obtain ⟨rfl, ht⟩ := punct_word (by decide) hg h2
      obtain ⟨x, h3, rfl⟩ := map_inv h'
      exact (precTwo_sound h1 hg.tail1 h3).after' (p := [t]) rfl fun ws hw => by
        simp only [List.map_cons, List.map_nil, ht]
        exact .quote hw
  · exact group_sound he hg h

end

theorem parseOne_sound {C : Ctx} : ∀ n, Snd (α := Expr) (A C.plat .base) (parseOne C n)
  | 0, _, _, _, _, h => by simp [parseOne] at h
  | n + 1, _, _, _, hg, h => one_sound (parseOne_sound n) hg h

/-- Accepted tokens, with the missing parentheses added, are a script. -/
theorem scriptN_sound {C : Ctx} {n : Nat} {i : List Tok} {e : Expr} (hg : Good i)
    (h : scriptN C n i = .ok e) : ∃ l m, e = .do_ l ∧
      A C.plat .stmts (i.map Tok.word ++ List.replicate m (pw c!")")) l := by
  rw [scriptN] at h
  split at h
  · rename_i j e' h'
    injection h with h
    subst h
    obtain ⟨l, rfl, hd, hj⟩ := script_sound (parseExpr_sound (parseOne_sound n)) hg h'
    have hj := hj rfl
    subst hj
    rcases hd with ⟨rfl, rfl⟩ | ⟨u, m, _, rfl, _, hA⟩
    · exact ⟨[], 0, rfl, .done⟩
    · exact ⟨l, m, rfl, by simpa using hA⟩
  all_goals simp at h

end Dune.Parse
