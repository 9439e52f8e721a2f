import Verif.Spec.Grammar
import Verif.Proof.Script
import Verif.Proof.Pipes

/-! Every derivation of the grammar is found by the parser. -/

namespace Dune.Parse

open Spec

variable {α β : Type}

/-- a recoverable error -/
def Soft (r : PR α) : Prop := ∃ e, r = .error e

theorem Soft.bind {r : PR α} (h : Soft r) (f : List Tok → α → PR β) : Soft (r.bind f) := by
  obtain ⟨e, rfl⟩ := h; exact ⟨e, rfl⟩

theorem Soft.map {r : PR α} (h : Soft r) (f : α → β) : Soft (r.map f) := h.bind _

/-- one of the alternatives succeeds and those before it give recoverable errors -/
inductive Hits : List (Parser α) → List Tok → List Tok → α → Prop
  | here {p ps i j a} : p i = .ok j a → Hits (p :: ps) i j a
  | there {p ps i j a} : Soft (p i) → Hits ps i j a → Hits (p :: ps) i j a

theorem altGo_hits {ps : List (Parser α)} {i j : List Tok} {a : α} (h : Hits ps i j a) :
    ∀ e, altGo i e ps = .ok j a := by
  induction h with
  | here h => intro e; rw [altGo, h]
  | there h _ ih =>
    intro e
    obtain ⟨e', h⟩ := h
    rw [altGo, h]
    exact ih _

theorem alt_hits {p : Parser α} {ps : List (Parser α)} {i j : List Tok} {a : α}
    (h : Hits (p :: ps) i j a) : alt p ps i = .ok j a := by
  cases h with
  | here h => rw [alt, h]
  | there h h' =>
    obtain ⟨e', h⟩ := h
    rw [alt, h]
    exact altGo_hits h' _

theorem altGo_soft {ps : List (Parser α)} {i : List Tok} (h : ∀ p ∈ ps, Soft (p i)) :
    ∀ e, Soft (altGo i e ps) := by
  induction ps with
  | nil => exact fun e => ⟨_, rfl⟩
  | cons p ps ih =>
    intro e
    obtain ⟨e', h'⟩ := h p (by simp)
    rw [altGo, h']
    exact ih (fun q hq => h q (by simp [hq])) _

theorem alt_soft {p : Parser α} {ps : List (Parser α)} {i : List Tok}
    (h : ∀ q ∈ p :: ps, Soft (q i)) : Soft (alt p ps i) := by
  obtain ⟨e', h'⟩ := h p (by simp)
  rw [alt, h']
  exact altGo_soft (fun q hq => h q (by simp [hq])) _

/-- some successful rounds of a repetition -/
inductive Steps (p : Parser α) : List Tok → List α → List Tok → Prop
  | nil {i} : Steps p i [] i
  | cons {i j k a l} : p i = .ok j a → j.length < i.length → Steps p j l k → Steps p i (a :: l) k

theorem Steps.trans {p : Parser α} {i j k : List Tok} {l m : List α} (h : Steps p i l j)
    (h' : Steps p j m k) : Steps p i (l ++ m) k := by
  induction h with
  | nil => exact h'
  | cons h1 h2 _ ih => exact .cons h1 h2 (ih h')

theorem Steps.manyGo {p : Parser α} {i j : List Tok} {l : List α} (h : Steps p i l j)
    (hs : Soft (p j)) (kind : Str) : ∀ n, i.length < n → manyGo kind p n i = .ok j l := by
  induction h with
  | nil =>
    intro n hn
    obtain ⟨e, he⟩ := hs
    cases n with
    | zero => omega
    | succ n => rw [Parse.manyGo, he]
  | cons h1 h2 _ ih =>
    intro n hn
    cases n with
    | zero => omega
    | succ n =>
      rw [Parse.manyGo, h1]
      simp only
      rw [if_neg (by omega), ih hs n (by omega)]
      rfl

theorem Steps.many0 {p : Parser α} {i j : List Tok} {l : List α} (h : Steps p i l j)
    (hs : Soft (p j)) : many0 p i = .ok j l := h.manyGo hs _ _ (Nat.lt_succ_self _)

theorem many0_stop {p : Parser α} {i : List Tok} (hs : Soft (p i)) : many0 p i = .ok i [] :=
  Steps.nil.many0 hs

/-! ### Words -/

/-- The input does not start with one of these texts. -/
def StartsNot (S : List Str) (r : List Tok) : Prop := ∀ t r', r = t :: r' → t.text ∉ S

theorem StartsNot.mono {S T : List Str} {r : List Tok} (h : StartsNot T r) (hs : S ⊆ T) :
    StartsNot S r := fun t r' hr hm => h t r' hr (hs hm)

theorem text_soft {s : Str} {r : List Tok} (h : StartsNot [s] r) : Soft (text s r) := by
  cases r with
  | nil => exact ⟨_, rfl⟩
  | cons t r =>
    have := h t r rfl
    simp only [List.mem_singleton] at this
    exact ⟨_, by rw [text, if_neg this]⟩

theorem text_soft' {t : Tok} {s : Str} (h : t.text ≠ s) (r : List Tok) : Soft (text s (t :: r)) :=
  ⟨_, by rw [text, if_neg h]⟩

theorem text_ok {t : Tok} {s : Str} (h : t.text = s) (r : List Tok) : text s (t :: r) = .ok r t := by
  rw [text, if_pos h]

theorem kind_ok {t : Tok} {k : TokenKind} (h : t.kind = k) (r : List Tok) :
    kind k (t :: r) = .ok r t := by
  rw [kind, if_pos h]

theorem kind_soft {t : Tok} {k : TokenKind} (h : t.kind ≠ k) (r : List Tok) :
    Soft (kind k (t :: r)) := ⟨_, by rw [kind, if_neg h]⟩

theorem texts_soft {s : Str} {l : List Str} {r : List Tok} (h : StartsNot (s :: l) r) :
    Soft (alt (text s) (l.map text) r) := by
  apply alt_soft
  simp only [List.forall_mem_cons, List.forall_mem_map]
  refine ⟨text_soft (h.mono (by simp)), fun x hx => text_soft (h.mono ?_)⟩
  simp only [List.cons_subset, List.nil_subset, and_true, List.mem_cons, hx, or_true]

theorem texts_hits {t : Tok} {r : List Tok} {l : List Str} (h : t.text ∈ l) :
    Hits (l.map text) (t :: r) r t := by
  induction l with
  | nil => simp at h
  | cons s l ih =>
    by_cases hs : t.text = s
    · exact .here (text_ok hs r)
    · refine .there ⟨_, by rw [text, if_neg hs]⟩ (ih ?_)
      simpa [hs] using h

theorem texts_ok {t : Tok} {s : Str} {l : List Str} (h : t.text ∈ s :: l) (r : List Tok) :
    alt (text s) (l.map text) (t :: r) = .ok r t := alt_hits (texts_hits h)

/-- Texts that do not start an operand. -/
def notOpening : List Str :=
  opNames ++ [c!"@", c!";", c!",", c!"=", c!"]", c!")", c!"}", c!"->", c!"~>", c!"then", c!"else",
    c!"let", c!"for", c!"if", c!"in"]

/-- The words start like an operand. -/
def Opens (ws : List Word) : Prop := ∃ w r, ws = w :: r ∧ w.1 ≠ .operator ∧ w.2 ∉ notOpening

/-- The second word is none of these. -/
def SecondNot (S : List Str) (ws : List Word) : Prop := ∀ a b r, ws = a :: b :: r → b.2 ∉ S

/-- No operand can start here. -/
def DeadEnd (r : List Tok) : Prop :=
  r = [] ∨ ∃ t r', r = t :: r' ∧
    (t.kind = .punctuation ∨ t.kind = .operator ∨ t.kind = .keyword) ∧
    t.text ∉ [c!"(", c!"[", c!"{", c!"'", c!"None", c!"@", c!"=", c!"->", c!"~>"]

theorem oneStep_soft {C : Ctx} {one : Parser Expr} {r : List Tok} (h : DeadEnd r) :
    Soft (oneStep C one r) := by
  apply alt_soft
  rcases h with rfl | ⟨t, r', rfl, hk, ht⟩
  · simp only [List.forall_mem_cons]
    refine ⟨⟨_, rfl⟩, ⟨_, rfl⟩, ⟨_, rfl⟩, ⟨_, rfl⟩, ⟨_, rfl⟩, ⟨_, rfl⟩, ⟨_, rfl⟩, ⟨_, rfl⟩, ⟨_, rfl⟩,
      ⟨_, rfl⟩, ⟨_, rfl⟩, by simp⟩
  · simp only [List.mem_cons, not_or] at ht
    have hkind : ∀ k, k ≠ .punctuation → k ≠ .operator → k ≠ .keyword → t.kind ≠ k := by
      rintro k h1 h2 h3 rfl
      rcases hk with h | h | h
      · exact h1 h
      · exact h2 h
      · exact h3 h
    simp only [List.forall_mem_cons]
    refine ⟨?_, ?_, ?_, ?_, ?_, ?_, ?_, ?_, ?_, ?_, ?_, by simp⟩
    · exact (text_soft' ht.1 _).bind _
    · exact (text_soft' ht.2.2.2.1 _).bind _
    · exact (text_soft' ht.2.2.1 _).bind _
    · exact (text_soft' ht.2.2.1 _).bind _
    · exact (text_soft' ht.2.1 _).bind _
    · exact ((kind_soft (hkind _ (by simp) (by simp) (by simp)) _).map _).map _
    · refine Soft.map ?_ _
      rw [parseNone, text, if_neg ht.2.2.2.2.1]
      cases r' with
      | nil => exact ⟨_, rfl⟩
      | cons b r' =>
        refine ⟨expect C (t :: b :: r') c!"None or ()", ?_⟩
        simp only [PR.map, PR.bind, PR.orElseAny, unitParens]
        rw [if_neg (fun h => ht.1 h.1)]
    · exact ((kind_soft (hkind _ (by simp) (by simp) (by simp)) _).bind _).map _
    · exact ((kind_soft (hkind _ (by simp) (by simp) (by simp)) _).bind _).map _
    · exact ((kind_soft (hkind _ (by simp) (by simp) (by simp)) _).bind _).map _
    · exact ((kind_soft (hkind _ (by simp) (by simp) (by simp)) _).map _).map _

section
variable {C : Ctx} {n : Nat} {r : List Tok}

theorem one_soft (hn : 0 < n) (h : DeadEnd r) : Soft (parseOne C n r) := by
  cases n with
  | zero => omega
  | succ n => exact oneStep_soft h

theorem noTerm_cases (i : List Tok) : noTermPunct C i = .ok i () ∨ Soft (noTermPunct C i) := by
  cases i with
  | nil => exact .inl rfl
  | cons t i =>
    rw [noTermPunct]
    split
    · exact .inr ⟨_, rfl⟩
    · exact .inl rfl

theorem noTerm_ok {i : List Tok}
    (h : StartsNot [c!";", c!",", c!"=", c!"]", c!")", c!"}", c!"|"] i) :
    noTermPunct C i = .ok i () := by
  cases i with
  | nil => rfl
  | cons t i => rw [noTermPunct, if_neg fun h' => h t i rfl h'.2]

theorem noTerm_ok' {t : Tok} (h : t.kind ≠ .punctuation) (i : List Tok) :
    noTermPunct C (t :: i) = .ok (t :: i) () := by
  rw [noTermPunct, if_neg fun h' => h h'.1]

theorem noTerm_soft_bind {i : List Tok} {f : List Tok → Unit → PR α} (h : Soft (f i ())) :
    Soft ((noTermPunct C i).bind f) := by
  rcases noTerm_cases (C := C) i with h' | h'
  · rw [h']; exact h
  · exact h'.bind _

variable {one : Parser Expr}

theorem precTwo_soft (h : Soft (one r)) : Soft (precTwo C one r) := noTerm_soft_bind (h.bind _)
theorem precThree_soft (h : Soft (one r)) : Soft (precThree C one r) :=
  noTerm_soft_bind ((precTwo_soft h).bind _)
theorem precFour_soft (h : Soft (one r)) : Soft (precFour C one r) :=
  noTerm_soft_bind ((precThree_soft h).bind _)
theorem precFive_soft (h : Soft (one r)) : Soft (precFive C one r) :=
  noTerm_soft_bind ((precFour_soft h).bind _)
theorem precSix_soft (h : Soft (one r)) : Soft (precSix C one r) :=
  noTerm_soft_bind ((precFive_soft h).bind _)

/-! ### Chains of infix operators -/

/-- `head` followed by rounds of operator and operand -/
def ChainP (p : Parser Expr) (ops : Parser Tok) (i r : List Tok) (x : Expr) : Prop :=
  ∃ h j l, p i = .ok j h ∧ Steps (pair ops p) j l r ∧ leftFold h l = x

theorem leftFold_append (h : Expr) (l m : List (Tok × Expr)) :
    leftFold h (l ++ m) = leftFold (leftFold h l) m := by
  induction l generalizing h with
  | nil => rfl
  | cons a l ih => exact ih _

theorem ChainP.single {p : Parser Expr} {ops : Parser Tok} {i r : List Tok} {x : Expr}
    (h : p i = .ok r x) : ChainP p ops i r x := ⟨x, r, [], h, .nil, rfl⟩

theorem ChainP.snoc {p : Parser Expr} {ops : Parser Tok} {i r s : List Tok} {x y : Expr} {op : Tok}
    (h : ChainP p ops i (op :: s) x) (hop : ops (op :: s) = .ok s op) (hp : p s = .ok r y)
    (hl : r.length ≤ s.length) :
    ChainP p ops i r (infix_ op.text x y) := by
  obtain ⟨hd, j, l, h1, h2, rfl⟩ := h
  refine ⟨hd, j, l ++ [(op, y)], h1, h2.trans (.cons (j := r) ?_ ?_ .nil), ?_⟩
  · rw [pair, hop]
    simp only [PR.bind, hp, PR.map]
  · simp; omega
  · rw [leftFold_append]; rfl

theorem ChainP.run {p : Parser Expr} {ops : Parser Tok} {i r : List Tok} {x : Expr}
    (h : ChainP p ops i r x) (hn : noTermPunct C i = .ok i ()) (hs : Soft (ops r)) :
    ((noTermPunct C i).bind fun _ _ => (p i).bind fun i head =>
      (many0 (pair ops p) i).bind fun i list => .ok i (leftFold head list)) = .ok r x := by
  obtain ⟨hd, j, l, h1, h2, rfl⟩ := h
  rw [hn]
  simp only [PR.bind, h1, h2.many0 (hs.bind _)]

end

/-! ### What is proved for each nonterminal -/

/-- texts that end an operand of each level when they follow it -/
def s2 : List Str := [c!"@"]
def s3 : List Str := s2 ++ mulOps
def s4 : List Str := s3 ++ addOps
def s5 : List Str := s4 ++ relOps ++ [c!"to", c!"!"]
def s6 : List Str := s5 ++ logicOps
def s7 : List Str := c!"else" :: c!"@" :: opNames

def arrows : List Str := [c!"=", c!"->", c!"~>"]

def closing : List Str :=
  [c!";", c!",", c!"=", c!"]", c!")", c!"}", c!"@", c!"->", c!"~>", c!"then", c!"else", c!"in"]

/-- The words do not start with a text that ends or continues something. -/
def HeadOK (ws : List Word) : Prop := ∃ w r, ws = w :: r ∧ w.2 ∉ closing

/-- The input is at its end or at a closing bracket or separator. -/
def Ends (r : List Tok) : Prop :=
  r = [] ∨ ∃ t r', r = t :: r' ∧ t.kind = .punctuation ∧
    t.text ∈ [c!";", c!",", c!"]", c!")", c!"}"]

/-- ... or at a pipe or redirection. -/
def Quiet (r : List Tok) : Prop := Ends r ∨ ∃ t r', r = t :: r' ∧ ∃ op ∈ pipeOps, t.word = ow op

/-- The input is at its end or at a closing brace. -/
def Closes (s : Str) (r : List Tok) : Prop := ∃ t r', r = t :: r' ∧ t.word = pw s

/-- Application is tried first: its function is the first operand, after which no argument
follows. -/
def Lead (C : Ctx) (ws : List Word) : Prop :=
  ∀ i r n, i.map Tok.word = ws → (i ++ r).length < n → DeadEnd r →
    ∃ j x, precTwo C (parseOne C n) (i ++ r) = .ok j x ∧ DeadEnd j

/-- the words as an operand start -/
def Operand (C : Ctx) (ws : List Word) : Prop := Opens ws ∧ SecondNot arrows ws ∧ Lead C ws

def mulP : Parser Tok := alt (text c!"*") [text c!"//", text c!"%"]
def addP : Parser Tok := alt (text c!"+") [text c!"-"]
def relP : Parser Tok :=
  alt (text c!"==") [text c!"!=", text c!">=", text c!"<=", text c!">", text c!"<"]
def logicP : Parser Tok := alt (text c!"&&") [text c!"||"]
def pipeP : Parser Tok := alt (text c!"|") [text c!">>>", text c!">>", text c!"<<"]

def isCtrl : Expr → Prop
  | .for_ .. => True
  | .ite .. => True
  | _ => False

/-- What the parser does on a derived sequence of words. -/
def Sound (C : Ctx) : (k : NT) → List Word → k.Val → Prop
  | .base, ws, x => Opens ws ∧ SecondNot arrows ws ∧
      ∀ i r n, i.map Tok.word = ws → (i ++ r).length < n → parseOne C n (i ++ r) = .ok r x
  | .fields, ws, l => (∃ w v, ws = w :: v ∧ w.2 = c!"@") ∧
      ∀ i r n, i.map Tok.word = ws → (i ++ r).length < n → StartsNot s2 r →
        Steps (preceded (text c!"@") (alt (parseOne C n) [operatorAsSymbol])) (i ++ r) l r
  | .two, ws, x => Operand C ws ∧
      ∀ i r n, i.map Tok.word = ws → (i ++ r).length < n → StartsNot s2 r →
        precTwo C (parseOne C n) (i ++ r) = .ok r x
  | .prod, ws, x => Operand C ws ∧
      ∀ i r n, i.map Tok.word = ws → (i ++ r).length < n → StartsNot s2 r →
        ChainP (precTwo C (parseOne C n)) mulP (i ++ r) r x
  | .sum, ws, x => Operand C ws ∧
      ∀ i r n, i.map Tok.word = ws → (i ++ r).length < n → StartsNot s3 r →
        ChainP (precThree C (parseOne C n)) addP (i ++ r) r x
  | .rel, ws, x => Operand C ws ∧
      ∀ i r n, i.map Tok.word = ws → (i ++ r).length < n → StartsNot s4 r →
        ChainP (precFour C (parseOne C n)) relP (i ++ r) r x
  | .cmp, ws, x => Operand C ws ∧
      ∀ i r n, i.map Tok.word = ws → (i ++ r).length < n → StartsNot s5 r →
        precFive C (parseOne C n) (i ++ r) = .ok r x
  | .logic, ws, x => Operand C ws ∧
      ∀ i r n, i.map Tok.word = ws → (i ++ r).length < n → StartsNot s5 r →
        ChainP (precFive C (parseOne C n)) logicP (i ++ r) r x
  | .args, ws, l => Opens ws ∧
      ∀ i r n, i.map Tok.word = ws → (i ++ r).length < n → StartsNot s5 r →
        l ≠ [] ∧ Steps (precFive C (parseOne C n)) (i ++ r) l r
  | .seven, ws, x => HeadOK ws ∧ SecondNot arrows ws ∧
      ∀ i r n e, i.map Tok.word = ws → (i ++ r).length < n → Quiet r →
        precSeven C (parseOne C n) e (i ++ r) = .ok r x
  | .pipes, ws, l => (∃ op ∈ pipeOps, ∃ v, ws = ow op :: v) ∧
      ∀ i r n, i.map Tok.word = ws → (i ++ r).length < n → Ends r →
        ∃ L, Steps (pair pipeP (precSeven C (parseOne C n) (parseExpr C (parseOne C n)))) (i ++ r) L r ∧
          L.map (fun p => (p.1.text, p.2)) = l ∧ L ≠ []
  | .stage, ws, x => HeadOK ws ∧ SecondNot [c!"="] ws ∧
      ∀ i r n, i.map Tok.word = ws → (i ++ r).length < n → Ends r →
        precSeven C (parseOne C n) (parseExpr C (parseOne C n)) (i ++ r) = .ok r x
  | .cond, ws, x => (∃ v, ws = kw c!"if" :: v ∧ Opens v) ∧ isCtrl x ∧
      ∀ i r n m, i.map Tok.word = ws → (i ++ r).length < n → (i ++ r).length < m →
        StartsNot s7 r → parseIfN C (parseOne C n) m (i ++ r) = .ok r x
  | .ctrl, ws, x => HeadOK ws ∧ SecondNot [c!"="] ws ∧ isCtrl x ∧
      ∀ i r n, i.map Tok.word = ws → (i ++ r).length < n → StartsNot s7 r →
        precSeven C (parseOne C n) (parseExpr C (parseOne C n)) (i ++ r) = .ok r x
  | .expr, ws, x => HeadOK ws ∧ SecondNot [c!"="] ws ∧
      ∀ i r n, i.map Tok.word = ws → (i ++ r).length < n → Ends r →
        parseExpr C (parseOne C n) (i ++ r) = .ok r x
  | .items, ws, l => HeadOK ws ∧
      ∀ i r n, i.map Tok.word = ws → (i ++ r).length < n → Closes c!"]" r →
        ∃ j x l', l = x :: l' ∧ parseExpr C (parseOne C n) (i ++ r) = .ok j x ∧
          Steps (preceded (text c!",") (parseExpr C (parseOne C n))) j l' r
  | .entries, ws, l =>
      ∀ i r n, i.map Tok.word = ws → (i ++ r).length < n → Closes c!"}" r →
        ∃ j x l', l = x :: l' ∧ parseEntry (parseExpr C (parseOne C n)) (i ++ r) = .ok j x ∧
          Steps (preceded (text c!",") (parseEntry (parseExpr C (parseOne C n)))) j l' r
  | .stmts, ws, l => (ws = [] ∨ HeadOK ws) ∧ SecondNot [c!"="] ws ∧
      ∀ i r n, i.map Tok.word = ws → (i ++ r).length < n → r = [] ∨ Closes c!"}" r →
        ∃ init last j, l = init ++ last.toList ∧
          Steps (parseStatement C (parseExpr C (parseOne C n))) (i ++ r) init j ∧
          Soft (parseStatement C (parseExpr C (parseOne C n)) j) ∧
          opt (terminated (parseExpr C (parseOne C n)) (opt (text c!";"))) j = .ok r last

/-! ### Fuel -/

theorem errSim_eq {pan : Prop} {e e' : SyntaxError} (h : ErrSim ⟨Eq, pan⟩ e e') : e = e' := by
  induction h with
  | expected h => cases h; rfl
  | nomNone => rfl
  | nomSome h => cases h; rfl
  | byNone _ ih => rw [ih]
  | bySome h _ ih => cases h; rw [ih]
  | internal => rfl

theorem toksSim_refl (i : List Tok) : ToksSim ⟨Eq, True⟩ i i := by
  induction i with
  | nil => exact .nil
  | cons a l ih => exact .cons ⟨rfl, rfl, rfl, fun h => absurd trivial h⟩ ih

theorem toksSim_eq {i i' : List Tok} (h : ToksSim ⟨Eq, True⟩ i i') : i = i' := by
  induction h with
  | nil => rfl
  | @cons a b _ _ h _ ih =>
    obtain ⟨k, t, r⟩ := a
    obtain ⟨k', t', r'⟩ := b
    obtain ⟨h1, h2, h3, _⟩ := h
    simp only at h1 h2 h3
    rw [h1, h2, h3, ih]

theorem psim_eq {m : Nat} {r r' : PR α} (h : PSim ⟨Eq, True⟩ Eq m r r') : r = r' := by
  cases h with
  | ok h1 _ h3 => rw [toksSim_eq h1, h3]
  | error h => rw [errSim_eq h]
  | failure h => rw [errSim_eq h]
  | panic _ => rfl

theorem ctxSim_refl (C : Ctx) : CtxSim ⟨Eq, True⟩ C C := ⟨rfl, rfl⟩

theorem parseOne_refl (C : Ctx) (n : Nat) :
    Sim ⟨Eq, True⟩ n Eq (parseOne C n) (parseOne C n) := by
  have := parseOne_sim (ctxSim_refl C) n n
  rwa [Nat.min_self] at this

theorem parseExpr_unfold (C : Ctx) {n : Nat} {i : List Tok} (h : i.length < n) :
    parseExpr C (parseOne C n) i =
      exprStep C (parseOne C n) (parseExpr C (parseOne C n)) i := by
  rw [parseExpr, exprN]
  refine psim_eq (exprStep_sim (ctxSim_refl C) (parseOne_refl C n) (n := i.length) ?_
    (toksSim_refl i) h (Nat.le_refl _))
  intro w w' hw hl
  refine exprN_sim (ctxSim_refl C) (parseOne_refl C n) _ _ w w' hw (by omega) hl ?_
  have := hw.length_eq
  omega

/-! ### Splitting inputs -/

theorem split_append {i : List Tok} {u v : List Word} (h : i.map Tok.word = u ++ v) :
    ∃ a b, i = a ++ b ∧ a.map Tok.word = u ∧ b.map Tok.word = v := by
  obtain ⟨a, b, h1, h2, h3⟩ := List.map_eq_append_iff.mp h
  exact ⟨a, b, h1, h2, h3⟩

theorem split_cons {i : List Tok} {w : Word} {v : List Word} (h : i.map Tok.word = w :: v) :
    ∃ t b, i = t :: b ∧ t.word = w ∧ b.map Tok.word = v := by
  obtain ⟨t, b, h1, h2, h3⟩ := List.map_eq_cons_iff.mp h
  exact ⟨t, b, h1, h2, h3⟩

theorem Opens.first {ws : List Word} (h : Opens ws) {i : List Tok} (hi : i.map Tok.word = ws) :
    ∃ t b, i = t :: b ∧ t.kind ≠ .operator ∧ t.text ∉ notOpening := by
  obtain ⟨w, r, rfl, h1, h2⟩ := h
  obtain ⟨t, b, rfl, rfl, _⟩ := split_cons hi
  exact ⟨t, b, rfl, h1, h2⟩

theorem Opens.startsNot {ws : List Word} (h : Opens ws) {i : List Tok} (hi : i.map Tok.word = ws)
    (r : List Tok) : StartsNot notOpening (i ++ r) := by
  obtain ⟨t, b, rfl, _, h2⟩ := h.first hi
  rintro t' r' he
  simp only [List.cons_append, List.cons.injEq] at he
  rw [← he.1]
  exact h2

theorem Opens.append {u : List Word} (h : Opens u) (v : List Word) : Opens (u ++ v) := by
  obtain ⟨w, r, rfl, h1, h2⟩ := h
  exact ⟨w, r ++ v, rfl, h1, h2⟩

theorem Opens.head {u : List Word} (h : Opens u) : HeadOK u := by
  obtain ⟨w, r, rfl, h1, h2⟩ := h
  refine ⟨w, r, rfl, fun hm => h2 ?_⟩
  revert hm
  generalize w.2 = x
  revert x
  change closing ⊆ notOpening
  decide

theorem HeadOK.append {u : List Word} (h : HeadOK u) (v : List Word) : HeadOK (u ++ v) := by
  obtain ⟨w, r, rfl, h2⟩ := h
  exact ⟨w, r ++ v, rfl, h2⟩

/-- The second word of `u ++ v`, `u` not empty, is that of `u` or the first of `v`. -/
theorem SecondNot.append {S : List Str} {u v : List Word} (h : SecondNot S u) (hu : u ≠ [])
    (hv : ∀ w r, v = w :: r → w.2 ∉ S) : SecondNot S (u ++ v) := by
  match u, hu with
  | [a], _ =>
    rintro a' b r he
    simp only [List.cons_append, List.nil_append, List.cons.injEq] at he
    exact hv b r he.2
  | a :: b :: u, _ =>
    rintro a' b' r he
    simp only [List.cons_append, List.cons.injEq] at he
    rw [← he.2.1]
    exact h a b u rfl

theorem SecondNot.mono {S T : List Str} {u : List Word} (h : SecondNot T u) (hs : S ⊆ T) :
    SecondNot S u := fun a b r he hm => h a b r he (hs hm)

theorem Opens.ne_nil {u : List Word} (h : Opens u) : u ≠ [] := by
  obtain ⟨w, r, rfl, _⟩ := h; simp

theorem HeadOK.ne_nil {u : List Word} (h : HeadOK u) : u ≠ [] := by
  obtain ⟨w, r, rfl, _⟩ := h; simp

theorem Opens.firstNot {u : List Word} (h : Opens u) {S : List Str} (hs : S ⊆ notOpening) :
    ∀ w r, u = w :: r → w.2 ∉ S := by
  obtain ⟨w, r, rfl, _, h2⟩ := h
  rintro w' r' he hm
  simp only [List.cons.injEq] at he
  rw [← he.1] at hm
  exact h2 (hs hm)

theorem startsNot_cons {S : List Str} {t : Tok} (h : t.text ∉ S) (r : List Tok) :
    StartsNot S (t :: r) := by
  rintro t' r' he
  simp only [List.cons.injEq] at he
  rw [← he.1]
  exact h

theorem startsNot_nil {S : List Str} : StartsNot S [] := by
  rintro t r h; simp at h

theorem Ends.dead {r : List Tok} (h : Ends r) : DeadEnd r := by
  rcases h with rfl | ⟨t, r', rfl, h1, h2⟩
  · exact .inl rfl
  · refine .inr ⟨t, r', rfl, .inl h1, ?_⟩
    revert h2
    generalize t.text = x
    revert x
    simp only [List.forall_mem_cons]
    decide

theorem Quiet.dead {r : List Tok} (h : Quiet r) : DeadEnd r := by
  rcases h with h | ⟨t, r', rfl, h⟩
  · exact h.dead
  · obtain ⟨k, x, rg⟩ := t
    obtain ⟨op, hop, h⟩ := h
    simp only [Tok.word, ow, Prod.mk.injEq] at h
    obtain ⟨rfl, rfl⟩ := h
    exact .inr ⟨_, r', rfl, .inr (.inl rfl), (show ∀ x ∈ pipeOps, x ∉ _ by decide) _ hop⟩

theorem Ends.startsNot {r : List Tok} (h : Ends r) : StartsNot s7 r := by
  rcases h with rfl | ⟨t, r', rfl, h1, h2⟩
  · exact startsNot_nil
  · refine startsNot_cons ?_ r'
    revert h2
    generalize t.text = x
    revert x
    simp only [List.forall_mem_cons]
    decide

theorem Quiet.startsNot {r : List Tok} (h : Quiet r) : StartsNot s6 r := by
  rcases h with h | ⟨t, r', rfl, h⟩
  · exact h.startsNot.mono (by decide)
  · obtain ⟨k, x, rg⟩ := t
    obtain ⟨op, hop, h⟩ := h
    simp only [Tok.word, ow, Prod.mk.injEq] at h
    obtain ⟨rfl, rfl⟩ := h
    exact startsNot_cons ((show ∀ x ∈ pipeOps, x ∉ s6 by decide) _ hop) r'

theorem DeadEnd.startsNot {r : List Tok} (h : DeadEnd r) : StartsNot (s2 ++ arrows) r := by
  rcases h with rfl | ⟨t, r', rfl, _, h2⟩
  · exact startsNot_nil
  · refine startsNot_cons (fun hm => h2 ?_) r'
    exact (show s2 ++ arrows ⊆ _ by decide) hm

theorem dead_op {t : Tok} {op : Str} (h : t.word = ow op) (hop : op ∈ opNames) (r : List Tok) :
    DeadEnd (t :: r) := by
  obtain ⟨k, x, rg⟩ := t
  simp only [Tok.word, ow, Prod.mk.injEq] at h
  obtain ⟨rfl, rfl⟩ := h
  exact .inr ⟨_, r, rfl, .inr (.inl rfl), (show ∀ x ∈ opNames, x ∉ [c!"(", c!"[", c!"{", c!"'",
    c!"None", c!"@", c!"=", c!"->", c!"~>"] by decide) x hop⟩

theorem Operand.append {C : Ctx} {u : List Word} (h : Operand C u) {op : Str} (hop : op ∈ opNames)
    (v : List Word) : Operand C (u ++ ow op :: v) := by
  refine ⟨h.1.append _, h.2.1.append h.1.ne_nil ?_, ?_⟩
  · rintro w r he
    simp only [List.cons.injEq] at he
    rw [← he.1]
    exact (show ∀ x ∈ opNames, x ∉ arrows by decide) op hop
  · intro i r n hi hn _
    obtain ⟨a, b, rfl, ha, hb⟩ := split_append hi
    obtain ⟨t, b, rfl, ht, hb⟩ := split_cons hb
    rw [List.append_assoc] at hn ⊢
    exact h.2.2 a _ n ha hn (dead_op ht hop _)

theorem operand_of_two {C : Ctx} {ws : List Word} {x : Expr} (h1 : Opens ws)
    (h2 : SecondNot arrows ws) (h3 : ∀ i r n, i.map Tok.word = ws → (i ++ r).length < n →
      StartsNot s2 r → precTwo C (parseOne C n) (i ++ r) = .ok r x) : Operand C ws :=
  ⟨h1, h2, fun i r n hi hn hr => ⟨r, x, h3 i r n hi hn (hr.startsNot.mono (by decide)), hr⟩⟩

section
variable {C : Ctx} {ws : List Word} {x : Expr} {i r : List Tok} {n : Nat}

theorem Opens.noTerm (h : Opens ws) (hi : i.map Tok.word = ws) (r : List Tok) :
    noTermPunct C (i ++ r) = .ok (i ++ r) () :=
  noTerm_ok ((h.startsNot hi r).mono (by decide))

theorem two_run (h : Sound C .two ws x) (hi : i.map Tok.word = ws) (hn : (i ++ r).length < n)
    (hr : StartsNot s2 r) : precTwo C (parseOne C n) (i ++ r) = .ok r x := h.2 i r n hi hn hr

theorem prod_run (h : Sound C .prod ws x) (hi : i.map Tok.word = ws) (hn : (i ++ r).length < n)
    (hr : StartsNot s3 r) : precThree C (parseOne C n) (i ++ r) = .ok r x :=
  (h.2 i r n hi hn (hr.mono (by decide))).run (h.1.1.noTerm hi r)
    (texts_soft (l := [c!"//", c!"%"]) (hr.mono (by decide)))

theorem sum_run (h : Sound C .sum ws x) (hi : i.map Tok.word = ws) (hn : (i ++ r).length < n)
    (hr : StartsNot s4 r) : precFour C (parseOne C n) (i ++ r) = .ok r x :=
  (h.2 i r n hi hn (hr.mono (by decide))).run (h.1.1.noTerm hi r)
    (texts_soft (l := [c!"-"]) (hr.mono (by decide)))

theorem logic_run (h : Sound C .logic ws x) (hi : i.map Tok.word = ws) (hn : (i ++ r).length < n)
    (hr : StartsNot s6 r) : precSix C (parseOne C n) (i ++ r) = .ok r x :=
  (h.2 i r n hi hn (hr.mono (by decide))).run (h.1.1.noTerm hi r)
    (texts_soft (l := [c!"||"]) (hr.mono (by decide)))

theorem rel_run (h : Sound C .rel ws x) (hi : i.map Tok.word = ws) (hn : (i ++ r).length < n)
    (hr : StartsNot s5 r) : precFive C (parseOne C n) (i ++ r) = .ok r x := by
  obtain ⟨hd, j, l, h1, h2, rfl⟩ := h.2 i r n hi hn (hr.mono (by decide))
  have hs : Soft (relP r) := texts_soft (l := [c!"!=", c!">=", c!"<=", c!">", c!"<"])
    (hr.mono (by decide))
  rw [precFive, h.1.1.noTerm hi r]
  simp only [PR.bind, h1]
  have hm := h2.many0 (hs.bind _)
  simp only [relP] at hm
  rw [hm]
  cases h2 with
  | cons h3 h4 h5 => rfl
  | nil =>
    obtain ⟨e1, he1⟩ := text_soft (s := c!"to") (hr.mono (by decide))
    obtain ⟨e2, he2⟩ := text_soft (s := c!"!") (hr.mono (by decide))
    simp only [List.isEmpty_nil, if_true, he1, parseNot, he2, PR.bind, PR.orElseAny, leftFold]

end

/-! ### Things in brackets -/

theorem expr_soft_of_noTerm {C : Ctx} {one : Parser Expr} {i : List Tok}
    (h : Soft (noTermPunct C i)) : Soft (parseExpr C one i) := h.bind _

theorem noTerm_soft {C : Ctx} {t : Tok} {s : Str} (h : t.word = pw s)
    (hs : s ∈ [c!";", c!",", c!"=", c!"]", c!")", c!"}", c!"|"]) (r : List Tok) :
    Soft (noTermPunct C (t :: r)) := by
  obtain ⟨k, x, rg⟩ := t
  simp only [Tok.word, pw, Prod.mk.injEq] at h
  obtain ⟨rfl, rfl⟩ := h
  exact ⟨_, by rw [noTermPunct, if_pos ⟨rfl, hs⟩]⟩

theorem expr_soft_nil {C : Ctx} {n : Nat} (hn : 0 < n) : Soft (parseExpr C (parseOne C n) []) := by
  have hone : Soft (parseOne C n []) := one_soft hn (.inl rfl)
  suffices ∀ e, Soft (precSeven C (parseOne C n) e []) from (this _).bind _
  intro e
  have happ : Soft (parseApply C (parseOne C n) []) := by
    refine Soft.bind (alt_soft ?_) _
    simp only [List.forall_mem_cons]
    exact ⟨precTwo_soft hone, ⟨_, rfl⟩, by simp⟩
  show Soft (alt (parseFor C (parseOne C n) e) [parseIf C (parseOne C n), parseAssign C e,
    parseCallable C e, parseApply C (parseOne C n), parseApplyOperator C (parseOne C n),
    precSix C (parseOne C n)] [])
  refine alt_soft ?_
  simp only [List.forall_mem_cons]
  exact ⟨⟨_, rfl⟩, ⟨_, rfl⟩, ⟨_, rfl⟩, ⟨_, rfl⟩, happ, ⟨_, rfl⟩, precSix_soft hone, by simp⟩

/-- brackets are tried before literals -/
theorem brackets_soft {C : Ctx} {one : Parser Expr} {t : Tok}
    (h : t.text ∉ [c!"(", c!"'", c!"{", c!"["]) (r : List Tok) :
    ∀ p ∈ [parseGroup C (parseExpr C one), parseQuote C one, parseMap C (parseExpr C one),
      parseBlock C (parseExpr C one), parseList C (parseExpr C one)], Soft (p (t :: r)) := by
  simp only [List.mem_cons, not_or] at h
  simp only [List.forall_mem_cons]
  exact ⟨(text_soft' h.1 _).bind _, (text_soft' h.2.1 _).bind _, (text_soft' h.2.2.1 _).bind _,
    (text_soft' h.2.2.1 _).bind _, (text_soft' h.2.2.2.1 _).bind _, by simp⟩

theorem Hits.skip {ps qs : List (Parser α)} {i j : List Tok} {a : α}
    (h : ∀ p ∈ ps, Soft (p i)) (h' : Hits qs i j a) : Hits (ps ++ qs) i j a := by
  induction ps with
  | nil => exact h'
  | cons p ps ih => exact .there (h p (by simp)) (ih fun q hq => h q (by simp [hq]))

theorem none_soft {C : Ctx} {t : Tok} (h : t.text ≠ c!"None") (h' : t.text ≠ c!"(") (r : List Tok) :
    Soft (parseNone C (t :: r)) := by
  rw [parseNone, text, if_neg h]
  cases r with
  | nil => exact ⟨_, rfl⟩
  | cons b r' =>
    refine ⟨expect C (t :: b :: r') c!"None or ()", ?_⟩
    simp only [PR.map, PR.bind, PR.orElseAny, unitParens]
    rw [if_neg (fun h => h' h.1)]

theorem Atom.notReserved {P : Plat} {w : Word} {x : Expr} (h : Atom P w x) :
    w = kw c!"None" ∨ (w.2 ∉ reserved ∧ w.1 ≠ .operator) := by
  cases h with
  | int h =>
    refine .inr ⟨fun hm => ?_, by simp⟩
    have : ∀ s ∈ reserved, parseI64 s = none := by decide
    rw [this _ hm] at h
    simp at h
  | float _ h => exact .inr ⟨h, by simp⟩
  | true_ => exact .inr ⟨by decide, by simp⟩
  | false_ => exact .inr ⟨by decide, by simp⟩
  | none => exact .inl rfl
  | str h =>
    refine .inr ⟨fun hm => ?_, by simp⟩
    have : ∀ s ∈ reserved, s.head? ≠ some '"' := by decide
    refine this _ hm ?_
    obtain ⟨b, _, h | h⟩ := h <;> simp [h]
  | name h => exact .inr ⟨h, by simp⟩

theorem sound_atom {C : Ctx} {w : Word} {x : Expr} (h : Atom C.plat w x) : Sound C .base [w] x := by
  have hnr := Atom.notReserved h
  refine ⟨?_, by rintro a b r he; simp at he, ?_⟩
  · rcases hnr with rfl | ⟨h1, h2⟩
    · exact ⟨_, _, rfl, by simp [kw], by decide⟩
    · exact ⟨_, _, rfl, h2, fun hm => h1 ((show notOpening ⊆ reserved by decide) hm)⟩
  intro i r n hi hn
  obtain ⟨t, b, rfl, rfl, hb⟩ := split_cons hi
  simp only [List.map_eq_nil_iff] at hb
  subst hb
  cases n with
  | zero => omega
  | succ n =>
  obtain ⟨k, s, rg⟩ := t
  rw [parseOne, oneStep]
  apply alt_hits
  have hbr : s ∉ [c!"(", c!"'", c!"{", c!"["] := by
    rcases hnr with h | ⟨h, _⟩
    · simp only [Tok.word, kw, Prod.mk.injEq] at h
      rw [h.2]; decide
    · exact fun hm => h ((show [c!"(", c!"'", c!"{", c!"["] ⊆ reserved by decide) hm)
  refine Hits.skip (ps := [_, _, _, _, _]) (brackets_soft hbr _) ?_
  have hsoft : ∀ {k' : TokenKind}, k ≠ k' → Soft (kind k' (⟨k, s, rg⟩ :: r)) :=
    fun h => kind_soft h r
  have hnone : k ≠ .keyword → Soft (parseNone C (⟨k, s, rg⟩ :: r)) := by
    intro hk
    rcases hnr with h | ⟨h, _⟩
    · simp only [Tok.word, kw, Prod.mk.injEq] at h
      exact absurd h.1 hk
    · have h : s ∉ reserved := h
      exact none_soft (fun he => h (by rw [show s = _ from he]; decide))
        (fun he => h (by rw [show s = _ from he]; decide)) r
  generalize hw : (Tok.word ⟨k, s, rg⟩) = w at h
  cases h with
  | true_ =>
    cases hw
    exact .here rfl
  | false_ =>
    cases hw
    exact .here rfl
  | none =>
    cases hw
    exact .there ((hsoft (by simp)).map _ |>.map _) (.here rfl)
  | float h _ =>
    cases hw
    refine .there ((hsoft (by simp)).map _ |>.map _) (.there ((hnone (by simp)).map _) (.here ?_))
    simp only [parseFloat, List.cons_append, List.nil_append, kind_ok, PR.bind, h, PR.map]
  | int h =>
    cases hw
    refine .there ((hsoft (by simp)).map _ |>.map _) (.there ((hnone (by simp)).map _)
      (.there ((hsoft (by simp)).bind _ |>.map _) (.here ?_)))
    simp only [parseInteger, List.cons_append, List.nil_append, kind_ok, PR.bind, h, PR.map]
  | str h =>
    cases hw
    refine .there ((hsoft (by simp)).map _ |>.map _) (.there ((hnone (by simp)).map _)
      (.there ((hsoft (by simp)).bind _ |>.map _) (.there ((hsoft (by simp)).bind _ |>.map _)
      (.here ?_))))
    simp only [parseString, List.cons_append, List.nil_append, kind_ok, PR.bind, unescape_strLit h,
      PR.map]
  | name h =>
    cases hw
    refine .there ((hsoft (by simp)).map _ |>.map _) (.there ((hnone (by simp)).map _)
      (.there ((hsoft (by simp)).bind _ |>.map _) (.there ((hsoft (by simp)).bind _ |>.map _)
      (.there ((hsoft (by simp)).bind _ |>.map _) (.here ?_)))))
    simp only [parseSymbol, List.cons_append, List.nil_append, kind_ok, PR.bind, PR.map]

/-- a word in front -/
theorem word_text {t : Tok} {k : TokenKind} {s : Str} (h : t.word = (k, s)) : t.text = s :=
  congrArg Prod.snd h

theorem word_kind {t : Tok} {k : TokenKind} {s : Str} (h : t.word = (k, s)) : t.kind = k :=
  congrArg Prod.fst h

theorem ends_of {t : Tok} {s : Str} (h : t.word = pw s)
    (hs : s ∈ [c!";", c!",", c!"]", c!")", c!"}"]) (r : List Tok) : Ends (t :: r) :=
  .inr ⟨t, r, rfl, word_kind h, by rw [word_text h]; exact hs⟩

theorem text_word {t : Tok} {k : TokenKind} {s : Str} (h : t.word = (k, s)) (r : List Tok) :
    text s (t :: r) = .ok r t := text_ok (word_text h) r

theorem text_word_soft {t : Tok} {k : TokenKind} {s s' : Str} (h : t.word = (k, s)) (hs : s ≠ s')
    (r : List Tok) : Soft (text s' (t :: r)) := text_soft' (by rw [word_text h]; exact hs) r

section
variable {C : Ctx}

theorem sound_unit : Sound C .base [pw c!"(", pw c!")"] Expr.none := by
  refine ⟨⟨_, _, rfl, by simp [pw], by decide⟩, ?_, ?_⟩
  · rintro a b r he
    simp only [List.cons.injEq] at he
    rw [← he.2.1]; decide
  intro i r n hi hn
  obtain ⟨t, b, rfl, ht, hb⟩ := split_cons hi
  obtain ⟨t', b, rfl, ht', hb⟩ := split_cons hb
  simp only [List.map_eq_nil_iff] at hb
  subst hb
  cases n with
  | zero => omega
  | succ n =>
  rw [parseOne, oneStep]
  apply alt_hits
  simp only [List.cons_append, List.nil_append]
  refine .there ?_ (.there ((text_word_soft ht (by decide) _).bind _)
    (.there ((text_word_soft ht (by decide) _).bind _)
    (.there ((text_word_soft ht (by decide) _).bind _)
    (.there ((text_word_soft ht (by decide) _).bind _)
    (.there ((kind_soft (by rw [word_kind ht]; simp) _).map _ |>.map _) (.here ?_))))))
  · rw [parseGroup, text_word ht]
    exact (expr_soft_of_noTerm (noTerm_soft ht' (by decide) _)).bind _
  · have : Soft (text c!"None" (t :: t' :: r)) := text_word_soft ht (by decide) _
    obtain ⟨e, he⟩ := this
    rw [parseNone, he]
    simp only [PR.map, PR.bind, PR.orElseAny, unitParens]
    rw [if_pos ⟨word_text ht, word_text ht'⟩]

theorem second_of_bracket {S : List Str} {w : Word} {u v : List Word}
    (h : ∀ w r, u ++ v = w :: r → w.2 ∉ S) : SecondNot S (w :: (u ++ v)) := by
  rintro a b r he
  simp only [List.cons.injEq] at he
  exact h b r he.2

theorem HeadOK.firstNot {u : List Word} (h : HeadOK u) (v : List Word) {S : List Str}
    (hs : S ⊆ closing) : ∀ w r, u ++ v = w :: r → w.2 ∉ S := by
  obtain ⟨w, r, rfl, h2⟩ := h
  rintro w' r' he hm
  simp only [List.cons_append, List.cons.injEq] at he
  rw [← he.1] at hm
  exact h2 (hs hm)

theorem sound_group {u : List Word} {x : Expr} (h : Sound C .expr u x) :
    Sound C .base (pw c!"(" :: (u ++ [pw c!")"])) (Expr.group x) := by
  refine ⟨⟨_, _, rfl, by simp [pw], by decide⟩,
    second_of_bracket (h.1.firstNot _ (by decide)), ?_⟩
  intro i r n hi hn
  obtain ⟨t, b, rfl, ht, hb⟩ := split_cons hi
  obtain ⟨b, c, rfl, hb', hc⟩ := split_append hb
  obtain ⟨t', c, rfl, ht', hc⟩ := split_cons hc
  simp only [List.map_eq_nil_iff] at hc
  subst hc
  cases n with
  | zero => omega
  | succ n =>
  rw [parseOne, oneStep]
  apply alt_hits
  simp only [List.cons_append, List.append_assoc, List.nil_append, List.length_cons] at hn ⊢
  refine .here ?_
  rw [parseGroup, text_word ht]
  simp only [PR.bind]
  rw [h.2.2 b (t' :: r) n hb' (by omega) (ends_of ht' (by decide) _)]
  have : alt (fun i => (text c!")" i).map fun _ => ()) [empty] (t' :: r) = .ok r () := by
    apply alt_hits
    refine .here ?_
    rw [text_word ht']
    rfl
  simp only [this, PR.orFail]
  rfl

theorem sound_list0 : Sound C .base [pw c!"[", pw c!"]"] (Expr.list []) := by
  refine ⟨⟨_, _, rfl, by simp [pw], by decide⟩, ?_, ?_⟩
  · rintro a b r he
    simp only [List.cons.injEq] at he
    rw [← he.2.1]; decide
  intro i r n hi hn
  obtain ⟨t, b, rfl, ht, hb⟩ := split_cons hi
  obtain ⟨t', b, rfl, ht', hb⟩ := split_cons hb
  simp only [List.map_eq_nil_iff] at hb
  subst hb
  cases n with
  | zero => omega
  | succ n =>
  rw [parseOne, oneStep]
  apply alt_hits
  simp only [List.cons_append, List.nil_append]
  refine .there ((text_word_soft ht (by decide) _).bind _)
    (.there ((text_word_soft ht (by decide) _).bind _)
    (.there ((text_word_soft ht (by decide) _).bind _)
    (.there ((text_word_soft ht (by decide) _).bind _) (.here ?_))))
  rw [parseList, text_word ht]
  obtain ⟨e, he⟩ := expr_soft_of_noTerm (one := parseOne C n)
    (noTerm_soft (C := C) ht' (by decide) r)
  simp only [PR.bind, separatedList0, he, text_word ht', PR.orFail, PR.map]

theorem separated_ok {p : Parser α} {s : Str} {i j r : List Tok} {x : α} {l : List α}
    (h : p i = .ok j x) (hs : Steps (preceded (text s) p) j l r) (hr : StartsNot [s] r) :
    separatedList0 (text s) p i = .ok r (x :: l) := by
  rw [separatedList0, h]
  simp only
  rw [hs.manyGo ((text_soft hr).bind _) _ _ (Nat.lt_succ_self _)]
  rfl

theorem sound_list {u : List Word} {l : List Expr} (h : Sound C .items u l) :
    Sound C .base (pw c!"[" :: (u ++ [pw c!"]"])) (Expr.list l) := by
  refine ⟨⟨_, _, rfl, by simp [pw], by decide⟩,
    second_of_bracket (h.1.firstNot _ (by decide)), ?_⟩
  intro i r n hi hn
  obtain ⟨t, b, rfl, ht, hb⟩ := split_cons hi
  obtain ⟨b, c, rfl, hb', hc⟩ := split_append hb
  obtain ⟨t', c, rfl, ht', hc⟩ := split_cons hc
  simp only [List.map_eq_nil_iff] at hc
  subst hc
  cases n with
  | zero => omega
  | succ n =>
  rw [parseOne, oneStep]
  apply alt_hits
  simp only [List.cons_append, List.append_assoc, List.nil_append, List.length_cons] at hn ⊢
  refine .there ((text_word_soft ht (by decide) _).bind _)
    (.there ((text_word_soft ht (by decide) _).bind _)
    (.there ((text_word_soft ht (by decide) _).bind _)
    (.there ((text_word_soft ht (by decide) _).bind _) (.here ?_))))
  rw [parseList, text_word ht]
  obtain ⟨j, x, l', rfl, h1, h2⟩ := h.2 b (t' :: r) n hb' (by omega) ⟨t', r, rfl, ht'⟩
  simp only [PR.bind]
  rw [separated_ok h1 h2 (startsNot_cons (by rw [word_text ht']; decide) _)]
  simp only [text_word ht', PR.orFail, PR.map, PR.bind]

theorem entry_soft {e : Parser Expr} {i : List Tok}
    (h : ∀ a b r, i = a :: b :: r → b.text ≠ c!"=") : Soft (parseEntry e i) := by
  cases i with
  | nil => exact ⟨_, rfl⟩
  | cons t i =>
    have hi : Soft (text c!"=" i) := by
      cases i with
      | nil => exact ⟨_, rfl⟩
      | cons b i => exact text_soft' (h t b i rfl) i
    rw [parseEntry]
    by_cases h1 : t.kind = .symbol
    · have : alt parseSymbol [parseOperator] (t :: i) = .ok i t.text :=
        alt_hits (.here (by rw [parseSymbol, kind_ok h1]; rfl))
      rw [this]
      exact hi.bind _
    · by_cases h2 : t.kind = .operator
      · have : alt parseSymbol [parseOperator] (t :: i) = .ok i t.text :=
          alt_hits (.there ((kind_soft h1 _).map _) (.here (by rw [parseOperator, kind_ok h2]; rfl)))
        rw [this]
        exact hi.bind _
      · refine Soft.bind (alt_soft ?_) _
        simp only [List.forall_mem_cons]
        exact ⟨(kind_soft h1 _).map _, (kind_soft h2 _).map _, by simp⟩

theorem sound_map0 : Sound C .base [pw c!"{", pw c!"}"] (Expr.map []) := by
  refine ⟨⟨_, _, rfl, by simp [pw], by decide⟩, ?_, ?_⟩
  · rintro a b r he
    simp only [List.cons.injEq] at he
    rw [← he.2.1]; decide
  intro i r n hi hn
  obtain ⟨t, b, rfl, ht, hb⟩ := split_cons hi
  obtain ⟨t', b, rfl, ht', hb⟩ := split_cons hb
  simp only [List.map_eq_nil_iff] at hb
  subst hb
  cases n with
  | zero => omega
  | succ n =>
  rw [parseOne, oneStep]
  apply alt_hits
  simp only [List.cons_append, List.nil_append]
  refine .there ((text_word_soft ht (by decide) _).bind _)
    (.there ((text_word_soft ht (by decide) _).bind _) (.here ?_))
  rw [parseMap, text_word ht]
  obtain ⟨e, he⟩ : Soft (parseEntry (parseExpr C (parseOne C n)) (t' :: r)) := by
    refine Soft.bind (alt_soft ?_) _
    simp only [List.forall_mem_cons]
    exact ⟨(kind_soft (by rw [word_kind ht']; simp) _).map _,
      (kind_soft (by rw [word_kind ht']; simp) _).map _, by simp⟩
  simp only [PR.bind, separatedList0, he, text_word ht', PR.orError, PR.map, List.isEmpty_nil, if_true]
  rfl

theorem sound_map {u : List Word} {l : List (Str × Expr)} (h : Sound C .entries u l)
    (hsec : ∀ w r, u ++ [pw c!"}"] = w :: r → w.2 ∉ arrows) :
    Sound C .base (pw c!"{" :: (u ++ [pw c!"}"])) (Expr.map (BMap.ofList l)) := by
  refine ⟨⟨_, _, rfl, by simp [pw], by decide⟩, second_of_bracket hsec, ?_⟩
  intro i r n hi hn
  obtain ⟨t, b, rfl, ht, hb⟩ := split_cons hi
  obtain ⟨b, c, rfl, hb', hc⟩ := split_append hb
  obtain ⟨t', c, rfl, ht', hc⟩ := split_cons hc
  simp only [List.map_eq_nil_iff] at hc
  subst hc
  cases n with
  | zero => omega
  | succ n =>
  rw [parseOne, oneStep]
  apply alt_hits
  simp only [List.cons_append, List.append_assoc, List.nil_append, List.length_cons] at hn ⊢
  refine .there ((text_word_soft ht (by decide) _).bind _)
    (.there ((text_word_soft ht (by decide) _).bind _) (.here ?_))
  rw [parseMap, text_word ht]
  obtain ⟨j, x, l', rfl, h1, h2⟩ := h b (t' :: r) n hb' (by omega) ⟨t', r, rfl, ht'⟩
  simp only [PR.bind]
  rw [separated_ok h1 h2 (startsNot_cons (by rw [word_text ht']; decide) _)]
  simp only [text_word ht', PR.orFail, PR.map, PR.bind, List.isEmpty_cons, Bool.false_eq_true, if_false]

theorem script_ok {e : Parser Expr} {i j r : List Tok} {init : List Expr} {last : Option Expr}
    (h1 : Steps (parseStatement C e) i init j) (h2 : Soft (parseStatement C e j))
    (h3 : opt (terminated e (opt (text c!";"))) j = .ok r last) :
    parseScriptTokens C e false i = .ok r (.do_ (init ++ last.toList)) := by
  rw [parseScriptTokens, h1.many0 h2]
  simp only [PR.bind, h3]
  rfl

theorem block_ok {u : List Word} {l : List Expr} (h : Sound C .stmts u l) {i r : List Tok} {n : Nat}
    {t t' : Tok} (hi : i.map Tok.word = u) (hn : (i ++ t' :: r).length < n)
    (ht : t.word = pw c!"{") (ht' : t'.word = pw c!"}") :
    parseBlock C (parseExpr C (parseOne C n)) (t :: (i ++ t' :: r)) = .ok r (.do_ l) := by
  obtain ⟨init, last, j, rfl, h1, h2, h3⟩ := h.2.2 i (t' :: r) n hi hn (.inr ⟨t', r, rfl, ht'⟩)
  rw [parseBlock, text_word ht]
  simp only [PR.bind]
  rw [script_ok h1 h2 h3]
  simp only [text_word ht', PR.orFail, PR.map, PR.bind]
  rfl

theorem sound_block {u : List Word} {l : List Expr} (h : Sound C .stmts u l) (hu : u ≠ []) :
    Sound C .base (pw c!"{" :: (u ++ [pw c!"}"])) (Expr.do_ l) := by
  have hhead : HeadOK u := h.1.resolve_left hu
  refine ⟨⟨_, _, rfl, by simp [pw], by decide⟩,
    second_of_bracket (hhead.firstNot _ (by decide)), ?_⟩
  intro i r n hi hn
  obtain ⟨t, b, rfl, ht, hb⟩ := split_cons hi
  obtain ⟨b, c, rfl, hb', hc⟩ := split_append hb
  obtain ⟨t', c, rfl, ht', hc⟩ := split_cons hc
  simp only [List.map_eq_nil_iff] at hc
  subst hc
  cases n with
  | zero => omega
  | succ n =>
  rw [parseOne, oneStep]
  apply alt_hits
  simp only [List.cons_append, List.append_assoc, List.nil_append, List.length_cons] at hn ⊢
  refine .there ((text_word_soft ht (by decide) _).bind _)
    (.there ((text_word_soft ht (by decide) _).bind _) (.there ?_ (.here ?_)))
  · rw [parseMap, text_word ht]
    obtain ⟨e, he⟩ : Soft (parseEntry (parseExpr C (parseOne C n)) (b ++ t' :: r)) := by
      apply entry_soft
      rintro x y z hz
      cases b with
      | nil => exact absurd hb'.symm hu
      | cons b1 b =>
        simp only [List.cons_append, List.cons.injEq] at hz
        cases b with
        | nil =>
          simp only [List.nil_append, List.cons.injEq] at hz
          rw [← hz.2.1, word_text ht']; decide
        | cons b2 b =>
          simp only [List.cons_append, List.cons.injEq] at hz
          rw [← hz.2.1]
          have := h.2.1 b1.word b2.word (b.map Tok.word) (by rw [← hb']; rfl)
          simpa [Tok.word] using this
    have hsoft : Soft (text c!"}" (b ++ t' :: r)) := by
      apply text_soft
      obtain ⟨w, v, rfl, hw⟩ := hhead
      obtain ⟨y, b, rfl, rfl, _⟩ := split_cons hb'
      refine startsNot_cons (fun hm => hw ?_) _
      exact (show [c!"}"] ⊆ closing by decide) hm
    obtain ⟨e', he'⟩ := hsoft
    simp only [PR.bind, separatedList0, he, List.isEmpty_nil, if_true, he', PR.orError, PR.map]
    exact ⟨_, rfl⟩
  · exact block_ok h hb' (by omega) ht ht'

theorem sound_item {u : List Word} {x : Expr} (h : Sound C .expr u x) : Sound C .items u [x] := by
  refine ⟨h.1, fun i r n hi hn hr => ?_⟩
  obtain ⟨t, r, rfl, ht⟩ := hr
  exact ⟨_, x, [], rfl, h.2.2 i (t :: r) n hi hn (ends_of ht (by decide) _), .nil⟩

theorem Steps.cons_word {p : Parser α} {t : Tok} {k : TokenKind} {s : Str} (ht : t.word = (k, s))
    {i j r : List Tok} {x : α} {l : List α} (h : p i = .ok j x) (hl : j.length ≤ i.length)
    (hs : Steps (preceded (text s) p) j l r) : Steps (preceded (text s) p) (t :: i) (x :: l) r := by
  refine .cons ?_ (by simp; omega) hs
  rw [preceded, text_word ht]
  exact h

theorem Steps.length {p : Parser α} {i r : List Tok} {l : List α} (h : Steps p i l r) :
    r.length ≤ i.length := by
  induction h with
  | nil => exact Nat.le_refl _
  | cons _ _ _ ih => omega

theorem parseExpr_lt {n : Nat} {i j : List Tok} {x : Expr} (hn : i.length < n)
    (h : parseExpr C (parseOne C n) i = .ok j x) : j.length < i.length := by
  have := parseExpr_sim (ctxSim_refl C) (parseOne_refl C n) i i (toksSim_refl i) hn
  rw [h] at this
  cases this with
  | ok _ h _ => exact h

theorem sound_items {u v : List Word} {x : Expr} {l : List Expr} (h : Sound C .expr u x)
    (h' : Sound C .items v l) : Sound C .items (u ++ pw c!"," :: v) (x :: l) := by
  refine ⟨h.1.append _, fun i r n hi hn hr => ?_⟩
  obtain ⟨a, b, rfl, ha, hb⟩ := split_append hi
  obtain ⟨t, b, rfl, ht, hb⟩ := split_cons hb
  simp only [List.append_assoc, List.cons_append] at hn ⊢
  refine ⟨_, x, l, rfl, h.2.2 a _ n ha hn (ends_of ht (by decide) _), ?_⟩
  have hn' : (b ++ r).length < n := by simp at hn ⊢; omega
  obtain ⟨j, y, l', rfl, h1, h2⟩ := h'.2 b r n hb hn' hr
  exact .cons_word ht h1 (Nat.le_of_lt (parseExpr_lt hn' h1)) h2

theorem named_ok {t : Tok} (h : Named t.word) (i : List Tok) :
    alt parseSymbol [parseOperator] (t :: i) = .ok i t.text := by
  rcases h with ⟨h, _⟩ | ⟨h, _⟩
  · exact alt_hits (.here (by rw [parseSymbol, kind_ok h]; rfl))
  · have h1 : t.kind ≠ .symbol := by rw [show t.kind = _ from h]; simp
    exact alt_hits (.there ((kind_soft h1 _).map _) (.here (by rw [parseOperator, kind_ok h]; rfl)))

theorem entry_ok {e : Parser Expr} {t t' : Tok} {i j : List Tok} {x : Expr} (h : Named t.word)
    (ht : t'.word = pw c!"=") (hx : e i = .ok j x) :
    parseEntry e (t :: t' :: i) = .ok j (t.word.2, x) := by
  rw [parseEntry, named_ok h]
  simp only [PR.bind, text_word ht, hx, PR.map]
  rfl

theorem sound_entry {w : Word} {u : List Word} {x : Expr} (hw : Named w) (h : Sound C .expr u x) :
    Sound C .entries (w :: pw c!"=" :: u) [(w.2, x)] := by
  intro i r n hi hn hr
  obtain ⟨t, b, rfl, rfl, hb⟩ := split_cons hi
  obtain ⟨t', b, rfl, ht', hb⟩ := split_cons hb
  obtain ⟨t1, r, rfl, ht1⟩ := hr
  simp only [List.cons_append] at hn ⊢
  exact ⟨_, _, [], rfl, entry_ok hw ht' (h.2.2 b (t1 :: r) n hb (by simp at hn ⊢; omega)
    (ends_of ht1 (by decide) _)), .nil⟩

theorem sound_entries {w : Word} {u v : List Word} {x : Expr} {l : List (Str × Expr)} (hw : Named w)
    (h : Sound C .expr u x) (h' : Sound C .entries v l) :
    Sound C .entries (w :: pw c!"=" :: (u ++ pw c!"," :: v)) ((w.2, x) :: l) := by
  intro i r n hi hn hr
  obtain ⟨t, b, rfl, rfl, hb⟩ := split_cons hi
  obtain ⟨t', b, rfl, ht', hb⟩ := split_cons hb
  obtain ⟨a, b, rfl, ha, hb⟩ := split_append hb
  obtain ⟨t1, b, rfl, ht1, hb⟩ := split_cons hb
  simp only [List.cons_append, List.append_assoc] at hn ⊢
  refine ⟨_, _, l, rfl, entry_ok hw ht' (h.2.2 a _ n ha (by simp at hn ⊢; omega)
    (ends_of ht1 (by decide) _)), ?_⟩
  have hn' : (b ++ r).length < n := by simp at hn ⊢; omega
  obtain ⟨j, y, l', rfl, h1, h2⟩ := h' b r n hb hn' hr
  refine .cons_word ht1 h1 ?_ h2
  have := parseEntry_sim (parseExpr_sim (ctxSim_refl C) (parseOne_refl C n)) _ _ (toksSim_refl _) hn'
  rw [h1] at this
  cases this with
  | ok _ h _ => exact Nat.le_of_lt h

/-! ### Operands -/

theorem two_of_base {u : List Word} {x : Expr} (h : Sound C .base u x) : Sound C .two u x := by
  have key : ∀ i r n, i.map Tok.word = u → (i ++ r).length < n → StartsNot s2 r →
      precTwo C (parseOne C n) (i ++ r) = .ok r x := by
    intro i r n hi hn hr
    rw [precTwo, h.1.noTerm hi r]
    simp only [PR.bind]
    rw [h.2.2 i r n hi hn]
    simp only
    rw [many0_stop ((text_soft hr).bind _)]
    rfl
  exact ⟨operand_of_two h.1 h.2.1 key, key⟩

theorem sound_quote {u : List Word} {x : Expr} (h : Sound C .two u x) :
    Sound C .two (pw c!"'" :: u) (Expr.quote x) := by
  have key : ∀ i r n, i.map Tok.word = pw c!"'" :: u → (i ++ r).length < n → StartsNot s2 r →
      precTwo C (parseOne C n) (i ++ r) = .ok r (.quote x) := by
    intro i r n hi hn hr
    obtain ⟨t, b, rfl, ht, hb⟩ := split_cons hi
    simp only [List.cons_append] at hn ⊢
    rw [precTwo, noTerm_ok (startsNot_cons (by rw [word_text ht]; decide) _)]
    simp only [PR.bind]
    cases n with
    | zero => omega
    | succ n =>
    have : parseOne C (n + 1) (t :: (b ++ r)) = .ok r (.quote x) := by
      rw [parseOne, oneStep]
      refine alt_hits (.there ((text_word_soft ht (by decide) _).bind _) (.here ?_))
      rw [parseQuote, text_word ht]
      simp only [PR.bind]
      rw [two_run h hb (by simp at hn ⊢; omega) hr]
      rfl
    rw [this]
    simp only
    rw [many0_stop ((text_soft hr).bind _)]
    rfl
  have h2 : SecondNot arrows (pw c!"'" :: u) := by
    rintro a b r he
    simp only [List.cons.injEq] at he
    exact h.1.1.firstNot (by decide) b r he.2
  have h1 : Opens (pw c!"'" :: u) := ⟨_, _, rfl, by simp [pw], by decide⟩
  exact ⟨operand_of_two h1 h2 key, key⟩

theorem sound_access {u v : List Word} {x : Expr} {l : List Expr} (h : Sound C .base u x)
    (h' : Sound C .fields v l) (hl : l ≠ []) :
    Sound C .two (u ++ v) (Expr.apply (.symbol c!"@") (x :: l)) := by
  have key : ∀ i r n, i.map Tok.word = u ++ v → (i ++ r).length < n → StartsNot s2 r →
      precTwo C (parseOne C n) (i ++ r) = .ok r (.apply (.symbol c!"@") (x :: l)) := by
    intro i r n hi hn hr
    obtain ⟨a, b, rfl, ha, hb⟩ := split_append hi
    rw [List.append_assoc] at hn ⊢
    rw [precTwo, h.1.noTerm ha]
    simp only [PR.bind]
    rw [h.2.2 a _ n ha hn]
    simp only
    rw [(h'.2 b r n hb (by simp at hn ⊢; omega) hr).many0 ((text_soft hr).bind _)]
    simp only
    rw [if_neg (by simpa using hl)]
  refine ⟨operand_of_two (h.1.append _) (h.2.1.append h.1.ne_nil ?_) key, key⟩
  obtain ⟨w, v, rfl, hw⟩ := h'.1
  rintro w' r he
  simp only [List.cons.injEq] at he
  rw [← he.1, hw]
  decide

theorem sound_field {u : List Word} {x : Expr} (h : Sound C .base u x) :
    Sound C .fields (ow c!"@" :: u) [x] := by
  refine ⟨⟨_, _, rfl, rfl⟩, fun i r n hi hn hr => ?_⟩
  obtain ⟨t, b, rfl, ht, hb⟩ := split_cons hi
  simp only [List.cons_append] at hn ⊢
  exact .cons_word ht (alt_hits (.here (h.2.2 b r n hb (by simp at hn ⊢; omega)))) (by simp) .nil

theorem sound_fields {u v : List Word} {x : Expr} {l : List Expr} (h : Sound C .base u x)
    (h' : Sound C .fields v l) : Sound C .fields (ow c!"@" :: (u ++ v)) (x :: l) := by
  refine ⟨⟨_, _, rfl, rfl⟩, fun i r n hi hn hr => ?_⟩
  obtain ⟨t, b, rfl, ht, hb⟩ := split_cons hi
  obtain ⟨a, b, rfl, ha, hb⟩ := split_append hb
  simp only [List.cons_append, List.append_assoc] at hn ⊢
  exact .cons_word ht (alt_hits (.here (h.2.2 a _ n ha (by simp at hn ⊢; omega)))) (by simp)
    (h'.2 b r n hb (by simp at hn ⊢; omega) hr)

theorem sound_fieldOp {op : Str} (h : op ∈ opNames) :
    Sound C .fields [ow c!"@", ow op] [Expr.symbol op] := by
  refine ⟨⟨_, _, rfl, rfl⟩, fun i r n hi hn hr => ?_⟩
  obtain ⟨t, b, rfl, ht, hb⟩ := split_cons hi
  obtain ⟨t', b, rfl, ht', hb⟩ := split_cons hb
  simp only [List.map_eq_nil_iff] at hb
  subst hb
  simp only [List.cons_append, List.nil_append] at hn ⊢
  refine .cons_word ht (alt_hits (.there (one_soft (by omega) (dead_op ht' h _)) (.here ?_)))
    (by simp) .nil
  rw [operatorAsSymbol, parseOperator, kind_ok (word_kind ht')]
  simp only [PR.map, PR.bind, word_text ht']

theorem sound_fieldsOp {op : Str} {v : List Word} {l : List Expr} (h : op ∈ opNames)
    (h' : Sound C .fields v l) :
    Sound C .fields (ow c!"@" :: ow op :: v) (Expr.symbol op :: l) := by
  refine ⟨⟨_, _, rfl, rfl⟩, fun i r n hi hn hr => ?_⟩
  obtain ⟨t, b, rfl, ht, hb⟩ := split_cons hi
  obtain ⟨t', b, rfl, ht', hb⟩ := split_cons hb
  simp only [List.cons_append] at hn ⊢
  refine .cons_word ht (alt_hits (.there (one_soft (by omega) (dead_op ht' h _)) (.here ?_)))
    (by simp) (h'.2 b r n hb (by simp at hn ⊢; omega) hr)
  rw [operatorAsSymbol, parseOperator, kind_ok (word_kind ht')]
  simp only [PR.map, PR.bind, word_text ht']

/-! ### Infix operators -/

theorem prod_of_two {u : List Word} {x : Expr} (h : Sound C .two u x) : Sound C .prod u x :=
  ⟨h.1, fun i r n hi hn hr => .single (h.2 i r n hi hn hr)⟩

theorem sum_of_prod {u : List Word} {x : Expr} (h : Sound C .prod u x) : Sound C .sum u x :=
  ⟨h.1, fun _ _ _ hi hn hr => .single (prod_run h hi hn hr)⟩

theorem rel_of_sum {u : List Word} {x : Expr} (h : Sound C .sum u x) : Sound C .rel u x :=
  ⟨h.1, fun _ _ _ hi hn hr => .single (sum_run h hi hn hr)⟩

theorem cmp_of_rel {u : List Word} {x : Expr} (h : Sound C .rel u x) : Sound C .cmp u x :=
  ⟨h.1, fun _ _ _ hi hn hr => rel_run h hi hn hr⟩

theorem logic_of_cmp {u : List Word} {x : Expr} (h : Sound C .cmp u x) : Sound C .logic u x :=
  ⟨h.1, fun i r n hi hn hr => .single (h.2 i r n hi hn hr)⟩

theorem op_startsNot {t : Tok} {op : Str} (ht : t.word = ow op) {S L : List Str} (hop : op ∈ L)
    (h : ∀ x ∈ L, x ∉ S) (r : List Tok) : StartsNot S (t :: r) :=
  startsNot_cons (by rw [word_text ht]; exact h op hop) r

theorem sound_mul {u v : List Word} {x y : Expr} {op : Str} (h : Sound C .prod u x)
    (hop : op ∈ mulOps) (h' : Sound C .two v y) : Sound C .prod (u ++ ow op :: v) (infix_ op x y) := by
  refine ⟨h.1.append ((show mulOps ⊆ opNames by decide) hop) _, fun i r n hi hn hr => ?_⟩
  obtain ⟨a, b, rfl, ha, hb⟩ := split_append hi
  obtain ⟨t, b, rfl, ht, hb⟩ := split_cons hb
  simp only [List.append_assoc, List.cons_append] at hn ⊢
  have := (h.2 a _ n ha hn (op_startsNot ht hop (by decide) _)).snoc (r := r) (y := y)
    (texts_ok (l := [c!"//", c!"%"]) (by rw [word_text ht]; exact hop) _)
    (h'.2 b r n hb (by simp at hn ⊢; omega) hr) (by simp)
  rwa [word_text ht] at this

theorem sound_add {u v : List Word} {x y : Expr} {op : Str} (h : Sound C .sum u x)
    (hop : op ∈ addOps) (h' : Sound C .prod v y) : Sound C .sum (u ++ ow op :: v) (infix_ op x y) := by
  refine ⟨h.1.append ((show addOps ⊆ opNames by decide) hop) _, fun i r n hi hn hr => ?_⟩
  obtain ⟨a, b, rfl, ha, hb⟩ := split_append hi
  obtain ⟨t, b, rfl, ht, hb⟩ := split_cons hb
  simp only [List.append_assoc, List.cons_append] at hn ⊢
  have := (h.2 a _ n ha hn (op_startsNot ht hop (by decide) _)).snoc (r := r) (y := y)
    (texts_ok (l := [c!"-"]) (by rw [word_text ht]; exact hop) _)
    (prod_run h' hb (by simp at hn ⊢; omega) hr) (by simp)
  rwa [word_text ht] at this

theorem sound_compare {u v : List Word} {x y : Expr} {op : Str} (h : Sound C .rel u x)
    (hop : op ∈ relOps) (h' : Sound C .sum v y) : Sound C .rel (u ++ ow op :: v) (infix_ op x y) := by
  refine ⟨h.1.append ((show relOps ⊆ opNames by decide) hop) _, fun i r n hi hn hr => ?_⟩
  obtain ⟨a, b, rfl, ha, hb⟩ := split_append hi
  obtain ⟨t, b, rfl, ht, hb⟩ := split_cons hb
  simp only [List.append_assoc, List.cons_append] at hn ⊢
  have := (h.2 a _ n ha hn (op_startsNot ht hop (by decide) _)).snoc (r := r) (y := y)
    (texts_ok (l := [c!"!=", c!">=", c!"<=", c!">", c!"<"]) (by rw [word_text ht]; exact hop) _)
    (sum_run h' hb (by simp at hn ⊢; omega) hr) (by simp)
  rwa [word_text ht] at this

theorem sound_logic {u v : List Word} {x y : Expr} {op : Str} (h : Sound C .logic u x)
    (hop : op ∈ logicOps) (h' : Sound C .cmp v y) :
    Sound C .logic (u ++ ow op :: v) (infix_ op x y) := by
  refine ⟨h.1.append ((show logicOps ⊆ opNames by decide) hop) _, fun i r n hi hn hr => ?_⟩
  obtain ⟨a, b, rfl, ha, hb⟩ := split_append hi
  obtain ⟨t, b, rfl, ht, hb⟩ := split_cons hb
  simp only [List.append_assoc, List.cons_append] at hn ⊢
  have := (h.2 a _ n ha hn (op_startsNot ht hop (by decide) _)).snoc (r := r) (y := y)
    (texts_ok (l := [c!"||"]) (by rw [word_text ht]; exact hop) _)
    (h'.2 b r n hb (by simp at hn ⊢; omega) hr) (by simp)
  rwa [word_text ht] at this

theorem rangeEnd_ok {v : List Word} {x y : Expr} (h : Sound C .sum v y) {i r : List Tok} {n : Nat}
    (hi : i.map Tok.word = v) (hn : (i ++ r).length < n) (hr : StartsNot s4 r) :
    rangeEnd C (parseOne C n) x (i ++ r) = .ok r (.apply (.symbol c!"to") [x, y]) := by
  rw [rangeEnd, sum_run h hi hn hr]
  rfl

theorem sound_range {u v : List Word} {x y : Expr} (h : Sound C .sum u x) (h' : Sound C .sum v y) :
    Sound C .cmp (u ++ ow c!"to" :: v) (Expr.apply (.symbol c!"to") [x, y]) := by
  refine ⟨h.1.append (by decide) _, fun i r n hi hn hr => ?_⟩
  obtain ⟨a, b, rfl, ha, hb⟩ := split_append hi
  obtain ⟨t, b, rfl, ht, hb⟩ := split_cons hb
  simp only [List.append_assoc, List.cons_append] at hn ⊢
  have hop : ∀ {S}, c!"to" ∉ S → StartsNot S (t :: (b ++ r)) := fun hs =>
    startsNot_cons (by rw [word_text ht]; exact hs) _
  rw [precFive, h.1.1.noTerm ha]
  simp only [PR.bind]
  rw [sum_run h ha hn (hop (by decide))]
  simp only
  rw [many0_stop ((texts_soft (l := [c!"!=", c!">=", c!"<=", c!">", c!"<"]) (hop (by decide))).bind _)]
  simp only [List.isEmpty_nil, if_true, text_word ht]
  exact rangeEnd_ok h' hb (by simp at hn ⊢; omega) (hr.mono (by decide))

theorem sound_dropped {u v : List Word} {x y : Expr} (h : Sound C .sum u x) (h' : Sound C .sum v y) :
    Sound C .cmp (u ++ ow c!"!" :: v) (Expr.apply (.symbol c!"!") [y]) := by
  refine ⟨h.1.append (by decide) _, fun i r n hi hn hr => ?_⟩
  obtain ⟨a, b, rfl, ha, hb⟩ := split_append hi
  obtain ⟨t, b, rfl, ht, hb⟩ := split_cons hb
  simp only [List.append_assoc, List.cons_append] at hn ⊢
  have hop : ∀ {S}, c!"!" ∉ S → StartsNot S (t :: (b ++ r)) := fun hs =>
    startsNot_cons (by rw [word_text ht]; exact hs) _
  rw [precFive, h.1.1.noTerm ha]
  simp only [PR.bind]
  rw [sum_run h ha hn (hop (by decide))]
  simp only
  rw [many0_stop ((texts_soft (l := [c!"!=", c!">=", c!"<=", c!">", c!"<"]) (hop (by decide))).bind _)]
  obtain ⟨e, he⟩ := text_word_soft (s' := c!"to") ht (by decide) (b ++ r)
  simp only [List.isEmpty_nil, if_true, he, parseNot, text_word ht, PR.bind]
  rw [sum_run h' hb (by simp at hn ⊢; omega) (hr.mono (by decide))]
  rfl

/-! ### Application -/

theorem sound_arg {u : List Word} {x : Expr} (h : Sound C .cmp u x) : Sound C .args u [x] := by
  refine ⟨h.1.1, fun i r n hi hn hr => ⟨List.cons_ne_nil _ _, .cons (h.2 i r n hi hn hr) ?_ .nil⟩⟩
  obtain ⟨t, b, rfl, _⟩ := h.1.1.first hi
  simp; omega

theorem sound_args {u v : List Word} {x : Expr} {l : List Expr} (h : Sound C .cmp u x)
    (h' : Sound C .args v l) : Sound C .args (u ++ v) (x :: l) := by
  refine ⟨h.1.1.append _, fun i r n hi hn hr => ⟨List.cons_ne_nil _ _, ?_⟩⟩
  obtain ⟨a, b, rfl, ha, hb⟩ := split_append hi
  rw [List.append_assoc] at hn ⊢
  refine .cons (h.2 a _ n ha hn ((h'.1.startsNot hb r).mono (by decide))) ?_
    (h'.2 b r n hb (by simp at hn ⊢; omega) hr).2
  obtain ⟨t, b, rfl, _⟩ := h.1.1.first ha
  simp; omega

theorem five_soft {n : Nat} {r : List Tok} (hn : 0 < n) (h : DeadEnd r) :
    Soft (precFive C (parseOne C n) r) := precFive_soft (one_soft hn h)

/-- after the first word of something that starts with an operand, no arrow -/
theorem callable_soft {e : Parser Expr} {t : Tok} {i : List Tok} (h : StartsNot [c!"->", c!"~>"] i) :
    Soft (parseCallable C e (t :: i)) := by
  rw [parseCallable]
  by_cases hk : t.kind = .symbol
  · rw [parseSymbol, kind_ok hk]
    exact (texts_soft (l := [c!"~>"]) h).bind _
  · exact ((kind_soft hk _).map _).bind _

theorem second_starts {S : List Str} {ws : List Word} (h : SecondNot S ws) {t : Tok} {b r : List Tok}
    (hi : (t :: b).map Tok.word = ws) (hr : StartsNot S r) : StartsNot S (b ++ r) := by
  subst hi
  cases b with
  | nil => exact hr
  | cons t' b => exact startsNot_cons (h _ _ _ rfl) _

/-- The first four alternatives do not apply to an operand. -/
theorem seven_operand {e : Parser Expr} {ws : List Word} (h1 : Opens ws) (h2 : SecondNot arrows ws)
    {i r : List Tok} {n : Nat} {j : List Tok} {x : Expr} (hi : i.map Tok.word = ws)
    (hr : StartsNot arrows r)
    (h : Hits [parseApply C (parseOne C n), parseApplyOperator C (parseOne C n),
      precSix C (parseOne C n)] (i ++ r) j x) :
    precSeven C (parseOne C n) e (i ++ r) = .ok j x := by
  rw [precSeven, h1.noTerm hi r]
  simp only [PR.bind]
  obtain ⟨t, b, rfl, _, ht⟩ := h1.first hi
  have hs : ∀ {s}, s ∈ notOpening → Soft (text s (t :: b ++ r)) := fun hs =>
    text_soft' (fun he => ht (by rw [he]; exact hs)) _
  exact alt_hits (.there ((hs (by decide)).bind _) (.there ((hs (by decide)).bind _)
    (.there ((hs (by decide)).bind _)
      (.there (callable_soft ((second_starts h2 hi hr).mono (by decide))) h))))

theorem seven_of_logic {u : List Word} {x : Expr} (h : Sound C .logic u x) : Sound C .seven u x := by
  refine ⟨h.1.1.head, h.1.2.1, fun i r n e hi hn hr => ?_⟩
  refine seven_operand h.1.1 h.1.2.1 hi (hr.dead.startsNot.mono (by decide)) ?_
  obtain ⟨j, y, h1, h2⟩ := h.1.2.2 i r n hi hn hr.dead
  refine .there ?_ (.there ?_ (.here (logic_run h hi hn hr.startsNot)))
  · rw [parseApply, alt_hits (.here h1)]
    simp only [PR.bind]
    obtain ⟨e, he⟩ := five_soft (C := C) (n := n) (by omega) h2
    rw [many1, he]
    exact ⟨_, rfl⟩
  · obtain ⟨t, b, rfl, ht, _⟩ := h.1.1.first hi
    exact (((kind_soft ht _).map _).map _).bind _

theorem many1_ok {n : Nat} {i r : List Tok} {l : List Expr} (hl : l ≠ [])
    (h : Steps (precFive C (parseOne C n)) i l r) (hs : Soft (precFive C (parseOne C n) r)) :
    many1 (precFive C (parseOne C n)) i = .ok r l := by
  cases h with
  | nil => exact absurd rfl hl
  | cons h1 h2 h3 =>
    rw [many1, h1]
    simp only
    rw [h3.manyGo hs _ _ (Nat.lt_succ_self _)]
    rfl

theorem sound_call {u v : List Word} {f : Expr} {l : List Expr} (h : Sound C .two u f)
    (h' : Sound C .args v l) : Sound C .seven (u ++ v) (Expr.apply f l) := by
  have h2 : SecondNot arrows (u ++ v) :=
    h.1.2.1.append h.1.1.ne_nil (h'.1.firstNot (by decide))
  refine ⟨h.1.1.head.append _, h2, fun i r n e hi hn hr => ?_⟩
  refine seven_operand (h.1.1.append _) h2 hi (hr.dead.startsNot.mono (by decide)) (.here ?_)
  obtain ⟨a, b, rfl, ha, hb⟩ := split_append hi
  rw [List.append_assoc] at hn ⊢
  rw [parseApply, alt_hits (.here (h.2 a _ n ha hn ((h'.1.startsNot hb r).mono (by decide))))]
  simp only [PR.bind]
  obtain ⟨hl, hs⟩ := h'.2 b r n hb (by simp at hn ⊢; omega) (hr.startsNot.mono (by decide))
  rw [many1_ok hl hs (five_soft (by omega) hr.dead)]

theorem operator_ok {t : Tok} {op : Str} (ht : t.word = ow op) (i : List Tok) :
    operatorAsSymbol (t :: i) = .ok i (.symbol op) := by
  rw [operatorAsSymbol, parseOperator, kind_ok (word_kind ht)]
  simp only [PR.map, PR.bind, word_text ht]

theorem seven_operator {e : Parser Expr} {t : Tok} {op : Str} (ht : t.word = ow op)
    (hop : op ∈ opNames) {i : List Tok} {n : Nat} {j : List Tok} {x : Expr}
    (h : Hits [parseApply C (parseOne C n), parseApplyOperator C (parseOne C n),
      precSix C (parseOne C n)] (t :: i) j x) :
    precSeven C (parseOne C n) e (t :: i) = .ok j x := by
  rw [precSeven, noTerm_ok' (by rw [word_kind ht]; simp)]
  simp only [PR.bind]
  have hs : ∀ {s}, s ∉ opNames → Soft (text s (t :: i)) := fun hs =>
    text_soft' (fun he => hs (by rw [← he, word_text ht]; exact hop)) _
  exact alt_hits (.there ((hs (by decide)).bind _) (.there ((hs (by decide)).bind _)
    (.there ((hs (by decide)).bind _)
      (.there (((kind_soft (by rw [word_kind ht]; simp) _).map _).bind _) h))))

theorem apply_operator {n : Nat} (hn : 0 < n) {t : Tok} {op : Str} (ht : t.word = ow op)
    (hop : op ∈ opNames) (i : List Tok) :
    alt (precTwo C (parseOne C n)) [operatorAsSymbol] (t :: i) = .ok i (.symbol op) :=
  alt_hits (.there (precTwo_soft (one_soft hn (dead_op ht hop _))) (.here (operator_ok ht i)))

theorem head_op {op : Str} (hop : op ∈ opNames) (v : List Word) : HeadOK (ow op :: v) :=
  ⟨_, _, rfl, (show ∀ x ∈ opNames, x ∉ closing by decide) op hop⟩

theorem sound_opCall {op : Str} {v : List Word} {l : List Expr} (hop : op ∈ opNames)
    (h : Sound C .args v l) : Sound C .seven (ow op :: v) (Expr.apply (.symbol op) l) := by
  refine ⟨head_op hop v, ?_, fun i r n e hi hn hr => ?_⟩
  · rintro a b r he
    simp only [List.cons.injEq] at he
    exact h.1.firstNot (by decide) b r he.2
  obtain ⟨t, b, rfl, ht, hb⟩ := split_cons hi
  simp only [List.cons_append] at hn ⊢
  refine seven_operator ht hop (.here ?_)
  rw [parseApply, apply_operator (by omega) ht hop]
  simp only [PR.bind]
  obtain ⟨hl, hs⟩ := h.2 b r n hb (by simp at hn ⊢; omega) (hr.startsNot.mono (by decide))
  rw [many1_ok hl hs (five_soft (by omega) hr.dead)]

theorem sound_opName {op : Str} (hop : op ∈ opNames) : Sound C .seven [ow op] (Expr.symbol op) := by
  refine ⟨head_op hop [], by rintro a b r he; simp at he, fun i r n e hi hn hr => ?_⟩
  obtain ⟨t, b, rfl, ht, hb⟩ := split_cons hi
  simp only [List.map_eq_nil_iff] at hb
  subst hb
  simp only [List.cons_append, List.nil_append] at hn ⊢
  refine seven_operator ht hop (.there ?_ (.here ?_))
  · rw [parseApply, apply_operator (by omega) ht hop]
    simp only [PR.bind]
    obtain ⟨e, he⟩ := five_soft (C := C) (n := n) (by omega) hr.dead
    rw [many1, he]
    exact ⟨_, rfl⟩
  · rw [parseApplyOperator, operator_ok ht]
    simp only [PR.bind]
    rw [many0_stop (five_soft (by omega) hr.dead)]
    rfl

/-! ### Pipelines -/

theorem pipe_ok {t : Tok} {op : Str} (hop : op ∈ pipeOps) (ht : t.word = ow op) (i : List Tok) :
    pipeP (t :: i) = .ok i t :=
  texts_ok (l := [c!">>>", c!">>", c!"<<"]) (by rw [word_text ht]; exact hop) i

theorem sound_pipe1 {op : Str} {v : List Word} {y : Expr} (hop : op ∈ pipeOps)
    (h : Sound C .seven v y) : Sound C .pipes (ow op :: v) [(op, y)] := by
  refine ⟨⟨op, hop, v, rfl⟩, fun i r n hi hn hr => ?_⟩
  obtain ⟨t, b, rfl, ht, hb⟩ := split_cons hi
  simp only [List.cons_append] at hn ⊢
  refine ⟨[(t, y)], .cons (j := r) ?_ (by simp; omega) .nil, by simp [word_text ht], by simp⟩
  rw [pair, pipe_ok hop ht]
  simp only [PR.bind]
  rw [h.2.2 b r n _ hb (by simp at hn ⊢; omega) (.inl hr)]
  rfl

theorem sound_pipeLast {op : Str} {v : List Word} {y : Expr} (hop : op ∈ pipeOps)
    (h : Sound C .stage v y) : Sound C .pipes (ow op :: v) [(op, y)] := by
  refine ⟨⟨op, hop, v, rfl⟩, fun i r n hi hn hr => ?_⟩
  obtain ⟨t, b, rfl, ht, hb⟩ := split_cons hi
  simp only [List.cons_append] at hn ⊢
  refine ⟨[(t, y)], .cons (j := r) ?_ (by simp; omega) .nil, by simp [word_text ht], by simp⟩
  rw [pair, pipe_ok hop ht]
  simp only [PR.bind]
  rw [h.2.2 b r n hb (by simp at hn ⊢; omega) hr]
  rfl

theorem sound_pipes {op : Str} {v w : List Word} {y : Expr} {l : List (Str × Expr)}
    (hop : op ∈ pipeOps) (h : Sound C .seven v y)
    (h' : Sound C .pipes w l) : Sound C .pipes (ow op :: (v ++ w)) ((op, y) :: l) := by
  refine ⟨⟨op, hop, _, rfl⟩, fun i r n hi hn hr => ?_⟩
  obtain ⟨t, b, rfl, ht, hb⟩ := split_cons hi
  obtain ⟨a, b, rfl, ha, hb⟩ := split_append hb
  simp only [List.cons_append, List.append_assoc] at hn ⊢
  obtain ⟨L, hL, rfl, h1⟩ := h'.2 b r n hb (by simp at hn ⊢; omega) hr
  refine ⟨(t, y) :: L, .cons (j := b ++ r) ?_ (by simp; omega) hL, by simp [word_text ht], by simp⟩
  rw [pair, pipe_ok hop ht]
  simp only [PR.bind]
  obtain ⟨op', hop', w, rfl⟩ := h'.1
  obtain ⟨t', b, rfl, ht', hb⟩ := split_cons hb
  rw [h.2.2 a (t' :: b ++ r) n _ ha (by simp at hn ⊢; omega) (.inr ⟨t', _, rfl, op', hop', ht'⟩)]
  rfl

/-! ### Expressions -/

/-- an expression without a pipeline -/
theorem expr_ok {n : Nat} {i r : List Tok} {x : Expr} (hn : i.length < n)
    (h : precSeven C (parseOne C n) (parseExpr C (parseOne C n)) i = .ok r x)
    (hr : StartsNot s7 r) : parseExpr C (parseOne C n) i = .ok r x := by
  have hnt : noTermPunct C i = .ok i () := by
    rcases noTerm_cases (C := C) i with h' | ⟨e, h'⟩
    · exact h'
    · rw [precSeven, h'] at h
      simp [PR.bind] at h
  rw [parseExpr_unfold C hn, exprStep, hnt]
  simp only [PR.bind, h]
  rw [many0_stop ((texts_soft (l := [c!">>>", c!">>", c!"<<"]) (hr.mono (by decide))).bind _)]
  rfl

theorem expr_of_seven {u : List Word} {x : Expr} (h : Sound C .seven u x) : Sound C .expr u x :=
  ⟨h.1, h.2.1.mono (by decide), fun i r n hi hn hr =>
    expr_ok hn (h.2.2 i r n _ hi hn (.inl hr)) hr.startsNot⟩

theorem expr_of_stage {u : List Word} {x : Expr} (h : Sound C .stage u x) : Sound C .expr u x :=
  ⟨h.1, h.2.1, fun i r n hi hn hr => expr_ok hn (h.2.2 i r n hi hn hr) hr.startsNot⟩

theorem sound_pipe {u v : List Word} {x : Expr} {l : List (Str × Expr)} (h : Sound C .seven u x)
    (h' : Sound C .pipes v l) :
    Sound C .expr (u ++ v) (Expr.group (.apply (.symbol c!"|") (pipeStages [] x l))) := by
  obtain ⟨op, hop, v, rfl⟩ := h'.1
  refine ⟨h.1.append _, (h.2.1.mono (by decide)).append h.1.ne_nil ?_, fun i r n hi hn hr => ?_⟩
  · rintro w r he
    simp only [List.cons.injEq] at he
    rw [← he.1]
    exact (show ∀ x ∈ pipeOps, x ∉ [c!"="] by decide) op hop
  obtain ⟨a, b, rfl, ha, hb⟩ := split_append hi
  rw [List.append_assoc] at hn ⊢
  obtain ⟨L, hL, rfl, h1⟩ := h'.2 b r n hb (by simp at hn ⊢; omega) hr
  obtain ⟨t, b, rfl, ht, _⟩ := split_cons hb
  have h3 := h.2.2 a (t :: b ++ r) n (parseExpr C (parseOne C n)) ha hn
    (.inr ⟨t, _, rfl, op, hop, ht⟩)
  have hnt : noTermPunct C (a ++ (t :: b ++ r)) = .ok (a ++ (t :: b ++ r)) () := by
    rcases noTerm_cases (C := C) (a ++ (t :: b ++ r)) with h' | ⟨e, h'⟩
    · exact h'
    · rw [precSeven, h'] at h3
      simp [PR.bind] at h3
  rw [parseExpr_unfold C hn, exprStep, hnt]
  simp only [PR.bind, h3]
  have hs : Soft (pipeP r) := texts_soft (l := [c!">>>", c!">>", c!"<<"])
    (hr.startsNot.mono (by decide))
  have hm := hL.many0 (hs.bind _)
  simp only [pipeP] at hm
  rw [hm]
  simp only
  have hst := pipeArgs_stages L [] x
  rw [List.nil_append] at hst
  obtain ⟨a', b', r', hab⟩ := stages_two (L.map fun p => (p.1.text, p.2)) [] x (.inl (by simpa using h1))
  rw [if_neg (by simpa using h1), hst, hab]

theorem named_text {w : Word} (h : Named w) : w.2 ∉ closing := by
  rcases h with ⟨_, h⟩ | ⟨_, h⟩
  · exact fun hm => h ((show closing ⊆ reserved by decide) hm)
  · exact (show ∀ x ∈ opNames, x ∉ closing by decide) _ h

theorem sound_let {w : Word} {u : List Word} {x : Expr} (hw : Named w) (h : Sound C .expr u x) :
    Sound C .stage (kw c!"let" :: w :: pw c!"=" :: u) (Expr.assign w.2 x) := by
  refine ⟨⟨_, _, rfl, by decide⟩, ?_, fun i r n hi hn hr => ?_⟩
  · rintro a b r he hm
    simp only [List.cons.injEq] at he
    rw [← he.2.1] at hm
    exact (named_text hw) ((show [c!"="] ⊆ closing by decide) hm)
  obtain ⟨t, b, rfl, ht, hb⟩ := split_cons hi
  obtain ⟨t', b, rfl, rfl, hb'⟩ := split_cons hb
  obtain ⟨t'', b, rfl, ht'', hb⟩ := split_cons hb'
  simp only [List.cons_append] at hn ⊢
  rw [precSeven, noTerm_ok' (by rw [word_kind ht]; simp)]
  simp only [PR.bind]
  refine alt_hits (.there ((text_word_soft ht (by decide) _).bind _)
    (.there ((text_word_soft ht (by decide) _).bind _) (.here ?_)))
  rw [parseAssign, text_word ht]
  simp only [PR.bind]
  rw [named_ok hw]
  simp only [PR.orFail]
  rw [text_word ht'']
  simp only
  rw [h.2.2 b r n hb (by simp at hn ⊢; omega) hr]
  rfl

theorem sound_arrow {x op : Str} {u : List Word} {b : Expr} (hx : x ∉ reserved)
    (hop : op ∈ [c!"->", c!"~>"]) (h : Sound C .expr u b) :
    Sound C .stage ((.symbol, x) :: pw op :: u)
      (if op = c!"->" then .lambda x b [] [] else .macro_ x b) := by
  refine ⟨⟨_, _, rfl, fun hm => hx ((show closing ⊆ reserved by decide) hm)⟩, ?_,
    fun i r n hi hn hr => ?_⟩
  · rintro a b r he
    simp only [List.cons.injEq] at he
    rw [← he.2.1]
    exact (show ∀ x ∈ [c!"->", c!"~>"], x ∉ [c!"="] by decide) op hop
  obtain ⟨t, i, rfl, ht, hi⟩ := split_cons hi
  obtain ⟨t', i, rfl, ht', hi⟩ := split_cons hi
  simp only [List.cons_append] at hn ⊢
  rw [precSeven, noTerm_ok' (by rw [word_kind ht]; simp)]
  simp only [PR.bind]
  have hs : ∀ {s}, s ∈ reserved → Soft (text s (t :: t' :: (i ++ r))) := fun hs =>
    text_soft' (fun he => hx (by rw [← word_text ht, he]; exact hs)) _
  refine alt_hits (.there ((hs (by decide)).bind _) (.there ((hs (by decide)).bind _)
    (.there ((hs (by decide)).bind _) (.here ?_))))
  rw [parseCallable, parseSymbol, kind_ok (word_kind ht)]
  simp only [PR.map, PR.bind]
  have : alt (text c!"->") [text c!"~>"] (t' :: (i ++ r)) = .ok (i ++ r) t' :=
    texts_ok (l := [c!"~>"]) (by rw [word_text ht']; exact hop) _
  rw [this]
  simp only
  rw [h.2.2 i r n hi (by simp at hn ⊢; omega) hr]
  simp only [PR.orFail, word_text ht, word_text ht']
  rfl

/-! ### Conditionals and loops -/

theorem opt_none {p : Parser α} {i : List Tok} (h : Soft (p i)) : opt p i = .ok i none := by
  obtain ⟨e, he⟩ := h
  rw [opt, he]; rfl

theorem opt_some {p : Parser α} {i j : List Tok} {x : α} (h : p i = .ok j x) :
    opt p i = .ok j (some x) := by
  rw [opt, h]; rfl

def elseValue : Option Expr → Expr
  | some e => .group e
  | none => .none

theorem if_ok {c t : List Word} {x y : Expr} (h : Sound C .logic c x) (h' : Sound C .sum t y)
    {n m : Nat} {w : Tok} {i j r r' : List Tok} {e : Option Expr} (hw : w.word = kw c!"if")
    (hi : i.map Tok.word = c) (hj : j.map Tok.word = t) (hn : (i ++ (j ++ r)).length < n)
    (hr : StartsNot s4 r)
    (he : opt (preceded (text c!"else") (alt (parseIfN C (parseOne C n) m)
      [precFour C (parseOne C n)])) r = .ok r' e) :
    parseIfN C (parseOne C n) (m + 1) (w :: (i ++ (j ++ r))) = .ok r' (.ite x y (elseValue e)) := by
  rw [parseIfN, text_word hw]
  simp only [PR.bind]
  rw [logic_run h hi hn ((h'.1.1.startsNot hj r).mono (by decide))]
  simp only [PR.orFail]
  rw [sum_run h' hj (by simp at hn ⊢; omega) hr]
  simp only
  rw [he]
  cases e <;> rfl

theorem sound_ite {c t : List Word} {x y : Expr} (h : Sound C .logic c x) (h' : Sound C .sum t y) :
    Sound C .cond (kw c!"if" :: (c ++ t)) (Expr.ite x y .none) := by
  refine ⟨⟨_, rfl, h.1.1.append _⟩, trivial, fun i r n m hi hn hm hr => ?_⟩
  obtain ⟨w, b, rfl, hw, hb⟩ := split_cons hi
  obtain ⟨a, b, rfl, ha, hb⟩ := split_append hb
  simp only [List.cons_append, List.append_assoc] at hn hm ⊢
  cases m with
  | zero => omega
  | succ m =>
  exact if_ok h h' hw ha hb (by simp at hn ⊢; omega) (hr.mono (by decide))
    (opt_none ((text_soft (hr.mono (by decide))).bind _))

theorem else_starts {t : Tok} (h : t.word = kw c!"else") (r : List Tok) : StartsNot s4 (t :: r) :=
  startsNot_cons (by rw [word_text h]; decide) r

theorem sound_iteElse {c t e : List Word} {x y z : Expr} (h : Sound C .logic c x)
    (h' : Sound C .sum t y) (h'' : Sound C .sum e z) :
    Sound C .cond (kw c!"if" :: (c ++ (t ++ kw c!"else" :: e))) (Expr.ite x y (.group z)) := by
  refine ⟨⟨_, rfl, h.1.1.append _⟩, trivial, fun i r n m hi hn hm hr => ?_⟩
  obtain ⟨w, b, rfl, hw, hb⟩ := split_cons hi
  obtain ⟨a, b, rfl, ha, hb⟩ := split_append hb
  obtain ⟨b, d, rfl, hb', hd⟩ := split_append hb
  obtain ⟨w', d, rfl, hw', hd⟩ := split_cons hd
  simp only [List.cons_append, List.append_assoc] at hn hm ⊢
  match m, hm with
  | m + 2, _ =>
  refine if_ok (e := some z) h h' hw ha hb' (by simp at hn ⊢; omega) (else_starts hw' _)
    (opt_some (x := z) ?_)
  rw [preceded, text_word hw']
  simp only [PR.bind]
  refine alt_hits (.there ?_ (.here (sum_run h'' hd (by simp at hn ⊢; omega) (hr.mono (by decide)))))
  rw [parseIfN]
  exact (text_soft ((h''.1.1.startsNot hd r).mono (by decide))).bind _
  | 0, hm => omega
  | 1, hm => simp at hm

theorem sound_elseIf {c t e : List Word} {x y z : Expr} (h : Sound C .logic c x)
    (h' : Sound C .sum t y) (h'' : Sound C .cond e z) :
    Sound C .cond (kw c!"if" :: (c ++ (t ++ kw c!"else" :: e))) (Expr.ite x y (.group z)) := by
  refine ⟨⟨_, rfl, h.1.1.append _⟩, trivial, fun i r n m hi hn hm hr => ?_⟩
  obtain ⟨w, b, rfl, hw, hb⟩ := split_cons hi
  obtain ⟨a, b, rfl, ha, hb⟩ := split_append hb
  obtain ⟨b, d, rfl, hb', hd⟩ := split_append hb
  obtain ⟨w', d, rfl, hw', hd⟩ := split_cons hd
  simp only [List.cons_append, List.append_assoc] at hn hm ⊢
  cases m with
  | zero => omega
  | succ m =>
  refine if_ok (e := some z) h h' hw ha hb' (by simp at hn ⊢; omega) (else_starts hw' _)
    (opt_some (x := z) ?_)
  rw [preceded, text_word hw']
  simp only [PR.bind]
  exact alt_hits (.here (h''.2.2 d r n m hd (by simp at hn ⊢; omega) (by simp at hm ⊢; omega) hr))

theorem ctrl_of_cond {u : List Word} {x : Expr} (h : Sound C .cond u x) : Sound C .ctrl u x := by
  obtain ⟨⟨v, rfl, hv⟩, hx, h⟩ := h
  refine ⟨⟨_, _, rfl, by decide⟩, ?_, hx, fun i r n hi hn hr => ?_⟩
  · rintro a b r he
    simp only [List.cons.injEq] at he
    exact hv.firstNot (by decide) b r he.2
  have h1 := h i r n ((i ++ r).length + 1) hi hn (by omega) hr
  obtain ⟨t, b, rfl, ht, hb⟩ := split_cons hi
  simp only [List.cons_append] at hn h1 ⊢
  rw [precSeven, noTerm_ok' (by rw [word_kind ht]; simp)]
  simp only [PR.bind]
  exact alt_hits (.there ((text_word_soft ht (by decide) _).bind _) (.here h1))

/-- a loop, once the sequence has been read -/
theorem for_ok {x : Str} {b : List Word} {s : List Expr} {l : Expr}
    (h : Sound C .stmts b s) {n : Nat} {t1 t2 t3 t4 t5 : Tok} {i j r : List Tok}
    (h1 : t1.word = kw c!"for") (h2 : t2.word = (.symbol, x)) (h3 : t3.word = kw c!"in")
    (h4 : t4.word = pw c!"{") (h5 : t5.word = pw c!"}") (hj : j.map Tok.word = b)
    (hn : (t1 :: t2 :: t3 :: (i ++ t4 :: (j ++ t5 :: r))).length < n)
    (hl : alt (parseRange C (parseOne C n)) [precFour C (parseOne C n)]
      (i ++ t4 :: (j ++ t5 :: r)) = .ok (t4 :: (j ++ t5 :: r)) l) :
    precSeven C (parseOne C n) (parseExpr C (parseOne C n))
      (t1 :: t2 :: t3 :: (i ++ t4 :: (j ++ t5 :: r))) = .ok r (.for_ x l (.do_ s)) := by
  rw [precSeven, noTerm_ok' (by rw [word_kind h1]; simp)]
  simp only [PR.bind]
  refine alt_hits (.here ?_)
  rw [parseFor, text_word h1]
  simp only [PR.bind]
  rw [parseSymbol, kind_ok (word_kind h2)]
  simp only [PR.map, PR.bind, PR.orFail]
  rw [text_word h3]
  simp only
  rw [hl]
  simp only
  rw [block_ok h hj (by simp at hn ⊢; omega) h4 h5]
  simp only [word_text h2]

theorem sound_for {x : Str} {u b : List Word} {l : Expr} {s : List Expr} (hx : x ∉ reserved)
    (h : Sound C .sum u l) (h' : Sound C .stmts b s) :
    Sound C .ctrl (kw c!"for" :: (.symbol, x) :: kw c!"in" :: (u ++ pw c!"{" :: (b ++ [pw c!"}"])))
      (Expr.for_ x l (.do_ s)) := by
  refine ⟨⟨_, _, rfl, by decide⟩, ?_, trivial, fun i r n hi hn _ => ?_⟩
  · rintro a b r he
    simp only [List.cons.injEq] at he
    rw [← he.2.1]
    exact fun hm => hx ((show [c!"="] ⊆ reserved by decide) hm)
  obtain ⟨t1, i, rfl, h1, hi⟩ := split_cons hi
  obtain ⟨t2, i, rfl, h2, hi⟩ := split_cons hi
  obtain ⟨t3, i, rfl, h3, hi⟩ := split_cons hi
  obtain ⟨i, j, rfl, hi', hj⟩ := split_append hi
  obtain ⟨t4, j, rfl, h4, hj⟩ := split_cons hj
  obtain ⟨j, k, rfl, hj', hk⟩ := split_append hj
  obtain ⟨t5, k, rfl, h5, hk⟩ := split_cons hk
  simp only [List.map_eq_nil_iff] at hk
  subst hk
  simp only [List.cons_append, List.append_assoc, List.nil_append] at hn ⊢
  have hst : ∀ {S}, c!"{" ∉ S → StartsNot S (t4 :: (j ++ t5 :: r)) := fun hs =>
    startsNot_cons (by rw [word_text h4]; exact hs) _
  have hrun : precFour C (parseOne C n) (i ++ t4 :: (j ++ t5 :: r)) = _ :=
    sum_run h hi' (by simp at hn ⊢; omega) (hst (by decide))
  refine for_ok h' h1 h2 h3 h4 h5 hj' hn (alt_hits (.there ?_ (.here hrun)))
  rw [parseRange, h.1.1.noTerm hi']
  simp only [PR.bind, hrun]
  exact (text_soft (hst (by decide))).bind _

theorem sound_forRange {x : Str} {u v b : List Word} {l m : Expr} {s : List Expr} (hx : x ∉ reserved)
    (h : Sound C .sum u l) (h'' : Sound C .sum v m) (h' : Sound C .stmts b s) :
    Sound C .ctrl (kw c!"for" :: (.symbol, x) :: kw c!"in" ::
          (u ++ ow c!"to" :: (v ++ pw c!"{" :: (b ++ [pw c!"}"]))))
        (Expr.for_ x (.apply (.symbol c!"to") [l, m]) (.do_ s)) := by
  refine ⟨⟨_, _, rfl, by decide⟩, ?_, trivial, fun i r n hi hn _ => ?_⟩
  · rintro a b r he
    simp only [List.cons.injEq] at he
    rw [← he.2.1]
    exact fun hm => hx ((show [c!"="] ⊆ reserved by decide) hm)
  obtain ⟨t1, i, rfl, h1, hi⟩ := split_cons hi
  obtain ⟨t2, i, rfl, h2, hi⟩ := split_cons hi
  obtain ⟨t3, i, rfl, h3, hi⟩ := split_cons hi
  obtain ⟨i, j, rfl, hi', hj⟩ := split_append hi
  obtain ⟨t6, j, rfl, h6, hj⟩ := split_cons hj
  obtain ⟨i', j, rfl, hi'', hj⟩ := split_append hj
  obtain ⟨t4, j, rfl, h4, hj⟩ := split_cons hj
  obtain ⟨j, k, rfl, hj', hk⟩ := split_append hj
  obtain ⟨t5, k, rfl, h5, hk⟩ := split_cons hk
  simp only [List.map_eq_nil_iff] at hk
  subst hk
  have he : ∀ r, i ++ t6 :: (i' ++ r) = (i ++ t6 :: i') ++ r := by simp
  simp only [List.cons_append, List.append_assoc, List.nil_append] at hn ⊢
  have hrun : parseRange C (parseOne C n) (i ++ t6 :: (i' ++ t4 :: (j ++ t5 :: r))) =
      .ok (t4 :: (j ++ t5 :: r)) (.apply (.symbol c!"to") [l, m]) := by
    rw [parseRange, h.1.1.noTerm hi']
    simp only [PR.bind]
    rw [sum_run h hi' (by simp at hn ⊢; omega)
      (startsNot_cons (by rw [word_text h6]; decide) _)]
    simp only
    rw [text_word h6]
    exact rangeEnd_ok h'' hi'' (by simp at hn ⊢; omega)
      (startsNot_cons (by rw [word_text h4]; decide) _)
  rw [he] at hrun hn ⊢
  exact for_ok h' h1 h2 h3 h4 h5 hj' hn (alt_hits (.here hrun))

theorem stage_of_ctrl {u : List Word} {x : Expr} (h : Sound C .ctrl u x) : Sound C .stage u x :=
  ⟨h.1, h.2.1, fun i r n hi hn hr => h.2.2.2 i r n hi hn hr.startsNot⟩

/-! ### Statements -/

theorem statement_semi {e : Parser Expr} {i j : List Tok} {x : Expr} {t : Tok}
    (h : e i = .ok (t :: j) x) (ht : t.word = pw c!";") : parseStatement C e i = .ok j x := by
  rw [parseStatement, h]
  simp only [PR.bind, text_word ht]

theorem statement_ctrl {e : Parser Expr} {i j : List Tok} {x : Expr} (h : e i = .ok j x)
    (hx : isCtrl x) (hj : StartsNot [c!";"] j) : parseStatement C e i = .ok j x := by
  obtain ⟨e', he'⟩ := text_soft hj
  rw [parseStatement, h]
  simp only [PR.bind, he']
  cases x <;> simp only [isCtrl] at hx <;> rfl

theorem statement_soft {e : Parser Expr} {i j : List Tok} {x : Expr} (h : e i = .ok j x)
    (hx : ¬ isCtrl x) (hj : StartsNot [c!";"] j) : Soft (parseStatement C e i) := by
  obtain ⟨e', he'⟩ := text_soft hj
  rw [parseStatement, h]
  simp only [PR.bind, he']
  cases x <;> first
    | exact ⟨_, rfl⟩
    | exact absurd trivial hx

theorem close_ends {r : List Tok} (h : r = [] ∨ Closes c!"}" r) : Ends r := by
  rcases h with rfl | ⟨t, r, rfl, ht⟩
  · exact .inl rfl
  · exact ends_of ht (by decide) r

theorem close_not_semi {r : List Tok} (h : r = [] ∨ Closes c!"}" r) : StartsNot [c!";"] r := by
  rcases h with rfl | ⟨t, r, rfl, ht⟩
  · exact startsNot_nil
  · exact startsNot_cons (by rw [word_text ht]; decide) r

theorem close_soft {n : Nat} (hn : 0 < n) {r : List Tok} (h : r = [] ∨ Closes c!"}" r) :
    Soft (parseExpr C (parseOne C n) r) := by
  rcases h with rfl | ⟨t, r, rfl, ht⟩
  · exact expr_soft_nil hn
  · exact expr_soft_of_noTerm (noTerm_soft ht (by decide) r)

theorem sound_done : Sound C .stmts [] [] := by
  refine ⟨.inl rfl, by rintro a b r he; simp at he, fun i r n hi hn hr => ?_⟩
  simp only [List.map_eq_nil_iff] at hi
  subst hi
  have hs : Soft (parseExpr C (parseOne C n) r) := close_soft (by omega) hr
  exact ⟨[], none, r, rfl, .nil, hs.bind _, opt_none (hs.bind _)⟩

theorem sound_last {u : List Word} {x : Expr} (h : Sound C .expr u x) : Sound C .stmts u [x] := by
  refine ⟨.inr h.1, h.2.1, fun i r n hi hn hr => ?_⟩
  have h1 := h.2.2 i r n hi hn (close_ends hr)
  have hs : Soft (parseExpr C (parseOne C n) r) := close_soft (by omega) hr
  by_cases hx : isCtrl x
  · exact ⟨[x], none, r, rfl, .cons (statement_ctrl h1 hx (close_not_semi hr))
      (parseExpr_lt hn h1) .nil, hs.bind _, opt_none (hs.bind _)⟩
  · refine ⟨[], some x, i ++ r, rfl, .nil, statement_soft h1 hx (close_not_semi hr),
      opt_some ?_⟩
    rw [terminated, h1]
    simp only [PR.bind]
    rw [opt_none (text_soft (close_not_semi hr))]
    rfl

theorem sound_stmt {u v : List Word} {x : Expr} {l : List Expr} (h : Sound C .expr u x)
    (h' : Sound C .stmts v l) : Sound C .stmts (u ++ pw c!";" :: v) (x :: l) := by
  refine ⟨.inr (h.1.append _), h.2.1.append h.1.ne_nil ?_, fun i r n hi hn hr => ?_⟩
  · rintro w r he
    simp only [List.cons.injEq] at he
    rw [← he.1]
    decide
  obtain ⟨a, b, rfl, ha, hb⟩ := split_append hi
  obtain ⟨t, b, rfl, ht, hb⟩ := split_cons hb
  simp only [List.append_assoc, List.cons_append] at hn ⊢
  obtain ⟨init, last, j, rfl, h1, h2, h3⟩ := h'.2.2 b r n hb (by simp at hn ⊢; omega) hr
  refine ⟨x :: init, last, j, rfl, .cons (statement_semi
    (h.2.2 a _ n ha hn (ends_of ht (by decide) _)) ht) (by simp; omega) h1, h2, h3⟩

theorem sound_ctrlStmt {u v : List Word} {x : Expr} {l : List Expr} (h : Sound C .ctrl u x)
    (h' : Sound C .stmts v l) (hv : ∀ w r, v = w :: r → w.2 ∉ opNames) :
    Sound C .stmts (u ++ v) (x :: l) := by
  refine ⟨.inr (h.1.append _), h.2.1.append h.1.ne_nil ?_, fun i r n hi hn hr => ?_⟩
  · rcases h'.1 with rfl | ⟨w, v, rfl, hw⟩
    · rintro w r he; simp at he
    · rintro w' r he hm
      simp only [List.cons.injEq] at he
      rw [← he.1] at hm
      exact hw ((show [c!"="] ⊆ closing by decide) hm)
  obtain ⟨a, b, rfl, ha, hb⟩ := split_append hi
  rw [List.append_assoc] at hn ⊢
  have hst : StartsNot (c!";" :: s7) (b ++ r) := by
    rcases h'.1 with rfl | ⟨w, v, rfl, hw⟩
    · simp only [List.map_eq_nil_iff] at hb
      subst hb
      rintro t r' he
      have h1 := close_not_semi hr t r' he
      have h2 := (close_ends hr).startsNot t r' he
      simp only [List.mem_cons, not_or] at h1 h2 ⊢
      exact ⟨h1.1, h2⟩
    · obtain ⟨t, b, rfl, rfl, _⟩ := split_cons hb
      refine startsNot_cons (fun hm => ?_) _
      have : ∀ x ∈ c!";" :: s7, x ∈ closing ∨ x ∈ opNames := by decide
      rcases this _ hm with hm | hm
      · exact hw hm
      · exact hv _ _ rfl hm
  obtain ⟨init, last, j, rfl, h1, h2, h3⟩ := h'.2.2 b r n hb (by simp at hn ⊢; omega) hr
  have h4 := expr_ok hn (h.2.2.2 a (b ++ r) n ha hn (hst.mono (by decide))) (hst.mono (by decide))
  exact ⟨x :: init, last, j, rfl, .cons (statement_ctrl h4 h.2.2.1 (hst.mono (by decide)))
    (parseExpr_lt hn h4) h1, h2, h3⟩

/-! ### All together -/

theorem entries_head {P : Plat} {u : List Word} {l : NT.entries.Val} (h : G P .entries u l) :
    ∃ w r, u = w :: r ∧ Named w := by
  cases h with
  | entry hw _ => exact ⟨_, _, rfl, hw⟩
  | entries hw _ _ => exact ⟨_, _, rfl, hw⟩

theorem fields_ne {P : Plat} {u : List Word} {l : NT.fields.Val} (h : G P .fields u l) : l ≠ [] := by
  cases h <;> exact List.cons_ne_nil _ _

/-- The parser finds every derivation. -/
theorem sound {k : NT} {ws : List Word} {v : k.Val} (h : G C.plat k ws v) : Sound C k ws v := by
  induction h with
  | atom h => exact sound_atom h
  | unit => exact sound_unit
  | group _ ih => exact sound_group ih
  | list0 => exact sound_list0
  | list _ ih => exact sound_list ih
  | map0 => exact sound_map0
  | map h ih =>
    refine sound_map ih ?_
    obtain ⟨w, r, rfl, hw⟩ := entries_head h
    rintro w' r' he
    simp only [List.cons_append, List.cons.injEq] at he
    rw [← he.1]
    exact fun hm => (named_text hw) ((show arrows ⊆ closing by decide) hm)
  | block _ hu ih => exact sound_block ih hu
  | item _ ih => exact sound_item ih
  | items _ _ ih ih' => exact sound_items ih ih'
  | entry hw _ ih => exact sound_entry hw ih
  | entries hw _ _ ih ih' => exact sound_entries hw ih ih'
  | base _ ih => exact two_of_base ih
  | quote _ ih => exact sound_quote ih
  | access _ h ih ih' => exact sound_access ih ih' (fields_ne h)
  | field _ ih => exact sound_field ih
  | fieldOp h => exact sound_fieldOp h
  | fieldsOp h _ ih => exact sound_fieldsOp h ih
  | fields _ _ ih ih' => exact sound_fields ih ih'
  | two _ ih => exact prod_of_two ih
  | mul _ hop _ ih ih' => exact sound_mul ih hop ih'
  | prod _ ih => exact sum_of_prod ih
  | add _ hop _ ih ih' => exact sound_add ih hop ih'
  | sum _ ih => exact rel_of_sum ih
  | compare _ hop _ ih ih' => exact sound_compare ih hop ih'
  | rel _ ih => exact cmp_of_rel ih
  | range _ _ ih ih' => exact sound_range ih ih'
  | dropped _ _ ih ih' => exact sound_dropped ih ih'
  | cmp _ ih => exact logic_of_cmp ih
  | logic _ hop _ ih ih' => exact sound_logic ih hop ih'
  | arg _ ih => exact sound_arg ih
  | args _ _ ih ih' => exact sound_args ih ih'
  | noCall _ ih => exact seven_of_logic ih
  | call _ _ ih ih' => exact sound_call ih ih'
  | opCall hop _ ih => exact sound_opCall hop ih
  | opName hop => exact sound_opName hop
  | pipe1 hop _ ih => exact sound_pipe1 hop ih
  | pipeLast hop _ ih => exact sound_pipeLast hop ih
  | pipes hop _ _ ih ih' => exact sound_pipes hop ih ih'
  | ite _ _ ih ih' => exact sound_ite ih ih'
  | iteElse _ _ _ ih ih' ih'' => exact sound_iteElse ih ih' ih''
  | elseIf _ _ _ ih ih' ih'' => exact sound_elseIf ih ih' ih''
  | cond _ ih => exact ctrl_of_cond ih
  | for_ hx _ _ ih ih' => exact sound_for hx ih ih'
  | forRange hx _ _ _ ih ih' ih'' => exact sound_forRange hx ih ih' ih''
  | seven _ ih => exact expr_of_seven ih
  | pipe _ _ ih ih' => exact sound_pipe ih ih'
  | stage _ ih => exact expr_of_stage ih
  | stageLet hw _ ih => exact sound_let hw ih
  | stageLambda hx _ ih => exact sound_arrow (op := c!"->") hx (by decide) ih
  | stageMacro hx _ ih => exact sound_arrow (op := c!"~>") hx (by decide) ih
  | stageCtrl _ ih => exact stage_of_ctrl ih
  | done => exact sound_done
  | last _ ih => exact sound_last ih
  | stmt _ _ ih ih' => exact sound_stmt ih ih'
  | ctrlStmt _ _ hv ih ih' => exact sound_ctrlStmt ih ih' hv

/-- A derived sequence of words is read as the script it stands for. -/
theorem scriptN_of_stmts {ws : List Word} {l : List Expr} (h : G C.plat .stmts ws l) {i : List Tok}
    (hi : i.map Tok.word = ws) : scriptN C (i.length + 1) i = .ok (.do_ l) := by
  obtain ⟨init, last, j, rfl, h1, h2, h3⟩ :=
    (sound h).2.2 i [] (i.length + 1) hi (by simp) (.inl rfl)
  rw [List.append_nil] at h1
  rw [scriptN, parseScriptTokens, h1.many0 h2]
  simp only [PR.bind, h3, if_true]
  rfl

end

end Dune.Parse
