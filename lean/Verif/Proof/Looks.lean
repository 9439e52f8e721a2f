import Verif.Model.Looks
/-! The counting parser gives the results of the parser. -/

namespace Dune.Looks
open Parse

variable {α β : Type}

/-- forget the counter -/
def erase (p : Looker α) : Parser α := fun i => (p i).2

@[simp] theorem erase_look (p : Parser α) : erase (look p) = p := rfl
@[simp] theorem bind_snd (r : LR α) (f : List Tok → α → LR β) :
    (r.bind f).2 = r.2.bind fun i a => (f i a).2 := by
  obtain ⟨n, r⟩ := r; cases r <;> rfl
@[simp] theorem map_snd (r : LR α) (f : α → β) : (r.map f).2 = r.2.map f := rfl
@[simp] theorem pure_snd (i : List Tok) (a : α) : (LR.pure i a).2 = .ok i a := rfl
@[simp] theorem add_snd (n : Nat) (r : LR α) : (r.add n).2 = r.2 := rfl
@[simp] theorem orFail_snd (r : LR α) (e : SyntaxError) : (r.orFail e).2 = r.2.orFail e := rfl
@[simp] theorem orError_snd (r : LR α) (e : SyntaxError) : (r.orError e).2 = r.2.orError e := rfl
@[simp] theorem orElse_snd (r s : LR α) : (r.orElse s).2 = r.2.orElse s.2 := by
  obtain ⟨n, r⟩ := r; cases r <;> rfl
@[simp] theorem orElseAny_snd (r s : LR α) : (r.orElseAny s).2 = r.2.orElseAny s.2 := by
  obtain ⟨n, r⟩ := r; cases r <;> rfl

theorem altGo_snd (i : List Tok) (ps : List (Looker α)) (e : SyntaxError) :
    (altGo i e ps).2 = Parse.altGo i e (ps.map erase) := by
  induction ps generalizing e with
  | nil => rfl
  | cons p ps ih =>
    simp only [altGo, List.map_cons, Parse.altGo, erase]
    rcases h : p i with ⟨n, r⟩
    cases r <;> simp [ih]

@[simp] theorem erase_alt (p : Looker α) (ps : List (Looker α)) :
    erase (alt p ps) = Parse.alt (erase p) (ps.map erase) := by
  funext i
  simp only [erase, alt, Parse.alt]
  rcases h : p i with ⟨n, r⟩
  cases r <;> simp [altGo_snd]

theorem manyGo_snd (kind : Str) (p : Looker α) (n : Nat) (i : List Tok) :
    (manyGo kind p n i).2 = Parse.manyGo kind (erase p) n i := by
  induction n generalizing i with
  | zero => rfl
  | succ n ih =>
    simp only [manyGo, Parse.manyGo, erase]
    rcases h : p i with ⟨k, r⟩
    cases r <;> simp
    split <;> simp [ih]

@[simp] theorem erase_many0 (p : Looker α) : erase (many0 p) = Parse.many0 (erase p) := by
  funext i; exact manyGo_snd _ _ _ _

@[simp] theorem erase_many1 (p : Looker α) : erase (many1 p) = Parse.many1 (erase p) := by
  funext i
  simp only [erase, many1, Parse.many1]
  rcases h : p i with ⟨n, r⟩
  cases r <;> simp [manyGo_snd]

@[simp] theorem erase_pair (p : Looker α) (q : Looker β) :
    erase (pair p q) = Parse.pair (erase p) (erase q) := by
  funext i; simp [erase, pair, Parse.pair]

@[simp] theorem erase_preceded (p : Looker α) (q : Looker β) :
    erase (preceded p q) = Parse.preceded (erase p) (erase q) := by
  funext i; simp [erase, preceded, Parse.preceded]

@[simp] theorem erase_terminated (p : Looker α) (q : Looker β) :
    erase (terminated p q) = Parse.terminated (erase p) (erase q) := by
  funext i; simp [erase, terminated, Parse.terminated]

@[simp] theorem erase_opt (p : Looker α) : erase (opt p) = Parse.opt (erase p) := by
  funext i; simp [erase, opt, Parse.opt]

@[simp] theorem erase_separated (s : Looker β) (p : Looker α) :
    erase (separatedList0 s p) = Parse.separatedList0 (erase s) (erase p) := by
  funext i
  simp only [erase, separatedList0, Parse.separatedList0]
  rcases h : p i with ⟨n, r⟩
  cases r <;> simp [manyGo_snd]

@[simp] theorem erase_text (s : Str) : erase (text s) = Parse.text s := rfl
@[simp] theorem erase_noTerm (C : Ctx) : erase (noTermPunct C) = Parse.noTermPunct C := rfl
@[simp] theorem erase_symbol : erase parseSymbol = Parse.parseSymbol := rfl
@[simp] theorem erase_operator : erase parseOperator = Parse.parseOperator := rfl
@[simp] theorem erase_opAsSymbol : erase operatorAsSymbol = Parse.operatorAsSymbol := rfl
@[simp] theorem erase_none (C : Ctx) : erase (parseNone C) = Parse.parseNone C := by
  funext i; simp [erase, parseNone, Parse.parseNone]; rfl

theorem snd_eq {p : Looker α} {q : Parser α} (h : erase p = q) (i : List Tok) : (p i).2 = q i :=
  congrFun h i

section
variable (C : Ctx) (one : Looker Expr)

@[simp] theorem erase_two : erase (precTwo C one) = Parse.precTwo C (erase one) := by
  funext i
  simp [erase, precTwo, Parse.precTwo, snd_eq (erase_noTerm C), snd_eq (erase_many0 _)]

@[simp] theorem erase_three : erase (precThree C one) = Parse.precThree C (erase one) := by
  funext i
  simp [erase, precThree, Parse.precThree, snd_eq (erase_noTerm C), snd_eq (erase_many0 _),
    snd_eq (erase_two C one)]

@[simp] theorem erase_four : erase (precFour C one) = Parse.precFour C (erase one) := by
  funext i
  simp [erase, precFour, Parse.precFour, snd_eq (erase_noTerm C), snd_eq (erase_many0 _),
    snd_eq (erase_three C one)]

@[simp] theorem erase_not : erase (parseNot C one) = Parse.parseNot C (erase one) := by
  funext i
  simp [erase, parseNot, Parse.parseNot, snd_eq (erase_text _), snd_eq (erase_four C one)]

@[simp] theorem rangeEnd_snd (h : Expr) (i : List Tok) :
    (rangeEnd C one h i).2 = Parse.rangeEnd C (erase one) h i := by
  simp [rangeEnd, Parse.rangeEnd, snd_eq (erase_four C one)]

@[simp] theorem erase_five : erase (precFive C one) = Parse.precFive C (erase one) := by
  funext i
  simp only [erase, precFive, Parse.precFive, bind_snd, snd_eq (erase_noTerm C),
    snd_eq (erase_many0 _), snd_eq (erase_four C one), erase_pair, erase_alt, erase_text, erase_four,
    List.map_cons, List.map_nil]
  congr; funext i _; congr; funext i h; congr; funext i l
  split
  · have ht := snd_eq (erase_text c!"to") i
    rcases hh : text c!"to" i with ⟨n, r⟩
    rw [hh] at ht
    rw [← ht]
    cases r <;> simp [snd_eq (erase_not C one)]
  · rfl

@[simp] theorem erase_six : erase (precSix C one) = Parse.precSix C (erase one) := by
  funext i
  simp [erase, precSix, Parse.precSix, snd_eq (erase_noTerm C), snd_eq (erase_many0 _),
    snd_eq (erase_five C one)]

@[simp] theorem erase_range : erase (parseRange C one) = Parse.parseRange C (erase one) := by
  funext i
  simp [erase, parseRange, Parse.parseRange, snd_eq (erase_noTerm C), snd_eq (erase_text _),
    snd_eq (erase_four C one)]

@[simp] theorem erase_apply : erase (parseApply C one) = Parse.parseApply C (erase one) := by
  funext i
  simp [erase, parseApply, Parse.parseApply, snd_eq (erase_alt _ _), snd_eq (erase_many1 _)]

@[simp] theorem erase_applyOp :
    erase (parseApplyOperator C one) = Parse.parseApplyOperator C (erase one) := by
  funext i
  simp [erase, parseApplyOperator, Parse.parseApplyOperator, snd_eq erase_opAsSymbol,
    snd_eq (erase_many0 _)]

theorem erase_ifN (n : Nat) : erase (parseIfN C one n) = Parse.parseIfN C (erase one) n := by
  induction n with
  | zero => rfl
  | succ n ih =>
    funext i
    simp [erase, parseIfN, Parse.parseIfN, snd_eq (erase_text _), snd_eq (erase_six C one),
      snd_eq (erase_four C one), snd_eq (erase_opt _), ih]
    rfl

@[simp] theorem erase_if : erase (parseIf C one) = Parse.parseIf C (erase one) := by
  funext i; exact snd_eq (erase_ifN C one _) i

end

section
variable (C : Ctx) (expr : Looker Expr)

@[simp] theorem erase_statement :
    erase (parseStatement C expr) = Parse.parseStatement C (erase expr) := by
  funext i
  simp only [erase, parseStatement, Parse.parseStatement, bind_snd]
  congr; funext i e
  have ht := snd_eq (erase_text c!";") i
  rcases hh : text c!";" i with ⟨n, r⟩
  rw [hh] at ht
  rw [← ht]
  cases r <;> cases e <;> rfl

@[simp] theorem erase_scriptTokens (b : Bool) :
    erase (parseScriptTokens C expr b) = Parse.parseScriptTokens C (erase expr) b := by
  funext i
  simp only [erase, parseScriptTokens, Parse.parseScriptTokens, bind_snd, snd_eq (erase_many0 _),
    snd_eq (erase_opt _), erase_statement, erase_terminated, erase_opt, erase_text]
  congr; funext i l; congr; funext i o
  cases b <;> rfl

@[simp] theorem erase_block : erase (parseBlock C expr) = Parse.parseBlock C (erase expr) := by
  funext i
  simp [erase, parseBlock, Parse.parseBlock, snd_eq (erase_text _),
    snd_eq (erase_scriptTokens C expr _)]

@[simp] theorem erase_assign : erase (parseAssign C expr) = Parse.parseAssign C (erase expr) := by
  funext i
  simp [erase, parseAssign, Parse.parseAssign, snd_eq (erase_text _), snd_eq (erase_alt _ _)]

@[simp] theorem erase_group : erase (parseGroup C expr) = Parse.parseGroup C (erase expr) := by
  funext i
  simp [erase, parseGroup, Parse.parseGroup, snd_eq (erase_text _), snd_eq (erase_alt _ _)]
  rfl

@[simp] theorem erase_list : erase (parseList C expr) = Parse.parseList C (erase expr) := by
  funext i
  simp [erase, parseList, Parse.parseList, snd_eq (erase_text _), snd_eq (erase_separated _ _)]

@[simp] theorem erase_entry : erase (parseEntry expr) = Parse.parseEntry (erase expr) := by
  funext i
  simp [erase, parseEntry, Parse.parseEntry, snd_eq (erase_text _), snd_eq (erase_alt _ _)]

@[simp] theorem erase_map : erase (parseMap C expr) = Parse.parseMap C (erase expr) := by
  funext i
  simp only [erase, parseMap, Parse.parseMap, bind_snd, snd_eq (erase_text _),
    snd_eq (erase_separated _ _), erase_text, erase_entry, map_snd]
  congr; funext i _; congr; funext i l
  split <;> rfl

@[simp] theorem erase_callable :
    erase (parseCallable C expr) = Parse.parseCallable C (erase expr) := by
  funext i
  simp [erase, parseCallable, Parse.parseCallable, snd_eq erase_symbol, snd_eq (erase_alt _ _)]

end

section
variable (C : Ctx) (one : Looker Expr)

@[simp] theorem erase_for (expr : Looker Expr) :
    erase (parseFor C one expr) = Parse.parseFor C (erase one) (erase expr) := by
  funext i
  simp [erase, parseFor, Parse.parseFor, snd_eq (erase_text _), snd_eq erase_symbol,
    snd_eq (erase_alt _ _), snd_eq (erase_block C expr)]

@[simp] theorem erase_seven (expr : Looker Expr) :
    erase (precSeven C one expr) = Parse.precSeven C (erase one) (erase expr) := by
  funext i
  simp [erase, precSeven, Parse.precSeven, snd_eq (erase_noTerm C), snd_eq (erase_alt _ _)]

@[simp] theorem erase_exprStep (expr : Looker Expr) :
    erase (exprStep C one expr) = Parse.exprStep C (erase one) (erase expr) := by
  funext i
  simp [erase, exprStep, Parse.exprStep, snd_eq (erase_noTerm C), snd_eq (erase_many0 _),
    snd_eq (erase_seven C one expr)]
  rfl

theorem erase_exprN (n : Nat) : erase (exprN C one n) = Parse.exprN C (erase one) n := by
  induction n with
  | zero => rfl
  | succ n ih =>
    funext i
    have := snd_eq (erase_exprStep C one (exprN C one n)) i
    rw [ih] at this
    exact this

@[simp] theorem erase_parseExpr : erase (parseExpr C one) = Parse.parseExpr C (erase one) := by
  funext i; exact snd_eq (erase_exprN C one _) i

@[simp] theorem erase_quote : erase (parseQuote C one) = Parse.parseQuote C (erase one) := by
  funext i
  simp [erase, parseQuote, Parse.parseQuote, snd_eq (erase_text _), snd_eq (erase_two C one)]

@[simp] theorem erase_oneStep : erase (oneStep C one) = Parse.oneStep C (erase one) := by
  rw [oneStep, erase_alt, Parse.oneStep]
  have hn : erase (fun i => (parseNone C i).map fun _ => Expr.none) =
      fun i => (Parse.parseNone C i).map fun _ => Expr.none := by
    funext i
    simp [erase, snd_eq (erase_none C)]
  simp only [List.map_cons, List.map_nil, hn, erase_group, erase_quote, erase_map, erase_block,
    erase_list, erase_parseExpr]
  rfl

end

theorem erase_parseOne (C : Ctx) (n : Nat) : erase (parseOne C n) = Parse.parseOne C n := by
  induction n with
  | zero => rfl
  | succ n ih =>
    funext i
    have := snd_eq (erase_oneStep C (parseOne C n)) i
    rw [ih] at this
    exact this

theorem scriptN_snd (C : Ctx) (n : Nat) (i : List Tok) :
    (scriptN C n i).2 = Parse.scriptN C n i := by
  have := snd_eq (erase_scriptTokens C (parseExpr C (parseOne C n)) true) i
  rw [erase_parseExpr, erase_parseOne] at this
  rw [scriptN, Parse.scriptN, ← this]
  rcases parseScriptTokens C (parseExpr C (parseOne C n)) true i with ⟨k, r⟩
  cases r <;> rfl

/-- The counting parser gives the results of the parser. -/
theorem parseScript_snd (P : Plat) (src : Str) : (parseScript P src).2 = Dune.parseScript P src := by
  rw [parseScript, Dune.parseScript]
  cases tokenize src with
  | ok p =>
    obtain ⟨ts, ds⟩ := p
    simp only
    split
    · rfl
    · cases attachAll src ts with
      | none => rfl
      | some l =>
        simp only
        cases touching l with
        | some e => rfl
        | none => exact scriptN_snd _ _ _
  | _ => rfl

end Dune.Looks
