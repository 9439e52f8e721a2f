import Verif.Proof.Builtins
import Verif.Proof.Harmless
import Verif.Props.Errors
import Verif.Props.Tokens

/-! Property C88: which calls can crash the shell. -/

namespace Dune.Props

open Spec

variable {W : Type} {P : Plat} {H : Host W} {L : Lib}

/-- C88: if a run crashes although terminal, clock and random numbers work, then the crash happens
inside a call of the table: with the crashes of these calls, and only these, replaced by an exit with
status `c`, the run exits with status `c`, whatever `c` is. -/
theorem C88_culprit (hH : Works H) {n : Nat} {e : Expr} {env : Env} {w : W}
    (h : (evalN P H (stdB P L) n e env w).1 = .panic) (c : Int) :
    (evalN P H (guarded c P L) n e env w).1 = .exit c := by
  rcases guarded_sim (H := H) c P L n e env w with h' | h'
  · exact h'
  · exact absurd (h' ▸ h) (evalN_safe hH (fun i _ => guarded_wp c i) n e env w)

/-- C88: with those crashes replaced by an exit, nothing crashes. -/
theorem C88_none (hH : Works H) (c : Int) (n : Nat) (e : Expr) (env : Env) (w : W) :
    (evalN P H (guarded c P L) n e env w).1 ≠ .panic :=
  evalN_safe hH (fun i _ => guarded_wp c i) n e env w

/-- C88: if no call of the table crashes, the run is the same as before, and does not crash. -/
theorem C88_safe (hH : Works H) {n : Nat} {e : Expr} {env : Env} {w : W} {c : Int}
    (h : (evalN P H (guarded c P L) n e env w).1 ≠ .exit c) :
    evalN P H (stdB P L) n e env w = evalN P H (guarded c P L) n e env w ∧
      (evalN P H (stdB P L) n e env w).1 ≠ .panic := by
  rcases guarded_sim (H := H) c P L n e env w with h' | h'
  · exact absurd h' h
  · exact ⟨h'.symm, h' ▸ C88_none hH c n e env w⟩

/-! ### The table is exact -/

/-- A text that crashes the tokenizer (C02). -/
def badText : Str := c!"\"\\é"

/-- A world in which everything works; every file contains `badText`. -/
def crashHost : Host Unit where
  io op w := (match op with
    | .canonicalize p => .str p
    | .randomInt l _ => .int l
    | .randomIndex _ => .nat 0
    | .readLine | .readPassword | .editLine _ => .str []
    | .readEvent => .key none
    | .now => .clock ⟨2023, 1, 1, 0, 0⟩
    | .readFile _ => .bytes (utf8Encode badText)
    | _ => .unit, w)

def crashPlat (c : Bool) : Plat := { Demo.plat with overflowChecks := c, stackDepth := 0 }

def crashLib (c : Bool) : Lib := { Demo.lib with parse := parseText (crashPlat c) }

theorem crashHost_works : Works crashHost := by
  intro op w
  cases op <;> simp [Answers, crashHost]

/-- Does the call crash in a shell whose only peculiarity is a tiny native stack? -/
def Crashes (c : Bool) (id : BId) (args : List Expr) : Prop :=
  (evalN (crashPlat c) crashHost (stdB (crashPlat c) (crashLib c)) 2 (.apply (.builtin [] id []) args)
    ⟨[], []⟩ ()).1 = .panic

theorem bad_parse (c : Bool) : parseText (crashPlat c) badText = .panic := by
  have h := (C02_crash 'é' (by decide) []).1
  rw [parseText, badText, parseScript, h]

theorem no_arg {c : Bool} {id : BId} {n : Nat} (hn : n = 0) (h : Crashes c id []) :
    ∃ args, args.length = n ∧ Crashes c id args := ⟨[], hn.symm, h⟩

theorem more_args {c : Bool} {id : BId} {n : Nat} (pre : List Expr) (hn : pre.length ≤ n)
    (h : ∀ rest, Crashes c id (pre ++ rest)) : ∃ args, args.length = n ∧ Crashes c id args :=
  ⟨pre ++ List.replicate (n - pre.length) .none, by simp; omega, h _⟩

/-- A rejected text whose error message crashes (C65). -/
def badMessage : Str := c!"let \"" ++ c!"a" ++ c!"\n" ++ List.replicate 72 'b' ++ c!"\""

theorem joiny_crash {c : Bool} (n : Nat) :
    Crashes c .wJoiny (.str [] :: .none :: List.replicate n .none) := by
  have h0 : evalN (crashPlat c) crashHost (stdB (crashPlat c) (crashLib c)) 1 (.str []) ⟨[], []⟩ () =
      (.ok (.str []), ⟨[], []⟩, ()) := rfl
  rw [Crashes]
  brun [Builtins.joinyB, Builtins.joinyLoop, h0]
  rfl

theorem try_panics {P : Plat} {H : Host W} {L : Lib} {text : Str} {er : Error} {n : Nat} {env : Env}
    {w : W} (ht : text ≠ []) (hp : L.parse text = .err er) (hd : displayError P er = none) (g : Expr) :
    (evalN P H (stdB P L) (n + 2) (.apply (.builtin [] .eTry [])
      [.apply (.builtin [] .pExpr []) [.str text], g]) env w).1 = .panic := by
  have h0 : evalN P H (stdB P L) n (.str text) env w = (.ok (.str text), env, w) := by
    cases n <;> rfl
  have h1 : evalN P H (stdB P L) (n + 1) (.apply (.builtin [] .pExpr []) [.str text]) env w =
      (.err er, env, w) := by
    brun [Builtins.parseB, h0, display_str, ht, hp]
  rw [evalN_builtin]
  generalize Expr.apply (.builtin [] .pExpr []) [.str text] = a at h1
  brun [Builtins.tryB, M.catch_, h1, hd]

theorem try_crash : Crashes true .eTry [.apply (.builtin [] .pExpr []) [.str badMessage], .none] := by
  obtain ⟨e, h1, h2⟩ := C65_crash (P := crashPlat true) rfl (m := c!"a") (b := List.replicate 72 'b')
    (v := 'a' :: '\n' :: List.replicate 72 'b') (by
      refine .char (by decide) (by decide) (.char (by decide) (by decide) ?_)
      generalize 72 = n
      induction n with
      | zero => exact .nil
      | succ n ih => exact .char (by decide) (by decide) ih) (by unfold InLine; decide) (by simp)
    (by simp)
  exact try_panics (L := crashLib true) (text := badMessage) (n := 0) (by simp [badMessage]) h1 h2 _

set_option maxRecDepth 100000 in
theorem exact_witness {c : Bool} {id : BId} {n : Nat} (h : mayCrash c id n = true)
    (hid : id ≠ .eTry ∨ c = true) : ∃ args, args.length = n ∧ Crashes c id args := by
  cases id
  case add => exact no_arg (by simpa [mayCrash] using h) rfl
  case div => exact no_arg (by simpa [mayCrash] using h) rfl
  case index => exact no_arg (by simpa [mayCrash] using h) rfl
  case str => exact no_arg (by simpa [mayCrash] using h) rfl
  case int => exact no_arg (by simpa [mayCrash] using h) rfl
  case keys => exact no_arg (by simpa [mayCrash] using h) rfl
  case vals => exact no_arg (by simpa [mayCrash] using h) rfl
  case len => exact no_arg (by simpa [mayCrash] using h) rfl
  case lines => exact no_arg (by simpa [mayCrash] using h) rfl
  case eval => exact no_arg (by simpa [mayCrash] using h) rfl
  case exec => exact no_arg (by simpa [mayCrash] using h) rfl
  case report => exact no_arg (by simpa [mayCrash] using h) rfl
  case yEval => exact no_arg (by simpa [mayCrash] using h) rfl
  case yExec => exact no_arg (by simpa [mayCrash] using h) rfl
  case tStyle => exact no_arg (by simpa [mayCrash] using h) rfl
  case tDarkWhite => exact no_arg (by simpa [mayCrash] using h) rfl
  case sIsWhitespace => exact no_arg (by simpa [mayCrash] using h) rfl
  case sLower => exact no_arg (by simpa [mayCrash] using h) rfl
  case sUpper => exact no_arg (by simpa [mayCrash] using h) rfl
  case sTrim => exact no_arg (by simpa [mayCrash] using h) rfl
  case sTrimStart => exact no_arg (by simpa [mayCrash] using h) rfl
  case sTrimEnd => exact no_arg (by simpa [mayCrash] using h) rfl
  case sIsAlpha => exact no_arg (by simpa [mayCrash] using h) rfl
  case sIsAlnum => exact no_arg (by simpa [mayCrash] using h) rfl
  case sIsNumeric => exact no_arg (by simpa [mayCrash] using h) rfl
  case sTitle => exact no_arg (by simpa [mayCrash] using h) rfl
  case sIsLower => exact no_arg (by simpa [mayCrash] using h) rfl
  case sIsUpper => exact no_arg (by simpa [mayCrash] using h) rfl
  case sIsTitle => exact no_arg (by simpa [mayCrash] using h) rfl
  case sub =>
    simp only [mayCrash, Bool.or_eq_true, Bool.and_eq_true, beq_iff_eq] at h
    rcases h with rfl | ⟨rfl, rfl⟩
    · exact no_arg rfl rfl
    · exact ⟨[.int .min], rfl, rfl⟩
  case mul =>
    rcases n with _ | _ | n
    · exact no_arg rfl rfl
    · simp [mayCrash] at h
    · exact more_args [.str c!"ab", .int .max] (by simp) fun _ => rfl
  case rem =>
    rcases n with _ | _ | n
    · exact no_arg rfl rfl
    · simp [mayCrash] at h
    · exact more_args [.int (.lit 5), .int (.lit 0)] (by simp) fun _ => rfl
  case eq =>
    rcases n with _ | _ | n
    · exact no_arg rfl rfl
    · exact ⟨[.none], rfl, rfl⟩
    · simp only [mayCrash, decide_eq_true_eq] at h
      omega
  case ne =>
    rcases n with _ | _ | n
    · exact no_arg rfl rfl
    · exact ⟨[.none], rfl, rfl⟩
    · simp only [mayCrash, decide_eq_true_eq] at h
      omega
  case lt =>
    rcases n with _ | _ | n
    · exact no_arg rfl rfl
    · exact ⟨[.none], rfl, rfl⟩
    · simp only [mayCrash, decide_eq_true_eq] at h
      omega
  case le =>
    rcases n with _ | _ | n
    · exact no_arg rfl rfl
    · exact ⟨[.none], rfl, rfl⟩
    · simp only [mayCrash, decide_eq_true_eq] at h
      omega
  case gt =>
    rcases n with _ | _ | n
    · exact no_arg rfl rfl
    · exact ⟨[.none], rfl, rfl⟩
    · simp only [mayCrash, decide_eq_true_eq] at h
      omega
  case ge =>
    rcases n with _ | _ | n
    · exact no_arg rfl rfl
    · exact ⟨[.none], rfl, rfl⟩
    · simp only [mayCrash, decide_eq_true_eq] at h
      omega
  case insert =>
    simp only [mayCrash, beq_iff_eq] at h
    subst h
    exact ⟨[.str c!"é", .int (.lit 1), .none], rfl, rfl⟩
  case lNth =>
    simp only [mayCrash, beq_iff_eq] at h
    subst h
    exact ⟨[.int (.lit 0), .list []], rfl, rfl⟩
  case sSplitAt =>
    simp only [mayCrash, beq_iff_eq] at h
    subst h
    exact ⟨[.str c!"é", .int (.lit 1)], rfl, rfl⟩
  case rInt =>
    simp only [mayCrash, beq_iff_eq] at h
    subst h
    exact ⟨[.int (.lit 1), .int (.lit 1)], rfl, rfl⟩
  case rChoose =>
    simp only [mayCrash, beq_iff_eq] at h
    subst h
    exact ⟨[.list []], rfl, rfl⟩
  case fsCp =>
    simp only [mayCrash, beq_iff_eq] at h
    subst h
    exact ⟨[.str c!"a", .str c!"b"], rfl, rfl⟩
  case pExpr =>
    simp only [mayCrash, beq_iff_eq] at h
    subst h
    exact ⟨[.str badText], rfl, rfl⟩
  case yParse =>
    simp only [mayCrash, beq_iff_eq] at h
    subst h
    exact ⟨[.str badText], rfl, rfl⟩
  case yInclude =>
    simp only [mayCrash, beq_iff_eq] at h
    subst h
    exact ⟨[.str badText], rfl, rfl⟩
  case yImport =>
    simp only [mayCrash, beq_iff_eq] at h
    subst h
    exact ⟨[.str badText], rfl, rfl⟩
  case sCaesar =>
    simp only [mayCrash, Bool.and_eq_true, beq_iff_eq] at h
    obtain ⟨rfl, rfl⟩ := h
    exact ⟨[.str c!"z", .int (.lit 255)], rfl, rfl⟩
  case mLRsh =>
    simp only [mayCrash, Bool.and_eq_true, beq_iff_eq] at h
    obtain ⟨rfl, rfl⟩ := h
    exact ⟨[.int (.lit 1), .int (.lit 64)], rfl, rfl⟩
  case mARsh =>
    simp only [mayCrash, Bool.and_eq_true, beq_iff_eq] at h
    obtain ⟨rfl, rfl⟩ := h
    exact ⟨[.int (.lit 1), .int (.lit 64)], rfl, rfl⟩
  case mLsh =>
    simp only [mayCrash, Bool.and_eq_true, beq_iff_eq] at h
    obtain ⟨rfl, rfl⟩ := h
    exact ⟨[.int (.lit 1), .int (.lit 64)], rfl, rfl⟩
  case mFact =>
    simp only [mayCrash, Bool.and_eq_true, beq_iff_eq] at h
    obtain ⟨rfl, rfl⟩ := h
    exact ⟨[.int (.lit 21)], rfl, rfl⟩
  case mAbs =>
    simp only [mayCrash, Bool.and_eq_true, beq_iff_eq] at h
    obtain ⟨rfl, rfl⟩ := h
    exact ⟨[.int .min], rfl, rfl⟩
  case cWrite =>
    simp only [mayCrash, Bool.and_eq_true, beq_iff_eq] at h
    obtain ⟨rfl, rfl⟩ := h
    exact ⟨[.int (.lit 0), .int .max, .str c!"a\nb"], rfl, rfl⟩
  case mSum =>
    simp only [mayCrash, Bool.and_eq_true, bne_iff_ne] at h
    obtain ⟨rfl, h⟩ := h
    exact more_args [.list [.int .max, .int .max]] (by simp; omega) fun _ => rfl
  case mProduct =>
    simp only [mayCrash, Bool.and_eq_true, bne_iff_ne] at h
    obtain ⟨rfl, h⟩ := h
    exact more_args [.list [.int .max, .int .max]] (by simp; omega) fun _ => rfl
  case fsGlob =>
    simp only [mayCrash, beq_iff_eq] at h
    subst h
    exact ⟨[.str c!"***"], rfl, rfl⟩
  case fsTree =>
    simp only [mayCrash, Bool.or_eq_true, beq_iff_eq] at h
    rcases h with rfl | rfl
    · exact ⟨[.str c!"/"], rfl, rfl⟩
    · exact ⟨[.str c!"/", .none], rfl, rfl⟩
  case wJoiny =>
    simp only [mayCrash, decide_eq_true_eq] at h
    obtain ⟨n, rfl⟩ := Nat.exists_eq_add_of_le h
    exact ⟨.str [] :: .none :: List.replicate n .none, by simp; omega, joiny_crash n⟩
  case other => exact more_args [] (by simp) fun _ => rfl
  case eTry =>
    simp only [mayCrash, beq_iff_eq] at h
    subst h
    obtain rfl := hid.resolve_left (by simp)
    exact ⟨_, rfl, try_crash⟩
  all_goals exact absurd h (by simp [mayCrash])

/-- C88, the table is exact: for every entry there is a crashing call of that function with that many
arguments, in a shell with the modelled parser and a world in which everything works.  The exception
is `try` in a build without overflow checks: it appears in the table although by C65 no message fails
to print there. -/
theorem C88_exact {c : Bool} {id : BId} {n : Nat} (h : mayCrash c id n = true)
    (hid : id ≠ .eTry ∨ c = true) :
    ∃ (P : Plat) (L : Lib) (H : Host Unit) (args : List Expr), P.overflowChecks = c ∧
      L.parse = parseText P ∧ Works H ∧ args.length = n ∧
      (evalN P H (stdB P L) 2 (.apply (.builtin [] id []) args) ⟨[], []⟩ ()).1 = .panic := by
  obtain ⟨args, hl, ha⟩ := exact_witness h hid
  exact ⟨crashPlat c, crashLib c, crashHost, args, rfl, rfl, crashHost_works, hl, ha⟩

/-- C88, and conversely: a call that is not in the table does not crash, in any environment and in
any world that works, if its arguments make no library calls of their own (those are judged by the
table again, `C88_culprit`). -/
theorem C88_outside (hH : Works H) {id : BId} {nm hlp : Str} {args : List Expr} {env : Env} {w : W}
    (h : mayCrash P.overflowChecks id args.length = false) :
    (evalN P H (stdB P L) 1 (.apply (.builtin nm id hlp) args) env w).1 ≠ .panic := by
  rw [evalN_builtin]
  exact BProg.run_safe hH (evalD_safe (fun _ _ _ _ => by simp) _) (stdB_wp h) env w

example : (evalN (crashPlat true) crashHost (stdB (crashPlat true) (crashLib true)) 2
      (.do_ [.assign c!"x" (.int .min), .apply (.builtin [] .mAbs []) [.symbol c!"x"]]) ⟨[], []⟩ ()).1 =
        .panic ∧
    ∀ c, (evalN (crashPlat true) crashHost (guarded c (crashPlat true) (crashLib true)) 2
      (.do_ [.assign c!"x" (.int .min), .apply (.builtin [] .mAbs []) [.symbol c!"x"]]) ⟨[], []⟩ ()).1 =
        .exit c := ⟨rfl, C88_culprit crashHost_works rfl⟩

example : mayCrash false .mAbs 1 = false ∧ mayCrash false .index 0 = true := ⟨rfl, rfl⟩

example : (evalN (crashPlat false) crashHost (stdB (crashPlat false) (crashLib false)) 2
      (.apply (.builtin [] .mAbs []) [.int .min]) ⟨[], []⟩ ()).1 ≠ .panic :=
  (C88_safe (c := 0) crashHost_works (by simp [show (evalN (crashPlat false) crashHost
    (guarded 0 (crashPlat false) (crashLib false)) 2 (.apply (.builtin [] .mAbs []) [.int .min])
    ⟨[], []⟩ ()).1 = .ok (.int .min) from rfl])).2

/-! ### Instances: the hypotheses can be met -/

example := C88_exact (c := true) (id := .mAbs) (n := 1) rfl (.inl (by decide))

example (e : Expr) (env : Env) := C88_none (P := crashPlat true) (L := crashLib true) crashHost_works 7 100 e env ()

end Dune.Props
