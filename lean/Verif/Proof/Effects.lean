import Verif.Spec.Effects
import Verif.Proof.Harmless

/-! The requests a builtin body can make. -/

namespace Dune

open M Spec

namespace BProg

variable {α β : Type} {T : Effect → Prop}

/-- Every request of the body has an effect in `T`. -/
def Only (T : Effect → Prop) : BProg α → Prop
  | .exit _ => T .leave
  | .eval _ k => ∀ r, Only T (k r)
  | .evalIn _ _ k => ∀ r env, Only T (k r env)
  | .getEnv k => ∀ env, Only T (k env)
  | .define _ _ k => Only T k
  | .undefine _ k => Only T k
  | .io op k => T (kind op) ∧ ∀ r, Only T (k r)
  | _ => True

theorem Only.bind {p : BProg α} {f : α → BProg β} (hp : p.Only T) (hf : ∀ a, (f a).Only T) :
    (p >>= f).Only T := by
  show (BProg.bind p f).Only T
  induction p with
  | ret a => exact hf a
  | err => trivial
  | panic => trivial
  | exit => exact hp
  | eval e k ih => exact fun r => ih r (hp r)
  | evalIn env e k ih => exact fun r env => ih r env (hp r env)
  | getEnv k ih => exact fun r => ih r (hp r)
  | define x v k ih => exact ih hp
  | undefine x k ih => exact ih hp
  | io op k ih => exact ⟨hp.1, fun r => ih r (hp.2 r)⟩

theorem only_ret (a : α) : (BProg.ret a).Only T := trivial
theorem only_err (e : Error) : (BProg.err e : BProg α).Only T := trivial
theorem only_panic : (BProg.panic : BProg α).Only T := trivial
theorem only_fail (m : Str) : (fail m : BProg α).Only T := trivial
theorem only_ev (e : Expr) : (ev e).Only T := by intro r; cases r <;> trivial
theorem only_evIn (env : Env) (e : Expr) : (evIn env e).Only T := by intro r _; cases r <;> trivial
theorem only_evTry (e : Expr) : (evTry e).Only T := fun _ => trivial
theorem only_env : env.Only T := fun _ => trivial
theorem only_def (x : Str) (v : Expr) : (def_ x v).Only T := trivial
theorem only_undef (x : Str) : (undef x).Only T := trivial
theorem only_ask {op : IOp} (h : T (kind op)) : (ask op).Only T := ⟨h, fun _ => trivial⟩

end BProg

open BProg Builtins

section

variable {P : Plat} {L : Lib} {args : List Expr} {T : Effect → Prop} {α : Type}

theorem only_lift {o : Outcome α} (h : ∀ c, o = .exit c → T .leave) :
    (BProg.lift o).Only T := by
  cases o with
  | exit c => exact h c rfl
  | _ => trivial

theorem only_arg {i : Nat} : (arg args i).Only T := by
  rw [arg]; split <;> trivial

theorem only_evArg {i : Nat} : (evArg args i).Only T := only_arg.bind fun _ => only_ev _

theorem only_checkArgs {name : Str} {lo hi : Nat} : (checkArgs name args lo hi).Only T := by
  rw [checkArgs]; split <;> trivial

theorem only_checkExact {name : Str} {n : Nat} : (checkExact name args n).Only T := by
  rw [checkExact]; repeat' split
  all_goals trivial

theorem only_needArgs {msg : Str} {n : Nat} : (needArgs msg args n).Only T := by
  rw [needArgs]; split <;> trivial

theorem only_countCheck {name : Str} {n : Nat} : (countCheck name args n).Only T := by
  rw [countCheck]; repeat' split
  all_goals trivial

theorem only_pathArg {cwd : Str} {i : Nat} : (pathArg P cwd args i).Only T :=
  only_evArg.bind fun _ => trivial

theorem only_out {s : Str} (h : T .output) : (out s).Only T :=
  ⟨h, fun r => by cases r <;> trivial⟩

theorem only_askBool {op : IOp} (h : T (kind op)) : (askBool op).Only T :=
  ⟨h, fun r => by cases r <;> trivial⟩

theorem only_readText {p : Str} (h : T .readFiles) : (readText p).Only T :=
  ⟨h, fun r => by cases r <;> trivial⟩

theorem only_logLevel (h : T .getLevel) : logLevel.Only T :=
  ⟨h, fun r => by cases r <;> trivial⟩

theorem only_exit {o : Outcome α} (h : ∀ c, o ≠ .exit c) : (BProg.lift o).Only T :=
  only_lift fun c hc => absurd hc (h c)

/-- Work through a body without loops. -/
macro "only" : tactic => `(tactic| repeat' (first
  | exact trivial
  | assumption
  | exact only_ev _
  | exact only_evIn _ _
  | exact only_evTry _
  | exact only_env
  | exact only_def _ _
  | exact only_undef _
  | exact only_evArg
  | exact only_arg
  | exact only_pathArg
  | exact only_checkArgs
  | exact only_checkExact
  | exact only_needArgs
  | exact only_countCheck
  | exact only_fail _
  | (apply only_out; assumption)
  | (apply only_readText; assumption)
  | (apply only_logLevel; assumption)
  | (apply only_askBool; assumption)
  | (apply only_ask; assumption)
  | apply Only.bind
  | split
  | intro _))

theorem only_logEnabled {l : I64} (h : T .getLevel) : (logEnabled l).Only T := by
  rw [logEnabled]
  only

/-! ### Outcomes of computations never leave the shell -/

theorem ok_no_exit (f : Expr → Expr → Expr) (a b : Expr) (c : Int) :
    (fun a b => Outcome.ok (f a b)) a b ≠ .exit c := by simp

theorem arith_no_exit (z : Int) (c : Int) : arith P z ≠ .exit c := by
  rw [arith]; repeat' split
  all_goals simp

theorem neg_no_exit (v : Expr) (c : Int) : Expr.neg P v ≠ .exit c := by
  unfold Expr.neg; repeat' split
  all_goals simp

theorem repeatStr_no_exit (s : Str) (n : I64) (c : Int) : Expr.repeatStr s n ≠ .exit c := by
  rw [Expr.repeatStr]; repeat' split
  all_goals simp

theorem mul_no_exit (a b : Expr) (c : Int) : Expr.mul P a b ≠ .exit c := by
  unfold Expr.mul; split
  all_goals first | exact repeatStr_no_exit _ _ _ | simp

theorem rem_no_exit (a b : Expr) (c : Int) : Expr.rem a b ≠ .exit c := by
  unfold Expr.rem; repeat' split
  all_goals simp

theorem shiftBy_no_exit (b : I64) (k : Nat → I64) (c : Int) : shiftBy P b k ≠ .exit c := by
  rw [shiftBy]; repeat' split
  all_goals simp

theorem factLoop_no_exit (c : Int) : ∀ (k n : Nat) (r : I64), factLoop P k n r ≠ .exit c
  | 0, _, r => by simp [factLoop]
  | k + 1, n, r => by
    have h := arith_no_exit (P := P) (r.val * n) c
    rw [factLoop]
    cases ha : arith P (r.val * n) with
    | ok i => exact factLoop_no_exit c k _ _
    | exit d => rw [ha] at h; exact h
    | _ => simp

theorem caesarStr_no_exit (i : I64) (c : Int) : ∀ s : Str, caesarStr P i s ≠ .exit c
  | [] => by simp [caesarStr]
  | x :: cs => by
    have h1 : ∀ d, caesarChar P i x ≠ .exit d := by
      intro d
      unfold caesarChar
      simp only
      repeat' split
      all_goals simp
    rw [caesarStr]
    cases hx : caesarChar P i x with
    | ok y =>
      have h2 := caesarStr_no_exit i c cs
      cases hy : caesarStr P i cs with
      | exit d => rw [hy] at h2; simpa using h2
      | _ => simp
    | exit d => exact absurd hx (h1 d)
    | _ => simp

/-! ### Loops -/

theorem only_evAll : ∀ {es : List Expr}, (evAll es).Only T
  | [] => trivial
  | _ :: _ => (only_ev _).bind fun _ => only_evAll.bind fun _ => trivial

theorem only_opLoop {verb : Str} {f : Expr → Expr → Outcome Expr} (hf : ∀ a b c, f a b ≠ .exit c) :
    ∀ {es : List Expr} {r : Expr}, (opLoop P verb f r es).Only T
  | [], _ => trivial
  | a :: as, r => by
    rw [opLoop]
    refine (only_ev _).bind fun _ => (only_ev _).bind fun _ => (only_exit (hf _ _)).bind fun v => ?_
    split
    · trivial
    · exact only_opLoop hf

theorem only_indexLoop : ∀ {es : List Expr} {v : Expr}, (indexLoop v es).Only T
  | [], _ => trivial
  | a :: as, v => by
    unfold indexLoop
    refine Only.bind ?_ fun _ => ?_
    · split <;> first | exact only_ev _ | trivial
    · exact only_indexLoop

theorem only_cmdArgs : ∀ {es : List Expr}, (cmdArgs P es).Only T
  | [] => trivial
  | a :: as => by
    unfold cmdArgs
    split
    · trivial
    · injections; subst_vars; exact only_cmdArgs
    · injections; subst_vars
      exact (only_ev _).bind fun _ => only_cmdArgs.bind fun _ => trivial

theorem only_command {name : Str} {as : List Expr} : (exprToCommand.command P name as).Only T :=
  only_env.bind fun _ => only_cmdArgs.bind fun _ => trivial

theorem only_named {name : Str} {as : List Expr} : (exprToCommand.named P name as).Only T := by
  rw [exprToCommand.named]
  refine only_env.bind fun env => ?_
  split
  · exact only_command
  · trivial
  · exact only_command

theorem only_exprToCommand {e : Expr} : (exprToCommand P e).Only T := by
  fun_induction exprToCommand P e with
  | case1 e ih => exact ih
  | case2 e ih => exact ih
  | case3 => exact only_named
  | case4 => exact only_named
  | case5 => exact only_command
  | case6 => exact only_command
  | case7 name =>
    refine only_env.bind fun env => ?_
    split <;> trivial
  | case8 => trivial

theorem only_pipeLoop (h : T .stage) : ∀ {es : List Expr} {first : Bool} {res : Expr}
    {buf : List UInt8}, (pipeLoop P first es res buf).Only T
  | [], _, _, _ => trivial
  | e :: es, _, _, _ => by
    rw [pipeLoop]
    refine only_exprToCommand.bind fun c => ?_
    split
    · refine (only_ask h).bind fun r => ?_
      split
      · trivial
      · trivial
      · trivial
      · split <;> exact only_pipeLoop h
      · split
        · exact only_pipeLoop h
        · trivial
    · exact (only_ev _).bind fun _ => only_pipeLoop h

theorem only_printLoop {fmt : Expr → Str} {ending : Str} (h : T .output) :
    ∀ {es : List Expr}, (printLoop fmt ending es).Only T
  | [] => trivial
  | [a] => (only_ev _).bind fun _ => (only_out h).bind fun _ => trivial
  | a :: b :: as => (only_ev _).bind fun _ => (only_out h).bind fun _ => only_printLoop h

theorem only_foldLoop {mk : Expr → Expr → List Expr} {f : Expr} :
    ∀ {es : List Expr} {acc : Expr}, (foldLoop mk f acc es).Only T
  | [], _ => trivial
  | a :: as, _ => (only_ev _).bind fun _ => only_foldLoop

theorem only_mapLoop {f : Expr} : ∀ {es : List Expr}, (mapLoop f es).Only T
  | [] => trivial
  | a :: as => (only_ev _).bind fun _ => only_mapLoop.bind fun _ => trivial

theorem only_filterLoop {f : Expr} : ∀ {es : List Expr}, (filterLoop f es).Only T
  | [] => trivial
  | a :: as => (only_ev _).bind fun _ => only_filterLoop.bind fun _ => trivial

theorem only_curryLoop : ∀ {n : Nat} {e : Expr}, (curryLoop n e).Only T
  | 0, _ => trivial
  | n + 1, e => (only_ev _).bind fun _ => only_curryLoop

theorem only_accNum {name : Str} {fi : Int → Int → Int} {ff : F64 → F64 → F64}
    {v : Expr} {i : I64} {f : F64} : (accNum P name fi ff v i f).Only T := by
  unfold accNum
  split
  · exact (only_exit (arith_no_exit _)).bind fun _ => trivial
  · trivial
  · trivial

theorem only_accList {name : Str} {fi : Int → Int → Int} {ff : F64 → F64 → F64} :
    ∀ {es : List Expr} {i : I64} {f : F64}, (accList P name fi ff es i f).Only T
  | [], _, _ => trivial
  | e :: es, _, _ => (only_ev _).bind fun _ => only_accNum.bind fun _ => only_accList

theorem only_accArgs {name : Str} {fi : Int → Int → Int} {ff : F64 → F64 → F64} :
    ∀ {es : List Expr} {i : I64} {f : F64}, (accArgs P name fi ff es i f).Only T
  | [], _, _ => trivial
  | e :: es, _, _ => by
    rw [accArgs]
    refine (only_ev _).bind fun v => Only.bind ?_ fun _ => only_accArgs
    split
    · exact only_accList
    · exact only_accNum

theorem only_logLines {pre : Str} (h : T .output) : ∀ {ls : List Str}, (logLines pre ls).Only T
  | [] => trivial
  | [l] => by
    rw [logLines]
    split
    · trivial
    · exact only_out h
  | l :: m :: ls => (only_out h).bind fun _ => only_logLines h

theorem only_logLoop {pre : Str} (h : T .output) : ∀ {es : List Expr} {nl : Bool},
    (logLoop P pre nl es).Only T
  | [], _ => trivial
  | a :: as, nl => by
    rw [logLoop]
    refine (only_ev _).bind fun v => ?_
    dsimp only
    split
    · exact (only_logLines h).bind fun _ => only_logLoop h
    · split
      · exact (only_out h).bind fun _ => (only_out h).bind fun _ => only_logLoop h
      · exact Only.bind trivial fun _ => (only_out h).bind fun _ => only_logLoop h

theorem only_movePath {a b : Str} (h0 : T .readFiles) (h1 : T .removeFiles) :
    (movePath a b).Only T := by
  rw [movePath]
  only

theorem only_removePath {a : Str} (h0 : T .readFiles) (h1 : T .removeFiles) :
    (removePath a).Only T := by
  rw [removePath]
  only

theorem only_copyEntries {copy : Str → Str → BProg Unit} {a b : Str} (h : ∀ a b, (copy a b).Only T) :
    ∀ {ns : List Str}, (copyEntries copy a b ns).Only T
  | [] => trivial
  | _ :: _ => (h _ _).bind fun _ => only_copyEntries h

theorem only_copyPath (h0 : T .readFiles) (h1 : T .writeFiles) :
    ∀ {n : Nat} {a b : Str}, (copyPath n a b).Only T
  | 0, _, _ => trivial
  | n + 1, a, b => by
    rw [copyPath]
    only
    exact only_copyEntries fun _ _ => only_copyPath h0 h1

theorem only_joinxLoop : ∀ {es : List Expr} {acc : List (List Str)}, (joinxLoop P es acc).Only T
  | [], _ => trivial
  | a :: as, acc => by
    rw [joinxLoop]
    refine (only_ev _).bind fun v => ?_
    split
    · dsimp only
      split
      · trivial
      · exact only_joinxLoop
    · trivial

theorem only_joinyLoop : ∀ {es : List Expr} {acc : List Str}, (joinyLoop P es acc).Only T
  | [], _ => trivial
  | a :: as, acc => by
    rw [joinyLoop]
    refine (only_ev _).bind fun v => ?_
    split
    · dsimp only
      repeat' split
      all_goals first | trivial | exact only_joinyLoop
    · trivial

theorem only_writeLoop {x y : I64} (h : T .output) :
    ∀ {ls : List Str} {i : Nat}, (writeLoop P x y i ls).Only T
  | [], _ => trivial
  | l :: ls, i =>
    (only_exit (arith_no_exit _)).bind fun _ => (only_out h).bind fun _ => only_writeLoop h

theorem only_promptLoop : ∀ {es : List Expr}, (promptLoop P es).Only T
  | [] => trivial
  | a :: as => (only_ev _).bind fun _ => only_promptLoop.bind fun _ => trivial

theorem only_index {n : Nat} (h : T .random) : (Builtins.index n).Only T := by
  rw [Builtins.index]
  only

theorem only_shuffleLoop (h : T .random) : ∀ {i : Nat} {l : List Expr}, (shuffleLoop i l).Only T
  | 0, _ => trivial
  | i + 1, l => by
    rw [shuffleLoop]
    refine (only_index h).bind fun k => ?_
    split
    · exact only_shuffleLoop h
    · trivial

theorem only_treeEntries {sub : Str → BProg (BMap Expr)} {dir : Str} (h0 : T .readFiles)
    (h : ∀ p, (sub p).Only T) : ∀ {ns : List Str} {t : BMap Expr}, (treeEntries sub dir ns t).Only T
  | [], _ => trivial
  | n :: ns, t => by
    rw [treeEntries]
    refine (only_askBool h0).bind fun b => ?_
    split
    · exact (h _).bind fun _ => only_treeEntries h0 h
    · exact only_treeEntries h0 h

theorem only_dirTree (h0 : T .readFiles) : ∀ {n : Nat} {d : Str} {m : Option I64},
    (dirTree P n d m).Only T
  | 0, _, _ => trivial
  | n + 1, d, m => by
    rw [dirTree]
    split
    · trivial
    · refine (only_ask h0).bind fun r => ?_
      split
      · refine only_treeEntries h0 fun p => ?_
        split
        · exact only_dirTree h0
        · exact (only_exit (arith_no_exit _)).bind fun _ => only_dirTree h0
      · trivial

theorem only_tryParse {s : Str} (h : ∀ s c, L.parse s = .exit c → T .leave) :
    (tryParse L s).Only T := by
  rw [tryParse]
  split
  · trivial
  · trivial
  · trivial
  · rename_i hc; exact h _ _ hc
  · trivial

theorem only_evalCopy {e : Expr} : (evalCopy e).Only T := only_env.bind fun _ => only_evIn _ _

/-- Work through a body with loops. -/
macro "onlys" : tactic => `(tactic| repeat' (first
  | exact trivial
  | assumption
  | exact only_ev _
  | exact only_evIn _ _
  | exact only_evTry _
  | exact only_env
  | exact only_def _ _
  | exact only_undef _
  | exact only_evArg
  | exact only_arg
  | exact only_pathArg
  | exact only_checkArgs
  | exact only_checkExact
  | exact only_needArgs
  | exact only_countCheck
  | exact only_fail _
  | exact only_evAll
  | exact only_indexLoop
  | exact only_foldLoop
  | exact only_mapLoop
  | exact only_filterLoop
  | exact only_curryLoop
  | exact only_joinxLoop
  | exact only_joinyLoop
  | exact only_promptLoop
  | exact only_accArgs
  | (apply only_printLoop; assumption)
  | (apply only_pipeLoop; assumption)
  | (apply only_logLoop; assumption)
  | (apply only_logEnabled; assumption)
  | (apply only_writeLoop; assumption)
  | (apply only_index; assumption)
  | (apply only_shuffleLoop; assumption)
  | (apply only_dirTree; assumption)
  | (apply only_removePath <;> assumption)
  | (apply only_tryParse; assumption)
  | (apply only_opLoop; first
      | exact ok_no_exit _ | exact mul_no_exit | exact rem_no_exit)
  | (apply only_exit; first
      | exact arith_no_exit _ | exact neg_no_exit _ | exact (factLoop_no_exit · _ _ _)
      | exact (caesarStr_no_exit _ · _))
  | (apply only_out; assumption)
  | (apply only_readText; assumption)
  | (apply only_logLevel; assumption)
  | (apply only_askBool; assumption)
  | (apply only_ask; assumption)
  | apply Only.bind
  | split
  | intro _
  | dsimp only))

/-! ### Bodies -/

theorem addB_only : (addB P args).Only T := by
  unfold addB
  onlys

theorem subB_only : (subB P args).Only T := by
  unfold subB
  onlys

theorem mulB_only : (mulB P args).Only T := by
  unfold mulB
  onlys

theorem divB_only : (divB P args).Only T := by
  unfold divB
  onlys

theorem remB_only : (remB P args).Only T := by
  unfold remB
  onlys

theorem andB_only : (andB args).Only T := by
  unfold andB
  onlys

theorem orB_only : (orB args).Only T := by
  unfold orB
  onlys

theorem notB_only : (notB args).Only T := by
  unfold notB
  onlys

theorem cmpB_only {f : Expr → Expr → Bool} : (cmpB f args).Only T := by
  unfold cmpB
  onlys

theorem indexB_only : (indexB args).Only T := by
  unfold indexB
  onlys

theorem pipeB_only (h0 : T .stage) : (pipeB P args).Only T := by
  unfold pipeB
  onlys

theorem toB_only : (toB args).Only T := by
  unfold toB
  onlys

theorem strB_only : (strB P args).Only T := by
  unfold strB
  onlys

theorem intB_only : (intB P args).Only T := by
  unfold intB
  onlys

theorem insertB_only : (insertB P args).Only T := by
  unfold insertB
  onlys

theorem keysB_only : (keysB P args).Only T := by
  unfold keysB
  onlys

theorem valsB_only : (valsB P args).Only T := by
  unfold valsB
  onlys

theorem varsB_only : varsB.Only T := by
  unfold varsB
  onlys

theorem lenB_only : (lenB P args).Only T := by
  unfold lenB
  onlys

theorem linesB_only : (linesB P args).Only T := by
  unfold linesB
  onlys

theorem evalB_only : (evalB args).Only T := by
  unfold evalB
  onlys

theorem execB_only : (execB args).Only T := by
  unfold execB
  onlys

theorem unbindB_only : (unbindB P args).Only T := by
  unfold unbindB
  onlys

theorem reportB_only (h0 : T .output) : (reportB P args).Only T := by
  unfold reportB
  onlys

theorem exitB_only (h0 : T .leave) : (exitB P args).Only T := by
  unfold exitB
  onlys

theorem cdB_only (h0 : T .readFiles) (h1 : T .directory) : (cdB P args).Only T := by
  unfold cdB
  onlys

theorem tailB_only : (tailB args).Only T := by
  unfold tailB
  onlys

theorem headB_only : (headB args).Only T := by
  unfold headB
  onlys

theorem chunkB_only : (chunkB args).Only T := by
  unfold chunkB
  onlys

theorem consB_only : (consB args).Only T := by
  unfold consB
  onlys

theorem appendB_only : (appendB args).Only T := by
  unfold appendB
  onlys

theorem listLenB_only : (listLenB args).Only T := by
  unfold listLenB
  onlys

theorem revB_only : (revB args).Only T := by
  unfold revB
  onlys

theorem rangeB_only : (rangeB args).Only T := by
  unfold rangeB
  onlys

theorem foldlB_only : (foldlB args).Only T := by
  unfold foldlB
  onlys

theorem foldrB_only : (foldrB args).Only T := by
  unfold foldrB
  onlys

theorem zipB_only : (zipB args).Only T := by
  unfold zipB
  onlys

theorem unzipB_only : (unzipB args).Only T := by
  unfold unzipB
  onlys

theorem intListB_only {n : Str} {k : Nat → List Expr → Expr} : (intListB n k args).Only T := by
  unfold intListB
  onlys

theorem nthB_only : (nthB args).Only T := by
  unfold nthB
  onlys

theorem applyB_only : (applyB P args).Only T := by
  unfold applyB
  onlys

theorem curryB_only : (curryB args).Only T := by
  unfold curryB
  onlys

theorem conditionalB_only : (conditionalB args).Only T := by
  unfold conditionalB
  onlys

theorem mapB_only : (mapB P args).Only T := by
  unfold mapB
  onlys

theorem filterB_only : (filterB P args).Only T := by
  unfold filterB
  onlys

theorem reduceB_only : (reduceB P args).Only T := by
  unfold reduceB
  onlys

theorem dFlattenB_only : (dFlattenB args).Only T := by
  unfold dFlattenB
  onlys

theorem dItemsB_only : (dItemsB args).Only T := by
  unfold dItemsB
  onlys

theorem dKeysB_only : (dKeysB args).Only T := by
  unfold dKeysB
  onlys

theorem dValuesB_only : (dValuesB args).Only T := by
  unfold dValuesB
  onlys

theorem dInsertB_only : (dInsertB P args).Only T := by
  unfold dInsertB
  onlys

theorem dRemoveB_only : (dRemoveB P args).Only T := by
  unfold dRemoveB
  onlys

theorem dHasB_only : (dHasB P args).Only T := by
  unfold dHasB
  onlys

theorem dLenB_only : (dLenB args).Only T := by
  unfold dLenB
  onlys

theorem dFromItemsB_only : (dFromItemsB P args).Only T := by
  unfold dFromItemsB
  onlys

theorem dTwoB_only {n : Str} {g : BMap Expr → BMap Expr → BMap Expr} : (dTwoB n g args).Only T := by
  unfold dTwoB
  onlys

theorem tryB_only : (tryB P args).Only T := by
  unfold tryB
  onlys

theorem onStr_only {kk : Str → Expr} : (onStr P kk args).Only T := by
  unfold onStr
  onlys

theorem onStr1_only {n : Str} {kk : Str → Expr} : (onStr1 n kk args).Only T := by
  unfold onStr1
  onlys

theorem toStringB_only : (toStringB P args).Only T := by
  unfold toStringB
  onlys

theorem caesarB_only : (caesarB P args).Only T := by
  unfold caesarB
  onlys

theorem getWidthB_only : (getWidthB args).Only T := by
  unfold getWidthB
  onlys

theorem split2B_only : (split2B P args).Only T := by
  unfold split2B
  onlys

theorem splitB_only : (splitB args).Only T := by
  unfold splitB
  onlys

theorem joinB_only : (joinB P args).Only T := by
  unfold joinB
  onlys

theorem charsB_only : (charsB P args).Only T := by
  unfold charsB
  onlys

theorem strSplitAtB_only : (strSplitAtB args).Only T := by
  unfold strSplitAtB
  onlys

theorem replaceB_only : (replaceB P args).Only T := by
  unfold replaceB
  onlys

theorem strTestB_only {n : Str} {t : Str → Str → Bool} : (strTestB P n t args).Only T := by
  unfold strTestB
  onlys

theorem twoInts_only {n : Str} {o : I64 → I64 → Outcome I64} (h : ∀ a b c, o a b ≠ .exit c) : (twoInts P n o args).Only T := by
  unfold twoInts
  onlys
  exact only_exit (h _ _)

theorem sumB_only : (sumB P args).Only T := by
  unfold sumB
  onlys

theorem productB_only : (productB P args).Only T := by
  unfold productB
  onlys

theorem factB_only : (factB P args).Only T := by
  unfold factB
  onlys

theorem absB_only : (absB P args).Only T := by
  unfold absB
  onlys

theorem parityB_only {n : Str} {z : Int} : (parityB P n z args).Only T := by
  unfold parityB
  onlys

theorem powB_only : (powB P args).Only T := by
  unfold powB
  onlys

theorem roundB_only {n : Str} : (roundB P n args).Only T := by
  unfold roundB
  onlys

theorem funDB_only {n : Str} : (funDB P n args).Only T := by
  unfold funDB
  onlys

theorem funB_only {n : Str} {n2 : Str} : (funB P n n2 args).Only T := by
  unfold funB
  onlys

theorem logFunB_only : (logFunB P args).Only T := by
  unfold logFunB
  onlys

theorem logB_only {i : I64} {n : Str} {n2 : Str} (h0 : T .getLevel) (h1 : T .output) : (logB P i n n2 args).Only T := by
  unfold logB
  onlys

theorem setLevelB_only (h0 : T .setLevel) : (setLevelB P args).Only T := by
  unfold setLevelB
  onlys

theorem getLevelB_only (h0 : T .getLevel) : (getLevelB args).Only T := by
  unfold getLevelB
  onlys

theorem disableB_only (h0 : T .setLevel) : (disableB args).Only T := by
  unfold disableB
  onlys

theorem enabledB_only (h0 : T .getLevel) : (enabledB P args).Only T := by
  unfold enabledB
  onlys

theorem headTailB_only {n : Str} {ord : List Str → List Str} (h0 : T .readFiles) : (headTailB P n ord args).Only T := by
  unfold headTailB
  onlys

theorem globB_only (h0 : T .readFiles) : (globB P args).Only T := by
  unfold globB
  onlys

theorem canonB_only (h0 : T .readFiles) : (canonB P args).Only T := by
  unfold canonB
  onlys

theorem dirB_only {n : Str} {op : Str → IOp} {n2 : Str} {n3 : Str} (h : ∀ s, T (kind (op s))) : (dirB P n op n2 n3 args).Only T := by
  unfold dirB
  onlys
  exact only_ask (h _)

theorem twoPathsB_only {n : Str} {k2 : Str → Str → BProg Unit} (h : ∀ a b, (k2 a b).Only T) : (twoPathsB P n k2 args).Only T := by
  unfold twoPathsB
  onlys
  exact h _ _

theorem rmB_only (h0 : T .readFiles) (h1 : T .removeFiles) : (rmB P args).Only T := by
  unfold rmB
  onlys

theorem lsB_only (h0 : T .readFiles) : (lsB P args).Only T := by
  unfold lsB
  onlys

theorem pathTestB_only {n : Str} {op : Str → IOp} (h : ∀ s, T (kind (op s))) : (pathTestB P n op args).Only T := by
  unfold pathTestB
  onlys
  exact only_ask (h _)

theorem readB_only (h0 : T .readFiles) : (readB P args).Only T := by
  unfold readB
  onlys

theorem writeB_only (h0 : T .writeFiles) : (writeB P args).Only T := by
  unfold writeB
  onlys

theorem fsAppendB_only (h0 : T .writeFiles) : (fsAppendB P args).Only T := by
  unfold fsAppendB
  onlys

theorem parseB_only (h : ∀ s c, L.parse s = .exit c → T .leave) : (parseB P L args).Only T := by
  unfold parseB
  onlys
  exact only_lift (h _)

theorem jsonB_only : (jsonB P L args).Only T := by
  unfold jsonB
  onlys

theorem tomlB_only : (tomlB P L args).Only T := by
  unfold tomlB
  onlys

theorem sysParseB_only (h : ∀ s c, L.parse s = .exit c → T .leave) : (sysParseB P L args).Only T := by
  unfold sysParseB
  onlys

theorem sysQuoteB_only : (sysQuoteB args).Only T := by
  unfold sysQuoteB
  onlys

theorem sysFileB_only {n : Str} {r : Expr → BProg Expr} (h0 : T .readFiles)
    (h : ∀ s c, L.parse s = .exit c → T .leave) (hr : ∀ e, (r e).Only T) : (sysFileB P L n r args).Only T := by
  unfold sysFileB
  onlys
  exact hr _

theorem sysCdB_only (h0 : T .readFiles) : (sysCdB P args).Only T := by
  unfold sysCdB
  onlys

theorem sysCwdB_only : sysCwdB.Only T := by
  unfold sysCwdB
  onlys

theorem sysSetB_only : (sysSetB P args).Only T := by
  unfold sysSetB
  onlys

theorem sysUnsetB_only : (sysUnsetB P args).Only T := by
  unfold sysUnsetB
  onlys

theorem sysDefinedB_only : (sysDefinedB P args).Only T := by
  unfold sysDefinedB
  onlys

theorem stripB_only : (stripB P args).Only T := by
  unfold stripB
  onlys

theorem styleB_only {n : Str} {n2 : Str} : (styleB P n n2 args).Only T := by
  unfold styleB
  onlys

theorem wrapB_only : (wrapB P args).Only T := by
  unfold wrapB
  onlys

theorem hrefB_only : (hrefB P args).Only T := by
  unfold hrefB
  onlys

theorem randIntB_only (h0 : T .random) : (randIntB P args).Only T := by
  unfold randIntB
  onlys

theorem chooseB_only (h0 : T .random) : (chooseB P args).Only T := by
  unfold chooseB
  onlys

theorem shuffleB_only (h0 : T .random) : (shuffleB P args).Only T := by
  unfold shuffleB
  onlys

theorem createB_only : (createB P args).Only T := by
  unfold createB
  onlys

theorem joinxB_only : (joinxB P args).Only T := by
  unfold joinxB
  onlys

theorem joinyB_only : (joinyB P args).Only T := by
  unfold joinyB
  onlys

theorem sizeB_only {pk : Nat → Nat → Nat} (h0 : T .terminal) : (sizeB pk).Only T := by
  unfold sizeB
  onlys

theorem consoleWriteB_only (h0 : T .output) : (consoleWriteB P args).Only T := by
  unfold consoleWriteB
  onlys

theorem titleB_only (h0 : T .output) : (titleB P args).Only T := by
  unfold titleB
  onlys

theorem clearB_only (h0 : T .output) : (clearB args).Only T := by
  unfold clearB
  onlys

theorem flushB_only (h0 : T .output) : flushB.Only T := by
  unfold flushB
  onlys

theorem rawModeB_only {b : Bool} {n : Str} (h0 : T .terminal) : (rawModeB b n).Only T := by
  unfold rawModeB
  onlys

theorem seqB_only {n : Str} (h0 : T .output) : (seqB n).Only T := by
  unfold seqB
  onlys

theorem moveToB_only (h0 : T .output) : (moveToB P args).Only T := by
  unfold moveToB
  onlys

theorem moveB_only {n : Str} {c : Char} (h0 : T .output) : (moveB P n c args).Only T := by
  unfold moveB
  onlys

theorem readLineB_only {op : IOp} (h : T (kind op)) : (readLineB op).Only T := by
  unfold readLineB
  onlys

theorem readKeyB_only (h0 : T .input) : readKeyB.Only T := by
  unfold readKeyB
  onlys

theorem sleepB_only (h0 : T .sleep) : (sleepB P args).Only T := by
  unfold sleepB
  onlys

theorem nowB_only (h0 : T .clock) : nowB.Only T := by
  unfold nowB
  onlys

theorem treeB_only (h0 : T .readFiles) : (treeB P args).Only T := by
  unfold treeB
  onlys

theorem inputB_only (h0 : T .input) (h1 : T .leave) : (inputB P args).Only T := by
  unfold inputB
  onlys

theorem only_all {α : Type} (h : ∀ k, T k) : ∀ p : BProg α, p.Only T := by
  intro p
  induction p with
  | exit c => exact h _
  | eval e k ih => exact fun r => ih r
  | evalIn env e k ih => exact fun r env => ih r env
  | getEnv k ih => exact fun env => ih env
  | define x v k ih => exact ih
  | undefine x k ih => exact ih
  | io op k ih => exact ⟨h _, fun r => ih r⟩
  | _ => trivial

/-- A function has only the effects of the table. -/
theorem stdB_only {id : BId} (hT : ∀ k, mayDo id k = true → T k)
    (hL : ∀ s c, L.parse s = .exit c → T .leave) : (stdB P L id args).Only T := by
  cases id <;> dsimp only [stdB]
  case add => exact addB_only
  case sub => exact subB_only
  case mul => exact mulB_only
  case div => exact divB_only
  case rem => exact remB_only
  case and => exact andB_only
  case or => exact orB_only
  case not => exact notB_only
  case eq => exact cmpB_only
  case ne => exact cmpB_only
  case lt => exact cmpB_only
  case le => exact cmpB_only
  case gt => exact cmpB_only
  case ge => exact cmpB_only
  case index => exact indexB_only
  case pipe => exact pipeB_only (hT _ rfl)
  case print => exact only_printLoop (hT _ rfl)
  case debug => exact only_printLoop (hT _ rfl)
  case println => exact only_printLoop (hT _ rfl)
  case to => exact toB_only
  case str => exact strB_only
  case int => exact intB_only
  case insert => exact insertB_only
  case keys => exact keysB_only
  case vals => exact valsB_only
  case vars => exact varsB_only
  case len => exact lenB_only
  case lines => exact linesB_only
  case eval => exact evalB_only
  case exec => exact execB_only
  case unbind => exact unbindB_only
  case report => exact reportB_only (hT _ rfl)
  case exit_ => exact exitB_only (hT _ rfl)
  case cd => exact cdB_only (hT _ rfl) (hT _ rfl)
  case lList => trivial
  case lTail => exact tailB_only
  case lHead => exact headB_only
  case lChunk => exact chunkB_only
  case lCons => exact consB_only
  case lAppend => exact appendB_only
  case lLen => exact listLenB_only
  case lRev => exact revB_only
  case lRange => exact rangeB_only
  case lFoldl => exact foldlB_only
  case lFoldr => exact foldrB_only
  case lZip => exact zipB_only
  case lUnzip => exact unzipB_only
  case lTake => exact intListB_only
  case lDrop => exact intListB_only
  case lSplitAt => exact intListB_only
  case lNth => exact nthB_only
  case fApply => exact applyB_only
  case fCurry => exact curryB_only
  case fMap => exact mapB_only
  case fFilter => exact filterB_only
  case fReduce => exact reduceB_only
  case fConditional => exact conditionalB_only
  case dFlatten => exact dFlattenB_only
  case dItems => exact dItemsB_only
  case dKeys => exact dKeysB_only
  case dValues => exact dValuesB_only
  case dInsert => exact dInsertB_only
  case dRemove => exact dRemoveB_only
  case dHas => exact dHasB_only
  case dLen => exact dLenB_only
  case dFromItems => exact dFromItemsB_only
  case dUnion => exact dTwoB_only
  case dIntersect => exact dTwoB_only
  case dDifference => exact dTwoB_only
  case eTry => exact tryB_only
  case sToString => exact toStringB_only
  case sCaesar => exact caesarB_only
  case sGetWidth => exact getWidthB_only
  case sIsWhitespace => exact onStr_only
  case sSplit2 => exact split2B_only
  case sSplit => exact splitB_only
  case sLower => exact onStr_only
  case sUpper => exact onStr_only
  case sJoin => exact joinB_only
  case sLines => exact onStr1_only
  case sChars => exact charsB_only
  case sWords => exact onStr1_only
  case sParagraphs => exact onStr1_only
  case sSplitAt => exact strSplitAtB_only
  case sTrim => exact onStr_only
  case sTrimStart => exact onStr_only
  case sTrimEnd => exact onStr_only
  case sReplace => exact replaceB_only
  case sStartsWith => exact strTestB_only
  case sEndsWith => exact strTestB_only
  case sContains => exact strTestB_only
  case mLRsh => exact twoInts_only (fun _ _ => shiftBy_no_exit _ _)
  case mARsh => exact twoInts_only (fun _ _ => shiftBy_no_exit _ _)
  case mLsh => exact twoInts_only (fun _ _ => shiftBy_no_exit _ _)
  case mSum => exact sumB_only
  case mProduct => exact productB_only
  case mFact => exact factB_only
  case mAbs => exact absB_only
  case mIsOdd => exact parityB_only
  case mIsEven => exact parityB_only
  case mPow => exact powB_only
  case gSetLevel => exact setLevelB_only (hT _ rfl)
  case gGetLevel => exact getLevelB_only (hT _ rfl)
  case gDisable => exact disableB_only (hT _ rfl)
  case gEnabled => exact enabledB_only (hT _ rfl)
  case gInfo => exact logB_only (hT _ rfl) (hT _ rfl)
  case gWarn => exact logB_only (hT _ rfl) (hT _ rfl)
  case gDebug => exact logB_only (hT _ rfl) (hT _ rfl)
  case gError => exact logB_only (hT _ rfl) (hT _ rfl)
  case gTrace => exact logB_only (hT _ rfl) (hT _ rfl)
  case gEcho => exact only_printLoop (hT _ rfl)
  case fsHead => exact headTailB_only (hT _ rfl)
  case fsTail => exact headTailB_only (hT _ rfl)
  case fsCanon => exact canonB_only (hT _ rfl)
  case fsMkdir => exact dirB_only (fun _ => hT _ rfl)
  case fsRmdir => exact dirB_only (fun _ => hT _ rfl)
  case fsMv => exact twoPathsB_only (fun _ _ => only_movePath (hT _ rfl) (hT _ rfl))
  case fsCp => exact twoPathsB_only (fun _ _ => only_copyPath (hT _ rfl) (hT _ rfl))
  case fsRm => exact rmB_only (hT _ rfl) (hT _ rfl)
  case fsLs => exact lsB_only (hT _ rfl)
  case fsExists => exact pathTestB_only (fun _ => hT _ rfl)
  case fsIsDir => exact pathTestB_only (fun _ => hT _ rfl)
  case fsIsFile => exact pathTestB_only (fun _ => hT _ rfl)
  case fsRead => exact readB_only (hT _ rfl)
  case fsWrite => exact writeB_only (hT _ rfl)
  case fsAppend => exact fsAppendB_only (hT _ rfl)
  case pExpr => exact parseB_only hL
  case pJson => exact jsonB_only
  case pToml => exact tomlB_only
  case yParse => exact sysParseB_only hL
  case yQuote => exact sysQuoteB_only
  case yEval => exact evalB_only
  case yExec => exact execB_only
  case yInclude => exact sysFileB_only (hT _ rfl) hL (fun _ => only_ev _)
  case yCd => exact sysCdB_only (hT _ rfl)
  case yCwd => exact sysCwdB_only
  case yImport => exact sysFileB_only (hT _ rfl) hL (fun _ => only_evalCopy)
  case yEnv => exact varsB_only
  case ySet => exact sysSetB_only
  case yUnset => exact sysUnsetB_only
  case yDefined => exact sysDefinedB_only
  case tStrip => exact stripB_only
  case tWrap => exact wrapB_only
  case tHref => exact hrefB_only
  case tStyle => exact styleB_only
  case tDarkWhite => exact styleB_only
  case rInt => exact randIntB_only (hT _ rfl)
  case rChoose => exact chooseB_only (hT _ rfl)
  case rShuffle => exact shuffleB_only (hT _ rfl)
  case wCreate => exact createB_only
  case wJoinx => exact joinxB_only
  case wJoiny => exact joinyB_only
  case sIsAlpha => exact onStr_only
  case sIsAlnum => exact onStr_only
  case sIsNumeric => exact onStr_only
  case sTitle => exact onStr_only
  case sIsLower => exact onStr_only
  case sIsUpper => exact onStr_only
  case sIsTitle => exact onStr_only
  case mRound => exact roundB_only
  case mFun => exact funB_only
  case mFunD => exact funDB_only
  case mLog => exact logFunB_only
  case fsGlob => exact globB_only (hT _ rfl)
  case fsTree => exact treeB_only (hT _ rfl)
  case cWidth => exact sizeB_only (hT _ rfl)
  case cHeight => exact sizeB_only (hT _ rfl)
  case cWrite => exact consoleWriteB_only (hT _ rfl)
  case cTitle => exact titleB_only (hT _ rfl)
  case cClear => exact clearB_only (hT _ rfl)
  case cFlush => exact flushB_only (hT _ rfl)
  case cRaw => exact rawModeB_only (hT _ rfl)
  case cCooked => exact rawModeB_only (hT _ rfl)
  case cSeq => exact seqB_only (hT _ rfl)
  case cMoveTo => exact moveToB_only (hT _ rfl)
  case cMove => exact moveB_only (hT _ rfl)
  case cReadLine => exact readLineB_only (hT _ rfl)
  case cReadPassword => exact readLineB_only (hT _ rfl)
  case cReadKey => exact readKeyB_only (hT _ rfl)
  case tSleep => exact sleepB_only (hT _ rfl)
  case tNow => exact nowB_only (hT _ rfl)
  case input => exact inputB_only (hT _ rfl) (hT _ rfl)
  case other => exact only_all (fun k => hT k rfl) _

end

/-! ### Evaluation -/

section

variable {W : Type} {P : Plat} {H : Host W} {α β : Type} {I : W → Prop} {X : Int → Prop}

/-- No run makes the fact `I` about the outside world false, and exits have codes in `X`. -/
def Keeps (I : W → Prop) (X : Int → Prop) (m : M W α) : Prop :=
  ∀ env w, I w → I (m env w).2.2 ∧ ∀ c, (m env w).1 = .exit c → X c

theorem Keeps.pure (a : α) : Keeps I X (Pure.pure a : M W α) := fun _ _ h => ⟨h, by simp⟩
theorem Keeps.throw (e : Error) : Keeps I X (M.throw e : M W α) := fun _ _ h => ⟨h, by simp⟩
theorem Keeps.getEnv : Keeps I X (M.getEnv : M W Env) := fun _ _ h => ⟨h, by simp⟩
theorem Keeps.define (x : Str) (v : Expr) : Keeps I X (M.define x v : M W Unit) :=
  fun _ _ h => ⟨h, by simp⟩
theorem Keeps.io {op : IOp} (hop : ∀ w, I w → I (H.io op w).2) : Keeps I X (M.io H op) :=
  fun _ w h => ⟨hop w h, by simp⟩

theorem Keeps.bind {m : M W α} {f : α → M W β} (hm : Keeps I X m) (hf : ∀ a, Keeps I X (f a)) :
    Keeps I X (m >>= f) := by
  intro env w hw
  have h := hm env w hw
  rw [M.bind_def]
  rcases hmm : m env w with ⟨o, env1, w1⟩
  rw [hmm] at h
  cases o with
  | ok a => exact hf a env1 w1 h.1
  | exit c => exact ⟨h.1, fun d hd => h.2 d (by simpa using hd)⟩
  | _ => exact ⟨h.1, by simp⟩

theorem Keeps.within {m : M W α} (hm : Keeps I X m) (env' : Env) : Keeps I X (M.within m env') :=
  fun _ w => hm env' w

theorem Keeps.catch_ {m : M W α} (hm : Keeps I X m) : Keeps I X (M.catch_ m) := by
  intro env w hw
  have h := hm env w hw
  simp only [M.catch_]
  rcases hmm : m env w with ⟨o, env1, w1⟩
  rw [hmm] at h
  cases o <;> simp at h ⊢ <;> exact h

theorem Keeps.withinTry {m : M W α} (hm : Keeps I X m) (env' : Env) :
    Keeps I X (M.withinTry m env') := by
  intro env w hw
  have h := hm env' w hw
  simp only [M.withinTry]
  rcases hmm : m env' w with ⟨o, env1, w1⟩
  rw [hmm] at h
  cases o <;> simp at h ⊢ <;> exact h

theorem collectArgs_keeps {ev : Expr → M W Expr} (hev : ∀ e, Keeps I X (ev e)) :
    ∀ args, Keeps I X (collectArgs P ev args)
  | [] => Keeps.pure _
  | a :: as => (hev a).bind fun _ => (collectArgs_keeps hev as).bind fun _ => Keeps.pure _

theorem evalList_keeps {ev : Expr → M W Expr} (hev : ∀ e, Keeps I X (ev e)) :
    ∀ es, Keeps I X (evalList ev es)
  | [] => Keeps.pure _
  | e :: es => (hev e).bind fun _ => (evalList_keeps hev es).bind fun _ => Keeps.pure _

theorem evalMap_keeps {ev : Expr → M W Expr} (hev : ∀ e, Keeps I X (ev e)) :
    ∀ es, Keeps I X (evalMap ev es)
  | [] => Keeps.pure _
  | (_, e) :: es => (hev e).bind fun _ => (evalMap_keeps hev es).bind fun _ => Keeps.pure _

theorem forLoop_keeps {ev : Expr → M W Expr} (hev : ∀ e, Keeps I X (ev e)) (x : Str) (body : Expr) :
    ∀ es, Keeps I X (forLoop ev x body es)
  | [] => Keeps.pure _
  | _ :: es => (Keeps.define _ _).bind fun _ => (hev body).bind fun _ =>
      (forLoop_keeps hev x body es).bind fun _ => Keeps.pure _

theorem evalDo_keeps {ev : Expr → M W Expr} (hev : ∀ e, Keeps I X (ev e)) :
    ∀ es, Keeps I X (evalDo ev es)
  | [] => Keeps.pure _
  | [e] => hev e
  | e :: f :: es => (hev e).bind fun _ => evalDo_keeps hev (f :: es)

theorem applyName_keeps {ev : Expr → M W Expr} (hev : ∀ e, Keeps I X (ev e))
    (hI : ∀ op w, kind op = .command → I w → I (H.io op w).2) (name : Str) (s : Expr)
    (args : List Expr) : Keeps I X (applyName P H ev name s args) := by
  refine Keeps.getEnv.bind fun _ => (collectArgs_keeps hev args).bind fun _ =>
    Keeps.getEnv.bind fun env => (Keeps.io fun w => hI _ w rfl).bind fun r => ?_
  cases r with
  | err e => cases e <;> exact Keeps.throw _
  | _ => exact Keeps.pure _

theorem applyValue_keeps {ev : Expr → M W Expr} {B : BId → List Expr → M W Expr}
    (hI : ∀ op w, kind op = .command → I w → I (H.io op w).2)
    (hev : ∀ e, Keeps I X (ev e)) (hB : ∀ i a, Keeps I X (B i a)) (f : Expr) (args : List Expr)
    (g : Expr) : Keeps I X (applyValue P H B ev f args g) := by
  cases g with
  | symbol n => exact applyName_keeps hev hI _ _ _
  | str n => exact applyName_keeps hev hI _ _ _
  | builtin n i h => exact hB i args
  | lambda p body bs ps =>
    match args with
    | [] => exact Keeps.throw _
    | [a] => exact Keeps.getEnv.bind fun _ => (hev a).bind fun _ => (hev body).within _
    | a :: c :: rest =>
      exact Keeps.getEnv.bind fun _ => (hev a).bind fun _ =>
        ((hev body).within _).bind fun _ => hev _
  | macro_ p body =>
    match args with
    | [] => exact Keeps.throw _
    | [a] => exact (hev a).bind fun _ => (Keeps.define _ _).bind fun _ => hev body
    | a :: c :: rest =>
      exact (hev a).bind fun _ => (Keeps.define _ _).bind fun _ => (hev body).bind fun _ => hev _
  | _ => exact Keeps.throw _

theorem evalStep_keeps {ev : Expr → M W Expr} {B : BId → List Expr → M W Expr}
    (hI : ∀ op w, kind op = .command → I w → I (H.io op w).2)
    (hev : ∀ e, Keeps I X (ev e)) (hB : ∀ i a, Keeps I X (B i a)) (e : Expr) :
    Keeps I X (evalStep P H B ev e) := by
  cases e with
  | group e => exact hev e
  | symbol n =>
    refine Keeps.getEnv.bind fun env => ?_
    cases env.get n <;> exact Keeps.pure _
  | assign n e => exact (hev e).bind fun _ => (Keeps.define _ _).bind fun _ => Keeps.pure _
  | for_ n l body =>
    refine (hev l).bind fun v => ?_
    cases v with
    | list items => exact (forLoop_keeps hev n body items).bind fun _ => Keeps.pure _
    | _ => exact Keeps.throw _
  | ite c t e =>
    refine (hev c).bind fun v => ?_
    cases v.isTruthy
    · exact hev e
    · exact hev t
  | apply f args => exact (hev f).bind fun g => applyValue_keeps hI hev hB f args g
  | lambda p b bs ps => exact Keeps.getEnv.bind fun _ => Keeps.pure _
  | list es => exact (evalList_keeps hev es).bind fun _ => Keeps.pure _
  | map es => exact (evalMap_keeps hev es).bind fun _ => Keeps.pure _
  | do_ es => exact evalDo_keeps hev es
  | _ => exact Keeps.pure _

theorem evalD_keeps {B : BId → List Expr → M W Expr}
    (hI : ∀ op w, kind op = .command → I w → I (H.io op w).2) (hB : ∀ i a, Keeps I X (B i a)) :
    ∀ k e, Keeps I X (evalD P H B k e)
  | 0, _ => Keeps.throw _
  | k + 1, e => evalStep_keeps hI (evalD_keeps hI hB k) hB e

/-- The body keeps `I` if its requests do. -/
theorem BProg.run_keeps {ev : Expr → M W Expr} {T : Effect → Prop}
    (hI : ∀ op w, T (kind op) → I w → I (H.io op w).2) (hX : T .leave → ∀ c, X c)
    (hev : ∀ e, Keeps I X (ev e)) {p : BProg α} (h : p.Only T) : Keeps I X (p.run H ev) := by
  induction p with
  | ret a => exact Keeps.pure a
  | err e => exact Keeps.throw e
  | panic => exact fun _ _ hw => ⟨hw, by simp [BProg.run]⟩
  | exit c => exact fun _ _ hw => ⟨hw, fun d _ => hX h d⟩
  | eval e k ih => exact ((hev e).catch_).bind fun r => ih r (h r)
  | evalIn env e k ih => exact ((hev e).withinTry env).bind fun r => ih r.1 r.2 (h r.1 r.2)
  | getEnv k ih => exact fun env w => ih env (h env) env w
  | define x v k ih => exact fun env w => ih h (env.define x v) w
  | undefine x k ih => exact fun env w => ih h (env.undefine x) w
  | io op k ih =>
    exact fun env w hw => ih (H.io op w).1 (h.2 _) env (H.io op w).2 (hI op w h.1 hw)

theorem without_keeps {E : List Effect} {c : Int} {L : Lib}
    (hI : ∀ op w, kind op = .command ∨ kind op ∉ E → I w → I (H.io op w).2) (hc : X c)
    (hX : .leave ∉ E ∨ (∃ s c, L.parse s = .exit c) → ∀ c, X c) :
    ∀ n e, Keeps I X (evalN P H (without E c P L) n e)
  | 0, e => evalD_keeps (fun op w h => hI op w (.inl h))
      (fun _ _ _ _ h => ⟨h, by simp⟩) _ e
  | n + 1, e => by
    refine evalD_keeps (fun op w h => hI op w (.inl h)) (fun i a => ?_) _ e
    show Keeps I X ((without E c P L i a).run H _)
    rw [without]
    split
    · exact fun _ _ hw => ⟨hw, fun d hd => by
        have : c = d := by simpa [BProg.run] using hd
        exact this ▸ hc⟩
    · rename_i hE
      refine BProg.run_keeps (T := fun k => k ∉ E ∨ k = .leave ∧ ∃ s c, L.parse s = .exit c)
        (fun op w h => hI op w (.inr ?_)) (fun h => hX (h.imp id And.right))
        (without_keeps hI hc hX n) (stdB_only (fun k hk => .inl fun hkE => hE ?_)
          fun s c h => .inr ⟨rfl, s, c, h⟩)
      · rcases h with h | h
        · exact h
        · cases op <;> exact absurd h.1 (by simp [kind])
      · exact List.any_eq_true.mpr ⟨k, hkE, hk⟩

/-- Removing functions changes nothing as long as they are not called. -/
theorem without_sim {E : List Effect} {c : Int} {L : Lib} : ∀ n e,
    M.Sim (.stop c) (evalN P H (without E c P L) n e) (evalN P H (stdB P L) n e)
  | 0, _ => M.Sim.refl _ _
  | n + 1, e => by
    refine evalD_sim (fun i a => ?_) _ e
    show M.Sim _ ((without E c P L i a).run H _) _
    rw [without]
    split
    · exact fun _ _ => .inl rfl
    · exact BProg.run_sim (by simp) (without_sim n) _

end

end Dune
