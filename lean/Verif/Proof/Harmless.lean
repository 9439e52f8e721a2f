import Verif.Proof.Crash

/-! Calls outside the table of `Spec.mayCrash` do not crash. -/

namespace Dune

open BProg Builtins Spec

section

variable {P : Plat} {L : Lib} {args : List Expr}

theorem wp_arg {i : Nat} {Q : Expr → Prop} (h : i < args.length) (hq : ∀ v, Q v) :
    (arg args i).Wp Q := by
  rw [arg, List.getElem?_eq_getElem h]
  exact hq _

theorem wp_evArg {i : Nat} {Q : Expr → Prop} (h : i < args.length) (hq : ∀ v, Q v) :
    (evArg args i).Wp Q := by
  rw [evArg, wp_bind]
  exact wp_arg h fun v => wp_ev _ _ hq

theorem wp_checkArgs {name : Str} {lo hi : Nat} {Q : Unit → Prop}
    (h : lo ≤ args.length → args.length ≤ hi → Q ()) : (checkArgs name args lo hi).Wp Q := by
  rw [checkArgs]
  split
  · rename_i h'; exact h h'.1 h'.2
  · trivial

theorem wp_checkExact {name : Str} {n : Nat} {Q : Unit → Prop}
    (h : args.length = n → Q ()) : (checkExact name args n).Wp Q := by
  rw [checkExact]
  split
  · rename_i h'; exact h h'
  · split <;> trivial

theorem wp_needArgs {msg : Str} {n : Nat} {Q : Unit → Prop}
    (h : args.length = n → Q ()) : (needArgs msg args n).Wp Q := by
  rw [needArgs]
  split
  · rename_i h'; exact h h'
  · trivial

theorem wp_countCheck {name : Str} {n : Nat} {Q : Unit → Prop}
    (h : 1 ≤ args.length → Q ()) : (countCheck name args n).Wp Q := by
  rw [countCheck]
  split
  · rename_i h'; exact h h'.1
  · split <;> trivial

theorem wp_out {s : Str} {Q : Unit → Prop} (h : Q ()) : (out s).Wp Q := by
  intro r hr
  cases r with
  | err e => exact absurd rfl (hr e)
  | _ => exact h

theorem wp_askBool {op : IOp} {Q : Bool → Prop} (h : ∀ b, Q b) : (askBool op).Wp Q := by
  intro r _
  cases r <;> exact h _

theorem wp_readText {p : Str} {Q : Option Str → Prop} (h : ∀ b, Q b) : (readText p).Wp Q := by
  intro r _
  cases r <;> exact h _

theorem wp_pathArg {cwd : Str} {i : Nat} {Q : Str → Prop} (h : i < args.length) (hq : ∀ v, Q v) :
    (pathArg P cwd args i).Wp Q := by
  rw [pathArg, wp_bind]
  exact wp_evArg h fun v => hq _

theorem wp_logLevel {Q : I64 → Prop} (h : ∀ b, Q b) : logLevel.Wp Q := by
  intro r _
  cases r <;> exact h _

theorem wp_logEnabled {l : I64} {Q : Bool → Prop} (h : ∀ b, Q b) : (logEnabled l).Wp Q := by
  rw [logEnabled]
  split
  · exact h _
  · rw [wp_bind]; exact wp_logLevel fun _ => h _

/-- Work through a body: conditions on the number of arguments are left to `omega`. -/
macro "wp" : tactic => `(tactic| repeat' (first
  | exact trivial
  | assumption
  | rw [wp_bind]
  | rw [wp_env]
  | rw [wp_evTry]
  | rw [wp_ask]
  | apply wp_ev
  | apply wp_evIn
  | (apply wp_evArg; · (first | omega | (simp only [List.length_cons] at *; omega)))
  | (apply wp_arg; · omega)
  | (apply wp_pathArg; · omega)
  | apply wp_checkArgs
  | apply wp_checkExact
  | apply wp_needArgs
  | apply wp_countCheck
  | apply wp_out
  | apply wp_askBool
  | apply wp_readText
  | apply wp_logEnabled
  | apply wp_logLevel
  | intro _
  | split
  | (show True; exact trivial)))

/-! ### Loops -/

theorem wp_evAll : ∀ {es : List Expr} {Q : List Expr → Prop}, (∀ v, Q v) → (evAll es).Wp Q
  | [], _, h => h _
  | _ :: es, _, h => by
    rw [evAll]
    wp
    exact wp_evAll fun vs => h _

theorem wp_lift_ok {α : Type} {o : Outcome α} {Q : α → Prop} (ho : ∃ a, o = .ok a)
    (h : ∀ v, Q v) : (lift o).Wp Q := by
  obtain ⟨a, rfl⟩ := ho
  exact h a

theorem wp_opLoop {verb : Str} {f : Expr → Expr → Outcome Expr} (hf : ∀ a b, ∃ c, f a b = .ok c) :
    ∀ {es : List Expr} {r : Expr}, (opLoop P verb f r es).Wp fun _ => True
  | [], _ => trivial
  | a :: as, r => by
    rw [opLoop, wp_bind]
    apply wp_ev
    intro x
    rw [wp_bind]
    apply wp_ev
    intro y
    rw [wp_bind]
    refine wp_lift_ok (hf x y) fun v => ?_
    split
    · trivial
    · exact wp_opLoop hf

theorem wp_indexLoop : ∀ {es : List Expr} {v : Expr}, (indexLoop v es).Wp fun _ => True
  | [], _ => trivial
  | a :: as, v => by
    refine (wp_bind _ _ _).mpr ?_
    cases a <;> first | exact wp_ev _ _ fun _ => wp_indexLoop | exact wp_indexLoop (es := as)

theorem wp_cmdArgs : ∀ {es : List Expr} {Q : List Str → Prop}, (∀ v, Q v) → (cmdArgs P es).Wp Q
  | [], _, h => h _
  | a :: as, _, h => by
    unfold cmdArgs
    split
    · exact h _
    · injections; subst_vars; exact wp_cmdArgs h
    · injections; subst_vars
      rw [wp_bind]
      apply wp_ev
      intro v
      rw [wp_bind]
      exact wp_cmdArgs fun _ => h _

theorem wp_command {name : Str} {as : List Expr} {Q : Option Cmd → Prop} (h : ∀ v, Q v) :
    (exprToCommand.command P name as).Wp Q := by
  rw [exprToCommand.command, wp_bind, wp_env]
  intro env
  rw [wp_bind]
  exact wp_cmdArgs fun _ => h _

theorem wp_named {name : Str} {as : List Expr} {Q : Option Cmd → Prop} (h : ∀ v, Q v) :
    (exprToCommand.named P name as).Wp Q := by
  rw [exprToCommand.named, wp_bind, wp_env]
  intro env
  split
  · exact wp_command h
  · exact h _
  · exact wp_command h

theorem wp_exprToCommand {e : Expr} {Q : Option Cmd → Prop} (h : ∀ v, Q v) :
    (exprToCommand P e).Wp Q := by
  fun_induction exprToCommand P e with
  | case1 e ih => exact ih
  | case2 e ih => exact ih
  | case3 => exact wp_named h
  | case4 => exact wp_named h
  | case5 => exact wp_command h
  | case6 => exact wp_command h
  | case7 name =>
    rw [wp_bind, wp_env]
    intro env
    split <;> exact h _
  | case8 => exact h _

theorem wp_pipeLoop : ∀ {es : List Expr} {first : Bool} {res : Expr} {buf : List UInt8},
    (pipeLoop P first es res buf).Wp fun _ => True
  | [], _, _, _ => trivial
  | e :: es, _, _, _ => by
    rw [pipeLoop, wp_bind]
    apply wp_exprToCommand
    intro c
    split
    · rw [wp_bind, wp_ask]
      intro r _
      split
      · trivial
      · trivial
      · trivial
      · split <;> exact wp_pipeLoop
      · split
        · exact wp_pipeLoop
        · trivial
    · rw [wp_bind]
      exact wp_ev _ _ fun _ => wp_pipeLoop

theorem wp_printLoop {fmt : Expr → Str} {ending : Str} :
    ∀ {es : List Expr}, (printLoop fmt ending es).Wp fun _ => True
  | [] => trivial
  | [a] => by rw [printLoop]; wp
  | a :: b :: as => by
    rw [printLoop]
    wp
    exact wp_printLoop

theorem wp_foldLoop {mk : Expr → Expr → List Expr} {f : Expr} :
    ∀ {es : List Expr} {acc : Expr}, (foldLoop mk f acc es).Wp fun _ => True
  | [], _ => trivial
  | a :: as, _ => by rw [foldLoop, wp_bind]; exact wp_ev _ _ fun _ => wp_foldLoop

theorem wp_mapLoop {f : Expr} : ∀ {es : List Expr} {Q : List Expr → Prop}, (∀ v, Q v) →
    (mapLoop f es).Wp Q
  | [], _, h => h _
  | a :: as, _, h => by
    rw [mapLoop, wp_bind]
    refine wp_ev _ _ fun _ => ?_
    rw [wp_bind]
    exact wp_mapLoop fun _ => h _

theorem wp_filterLoop {f : Expr} : ∀ {es : List Expr} {Q : List Expr → Prop}, (∀ v, Q v) →
    (filterLoop f es).Wp Q
  | [], _, h => h _
  | a :: as, _, h => by
    rw [filterLoop, wp_bind]
    refine wp_ev _ _ fun _ => ?_
    rw [wp_bind]
    exact wp_filterLoop fun _ => h _

theorem wp_curryLoop : ∀ {n : Nat} {e : Expr} {Q : Expr → Prop}, (∀ v, Q v) → (curryLoop n e).Wp Q
  | 0, _, _, h => h _
  | n + 1, e, _, h => by
    rw [curryLoop, wp_bind]
    exact wp_ev _ _ fun _ => wp_curryLoop h

theorem arith_ok (hc : P.overflowChecks = false) (z : Int) : ∃ i, arith P z = .ok i := by
  rw [arith]
  split
  · exact ⟨_, rfl⟩
  · rw [if_neg (by simp [hc])]; exact ⟨_, rfl⟩

theorem shiftBy_ok (hc : P.overflowChecks = false) (b : I64) (k : Nat → I64) :
    ∃ i, shiftBy P b k = .ok i := by
  rw [shiftBy]
  split
  · exact ⟨_, rfl⟩
  · rw [if_neg (by simp [hc])]; exact ⟨_, rfl⟩

theorem wp_accNum {name : Str} {fi : Int → Int → Int} {ff : F64 → F64 → F64}
    (hc : P.overflowChecks = false) {v : Expr} {i : I64} {f : F64} {Q : I64 × F64 → Prop}
    (h : ∀ v, Q v) : (accNum P name fi ff v i f).Wp Q := by
  unfold accNum
  split
  · rw [wp_bind]
    exact wp_lift_ok (arith_ok hc _) fun _ => h _
  · exact h _
  · trivial

theorem wp_accList {name : Str} {fi : Int → Int → Int} {ff : F64 → F64 → F64}
    (hc : P.overflowChecks = false) : ∀ {es : List Expr} {i : I64} {f : F64} {Q : I64 × F64 → Prop},
    (∀ v, Q v) → (accList P name fi ff es i f).Wp Q
  | [], _, _, _, h => h _
  | e :: es, _, _, _, h => by
    rw [accList, wp_bind]
    refine wp_ev _ _ fun _ => ?_
    rw [wp_bind]
    exact wp_accNum hc fun _ => wp_accList hc h

theorem wp_accArgs {name : Str} {fi : Int → Int → Int} {ff : F64 → F64 → F64}
    (hc : P.overflowChecks = false) : ∀ {es : List Expr} {i : I64} {f : F64} {Q : I64 × F64 → Prop},
    (∀ v, Q v) → (accArgs P name fi ff es i f).Wp Q
  | [], _, _, _, h => h _
  | e :: es, _, _, _, h => by
    rw [accArgs, wp_bind]
    refine wp_ev _ _ fun v => ?_
    rw [wp_bind]
    split
    · exact wp_accList hc fun _ => wp_accArgs hc h
    · exact wp_accNum hc fun _ => wp_accArgs hc h

theorem factLoop_ok (hc : P.overflowChecks = false) : ∀ (k n : Nat) (r : I64),
    ∃ i, factLoop P k n r = .ok i
  | 0, _, r => ⟨r, rfl⟩
  | k + 1, n, r => by
    obtain ⟨i, hi⟩ := arith_ok hc (r.val * n)
    rw [factLoop, hi]
    exact factLoop_ok hc k _ _

theorem caesarStr_ok {i : I64} (h : P.overflowChecks = false ∨ i.val % 256 < 200) :
    ∀ s : Str, ∃ r, caesarStr P i s = .ok r
  | [] => ⟨_, rfl⟩
  | c :: cs => by
    have hc : ∃ d, caesarChar P i c = .ok d := by
      unfold caesarChar
      simp only
      split
      · rename_i h1
        rw [if_neg]
        · exact ⟨_, rfl⟩
        · rintro ⟨h2, h3⟩
          rcases h with h | h
          · simp [h] at h2
          · split at h3 <;> simp at * <;> omega
      · exact ⟨_, rfl⟩
    obtain ⟨d, hd⟩ := hc
    obtain ⟨r, hr⟩ := caesarStr_ok h cs
    exact ⟨d :: r, by rw [caesarStr, hd, hr]⟩

theorem wp_logLines {pre : Str} : ∀ {ls : List Str} {Q : Unit → Prop}, Q () → (logLines pre ls).Wp Q
  | [], _, h => h
  | [l], _, h => by
    rw [logLines]
    split
    · exact h
    · exact wp_out h
  | l :: m :: ls, _, h => by
    rw [logLines, wp_bind]
    exact wp_out (wp_logLines h)

theorem wp_logLoop {pre : Str} : ∀ {es : List Expr} {nl : Bool},
    (logLoop P pre nl es).Wp fun _ => True
  | [], _ => trivial
  | a :: as, nl => by
    rw [logLoop, wp_bind]
    refine wp_ev _ _ fun v => ?_
    dsimp only
    split
    · rw [wp_bind]
      exact wp_logLines wp_logLoop
    · split
      · rw [wp_bind]
        refine wp_out ?_
        rw [wp_bind]
        exact wp_out wp_logLoop
      · rw [wp_bind, wp_ret, wp_bind]
        exact wp_out wp_logLoop

theorem wp_movePath {a b : Str} {Q : Unit → Prop} (h : Q ()) : (movePath a b).Wp Q := by
  rw [movePath]
  split
  · exact h
  · rw [wp_bind]
    apply wp_askBool
    intro x
    split
    · trivial
    · rw [wp_bind, wp_ask]
      intro r _
      split
      · trivial
      · exact h

theorem wp_joinxLoop : ∀ {es : List Expr} {acc : List (List Str)} {Q : List (List Str) → Prop},
    (∀ v, Q v) → (joinxLoop P es acc).Wp Q
  | [], _, _, h => h _
  | a :: as, acc, _, h => by
    rw [joinxLoop, wp_bind]
    refine wp_ev _ _ fun v => ?_
    split
    · dsimp only
      split
      · trivial
      · exact wp_joinxLoop h
    · trivial

theorem wp_writeLoop (hc : P.overflowChecks = false) {x y : I64} :
    ∀ {ls : List Str} {i : Nat} {Q : Unit → Prop}, Q () → (writeLoop P x y i ls).Wp Q
  | [], _, _, h => h
  | l :: ls, i, _, h => by
    rw [writeLoop, wp_bind]
    refine wp_lift_ok (arith_ok hc _) fun _ => ?_
    dsimp only
    rw [wp_bind]
    exact wp_out (wp_writeLoop hc h)

theorem wp_promptLoop : ∀ {es : List Expr} {Q : Str → Prop}, (∀ v, Q v) → (promptLoop P es).Wp Q
  | [], _, h => h _
  | a :: as, _, h => by
    rw [promptLoop, wp_bind]
    refine wp_ev _ _ fun v => ?_
    rw [wp_bind]
    exact wp_promptLoop fun _ => h _

theorem wp_index {n : Nat} (hn : 0 < n) {Q : Nat → Prop} (h : ∀ k, k < n → Q k) :
    (Builtins.index n).Wp Q := by
  rw [Builtins.index, if_pos hn]
  intro r hr
  obtain ⟨k, hk, rfl⟩ := hr hn
  exact h k hk

theorem wp_shuffleLoop : ∀ {i : Nat} {l : List Expr} {Q : List Expr → Prop},
    i < l.length ∨ i = 0 → (∀ v, Q v) → (shuffleLoop i l).Wp Q
  | 0, _, _, _, h => h _
  | i + 1, l, _, hi, h => by
    rw [shuffleLoop, wp_bind]
    refine wp_index (by omega) fun k hk => ?_
    have hl : i + 1 < l.length := by omega
    have hs : swapAt l (i + 1) k = some ((l.set (i + 1) (l[k]'(by omega))).set k l[i + 1]) := by
      rw [swapAt, List.getElem?_eq_getElem hl, List.getElem?_eq_getElem (by omega)]
    rw [hs]
    exact wp_shuffleLoop (by simp; omega) h

theorem neg_ok (hc : P.overflowChecks = false) (v : Expr) : (lift (Expr.neg P v)).Wp fun _ => True := by
  cases v with
  | int n =>
    rw [Expr.neg]
    split
    · trivial
    · rw [if_neg (by simp [hc])]; trivial
  | _ => trivial

/-- Work through a body with loops. -/
macro "wps" : tactic => `(tactic| repeat' (first
  | exact trivial
  | assumption
  | omega
  | (exfalso; simp_all; done)
  | rw [wp_bind]
  | rw [wp_env]
  | rw [wp_evTry]
  | rw [wp_ask]
  | apply wp_ev
  | apply wp_evIn
  | apply wp_evAll
  | apply wp_printLoop
  | apply wp_indexLoop
  | apply wp_pipeLoop
  | apply wp_foldLoop
  | apply wp_mapLoop
  | apply wp_filterLoop
  | apply wp_curryLoop
  | apply wp_logLoop
  | apply wp_joinxLoop
  | apply wp_promptLoop
  | apply neg_ok
  | (apply wp_opLoop; exact fun _ _ => ⟨_, rfl⟩)
  | (apply wp_evArg; · (first | omega | (simp only [List.length_cons] at *; omega)))
  | (apply wp_arg; · omega)
  | (apply wp_pathArg; · omega)
  | apply wp_checkArgs
  | apply wp_checkExact
  | apply wp_needArgs
  | apply wp_countCheck
  | apply wp_out
  | apply wp_askBool
  | apply wp_readText
  | apply wp_logEnabled
  | apply wp_logLevel
  | intro _
  | split
  | (show True; exact trivial)))

/-! ### Bodies -/

theorem addB_wp (h : 0 < args.length) :
    (addB P args).Wp fun _ => True := by
  rw [addB]
  wps

theorem subB_wp (h : 2 ≤ args.length ∨ (args.length = 1 ∧ P.overflowChecks = false)) :
    (subB P args).Wp fun _ => True := by
  rw [subB]
  wps
  rename_i ht
  rcases h with h | h
  · rw [← List.length_eq_zero_iff, List.length_tail] at ht
    omega
  · exact h.2

theorem mulB_wp (h : args.length = 1) :
    (mulB P args).Wp fun _ => True := by
  rw [mulB]
  match args, h with
  | [a], _ => wps

theorem divB_wp (h : 0 < args.length) :
    (divB P args).Wp fun _ => True := by
  rw [divB]
  wps

theorem remB_wp (h : args.length = 1) :
    (remB P args).Wp fun _ => True := by
  rw [remB]
  match args, h with
  | [a], _ => wps

theorem andB_wp :
    (andB args).Wp fun _ => True := by
  rw [andB]
  wps

theorem orB_wp :
    (orB args).Wp fun _ => True := by
  rw [orB]
  wps

theorem notB_wp :
    (notB args).Wp fun _ => True := by
  rw [notB]
  wps

theorem cmpB_wp {f : Expr → Expr → Bool} (h : 2 ≤ args.length) :
    (cmpB f args).Wp fun _ => True := by
  rw [cmpB]
  wps

theorem indexB_wp (h : 0 < args.length) :
    (indexB args).Wp fun _ => True := by
  rw [indexB]
  wps

theorem pipeB_wp :
    (pipeB P args).Wp fun _ => True := by
  rw [pipeB]
  wps

theorem toB_wp :
    (toB args).Wp fun _ => True := by
  unfold toB
  match args with
  | [] | [_] | _ :: _ :: _ :: _ => trivial
  | [a, b] => wp

theorem strB_wp (h : 0 < args.length) :
    (strB P args).Wp fun _ => True := by
  rw [strB]
  wps

theorem intB_wp (h : 0 < args.length) :
    (intB P args).Wp fun _ => True := by
  rw [intB]
  wps

theorem insertB_wp (h : args.length ≠ 3) :
    (insertB P args).Wp fun _ => True := by
  rw [insertB]
  wps

theorem keysB_wp (h : 0 < args.length) :
    (keysB P args).Wp fun _ => True := by
  rw [keysB]
  wps

theorem valsB_wp (h : 0 < args.length) :
    (valsB P args).Wp fun _ => True := by
  rw [valsB]
  wps

theorem varsB_wp :
    varsB.Wp fun _ => True := by
  rw [varsB]
  wps

theorem lenB_wp (h : 0 < args.length) :
    (lenB P args).Wp fun _ => True := by
  rw [lenB]
  wps

theorem linesB_wp (h : 0 < args.length) :
    (linesB P args).Wp fun _ => True := by
  rw [linesB]
  wps

theorem evalB_wp (h : 0 < args.length) :
    (evalB args).Wp fun _ => True := by
  rw [evalB]
  wps

theorem execB_wp (h : 0 < args.length) :
    (execB args).Wp fun _ => True := by
  rw [execB]
  wps

theorem unbindB_wp :
    (unbindB P args).Wp fun _ => True := by
  rw [unbindB]
  wps

theorem reportB_wp (h : 0 < args.length) :
    (reportB P args).Wp fun _ => True := by
  rw [reportB]
  wps

theorem exitB_wp :
    (exitB P args).Wp fun _ => True := by
  unfold exitB
  cases args <;> wp

theorem cdB_wp :
    (cdB P args).Wp fun _ => True := by
  rw [cdB]
  wps
  rename_i r hr _ h1 h2
  rcases hr with ⟨s, rfl⟩ | ⟨e, rfl⟩
  · exact absurd rfl (h1 s)
  · exact absurd rfl (h2 e)

theorem tailB_wp :
    (tailB args).Wp fun _ => True := by
  rw [tailB]
  wps

theorem headB_wp :
    (headB args).Wp fun _ => True := by
  rw [headB]
  wps

theorem chunkB_wp :
    (chunkB args).Wp fun _ => True := by
  rw [chunkB]
  wps

theorem consB_wp :
    (consB args).Wp fun _ => True := by
  rw [consB]
  wps

theorem appendB_wp :
    (appendB args).Wp fun _ => True := by
  rw [appendB]
  wps

theorem listLenB_wp :
    (listLenB args).Wp fun _ => True := by
  rw [listLenB]
  wps

theorem revB_wp :
    (revB args).Wp fun _ => True := by
  rw [revB]
  wps

theorem rangeB_wp :
    (rangeB args).Wp fun _ => True := by
  rw [rangeB]
  wps

theorem foldlB_wp :
    (foldlB args).Wp fun _ => True := by
  rw [foldlB]
  wps

theorem foldrB_wp :
    (foldrB args).Wp fun _ => True := by
  rw [foldrB]
  wps

theorem zipB_wp :
    (zipB args).Wp fun _ => True := by
  rw [zipB]
  wps

theorem unzipB_wp :
    (unzipB args).Wp fun _ => True := by
  rw [unzipB]
  wps

theorem intListB_wp {n : Str} {k : Nat → List Expr → Expr} :
    (intListB n k args).Wp fun _ => True := by
  rw [intListB]
  wps

theorem nthB_wp (h : args.length ≠ 2) :
    (nthB args).Wp fun _ => True := by
  rw [nthB]
  wps

theorem applyB_wp :
    (applyB P args).Wp fun _ => True := by
  rw [applyB]
  wps

theorem curryB_wp :
    (curryB args).Wp fun _ => True := by
  rw [curryB]
  wps

theorem conditionalB_wp :
    (conditionalB args).Wp fun _ => True := by
  rw [conditionalB]
  wps

theorem mapB_wp :
    (mapB P args).Wp fun _ => True := by
  rw [mapB]
  wps

theorem filterB_wp :
    (filterB P args).Wp fun _ => True := by
  rw [filterB]
  wps

theorem reduceB_wp :
    (reduceB P args).Wp fun _ => True := by
  rw [reduceB]
  wps

theorem dFlattenB_wp :
    (dFlattenB args).Wp fun _ => True := by
  rw [dFlattenB]
  wps

theorem dItemsB_wp :
    (dItemsB args).Wp fun _ => True := by
  rw [dItemsB]
  wps

theorem dKeysB_wp :
    (dKeysB args).Wp fun _ => True := by
  rw [dKeysB]
  wps

theorem dValuesB_wp :
    (dValuesB args).Wp fun _ => True := by
  rw [dValuesB]
  wps

theorem dInsertB_wp :
    (dInsertB P args).Wp fun _ => True := by
  rw [dInsertB]
  wps

theorem dRemoveB_wp :
    (dRemoveB P args).Wp fun _ => True := by
  rw [dRemoveB]
  wps

theorem dHasB_wp :
    (dHasB P args).Wp fun _ => True := by
  rw [dHasB]
  wps

theorem dLenB_wp :
    (dLenB args).Wp fun _ => True := by
  rw [dLenB]
  wps

theorem dFromItemsB_wp :
    (dFromItemsB P args).Wp fun _ => True := by
  rw [dFromItemsB]
  wps

theorem dTwoB_wp {n : Str} {g : BMap Expr → BMap Expr → BMap Expr} :
    (dTwoB n g args).Wp fun _ => True := by
  rw [dTwoB]
  wps

theorem tryB_wp (h : args.length ≠ 2) :
    (tryB P args).Wp fun _ => True := by
  rw [tryB]
  wps

theorem onStr_wp {kk : Str → Expr} (h : 0 < args.length) :
    (onStr P kk args).Wp fun _ => True := by
  rw [onStr]
  wps

theorem onStr1_wp {n : Str} {kk : Str → Expr} :
    (onStr1 n kk args).Wp fun _ => True := by
  rw [onStr1]
  wps

theorem toStringB_wp :
    (toStringB P args).Wp fun _ => True := by
  rw [toStringB]
  wps

theorem caesarB_wp (h : P.overflowChecks = false ∨ args.length ≠ 2) :
    (caesarB P args).Wp fun _ => True := by
  rw [caesarB]
  wps
  · rename_i hl _ _ s i _
    exact wp_lift_ok (caesarStr_ok (.inl (h.resolve_right (by omega))) s) fun _ => trivial
  · rw [wp_ret]
    split
    · rename_i hi
      injection hi with hi
      subst hi
      rw [wp_bind]
      exact wp_lift_ok (caesarStr_ok (.inr (by decide)) _) fun _ => trivial
    · trivial

theorem getWidthB_wp :
    (getWidthB args).Wp fun _ => True := by
  rw [getWidthB]
  wps

theorem split2B_wp :
    (split2B P args).Wp fun _ => True := by
  unfold split2B
  match args with
  | [] | [_] | _ :: _ :: _ :: _ => trivial
  | [a, b] => wp

theorem splitB_wp :
    (splitB args).Wp fun _ => True := by
  rw [splitB]
  wps

theorem joinB_wp :
    (joinB P args).Wp fun _ => True := by
  rw [joinB]
  wps

theorem charsB_wp :
    (charsB P args).Wp fun _ => True := by
  rw [charsB]
  wps

theorem strSplitAtB_wp (h : args.length ≠ 2) :
    (strSplitAtB args).Wp fun _ => True := by
  rw [strSplitAtB]
  wps

theorem replaceB_wp :
    (replaceB P args).Wp fun _ => True := by
  rw [replaceB]
  wps

theorem strTestB_wp {n : Str} {t : Str → Str → Bool} :
    (strTestB P n t args).Wp fun _ => True := by
  rw [strTestB]
  wps

theorem twoInts_wp {n : Str} {o : I64 → I64 → Outcome I64} (h : args.length ≠ 2 ∨ ∀ a b, ∃ c, o a b = .ok c) :
    (twoInts P n o args).Wp fun _ => True := by
  rw [twoInts]
  wps
  rcases h with h | h
  · omega
  · exact wp_lift_ok (h _ _) fun _ => trivial

theorem sumB_wp (h : P.overflowChecks = false ∨ args = []) :
    (sumB P args).Wp fun _ => True := by
  rw [sumB]
  rw [wp_bind]
  rcases h with h | rfl
  · exact wp_accArgs h fun _ => by wp
  · rw [accArgs]; wp

theorem productB_wp (h : P.overflowChecks = false ∨ args = []) :
    (productB P args).Wp fun _ => True := by
  rw [productB]
  rw [wp_bind]
  rcases h with h | rfl
  · exact wp_accArgs h fun _ => by wp
  · rw [accArgs]; wp

theorem factB_wp (h : P.overflowChecks = false ∨ args.length ≠ 1) :
    (factB P args).Wp fun _ => True := by
  rw [factB]
  wps
  exact wp_lift_ok (factLoop_ok (h.resolve_right (by omega)) _ _ _) fun _ => trivial

theorem absB_wp (h : P.overflowChecks = false ∨ args.length ≠ 1) :
    (absB P args).Wp fun _ => True := by
  rw [absB]
  wps
  all_goals exact wp_lift_ok (arith_ok (h.resolve_right (by omega)) _) fun _ => trivial

theorem parityB_wp {n : Str} {z : Int} :
    (parityB P n z args).Wp fun _ => True := by
  rw [parityB]
  wps

theorem powB_wp :
    (powB P args).Wp fun _ => True := by
  rw [powB]
  wps

theorem roundB_wp {n : Str} :
    (roundB P n args).Wp fun _ => True := by
  rw [roundB]
  wps

theorem funDB_wp {n : Str} :
    (funDB P n args).Wp fun _ => True := by
  rw [funDB]
  wps

theorem funB_wp {n : Str} {n2 : Str} :
    (funB P n n2 args).Wp fun _ => True := by
  rw [funB]
  wps

theorem logFunB_wp :
    (logFunB P args).Wp fun _ => True := by
  rw [logFunB]
  wps

theorem logB_wp {i : I64} {n : Str} {n2 : Str} :
    (logB P i n n2 args).Wp fun _ => True := by
  rw [logB]
  wps

theorem setLevelB_wp :
    (setLevelB P args).Wp fun _ => True := by
  rw [setLevelB]
  wps

theorem getLevelB_wp :
    (getLevelB args).Wp fun _ => True := by
  rw [getLevelB]
  wps

theorem disableB_wp :
    (disableB args).Wp fun _ => True := by
  rw [disableB]
  wps

theorem enabledB_wp :
    (enabledB P args).Wp fun _ => True := by
  rw [enabledB]
  wps

theorem headTailB_wp {n : Str} {ord : List Str → List Str} :
    (headTailB P n ord args).Wp fun _ => True := by
  rw [headTailB]
  wps

theorem globB_wp (h : args.length ≠ 1) :
    (globB P args).Wp fun _ => True := by
  rw [globB]
  wps

theorem canonB_wp :
    (canonB P args).Wp fun _ => True := by
  rw [canonB]
  wps

theorem dirB_wp {n : Str} {op : Str → IOp} {n2 : Str} {n3 : Str} :
    (dirB P n op n2 n3 args).Wp fun _ => True := by
  rw [dirB]
  wps

theorem twoPathsB_wp {n : Str} {k2 : Str → Str → BProg Unit} (h : args.length ≠ 2 ∨ ∀ a b, (k2 a b).Wp fun _ => True) :
    (twoPathsB P n k2 args).Wp fun _ => True := by
  rw [twoPathsB]
  wps
  rcases h with h | h
  · omega
  · exact (h _ _).mono fun _ _ => trivial

theorem rmB_wp :
    (rmB P args).Wp fun _ => True := by
  rw [rmB]
  rw [wp_bind]
  refine wp_checkExact fun _ => ?_
  rw [wp_bind, wp_env]
  intro env
  rw [wp_bind]
  refine wp_pathArg (by omega) fun _ => ?_
  rw [wp_bind, removePath, wp_bind]
  refine wp_askBool fun b => ?_
  wps

theorem lsB_wp :
    (lsB P args).Wp fun _ => True := by
  rw [lsB]
  wps

theorem pathTestB_wp {n : Str} {op : Str → IOp} :
    (pathTestB P n op args).Wp fun _ => True := by
  rw [pathTestB]
  wps

theorem readB_wp :
    (readB P args).Wp fun _ => True := by
  rw [readB]
  wps

theorem writeB_wp :
    (writeB P args).Wp fun _ => True := by
  rw [writeB]
  wps

theorem fsAppendB_wp :
    (fsAppendB P args).Wp fun _ => True := by
  rw [fsAppendB]
  wps

theorem parseB_wp (h : args.length ≠ 1) :
    (parseB P L args).Wp fun _ => True := by
  rw [parseB]
  wps

theorem jsonB_wp :
    (jsonB P L args).Wp fun _ => True := by
  rw [jsonB]
  wps
  dsimp only
  wps

theorem tomlB_wp :
    (tomlB P L args).Wp fun _ => True := by
  rw [tomlB]
  wps
  dsimp only
  wps

theorem sysParseB_wp (h : args.length ≠ 1) :
    (sysParseB P L args).Wp fun _ => True := by
  rw [sysParseB]
  wps

theorem sysQuoteB_wp :
    (sysQuoteB args).Wp fun _ => True := by
  rw [sysQuoteB]
  wps

theorem sysFileB_wp {n : Str} {r : Expr → BProg Expr} (h : args.length ≠ 1) :
    (sysFileB P L n r args).Wp fun _ => True := by
  rw [sysFileB]
  wps

theorem sysCdB_wp :
    (sysCdB P args).Wp fun _ => True := by
  rw [sysCdB]
  wps

theorem sysCwdB_wp :
    sysCwdB.Wp fun _ => True := by
  rw [sysCwdB]
  wps

theorem sysSetB_wp :
    (sysSetB P args).Wp fun _ => True := by
  rw [sysSetB]
  wps

theorem sysUnsetB_wp :
    (sysUnsetB P args).Wp fun _ => True := by
  rw [sysUnsetB]
  wps

theorem sysDefinedB_wp :
    (sysDefinedB P args).Wp fun _ => True := by
  rw [sysDefinedB]
  wps

theorem stripB_wp :
    (stripB P args).Wp fun _ => True := by
  rw [stripB]
  wps

theorem styleB_wp {n : Str} {n2 : Str} (h : 0 < args.length) :
    (styleB P n n2 args).Wp fun _ => True := by
  rw [styleB]
  wps

theorem wrapB_wp :
    (wrapB P args).Wp fun _ => True := by
  rw [wrapB]
  wps

theorem hrefB_wp :
    (hrefB P args).Wp fun _ => True := by
  rw [hrefB]
  wps

theorem randIntB_wp (h : args.length ≠ 2) :
    (randIntB P args).Wp fun _ => True := by
  rw [randIntB]
  wps

theorem chooseB_wp (h : args.length ≠ 1) :
    (chooseB P args).Wp fun _ => True := by
  rw [chooseB]
  wps

theorem shuffleB_wp :
    (shuffleB P args).Wp fun _ => True := by
  rw [shuffleB]
  wps
  exact wp_shuffleLoop (by omega) fun _ => trivial

theorem createB_wp :
    (createB P args).Wp fun _ => True := by
  rw [createB]
  wps

theorem joinxB_wp :
    (joinxB P args).Wp fun _ => True := by
  rw [joinxB]
  wps

theorem joinyB_wp (h : args.length < 2) :
    (joinyB P args).Wp fun _ => True := by
  rw [joinyB]
  wps

theorem sizeB_wp {pk : Nat → Nat → Nat} :
    (sizeB pk).Wp fun _ => True := by
  rw [sizeB]
  wps

theorem consoleWriteB_wp (h : P.overflowChecks = false ∨ args.length ≠ 3) :
    (consoleWriteB P args).Wp fun _ => True := by
  rw [consoleWriteB]
  wps
  exact wp_writeLoop (h.resolve_right (by omega)) trivial

theorem titleB_wp :
    (titleB P args).Wp fun _ => True := by
  rw [titleB]
  wps

theorem clearB_wp :
    (clearB args).Wp fun _ => True := by
  rw [clearB]
  wps

theorem flushB_wp :
    flushB.Wp fun _ => True := by
  rw [flushB]
  wps
  rename_i h
  exact absurd rfl (h _)

theorem rawModeB_wp {b : Bool} {n : Str} :
    (rawModeB b n).Wp fun _ => True := by
  rw [rawModeB]
  wps

theorem seqB_wp {n : Str} :
    (seqB n).Wp fun _ => True := by
  rw [seqB]
  wps

theorem moveToB_wp :
    (moveToB P args).Wp fun _ => True := by
  rw [moveToB]
  wps

theorem moveB_wp {n : Str} {c : Char} :
    (moveB P n c args).Wp fun _ => True := by
  rw [moveB]
  wps

theorem readLineB_wp {op : IOp} (h : ∀ r, Answers op r → ∃ s, r = .str s) :
    (readLineB op).Wp fun _ => True := by
  rw [readLineB]
  wps
  rename_i r hr _ hs
  obtain ⟨s, rfl⟩ := h r hr
  exact absurd rfl (hs s)

theorem readKeyB_wp :
    readKeyB.Wp fun _ => True := by
  rw [readKeyB]
  wps
  rename_i r hr _ h1 h2
  obtain ⟨k, rfl⟩ := hr
  cases k with
  | none => exact absurd rfl h2
  | some k => exact absurd rfl (h1 k)

theorem sleepB_wp :
    (sleepB P args).Wp fun _ => True := by
  rw [sleepB]
  wps

theorem nowB_wp :
    nowB.Wp fun _ => True := by
  rw [nowB]
  wps
  rename_i r hr _ h1
  obtain ⟨k, rfl⟩ := hr
  exact absurd rfl (h1 k)

theorem treeB_wp (h : args.length ≠ 1 ∧ args.length ≠ 2) :
    (treeB P args).Wp fun _ => True := by
  rw [treeB]
  wps

theorem inputB_wp :
    (inputB P args).Wp fun _ => True := by
  rw [inputB]
  wps
  rename_i r hr _ h1 h2
  rcases hr with ⟨k, rfl⟩ | rfl
  · exact absurd rfl (h1 k)
  · exact absurd rfl h2

theorem zero {n : Nat} {b : Bool} (h : b = false) (hb : b = (n == 0) := by rfl) : 0 < n := by
  subst hb
  simpa [Nat.pos_iff_ne_zero] using h

theorem two {n : Nat} {b : Bool} (h : b = false) (hb : b = decide (n < 2) := by rfl) : 2 ≤ n := by
  subst hb
  simpa using h

/-- A call outside the table does not crash by itself. -/
theorem stdB_wp {id : BId} (h : mayCrash P.overflowChecks id args.length = false) :
    (stdB P L id args).Wp fun _ => True := by
  cases id <;> dsimp only [stdB]
  case add => exact addB_wp (zero h)
  case div => exact divB_wp (zero h)
  case index => exact indexB_wp (zero h)
  case str => exact strB_wp (zero h)
  case int => exact intB_wp (zero h)
  case keys => exact keysB_wp (zero h)
  case vals => exact valsB_wp (zero h)
  case len => exact lenB_wp (zero h)
  case lines => exact linesB_wp (zero h)
  case eval => exact evalB_wp (zero h)
  case exec => exact execB_wp (zero h)
  case report => exact reportB_wp (zero h)
  case yEval => exact evalB_wp (zero h)
  case yExec => exact execB_wp (zero h)
  case tStyle => exact styleB_wp (zero h)
  case tDarkWhite => exact styleB_wp (zero h)
  case sIsWhitespace => exact onStr_wp (zero h)
  case sLower => exact onStr_wp (zero h)
  case sUpper => exact onStr_wp (zero h)
  case sTrim => exact onStr_wp (zero h)
  case sTrimStart => exact onStr_wp (zero h)
  case sTrimEnd => exact onStr_wp (zero h)
  case sIsAlpha => exact onStr_wp (zero h)
  case sIsAlnum => exact onStr_wp (zero h)
  case sIsNumeric => exact onStr_wp (zero h)
  case sTitle => exact onStr_wp (zero h)
  case sIsLower => exact onStr_wp (zero h)
  case sIsUpper => exact onStr_wp (zero h)
  case sIsTitle => exact onStr_wp (zero h)
  case eq => exact cmpB_wp (two h)
  case ne => exact cmpB_wp (two h)
  case lt => exact cmpB_wp (two h)
  case le => exact cmpB_wp (two h)
  case gt => exact cmpB_wp (two h)
  case ge => exact cmpB_wp (two h)
  case mul => exact mulB_wp (by simpa [mayCrash] using h)
  case rem => exact remB_wp (by simpa [mayCrash] using h)
  case sub => exact subB_wp (by
    simp only [mayCrash, Bool.or_eq_false_iff, Bool.and_eq_false_iff, beq_eq_false_iff_ne] at h
    rcases Nat.lt_or_ge args.length 2 with hl | hl
    · exact .inr ⟨by omega, h.2.resolve_left (by simpa using (by omega : args.length = 1))⟩
    · exact .inl hl)
  case insert => exact insertB_wp (by simpa [mayCrash] using h)
  case lNth => exact nthB_wp (by simpa [mayCrash] using h)
  case sSplitAt => exact strSplitAtB_wp (by simpa [mayCrash] using h)
  case eTry => exact tryB_wp (by simpa [mayCrash] using h)
  case pExpr => exact parseB_wp (by simpa [mayCrash] using h)
  case yParse => exact sysParseB_wp (by simpa [mayCrash] using h)
  case yInclude => exact sysFileB_wp (by simpa [mayCrash] using h)
  case yImport => exact sysFileB_wp (by simpa [mayCrash] using h)
  case rInt => exact randIntB_wp (by simpa [mayCrash] using h)
  case rChoose => exact chooseB_wp (by simpa [mayCrash] using h)
  case sCaesar => exact caesarB_wp (by simpa [mayCrash, Bool.and_eq_false_iff, -Bool.and_eq_false_imp] using h)
  case mFact => exact factB_wp (by simpa [mayCrash, Bool.and_eq_false_iff, -Bool.and_eq_false_imp] using h)
  case mAbs => exact absB_wp (by simpa [mayCrash, Bool.and_eq_false_iff, -Bool.and_eq_false_imp] using h)
  case cWrite => exact consoleWriteB_wp (by simpa [mayCrash, Bool.and_eq_false_iff, -Bool.and_eq_false_imp] using h)
  case mSum => exact sumB_wp (by simpa [mayCrash, Bool.and_eq_false_iff, -Bool.and_eq_false_imp] using h)
  case mProduct => exact productB_wp (by simpa [mayCrash, Bool.and_eq_false_iff, -Bool.and_eq_false_imp] using h)
  case mLRsh => exact twoInts_wp (by
    simp only [mayCrash, Bool.and_eq_false_iff, beq_eq_false_iff_ne] at h
    exact h.symm.imp_right fun h _ _ => by rw [lRsh]; exact shiftBy_ok h _ _)
  case mARsh => exact twoInts_wp (by
    simp only [mayCrash, Bool.and_eq_false_iff, beq_eq_false_iff_ne] at h
    exact h.symm.imp_right fun h _ _ => by rw [aRsh]; exact shiftBy_ok h _ _)
  case mLsh => exact twoInts_wp (by
    simp only [mayCrash, Bool.and_eq_false_iff, beq_eq_false_iff_ne] at h
    exact h.symm.imp_right fun h _ _ => by rw [lShift]; exact shiftBy_ok h _ _)
  case fsCp => exact twoPathsB_wp (.inl (by simpa [mayCrash] using h))
  case fsMv => exact twoPathsB_wp (.inr fun _ _ => wp_movePath trivial)
  case fsGlob => exact globB_wp (by simpa [mayCrash] using h)
  case fsTree => exact treeB_wp (by simpa [mayCrash] using h)
  case wJoiny => exact joinyB_wp (by simpa [mayCrash] using h)
  case other => simp [mayCrash] at h
  case and => exact andB_wp
  case or => exact orB_wp
  case not => exact notB_wp
  case pipe => exact pipeB_wp
  case to => exact toB_wp
  case vars => exact varsB_wp
  case unbind => exact unbindB_wp
  case exit_ => exact exitB_wp
  case cd => exact cdB_wp
  case lTail => exact tailB_wp
  case lHead => exact headB_wp
  case lChunk => exact chunkB_wp
  case lCons => exact consB_wp
  case lAppend => exact appendB_wp
  case lLen => exact listLenB_wp
  case lRev => exact revB_wp
  case lRange => exact rangeB_wp
  case lFoldl => exact foldlB_wp
  case lFoldr => exact foldrB_wp
  case lZip => exact zipB_wp
  case lUnzip => exact unzipB_wp
  case lTake => exact intListB_wp
  case lDrop => exact intListB_wp
  case lSplitAt => exact intListB_wp
  case fApply => exact applyB_wp
  case fCurry => exact curryB_wp
  case fMap => exact mapB_wp
  case fFilter => exact filterB_wp
  case fReduce => exact reduceB_wp
  case fConditional => exact conditionalB_wp
  case dFlatten => exact dFlattenB_wp
  case dItems => exact dItemsB_wp
  case dKeys => exact dKeysB_wp
  case dValues => exact dValuesB_wp
  case dInsert => exact dInsertB_wp
  case dRemove => exact dRemoveB_wp
  case dHas => exact dHasB_wp
  case dLen => exact dLenB_wp
  case dFromItems => exact dFromItemsB_wp
  case dUnion => exact dTwoB_wp
  case dIntersect => exact dTwoB_wp
  case dDifference => exact dTwoB_wp
  case sToString => exact toStringB_wp
  case sGetWidth => exact getWidthB_wp
  case sSplit2 => exact split2B_wp
  case sSplit => exact splitB_wp
  case sJoin => exact joinB_wp
  case sLines => exact onStr1_wp
  case sChars => exact charsB_wp
  case sWords => exact onStr1_wp
  case sParagraphs => exact onStr1_wp
  case sReplace => exact replaceB_wp
  case sStartsWith => exact strTestB_wp
  case sEndsWith => exact strTestB_wp
  case sContains => exact strTestB_wp
  case mIsOdd => exact parityB_wp
  case mIsEven => exact parityB_wp
  case mPow => exact powB_wp
  case gSetLevel => exact setLevelB_wp
  case gGetLevel => exact getLevelB_wp
  case gDisable => exact disableB_wp
  case gEnabled => exact enabledB_wp
  case gInfo => exact logB_wp
  case gWarn => exact logB_wp
  case gDebug => exact logB_wp
  case gError => exact logB_wp
  case gTrace => exact logB_wp
  case fsHead => exact headTailB_wp
  case fsTail => exact headTailB_wp
  case fsCanon => exact canonB_wp
  case fsMkdir => exact dirB_wp
  case fsRmdir => exact dirB_wp
  case fsRm => exact rmB_wp
  case fsLs => exact lsB_wp
  case fsExists => exact pathTestB_wp
  case fsIsDir => exact pathTestB_wp
  case fsIsFile => exact pathTestB_wp
  case fsRead => exact readB_wp
  case fsWrite => exact writeB_wp
  case fsAppend => exact fsAppendB_wp
  case pJson => exact jsonB_wp
  case pToml => exact tomlB_wp
  case yQuote => exact sysQuoteB_wp
  case yCd => exact sysCdB_wp
  case yCwd => exact sysCwdB_wp
  case yEnv => exact varsB_wp
  case ySet => exact sysSetB_wp
  case yUnset => exact sysUnsetB_wp
  case yDefined => exact sysDefinedB_wp
  case tStrip => exact stripB_wp
  case tWrap => exact wrapB_wp
  case tHref => exact hrefB_wp
  case rShuffle => exact shuffleB_wp
  case wCreate => exact createB_wp
  case wJoinx => exact joinxB_wp
  case mRound => exact roundB_wp
  case mFun => exact funB_wp
  case mFunD => exact funDB_wp
  case mLog => exact logFunB_wp
  case cWidth => exact sizeB_wp
  case cHeight => exact sizeB_wp
  case cTitle => exact titleB_wp
  case cClear => exact clearB_wp
  case cFlush => exact flushB_wp
  case cRaw => exact rawModeB_wp
  case cCooked => exact rawModeB_wp
  case cSeq => exact seqB_wp
  case cMoveTo => exact moveToB_wp
  case cMove => exact moveB_wp
  case cReadKey => exact readKeyB_wp
  case tSleep => exact sleepB_wp
  case tNow => exact nowB_wp
  case input => exact inputB_wp
  case print => exact wp_printLoop
  case debug => exact wp_printLoop
  case println => exact wp_printLoop
  case gEcho => exact wp_printLoop
  case cReadLine => exact readLineB_wp (fun _ h => h)
  case cReadPassword => exact readLineB_wp (fun _ h => h)
  case lList => trivial

theorem crashTo_wp {α : Type} (c : Int) (p : BProg α) : (crashTo c p).Wp fun _ => True := by
  induction p with
  | eval e k ih => exact fun r => ih r
  | evalIn env e k ih => exact fun r env => ih r env
  | getEnv k ih => exact fun env => ih env
  | define x v k ih => exact ih
  | undefine x k ih => exact ih
  | io op k ih => exact fun r _ => ih r
  | _ => trivial

theorem guarded_wp (c : Int) (id : BId) : (guarded c P L id args).Wp fun _ => True := by
  rw [guarded]
  split
  · exact crashTo_wp _ _
  · rename_i h
    exact stdB_wp (by simpa using h)

end

theorem crashTo_sim {W α : Type} {H : Host W} {c : Int} {ev ev' : Expr → M W Expr}
    (hev : ∀ e, M.Sim (.stop c) (ev e) (ev' e)) (p : BProg α) :
    M.Sim (.stop c) ((crashTo c p).run H ev) (p.run H ev') := by
  induction p with
  | panic => exact fun _ _ => .inl rfl
  | eval e k ih => exact ((hev e).catch_ (by simp)).bind fun r => ih r
  | evalIn env e k ih => exact ((hev e).withinTry (by simp) env).bind fun r => ih r.1 r.2
  | getEnv k ih => exact fun env w => ih env env w
  | define x v k ih => exact fun env w => ih (env.define x v) w
  | undefine x k ih => exact fun env w => ih (env.undefine x) w
  | io op k ih => exact fun env w => ih (H.io op w).1 env (H.io op w).2
  | _ => exact M.Sim.refl _ _

/-- Replacing the crashes of the table changes nothing else. -/
theorem guarded_sim {W : Type} {H : Host W} (c : Int) (P : Plat) (L : Lib) : ∀ n e,
    M.Sim (.stop c) (evalN P H (guarded c P L) n e) (evalN P H (stdB P L) n e)
  | 0, _ => M.Sim.refl _ _
  | n + 1, e => by
    refine evalD_sim (fun i a => ?_) _ e
    show M.Sim _ ((guarded c P L i a).run H _) _
    rw [guarded]
    split
    · exact crashTo_sim (guarded_sim c P L n) _
    · exact BProg.run_sim (by simp) (guarded_sim c P L n) _

end Dune
