import Verif.Spec.Crash
import Verif.Proof.Monad

/-! Builtin bodies without crashes: a weakest precondition, and evaluation with such bodies. -/

namespace Dune

open M Spec

namespace BProg

variable {α β : Type}

/-- No answer the outside world may give leads to a panic, and every value returned satisfies `Q`. -/
def Wp : BProg α → (α → Prop) → Prop
  | .ret a, Q => Q a
  | .err _, _ => True
  | .panic, _ => False
  | .exit _, _ => True
  | .eval _ k, Q => ∀ r, Wp (k r) Q
  | .evalIn _ _ k, Q => ∀ r env, Wp (k r env) Q
  | .getEnv k, Q => ∀ env, Wp (k env) Q
  | .define _ _ k, Q => Wp k Q
  | .undefine _ k, Q => Wp k Q
  | .io op k, Q => ∀ r, Answers op r → Wp (k r) Q

theorem wp_bind (p : BProg α) (f : α → BProg β) (Q : β → Prop) :
    Wp (p >>= f) Q ↔ Wp p fun a => Wp (f a) Q := by
  show Wp (BProg.bind p f) Q ↔ _
  induction p with
  | eval e k ih => exact forall_congr' fun r => ih r
  | evalIn env e k ih => exact forall_congr' fun r => forall_congr' fun env => ih r env
  | getEnv k ih => exact forall_congr' fun r => ih r
  | define x v k ih => exact ih
  | undefine x k ih => exact ih
  | io op k ih => exact forall_congr' fun r => forall_congr' fun _ => ih r
  | _ => exact Iff.rfl

theorem Wp.mono {p : BProg α} {Q R : α → Prop} (h : Wp p Q) (hq : ∀ a, Q a → R a) : Wp p R := by
  induction p with
  | ret a => exact hq a h
  | err => trivial
  | panic => exact h
  | exit => trivial
  | eval e k ih => exact fun r => ih r (h r)
  | evalIn env e k ih => exact fun r env => ih r env (h r env)
  | getEnv k ih => exact fun r => ih r (h r)
  | define x v k ih => exact ih h
  | undefine x k ih => exact ih h
  | io op k ih => exact fun r hr => ih r (h r hr)

theorem wp_ret (a : α) (Q : α → Prop) : Wp (.ret a) Q ↔ Q a := Iff.rfl
theorem wp_pure (a : α) (Q : α → Prop) : Wp (Pure.pure a) Q ↔ Q a := Iff.rfl
theorem wp_err (e : Error) (Q : α → Prop) : Wp (.err e) Q ↔ True := Iff.rfl
theorem wp_fail (m : Str) (Q : α → Prop) : Wp (fail m) Q ↔ True := Iff.rfl
theorem wp_exit (c : Int) (Q : α → Prop) : Wp (.exit c) Q ↔ True := Iff.rfl
theorem wp_panic (Q : α → Prop) : Wp .panic Q ↔ False := Iff.rfl
theorem wp_ev (e : Expr) (Q : Expr → Prop) (h : ∀ v, Q v) : Wp (ev e) Q := by
  intro r
  cases r with
  | ok v => exact h v
  | error e => trivial
theorem wp_evIn (env : Env) (e : Expr) (Q : Expr → Prop) (h : ∀ v, Q v) : Wp (evIn env e) Q := by
  intro r _
  cases r with
  | ok v => exact h v
  | error e => trivial
theorem wp_evTry (e : Expr) (Q : Except Error Expr → Prop) : Wp (evTry e) Q ↔ ∀ r, Q r := Iff.rfl
theorem wp_env (Q : Env → Prop) : Wp env Q ↔ ∀ e, Q e := Iff.rfl
theorem wp_def (x : Str) (v : Expr) (Q : Unit → Prop) : Wp (def_ x v) Q ↔ Q () := Iff.rfl
theorem wp_undef (x : Str) (Q : Unit → Prop) : Wp (undef x) Q ↔ Q () := Iff.rfl
theorem wp_ask (op : IOp) (Q : IORes → Prop) : Wp (ask op) Q ↔ ∀ r, Answers op r → Q r := Iff.rfl

end BProg

/-! ### Evaluation -/

section

variable {W : Type} {P : Plat} {H : Host W} {α β : Type}

/-- No run panics. -/
def NoPanic (m : M W α) : Prop := ∀ env w, (m env w).1 ≠ .panic

theorem NoPanic.pure (a : α) : NoPanic (Pure.pure a : M W α) := fun _ _ => by simp
theorem NoPanic.throw (e : Error) : NoPanic (M.throw e : M W α) := fun _ _ => by simp
theorem NoPanic.getEnv : NoPanic (M.getEnv : M W Env) := fun _ _ => by simp
theorem NoPanic.define (x : Str) (v : Expr) : NoPanic (M.define x v : M W Unit) := fun _ _ => by simp
theorem NoPanic.io (op : IOp) : NoPanic (M.io H op) := fun _ _ => by simp

theorem NoPanic.bind {m : M W α} {f : α → M W β} (hm : NoPanic m) (hf : ∀ a, NoPanic (f a)) :
    NoPanic (m >>= f) := by
  intro env w
  have h := hm env w
  rw [M.bind_def]
  rcases hmm : m env w with ⟨o, env1, w1⟩
  rw [hmm] at h
  cases o with
  | ok a => exact hf a env1 w1
  | panic => exact absurd rfl h
  | _ => simp

theorem NoPanic.within {m : M W α} (hm : NoPanic m) (env' : Env) : NoPanic (M.within m env') :=
  fun _ w => hm env' w

theorem NoPanic.catch_ {m : M W α} (hm : NoPanic m) : NoPanic (M.catch_ m) := by
  intro env w
  have h := hm env w
  simp only [M.catch_]
  rcases hmm : m env w with ⟨o, env1, w1⟩
  rw [hmm] at h
  cases o <;> simp at h ⊢

theorem NoPanic.withinTry {m : M W α} (hm : NoPanic m) (env' : Env) :
    NoPanic (M.withinTry m env') := by
  intro env w
  have h := hm env' w
  simp only [M.withinTry]
  rcases hmm : m env' w with ⟨o, env1, w1⟩
  rw [hmm] at h
  cases o <;> simp at h ⊢

theorem collectArgs_safe {ev : Expr → M W Expr} (hev : ∀ e, NoPanic (ev e)) :
    ∀ args, NoPanic (collectArgs P ev args)
  | [] => NoPanic.pure _
  | a :: as => (hev a).bind fun _ => (collectArgs_safe hev as).bind fun _ => NoPanic.pure _

theorem evalList_safe {ev : Expr → M W Expr} (hev : ∀ e, NoPanic (ev e)) :
    ∀ es, NoPanic (evalList ev es)
  | [] => NoPanic.pure _
  | e :: es => (hev e).bind fun _ => (evalList_safe hev es).bind fun _ => NoPanic.pure _

theorem evalMap_safe {ev : Expr → M W Expr} (hev : ∀ e, NoPanic (ev e)) :
    ∀ es, NoPanic (evalMap ev es)
  | [] => NoPanic.pure _
  | (_, e) :: es => (hev e).bind fun _ => (evalMap_safe hev es).bind fun _ => NoPanic.pure _

theorem forLoop_safe {ev : Expr → M W Expr} (hev : ∀ e, NoPanic (ev e)) (x : Str) (body : Expr) :
    ∀ es, NoPanic (forLoop ev x body es)
  | [] => NoPanic.pure _
  | _ :: es => (NoPanic.define _ _).bind fun _ => (hev body).bind fun _ =>
      (forLoop_safe hev x body es).bind fun _ => NoPanic.pure _

theorem evalDo_safe {ev : Expr → M W Expr} (hev : ∀ e, NoPanic (ev e)) :
    ∀ es, NoPanic (evalDo ev es)
  | [] => NoPanic.pure _
  | [e] => hev e
  | e :: f :: es => (hev e).bind fun _ => evalDo_safe hev (f :: es)

theorem applyName_safe {ev : Expr → M W Expr} (hev : ∀ e, NoPanic (ev e)) (name : Str) (s : Expr)
    (args : List Expr) : NoPanic (applyName P H ev name s args) := by
  refine NoPanic.getEnv.bind fun _ => (collectArgs_safe hev args).bind fun _ =>
    NoPanic.getEnv.bind fun env => (NoPanic.io _).bind fun r => ?_
  cases r with
  | err e => cases e <;> exact NoPanic.throw _
  | _ => exact NoPanic.pure _

theorem applyValue_safe {ev : Expr → M W Expr} {B : BId → List Expr → M W Expr}
    (hev : ∀ e, NoPanic (ev e)) (hB : ∀ i a, NoPanic (B i a)) (f : Expr) (args : List Expr)
    (g : Expr) : NoPanic (applyValue P H B ev f args g) := by
  cases g with
  | symbol n => exact applyName_safe hev _ _ _
  | str n => exact applyName_safe hev _ _ _
  | builtin n i h => exact hB i args
  | lambda p body bs ps =>
    match args with
    | [] => exact NoPanic.throw _
    | [a] => exact NoPanic.getEnv.bind fun _ => (hev a).bind fun _ => (hev body).within _
    | a :: c :: rest =>
      exact NoPanic.getEnv.bind fun _ => (hev a).bind fun _ =>
        ((hev body).within _).bind fun _ => hev _
  | macro_ p body =>
    match args with
    | [] => exact NoPanic.throw _
    | [a] => exact (hev a).bind fun _ => (NoPanic.define _ _).bind fun _ => hev body
    | a :: c :: rest =>
      exact (hev a).bind fun _ => (NoPanic.define _ _).bind fun _ => (hev body).bind fun _ => hev _
  | _ => exact NoPanic.throw _

theorem evalStep_safe {ev : Expr → M W Expr} {B : BId → List Expr → M W Expr}
    (hev : ∀ e, NoPanic (ev e)) (hB : ∀ i a, NoPanic (B i a)) (e : Expr) :
    NoPanic (evalStep P H B ev e) := by
  cases e with
  | group e => exact hev e
  | symbol n =>
    refine NoPanic.getEnv.bind fun env => ?_
    cases env.get n <;> exact NoPanic.pure _
  | assign n e => exact (hev e).bind fun _ => (NoPanic.define _ _).bind fun _ => NoPanic.pure _
  | for_ n l body =>
    refine (hev l).bind fun v => ?_
    cases v with
    | list items => exact (forLoop_safe hev n body items).bind fun _ => NoPanic.pure _
    | _ => exact NoPanic.throw _
  | ite c t e =>
    refine (hev c).bind fun v => ?_
    cases v.isTruthy
    · exact hev e
    · exact hev t
  | apply f args => exact (hev f).bind fun g => applyValue_safe hev hB f args g
  | lambda p b bs ps => exact NoPanic.getEnv.bind fun _ => NoPanic.pure _
  | list es => exact (evalList_safe hev es).bind fun _ => NoPanic.pure _
  | map es => exact (evalMap_safe hev es).bind fun _ => NoPanic.pure _
  | do_ es => exact evalDo_safe hev es
  | _ => exact NoPanic.pure _

theorem evalD_safe {B : BId → List Expr → M W Expr} (hB : ∀ i a, NoPanic (B i a)) :
    ∀ k e, NoPanic (evalD P H B k e)
  | 0, _ => NoPanic.throw _
  | k + 1, e => evalStep_safe (evalD_safe hB k) hB e

theorem BProg.run_safe {ev : Expr → M W Expr} (hH : Works H) (hev : ∀ e, NoPanic (ev e))
    {p : BProg α} {Q : α → Prop} (h : p.Wp Q) : NoPanic (p.run H ev) := by
  induction p with
  | ret a => exact NoPanic.pure a
  | err e => exact NoPanic.throw e
  | panic => exact absurd h id
  | exit c => exact fun _ _ => by simp [BProg.run]
  | eval e k ih => exact ((hev e).catch_).bind fun r => ih r (h r)
  | evalIn env e k ih => exact ((hev e).withinTry env).bind fun r => ih r.1 r.2 (h r.1 r.2)
  | getEnv k ih => exact fun env w => ih env (h env) env w
  | define x v k ih => exact fun env w => ih h (env.define x v) w
  | undefine x k ih => exact fun env w => ih h (env.undefine x) w
  | io op k ih =>
    exact fun env w => ih (H.io op w).1 (h (H.io op w).1 (hH op w)) env (H.io op w).2

theorem evalN_safe {bodies : BId → List Expr → BProg Expr} (hH : Works H)
    (hb : ∀ i a, (bodies i a).Wp fun _ => True) : ∀ n e, NoPanic (evalN P H bodies n e)
  | 0, e => evalD_safe (fun _ _ _ _ => by simp) _ e
  | n + 1, e => evalD_safe (fun i a => BProg.run_safe hH (evalN_safe hH hb n) (hb i a)) _ e

end

end Dune
