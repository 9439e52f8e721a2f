import Verif.Proof.Monad
import Verif.Proof.Truth
import Verif.Spec.BigStep

/-! The evaluator and the inductive big-step semantics agree. -/

namespace Dune

open Spec

section

variable {W : Type} {P : Plat} {H : Host W} {B : BId → List Expr → M W Expr}

/-- Transport of a non-value outcome to another result type. -/
def Outcome.cast {α β : Type} : Outcome α → Outcome β
  | .ok _ => .panic
  | .err e => .err e
  | .panic => .panic
  | .exit c => .exit c
  | .noFuel => .noFuel

theorem bind_stop {α : Type} {m : M W Expr} {f : Expr → M W α} {env env' : Env} {w w' : W}
    {o : Outcome Expr} (h : m env w = (o, env', w')) (ho : ¬ IsValue o) :
    (m >>= f) env w = (o.cast, env', w') := by
  rw [M.bind_def, h]
  cases o with
  | ok a => exact absurd trivial ho
  | _ => rfl

theorem bind_stop' {m : M W Expr} {f : Expr → M W Expr} {env env' : Env} {w w' : W}
    {o : Outcome Expr} (h : m env w = (o, env', w')) (ho : ¬ IsValue o) :
    (m >>= f) env w = (o, env', w') := by
  rw [bind_stop h ho]
  cases o with
  | ok a => exact absurd trivial ho
  | _ => rfl

theorem bind_cast {α : Type} {m : M W α} {f : α → M W Expr} {env env' : Env} {w w' : W}
    {o : Outcome Expr} (h : m env w = (o.cast, env', w')) (ho : ¬ IsValue o) :
    (m >>= f) env w = (o, env', w') := by
  rw [M.bind_def, h]
  cases o with
  | ok a => exact absurd trivial ho
  | _ => rfl

theorem collectArgs_eq (ev : Expr → M W Expr) : ∀ args,
    collectArgs P ev args = (evalList ev args >>= fun vs => pure (argStrings P vs))
  | [] => rfl
  | a :: as => by
    simp only [collectArgs, evalList, collectArgs_eq ev as, bind_assoc, pure_bind]
    congr 1
    funext v
    congr 1
    funext vs
    simp only [argStrings, cmdArgsOf, List.flatMap_cons]
    congr 2
    congr 1
    funext e
    cases e <;> rfl

theorem evalMap_eq (ev : Expr → M W Expr) : ∀ es,
    evalMap ev es =
      (evalList ev (es.map Prod.snd) >>= fun vs => pure ((es.map Prod.fst).zip vs))
  | [] => rfl
  | (k, e) :: es => by
    simp only [evalMap, evalList, evalMap_eq ev es, bind_assoc, pure_bind, List.map_cons,
      List.zip_cons_cons]

theorem evalDo_eq (ev : Expr → M W Expr) (e : Expr) : ∀ es,
    evalDo ev (es ++ [e]) = (evalList ev es >>= fun _ => ev e)
  | [] => by simp [evalDo, evalList]
  | [f] => by simp [evalDo, evalList]
  | f :: g :: es => by
    have ih := evalDo_eq ev e (g :: es)
    simp only [List.cons_append, evalDo, evalList, bind_assoc, pure_bind] at ih ⊢
    rw [ih]

theorem exportBindings_eq (env : Env) : exportBindings P env.bindings = exported P env := by
  simp only [exported]
  generalize env.bindings = m
  induction m with
  | nil => rfl
  | cons p m ih =>
    obtain ⟨k, v⟩ := p
    simp only [exportBindings, List.map_cons, List.filter]
    by_cases h : utf8Len (display P v) ≤ 1024
    · simp [h, ih]
    · simp [h, ih]

theorem evalD_step {d : Nat} (h : d ≤ 800) (e : Expr) :
    evalD P H B (801 - d) e = evalStep P H B (evalD P H B (801 - (d + 1))) e := by
  have : 801 - d = (801 - (d + 1)) + 1 := by omega
  rw [this]
  rfl

theorem runProgram_eq {name : Str} {args : List Str} {envs : BMap Str} {s : Expr}
    {raw : List Expr} {env : Env} {w : W} {o : Outcome Expr}
    (h : ProgramResult name s raw (H.io (.status name env.getCwd args envs) w).1 o) :
    runProgram H name args envs s raw env w =
      (o, env, (H.io (.status name env.getCwd args envs) w).2) := by
  simp only [runProgram, M.getEnv_bind, M.io_bind]
  generalize hr : (H.io (.status name env.getCwd args envs) w).1 = r at h
  cases h with
  | notFound => rfl
  | denied => rfl
  | failed m => rfl
  | done h =>
    cases r with
    | err e => exact absurd rfl (h e)
    | _ => rfl

theorem programResult_exists (name : Str) (s : Expr) (raw : List Expr) (r : IORes) :
    ∃ o, ProgramResult name s raw r o := by
  cases r with
  | err e =>
    cases e with
    | notFound => exact ⟨_, .notFound⟩
    | permissionDenied => exact ⟨_, .denied⟩
    | other m => exact ⟨_, .failed m⟩
  | _ => exact ⟨_, .done (by intro e h; cases h)⟩

theorem applyValue_name {ev : Expr → M W Expr} {f g : Expr} {args : List Expr} {name : Str}
    (h : NameOf g name) :
    applyValue P H B ev f args g = applyName P H ev name (.apply f args) args := by
  cases h <;> rfl

theorem applyValue_cannot {ev : Expr → M W Expr} {f g : Expr} {args : List Expr}
    (h : NotApplicable g) : applyValue P H B ev f args g = M.throw (.cannotApply f args) := by
  cases g <;> first | rfl | exact absurd h id

theorem applyName_apply (ev : Expr → M W Expr) (name : Str) (s : Expr) (args : List Expr)
    (env : Env) (w : W) : applyName P H ev name s args env w =
      (evalList ev args >>= fun vs =>
        runProgram H name (argStrings P vs) (exported P env) s args) env w := by
  simp only [applyName, M.getEnv_bind, collectArgs_eq, bind_assoc, pure_bind, exportBindings_eq]

mutual

theorem ev_sound {d : Nat} {env env' : Env} {w w' : W} {e : Expr} {o : Outcome Expr} :
    Ev P H B d env w e o env' w' → evalD P H B (801 - d) e env w = (o, env', w')
  | .limit h => by
    have : 801 - d = 0 := by omega
    rw [this]; rfl
  | .self_ (e := e) h hs => by
    rw [evalD_step h]
    cases e <;> first | rfl | exact absurd hs id
  | .quote h => by rw [evalD_step h]; rfl
  | .group h h1 => by rw [evalD_step h]; exact ev_sound h1
  | .bound h h1 => by
    rw [evalD_step h]
    simp only [evalStep, M.getEnv_bind, h1, M.pure_apply]
  | .free h h1 => by
    rw [evalD_step h]
    simp only [evalStep, M.getEnv_bind, h1, M.pure_apply]
  | .assign h h1 => by
    rw [evalD_step h]
    simp only [evalStep, M.bind_ok (ev_sound h1), M.define_bind, M.pure_apply]
  | .assignStop h h1 hs => by
    rw [evalD_step h]
    exact bind_stop' (ev_sound h1) hs
  | .for_ h h1 h2 => by
    rw [evalD_step h]
    simp only [evalStep, M.bind_ok (ev_sound h1), M.bind_ok (for_sound h2), M.pure_apply]
  | .forBody h h1 h2 => by
    rw [evalD_step h]
    simp only [evalStep, M.bind_ok (ev_sound h1)]
    exact bind_cast (forStop_sound h2).1 (forStop_sound h2).2
  | .forNonList (v := v) h h1 hv => by
    rw [evalD_step h]
    simp only [evalStep, M.bind_ok (ev_sound h1)]
    cases v with
    | list items => exact absurd rfl (hv items)
    | _ => rfl
  | .forStop h h1 hs => by
    rw [evalD_step h]
    exact bind_stop' (ev_sound h1) hs
  | .iteTrue h h1 ht h2 => by
    rw [evalD_step h]
    simp only [evalStep, M.bind_ok (ev_sound h1), (isTruthy_iff _).2 ht, if_true]
    exact ev_sound h2
  | .iteFalse h h1 ht h2 => by
    rw [evalD_step h]
    simp only [evalStep, M.bind_ok (ev_sound h1), (isTruthy_false_iff _).2 ht, Bool.false_eq_true, if_false]
    exact ev_sound h2
  | .iteStop h h1 hs => by
    rw [evalD_step h]
    exact bind_stop' (ev_sound h1) hs
  | .lambda h => by rw [evalD_step h]; rfl
  | .list h h1 => by
    rw [evalD_step h]
    simp only [evalStep, M.bind_ok (all_sound h1), M.pure_apply]
  | .listStop h h1 => by
    rw [evalD_step h]
    exact bind_cast (allStop_sound h1).1 (allStop_sound h1).2
  | .map h h1 => by
    rw [evalD_step h]
    simp only [evalStep, evalMap_eq, bind_assoc, pure_bind, M.bind_ok (all_sound h1),
      M.pure_apply]
  | .mapStop h h1 => by
    rw [evalD_step h]
    simp only [evalStep, evalMap_eq, bind_assoc, pure_bind]
    exact bind_cast (allStop_sound h1).1 (allStop_sound h1).2
  | .doNil h => by rw [evalD_step h]; rfl
  | .do_ h h1 h2 => by
    rw [evalD_step h]
    simp only [evalStep, evalDo_eq, M.bind_ok (all_sound h1)]
    exact ev_sound h2
  | .doStop h h1 => by
    rw [evalD_step h]
    simp only [evalStep, evalDo_eq]
    exact bind_cast (allStop_sound h1).1 (allStop_sound h1).2
  | .applyStop h h1 hs => by
    rw [evalD_step h]
    exact bind_stop' (ev_sound h1) hs
  | .command h h1 hn h2 hr => by
    rw [evalD_step h]
    simp only [evalStep, M.bind_ok (ev_sound h1), applyValue_name hn, applyName_apply,
      M.bind_ok (all_sound h2)]
    exact runProgram_eq hr
  | .commandStop h h1 hn h2 => by
    rw [evalD_step h]
    simp only [evalStep, M.bind_ok (ev_sound h1), applyValue_name hn, applyName_apply]
    exact bind_cast (allStop_sound h2).1 (allStop_sound h2).2
  | .cannot h h1 hn => by
    rw [evalD_step h]
    simp only [evalStep, M.bind_ok (ev_sound h1), applyValue_cannot hn, M.throw_apply]
  | .lambdaNoArg h h1 => by
    rw [evalD_step h]
    simp only [evalStep, M.bind_ok (ev_sound h1), applyValue, M.throw_apply]
  | .macroNoArg h h1 => by
    rw [evalD_step h]
    simp only [evalStep, M.bind_ok (ev_sound h1), applyValue, M.throw_apply]
  | .lambdaArg (args := args) h h1 h2 hs => by
    rw [evalD_step h]
    simp only [evalStep, M.bind_ok (ev_sound h1)]
    cases args with
    | nil =>
      simp only [applyValue, M.getEnv_bind]
      exact bind_stop' (ev_sound h2) hs
    | cons b rest =>
      simp only [applyValue, M.getEnv_bind]
      exact bind_stop' (ev_sound h2) hs
  | .call h h1 h2 h3 => by
    rw [evalD_step h]
    simp only [evalStep, M.bind_ok (ev_sound h1), applyValue, M.getEnv_bind,
      M.bind_ok (ev_sound h2), M.within_apply, ev_sound h3]
  | .callMore h h1 h2 h3 h4 => by
    rw [evalD_step h]
    simp only [evalStep, M.bind_ok (ev_sound h1), applyValue, M.getEnv_bind,
      M.bind_ok (ev_sound h2)]
    rw [M.bind_ok (by rw [M.within_apply, ev_sound h3])]
    exact ev_sound h4
  | .callMoreStop h h1 h2 h3 hs => by
    rw [evalD_step h]
    simp only [evalStep, M.bind_ok (ev_sound h1), applyValue, M.getEnv_bind,
      M.bind_ok (ev_sound h2)]
    exact bind_stop' (by rw [M.within_apply, ev_sound h3]) hs
  | .macroArg (args := args) h h1 h2 hs => by
    rw [evalD_step h]
    simp only [evalStep, M.bind_ok (ev_sound h1)]
    cases args with
    | nil => exact bind_stop' (ev_sound h2) hs
    | cons b rest => exact bind_stop' (ev_sound h2) hs
  | .expand h h1 h2 h3 => by
    rw [evalD_step h]
    simp only [evalStep, M.bind_ok (ev_sound h1), applyValue, M.bind_ok (ev_sound h2),
      M.define_bind]
    exact ev_sound h3
  | .expandMore h h1 h2 h3 h4 => by
    rw [evalD_step h]
    simp only [evalStep, M.bind_ok (ev_sound h1), applyValue, M.bind_ok (ev_sound h2),
      M.define_bind, M.bind_ok (ev_sound h3)]
    exact ev_sound h4
  | .expandMoreStop h h1 h2 h3 hs => by
    rw [evalD_step h]
    simp only [evalStep, M.bind_ok (ev_sound h1), applyValue, M.bind_ok (ev_sound h2),
      M.define_bind]
    exact bind_stop' (ev_sound h3) hs
  | .builtin h h1 h2 => by
    rw [evalD_step h]
    simp only [evalStep, M.bind_ok (ev_sound h1), applyValue]
    exact h2

theorem all_sound {d : Nat} {env env' : Env} {w w' : W} {es vs : List Expr} :
    All P H B d env w es vs env' w' →
      evalList (evalD P H B (801 - d)) es env w = (.ok vs, env', w')
  | .nil => rfl
  | .cons h1 h2 => by
    simp only [evalList, M.bind_ok (ev_sound h1), M.bind_ok (all_sound h2), M.pure_apply]

theorem allStop_sound {d : Nat} {env env' : Env} {w w' : W} {es : List Expr} {o : Outcome Expr} :
    AllStop P H B d env w es o env' w' →
      evalList (evalD P H B (801 - d)) es env w = (o.cast, env', w') ∧ ¬ IsValue o
  | .here h1 hs => ⟨bind_stop (ev_sound h1) hs, hs⟩
  | .there h1 h2 => by
    refine ⟨?_, (allStop_sound h2).2⟩
    simp only [evalList, M.bind_ok (ev_sound h1)]
    rw [M.bind_def, (allStop_sound h2).1]
    have := (allStop_sound h2).2
    cases o with
    | ok a => exact absurd trivial this
    | _ => rfl

theorem for_sound {d : Nat} {env env' : Env} {w w' : W} {n : Str} {body : Expr}
    {is vs : List Expr} : For P H B d env w n body is vs env' w' →
      forLoop (evalD P H B (801 - d)) n body is env w = (.ok vs, env', w')
  | .nil => rfl
  | .cons h1 h2 => by
    simp only [forLoop, M.define_bind, M.bind_ok (ev_sound h1), M.bind_ok (for_sound h2),
      M.pure_apply]

theorem forStop_sound {d : Nat} {env env' : Env} {w w' : W} {n : Str} {body : Expr}
    {is : List Expr} {o : Outcome Expr} : ForStop P H B d env w n body is o env' w' →
      forLoop (evalD P H B (801 - d)) n body is env w = (o.cast, env', w') ∧ ¬ IsValue o
  | .here h1 hs => by
    refine ⟨?_, hs⟩
    simp only [forLoop, M.define_bind]
    exact bind_stop (ev_sound h1) hs
  | .there h1 h2 => by
    refine ⟨?_, (forStop_sound h2).2⟩
    simp only [forLoop, M.define_bind, M.bind_ok (ev_sound h1)]
    rw [M.bind_def, (forStop_sound h2).1]
    have := (forStop_sound h2).2
    cases o with
    | ok a => exact absurd trivial this
    | _ => rfl

end

/-! ### Completeness -/

theorem list_complete {d : Nat}
    (ih : ∀ env w e, ∃ o env' w', Ev P H B d env w e o env' w') :
    ∀ es env w, (∃ vs env' w', All P H B d env w es vs env' w') ∨
      (∃ o env' w', AllStop P H B d env w es o env' w')
  | [], env, w => Or.inl ⟨[], env, w, .nil⟩
  | e :: es, env, w => by
    obtain ⟨o, env1, w1, h1⟩ := ih env w e
    cases o with
    | ok v =>
      rcases list_complete ih es env1 w1 with ⟨vs, env', w', h2⟩ | ⟨o, env', w', h2⟩
      · exact Or.inl ⟨_, _, _, .cons h1 h2⟩
      · exact Or.inr ⟨_, _, _, .there h1 h2⟩
    | _ => exact Or.inr ⟨_, _, _, .here h1 id⟩

theorem for_complete {d : Nat} (n : Str) (body : Expr)
    (ih : ∀ env w e, ∃ o env' w', Ev P H B d env w e o env' w') :
    ∀ is env w, (∃ vs env' w', For P H B d env w n body is vs env' w') ∨
      (∃ o env' w', ForStop P H B d env w n body is o env' w')
  | [], env, w => Or.inl ⟨[], env, w, .nil⟩
  | i :: is, env, w => by
    obtain ⟨o, env1, w1, h1⟩ := ih (env.define n i) w body
    cases o with
    | ok v =>
      rcases for_complete n body ih is env1 w1 with ⟨vs, env', w', h2⟩ | ⟨o, env', w', h2⟩
      · exact Or.inl ⟨_, _, _, .cons h1 h2⟩
      · exact Or.inr ⟨_, _, _, .there h1 h2⟩
    | _ => exact Or.inr ⟨_, _, _, .here h1 id⟩

theorem apply_complete {d : Nat} (hd : d ≤ 800)
    (ih : ∀ env w e, ∃ o env' w', Ev P H B (d + 1) env w e o env' w')
    (env : Env) (w : W) (f : Expr) (args : List Expr) :
    ∃ o env' w', Ev P H B d env w (.apply f args) o env' w' := by
  obtain ⟨o, env1, w1, h1⟩ := ih env w f
  have name_case : ∀ g name, NameOf g name → Ev P H B (d + 1) env w f (.ok g) env1 w1 →
      ∃ o env' w', Ev P H B d env w (.apply f args) o env' w' := by
    intro g name hn h1
    rcases list_complete ih args env1 w1 with ⟨vs, env', w', h2⟩ | ⟨o, env', w', h2⟩
    · obtain ⟨o, ho⟩ := programResult_exists name (.apply f args) args
        (H.io (.status name env'.getCwd (argStrings P vs) (exported P env1)) w').1
      exact ⟨_, _, _, .command hd h1 hn h2 ho⟩
    · exact ⟨_, _, _, .commandStop hd h1 hn h2⟩
  cases o with
  | ok g =>
    cases g with
    | symbol n => exact name_case _ n (.symbol n) h1
    | str n => exact name_case _ n (.str n) h1
    | builtin n i h => exact ⟨_, _, _, .builtin hd h1 rfl⟩
    | lambda p body bs ps =>
      match args with
      | [] => exact ⟨_, _, _, .lambdaNoArg hd h1⟩
      | a :: rest =>
        obtain ⟨o2, env2, w2, h2⟩ := ih env1 w1 a
        cases o2 with
        | ok v =>
          obtain ⟨o3, env3, w3, h3⟩ := ih (callEnv p ⟨bs, ps⟩ env1.getCwd v) w2 body
          cases rest with
          | nil => exact ⟨_, _, _, .call hd h1 h2 h3⟩
          | cons b rest =>
            cases o3 with
            | ok g =>
              obtain ⟨o4, env4, w4, h4⟩ := ih env2 w3 (.apply g (b :: rest))
              exact ⟨_, _, _, .callMore hd h1 h2 h3 h4⟩
            | _ => exact ⟨_, _, _, .callMoreStop hd h1 h2 h3 id⟩
        | _ => exact ⟨_, _, _, .lambdaArg hd h1 h2 id⟩
    | macro_ p body =>
      match args with
      | [] => exact ⟨_, _, _, .macroNoArg hd h1⟩
      | a :: rest =>
        obtain ⟨o2, env2, w2, h2⟩ := ih env1 w1 a
        cases o2 with
        | ok v =>
          obtain ⟨o3, env3, w3, h3⟩ := ih (env2.define p v) w2 body
          cases rest with
          | nil => exact ⟨_, _, _, .expand hd h1 h2 h3⟩
          | cons b rest =>
            cases o3 with
            | ok g =>
              obtain ⟨o4, env4, w4, h4⟩ := ih env3 w3 (.apply g (b :: rest))
              exact ⟨_, _, _, .expandMore hd h1 h2 h3 h4⟩
            | _ => exact ⟨_, _, _, .expandMoreStop hd h1 h2 h3 id⟩
        | _ => exact ⟨_, _, _, .macroArg hd h1 h2 id⟩
    | _ => exact ⟨_, _, _, .cannot hd h1 trivial⟩
  | _ => exact ⟨_, _, _, .applyStop hd h1 id⟩

theorem step_complete {d : Nat} (hd : d ≤ 800)
    (ih : ∀ env w e, ∃ o env' w', Ev P H B (d + 1) env w e o env' w')
    (env : Env) (w : W) (e : Expr) : ∃ o env' w', Ev P H B d env w e o env' w' := by
  cases e with
  | quote e => exact ⟨_, _, _, .quote hd⟩
  | group e =>
    obtain ⟨o, env', w', h⟩ := ih env w e
    exact ⟨_, _, _, .group hd h⟩
  | symbol n =>
    cases hn : env.get n with
    | none => exact ⟨_, _, _, .free hd hn⟩
    | some v => exact ⟨_, _, _, .bound hd hn⟩
  | assign n e =>
    obtain ⟨o, env', w', h⟩ := ih env w e
    cases o with
    | ok v => exact ⟨_, _, _, .assign hd h⟩
    | _ => exact ⟨_, _, _, .assignStop hd h id⟩
  | for_ n l body =>
    obtain ⟨o, env1, w1, h⟩ := ih env w l
    cases o with
    | ok v =>
      cases v with
      | list items =>
        rcases for_complete n body ih items env1 w1 with ⟨vs, env', w', h2⟩ | ⟨o, env', w', h2⟩
        · exact ⟨_, _, _, .for_ hd h h2⟩
        · exact ⟨_, _, _, .forBody hd h h2⟩
      | _ => exact ⟨_, _, _, .forNonList hd h (by intro i hi; cases hi)⟩
    | _ => exact ⟨_, _, _, .forStop hd h id⟩
  | ite c t e =>
    obtain ⟨o, env1, w1, h⟩ := ih env w c
    cases o with
    | ok v =>
      cases hv : v.isTruthy with
      | true =>
        obtain ⟨o, env', w', h2⟩ := ih env1 w1 t
        exact ⟨_, _, _, .iteTrue hd h ((isTruthy_iff v).1 hv) h2⟩
      | false =>
        obtain ⟨o, env', w', h2⟩ := ih env1 w1 e
        exact ⟨_, _, _, .iteFalse hd h ((isTruthy_false_iff v).1 hv) h2⟩
    | _ => exact ⟨_, _, _, .iteStop hd h id⟩
  | apply f args => exact apply_complete hd ih env w f args
  | lambda p body bs ps => exact ⟨_, _, _, .lambda hd⟩
  | list es =>
    rcases list_complete ih es env w with ⟨vs, env', w', h⟩ | ⟨o, env', w', h⟩
    · exact ⟨_, _, _, .list hd h⟩
    · exact ⟨_, _, _, .listStop hd h⟩
  | map es =>
    rcases list_complete ih (es.map Prod.snd) env w with ⟨vs, env', w', h⟩ | ⟨o, env', w', h⟩
    · exact ⟨_, _, _, .map hd h⟩
    · exact ⟨_, _, _, .mapStop hd h⟩
  | do_ es =>
    rcases List.eq_nil_or_concat es with rfl | ⟨es, e, rfl⟩
    · exact ⟨_, _, _, .doNil hd⟩
    · rw [List.concat_eq_append]
      rcases list_complete ih es env w with ⟨vs, env1, w1, h⟩ | ⟨o, env', w', h⟩
      · obtain ⟨o, env', w', h2⟩ := ih env1 w1 e
        exact ⟨_, _, _, .do_ hd h h2⟩
      · exact ⟨_, _, _, .doStop hd h⟩
  | _ => exact ⟨_, _, _, .self_ hd trivial⟩

theorem ev_complete (d : Nat) : ∀ env w e, ∃ o env' w', Ev P H B d env w e o env' w' := by
  by_cases hd : 800 < d
  · exact fun env w e => ⟨_, _, _, .limit hd⟩
  · obtain ⟨n, hn⟩ : ∃ n, d + n = 801 := ⟨801 - d, by omega⟩
    clear hd
    induction n generalizing d with
    | zero => exact fun env w e => ⟨_, _, _, .limit (by omega)⟩
    | succ n ih => exact step_complete (by omega) (ih (d + 1) (by omega))

end

end Dune
