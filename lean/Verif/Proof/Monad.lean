import Verif.Model.Eval

/-! The monads of the model: laws, simulation, and preservation of invariants. -/

namespace Dune

namespace M

variable {W α β γ : Type}

@[simp] theorem pure_apply (a : α) (env : Env) (w : W) :
    (Pure.pure a : M W α) env w = (.ok a, env, w) := rfl

theorem bind_ok {m : M W α} {f : α → M W β} {env env' : Env} {w w' : W} {a : α}
    (h : m env w = (.ok a, env', w')) : (m >>= f) env w = f a env' w' := by
  show M.bind m f env w = _
  simp only [M.bind, h]

theorem bind_err {m : M W α} {f : α → M W β} {env env' : Env} {w w' : W} {e : Error}
    (h : m env w = (.err e, env', w')) : (m >>= f) env w = (.err e, env', w') := by
  show M.bind m f env w = _
  simp only [M.bind, h]

theorem bind_panic {m : M W α} {f : α → M W β} {env env' : Env} {w w' : W}
    (h : m env w = (.panic, env', w')) : (m >>= f) env w = (.panic, env', w') := by
  show M.bind m f env w = _
  simp only [M.bind, h]

theorem bind_exit {m : M W α} {f : α → M W β} {env env' : Env} {w w' : W} {c : Int}
    (h : m env w = (.exit c, env', w')) : (m >>= f) env w = (.exit c, env', w') := by
  show M.bind m f env w = _
  simp only [M.bind, h]

theorem bind_noFuel {m : M W α} {f : α → M W β} {env env' : Env} {w w' : W}
    (h : m env w = (.noFuel, env', w')) : (m >>= f) env w = (.noFuel, env', w') := by
  show M.bind m f env w = _
  simp only [M.bind, h]

theorem bind_def (m : M W α) (f : α → M W β) (env : Env) (w : W) :
    (m >>= f) env w = match m env w with
      | (.ok a, env', w') => f a env' w'
      | (.err e, env', w') => (.err e, env', w')
      | (.panic, env', w') => (.panic, env', w')
      | (.exit c, env', w') => (.exit c, env', w')
      | (.noFuel, env', w') => (.noFuel, env', w') := rfl

/-- What a successful sequence did. -/
theorem bind_eq_ok {m : M W α} {f : α → M W β} {env env' : Env} {w w' : W} {b : β}
    (h : (m >>= f) env w = (.ok b, env', w')) :
    ∃ a env1 w1, m env w = (.ok a, env1, w1) ∧ f a env1 w1 = (.ok b, env', w') := by
  rw [bind_def] at h
  rcases hm : m env w with ⟨o, env1, w1⟩
  rw [hm] at h
  cases o with
  | ok a => exact ⟨a, env1, w1, rfl, h⟩
  | err e => simp at h
  | panic => simp at h
  | exit c => simp at h
  | noFuel => simp at h

@[simp] theorem throw_apply (e : Error) (env : Env) (w : W) :
    (M.throw e : M W α) env w = (.err e, env, w) := rfl
@[simp] theorem lift_apply (o : Outcome α) (env : Env) (w : W) :
    (M.lift o : M W α) env w = (o, env, w) := rfl
@[simp] theorem getEnv_apply (env : Env) (w : W) :
    (M.getEnv : M W Env) env w = (.ok env, env, w) := rfl
@[simp] theorem define_apply (x : Str) (v : Expr) (env : Env) (w : W) :
    (M.define x v : M W Unit) env w = (.ok (), env.define x v, w) := rfl
@[simp] theorem io_apply (H : Host W) (op : IOp) (env : Env) (w : W) :
    (M.io H op : M W IORes) env w = (.ok (H.io op w).1, env, (H.io op w).2) := rfl
@[simp] theorem within_apply (m : M W α) (env' env : Env) (w : W) :
    (M.within m env') env w = ((m env' w).1, env, (m env' w).2.2) := rfl

theorem pure_bind' (a : α) (f : α → M W β) : (Pure.pure a >>= f : M W β) = f a := rfl

@[simp] theorem getEnv_bind (f : Env → M W β) (env : Env) (w : W) :
    ((M.getEnv : M W Env) >>= f) env w = f env env w := rfl
@[simp] theorem define_bind (x : Str) (v : Expr) (f : Unit → M W β) (env : Env) (w : W) :
    ((M.define x v : M W Unit) >>= f) env w = f () (env.define x v) w := rfl
@[simp] theorem io_bind (H : Host W) (op : IOp) (f : IORes → M W β) (env : Env) (w : W) :
    ((M.io H op : M W IORes) >>= f) env w = f (H.io op w).1 env (H.io op w).2 := rfl
@[simp] theorem throw_bind (e : Error) (f : α → M W β) (env : Env) (w : W) :
    ((M.throw e : M W α) >>= f) env w = (.err e, env, w) := rfl

instance : LawfulMonad (M W) := LawfulMonad.mk'
  (id_map := by
    intro α x; funext env w
    show M.bind x _ env w = _
    simp only [M.bind]
    rcases x env w with ⟨o, e, w⟩
    cases o <;> rfl)
  (pure_bind := by intros; rfl)
  (bind_assoc := by
    intro α β γ x f g; funext env w
    show M.bind (M.bind x f) g env w = M.bind x (fun a => M.bind (f a) g) env w
    simp only [M.bind]
    rcases x env w with ⟨o, e, w⟩
    cases o <;> rfl)

/-! ### Simulation up to a "gave up" outcome -/

/-- The ways an evaluation can give up: native stack or recursion limit exhausted, or stopped with the
status `c`. -/
inductive GiveUp
  | fuel
  | depth
  | stop (c : Int)

/-- Did the computation give up in this way? -/
def GiveUp.holds : GiveUp → Outcome α → Prop
  | .fuel, o => o = .noFuel
  | .depth, o => ∃ e, o = .err (.recursionDepth e)
  | .stop c, o => o = .exit c

/-- `m` gives up or behaves exactly as `m'`. -/
def Sim (b : GiveUp) (m m' : M W α) : Prop := ∀ env w, b.holds (m env w).1 ∨ m env w = m' env w

theorem Sim.refl (b : GiveUp) (m : M W α) : Sim b m m := fun _ _ => Or.inr rfl

theorem Sim.trans {b : GiveUp} {m1 m2 m3 : M W α} (h1 : Sim b m1 m2) (h2 : Sim b m2 m3) :
    Sim b m1 m3 := by
  intro env w
  rcases h1 env w with h | h
  · exact Or.inl h
  · rcases h2 env w with h' | h'
    · left; rw [h]; exact h'
    · right; rw [h, h']

theorem Sim.bind {b : GiveUp} {m m' : M W α} {f f' : α → M W β} (hm : Sim b m m')
    (hf : ∀ a, Sim b (f a) (f' a)) : Sim b (m >>= f) (m' >>= f') := by
  intro env w
  rcases hm env w with h | h
  · left
    rw [bind_def]
    rcases hmm : m env w with ⟨o, env1, w1⟩
    rw [hmm] at h
    cases b with
    | fuel => simp only [GiveUp.holds] at h; subst h; rfl
    | depth =>
      obtain ⟨e, rfl⟩ := h
      exact ⟨e, rfl⟩
    | stop c => simp only [GiveUp.holds] at h; subst h; rfl
  · rw [bind_def, bind_def, ← h]
    rcases hmm : m env w with ⟨o, env1, w1⟩
    cases o with
    | ok a => exact hf a env1 w1
    | _ => exact Or.inr rfl

theorem Sim.within {b : GiveUp} {m m' : M W α} (hm : Sim b m m') (env' : Env) :
    Sim b (M.within m env') (M.within m' env') := by
  intro env w
  rcases hm env' w with h | h
  · exact Or.inl h
  · right; simp only [within_apply, h]

theorem Sim.catch_ {b : GiveUp} (hb : b ≠ .depth) {m m' : M W α} (hm : Sim b m m') :
    Sim b (M.catch_ m) (M.catch_ m') := by
  intro env w
  rcases hm env w with h | h
  · left
    simp only [M.catch_]
    rcases hmm : m env w with ⟨o, env1, w1⟩
    rw [hmm] at h
    cases b with
    | depth => exact absurd rfl hb
    | _ => simp only [GiveUp.holds] at h; subst h; rfl
  · right; simp only [M.catch_, h]

theorem Sim.withinTry {b : GiveUp} (hb : b ≠ .depth) {m m' : M W α} (hm : Sim b m m') (env' : Env) :
    Sim b (M.withinTry m env') (M.withinTry m' env') := by
  intro env w
  rcases hm env' w with h | h
  · left
    simp only [M.withinTry]
    rcases hmm : m env' w with ⟨o, env1, w1⟩
    rw [hmm] at h
    cases b with
    | depth => exact absurd rfl hb
    | _ => simp only [GiveUp.holds] at h; subst h; rfl
  · right; simp only [M.withinTry, h]

end M

open M

section

variable {W : Type} {P : Plat} {H : Host W}

theorem collectArgs_sim {b : GiveUp} {ev ev' : Expr → M W Expr}
    (hev : ∀ e, Sim b (ev e) (ev' e)) :
    ∀ args, Sim b (collectArgs P ev args) (collectArgs P ev' args)
  | [] => Sim.refl _ _
  | a :: as => (hev a).bind fun _ => (collectArgs_sim hev as).bind fun _ => Sim.refl _ _

theorem evalList_sim {b : GiveUp} {ev ev' : Expr → M W Expr}
    (hev : ∀ e, Sim b (ev e) (ev' e)) :
    ∀ es, Sim b (evalList ev es) (evalList ev' es)
  | [] => Sim.refl _ _
  | e :: es => (hev e).bind fun _ => (evalList_sim hev es).bind fun _ => Sim.refl _ _

theorem evalMap_sim {b : GiveUp} {ev ev' : Expr → M W Expr}
    (hev : ∀ e, Sim b (ev e) (ev' e)) :
    ∀ es, Sim b (evalMap ev es) (evalMap ev' es)
  | [] => Sim.refl _ _
  | (_, e) :: es => (hev e).bind fun _ => (evalMap_sim hev es).bind fun _ => Sim.refl _ _

theorem forLoop_sim {b : GiveUp} {ev ev' : Expr → M W Expr}
    (hev : ∀ e, Sim b (ev e) (ev' e)) (x : Str) (body : Expr) :
    ∀ es, Sim b (forLoop ev x body es) (forLoop ev' x body es)
  | [] => Sim.refl _ _
  | _ :: es => (Sim.refl _ _).bind fun _ => (hev body).bind fun _ =>
      (forLoop_sim hev x body es).bind fun _ => Sim.refl _ _

theorem evalDo_sim {b : GiveUp} {ev ev' : Expr → M W Expr}
    (hev : ∀ e, Sim b (ev e) (ev' e)) :
    ∀ es, Sim b (evalDo ev es) (evalDo ev' es)
  | [] => Sim.refl _ _
  | [e] => hev e
  | e :: f :: es => (hev e).bind fun _ => evalDo_sim hev (f :: es)

theorem applyName_sim {b : GiveUp} {ev ev' : Expr → M W Expr}
    (hev : ∀ e, Sim b (ev e) (ev' e)) (name : Str) (s : Expr) (args : List Expr) :
    Sim b (applyName P H ev name s args) (applyName P H ev' name s args) :=
  (Sim.refl _ _).bind fun _ => (collectArgs_sim hev args).bind fun _ => Sim.refl _ _

theorem applyValue_sim {b : GiveUp} {ev ev' : Expr → M W Expr} {B B' : BId → List Expr → M W Expr}
    (hev : ∀ e, Sim b (ev e) (ev' e)) (hB : ∀ i a, Sim b (B i a) (B' i a))
    (f : Expr) (args : List Expr) (g : Expr) :
    Sim b (applyValue P H B ev f args g) (applyValue P H B' ev' f args g) := by
  cases g with
  | symbol n => exact applyName_sim hev _ _ _
  | str n => exact applyName_sim hev _ _ _
  | builtin n i h => exact hB i args
  | lambda p body bs ps =>
    match args with
    | [] => exact Sim.refl _ _
    | [a] => exact (Sim.refl _ _).bind fun _ => (hev a).bind fun _ => (hev body).within _
    | a :: c :: rest =>
      exact (Sim.refl _ _).bind fun _ => (hev a).bind fun _ =>
        ((hev body).within _).bind fun _ => hev _
  | macro_ p body =>
    match args with
    | [] => exact Sim.refl _ _
    | [a] => exact (hev a).bind fun _ => (Sim.refl _ _).bind fun _ => hev body
    | a :: c :: rest =>
      exact (hev a).bind fun _ => (Sim.refl _ _).bind fun _ => (hev body).bind fun _ => hev _
  | _ => exact Sim.refl _ _

theorem evalStep_sim {b : GiveUp} {ev ev' : Expr → M W Expr} {B B' : BId → List Expr → M W Expr}
    (hev : ∀ e, Sim b (ev e) (ev' e)) (hB : ∀ i a, Sim b (B i a) (B' i a)) (e : Expr) :
    Sim b (evalStep P H B ev e) (evalStep P H B' ev' e) := by
  cases e with
  | group e => exact hev e
  | assign n e => exact (hev e).bind fun _ => Sim.refl _ _
  | for_ n l body =>
    refine (hev l).bind fun v => ?_
    cases v with
    | list items => exact (forLoop_sim hev n body items).bind fun _ => Sim.refl _ _
    | _ => exact Sim.refl _ _
  | ite c t e =>
    refine (hev c).bind fun v => ?_
    cases v.isTruthy
    · exact hev e
    · exact hev t
  | apply f args => exact (hev f).bind fun g => applyValue_sim hev hB f args g
  | list es => exact (evalList_sim hev es).bind fun _ => Sim.refl _ _
  | map es => exact (evalMap_sim hev es).bind fun _ => Sim.refl _ _
  | do_ es => exact evalDo_sim hev es
  | _ => exact Sim.refl _ _

/-- More remaining depth changes nothing but recursion-depth errors. -/
theorem evalD_depth_succ (B : BId → List Expr → M W Expr) :
    ∀ k e, Sim .depth (evalD P H B k e) (evalD P H B (k + 1) e)
  | 0, e => fun _ _ => Or.inl ⟨e, rfl⟩
  | k + 1, e => evalStep_sim (evalD_depth_succ B k) (fun _ _ => Sim.refl _ _) e

theorem evalD_depth_mono (B : BId → List Expr → M W Expr) {k k' : Nat} (h : k ≤ k') (e : Expr) :
    Sim .depth (evalD P H B k e) (evalD P H B k' e) := by
  induction h with
  | refl => exact Sim.refl _ _
  | step _ ih => exact ih.trans (evalD_depth_succ B _ e)

/-- A builtin table that gives up less gives the same results. -/
theorem evalD_sim {b : GiveUp} {B B' : BId → List Expr → M W Expr}
    (hB : ∀ i a, Sim b (B i a) (B' i a)) : ∀ k e, Sim b (evalD P H B k e) (evalD P H B' k e)
  | 0, _ => Sim.refl _ _
  | k + 1, e => evalStep_sim (evalD_sim hB k) hB e

theorem BProg.run_sim {α : Type} {b : GiveUp} (hb : b ≠ .depth) {ev ev' : Expr → M W Expr}
    (hev : ∀ e, Sim b (ev e) (ev' e)) (p : BProg α) : Sim b (p.run H ev) (p.run H ev') := by
  induction p with
  | eval e k ih => exact ((hev e).catch_ hb).bind fun r => ih r
  | evalIn env e k ih => exact ((hev e).withinTry hb env).bind fun r => ih r.1 r.2
  | getEnv k ih => exact fun env w => ih env env w
  | define x v k ih => exact fun env w => ih (env.define x v) w
  | undefine x k ih => exact fun env w => ih (env.undefine x) w
  | io op k ih => exact fun env w => ih (H.io op w).1 env (H.io op w).2
  | _ => exact Sim.refl _ _

theorem evalN_succ (bodies : BId → List Expr → BProg Expr) :
    ∀ n e, Sim .fuel (evalN P H bodies n e) (evalN P H bodies (n + 1) e)
  | 0, e => by
    refine evalD_sim (b := .fuel) (fun i a => ?_) _ e
    exact fun _ _ => Or.inl rfl
  | n + 1, e => evalD_sim (fun i a => BProg.run_sim (by simp) (evalN_succ bodies n) (bodies i a)) _ e

/-- More native stack changes nothing but running out of it. -/
theorem evalN_mono (bodies : BId → List Expr → BProg Expr) {n n' : Nat} (h : n ≤ n') (e : Expr) :
    Sim .fuel (evalN P H bodies n e) (evalN P H bodies n' e) := by
  induction h with
  | refl => exact Sim.refl _ _
  | step _ ih => exact ih.trans (evalN_succ bodies _ e)

end

/-! ### Preservation -/

/-- A pair of preorders on environments and worlds. -/
structure Inv (W : Type) where
  RE : Env → Env → Prop
  RW : W → W → Prop
  reflE : ∀ e, RE e e
  transE : ∀ {a b c}, RE a b → RE b c → RE a c
  reflW : ∀ w, RW w w
  transW : ∀ {a b c}, RW a b → RW b c → RW a c

/-- Every run of `m` moves environment and world along the preorders. -/
def Pres {W α : Type} (I : Inv W) (m : M W α) : Prop :=
  ∀ env w, I.RE env (m env w).2.1 ∧ I.RW w (m env w).2.2

section

variable {W : Type} {I : Inv W} {P : Plat} {H : Host W} {α β : Type}

theorem Pres.pure (a : α) : Pres I (Pure.pure a : M W α) := fun env w => ⟨I.reflE env, I.reflW w⟩
theorem Pres.throw (e : Error) : Pres I (M.throw e : M W α) :=
  fun env w => ⟨I.reflE env, I.reflW w⟩
theorem Pres.lift (o : Outcome α) : Pres I (M.lift o : M W α) :=
  fun env w => ⟨I.reflE env, I.reflW w⟩
theorem Pres.getEnv : Pres I (M.getEnv : M W Env) := fun env w => ⟨I.reflE env, I.reflW w⟩

theorem Pres.bind {m : M W α} {f : α → M W β} (hm : Pres I m) (hf : ∀ a, Pres I (f a)) :
    Pres I (m >>= f) := by
  intro env w
  have h := hm env w
  rw [M.bind_def]
  rcases hmm : m env w with ⟨o, env1, w1⟩
  rw [hmm] at h
  cases o with
  | ok a => exact ⟨I.transE h.1 (hf a env1 w1).1, I.transW h.2 (hf a env1 w1).2⟩
  | _ => exact h

theorem Pres.within {m : M W α} (hm : Pres I m) (env' : Env) : Pres I (M.within m env') :=
  fun env w => ⟨I.reflE env, (hm env' w).2⟩

theorem Pres.catch_ {m : M W α} (hm : Pres I m) : Pres I (M.catch_ m) := by
  intro env w
  have h := hm env w
  simp only [M.catch_]
  rcases hmm : m env w with ⟨o, env1, w1⟩
  rw [hmm] at h
  cases o <;> exact h

theorem Pres.withinTry {m : M W α} (hm : Pres I m) (env' : Env) : Pres I (M.withinTry m env') := by
  intro env w
  have h := (hm env' w).2
  simp only [M.withinTry]
  rcases hmm : m env' w with ⟨o, env1, w1⟩
  rw [hmm] at h
  cases o <;> exact ⟨I.reflE env, h⟩

/-- The preorders allow defining variables and doing I/O. -/
structure Inv.Allows (I : Inv W) (H : Host W) : Prop where
  define : ∀ env x v, I.RE env (Env.define env x v)
  io : ∀ op w, I.RW w (H.io op w).2

theorem Pres.define (hI : I.Allows H) (x : Str) (v : Expr) : Pres I (M.define x v : M W Unit) :=
  fun env w => ⟨hI.define env x v, I.reflW w⟩
theorem Pres.io (hI : I.Allows H) (op : IOp) : Pres I (M.io H op : M W IORes) :=
  fun env w => ⟨I.reflE env, hI.io op w⟩

theorem collectArgs_pres {ev : Expr → M W Expr} (hev : ∀ e, Pres I (ev e)) :
    ∀ args, Pres I (collectArgs P ev args)
  | [] => Pres.pure _
  | a :: as => (hev a).bind fun _ => (collectArgs_pres hev as).bind fun _ => Pres.pure _

theorem evalList_pres {ev : Expr → M W Expr} (hev : ∀ e, Pres I (ev e)) :
    ∀ es, Pres I (evalList ev es)
  | [] => Pres.pure _
  | e :: es => (hev e).bind fun _ => (evalList_pres hev es).bind fun _ => Pres.pure _

theorem evalMap_pres {ev : Expr → M W Expr} (hev : ∀ e, Pres I (ev e)) :
    ∀ es, Pres I (evalMap ev es)
  | [] => Pres.pure _
  | (_, e) :: es => (hev e).bind fun _ => (evalMap_pres hev es).bind fun _ => Pres.pure _

theorem forLoop_pres (hI : I.Allows H) {ev : Expr → M W Expr} (hev : ∀ e, Pres I (ev e)) (x : Str)
    (body : Expr) : ∀ es, Pres I (forLoop ev x body es)
  | [] => Pres.pure _
  | _ :: es => (Pres.define hI _ _).bind fun _ => (hev body).bind fun _ =>
      (forLoop_pres hI hev x body es).bind fun _ => Pres.pure _

theorem evalDo_pres {ev : Expr → M W Expr} (hev : ∀ e, Pres I (ev e)) :
    ∀ es, Pres I (evalDo ev es)
  | [] => Pres.pure _
  | [e] => hev e
  | e :: f :: es => (hev e).bind fun _ => evalDo_pres hev (f :: es)

theorem runProgram_pres (hI : I.Allows H) (name : Str) (args : List Str) (envs : BMap Str)
    (s : Expr) (raw : List Expr) : Pres I (runProgram H name args envs s raw) := by
  refine Pres.getEnv.bind fun env => (Pres.io hI _).bind fun r => ?_
  cases r with
  | err e => cases e <;> exact Pres.throw _
  | _ => exact Pres.pure _

theorem applyName_pres (hI : I.Allows H) {ev : Expr → M W Expr} (hev : ∀ e, Pres I (ev e))
    (name : Str) (s : Expr) (args : List Expr) : Pres I (applyName P H ev name s args) :=
  Pres.getEnv.bind fun _ => (collectArgs_pres hev args).bind fun _ =>
    runProgram_pres hI _ _ _ _ _

theorem applyValue_pres (hI : I.Allows H) {ev : Expr → M W Expr}
    {B : BId → List Expr → M W Expr} (hev : ∀ e, Pres I (ev e)) (hB : ∀ i a, Pres I (B i a))
    (f : Expr) (args : List Expr) (g : Expr) : Pres I (applyValue P H B ev f args g) := by
  cases g with
  | symbol n => exact applyName_pres hI hev _ _ _
  | str n => exact applyName_pres hI hev _ _ _
  | builtin n i h => exact hB i args
  | lambda p body bs ps =>
    match args with
    | [] => exact Pres.throw _
    | [a] => exact Pres.getEnv.bind fun _ => (hev a).bind fun _ => (hev body).within _
    | a :: c :: rest =>
      exact Pres.getEnv.bind fun _ => (hev a).bind fun _ =>
        ((hev body).within _).bind fun _ => hev _
  | macro_ p body =>
    match args with
    | [] => exact Pres.throw _
    | [a] => exact (hev a).bind fun _ => (Pres.define hI _ _).bind fun _ => hev body
    | a :: c :: rest =>
      exact (hev a).bind fun _ => (Pres.define hI _ _).bind fun _ =>
        (hev body).bind fun _ => hev _
  | _ => exact Pres.throw _

theorem evalStep_pres (hI : I.Allows H) {ev : Expr → M W Expr}
    {B : BId → List Expr → M W Expr} (hev : ∀ e, Pres I (ev e)) (hB : ∀ i a, Pres I (B i a))
    (e : Expr) : Pres I (evalStep P H B ev e) := by
  cases e with
  | group e => exact hev e
  | symbol n =>
    refine Pres.getEnv.bind fun env => ?_
    cases env.get n <;> exact Pres.pure _
  | assign n e => exact (hev e).bind fun _ => (Pres.define hI _ _).bind fun _ => Pres.pure _
  | for_ n l body =>
    refine (hev l).bind fun v => ?_
    cases v with
    | list items => exact (forLoop_pres hI hev n body items).bind fun _ => Pres.pure _
    | _ => exact Pres.throw _
  | ite c t e =>
    refine (hev c).bind fun v => ?_
    cases v.isTruthy
    · exact hev e
    · exact hev t
  | apply f args => exact (hev f).bind fun g => applyValue_pres hI hev hB f args g
  | lambda p b bs ps => exact Pres.getEnv.bind fun _ => Pres.pure _
  | list es => exact (evalList_pres hev es).bind fun _ => Pres.pure _
  | map es => exact (evalMap_pres hev es).bind fun _ => Pres.pure _
  | do_ es => exact evalDo_pres hev es
  | _ => exact Pres.pure _

theorem evalD_pres (hI : I.Allows H) {B : BId → List Expr → M W Expr}
    (hB : ∀ i a, Pres I (B i a)) : ∀ k e, Pres I (evalD P H B k e)
  | 0, _ => Pres.throw _
  | k + 1, e => evalStep_pres hI (evalD_pres hI hB k) hB e

/-- The builtin body never removes a variable from the environment it is given. -/
inductive BProg.NoUndef : BProg α → Prop
  | ret (a) : NoUndef (.ret a)
  | err (e) : NoUndef (.err e)
  | panic : NoUndef .panic
  | exit (c) : NoUndef (.exit c)
  | eval {e k} (h : ∀ r, NoUndef (k r)) : NoUndef (.eval e k)
  | evalIn {env e k} (h : ∀ r env', NoUndef (k r env')) : NoUndef (.evalIn env e k)
  | getEnv {k} (h : ∀ env, NoUndef (k env)) : NoUndef (.getEnv k)
  | define {x v k} (h : NoUndef k) : NoUndef (.define x v k)
  | io {op k} (h : ∀ r, NoUndef (k r)) : NoUndef (.io op k)

theorem BProg.NoUndef.run_pres (hI : I.Allows H) {ev : Expr → M W Expr}
    (hev : ∀ e, Pres I (ev e)) {p : BProg α} (hp : p.NoUndef) : Pres I (p.run H ev) := by
  induction hp with
  | ret a => exact Pres.lift (.ok a)
  | err e => exact Pres.throw e
  | panic => exact Pres.lift .panic
  | exit c => exact Pres.lift (.exit c)
  | eval h ih => exact ((hev _).catch_).bind fun r => ih r
  | evalIn h ih => exact ((hev _).withinTry _).bind fun r => ih r.1 r.2
  | getEnv h ih => exact fun env w => ih env env w
  | define h ih =>
    exact fun env w => ⟨I.transE (hI.define env _ _) (ih _ w).1, (ih _ w).2⟩
  | io h ih => exact fun env w => ⟨(ih _ env _).1, I.transW (hI.io _ w) (ih _ env _).2⟩

/-- For preorders that also allow removing a variable. -/
theorem BProg.run_pres (hI : I.Allows H) (hu : ∀ env x, I.RE env (Env.undefine env x))
    {ev : Expr → M W Expr} (hev : ∀ e, Pres I (ev e)) (p : BProg α) : Pres I (p.run H ev) := by
  induction p with
  | ret a => exact Pres.lift (.ok a)
  | err e => exact Pres.throw e
  | panic => exact Pres.lift .panic
  | exit c => exact Pres.lift (.exit c)
  | eval e k ih => exact ((hev _).catch_).bind fun r => ih r
  | evalIn env e k ih => exact ((hev _).withinTry _).bind fun r => ih r.1 r.2
  | getEnv k ih => exact fun env w => ih env env w
  | define x v k ih =>
    exact fun env w => ⟨I.transE (hI.define env _ _) (ih _ w).1, (ih _ w).2⟩
  | undefine x k ih =>
    exact fun env w => ⟨I.transE (hu env _) (ih _ w).1, (ih _ w).2⟩
  | io op k ih => exact fun env w => ⟨(ih _ env _).1, I.transW (hI.io _ w) (ih _ env _).2⟩

theorem evalN_pres (hI : I.Allows H) (hu : ∀ env x, I.RE env (Env.undefine env x))
    (bodies : BId → List Expr → BProg Expr) : ∀ n e, Pres I (evalN P H bodies n e)
  | 0, e => evalD_pres hI (fun _ _ => Pres.lift _) _ e
  | n + 1, e =>
    evalD_pres hI (fun i a => BProg.run_pres hI hu (evalN_pres hI hu bodies n) (bodies i a)) _ e

theorem evalN_pres_noUndef (hI : I.Allows H) (bodies : BId → List Expr → BProg Expr)
    (hb : ∀ i a, (bodies i a).NoUndef) : ∀ n e, Pres I (evalN P H bodies n e)
  | 0, e => evalD_pres hI (fun _ _ => Pres.lift _) _ e
  | n + 1, e =>
    evalD_pres hI (fun i a => (hb i a).run_pres hI (evalN_pres_noUndef hI bodies hb n)) _ e

end

end Dune
