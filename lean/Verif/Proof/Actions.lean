import Verif.Proof.Steps
import Verif.Props.Eval

/-!
Functions that act on the outside world.  The arguments are given by expressions without effects, the body
ends with an action: an outcome and a new world for every world.
-/

namespace Dune

open Spec Props Props.Calc

section

variable {W : Type}

/-- Evaluating `e` has the outcome and the effect of `A`. -/
def Acts (H : Host W) (P : Plat) (L : Lib) (d : Nat) (env : Env) (e : Expr) (A : W → Outcome Expr × W) : Prop :=
  ∀ (n k : Nat) (w : W), d ≤ n → d ≤ k →
    ∃ env', evalD P H (bodyRun P H (stdB P L) n) k e env w = ((A w).1, env', (A w).2)

/-- These names have no meaning. -/
def Unbound (env : Env) (U : List Str) : Prop := ∀ u ∈ U, env.get u = none

/-- `v` is a function of `m` arguments that, called in a directory where the names `U` have no meaning, does
one of the actions of `F`. -/
def IsAct (H : Host W) (P : Plat) (L : Lib) (d : Nat) (U : List Str) :
    Nat → (List Expr → Str → (W → Outcome Expr × W) → Prop) → Expr → Prop
  | 0, _, _ => False
  | 1, F, v => ∃ p body binds, v = .lambda p body binds [] ∧
      ∀ (a : Expr) (cwd : Str), ∃ A, F [a] cwd A ∧ Acts H P L d (callEnv p ⟨binds, []⟩ cwd a) body A
  | m + 2, F, v => ∃ p body binds, v = .lambda p body binds [] ∧
      ∀ (a : Expr) (cwd : Str), ∃ g, Yields H P L 1 (callEnv p ⟨binds, []⟩ cwd a) body g ∧
        ∀ env, Unbound env U → ∃ g', Yields H P L 1 env g g' ∧
          IsAct H P L d U (m + 1) (fun as => F (a :: as)) g'

variable {H : Host W} {P : Plat} {L : Lib} {d d1 : Nat} {env : Env} {U : List Str}

/-- A call. -/
theorem acts_call : ∀ (xs as : List Expr), List.Forall₂ (Yields H P L d env) xs as → Unbound env U →
    ∀ (fe v : Expr) (F : List Expr → Str → (W → Outcome Expr × W) → Prop), Yields H P L 1 env fe v →
      IsAct H P L d1 U as.length F v →
      ∃ A, F as env.getCwd A ∧ ∀ (n k : Nat) (w : W), max (max d 1) d1 + xs.length ≤ n →
        max (max d 1) d1 + xs.length ≤ k →
        evalD P H (bodyRun P H (stdB P L) n) k (.apply fe xs) env w = ((A w).1, env, (A w).2) := by
  intro xs
  induction xs with
  | nil =>
    intro as h _ fe v F _ hv
    cases h
    exact hv.elim
  | cons x xs ih =>
    intro as h hU fe v F hfe hv
    obtain ⟨a, as, hx, hxs, rfl⟩ : ∃ a as', Yields H P L d env x a ∧ List.Forall₂ (Yields H P L d env) xs as' ∧
        as = a :: as' := by
      cases h with
      | cons h1 h2 => exact ⟨_, _, h1, h2, rfl⟩
    cases as with
    | nil =>
      cases hxs
      obtain ⟨p, body, binds, rfl, hb⟩ := hv
      obtain ⟨A, hF, hA⟩ := hb a env.getCwd
      refine ⟨A, hF, fun n k w hn hk => ?_⟩
      simp only [List.length_cons] at hn hk
      obtain ⟨k, rfl⟩ : ∃ j, k = j + 1 := ⟨k - 1, by omega⟩
      rw [evalD]
      simp only [evalStep]
      rw [M.bind_ok (hfe n k w (by omega) (by omega))]
      simp only [applyValue, M.getEnv_bind]
      rw [M.bind_ok (hx n k w (by omega) (by omega))]
      obtain ⟨env', he⟩ := hA n k w (by omega) (by omega)
      simp [he]
    | cons b as =>
      obtain ⟨y, ys, rfl⟩ : ∃ y ys, xs = y :: ys := by
        cases hxs with
        | cons h1 h2 => exact ⟨_, _, rfl⟩
      obtain ⟨p, body, binds, rfl, hb⟩ := hv
      obtain ⟨g, hg, hg'⟩ := hb a env.getCwd
      obtain ⟨g', he', hf⟩ := hg' env hU
      obtain ⟨A, hF, hA⟩ := ih (b :: as) hxs hU g g' (fun as => F (a :: as)) he' hf
      refine ⟨A, hF, fun n k w hn hk => ?_⟩
      simp only [List.length_cons] at hn hk
      obtain ⟨k, rfl⟩ : ∃ j, k = j + 1 := ⟨k - 1, by omega⟩
      rw [evalD]
      simp only [evalStep]
      rw [M.bind_ok (hfe n k w (by omega) (by omega))]
      simp only [applyValue, M.getEnv_bind]
      rw [M.bind_ok (hx n k w (by omega) (by omega))]
      rw [M.bind_ok (within_ok (hg n k w (by omega) (by omega)))]
      exact hA n k w (by simp only [List.length_cons]; omega) (by simp only [List.length_cons]; omega)

/-- A function literal does not capture names that have no meaning. -/
theorem closes_unbound (q : Str) (body : Expr) (bs : BMap Expr) (env : Env) :
    ∃ binds : BMap Expr, (∀ (B : BId → List Expr → M W Expr) k w, evalD P H B (k + 1) (.lambda q body bs []) env w =
        (.ok (.lambda q body binds []), env, w)) ∧
      (∀ s v, s ≠ q → s ≠ c!"CWD" → BMap.get? bs s = some v → BMap.get? binds s = some v) ∧
      (∀ s v, s ≠ q → s ≠ c!"CWD" → Mentions body s → BMap.get? bs s = none → env.get s = some v →
        BMap.get? binds s = some v) ∧
      (∀ s, s ≠ q → s ≠ c!"CWD" → BMap.get? bs s = none → env.get s = none → BMap.get? binds s = none) := by
  refine ⟨(closeLambda env q body ⟨bs, []⟩).bindings, ?_, ?_, ?_, ?_⟩
  · intro B k w
    rw [evalD]
    simp only [evalStep, M.getEnv_bind, M.pure_apply, closeLambda_parents]
  · intro s v hq hc hs
    have hd : Env.isDefined ⟨bs, []⟩ s = true := by simp [Env.isDefined_eq, Env.get, hs]
    rw [closeLambda, capture_get, if_neg (by simp [hd])]
    simp only [Env.setCwd, Env.define, BMap.get?_insert, cwdVar]
    rw [if_neg (Ne.symm hc), if_neg (Ne.symm hq), hs]
  · intro s v hq hc hm hs hv
    have hd : Env.isDefined ⟨bs, []⟩ s = false := by
      simp [Env.isDefined_eq, Env.get, hs, Env.get.getParents]
    rw [closeLambda, capture_get, if_pos ⟨(mentions_iff ..).mpr hm, hq, hd, by simp [hv]⟩, hv]
  · intro s hq hc hs he
    rw [closeLambda, capture_get, if_neg (by simp [he])]
    simp only [Env.setCwd, Env.define, BMap.get?_insert, cwdVar]
    rw [if_neg (Ne.symm hc), if_neg (Ne.symm hq), hs]

theorem unbound_call {p : Str} {binds : BMap Expr} {cwd : Str} {a : Expr} (hU : ∀ u ∈ U, u ≠ p ∧ u ≠ c!"CWD")
    (h : ∀ u ∈ U, BMap.get? binds u = none) : Unbound (callEnv p ⟨binds, []⟩ cwd a) U := by
  intro u hu
  rw [callEnv_get (hU u hu).1 (hU u hu).2]
  simp [Env.get, h u hu, Env.get.getParents]

theorem callEnv_cwd {p : Str} {binds : BMap Expr} {cwd : Str} {a : Expr} (hp : p ≠ c!"CWD") :
    (callEnv p ⟨binds, []⟩ cwd a).getCwd = cwd := by
  unfold Env.getCwd cwdVar
  simp only [callEnv, Env.get_define, Env.setCwd, if_neg hp, cwdVar, if_true]

/-- A function whose body, with the parameters and the captured names known, does an action. -/
theorem isAct_of_body {body : Expr} (hU0 : ∀ u ∈ U, u ≠ c!"CWD") :
    ∀ (ps : List Str) (p : Str) (K : List (Str × Expr)) (binds : BMap Expr)
    (F : List Expr → Str → (W → Outcome Expr × W) → Prop),
    (p :: ps).Nodup → (∀ x ∈ p :: ps, x ≠ c!"CWD" ∧ Mentions body x) →
    (∀ q ∈ K, Mentions body q.1 ∧ q.1 ∉ p :: ps ∧ q.1 ≠ c!"CWD") →
    (∀ q ∈ K, BMap.get? binds q.1 = some q.2) →
    (∀ u ∈ U, u ∉ p :: ps) → (∀ u ∈ U, BMap.get? binds u = none) →
    (∀ env as, as.length = (p :: ps).length → Sees env (((p :: ps).zip as).reverse ++ K) → Unbound env U →
      ∃ A, F as env.getCwd A ∧ Acts H P L d env body A) →
    IsAct H P L d U (ps.length + 1) F (.lambda p (curried ps body) binds []) := by
  intro ps
  induction ps with
  | nil =>
    intro p K binds F _ hp hK hb hUp hUb hr
    refine ⟨p, _, binds, rfl, ?_⟩
    intro a cwd
    have := hr (callEnv p ⟨binds, []⟩ cwd a) [a] rfl
      (sees_call (fun q hq => ⟨fun e => (hK q hq).2.1 (by simp [e]), (hK q hq).2.2⟩) (sees_binds hb))
      (unbound_call (fun u hu => ⟨fun e => hUp u hu (by simp [e]), hU0 u hu⟩) hUb)
    rwa [callEnv_cwd (hp p (by simp)).1] at this
  | cons p' ps ih =>
    intro p K binds F hnd hp hK hb hUp hUb hr
    refine ⟨p, _, binds, rfl, ?_⟩
    intro a cwd
    obtain ⟨b1, he1, _, hc1, hu1⟩ := closes_unbound (P := P) (H := H) p' (curried ps body) []
      (callEnv p ⟨binds, []⟩ cwd a)
    refine ⟨.lambda p' (curried ps body) b1 [], fun n k w _ hk => ?_, ?_⟩
    · obtain ⟨k, rfl, -⟩ := pos_succ hk
      exact he1 _ k w
    intro env hU
    obtain ⟨b2, he2, hk2, _, hu2⟩ := closes_unbound (P := P) (H := H) p' (curried ps body) b1 env
    refine ⟨.lambda p' (curried ps body) b2 [], fun n k w _ hk => ?_, ?_⟩
    · obtain ⟨k, rfl, -⟩ := pos_succ hk
      exact he2 _ k w
    have hsees : Sees (callEnv p ⟨binds, []⟩ cwd a) ((p, a) :: K) :=
      sees_call (fun q hq => ⟨fun e => (hK q hq).2.1 (by simp [e]), (hK q hq).2.2⟩) (sees_binds hb)
    have hunb : Unbound (callEnv p ⟨binds, []⟩ cwd a) U :=
      unbound_call (fun u hu => ⟨fun e => hUp u hu (by simp [e]), hU0 u hu⟩) hUb
    have hment : ∀ {s : Str}, Mentions body s → Mentions (curried ps body) s := mentions_curried ps
    have hKp : ∀ q ∈ (p, a) :: K, Mentions body q.1 ∧ q.1 ∉ p' :: ps ∧ q.1 ≠ c!"CWD" := by
      intro q hq
      rcases List.mem_cons.1 hq with rfl | hq
      · exact ⟨(hp p (by simp)).2, (List.nodup_cons.1 hnd).1, (hp p (by simp)).1⟩
      · exact ⟨(hK q hq).1, fun h => (hK q hq).2.1 (List.mem_cons_of_mem _ h), (hK q hq).2.2⟩
    have hUne : ∀ u ∈ U, u ≠ p' := fun u hu e => hUp u hu (by simp [e])
    refine ih p' ((p, a) :: K) b2 (fun as => F (a :: as)) (List.nodup_cons.1 hnd).2
      (fun x hx => hp x (List.mem_cons_of_mem _ hx)) hKp ?_ (fun u hu h => hUp u hu (List.mem_cons_of_mem _ h))
      (fun u hu => hu2 u (hUne u hu) (hU0 u hu) (hu1 u (hUne u hu) (hU0 u hu) rfl (hunb u hu)) (hU u hu)) ?_
    · intro q hq
      have h0 := hKp q hq
      have hne : q.1 ≠ p' := fun e => h0.2.1 (by simp [e])
      exact hk2 q.1 q.2 hne h0.2.2 (hc1 q.1 q.2 hne h0.2.2 (hment h0.1) rfl (hsees q hq))
    · intro env as hl hs
      refine hr env (a :: as) (by simp_all) ?_
      intro q hq
      refine hs q ?_
      simp only [List.zip_cons_cons, List.reverse_cons, List.append_assoc, List.mem_append,
        List.mem_cons, List.mem_reverse, List.not_mem_nil, or_false] at hq ⊢
      tauto

/-- `let f = …` of a function that acts -/
theorem run_define_act {f p : Str} {body : Expr} {ps : List Str} {K : List (Str × Expr)}
    {F : List Expr → Str → (W → Outcome Expr × W) → Prop} (hU0 : ∀ u ∈ U, u ≠ c!"CWD")
    (hnd : (p :: ps).Nodup) (hp : ∀ x ∈ p :: ps, x ≠ c!"CWD" ∧ Mentions body x)
    (hK : ∀ q ∈ K, Mentions body q.1 ∧ q.1 ∉ p :: ps ∧ q.1 ≠ c!"CWD") (hs : Sees env K)
    (hUp : ∀ u ∈ U, u ∉ p :: ps) (hU : Unbound env U)
    (hr : ∀ env as, as.length = (p :: ps).length → Sees env (((p :: ps).zip as).reverse ++ K) → Unbound env U →
      ∃ A, F as env.getCwd A ∧ Acts H P L d env body A) :
    ∃ v, Run H P L 3 env (.do_ [.assign f (curried (p :: ps) body)]) .none (env.define f v) ∧
      IsAct H P L d U (ps.length + 1) F v := by
  obtain ⟨b, he, _, hc, hu⟩ := closes_unbound (P := P) (H := H) p (curried ps body) [] env
  refine ⟨.lambda p (curried ps body) b [], RunDo.block (Run.last (Run.assign (d := 1) (fun n k w _ hk => ?_))), ?_⟩
  · obtain ⟨k, rfl, -⟩ := pos_succ hk
    exact he _ k w
  · have hment : ∀ {s : Str}, Mentions body s → Mentions (curried ps body) s := mentions_curried ps
    refine isAct_of_body hU0 ps p K b F hnd hp hK ?_ hUp
      (fun u hu' => hu u (fun e => hUp u hu' (by simp [e])) (hU0 u hu') rfl (hU u hu')) hr
    intro q hq
    exact hc q.1 q.2 (fun e => (hK q hq).2.1 (by simp [e])) (hK q hq).2.2 (hment (hK q hq).1) rfl (hs q hq)

/-- A program called by its name, with arguments without effects. -/
theorem acts_program {name : Str} {xs vs : List Expr} (h : List.Forall₂ (Yields H P L d env) xs vs) :
    Acts H P L (d + 2) env (.apply (.quote (.symbol name)) xs) fun w =>
      (commandOutcome name (.apply (.quote (.symbol name)) xs) xs
        (H.io (.status name env.getCwd (argStrings P vs) (exported P env)) w).1,
        (H.io (.status name env.getCwd (argStrings P vs) (exported P env)) w).2) := by
  intro n k w hn hk
  obtain ⟨k, rfl⟩ : ∃ j, k = j + 2 := ⟨k - 2, by omega⟩
  have hf : evalD P H (bodyRun P H (stdB P L) n) (k + 1) (.quote (.symbol name)) env w =
      (.ok (.symbol name), env, w) := by rw [evalD]; rfl
  have ha : evalList (evalD P H (bodyRun P H (stdB P L) n) (k + 1)) xs env w = (.ok vs, env, w) := by
    induction h with
    | nil => rfl
    | cons h1 _ ih =>
      simp only [evalList]
      rw [M.bind_ok (h1 n (k + 1) w (by omega) (by omega)), M.bind_ok ih]
      rfl
  refine ⟨env, ?_⟩
  rw [evalD]
  simp only [evalStep, M.bind_ok hf, applyValue, applyName_apply, M.bind_ok ha, runProgram,
    M.getEnv_bind, M.io_bind]
  generalize H.io _ w = q
  rcases q with ⟨q, w2⟩
  cases q with
  | err e => cases e <;> rfl
  | _ => rfl

theorem Acts.block {e : Expr} {A : W → Outcome Expr × W} (h : Acts H P L d env e A) :
    Acts H P L (d + 1) env (.do_ [e]) A := by
  intro n k w hn hk
  obtain ⟨k, rfl, hk⟩ := pos_succ hk
  rw [evalD]
  simp only [evalStep, evalDo]
  exact h n k w (by omega) (by omega)

theorem Acts.mono {e : Expr} {A : W → Outcome Expr × W} (h : Acts H P L d env e A) (hd : d ≤ d1) :
    Acts H P L d1 env e A := fun n k w hn hk => h n k w (by omega) (by omega)

end

end Dune
