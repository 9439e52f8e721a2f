import Verif.Proof.Prelude

/-! `make-calendar` of the default prelude, evaluated. -/

namespace Dune.Prelude

open Spec Spec.Calendar Props Props.Calc

section

variable {W : Type} {H : Host W} {P : Plat} {L : Lib}

/-! ### Steps -/

theorem _root_.Dune.Sees.new {env : Env} {K : List (Str × Expr)} {x : Str} {v : Expr} (h : Sees env K) (hK : ∀ p ∈ K, p.1 ≠ x) :
    Sees (env.define x v) ((x, v) :: K) :=
  h.define fun p hp => by
    rcases List.mem_cons.1 hp with rfl | hp
    · exact .inl rfl
    · exact .inr ⟨hK p hp, hp⟩

theorem _root_.Dune.Sees.tail {env : Env} {K : List (Str × Expr)} {q : Str × Expr} (h : Sees env (q :: K)) : Sees env K :=
  h.sub fun _ hp => List.mem_cons_of_mem _ hp

theorem _root_.Dune.Sees.set {env : Env} {K : List (Str × Expr)} {x : Str} {u v : Expr} (h : Sees env ((x, u) :: K))
    (hK : ∀ p ∈ K, p.1 ≠ x) : Sees (env.define x v) ((x, v) :: K) := h.tail.new hK

/-- A loop whose turns keep an invariant. -/
theorem runFor_inv {α : Type} {d : Nat} {x : Str} {body : Expr} (I : α → Env → Prop) (f : α → Expr → α) :
    ∀ (items : List Expr), (∀ s env a, a ∈ items → I s env → ∃ v env', Run H P L d (env.define x a) body v env' ∧
      I (f s a) env') → ∀ s env, I s env →
    ∃ vs env', RunFor H P L d env x body items vs env' ∧ I (items.foldl f s) env' := by
  intro items
  induction items with
  | nil => exact fun _ s env h => ⟨[], env, fun n k w _ _ => rfl, h⟩
  | cons a as ih =>
    intro hstep s env h
    obtain ⟨v, env1, hr, hi⟩ := hstep s env a (by simp) h
    obtain ⟨vs, env2, hr', hi'⟩ := ih (fun s env b hb => hstep s env b (by simp [hb])) (f s a) env1 hi
    exact ⟨v :: vs, env2, RunFor.cons hr hr', hi'⟩

/-! ### The text -/

/-- the names of the months -/
def monthNames : List Str := [c!"January", c!"February", c!"March", c!"April", c!"May", c!"June", c!"July", c!"August",
  c!"September", c!"October", c!"November", c!"December"]

/-- a day of the month, `d` with a star -/
def numText (d i : Int) : Str :=
  if (intToStr i).length < 2 then (if d = i then c!" *" else c!"  ") ++ intToStr i
  else (if d = i then c!"*" else c!" ") ++ intToStr i

/-- what follows -/
def sepText (dof i : Int) : Str := if (i + dof).tmod 7 = 0 then c!"\n" else c!" "

/-- the first line -/
def headText (m : Nat) (d y : Int) : Str :=
  monthNames.getD (m - 1) [] ++ c!" " ++ intToStr d ++ c!", " ++ intToStr y ++ c!"\n"

def middle (s : Str) : Str := Expr.replicateList c!" " ((28 - s.length) / 2 + 1) ++ s

/-- the days -/
def daysText (d dof : Int) (dim : Nat) : Str :=
  (List.range' 1 dim).flatMap fun (i : Nat) => numText d i ++ sepText dof i

def pageText (m : Nat) (d y : Int) (dof dim : Nat) : Str :=
  middle (headText m d y) ++ c!" Su  Mo  Tu  We  Th  Fr  Sa\n" ++ Expr.replicateList c!"    " dof ++ daysText d dof dim

/-! ### The loops -/

def blanksBody : Expr :=
  .do_ [.assign c!"result" (infix_ c!"+" (.symbol c!"result") (.str c!"    "))]

theorem blanks_loop {d : Nat} {K : List (Str × Expr)} {e : Expr} {R : Str}
    (hK : ∀ p ∈ K ++ opsOf e, p.1 ≠ c!"result" ∧ p.1 ≠ c!"i") (hp : e.usedSymbols.contains c!"+" = true) {env : Env}
    (hs : Sees env ((c!"result", .str R) :: (K ++ opsOf e))) (a : Int) (n : Nat) (hd : 10 ≤ d) :
    ∃ vs env', RunFor H P L d env c!"i" blanksBody (Builtins.intsFrom a n) vs env' ∧
      Sees env' ((c!"result", .str (R ++ Expr.replicateList c!"    " n)) :: (K ++ opsOf e)) := by
  obtain ⟨vs, env', hr, hi⟩ := runFor_inv (H := H) (P := P) (L := L) (d := d) (x := c!"i") (body := blanksBody)
    (fun s env => Sees env ((c!"result", .str s) :: (K ++ opsOf e))) (fun s _ => s ++ c!"    ")
    (Builtins.intsFrom a n) (by
      intro s env a _ hI
      have h1 : Sees (env.define c!"i" a) ((c!"result", .str s) :: (K ++ opsOf e)) := hI.define fun p hp => by
        rcases List.mem_cons.1 hp with rfl | hp
        · exact .inr ⟨by simp, by simp⟩
        · exact .inr ⟨(hK p hp).2, List.mem_cons_of_mem _ hp⟩
      have y := yields_concat (H := H) (P := P) (L := L) (seen (K := (c!"result", .str s) :: K) h1 (s := c!"+") rfl hp)
        (yields_symbol (h1 (c!"result", .str s) (by simp))) (yields_str c!"    ") (by decide)
      refine ⟨_, _, (RunDo.block (Run.last (Run.assign y))).mono (by omega), ?_⟩
      exact h1.set fun p hp => (hK p hp).1) R env hs
  refine ⟨vs, env', hr, ?_⟩
  have : ∀ (n : Nat) (a : Int) (R : Str), (Builtins.intsFrom a n).foldl (fun s _ => s ++ c!"    ") R =
      R ++ Expr.replicateList c!"    " n := by
    intro n
    induction n with
    | zero => simp [Builtins.intsFrom, Expr.replicateList]
    | succ n ih => intro a R; rw [Builtins.intsFrom, List.foldl_cons, ih]; simp [Expr.replicateList]
  rw [← this n a R]
  exact hi

def daysBody : Expr :=
  .do_ [.assign c!"num" (.apply (.symbol c!"str") [.symbol c!"i"]),
    .ite (infix_ c!"<" (.group (.apply (.symbol c!"len") [.symbol c!"num"])) (.int (.lit 2)))
      (.do_ [.assign c!"num" (infix_ c!"+" (.group (.ite (infix_ c!"==" (.apply (.symbol c!"@") [.symbol c!"now",
        .symbol c!"day"]) (.symbol c!"i")) (.str c!" *") (.group (.str c!"  ")))) (.symbol c!"num"))])
      (.group (.do_ [.assign c!"num" (infix_ c!"+" (.group (.ite (infix_ c!"==" (.apply (.symbol c!"@") [.symbol c!"now",
        .symbol c!"day"]) (.symbol c!"i")) (.str c!"*") (.group (.str c!" ")))) (.symbol c!"num"))])),
    .assign c!"result" (infix_ c!"+" (infix_ c!"+" (.symbol c!"result") (.symbol c!"num"))
      (.group (.ite (infix_ c!"==" (infix_ c!"%" (.group (infix_ c!"+" (.symbol c!"i") (.symbol c!"dof")))
        (.int (.lit 7))) (.int (.lit 0))) (.str c!"\n") (.group (.str c!" ")))))]

/-- what the loop needs to know -/
structure Knows (K : List (Str × Expr)) (e : Expr) (mod : List (Str × Expr)) (d : I64) : Prop where
  now : (c!"now", .map mod) ∈ K
  day : BMap.get? mod c!"day" = some (.int d)
  free : ∀ p ∈ K ++ opsOf e, p.1 ≠ c!"result" ∧ p.1 ≠ c!"i" ∧ p.1 ≠ c!"num"
  used : ∀ s ∈ [c!"+", c!"%", c!"==", c!"<", c!"@", c!"str", c!"len"], e.usedSymbols.contains s = true

theorem day_turn {K : List (Str × Expr)} {e : Expr} {mod : List (Str × Expr)} {d i dof : I64} {R : Str} {env : Env}
    (hK : Knows K e mod d) (hdof : (c!"dof", .int dof) ∈ K) (h6 : 0 ≤ dof.val ∧ dof.val ≤ 6)
    (hi : 1 ≤ i.val ∧ i.val ≤ 31) (hs : Sees env ((c!"result", .str R) :: (K ++ opsOf e))) :
    ∃ v env', Run H P L 60 (env.define c!"i" (.int i)) daysBody v env' ∧
      Sees env' ((c!"result", .str (R ++ (numText d.val i.val ++ sepText dof.val i.val))) :: (K ++ opsOf e)) := by
  have op : ∀ {K' : List (Str × Expr)} {env : Env} {s : Str} {v : Expr}, Sees env (K' ++ (K ++ opsOf e)) →
      ops.lookup s = some v → s ∈ [c!"+", c!"%", c!"==", c!"<", c!"@", c!"str", c!"len"] → env.get s = some v :=
    fun h hl hm => seen (K := _ ++ K) (e := e) (by rw [List.append_assoc]; exact h) hl (hK.used _ hm)
  have h1 : Sees (env.define c!"i" (.int i)) ([(c!"i", .int i), (c!"result", .str R)] ++ (K ++ opsOf e)) :=
    hs.define fun p hp => by
      simp only [List.cons_append, List.nil_append, List.mem_cons] at hp
      rcases hp with rfl | rfl | hp
      · exact .inl rfl
      · exact .inr ⟨by simp, by simp⟩
      · exact .inr ⟨(hK.free p hp).2.1, List.mem_cons_of_mem _ hp⟩
  have hi1 := yields_symbol (H := H) (P := P) (L := L) (h1 (c!"i", .int i) (by simp))
  have a1 := Run.assign (x := c!"num") (yields_show (op h1 rfl (by simp)) hi1 (by decide))
  rw [display_int] at a1
  generalize hnum : intToStr i.val = t at a1
  have hlen : t.length < 9223372036854775808 := by
    have : ∀ z : Nat, z < 32 → (intToStr z).length < 9223372036854775808 := by decide
    have := this i.val.toNat (by omega)
    rwa [Int.toNat_of_nonneg (by omega), hnum] at this
  have h2 : Sees ((env.define c!"i" (.int i)).define c!"num" (.str t))
      ([(c!"num", .str t), (c!"i", .int i), (c!"result", .str R)] ++ (K ++ opsOf e)) :=
    h1.new fun p hp => by
      simp only [List.cons_append, List.nil_append, List.mem_cons] at hp
      rcases hp with rfl | rfl | hp
      · simp
      · simp
      · exact (hK.free p hp).2.2
  have hnum2 := yields_symbol (H := H) (P := P) (L := L) (h2 (c!"num", .str t) (by simp))
  have hi2 := yieldsInt_symbol (H := H) (P := P) (L := L) (h2 (c!"i", .int i) (by simp))
  have hnow := yields_symbol (H := H) (P := P) (L := L) (h2 (c!"now", .map mod) (by simp [hK.now]))
  have hday : YieldsInt H P L _ _ _ d.val := ⟨d, rfl, yields_member (op h2 rfl (by simp)) hnow (by decide) hK.day⟩
  have hc := yields_lt (op h2 rfl (by simp)) (YieldsInt.len (op h2 rfl (by simp)) hnum2 (by decide) hlen).group
    (yieldsInt_num 2) (by decide)
  have he := yields_eq (op h2 rfl (by simp)) hday hi2 (by decide)
  have star : ∀ s1 s2 : Str, Yields H P L 20 ((env.define c!"i" (.int i)).define c!"num" (.str t))
      (infix_ c!"+" (.group (.ite (infix_ c!"==" (.apply (.symbol c!"@") [.symbol c!"now",
        .symbol c!"day"]) (.symbol c!"i")) (.str s1) (.group (.str s2)))) (.symbol c!"num"))
      (.str ((if d.val = i.val then s1 else s2) ++ t)) := by
    intro s1 s2
    refine (yields_concat (d1 := 10) (op h2 rfl (by simp)) ?_ hnum2 (by decide)).mono (by decide)
    by_cases hp : d.val = i.val
    · simp only [if_pos hp]
      exact (Run.group (Run.iteB (d1 := 2) he (fun _ => (yields_str _).mono (by decide)) (fun h => absurd hp h))).mono
        (by decide)
    · simp only [if_neg hp]
      exact (Run.group (Run.iteB (d1 := 2) he (fun h => absurd h hp) (fun _ => Run.group (yields_str _)))).mono
        (by decide)
  have step : Run H P L 30 ((env.define c!"i" (.int i)).define c!"num" (.str t))
      (.ite (infix_ c!"<" (.group (.apply (.symbol c!"len") [.symbol c!"num"])) (.int (.lit 2)))
      (.do_ [.assign c!"num" (infix_ c!"+" (.group (.ite (infix_ c!"==" (.apply (.symbol c!"@") [.symbol c!"now",
        .symbol c!"day"]) (.symbol c!"i")) (.str c!" *") (.group (.str c!"  ")))) (.symbol c!"num"))])
      (.group (.do_ [.assign c!"num" (infix_ c!"+" (.group (.ite (infix_ c!"==" (.apply (.symbol c!"@") [.symbol c!"now",
        .symbol c!"day"]) (.symbol c!"i")) (.str c!"*") (.group (.str c!" ")))) (.symbol c!"num"))]))) .none
      (((env.define c!"i" (.int i)).define c!"num" (.str t)).define c!"num" (.str (numText d.val i.val))) := by
    unfold numText
    rw [hnum]
    by_cases hp : t.length < 2
    · simp only [if_pos hp]
      refine (Run.iteB (d1 := 24) hc (fun _ => ?_) (fun h => absurd (by omega) h)).mono (by decide)
      exact (RunDo.block (Run.last (Run.assign (star c!" *" c!"  ")))).mono (by decide)
    · simp only [if_neg hp]
      refine (Run.iteB (d1 := 24) hc (fun h => absurd (by omega) hp) (fun _ => ?_)).mono (by decide)
      exact (Run.group (RunDo.block (Run.last (Run.assign (star c!"*" c!" "))))).mono (by decide)
  generalize numText d.val i.val = u at step ⊢
  have h3 : Sees (((env.define c!"i" (.int i)).define c!"num" (.str t)).define c!"num" (.str u))
      ([(c!"num", .str u), (c!"i", .int i), (c!"result", .str R)] ++ (K ++ opsOf e)) :=
    h2.set fun p hp => by
      replace hp : p ∈ [(c!"i", .int i), (c!"result", .str R)] ++ (K ++ opsOf e) := hp
      simp only [List.cons_append, List.nil_append, List.mem_cons] at hp
      rcases hp with rfl | rfl | hp
      · simp
      · simp
      · exact (hK.free p hp).2.2
  generalize ((env.define c!"i" (.int i)).define c!"num" (.str t)).define c!"num" (.str u) = env3 at step h3
  have hnum3 := yields_symbol (H := H) (P := P) (L := L) (h3 (c!"num", .str u) (by simp))
  have hres3 := yields_symbol (H := H) (P := P) (L := L) (h3 (c!"result", .str R) (by simp))
  have hi3 := yieldsInt_symbol (H := H) (P := P) (L := L) (h3 (c!"i", .int i) (by simp))
  have hdof3 := yieldsInt_symbol (H := H) (P := P) (L := L) (h3 (c!"dof", .int dof) (by simp [hdof]))
  have hz := yields_eq (op h3 rfl (by simp)) (YieldsInt.rem (op h3 rfl (by simp))
    (YieldsInt.add (op h3 rfl (by simp)) hi3 hdof3 (by decide) (by omega)).group (yieldsInt_num 7) (by decide))
    (yieldsInt_num 0) (by decide)
  have hsep : Yields H P L 24 env3 (.group (.ite (infix_ c!"==" (infix_ c!"%" (.group (infix_ c!"+" (.symbol c!"i")
      (.symbol c!"dof"))) (.int (.lit 7))) (.int (.lit 0))) (.str c!"\n") (.group (.str c!" "))))
      (.str (sepText dof.val i.val)) := by
    unfold sepText
    by_cases hp : (i.val + dof.val).tmod 7 = 0
    · simp only [if_pos hp]
      exact (Run.group (Run.iteB (d1 := 2) hz (fun _ => (yields_str _).mono (by decide)) (fun h => absurd hp h))).mono
        (by decide)
    · simp only [if_neg hp]
      exact (Run.group (Run.iteB (d1 := 2) hz (fun h => absurd h hp) (fun _ => Run.group (yields_str _)))).mono
        (by decide)
  have a3 := Run.assign (x := c!"result") (yields_concat (op h3 rfl (by simp)) (yields_concat (op h3 rfl (by simp))
    hres3 hnum3 (by decide)) hsep (by decide))
  refine ⟨_, _, (RunDo.block (a1.then_ (step.then_ (Run.last a3)))).mono (by decide), ?_⟩
  rw [List.append_assoc]
  exact Sees.define h3 fun p hp => by
    rcases List.mem_cons.1 hp with rfl | hp
    · exact .inl rfl
    · exact .inr ⟨(hK.free p hp).1, by simp at hp; simp [hp]⟩

theorem mem_intsFrom : ∀ (n : Nat) (a : Int) (e : Expr), e ∈ Builtins.intsFrom a n →
    ∃ z, a ≤ z ∧ z < a + n ∧ e = .int (I64.wrap z) := by
  intro n
  induction n with
  | zero => intro a e h; cases h
  | succ n ih =>
    intro a e h
    rcases List.mem_cons.1 h with rfl | h
    · exact ⟨a, by omega, by omega, rfl⟩
    · obtain ⟨z, h1, h2, rfl⟩ := ih _ _ h
      exact ⟨z, by omega, by omega, rfl⟩

theorem wrap_val {z : Int} (h : 0 ≤ z ∧ z < 1000) : (I64.wrap z).val = z := by
  simp only [I64.wrap]
  exact Int.bmod_eq_of_le (by omega) (by omega)

theorem days_loop {K : List (Str × Expr)} {e : Expr} {mod : List (Str × Expr)} {d dof : I64} {R : Str} {env : Env}
    {dim : Nat} (hK : Knows K e mod d) (hdof : (c!"dof", .int dof) ∈ K) (h6 : 0 ≤ dof.val ∧ dof.val ≤ 6)
    (hdim : dim ≤ 31) (hs : Sees env ((c!"result", .str R) :: (K ++ opsOf e))) :
    ∃ vs env', RunFor H P L 60 env c!"i" daysBody (Builtins.intsFrom 1 dim) vs env' ∧
      Sees env' ((c!"result", .str (R ++ daysText d.val dof.val dim)) :: (K ++ opsOf e)) := by
  obtain ⟨vs, env', hr, hi⟩ := runFor_inv (H := H) (P := P) (L := L) (d := 60) (x := c!"i") (body := daysBody)
    (fun s env => Sees env ((c!"result", .str s) :: (K ++ opsOf e)))
    (fun s a => match a with
      | .int i => s ++ (numText d.val i.val ++ sepText dof.val i.val)
      | _ => s)
    (Builtins.intsFrom 1 dim) (by
      intro s env a ha hI
      obtain ⟨z, h1, h2, rfl⟩ := mem_intsFrom _ _ _ ha
      exact day_turn hK hdof h6 (by rw [wrap_val (by omega)]; omega) hI) R env hs
  refine ⟨vs, env', hr, ?_⟩
  have : ∀ (n s : Nat) (R : Str), s + n < 1000 → (Builtins.intsFrom s n).foldl (fun s a => match a with
      | .int i => s ++ (numText d.val i.val ++ sepText dof.val i.val)
      | _ => s) R = R ++ (List.range' s n).flatMap fun (i : Nat) => numText d.val i ++ sepText dof.val i := by
    intro n
    induction n with
    | zero => simp [Builtins.intsFrom]
    | succ n ih =>
      intro s R hn
      rw [Builtins.intsFrom, List.foldl_cons, show (s : Int) + 1 = ((s + 1 : Nat) : Int) by omega, ih (s + 1) _ (by omega),
        List.range'_succ, List.flatMap_cons]
      simp only [wrap_val (z := (s : Int)) (by omega), List.append_assoc]
  have e := this dim 1 R (by omega)
  rw [daysText, ← e]
  exact hi

/-! ### The function -/

/-- `widget@create title text width height` -/
theorem yields_create {d : Nat} {env : Env} {f x : Expr} {nm hlp t s : Str} {wd ht : I64}
    (hf : Yields H P L d env f (.builtin nm .wCreate hlp)) (hx : Yields H P L 1 env x (.str s))
    (hwd : 4 < wd.val) (hht : 3 ≤ ht.val) (hlen : t.length ≤ wd.val.toNat - 2) (hd : 1 ≤ d) :
    Yields H P L (d + 3) env (.apply f [.str t, x, .int wd, .int ht])
      (.str (Builtins.box t (P.fill (Builtins.padRight ((wd.val.toNat - 2) * 2 / 3) s) (wd.val.toNat - 2))
        (wd.val.toNat - 2) ht.val.toNat)) := by
  intro n k w hn hk
  obtain ⟨k, rfl⟩ : ∃ j, k = j + 1 := ⟨k - 1, by omega⟩
  rw [evalD]
  simp only [evalStep]
  rw [M.bind_ok (hf n k w (by omega) (by omega))]
  have h1 := (yields_str (H := H) (P := P) (L := L) (env := env) t).evalN (n := n) (by omega) (by decide) w
  have h2 := (yields_int (H := H) (P := P) (L := L) (env := env) wd).evalN (n := n) (by omega) (by decide) w
  have h3 := hx.evalN (n := n) (by omega) (by decide) w
  have h4 := (yields_int (H := H) (P := P) (L := L) (env := env) ht).evalN (n := n) (by omega) (by decide) w
  have hnot : ¬ wd.val.toNat - 2 < t.length := by omega
  brun [applyValue, bodyRun, stdB, Builtins.createB, h1, h2, h3, h4, hwd, hht, display_str, hnot]

/-- what `make-calendar` gives -/
def calPicture (P : Plat) (m : Nat) (d y : Int) (dof dim : Nat) : Str :=
  Builtins.box c!"Calendar" (P.fill (Builtins.padRight 18 (pageText m d y dof dim)) 28) 28 10

theorem month_get (m : Nat) (h1 : 1 ≤ m) (h2 : m ≤ 12) (l : List Expr) (hl : monthsBody = .list l) :
    l[m - 1]? = some (.str (monthNames.getD (m - 1) [])) := by
  have : m = 1 ∨ m = 2 ∨ m = 3 ∨ m = 4 ∨ m = 5 ∨ m = 6 ∨ m = 7 ∨ m = 8 ∨ m = 9 ∨ m = 10 ∨ m = 11 ∨ m = 12 := by
    omega
  cases hl
  rcases this with rfl | rfl | rfl | rfl | rfl | rfl | rfl | rfl | rfl | rfl | rfl | rfl <;> rfl

def nowMap (m d y : I64) : List (Str × Expr) := [(c!"day", .int d), (c!"month", .int m), (c!"year", .int y)]

theorem yields_now {env : Env} {m d y : I64} (hm : env.get c!"m" = some (.int m)) (hd : env.get c!"d" = some (.int d))
    (hy : env.get c!"y" = some (.int y)) :
    Yields H P L 2 env (.map [(c!"day", .symbol c!"d"), (c!"month", .symbol c!"m"), (c!"year", .symbol c!"y")])
      (.map (nowMap m d y)) := by
  intro n k w hn hk
  obtain ⟨k, rfl⟩ : ∃ j, k = j + 2 := ⟨k - 2, by omega⟩
  rw [evalD]
  simp only [evalStep, evalMap, bind_assoc, pure_bind]
  rw [M.bind_ok (evalD_symbol hd), M.bind_ok (evalD_symbol hm), M.bind_ok (evalD_symbol hy)]
  rfl

theorem utf8_spaces (n : Nat) : utf8Len c!" " * n = n := by
  rw [show utf8Len c!" " = 1 from rfl, Nat.one_mul]

theorem cal_body {env : Env} {v1 v2 : Expr} {tbl : BMap Expr} {nm hlp : Str} {m d y dof : I64} {dim : Nat}
    {F1 F2 : List Expr → Expr → Prop} {i2 : I64}
    (hs : Sees env ([(c!"y", .int y), (c!"d", .int d), (c!"m", .int m), (c!"MONTHS", monthsBody), (c!"day-of-week", v1),
      (c!"days-in-month", v2), (c!"widget", .map tbl)] ++ opsOf calBody))
    (hv1 : IsFun H P L 64 3 F1 v1) (hF1 : F1 [.int m, .int (.lit 1), .int y] (.int dof))
    (hv2 : IsFun H P L 40 2 F2 v2) (hF2 : F2 [.int m, .int y] (.int i2)) (hi2 : i2.val = dim) (hdim : dim ≤ 31)
    (h6 : 0 ≤ dof.val ∧ dof.val ≤ 6) (h1 : 1 ≤ m.val) (h2 : m.val ≤ 12)
    (hlen : (headText m.val.toNat d.val y.val).length ≤ 28)
    (htbl : tbl.get? c!"create" = some (.builtin nm .wCreate hlp)) :
    ∃ env', Run H P L 100 env calBody (.str (calPicture P m.val.toNat d.val y.val dof.val.toNat dim)) env' := by
  have op : ∀ {K' : List (Str × Expr)} {env : Env} {s : Str} {v : Expr}, Sees env (K' ++ opsOf calBody) →
      ops.lookup s = some v → calBody.usedSymbols.contains s = true → env.get s = some v :=
    fun h hl hm => seen h hl hm
  have one := fun (x : Str) (hx : ops.lookup x = none) => ops_ne (e := calBody) hx
  -- now
  have a1 := Run.assign (x := c!"now") (yields_now (H := H) (P := P) (L := L) (hs (c!"m", .int m) (by simp))
    (hs (c!"d", .int d) (by simp)) (hs (c!"y", .int y) (by simp)))
  have s1 : Sees (env.define c!"now" (.map (nowMap m d y))) ([(c!"now", .map (nowMap m d y)), (c!"MONTHS", monthsBody),
      (c!"day-of-week", v1), (c!"days-in-month", v2), (c!"widget", .map tbl)] ++ opsOf calBody) :=
    hs.define fun p hp => by
      simp only [List.cons_append, List.nil_append, List.mem_cons] at hp ⊢
      rcases hp with rfl | rfl | rfl | rfl | rfl | hp
      · simp
      · simp
      · simp
      · simp
      · simp
      · exact .inr ⟨one _ (by decide) p hp, by simp [hp]⟩
  generalize env.define c!"now" (.map (nowMap m d y)) = env1 at a1 s1
  have now1 := yields_symbol (H := H) (P := P) (L := L) (s1 (c!"now", .map (nowMap m d y)) (by simp))
  have day1 := yields_member (f := c!"day") (v := .int d) (op s1 rfl rfl) now1 (by decide) rfl
  have year1 := yields_member (f := c!"year") (v := .int y) (op s1 rfl rfl) now1 (by decide) rfl
  have month1 : YieldsInt H P L _ env1 _ m.val :=
    ⟨m, rfl, yields_member (f := c!"month") (v := .int m) (op s1 rfl rfl) now1 (by decide) rfl⟩
  obtain ⟨l, hl⟩ : ∃ l, monthsBody = .list l := ⟨_, rfl⟩
  have months1 : Yields H P L 1 env1 (.symbol c!"MONTHS") (.list l) := by
    rw [← hl]
    exact yields_symbol (s1 (c!"MONTHS", monthsBody) (by simp))
  have name1 := yields_element (op s1 rfl rfl) months1 (YieldsInt.sub (op s1 rfl rfl) month1 (yieldsInt_num 1) (by decide)
    (by omega)).group (by decide) (by omega) (by
      rw [show (m.val - (1 : Nat)).toNat = m.val.toNat - 1 by omega]
      exact month_get m.val.toNat (by omega) (by omega) l hl)
  have r1 := yields_concat (op s1 rfl rfl) (yields_concat (op s1 rfl rfl) (yields_concat (op s1 rfl rfl)
    (yields_concat (op s1 rfl rfl) (yields_concat (op s1 rfl rfl) name1 (yields_str c!" ") (by decide))
    (Run.group (yields_show (op s1 rfl rfl) day1 (by decide))) (by decide)) (yields_str c!", ") (by decide))
    (Run.group (yields_show (op s1 rfl rfl) year1 (by decide))) (by decide)) (yields_str c!"\n") (by decide)
  rw [display_int, display_int] at r1
  have a2 := Run.assign (x := c!"result") r1
  rw [show monthNames.getD (m.val.toNat - 1) [] ++ c!" " ++ intToStr d.val ++ c!", " ++ intToStr y.val ++ c!"\n" =
    headText m.val.toNat d.val y.val from rfl] at a2
  unfold calPicture pageText
  generalize hR : headText m.val.toNat d.val y.val = R at a2 hlen ⊢
  have s2 : Sees (env1.define c!"result" (.str R)) ([(c!"result", .str R), (c!"now", .map (nowMap m d y)),
      (c!"day-of-week", v1), (c!"days-in-month", v2), (c!"widget", .map tbl)] ++ opsOf calBody) :=
    s1.define fun p hp => by
      simp only [List.cons_append, List.nil_append, List.mem_cons] at hp ⊢
      rcases hp with rfl | rfl | rfl | rfl | rfl | hp
      · simp
      · simp
      · simp
      · simp
      · simp
      · exact .inr ⟨one _ (by decide) p hp, by simp [hp]⟩
  generalize env1.define c!"result" (.str R) = env2 at a2 s2
  have res2 := yields_symbol (H := H) (P := P) (L := L) (s2 (c!"result", .str R) (by simp))
  have hdiv : (((28 : Nat) : Int) - R.length).tdiv (2 : Nat) + (1 : Nat) = ((28 - R.length) / 2 + 1 : Nat) := by
    rw [Int.tdiv_eq_ediv_of_nonneg (by omega)]
    omega
  have q2 := (YieldsInt.add (op s2 rfl rfl) (YieldsInt.div (op s2 rfl rfl) (YieldsInt.sub (op s2 rfl rfl)
    (yieldsInt_num 28) (YieldsInt.len (op s2 rfl rfl) res2 (by decide) (by omega)).group (by decide) (by omega)).group
    (yieldsInt_num 2) (by decide)) (yieldsInt_num 1) (by decide) (by omega)).group
  rw [hdiv] at q2
  have r2 := yields_concat (op s2 rfl rfl) (yields_repeat (op s2 rfl rfl) (yields_str c!" ") q2 (by omega) (by
    rw [utf8_spaces]; omega)) res2 (by decide)
  rw [Int.toNat_natCast] at r2
  have a3 := Run.assign (x := c!"result") r2
  rw [show Expr.replicateList c!" " ((28 - R.length) / 2 + 1) ++ R = middle R from rfl] at a3
  generalize middle R = R at a3 ⊢
  clear s1 now1 day1 year1 month1 months1 name1 r1 hR hlen res2 hdiv q2 r2
  have free : ∀ x, x ∈ [c!"result", c!"i", c!"num", c!"dof", c!"dim"] → ∀ p ∈ [(c!"now", .map (nowMap m d y)),
      (c!"day-of-week", v1), (c!"days-in-month", v2), (c!"widget", .map tbl)] ++ opsOf calBody, p.1 ≠ x := by
    intro x hx p hp
    simp only [List.cons_append, List.nil_append, List.mem_cons] at hp
    simp only [List.mem_cons, List.not_mem_nil, or_false] at hx
    rcases hp with rfl | rfl | rfl | rfl | hp
    iterate 4
      · rcases hx with rfl | rfl | rfl | rfl | rfl <;> simp
    · rcases hx with rfl | rfl | rfl | rfl | rfl <;> exact one _ (by decide) p hp
  have s3 : Sees (env2.define c!"result" (.str R)) ([(c!"result", .str R), (c!"now", .map (nowMap m d y)),
      (c!"day-of-week", v1), (c!"days-in-month", v2), (c!"widget", .map tbl)] ++ opsOf calBody) :=
    s2.set (free _ (by simp))
  generalize env2.define c!"result" (.str R) = env3 at a3 s3
  -- the header
  have r3 := yields_concat (op s3 rfl rfl) (yields_symbol (H := H) (P := P) (L := L) (s3 (c!"result", .str R) (by simp)))
    (yields_str c!" Su  Mo  Tu  We  Th  Fr  Sa\n") (by decide)
  have a4 := Run.assign (x := c!"result") r3
  generalize R ++ c!" Su  Mo  Tu  We  Th  Fr  Sa\n" = R at a4 ⊢
  have s4 : Sees (env3.define c!"result" (.str R)) ([(c!"result", .str R), (c!"now", .map (nowMap m d y)),
      (c!"day-of-week", v1), (c!"days-in-month", v2), (c!"widget", .map tbl)] ++ opsOf calBody) :=
    s3.set (free _ (by simp))
  generalize env3.define c!"result" (.str R) = env4 at a4 s4
  -- the first day and the number of days
  have now4 := yields_symbol (H := H) (P := P) (L := L) (s4 (c!"now", .map (nowMap m d y)) (by simp))
  have month4 := yields_member (f := c!"month") (v := .int m) (op s4 rfl rfl) now4 (by decide) rfl
  have year4 := yields_member (f := c!"year") (v := .int y) (op s4 rfl rfl) now4 (by decide) rfl
  have a5 := Run.assign (x := c!"dof") (yields_call (d := 3) [_, _, _] [_, _, _] (.cons (month4.mono (by decide)) (.cons
    ((yields_int (.lit 1)).mono (by decide)) (.cons (year4.mono (by decide)) .nil))) _ _ _ F1
    (yields_symbol (s4 (c!"day-of-week", v1) (by simp))) hv1 hF1)
  have s5 : Sees (env4.define c!"dof" (.int dof)) ([(c!"result", .str R), (c!"dof", .int dof), (c!"now", .map (nowMap m d y)),
      (c!"day-of-week", v1), (c!"days-in-month", v2), (c!"widget", .map tbl)] ++ opsOf calBody) :=
    s4.define fun p hp => by
      rw [List.cons_append, List.cons_append] at hp
      rcases List.mem_cons.1 hp with rfl | hp
      · exact .inr ⟨by simp, by simp⟩
      · rcases List.mem_cons.1 hp with rfl | hp
        · exact .inl rfl
        · exact .inr ⟨free _ (by simp) p hp, List.mem_cons_of_mem _ hp⟩
  generalize env4.define c!"dof" (.int dof) = env5 at a5 s5
  have now5 := yields_symbol (H := H) (P := P) (L := L) (s5 (c!"now", .map (nowMap m d y)) (by simp))
  have month5 := yields_member (f := c!"month") (v := .int m) (op s5 rfl rfl) now5 (by decide) rfl
  have year5 := yields_member (f := c!"year") (v := .int y) (op s5 rfl rfl) now5 (by decide) rfl
  have a6 := Run.assign (x := c!"dim") (yields_call (d := 3) [_, _] [_, _] (.cons (month5.mono (by decide))
    (.cons (year5.mono (by decide)) .nil)) _ _ _ F2
    (yields_symbol (s5 (c!"days-in-month", v2) (by simp))) hv2 hF2)
  have s6 : Sees (env5.define c!"dim" (.int i2)) ((c!"result", .str R) :: ([(c!"dim", .int i2), (c!"dof", .int dof),
      (c!"now", .map (nowMap m d y)), (c!"day-of-week", v1), (c!"days-in-month", v2), (c!"widget", .map tbl)] ++
      opsOf calBody)) :=
    s5.define fun p hp => by
      rw [List.cons_append, List.cons_append] at hp
      rcases List.mem_cons.1 hp with rfl | hp
      · exact .inr ⟨by simp, by simp⟩
      · rcases List.mem_cons.1 hp with rfl | hp
        · exact .inl rfl
        · rcases List.mem_cons.1 hp with rfl | hp
          · exact .inr ⟨by simp, by simp⟩
          · exact .inr ⟨free _ (by simp) p hp, List.mem_cons_of_mem _ (List.mem_cons_of_mem _ hp)⟩
  generalize env5.define c!"dim" (.int i2) = env6 at a6 s6
  have free' : ∀ x, x ∈ [c!"result", c!"i", c!"num"] → ∀ p ∈ [(c!"dim", .int i2), (c!"dof", .int dof),
      (c!"now", .map (nowMap m d y)), (c!"day-of-week", v1), (c!"days-in-month", v2), (c!"widget", .map tbl)] ++
      opsOf calBody, p.1 ≠ x := by
    intro x hx p hp
    rw [List.cons_append, List.cons_append] at hp
    rcases List.mem_cons.1 hp with rfl | hp
    · simp only [List.mem_cons, List.not_mem_nil, or_false] at hx
      rcases hx with rfl | rfl | rfl <;> simp
    · rcases List.mem_cons.1 hp with rfl | hp
      · simp only [List.mem_cons, List.not_mem_nil, or_false] at hx
        rcases hx with rfl | rfl | rfl <;> simp
      · exact free x (by simp at hx ⊢; tauto) p hp
  -- the loops
  have op' : ∀ {R : Str} {env : Env} {s : Str} {v : Expr}, Sees env ((c!"result", .str R) :: ([(c!"dim", .int i2),
      (c!"dof", .int dof), (c!"now", .map (nowMap m d y)), (c!"day-of-week", v1), (c!"days-in-month", v2),
      (c!"widget", .map tbl)] ++ opsOf calBody)) →
      ops.lookup s = some v → calBody.usedSymbols.contains s = true → env.get s = some v :=
    fun {R} {_} {_} {_} h hl hm => seen (K := (c!"result", .str R) :: [(c!"dim", .int i2), (c!"dof", .int dof),
      (c!"now", .map (nowMap m d y)), (c!"day-of-week", v1), (c!"days-in-month", v2), (c!"widget", .map tbl)]) h hl hm
  have range6 := yields_range (op' s6 rfl rfl) (yieldsInt_num 0) (yieldsInt_symbol (H := H) (P := P) (L := L)
    (s6 (c!"dof", .int dof) (by simp))) (by decide)
  rw [show (dof.val - (0 : Nat)).toNat = dof.val.toNat by omega] at range6
  obtain ⟨vs7, env7, l7, s7⟩ := blanks_loop (H := H) (P := P) (L := L) (d := 10)
    (fun p hp => ⟨free' _ (by simp) p hp, free' _ (by simp) p hp⟩) rfl s6 (0 : Nat) dof.val.toNat (by decide)
  have a7 := Run.for_ range6 l7
  have range7 := yields_range (op' s7 rfl rfl) (yieldsInt_num 1) (YieldsInt.add (op' s7 rfl rfl)
    (yieldsInt_symbol (H := H) (P := P) (L := L) (s7 (c!"dim", .int i2) (by simp))) (yieldsInt_num 1) (by decide)
    (by omega)) (by decide)
  rw [show (i2.val + (1 : Nat) - (1 : Nat)).toNat = dim by omega] at range7
  obtain ⟨vs8, env8, l8, s8⟩ := days_loop (H := H) (P := P) (L := L) (mod := nowMap m d y) (d := d) (dim := dim)
    ⟨by simp, rfl, fun p hp => ⟨free' _ (by simp) p hp, free' _ (by simp) p hp, free' _ (by simp) p hp⟩, by decide⟩
    (by simp) h6 hdim s7
  have a8 := Run.for_ range7 l8
  -- the box
  have f8 := yields_member (f := c!"create") (op' s8 rfl rfl) (yields_symbol (H := H) (P := P) (L := L)
    (s8 (c!"widget", .map tbl) (by simp))) (by decide) htbl
  have c8 := yields_create (t := c!"Calendar") (wd := .lit 30) (ht := .lit 10) f8
    (yields_symbol (s8 (c!"result", _) List.mem_cons_self)) (by decide) (by decide) (by decide) (by decide)
  refine ⟨env8, ?_⟩
  rw [Int.toNat_of_nonneg h6.1]
  exact (RunDo.block (a1.then_ (a2.then_ (a3.then_ (a4.then_ (a5.then_ (a6.then_ (a7.then_ (a8.then_
    (Run.last c8)))))))))).mono (by simp only [List.length_cons, List.length_nil]; decide)

end

end Dune.Prelude
