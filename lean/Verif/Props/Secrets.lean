import Verif.Model.Secrets
import Verif.Props.WeatherKey
import Verif.Props.Listing

/-! The file with the secrets of the user, in the default prelude. -/

namespace Dune.Props

open Spec Calc Prelude Repl

/-! ### Proofs -/

theorem secretsName_parse (P : Plat) : parseText P secretsNameText = .ok (.do_ [.assign c!"DUNE_SECRETS_FILE"
    (.group (.apply (.symbol c!"+") [.symbol c!"HOME", .str c!"/.dune-secrets"]))]) := by kernel_rfl

theorem secrets_parse (P : Plat) : parseText P secretsText = .ok (.do_ [.ite
    (.group (call c!"fs" c!"exists?" [.symbol c!"DUNE_SECRETS_FILE"]))
    (.do_ [.apply (.symbol c!"include") [.symbol c!"DUNE_SECRETS_FILE"]]) .none]) := by kernel_rfl

theorem city_parse (P : Plat) : parseText P cityText = .ok (.do_ [.assign c!"CITY" (.symbol c!"Knoxville")]) := by
  kernel_rfl

variable {W : Type} {H : Host W} {P : Plat} {L : Lib} {n m : Nat} {env env' env2 env3 : Env} {w w' w1 w3 : W}

/-- C122.  The file is `.dune-secrets` in the home directory. -/
theorem C122_name {home : Str} (hk : Kept [c!"+"] env) (hh : env.get c!"HOME" = some (.str home)) (hn : 9 ≤ n) :
    ∃ env', Entered H P L n w [secretsNameText] env env' ∧
      env'.get c!"DUNE_SECRETS_FILE" = some (.str (home ++ c!"/.dune-secrets")) ∧
      ∀ s, s ≠ c!"DUNE_SECRETS_FILE" → env'.get s = env.get s := by
  have hp : env.get c!"+" = some (.builtin c!"+" .add []) := hk.op (by simp) (by mem_tac)
  have h := (yields_concat (H := H) (P := P) (L := L) hp (yields_symbol hh) (yields_str c!"/.dune-secrets") (by decide))
  exact ⟨_, enter_text (secretsName_parse P) (h.assign.last.block) (by omega) (.nil _),
    by rw [Env.get_define, if_pos rfl], fun s hs => by rw [Env.get_define, if_neg (Ne.symm hs)]⟩

/-- the test -/
theorem secrets_exists {name : Str} {b : Bool} (k : Nat) (hk : Kept [c!"@", c!"fs"] env2)
    (hv : env2.get c!"DUNE_SECRETS_FILE" = some (.str name))
    (hx : H.io (.exists_ (pathJoin env2.getCwd name)) w' = (.bool b, w1)) :
    evalD P H (bodyRun P H (stdB P L) (m + 1)) (k + 4)
      (.group (call c!"fs" c!"exists?" [.symbol c!"DUNE_SECRETS_FILE"])) env2 w' = (.ok (.bool b), env2, w1) := by
  have hd : display P (.str name) = name := rfl
  rw [hk.libD (tbl := Init.fsM) (by simp) (by simp) (by mem_tac) (by mem_tac)]
  have hf : evalN P H (stdB P L) (m + 1) (.symbol c!"DUNE_SECRETS_FILE") env2 w' = (.ok (.str name), env2, w') :=
    evalD_symbol (k := 800) hv
  brun [Builtins.pathTestB, Builtins.pathArg, hf, hd, Builtins.askBool, hx]

/-- C122.  Where there is no such file, nothing happens. -/
theorem C122_missing {name : Str} (hk : Kept [c!"@", c!"fs"] env2)
    (hv : env2.get c!"DUNE_SECRETS_FILE" = some (.str name))
    (hx : H.io (.exists_ (pathJoin env2.getCwd name)) w' = (.bool false, w1)) :
    runText P (evalN P H (stdB P L) (m + 2)) secretsText env2 w' = (.ok .none, env2, w1) := by
  rw [run_of_parse (secrets_parse P), evalN_unfold]
  simp only [evalStep, evalDo]
  show evalD P H (bodyRun P H (stdB P L) (m + 1)) (799 + 1) _ env2 w' = _
  rw [evalD]
  simp only [evalStep]
  rw [M.bind_ok (secrets_exists 795 hk hv hx)]
  simp only [Expr.isTruthy]
  rw [evalD]
  rfl

/-- C122.  Otherwise the program in it runs with the variables of the prelude: its value, effects and assignments are the
only ones, except for the variable `file`, as for `include` (C108). -/
theorem C122_runs {content : W → Str → Option (List UInt8)} (hF : Files H content) (hn : 4 ≤ n)
    (hd : Entered H P L n w [includeText] env env') (hi : env2.get c!"include" = env'.get c!"include")
    (hk : Kept [c!"@", c!"fs", c!"parse", c!"exec"] env2) {name text : Str} {e : Expr}
    (hv : env2.get c!"DUNE_SECRETS_FILE" = some (.str name))
    (hx : H.io (.exists_ (pathJoin env2.getCwd name)) w' = (.bool true, w1))
    (ht : content w1 (pathJoin env2.getCwd name) = some (utf8Encode text)) (hne : text ≠ []) (he : L.parse text = .ok e) :
    runText P (evalN P H (stdB P L) (m + 4)) secretsText env2 w' =
      evalN P H (stdB P L) (m + 3) e (env2.define c!"file" (.str name)) w1 := by
  rw [run_of_parse (secrets_parse P), evalN_unfold]
  simp only [evalStep, evalDo]
  show evalD P H (bodyRun P H (stdB P L) (m + 3)) (799 + 1) _ env2 w' = _
  rw [evalD]
  simp only [evalStep]
  rw [M.bind_ok (secrets_exists 795 (kept_sub hk (by simp)) hv hx)]
  simp only [Expr.isTruthy]
  show evalD P H (bodyRun P H (stdB P L) (m + 3)) (798 + 1) _ env2 w1 = _
  rw [evalD]
  simp only [evalStep, evalDo]
  exact C108_include (k := 795) hF hn hd hi (evalD_symbol hv) hk ht hne he

/-- C122.  The next line sets the city, to a name without meaning, and changes nothing else. -/
theorem C122_city (hu : env.get c!"Knoxville" = none) (hn : 5 ≤ n) :
    ∃ env', Entered H P L n w [cityText] env env' ∧ env'.get c!"CITY" = some (.symbol c!"Knoxville") ∧
      ∀ s, s ≠ c!"CITY" → env'.get s = env.get s := by
  have h : Run H P L 1 env (.symbol c!"Knoxville") (.symbol c!"Knoxville") env := by
    intro n k w hn hk
    obtain ⟨k, rfl, hk⟩ := pos_succ hk
    rw [evalD]
    simp only [evalStep]
    simp [M.bind_def, M.getEnv, hu]
  exact ⟨_, enter_text (city_parse P) (h.assign.last.block) (by omega) (.nil _),
    by rw [Env.get_define, if_pos rfl], fun s hs => by rw [Env.get_define, if_neg (Ne.symm hs)]⟩

/-- C122.  So whatever city the program in the file has set, it is Knoxville afterwards; everything else is as the program
has left it. -/
theorem C122_city_refuted {content : W → Str → Option (List UInt8)} (hF : Files H content) (hn : 4 ≤ n)
    (hd : Entered H P L n w [includeText] env env') (hi : env2.get c!"include" = env'.get c!"include")
    (hk : Kept [c!"@", c!"fs", c!"parse", c!"exec"] env2) {name text : Str} {e r : Expr}
    (hv : env2.get c!"DUNE_SECRETS_FILE" = some (.str name))
    (hx : H.io (.exists_ (pathJoin env2.getCwd name)) w' = (.bool true, w1))
    (ht : content w1 (pathJoin env2.getCwd name) = some (utf8Encode text)) (hne : text ≠ []) (he : L.parse text = .ok e)
    (hr : evalN P H (stdB P L) (m + 4) e (env2.define c!"file" (.str name)) w1 = (.ok r, env3, w3))
    (hu : env3.get c!"Knoxville" = none) :
    ∃ env4, runText P (evalN P H (stdB P L) (m + 5)) secretsText env2 w' = (.ok r, env3, w3) ∧
      runText P (evalN P H (stdB P L) (m + 5)) cityText env3 w3 = (.ok .none, env4, w3) ∧
      env4.get c!"CITY" = some (.symbol c!"Knoxville") ∧ ∀ s, s ≠ c!"CITY" → env4.get s = env3.get s := by
  obtain ⟨env4, h1, h2, h3⟩ := C122_city (H := H) (P := P) (L := L) (n := m + 5) (w := w3) hu (by omega)
  refine ⟨env4, ?_, ?_, h2, h3⟩
  · rw [C122_runs (m := m + 1) hF hn hd hi hk hv hx ht hne he, hr]
  · cases h1 with
    | cons h h' => cases h'; exact h

/-! ### Instances -/

/-- A file system with one file, which is there. -/
def secretsHost : Host (List UInt8) where
  io op w :=
    match op with
    | .exists_ _ => (.bool true, w)
    | op => scriptHost.io op w

theorem secretsHost_files : Files secretsHost (fun w _ => some w) where
  read _ w b h := by cases h; rfl
  write _ _ _ _ := rfl
  append _ _ _ _ h _ := by cases h; rfl
  open_none _ _ h := by cases h
  open_some _ w b _ := ⟨fun _ h => (by cases h), rfl⟩

def parisText : Str := c!"let CITY = \"Paris\"; let k = 2"

theorem paris_parse : realLib.parse parisText = .ok (.do_ [.assign c!"CITY" (.str c!"Paris"), .assign c!"k" (.int (.lit 2))]) := by
  show parseText Demo.plat parisText = _
  kernel_rfl

/-- The file sets the city to Paris: it is Knoxville afterwards, while `k` is 2 as the file says. -/
example : ∃ env' env2 env3 env4,
    Entered secretsHost Demo.plat realLib 9 (utf8Encode parisText) [includeText]
      (Demo.env.define c!"HOME" (.str c!"/home/u")) env' ∧
    Entered secretsHost Demo.plat realLib 9 (utf8Encode parisText) [secretsNameText] env' env2 ∧
    runText Demo.plat (evalN Demo.plat secretsHost (stdB Demo.plat realLib) 9) secretsText env2 (utf8Encode parisText) =
      (.ok .none, env3, utf8Encode parisText) ∧
    runText Demo.plat (evalN Demo.plat secretsHost (stdB Demo.plat realLib) 9) cityText env3 (utf8Encode parisText) =
      (.ok .none, env4, utf8Encode parisText) ∧
    env3.get c!"CITY" = some (.str c!"Paris") ∧ env4.get c!"CITY" = some (.symbol c!"Knoxville") ∧
    env4.get c!"k" = some (.int (.lit 2)) := by
  obtain ⟨env', h, h'⟩ := C108_defines (H := secretsHost) (P := Demo.plat) (L := realLib) (n := 9)
    (w := utf8Encode parisText) (env := Demo.env.define c!"HOME" (.str c!"/home/u")) (.inl ⟨rfl, rfl⟩) (by decide)
  have hg : ∀ s, s ≠ c!"include" → s ≠ c!"HOME" → env'.get s = Demo.env.get s := fun s h1 h2 => by
    rw [h' s h1, Env.get_define, if_neg (Ne.symm h2)]
  obtain ⟨env2, h2, hv, h2'⟩ := C122_name (H := secretsHost) (P := Demo.plat) (L := realLib) (n := 9)
    (w := utf8Encode parisText) (env := env') (home := c!"/home/u")
    ⟨Demo.env, demo_std, fun s hs => hg s (by rintro rfl; revert hs; decide) (by rintro rfl; revert hs; decide)⟩
    (by rw [h' _ (by decide), Env.get_define, if_pos rfl]) (by decide)
  have hg2 : ∀ s, s ≠ c!"include" → s ≠ c!"HOME" → s ≠ c!"DUNE_SECRETS_FILE" → env2.get s = Demo.env.get s :=
    fun s h1 h3 h4 => by rw [h2' s h4, hg s h1 h3]
  obtain ⟨env4, h3, h4, h5, h6⟩ := C122_city_refuted (m := 4) (w' := utf8Encode parisText) (w1 := utf8Encode parisText)
    (w3 := utf8Encode parisText) (r := .none) (text := parisText)
    (env3 := ((env2.define c!"file" (.str c!"/home/u/.dune-secrets")).define c!"CITY" (.str c!"Paris")).define c!"k" (.int (.lit 2)))
    secretsHost_files (by decide) h (h2' _ (by decide))
    ⟨Demo.env, demo_std, fun s hs => hg2 s (by rintro rfl; revert hs; decide) (by rintro rfl; revert hs; decide)
      (by rintro rfl; revert hs; decide)⟩ hv rfl rfl (by decide) paris_parse rfl
    (by
      rw [Env.get_define, if_neg (by decide), Env.get_define, if_neg (by decide), Env.get_define, if_neg (by decide),
        hg2 _ (by decide) (by decide) (by decide)]
      decide +kernel)
  refine ⟨env', env2, _, env4, h, h2, h3, h4, ?_, h5, ?_⟩
  · rw [Env.get_define, if_neg (by decide), Env.get_define, if_pos rfl]
  · rw [h6 _ (by decide), Env.get_define, if_pos rfl]

end Dune.Props
