import Verif.Model.WeatherIcons
import Verif.Props.Commands
import Verif.Proof.Pieces

/-! `get-weather-ascii` of the default prelude. -/

namespace Dune.Props

open Spec Calc Prelude Repl Pieces

/-! ### Specification -/

/-- The pictures. -/
def pictures : List (Str × Str) := [
  (c!"Cloudy", c!"\n     .--.\n  .-(    ).\n (___.__)__)"),
  (c!"Fog", c!" _ - _ - _ -\n  _ - _ - _\n _ - _ - _ -"),
  (c!"HeavyRain", c!"     .-.\n    (   ).\n   (___(__)\n  ‚‘‚‘‚‘‚‘\n  ‚’‚’‚’‚’"),
  (c!"HeavyShowers", c!" _`/\"\".-.\n  ,\\_(   ).\n   /(___(__)\n   ‚‘‚‘‚‘‚‘\n   ‚’‚’‚’‚’"),
  (c!"HeavySnow", c!"     .-.\n    (   ).\n   (___(__)\n   * * * *\n  * * * *"),
  (c!"HeavySnowShowers", c!" _`/\"\".-.\n  ,\\_(   ).\n   /(___(__)\n    * * * *\n   * * * *"),
  (c!"LightRain", c!"     .-.\n    (   ).\n   (___(__)\n    ‘ ‘ ‘ ‘\n   ‘ ‘ ‘ ‘"),
  (c!"LightShowers", c!" _`/\"\".-.\n  ,\\_(   ).\n   /(___(__)\n     ‘ ‘ ‘ ‘\n    ‘ ‘ ‘ ‘"),
  (c!"LightSleet", c!"     .-.\n    (   ).\n   (___(__)\n    ‘ * ‘ *\n   * ‘ * ‘"),
  (c!"LightSleetShowers", c!" _`/\"\".-.\n  ,\\_(   ).\n   /(___(__)\n     ‘ * ‘ *\n    * ‘ * ‘"),
  (c!"LightSnow", c!"     .-.\n    (   ).\n   (___(__)\n    *  *  *\n   *  *  *"),
  (c!"LightSnowShowers", c!" _`/\"\".-.\n  ,\\_(   ).\n   /(___(__)\n     *  *  *\n    *  *  *"),
  (c!"PartlyCloudy", c!"   \\  /\n _ /\"\".-.\n   \\_(   ).\n   /(___(__)"),
  (c!"Sunny", c!"    \\   /   \n     .-.     \n  ― (   ) ―  \n     `-’     \n    /   \\    "),
  (c!"ThunderyHeavyRain", c!"     .-.\n    (   ).\n   (___(__)\n  ‚‘⚡‘‚⚡‚‘\n  ‚’‚’⚡’‚’"),
  (c!"ThunderyShowers", c!" _`/\"\".-.\n  ,\\_(   ).\n   /(___(__)\n    ⚡‘ ‘⚡‘\n    ‘ ‘ ‘ ‘"),
  (c!"ThunderySnowShowers", c!" _`/\"\".-.\n  ,\\_(   ).\n   /(___(__)\n     *⚡*⚡*\n    *  *  *"),
  (c!"Unknown", c!"    .-.      \n     __)     \n    (        \n     `-’     \n      •"),
  (c!"VeryCloudy", c!"\n     .--.\n  .-(    ).\n (___.__)__)")]

/-- The descriptions of the weather, and the pictures for them. -/
def descriptions : List (List Str × Str) := [
  ([c!"light intensity drizzle", c!"drizzle", c!"heavy intensity drizzle", c!"light intensity drizzle rain",
    c!"drizzle rain", c!"heavy intensity drizzle rain", c!"shower rain and drizzle",
    c!"heavy shower rain and drizzle", c!"shower drizzle"], c!"LightShowers"),
  ([c!"shower rain", c!"ragged shower rain", c!"light intensity shower rain"], c!"LightShowers"),
  ([c!"light rain"], c!"LightRain"),
  ([c!"moderate rain", c!"heavy intensity shower rain"], c!"HeavyShowers"),
  ([c!"heavy intensity rain", c!"very heavy rain", c!"extreme rain"], c!"HeavyRain"),
  ([c!"freezing rain"], c!"LightSleet"),
  ([c!"light snow", c!"Snow"], c!"LightSnow"),
  ([c!"Heavy snow"], c!"HeavySnow"),
  ([c!"Sleet"], c!"LightSleet"),
  ([c!"Light shower sleet"], c!"LightSleetShowers"),
  ([c!"Shower sleet", c!"Rain and snow"], c!"HeavySnowShowers"),
  ([c!"Light shower snow", c!"Light rain and snow"], c!"LightSnowShowers"),
  ([c!"Shower snow", c!"Heavy shower snow"], c!"HeavySnowShowers"),
  ([c!"thunderstorm with light rain", c!"thunderstorm with rain", c!"ragged thunderstorm",
    c!"thunderstorm with light drizzle", c!"light thunderstorm", c!"thunderstorm",
    c!"thunderstorm with drizzle", c!"thunderstorm with heavy drizzle"], c!"ThunderyShowers"),
  ([c!"thunderstorm with heavy rain", c!"heavy thunderstorm"], c!"ThunderyHeavyRain"),
  ([c!"clear sky"], c!"Sunny"),
  ([c!"few clouds"], c!"PartlyCloudy"),
  ([c!"scattered clouds"], c!"Cloudy"),
  ([c!"broken clouds"], c!"Cloudy"),
  ([c!"overcast clouds"], c!"VeryCloudy"),
  ([c!"mist", c!"Smoke", c!"Haze", c!"sand/ dust whirls", c!"fog", c!"sand", c!"dust", c!"volcanic ash",
    c!"squalls", c!"tornado"], c!"Fog")]

/-- A picture that fits into the frame of the weather, which is 15 wide and 7 high. -/
def FitsFrame (p : Str) : Prop := (p.splitOn '\n').length ≤ 5 ∧ ∀ l ∈ p.splitOn '\n', l.length ≤ 13

/-- The picture for a text, or for None: the one of the row with the text, if there is such a row. -/
def Shown (s : Option Str) (p : Str) : Prop := ∃ name, (name, p) ∈ pictures ∧
  ((∃ row ∈ descriptions, (∃ d ∈ row.1, s = some d) ∧ name = row.2) ∨
    (∀ row ∈ descriptions, ∀ d ∈ row.1, s ≠ some d) ∧ name = c!"Unknown")

/-- a text, or None -/
def descOf : Option Str → Expr
  | some s => .str s
  | none => .none

instance (p : Str) : Decidable (FitsFrame p) := inferInstanceAs (Decidable (_ ∧ _))

/-! ### Proofs -/

/-- the value of `WEATHER-ASCII` -/
def asciiBody : List (Str × Expr) := pictures.map fun q => (q.1, .str q.2)

/-- `desc == "…"` -/
def isIt (d : Str) : Expr := infix_ c!"==" (.symbol c!"desc") (.str d)

/-- `desc == "…" || …` -/
def anyOf : List Str → Expr
  | [] => .none
  | d :: ds => ds.foldl (fun e x => infix_ c!"||" e (isIt x)) (isIt d)

/-- `WEATHER-ASCII@name` -/
def iconOf (name : Str) : Expr := .apply (.symbol c!"@") [.symbol c!"WEATHER-ASCII", .symbol name]

/-- `if … else if … else WEATHER-ASCII@Unknown` -/
def branches : List (List Str × Str) → Expr
  | [] => iconOf c!"Unknown"
  | (ds, name) :: cs => .ite (anyOf ds) (iconOf name) (.group (branches cs))

/-- the body of `get-weather-ascii` -/
def getAsciiBody : Expr := .do_ [branches descriptions]

theorem ascii_parse (P : Plat) : parseText P asciiText =
    .ok (.do_ [.assign c!"WEATHER-ASCII" (.map asciiBody)]) := by kernel_rfl

/-! The text of `get-weather-ascii` is long, so its reading is derived from the grammar. -/

/-- `desc == "…"` -/
def isItWords (d : Str) : List Word := [(.symbol, c!"desc"), ow c!"==", (.stringLiteral, '"' :: d ++ ['"'])]

/-- `desc == "…" || …` -/
def anyOfWords : List Str → List Word
  | [] => []
  | d :: ds => ds.foldl (fun u x => u ++ ow c!"||" :: isItWords x) (isItWords d)

/-- `WEATHER-ASCII@name` -/
def iconWords (name : Str) : List Word := [(.symbol, c!"WEATHER-ASCII"), ow c!"@", (.symbol, name)]

/-- `if … else if … else WEATHER-ASCII@Unknown` -/
def branchWords : List (List Str × Str) → List Word
  | [] => iconWords c!"Unknown"
  | (ds, name) :: cs => kw c!"if" :: (anyOfWords ds ++ (iconWords name ++ kw c!"else" :: branchWords cs))

def getAsciiWords : List Word :=
  kw c!"let" :: (.symbol, c!"get-weather-ascii") :: pw c!"=" :: (.symbol, c!"desc") :: pw c!"->" :: pw c!"{" ::
    (branchWords descriptions ++ [pw c!"}", pw c!";"])

theorem getAscii_words : Words getAsciiText getAsciiWords :=
  Pieces.words_of_check (n := 2000) (by kernel_rfl)

theorem g_name {P : Plat} {x : Str} (h : x ∉ reserved) : G P .base [(.symbol, x)] (.symbol x) := .atom (.name h)

theorem g_isIt {P : Plat} {d : Str} (h : isPlain d = true) : G P .cmp (isItWords d) (isIt d) :=
  .rel (.compare (u := [(.symbol, c!"desc")]) (op := c!"==") (.sum (.prod (.two (.base (g_name (by decide)))))) (by decide)
    (.prod (.two (.base (.atom (.str ⟨d, denotes_plain h, .inr rfl⟩))))))

theorem g_anyOf {P : Plat} {ds : List Str} (h0 : ds ≠ []) (h : ∀ d ∈ ds, isPlain d = true) :
    G P .logic (anyOfWords ds) (anyOf ds) := by
  cases ds with
  | nil => exact absurd rfl h0
  | cons d ds =>
    have : ∀ (ds : List Str) (u : List Word) (e : Expr), (∀ x ∈ ds, isPlain x = true) → G P .logic u e →
        G P .logic (ds.foldl (fun u x => u ++ ow c!"||" :: isItWords x) u)
          (ds.foldl (fun e x => infix_ c!"||" e (isIt x)) e) := by
      intro ds
      induction ds with
      | nil => exact fun _ _ _ h => h
      | cons x ds ih =>
        exact fun u e h hu => ih _ _ (fun y hy => h y (List.mem_cons_of_mem _ hy))
          (.logic (op := c!"||") hu (by decide) (g_isIt (h x (List.mem_cons_self ..))))
    exact this ds _ _ (fun x hx => h x (List.mem_cons_of_mem _ hx)) (.cmp (g_isIt (h d (List.mem_cons_self ..))))

theorem g_icon {P : Plat} {name : Str} (h : name ∉ reserved) : G P .sum (iconWords name) (iconOf name) :=
  .prod (.two (.access (u := [(.symbol, c!"WEATHER-ASCII")]) (v := [ow c!"@", (.symbol, name)]) (g_name (by decide))
    (.field (g_name h))))

theorem g_branches {P : Plat} : ∀ (cs : List (List Str × Str)) (ds : List Str) (name : Str),
    (∀ row ∈ (ds, name) :: cs, row.1 ≠ [] ∧ (∀ d ∈ row.1, isPlain d = true) ∧ row.2 ∉ reserved) →
    G P .cond (branchWords ((ds, name) :: cs)) (branches ((ds, name) :: cs))
  | [], ds, name, h => by
    obtain ⟨h1, h2, h3⟩ := h _ (List.mem_cons_self ..)
    exact .iteElse (g_anyOf h1 h2) (g_icon h3) (g_icon (by decide))
  | (ds', name') :: cs, ds, name, h => by
    obtain ⟨h1, h2, h3⟩ := h _ (List.mem_cons_self ..)
    exact .elseIf (g_anyOf h1 h2) (g_icon h3) (g_branches cs ds' name' fun row hr => h row (List.mem_cons_of_mem _ hr))

theorem getAscii_parse (P : Plat) : parseText P getAsciiText =
    .ok (.do_ [.assign c!"get-weather-ascii" (.lambda c!"desc" getAsciiBody [] [])]) := by
  refine C67_grammar getAscii_words ?_
  have hb : G P .cond (branchWords descriptions) (branches descriptions) := g_branches _ _ _ (by decide +kernel)
  have he : G P .expr (pw c!"{" :: (branchWords descriptions ++ [pw c!"}"])) getAsciiBody :=
    .seven (.noCall (.cmp (.rel (.sum (.prod (.two (.base (.block (.last (.ctrl (.cond hb))) (by simp [descriptions, branchWords]))))))))) 
  have := G.stmt (G.let_ (w := (.symbol, c!"get-weather-ascii")) (.inl ⟨rfl, by decide⟩) (G.lambda (x := c!"desc") (by decide) he)) G.done
  simpa [getAsciiWords] using this

/-- the picture that is chosen -/
def chosen : List (List Str × Str) → Option Str → Str
  | [], _ => c!"Unknown"
  | (ds, name) :: cs, s => if ∃ d ∈ ds, s = some d then name else chosen cs s

theorem chosen_of_mem : ∀ row ∈ descriptions, ∀ s ∈ row.1, chosen descriptions (some s) = row.2 := by decide +kernel

theorem chosen_unknown {s : Option Str} : ∀ {cs : List (List Str × Str)}, (∀ row ∈ cs, ∀ d ∈ row.1, s ≠ some d) →
    chosen cs s = c!"Unknown"
  | [], _ => rfl
  | (ds, name) :: cs, h => by
    rw [chosen, if_neg, chosen_unknown fun row hr => h row (List.mem_cons_of_mem _ hr)]
    rintro ⟨d, hd, e⟩
    exact h _ (List.mem_cons_self ..) d hd e

theorem pictures_fit : ∀ q ∈ pictures, FitsFrame q.2 := by decide +kernel

theorem ascii_get : ∀ q ∈ pictures, BMap.get? asciiBody q.1 = some (.str q.2) := by
  have get : ∀ (l : List (Str × Str)) (x : Str), BMap.get? (l.map fun q => (q.1, Expr.str q.2)) x =
      (BMap.get? l x).map .str := by
    intro l x
    induction l with
    | nil => rfl
    | cons q l ih =>
      simp only [List.map_cons, BMap.get?]
      split
      · rfl
      · exact ih
  have : ∀ q ∈ pictures, BMap.get? pictures q.1 = some q.2 := by decide +kernel
  intro q hq
  rw [asciiBody, get, this q hq]
  rfl

theorem chosen_picture (s : Option Str) : ∃ p, (chosen descriptions s, p) ∈ pictures := by
  have : ∀ name ∈ c!"Unknown" :: descriptions.map Prod.snd, name ∈ pictures.map Prod.fst := by decide +kernel
  have hc : ∀ cs : List (List Str × Str), chosen cs s ∈ c!"Unknown" :: cs.map Prod.snd := by
    intro cs
    induction cs with
    | nil => simp [chosen]
    | cons c cs ih =>
      rw [chosen]
      split
      · simp
      · simp only [List.mem_cons, List.map_cons] at ih ⊢
        tauto
  obtain ⟨q, hq, e⟩ := List.mem_map.1 (this _ (hc descriptions))
  exact ⟨q.2, by rw [← e]; exact hq⟩

section

variable {W : Type} {H : Host W} {P : Plat} {L : Lib} {d d1 d2 : Nat} {env : Env}

theorem yields_or {x y : Expr} {p q : Bool} (hf : env.get c!"||" = some (.builtin c!"||" .or []))
    (hx : Yields H P L d1 env x (.bool p)) (hy : Yields H P L d2 env y (.bool q)) (hd : max d1 d2 ≤ 800) :
    Yields H P L (max d1 d2 + 3) env (infix_ c!"||" x y) (.bool (p || q)) := by
  refine Run.group (yields_builtin2 hf hx hy (yields_bool p) ?_ hd)
  intro ev0 h1 h2 h3 w
  simp only [stdB, Builtins.orB, Builtins.evAll, BProg.run_bind, BProg.run_ret, BProg.run_ev, pure_bind]
  rw [M.bind_ok (M.bind_ok (h1 w) |>.trans (M.bind_ok (M.bind_ok (h2 w) |>.trans rfl)))]
  simp [Expr.isTruthy]

theorem yields_isIt {s : Option Str} (hf : env.get c!"==" = some (.builtin c!"==" .eq []))
    (hx : env.get c!"desc" = some (descOf s)) (t : Str) :
    Yields H P L 4 env (isIt t) (.bool (decide (s = some t))) := by
  refine Run.group (yields_builtin2 hf (yields_symbol hx) (yields_str t) ?_ ?_ (by decide))
  · cases s with
    | none => exact yields_none
    | some s => exact yields_str s
  intro ev0 h1 h2 h3 w
  simp only [stdB, Builtins.cmpB, Builtins.evArg, Builtins.arg, List.getElem?_cons_succ,
        List.getElem?_cons_zero, BProg.run_bind, BProg.run_ret, pure_bind, BProg.run_ev]
  rw [M.bind_ok (h1 w), M.bind_ok (h2 w)]
  cases s <;> simp [Expr.beq, descOf]

theorem yields_chain {s : Option Str} (hf : env.get c!"==" = some (.builtin c!"==" .eq []))
    (ho : env.get c!"||" = some (.builtin c!"||" .or [])) (hx : env.get c!"desc" = some (descOf s)) :
    ∀ (ds : List Str) (e : Expr) (b : Bool) (d : Nat), 4 ≤ d → d + 3 * ds.length ≤ 800 → Yields H P L d env e (.bool b) →
      Yields H P L (d + 3 * ds.length) env (ds.foldl (fun e x => infix_ c!"||" e (isIt x)) e)
        (.bool (b || decide (∃ x ∈ ds, s = some x)))
  | [], e, b, d, _, _, h => by simpa using h
  | t :: ds, e, b, d, h4, hd, h => by
    simp only [List.length_cons] at hd
    have h1 := yields_or ho h (yields_isIt hf hx t) (by omega)
    have := yields_chain hf ho hx ds _ _ (d + 3) (by omega) (by omega) (h1.mono (by omega))
    rw [List.foldl_cons]
    have e : (b || decide (∃ x ∈ t :: ds, s = some x)) =
        ((b || decide (s = some t)) || decide (∃ x ∈ ds, s = some x)) := by
      simp [Bool.decide_or, Bool.or_assoc]
    rw [e]
    exact this.mono (by simp only [List.length_cons]; omega)

theorem yields_anyOf {s : Option Str} (hf : env.get c!"==" = some (.builtin c!"==" .eq []))
    (ho : env.get c!"||" = some (.builtin c!"||" .or [])) (hx : env.get c!"desc" = some (descOf s)) {ds : List Str}
    (h0 : ds ≠ []) (hl : ds.length ≤ 10) :
    Yields H P L 34 env (anyOf ds) (.bool (decide (∃ x ∈ ds, s = some x))) := by
  cases ds with
  | nil => exact absurd rfl h0
  | cons t ds =>
    simp only [List.length_cons] at hl
    have := yields_chain (H := H) (P := P) (L := L) hf ho hx ds _ _ 4 (by omega) (by omega) (yields_isIt hf hx t)
    have e : decide (∃ x ∈ t :: ds, s = some x) = (decide (s = some t) || decide (∃ x ∈ ds, s = some x)) := by
      simp [Bool.decide_or]
    rw [e]
    exact this.mono (by omega)

theorem yields_branches {s : Option Str} (hf : env.get c!"==" = some (.builtin c!"==" .eq []))
    (ho : env.get c!"||" = some (.builtin c!"||" .or [])) (hx : env.get c!"desc" = some (descOf s))
    (ha : env.get c!"@" = some (.builtin c!"@" .index [])) (hw : env.get c!"WEATHER-ASCII" = some (.map asciiBody)) :
    ∀ (cs : List (List Str × Str)) (p : Str), (∀ row ∈ cs, row.1 ≠ [] ∧ row.1.length ≤ 10) →
      BMap.get? asciiBody (chosen cs s) = some (.str p) →
      Yields H P L (40 + 2 * cs.length) env (branches cs) (.str p)
  | [], p, _, hp => (yields_member ha (yields_symbol hw) (by decide) hp).mono (by decide)
  | (ds, name) :: cs, p, h, hp => by
    obtain ⟨h1, h2⟩ := h _ (List.mem_cons_self ..)
    refine Run.mono (Run.iteB (d1 := 40 + 2 * cs.length + 1) (yields_anyOf hf ho hx h1 h2) ?_ ?_)
      (by simp only [List.length_cons]; omega)
    · intro hd
      rw [chosen, if_pos hd] at hp
      exact (yields_member ha (yields_symbol hw) (by decide) hp).mono (by omega)
    · intro hd
      rw [chosen, if_neg hd] at hp
      exact (yields_branches hf ho hx ha hw cs p (fun row hr => h row (List.mem_cons_of_mem _ hr)) hp).group

theorem ofList_str (l : List (Str × Str)) : BMap.ofList (l.map fun q => (q.1, Expr.str q.2)) =
    (BMap.ofList l).map fun q => (q.1, Expr.str q.2) := by
  have ins : ∀ (m : List (Str × Str)) (x v : Str), BMap.insert (m.map fun q => (q.1, Expr.str q.2)) x (.str v) =
      (BMap.insert m x v).map fun q => (q.1, Expr.str q.2) := by
    intro m x v
    induction m with
    | nil => rfl
    | cons q m ih =>
      simp only [List.map_cons, BMap.insert]
      split
      · rfl
      · rfl
      · rw [ih]; rfl
  have ext : ∀ (l m : List (Str × Str)), BMap.extend (m.map fun q => (q.1, Expr.str q.2)) (l.map fun q => (q.1, Expr.str q.2)) =
      (BMap.extend m l).map fun q => (q.1, Expr.str q.2) := by
    intro l
    induction l with
    | nil => exact fun _ => rfl
    | cons q l ih =>
      intro m
      rw [List.map_cons, BMap.extend, ins, ih]
      rfl
  exact ext l []

theorem ascii_run : Run H P L 4 env (.do_ [.assign c!"WEATHER-ASCII" (.map asciiBody)]) .none
    (env.define c!"WEATHER-ASCII" (.map asciiBody)) := by
  have sorted : BMap.ofList pictures = pictures := by decide +kernel
  have vals : ∀ (l : List (Str × Str)) (n k : Nat) (w : W), 1 ≤ k →
      evalMap (evalD P H (bodyRun P H (stdB P L) (n + 1)) k) (l.map fun q => (q.1, Expr.str q.2)) env w =
        (.ok (l.map fun q => (q.1, Expr.str q.2)), env, w) := by
    intro l n k w hk
    obtain ⟨k, rfl, -⟩ := pos_succ hk
    induction l with
    | nil => rfl
    | cons q l ih =>
      rw [List.map_cons, evalMap, M.bind_ok (yields_str (H := H) (P := P) (L := L) q.2 (n + 1) (k + 1) w (by omega) (by omega)), M.bind_ok ih]
      rfl
  refine RunDo.block (d := 3) (Run.last (Run.assign (d := 2) (fun n k w hn hk => ?_)))
  obtain ⟨n, rfl, -⟩ := pos_succ hn
  obtain ⟨k, rfl, hk⟩ := pos_succ hk
  rw [evalD]
  simp only [evalStep]
  rw [asciiBody, M.bind_ok (vals pictures n k w (by omega)), ofList_str, sorted]
  rfl

theorem chosen_shown {s : Option Str} {p : Str} (h : Shown s p) : (chosen descriptions s, p) ∈ pictures := by
  obtain ⟨name, hp, ⟨row, hr, ⟨d, hd, rfl⟩, rfl⟩ | ⟨hn, rfl⟩⟩ := h
  · rwa [chosen_of_mem row hr d hd]
  · rwa [chosen_unknown hn]

theorem shown_exists (s : Option Str) : ∃ p, Shown s p := by
  by_cases h : ∃ row ∈ descriptions, ∃ d ∈ row.1, s = some d
  · obtain ⟨row, hr, d, hd, rfl⟩ := h
    obtain ⟨p, hp⟩ := chosen_picture (some d)
    exact ⟨p, _, hp, .inl ⟨row, hr, ⟨d, hd, rfl⟩, chosen_of_mem row hr d hd⟩⟩
  · push Not at h
    obtain ⟨p, hp⟩ := chosen_picture s
    exact ⟨p, _, hp, .inr ⟨h, chosen_unknown h⟩⟩

variable {w w' : W} {n m : Nat} {env' env2 : Env}

theorem ascii_define (hk : Kept [c!"==", c!"||", c!"@"] env) :
    ∃ v, Run H P L 3 (env.define c!"WEATHER-ASCII" (.map asciiBody))
        (.do_ [.assign c!"get-weather-ascii" (.lambda c!"desc" getAsciiBody [] [])]) .none
        ((env.define c!"WEATHER-ASCII" (.map asciiBody)).define c!"get-weather-ascii" v) ∧
      IsFun H P L 90 1 (fun as r => ∃ s p, as = [descOf s] ∧ (chosen descriptions s, p) ∈ pictures ∧ r = .str p) v := by
  refine run_define (H := H) (P := P) (L := L) (d := 90) (f := c!"get-weather-ascii") (p := c!"desc") (ps := [])
    (body := getAsciiBody) (K := [(c!"==", .builtin c!"==" .eq []), (c!"||", .builtin c!"||" .or []),
      (c!"@", .builtin c!"@" .index []), (c!"WEATHER-ASCII", .map asciiBody)]) (by decide) (by decide +kernel) ?_ ?_ ?_
  · intro q hq
    simp only [List.mem_cons, List.not_mem_nil, or_false] at hq
    rcases hq with rfl | rfl | rfl | rfl
    · exact ⟨(by decide +kernel : Mentions getAsciiBody c!"=="), (by decide : c!"==" ∉ _), (by decide : c!"==" ≠ _)⟩
    · exact ⟨(by decide +kernel : Mentions getAsciiBody c!"||"), (by decide : c!"||" ∉ _), (by decide : c!"||" ≠ _)⟩
    · exact ⟨(by decide +kernel : Mentions getAsciiBody c!"@"), (by decide : c!"@" ∉ _), (by decide : c!"@" ≠ _)⟩
    · exact ⟨(by decide +kernel : Mentions getAsciiBody c!"WEATHER-ASCII"), (by decide : c!"WEATHER-ASCII" ∉ _),
        (by decide : c!"WEATHER-ASCII" ≠ _)⟩
  · intro q hq
    simp only [List.mem_cons, List.not_mem_nil, or_false] at hq
    rcases hq with rfl | rfl | rfl | rfl
    · rw [Env.get_define, if_neg (by decide)]; exact hk.op (by simp) (by mem_tac)
    · rw [Env.get_define, if_neg (by decide)]; exact hk.op (by simp) (by mem_tac)
    · rw [Env.get_define, if_neg (by decide)]; exact hk.op (by simp) (by mem_tac)
    · rw [Env.get_define, if_pos rfl]
  · rintro env as r - ⟨s, p, rfl, hp, rfl⟩ hs
    have h1 := hs (c!"==", .builtin c!"==" .eq []) (by simp)
    have h2 := hs (c!"||", .builtin c!"||" .or []) (by simp)
    have h3 := hs (c!"@", .builtin c!"@" .index []) (by simp)
    have h4 := hs (c!"WEATHER-ASCII", .map asciiBody) (by simp)
    have h5 := hs (c!"desc", descOf s) (by simp)
    exact ⟨env, (RunDo.block (Run.last (yields_branches h1 h2 h5 h3 h4 descriptions p (by decide +kernel)
      (ascii_get _ hp)))).mono (by decide)⟩

/-- C119.  Entering the two definitions changes only these names. -/
theorem C119_defines (hk : Kept [c!"==", c!"||", c!"@"] env) (hn : 5 ≤ n) :
    ∃ env', Entered H P L n w [asciiText, getAsciiText] env env' ∧
      ∀ s, s ≠ c!"WEATHER-ASCII" → s ≠ c!"get-weather-ascii" → env'.get s = env.get s := by
  obtain ⟨v, hr, -⟩ := ascii_define (H := H) (P := P) (L := L) hk
  exact ⟨_, enter_text (ascii_parse P) ascii_run (by omega) (enter_text (getAscii_parse P) hr (by omega) (.nil _)),
    fun s h1 h2 => by rw [Env.get_define, if_neg (Ne.symm h2), Env.get_define, if_neg (Ne.symm h1)]⟩

/-- C119.  `get-weather-ascii` of a text or of None is the picture for it, also if the table of the pictures, or an
operator, has another meaning now.  Nothing else happens. -/
theorem C119_picture (hk : Kept [c!"==", c!"||", c!"@"] env) (hn : 5 ≤ n)
    (he : Entered H P L n w [asciiText, getAsciiText] env env')
    (hf : env2.get c!"get-weather-ascii" = env'.get c!"get-weather-ascii") (hm : 100 ≤ m) {x : Expr} {s : Option Str}
    (hx : Gives H P L env2 x (descOf s)) {p : Str} (hp : Shown s p) :
    evalN P H (stdB P L) m (.apply (.symbol c!"get-weather-ascii") [x]) env2 w' = (.ok (.str p), env2, w') := by
  obtain ⟨v, hr, hv⟩ := ascii_define (H := H) (P := P) (L := L) hk
  cases he.unique (enter_text (ascii_parse P) ascii_run (by omega) (enter_text (getAscii_parse P) hr (by omega) (.nil _)))
  rw [Env.get_define, if_pos rfl] at hf
  exact Run.evalN (yields_call [x] [descOf s] (.cons (gives_yields hx) .nil) _ _ _ _ (yields_symbol hf) hv
    ⟨s, p, rfl, chosen_shown hp, rfl⟩) (by simp; omega) (by simp) w'

/-- C119.  Whatever the text, there is a picture, and it fits into the frame. -/
theorem C119_fits (hk : Kept [c!"==", c!"||", c!"@"] env) (hn : 5 ≤ n)
    (he : Entered H P L n w [asciiText, getAsciiText] env env')
    (hf : env2.get c!"get-weather-ascii" = env'.get c!"get-weather-ascii") (hm : 100 ≤ m) {x : Expr} {s : Option Str}
    (hx : Gives H P L env2 x (descOf s)) :
    ∃ p, FitsFrame p ∧
      evalN P H (stdB P L) m (.apply (.symbol c!"get-weather-ascii") [x]) env2 w' = (.ok (.str p), env2, w') := by
  obtain ⟨p, hp⟩ := shown_exists s
  exact ⟨p, pictures_fit _ (chosen_shown hp), C119_picture hk hn he hf hm hx hp⟩

/-- C119.  The case of the letters matters: two texts that differ in nothing else may have different pictures. -/
theorem C119_case_refuted (hk : Kept [c!"==", c!"||", c!"@"] env) (hn : 5 ≤ n)
    (he : Entered H P L n w [asciiText, getAsciiText] env env') (hm : 100 ≤ m) :
    ¬ ∀ s t : Str, s.map Char.toLower = t.map Char.toLower →
      (evalN P H (stdB P L) m (.apply (.symbol c!"get-weather-ascii") [.str s]) env' w').1 =
        (evalN P H (stdB P L) m (.apply (.symbol c!"get-weather-ascii") [.str t]) env' w').1 := by
  intro h
  have h1 := C119_picture (w' := w') hk hn he rfl hm (x := .str c!"Snow") (s := some c!"Snow") (fun m k w => by rw [evalD]; rfl)
    (p := c!"     .-.\n    (   ).\n   (___(__)\n    *  *  *\n   *  *  *")
    ⟨c!"LightSnow", by simp [pictures], .inl (by decide +kernel)⟩
  have h2 := C119_picture (w' := w') hk hn he rfl hm (x := .str c!"snow") (s := some c!"snow") (fun m k w => by rw [evalD]; rfl)
    (p := c!"    .-.      \n     __)     \n    (        \n     `-’     \n      •")
    ⟨c!"Unknown", by simp [pictures], .inr (by decide +kernel)⟩
  have := h c!"Snow" c!"snow" (by decide)
  rw [h1, h2] at this
  simp at this

/-- C119.  No text has the picture of a thunderstorm with snow. -/
theorem C119_never (hk : Kept [c!"==", c!"||", c!"@"] env) (hn : 5 ≤ n)
    (he : Entered H P L n w [asciiText, getAsciiText] env env')
    (hf : env2.get c!"get-weather-ascii" = env'.get c!"get-weather-ascii") (hm : 100 ≤ m) {x : Expr} {s : Option Str}
    (hx : Gives H P L env2 x (descOf s)) {p : Str} (hp : (c!"ThunderySnowShowers", p) ∈ pictures) :
    (evalN P H (stdB P L) m (.apply (.symbol c!"get-weather-ascii") [x]) env2 w').1 ≠ .ok (.str p) := by
  obtain ⟨q, hq⟩ := shown_exists s
  rw [C119_picture hk hn he hf hm hx hq]
  intro h
  simp only [Outcome.ok.injEq, Expr.str.injEq] at h
  subst h
  have hn : ∀ row ∈ descriptions, row.2 ≠ c!"ThunderySnowShowers" := by decide +kernel
  have hu : ∀ a ∈ pictures, ∀ b ∈ pictures, a.2 = b.2 → b.1 = c!"ThunderySnowShowers" → a.1 = b.1 := by decide +kernel
  obtain ⟨name, hp', ⟨row, hr, -, rfl⟩ | ⟨-, rfl⟩⟩ := hq
  · exact hn row hr (hu _ hp' _ hp rfl rfl)
  · exact absurd (hu _ hp' _ hp rfl rfl) (by simp)

end

/-- Clear sky, in the demonstration shell. -/
example : ∃ env', Entered Demo.host Demo.plat Demo.lib 9 [] [asciiText, getAsciiText] Demo.env env' ∧
    evalN Demo.plat Demo.host (stdB Demo.plat Demo.lib) 100 (.apply (.symbol c!"get-weather-ascii") [.str c!"clear sky"])
      env' [] = (.ok (.str c!"    \\   /   \n     .-.     \n  ― (   ) ―  \n     `-’     \n    /   \\    "), env', []) := by
  have hk := kept_of_std demo_std [c!"==", c!"||", c!"@"]
  obtain ⟨env', h, -⟩ := C119_defines (H := Demo.host) (P := Demo.plat) (L := Demo.lib) (n := 9) (w := []) hk (by decide)
  exact ⟨env', h, C119_picture (s := some c!"clear sky") hk (by decide) h rfl (by decide) (fun m k w => by rw [evalD]; rfl)
    ⟨c!"Sunny", by simp [pictures], .inl (by decide +kernel)⟩⟩

example : Shown (some c!"clear sky") c!"    \\   /   \n     .-.     \n  ― (   ) ―  \n     `-’     \n    /   \\    " :=
  ⟨c!"Sunny", by simp [pictures], .inl (by decide +kernel)⟩

example : Shown none c!"    .-.      \n     __)     \n    (        \n     `-’     \n      •" :=
  ⟨c!"Unknown", by simp [pictures], .inr (by decide +kernel)⟩

end Dune.Props
