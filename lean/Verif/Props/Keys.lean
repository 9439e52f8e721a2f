import Verif.Props.Terminal

/-! C85: the keys that `console@keyboard@read-key` reads. -/

namespace Dune.Props

open Spec

/-- Every name in `console@keyboard@keys`, with the keys which a program that compares what it read
with this name takes for it.  The first one is the key of that name, except for the function keys. -/
def takenFor : List (Str × List Key) := [
  (c!"enter", [.enter, .char '\n']), (c!"backspace", [.backspace, .char '\x08']),
  (c!"delete", [.delete, .char '\x7f']), (c!"left", [.left]), (c!"right", [.right]), (c!"up", [.up]),
  (c!"down", [.down]), (c!"home", [.home]), (c!"end", [.end_]), (c!"page-up", [.pageUp, .f 5]),
  (c!"page-down", [.pageDown, .f 6]), (c!"tab", [.tab, .char '\t']), (c!"esc", [.esc, .char '\x1b']),
  (c!"insert", [.insert, .f 2]), (c!"null", [.null, .char '\x00']), (c!"back-tab", [.backTab]),
  (c!"f1", [.f 11]), (c!"f2", [.f 12]), (c!"f3", [.f 13]), (c!"f4", [.f 14]), (c!"f5", [.f 15]),
  (c!"f6", [.f 17]), (c!"f7", [.f 18]), (c!"f8", [.f 19]), (c!"f9", [.f 20]), (c!"f10", [.f 21]),
  (c!"f11", [.f 23]), (c!"f12", [.f 24])]

/-- `console@keyboard@keys@name` -/
def keyNamed (name : Str) : Expr :=
  .apply (.symbol c!"@") [.symbol c!"console", .symbol c!"keyboard", .symbol c!"keys", .symbol name]

/-- the text of the name, and the keys which have this text -/
theorem takenFor_text {name : Str} {ks : List Key} (h : (name, ks) ∈ takenFor) :
    ∃ s, BMap.get? (BMap.ofList Init.keysM) name = some (.str s) ∧
      ∀ k, Builtins.keyText k = some s ↔ k ∈ ks := by
  have key : ∀ p ∈ takenFor, ∃ s, BMap.get? (BMap.ofList Init.keysM) p.1 = some (.str s) ∧
      ∀ k, Builtins.keyText k = some s ↔ k ∈ p.2 := by
    simp only [takenFor, List.forall_mem_cons, List.not_mem_nil, false_imp_iff, implies_true, and_true]
    refine ⟨?_, ?_, ?_, ?_, ?_, ?_, ?_, ?_, ?_, ?_, ?_, ?_, ?_, ?_, ?_, ?_, ?_, ?_, ?_, ?_, ?_, ?_, ?_,
      ?_, ?_, ?_, ?_, ?_⟩
    all_goals
      refine ⟨_, rfl, fun k => ?_⟩
      cases k <;> simp [Builtins.keyText]
    all_goals
      first
      | intro h
        exact absurd (congrArg List.getLast? h) (by simp)
      | constructor
        · intro h
          have h' := congrArg (fun s => decimal s.dropLast) h
          simp only [List.dropLast_concat, decimal_natToStr] at h'
          exact h'.trans (by decide)
        · rintro rfl
          decide
  exact key _ h

section

variable {W : Type} {P : Plat} {H : Host W} {L : Lib} {n : Nat} {env : Env} {w w1 : W}

theorem eval_keyNamed (hs : Std env) {name s : Str}
    (hg : BMap.get? (BMap.ofList Init.keysM) name = some (.str s)) :
    evalN P H (stdB P L) (n + 1) (keyNamed name) env w = (.ok (.str s), env, w) := by
  obtain ⟨t, ht, h⟩ := hs.mod (c!"console", Init.consoleM) (by mem_tac)
  have ht' : env.get c!"console" = some (.map t) := ht
  have hat : env.get c!"@" = some (.builtin c!"@" .index []) :=
    hs.op (Init.b c!"@" .index) (by mem_tac)
  have hd : t.get? c!"keyboard" = some (.map (BMap.ofList Init.keyboardM)) :=
    h (c!"keyboard", .map (BMap.ofList Init.keyboardM)) (by mem_tac)
  have hk : BMap.get? (BMap.ofList Init.keyboardM) c!"keys" = some (.map (BMap.ofList Init.keysM)) := rfl
  rw [keyNamed, evalN_symbol hat, evalN_builtin]
  simp only [stdB, Builtins.indexB, Builtins.evArg, Builtins.arg,
    List.getElem?_cons_zero, BProg.run_bind, BProg.run_ret, pure_bind, BProg.run_ev, List.tail_cons,
    Builtins.indexLoop]
  rw [M.bind_ok (evalN_sym ht')]
  simp only [Expr.index, hd, hk, Option.getD_some, hg]
  rfl

theorem eval_readKey (hs : Std env) (args : List Expr) {k : Key}
    (hio : H.io .readEvent w = (.key (some k), w1)) :
    evalN P H (stdB P L) (n + 1) (call2 c!"console" c!"keyboard" c!"read-key" args) env w =
      (.ok (match Builtins.keyText k with | some s => .str s | none => .none), env, w1) := by
  rw [eval_console2 hs (tbl := Init.keyboardM) (nm := c!"read-key") (id := .cReadKey) (hlp := [])
    (by mem_tac) rfl, evalN_builtin]
  cases h : Builtins.keyText k <;> brun [Builtins.readKeyB, M.io, hio, h]

/-- C85.  What `console@keyboard@read-key` gives for a pressed key is the value of
`console@keyboard@keys@name` for exactly the keys listed with this name. -/
theorem C85_taken (hs : Std env) (args : List Expr) {name : Str} {ks : List Key}
    (h : (name, ks) ∈ takenFor) {k : Key} (hio : H.io .readEvent w = (.key (some k), w1)) :
    ∃ v s, evalN P H (stdB P L) (n + 1) (call2 c!"console" c!"keyboard" c!"read-key" args) env w =
        (.ok v, env, w1) ∧
      evalN P H (stdB P L) (n + 1) (keyNamed name) env w1 = (.ok (.str s), env, w1) ∧
      (v = .str s ↔ k ∈ ks) := by
  obtain ⟨s, h1, h2⟩ := takenFor_text h
  refine ⟨_, s, eval_readKey hs args hio, eval_keyNamed hs h1, ?_⟩
  rw [← h2]
  cases Builtins.keyText k <;> simp

/-- C85.  No function key is taken for its own name. -/
theorem C85_function_refuted (hs : Std env) (args : List Expr) {i : Nat} (h1 : 1 ≤ i) (h12 : i ≤ 12)
    (hio : H.io .readEvent w = (.key (some (.f i)), w1)) :
    ∃ v s, evalN P H (stdB P L) (n + 1) (call2 c!"console" c!"keyboard" c!"read-key" args) env w =
        (.ok v, env, w1) ∧
      evalN P H (stdB P L) (n + 1) (keyNamed ('f' :: (Nat.repr i).toList)) env w1 =
        (.ok (.str s), env, w1) ∧ v ≠ .str s := by
  have : ∃ j, ('f' :: (Nat.repr i).toList, [Key.f j]) ∈ takenFor ∧ i ≠ j := by
    have : ∀ i ∈ List.range' 1 12, ∃ j ∈ List.range 25,
        ('f' :: (Nat.repr i).toList, [Key.f j]) ∈ takenFor ∧ i ≠ j := by decide
    obtain ⟨j, _, hj⟩ := this i (by simp; omega)
    exact ⟨j, hj⟩
  obtain ⟨j, hj, hne⟩ := this
  obtain ⟨v, s, h1, h2, h3⟩ := C85_taken (P := P) (L := L) (n := n) hs args hj hio
  exact ⟨v, s, h1, h2, fun hv => hne (by simpa using h3.1 hv)⟩

/-- C85.  A key that types a character gives the text of this one character; an event that is no key,
and a key without a text, give `None`. -/
theorem C85_char (hs : Std env) (args : List Expr) :
    (∀ c, H.io .readEvent w = (.key (some (.char c)), w1) →
      evalN P H (stdB P L) (n + 1) (call2 c!"console" c!"keyboard" c!"read-key" args) env w =
        (.ok (.str [c]), env, w1)) ∧
    (H.io .readEvent w = (.key none, w1) ∨ H.io .readEvent w = (.key (some .other), w1) →
      evalN P H (stdB P L) (n + 1) (call2 c!"console" c!"keyboard" c!"read-key" args) env w =
        (.ok .none, env, w1)) := by
  refine ⟨fun c hio => eval_readKey hs args hio, ?_⟩
  rintro (hio | hio)
  · rw [eval_console2 hs (tbl := Init.keyboardM) (nm := c!"read-key") (id := .cReadKey) (hlp := [])
      (by mem_tac) rfl, evalN_builtin]
    brun [Builtins.readKeyB, M.io, hio]
  · exact eval_readKey hs args hio

theorem fNum {s : Str} {i : Nat} (h : s = natToStr i ++ ['~']) :
    s.getLast? = some '~' ∧ decimal s.dropLast = i := by
  rw [h, List.dropLast_concat, decimal_natToStr, List.getLast?_append]
  exact ⟨rfl, rfl⟩

/-- C85.  Two different keys, neither of which types a control character, have different texts, unless
one is a function key and the other one is insert, page up or page down. -/
theorem C85_distinct (hs : Std env) (args : List Expr) {k k' : Key} {w' w1' : W} (hne : k ≠ k')
    (hio : H.io .readEvent w = (.key (some k), w1)) (hio' : H.io .readEvent w' = (.key (some k'), w1'))
    (hc : ∀ c, k = .char c ∨ k' = .char c → Printable c)
    (hf : ∀ i, k = .f i ∨ k' = .f i → i ≠ 2 ∧ i ≠ 5 ∧ i ≠ 6) :
    ∃ v v', evalN P H (stdB P L) (n + 1) (call2 c!"console" c!"keyboard" c!"read-key" args) env w =
        (.ok v, env, w1) ∧
      evalN P H (stdB P L) (n + 1) (call2 c!"console" c!"keyboard" c!"read-key" args) env w' =
        (.ok v', env, w1') ∧ v ≠ v' := by
  refine ⟨_, _, eval_readKey hs args hio, eval_readKey hs args hio', fun h => hne ?_⟩
  have h' : Builtins.keyText k = Builtins.keyText k' := by
    revert h
    cases Builtins.keyText k <;> cases Builtins.keyText k' <;> simp
  clear h hio hio'
  cases k <;> cases k' <;> simp [Builtins.keyText] at h' hne hf hc ⊢
  all_goals
    first
    | exact absurd h' hne
    | subst h'
      exact absurd hc (by decide)
    | have e := congrArg decimal h'
      simp only [decimal_natToStr] at e
      exact absurd e hne
    | obtain ⟨e1, e2⟩ := fNum h'
      first
      | exact absurd e1 (by decide)
      | exact absurd e2.symm hf.1
      | exact absurd e2.symm hf.2.1
      | exact absurd e2.symm hf.2.2
    | obtain ⟨e1, e2⟩ := fNum h'.symm
      first
      | exact absurd e1 (by decide)
      | exact absurd e2.symm hf.1
      | exact absurd e2.symm hf.2.1
      | exact absurd e2.symm hf.2.2

end

/-! ### Examples -/

/-- somebody who keeps pressing this key -/
def keyHost (k : Key) : Host Unit where
  io _ w := (.key (some k), w)

def pressed (k : Key) : Outcome Expr :=
  (evalN Demo.plat (keyHost k) (stdB Demo.plat Demo.lib) 2
    (call2 c!"console" c!"keyboard" c!"read-key" []) Demo.env ()).1

def named (name : Str) : Outcome Expr :=
  (evalN Demo.plat (keyHost .null) (stdB Demo.plat Demo.lib) 2 (keyNamed name) Demo.env ()).1

example : pressed .left = .ok (.str c!"\x1b[D") ∧ named c!"left" = pressed .left := ⟨rfl, rfl⟩
example : named c!"f1" = pressed (.f 11) ∧ named c!"insert" = pressed (.f 2) := ⟨rfl, rfl⟩
example : pressed (.f 1) = .ok (.str c!"\x1b[1~") ∧ named c!"f1" = .ok (.str c!"\x1b[11~") := ⟨rfl, rfl⟩

example : ∃ v s, evalN Demo.plat (keyHost (.f 5)) (stdB Demo.plat Demo.lib) 2
      (call2 c!"console" c!"keyboard" c!"read-key" []) Demo.env () = (.ok v, Demo.env, ()) ∧
    evalN Demo.plat (keyHost (.f 5)) (stdB Demo.plat Demo.lib) 2 (keyNamed c!"page-up") Demo.env () =
      (.ok (.str s), Demo.env, ()) ∧ (v = .str s ↔ Key.f 5 ∈ [Key.pageUp, .f 5]) :=
  C85_taken (n := 1) demo_std [] (by decide) rfl

/-- somebody who presses one key after the other -/
def typing : Host (List Key) where
  io _ w := (.key w.head?, w.tail)

example : ∃ v v', evalN Demo.plat typing (stdB Demo.plat Demo.lib) 2
      (call2 c!"console" c!"keyboard" c!"read-key" []) Demo.env [.char 'a', .up] =
        (.ok v, Demo.env, [.up]) ∧
    evalN Demo.plat typing (stdB Demo.plat Demo.lib) 2
      (call2 c!"console" c!"keyboard" c!"read-key" []) Demo.env [.up] = (.ok v', Demo.env, []) ∧ v ≠ v' :=
  C85_distinct (n := 1) demo_std [] (k := .char 'a') (k' := .up) (by simp) rfl rfl
    (by rintro c (h | h) <;> simp at h; subst h; decide) (by rintro i (h | h) <;> simp at h)

/-! ### Instances: the hypotheses can be met -/

example := C85_function_refuted (P := Demo.plat) (H := keyHost (.f 5)) (L := Demo.lib) (n := 0) (w := ()) demo_std []
  (i := 5) (by decide) (by decide) rfl

example := (C85_char (P := Demo.plat) (H := keyHost (.char 'a')) (L := Demo.lib) (n := 0) (w := ()) demo_std []).1
  'a' rfl

end Dune.Props
