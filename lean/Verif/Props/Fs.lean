import Verif.Proof.Lib
import Verif.Props.Compare

/-! C58–C60: files. -/

namespace Dune.Props

open Spec

theorem utf8_roundtrip (s : Str) : utf8Decode (utf8Encode s) = some s := by
  have : (utf8Encode s).toByteArray = s.utf8Encode := rfl
  rw [utf8Decode, this, List.utf8Decode?_utf8Encode]
  simp

/-- A world with files: `content` gives the bytes of the file at a path.  Reading returns them,
writing that reports success sets them, appending that reports success extends them; opening a file
for appending fails if there is none. -/
structure Files {W : Type} (H : Host W) (content : W → Str → Option (List UInt8)) : Prop where
  read : ∀ p w b, content w p = some b → H.io (.readFile p) w = (.bytes b, w)
  write : ∀ p d w, (∀ e, (H.io (.writeFile p d) w).1 ≠ .err e) →
    content (H.io (.writeFile p d) w).2 p = some d
  append : ∀ p d w b, content w p = some b → (∀ e, (H.io (.appendFile p d) w).1 ≠ .err e) →
    content (H.io (.appendFile p d) w).2 p = some (b ++ d)
  open_none : ∀ p w, content w p = none → ∃ e, H.io (.openAppend p) w = (.err e, w)
  open_some : ∀ p w b, content w p = some b → (∀ e, (H.io (.openAppend p) w).1 ≠ .err e) ∧
    content (H.io (.openAppend p) w).2 = content w

/-- The bytes a value is stored as: bytes as they are, everything else rendered. -/
def stored (P : Plat) (v : Expr) : List UInt8 :=
  match v with
  | .bytes b => b
  | v => utf8Encode (display P v)

/-- The value a file with these bytes is read as. -/
inductive ReadAs : List UInt8 → Expr → Prop
  | text (s : Str) : ReadAs (utf8Encode s) (.str s)
  | binary (b : List UInt8) : (∀ s, utf8Encode s ≠ b) → ReadAs b (.bytes b)

theorem utf8Decode_eq {b : List UInt8} {s : Str} (h : utf8Decode b = some s) : utf8Encode s = b := by
  unfold utf8Decode at h
  rw [Option.map_eq_some_iff] at h
  obtain ⟨a, ha, rfl⟩ := h
  have h1 := @ByteArray.utf8Encode_get_utf8Decode? b.toByteArray (by rw [ha]; rfl)
  simp only [ha, Option.get_some] at h1
  have h2 := congrArg (fun x => x.data.toList) h1
  rw [utf8Encode]
  simpa [List.utf8Encode, List.data_toByteArray] using h2

section

variable {W : Type} {P : Plat} {H : Host W} {L : Lib} {n : Nat} {env env1 env2 : Env}
  {w w1 w2 : W} {content : W → Str → Option (List UInt8)}

/-- C58, reading. -/
theorem C58_read (hs : Std env) (hF : Files H content) {f : Expr} {name : Str}
    (hf : evalN P H (stdB P L) n f env w = (.ok (.str name), env1, w1)) {b : List UInt8}
    (hb : content w1 (pathJoin env.getCwd name) = some b) :
    ∃ v, ReadAs b v ∧
      evalN P H (stdB P L) (n + 1) (call c!"fs" c!"read" [f]) env w = (.ok v, env1, w1) := by
  have hr := hF.read _ _ _ hb
  have hd : display P (.str name) = name := rfl
  lib hs, Init.fsM
  cases hu : utf8Decode b with
  | some s =>
    refine ⟨.str s, utf8Decode_eq hu ▸ .text s, ?_⟩
    brun [Builtins.readB, hf, Builtins.readText, hd, hr, hu]
  | none =>
    refine ⟨.bytes b, .binary b ?_, ?_⟩
    · intro s hs
      rw [← hs, utf8_roundtrip] at hu
      cases hu
    brun [Builtins.readB, hf, Builtins.readText, hd, hr, hu]

/-- C58, writing a value to a file and reading it back in the next statement: the file system refuses
the write and this is reported, or the read returns the value the stored bytes are read as. -/
theorem C58_write_read (hs : Std env) (hs1 : Std env1) (hF : Files H content) {name : Str}
    {a v : Expr} (ha : evalN P H (stdB P L) n a env w = (.ok v, env1, w1))
    (hc : env1.getCwd = env.getCwd) :
    (∃ e m w', H.io (.writeFile (pathJoin env.getCwd name) (stored P v)) w1 = (.err e, w') ∧
      evalN P H (stdB P L) (n + 1) (.do_ [call c!"fs" c!"write" [.str name, a],
        call c!"fs" c!"read" [.str name]]) env w = (.err (.customError m), env1, w')) ∨
    ∃ r w', ReadAs (stored P v) r ∧
      evalN P H (stdB P L) (n + 1) (.do_ [call c!"fs" c!"write" [.str name, a],
        call c!"fs" c!"read" [.str name]]) env w = (.ok r, env1, w') := by
  have hd : display P (.str name) = name := rfl
  have hst : stored P v = Builtins.bytesOf P v := by cases v <;> rfl
  let w' := (H.io (.writeFile (pathJoin env.getCwd name) (stored P v)) w1).2
  by_cases he : ∃ e, (H.io (.writeFile (pathJoin env.getCwd name) (stored P v)) w1).1 = .err e
  · obtain ⟨e, he⟩ := he
    refine .inl ⟨e, c!"could not write to file " ++ name ++ c!": " ++ P.fmtIOErr e, w',
      Prod.ext he rfl, ?_⟩
    rw [evalN_unfold]
    simp only [evalStep, evalDo]
    rw [hst] at he
    have : evalD P H (bodyRun P H (stdB P L) n) 800 (call c!"fs" c!"write" [.str name, a]) env w =
        (.err (.customError (c!"could not write to file " ++ name ++ c!": " ++ P.fmtIOErr e)), env1,
          w') := by
      rw [evalD_lib hs (tbl := Init.fsM) (by mem_tac) (by mem_tac)]
      brun [Builtins.writeB, ha, hd, he]
      simp [w', hst]
    simp [M.bind_def, this]
  · have he : ∀ e, (H.io (.writeFile (pathJoin env.getCwd name) (stored P v)) w1).1 ≠ .err e :=
      fun e h => he ⟨e, h⟩
    have hw : content w' (pathJoin env.getCwd name) = some (stored P v) := hF.write _ _ _ he
    have h1 : evalD P H (bodyRun P H (stdB P L) n) 800 (call c!"fs" c!"write" [.str name, a]) env w =
        (.ok .none, env1, w') := by
      rw [evalD_lib hs (tbl := Init.fsM) (by mem_tac) (by mem_tac)]
      brun [Builtins.writeB, ha, hd]
      rw [← hst]
      cases hr : (H.io (.writeFile (pathJoin env.getCwd name) (stored P v)) w1).1 with
      | err e => exact absurd hr (he e)
      | _ => rfl
    obtain ⟨r, hr, h2⟩ := C58_read (P := P) (L := L) (n := n) (f := .str name) hs1 hF
      (evalN_str ..) (hc ▸ hw)
    refine .inr ⟨r, w', hr, ?_⟩
    rw [evalN_unfold]
    simp only [evalStep, evalDo]
    rw [M.bind_ok h1]
    rw [evalD_lib hs1 (tbl := Init.fsM) (by mem_tac) (by mem_tac)]
    rwa [eval_lib hs1 (tbl := Init.fsM) (by mem_tac) (by mem_tac), evalN_builtin] at h2

/-- C58, text comes back as it was written, bytes that are not text as the same bytes. -/
theorem C58_readAs {b : List UInt8} {v r : Expr} (hr : ReadAs (stored P v) r) :
    ((∀ b, v ≠ .bytes b) → r = .str (display P v)) ∧
    (v = .bytes b → (∃ s, utf8Encode s = b ∧ r = .str s) ∨
      ((∀ s, utf8Encode s ≠ b) ∧ r = .bytes b)) := by
  constructor
  · intro hv
    have hst : stored P v = utf8Encode (display P v) := by
      cases v with
      | bytes b => exact absurd rfl (hv b)
      | _ => rfl
    rw [hst] at hr
    generalize hx : utf8Encode (display P v) = x at hr
    cases hr with
    | text s =>
      have := congrArg utf8Decode hx
      rw [utf8_roundtrip, utf8_roundtrip] at this
      rw [Option.some.inj this]
    | binary _ h => exact absurd hx (h _)
  · rintro rfl
    simp only [stored] at hr
    generalize hx : b = x at hr
    cases hr with
    | text s => exact .inl ⟨s, rfl, rfl⟩
    | binary _ h => exact .inr ⟨h, rfl⟩

/-- C58, appending adds the bytes of the value at the end of an existing file. -/
theorem C58_append (hs : Std env) (hF : Files H content) {name : Str} {a v : Expr}
    {b : List UInt8} (hb : content w (pathJoin env.getCwd name) = some b)
    (ha : evalN P H (stdB P L) n a env (H.io (.openAppend (pathJoin env.getCwd name)) w).2 =
      (.ok v, env1, w1)) (hc : content w1 = content w)
    (he : ∀ e, (H.io (.appendFile (pathJoin env.getCwd name) (stored P v)) w1).1 ≠ .err e) :
    ∃ w', content w' (pathJoin env.getCwd name) = some (b ++ stored P v) ∧
      evalN P H (stdB P L) (n + 1) (call c!"fs" c!"append" [.str name, a]) env w =
        (.ok .none, env1, w') := by
  have hd : display P (.str name) = name := rfl
  have hst : stored P v = Builtins.bytesOf P v := by cases v <;> rfl
  refine ⟨_, hF.append _ _ w1 b (hc ▸ hb) he, ?_⟩
  have ho := (hF.open_some _ _ _ hb).1
  lib hs, Init.fsM
  brun [Builtins.fsAppendB, hd, ha, ← hst]

/-- C58, appending to a file that does not exist fails and changes nothing; the value is not even
evaluated. -/
theorem C58_append_missing (hs : Std env) (hF : Files H content) {name : Str} (a : Expr)
    (hb : content w (pathJoin env.getCwd name) = none) :
    ∃ m, evalN P H (stdB P L) (n + 1) (call c!"fs" c!"append" [.str name, a]) env w =
      (.err (.customError m), env, w) := by
  have hd : display P (.str name) = name := rfl
  obtain ⟨e, he⟩ := hF.open_none _ _ hb
  refine ⟨c!"could not open file " ++ name ++ c!": " ++ P.fmtIOErr e, ?_⟩
  lib hs, Init.fsM
  brun [Builtins.fsAppendB, hd, he]

/-! ### C60 -/

/-- The text of a file with these lines. -/
def unlines (ls : List Str) : Str := ls.flatMap fun l => l ++ c!"\n"

/-- A line: no line end in it, and no carriage return at its end. -/
def IsLine (l : Str) : Prop := '\n' ∉ l ∧ l.getLast? ≠ some '\r'

theorem linesGo_cons (c : Char) (cs cur : Str) : linesGo (c :: cs) cur =
    if c = '\n' then
      (match cur with
        | '\r' :: cur' => cur'.reverse
        | _ => cur.reverse) :: linesGo cs []
    else linesGo cs (c :: cur) := rfl

theorem linesGo_line {l : Str} (h : '\n' ∉ l) (rest : Str) : ∀ cur,
    linesGo (l ++ '\n' :: rest) cur = linesGo ('\n' :: rest) (l.reverse ++ cur) := by
  induction l with
  | nil => intro cur; rfl
  | cons c l ih =>
    intro cur
    simp only [List.mem_cons, not_or] at h
    rw [List.cons_append, linesGo_cons, if_neg (Ne.symm h.1), ih h.2]
    simp

theorem linesOf_unlines {ls : List Str} (h : ∀ l ∈ ls, IsLine l) : linesOf (unlines ls) = ls := by
  induction ls with
  | nil => rfl
  | cons l ls ih =>
    have hl := h l (by simp)
    have : unlines (l :: ls) = l ++ '\n' :: unlines ls := by simp [unlines]
    rw [linesOf, this, linesGo_line hl.1, linesGo_cons, if_pos rfl]
    rw [show linesGo (unlines ls) [] = ls from ih fun x hx => h x (List.mem_cons_of_mem _ hx)]
    congr 1
    split
    · rename_i cur' hr
      rw [List.append_nil] at hr
      have := hl.2
      rw [List.getLast?_eq_head?_reverse, hr] at this
      exact absurd rfl this
    · simp

theorem run_headTail (hF : Files H content) {f a : Expr} {name : Str} {k : I64}
    {order : List Str → List Str} {nm : Str} {ls : List Str} (hls : ∀ l ∈ ls, IsLine l)
    (hf : evalN P H (stdB P L) n f env w = (.ok (.str name), env1, w1))
    (ha : evalN P H (stdB P L) n a env1 w1 = (.ok (.int k), env2, w2))
    (hb : content w2 (pathJoin env.getCwd name) = some (utf8Encode (unlines ls))) :
    (Builtins.headTailB P nm order [f, a]).run H (evalN P H (stdB P L) n) env w =
      (.ok (.str (unlines ((order ls).take k.val.toNat))), env2, w2) := by
  have hd : display P (.str name) = name := rfl
  have hr := hF.read _ _ _ hb
  brun [Builtins.headTailB, hf, hd, ha, Builtins.readText, hr, utf8_roundtrip, linesOf_unlines hls]
  rfl

/-- C60, `fs@head f k` returns the first `k` lines. -/
theorem C60_head (hs : Std env) (hF : Files H content) {f a : Expr} {name : Str} {k : I64}
    {ls : List Str} (hls : ∀ l ∈ ls, IsLine l)
    (hf : evalN P H (stdB P L) n f env w = (.ok (.str name), env1, w1))
    (ha : evalN P H (stdB P L) n a env1 w1 = (.ok (.int k), env2, w2))
    (hb : content w2 (pathJoin env.getCwd name) = some (utf8Encode (unlines ls))) :
    evalN P H (stdB P L) (n + 1) (call c!"fs" c!"head" [f, a]) env w =
      (.ok (.str (unlines (ls.take k.val.toNat))), env2, w2) := by
  lib hs, Init.fsM
  rw [evalN_builtin]
  exact run_headTail hF hls hf ha hb

/-- C60, `fs@tail f k` returns the last `k` lines, but in reverse order. -/
theorem C60_tail (hs : Std env) (hF : Files H content) {f a : Expr} {name : Str} {k : I64}
    {ls : List Str} (hls : ∀ l ∈ ls, IsLine l)
    (hf : evalN P H (stdB P L) n f env w = (.ok (.str name), env1, w1))
    (ha : evalN P H (stdB P L) n a env1 w1 = (.ok (.int k), env2, w2))
    (hb : content w2 (pathJoin env.getCwd name) = some (utf8Encode (unlines ls))) :
    evalN P H (stdB P L) (n + 1) (call c!"fs" c!"tail" [f, a]) env w =
      (.ok (.str (unlines (ls.drop (ls.length - k.val.toNat)).reverse)), env2, w2) := by
  lib hs, Init.fsM
  rw [evalN_builtin]
  refine (run_headTail hF hls hf ha hb).trans ?_
  rw [List.take_reverse]

theorem unlines_inj {a b : List Str} (ha : ∀ l ∈ a, IsLine l) (hb : ∀ l ∈ b, IsLine l)
    (h : unlines a = unlines b) : a = b := by
  rw [← linesOf_unlines ha, ← linesOf_unlines hb, h]

/-- C60, `fs@tail` is the last `k` lines in order exactly if those lines read the same backwards. -/
theorem C60_tail_refuted (hs : Std env) (hF : Files H content) {f a : Expr} {name : Str} {k : I64}
    {ls : List Str} (hls : ∀ l ∈ ls, IsLine l)
    (hf : evalN P H (stdB P L) n f env w = (.ok (.str name), env1, w1))
    (ha : evalN P H (stdB P L) n a env1 w1 = (.ok (.int k), env2, w2))
    (hb : content w2 (pathJoin env.getCwd name) = some (utf8Encode (unlines ls))) :
    evalN P H (stdB P L) (n + 1) (call c!"fs" c!"tail" [f, a]) env w =
        (.ok (.str (unlines (ls.drop (ls.length - k.val.toNat)))), env2, w2) ↔
      (ls.drop (ls.length - k.val.toNat)).reverse = ls.drop (ls.length - k.val.toNat) := by
  rw [C60_tail hs hF hls hf ha hb]
  constructor
  · intro h
    simp only [Prod.mk.injEq, Outcome.ok.injEq, Expr.str.injEq] at h
    have hm : ∀ l ∈ ls.drop (ls.length - k.val.toNat), IsLine l :=
      fun l hl => hls l (List.mem_of_mem_drop hl)
    exact unlines_inj (fun l hl => hm l (List.mem_reverse.mp hl)) hm h.1
  · intro h
    rw [h]

/-- A world with one file. -/
def demoFile : Host (List UInt8) where
  io op w := match op with
    | .readFile _ => (.bytes w, w)
    | .writeFile _ d => (.unit, d)
    | .appendFile _ d => (.unit, w ++ d)
    | _ => (.unit, w)

theorem demoFile_files : Files demoFile (fun w _ => some w) where
  read _ w b h := by cases h; rfl
  write _ _ _ _ := rfl
  append _ d w b h _ := by cases h; rfl
  open_none _ _ h := by cases h
  open_some _ _ _ _ := ⟨by rintro e ⟨⟩, rfl⟩

example : (evalN Demo.plat demoFile (stdB Demo.plat Demo.lib) 2
    (call c!"fs" c!"tail" [.str c!"f", .int (.lit 2)]) Demo.env
    (utf8Encode c!"a\nb\nc\n")).1 = .ok (.str c!"c\nb\n") := by
  rw [C60_tail (content := fun w _ => some w) (name := c!"f") (k := .lit 2)
    (ls := [c!"a", c!"b", c!"c"]) demo_std demoFile_files (by simp [IsLine]) rfl rfl rfl]
  rfl

/-! ### C59 -/

/-- The two operations on two paths. -/
theorem eval_twoPaths (hs : Std env) {a b : Expr} {x y : Str} {op : Str}
    (hop : op = c!"cp" ∨ op = c!"mv")
    (ha : evalN P H (stdB P L) n a env w = (.ok (.str x), env1, w1))
    (hb : evalN P H (stdB P L) n b env1 w1 = (.ok (.str y), env2, w2)) :
    evalN P H (stdB P L) (n + 1) (call c!"fs" op [a, b]) env w =
      ((if op = c!"mv" then Builtins.movePath (pathJoin env.getCwd x) (pathJoin env.getCwd y)
        else Builtins.copyPath P.stackDepth (pathJoin env.getCwd x) (pathJoin env.getCwd y)).run H
          (evalN P H (stdB P L) n) >>= fun _ => pure Expr.none) env2 w2 := by
  have hx : display P (.str x) = x := rfl
  have hy : display P (.str y) = y := rfl
  rcases hop with rfl | rfl
  · lib hs, Init.fsM
    rw [if_neg (by decide)]
    brun [Builtins.twoPathsB, Builtins.pathArg, ha, hb, hx, hy]
  · lib hs, Init.fsM
    rw [if_pos rfl]
    brun [Builtins.twoPathsB, Builtins.pathArg, ha, hb, hx, hy]

/-- C59, `fs@cp` and `fs@mv` on equal paths do nothing and succeed. -/
theorem C59_same_path (hs : Std env) {a b : Expr} {x y : Str} {op : Str}
    (hop : op = c!"cp" ∨ op = c!"mv")
    (ha : evalN P H (stdB P L) n a env w = (.ok (.str x), env1, w1))
    (hb : evalN P H (stdB P L) n b env1 w1 = (.ok (.str y), env2, w2))
    (hp : pathEq (pathJoin env.getCwd x) (pathJoin env.getCwd y) = true) (hP : 0 < P.stackDepth) :
    evalN P H (stdB P L) (n + 1) (call c!"fs" op [a, b]) env w = (.ok .none, env2, w2) := by
  rw [eval_twoPaths hs hop ha hb]
  obtain ⟨d, hd⟩ : ∃ d, P.stackDepth = d + 1 := ⟨P.stackDepth - 1, by omega⟩
  split <;> simp [hd, Builtins.movePath, Builtins.copyPath, hp, BProg.run_ret]

/-- C59, if the destination exists and is another path, `fs@cp` and `fs@mv` fail and change
nothing. -/
theorem C59_exists (hs : Std env) {a b : Expr} {x y : Str} {op : Str}
    (hop : op = c!"cp" ∨ op = c!"mv")
    (ha : evalN P H (stdB P L) n a env w = (.ok (.str x), env1, w1))
    (hb : evalN P H (stdB P L) n b env1 w1 = (.ok (.str y), env2, w2))
    (hp : pathEq (pathJoin env.getCwd x) (pathJoin env.getCwd y) = false) (hP : 0 < P.stackDepth)
    (hx : H.io (.exists_ (pathJoin env.getCwd y)) w2 = (.bool true, w2)) :
    ∃ m, evalN P H (stdB P L) (n + 1) (call c!"fs" op [a, b]) env w =
      (.err (.customError m), env2, w2) := by
  refine ⟨c!"destination " ++ pathJoin env.getCwd y ++ c!" already exists", ?_⟩
  rw [eval_twoPaths hs hop ha hb]
  obtain ⟨d, hd⟩ : ∃ d, P.stackDepth = d + 1 := ⟨P.stackDepth - 1, by omega⟩
  split <;> simp [-bind_pure_comp, hd, Builtins.movePath, Builtins.copyPath, hp, BProg.run_ret,
    Builtins.askBool, BProg.run_bind, BProg.run_ask, BProg.run_fail, M.bind_def, hx]

/-- The world `H` with a record of all requests and answers. -/
def recording (H : Host W) : Host (W × List (IOp × IORes)) where
  io op w := ((H.io op w.1).1, (H.io op w.1).2, w.2 ++ [(op, (H.io op w.1).1)])

/-- A request that only asks. -/
inductive Asks : IOp → Prop
  | exists_ (p : Str) : Asks (.exists_ p)
  | isDir (p : Str) : Asks (.isDir p)
  | readDir (p : Str) : Asks (.readDir p)

/-- A request that creates the path `d`. -/
inductive Creates : IOp → Str → Prop
  | copy (s d : Str) : Creates (.copyFile s d) d
  | move (s d : Str) : Creates (.rename s d) d
  | dir (d : Str) : Creates (.createDirAll d) d

/-- In this record every request only asks, or it creates a path that was found not to exist, with
nothing but questions in between. -/
def Guarded (t : List (IOp × IORes)) : Prop :=
  ∀ pre op r post, t = pre ++ (op, r) :: post → Asks op ∨
    ∃ d p1 ans p2, Creates op d ∧ pre = p1 ++ (.exists_ d, ans) :: p2 ∧ ans ≠ .bool true ∧
      ∀ x ∈ p2, Asks x.1

theorem Guarded.nil : Guarded [] := by
  intro pre op r post h
  simp at h

theorem Guarded.append {s t : List (IOp × IORes)} (hs : Guarded s) (ht : Guarded t) :
    Guarded (s ++ t) := by
  intro pre op r post h
  rw [List.append_eq_append_iff] at h
  rcases h with ⟨u, h1, h2⟩ | ⟨u, h1, h2⟩
  · rcases ht u op r post h2 with h | ⟨d, p1, ans, p2, hc, hp, ha, hq⟩
    · exact .inl h
    · exact .inr ⟨d, s ++ p1, ans, p2, hc, by rw [h1, hp, List.append_assoc], ha, hq⟩
  · cases u with
    | nil =>
      rw [List.append_nil] at h1
      rw [List.nil_append] at h2
      rcases ht [] op r post (by rw [← h2]; rfl) with h | ⟨d, p1, ans, p2, hc, hp, ha, hq⟩
      · exact .inl h
      · simp at hp
    | cons x u =>
      simp only [List.cons_append, List.cons.injEq] at h2
      obtain ⟨rfl, h2⟩ := h2
      rcases hs pre op r u h1 with h | ⟨d, p1, ans, p2, hc, hp, ha, hq⟩
      · exact .inl h
      · exact .inr ⟨d, p1, ans, p2, hc, hp, ha, hq⟩

theorem Guarded.ask {op : IOp} (h : Asks op) (r : IORes) : Guarded [(op, r)] := by
  intro pre op' r' post he
  rw [List.cons_eq_append_iff] at he
  rcases he with ⟨rfl, he⟩ | ⟨u, rfl, he⟩
  · simp only [List.cons.injEq, Prod.mk.injEq] at he
    exact .inl (he.1.1 ▸ h)
  · simp at he

/-- `s` followed by a creating request that its last question allows. -/
theorem Guarded.create {op : IOp} {d : Str} (hc : Creates op d) {ans : IORes}
    (ha : ans ≠ .bool true) {q : List (IOp × IORes)} (hq : ∀ x ∈ q, Asks x.1) (r : IORes) :
    Guarded ((.exists_ d, ans) :: q ++ [(op, r)]) := by
  intro pre op' r' post he
  rw [List.append_eq_append_iff] at he
  rcases he with ⟨u, h1, h2⟩ | ⟨u, h1, h2⟩
  · cases u with
    | nil =>
      simp only [List.nil_append, List.cons.injEq, Prod.mk.injEq] at h2
      obtain ⟨⟨rfl, rfl⟩, _⟩ := h2
      exact .inr ⟨d, [], ans, q, hc, by simpa using h1, ha, hq⟩
    | cons x u => simp at h2
  · cases u with
    | nil =>
      simp only [List.nil_append, List.cons.injEq, Prod.mk.injEq] at h2
      obtain ⟨⟨rfl, rfl⟩, _⟩ := h2
      exact .inr ⟨d, [], ans, q, hc, by simpa using h1.symm, ha, hq⟩
    | cons x u =>
      simp only [List.cons_append, List.cons.injEq] at h2
      obtain ⟨rfl, h2⟩ := h2
      have hm : (op', r') ∈ (IOp.exists_ d, ans) :: q := by rw [h1]; simp
      rcases List.mem_cons.mp hm with h | h
      · cases h; exact .inl (.exists_ d)
      · exact .inl (hq _ h)

/-- The program keeps the variables and its requests are guarded. -/
def Safe (H : Host W) (ev : Expr → M (W × List (IOp × IORes)) Expr) (p : BProg Unit) : Prop :=
  ∀ env w t, ∃ o w' t', p.run (recording H) ev env (w, t) = (o, env, w', t ++ t') ∧ Guarded t'

/-- the answer is `true` -/
def saysTrue : IORes → Bool
  | .bool b => b
  | _ => false

theorem saysTrue_iff (r : IORes) : saysTrue r = true ↔ r = .bool true := by
  cases r <;> simp [saysTrue]

theorem run_askBool_rec (ev : Expr → M (W × List (IOp × IORes)) Expr) (op : IOp) (env : Env) (w : W)
    (t : List (IOp × IORes)) :
    (Builtins.askBool op).run (recording H) ev env (w, t) =
      (.ok (saysTrue (H.io op w).1), env, (H.io op w).2, t ++ [(op, (H.io op w).1)]) := by
  simp only [Builtins.askBool, BProg.run_bind, BProg.run_ask, M.io_bind, recording]
  cases (H.io op w).1 <;> rfl

theorem Safe.entries {ev : Expr → M (W × List (IOp × IORes)) Expr} {copy : Str → Str → BProg Unit}
    (ih : ∀ src dst, Safe H ev (copy src dst)) (src dst : Str) :
    ∀ ns, Safe H ev (Builtins.copyEntries copy src dst ns)
  | [] => fun env w t => ⟨.ok (), w, [], by rw [List.append_nil, Builtins.copyEntries]; rfl, .nil⟩
  | n :: ns => by
    intro env w t
    obtain ⟨o, w1, t1, h1, g1⟩ := ih (pathJoin src n) (pathJoin dst n) env w t
    rw [Builtins.copyEntries, BProg.run_bind]
    cases o with
    | ok u =>
      obtain ⟨o2, w2, t2, h2, g2⟩ := Safe.entries ih src dst ns env w1 (t ++ t1)
      exact ⟨o2, w2, t1 ++ t2, by rw [M.bind_ok h1, h2, List.append_assoc], g1.append g2⟩
    | err e => exact ⟨.err e, w1, t1, by simp [M.bind_def, h1], g1⟩
    | panic => exact ⟨.panic, w1, t1, by simp [M.bind_def, h1], g1⟩
    | exit c => exact ⟨.exit c, w1, t1, by simp [M.bind_def, h1], g1⟩
    | noFuel => exact ⟨.noFuel, w1, t1, by simp [M.bind_def, h1], g1⟩

theorem run_ask_rec (ev : Expr → M (W × List (IOp × IORes)) Expr) (op : IOp) (env : Env) (w : W)
    (t : List (IOp × IORes)) :
    (BProg.ask op).run (recording H) ev env (w, t) =
      (.ok (H.io op w).1, env, (H.io op w).2, t ++ [(op, (H.io op w).1)]) := rfl

theorem copyPath_safe (ev : Expr → M (W × List (IOp × IORes)) Expr) : ∀ (fuel : Nat) (src dst : Str),
    Safe H ev (Builtins.copyPath fuel src dst)
  | 0, src, dst => fun env w t => ⟨.panic, w, [], by
      rw [Builtins.copyPath, BProg.run_panic, List.append_nil]; rfl, .nil⟩
  | fuel + 1, src, dst => by
    intro env w t
    have ih := copyPath_safe ev fuel
    rw [Builtins.copyPath]
    by_cases hp : pathEq src dst = true
    · rw [if_pos hp]
      exact ⟨.ok (), w, [], by rw [List.append_nil]; rfl, .nil⟩
    rw [if_neg hp, BProg.run_bind, M.bind_ok (run_askBool_rec ..)]
    generalize (H.io (.exists_ dst) w).2 = w1
    generalize (H.io (.exists_ dst) w).1 = ans
    by_cases hx : ans = .bool true
    · subst hx
      exact ⟨_, w1, [_], rfl, .ask (.exists_ dst) _⟩
    rw [if_neg (fun h => hx ((saysTrue_iff _).mp h))]
    rw [BProg.run_bind, M.bind_ok (run_askBool_rec ..)]
    generalize (H.io (.isDir src) w1).2 = w2
    generalize (H.io (.isDir src) w1).1 = ans2
    simp only [List.append_assoc, List.cons_append, List.nil_append]
    have hq : ∀ x ∈ [(IOp.isDir src, ans2)], Asks x.1 := by simp [Asks.isDir]
    by_cases hd : saysTrue ans2 = true
    · rw [if_pos hd]
      rw [BProg.run_bind, M.bind_ok (run_ask_rec ..)]
      have hg := Guarded.create (.dir dst) hx hq (H.io (.createDirAll dst) w2).1
      simp only [List.append_assoc, List.cons_append, List.nil_append] at hg ⊢
      generalize (H.io (.createDirAll dst) w2).2 = w3
      generalize (H.io (.createDirAll dst) w2).1 = ans3 at hg ⊢
      have key : ∃ o w' t', ((BProg.ask (.readDir src) >>= fun r => match r with
          | .strs names => Builtins.copyEntries (Builtins.copyPath fuel) src dst names
          | _ => BProg.fail (c!"could not create directory " ++ dst)).run (recording H) ev env
            (w3, t ++ [(IOp.exists_ dst, ans), (IOp.isDir src, ans2),
              (IOp.createDirAll dst, ans3)])) = (o, env, w', t ++ t') ∧ Guarded t' := by
        rw [BProg.run_bind, M.bind_ok (run_ask_rec ..)]
        generalize (H.io (.readDir src) w3).2 = w4
        generalize (H.io (.readDir src) w3).1 = ans4
        have hg2 := hg.append (.ask (.readDir src) ans4)
        simp only [List.append_assoc, List.cons_append, List.nil_append] at hg2 ⊢
        cases ans4 with
        | strs names =>
          obtain ⟨o, w5, t5, h5, g5⟩ := Safe.entries ih src dst names env w4
            (t ++ [(IOp.exists_ dst, ans), (IOp.isDir src, ans2),
              (IOp.createDirAll dst, ans3), (.readDir src, .strs names)])
          exact ⟨o, w5, _ ++ t5, by rw [← List.append_assoc]; exact h5, hg2.append g5⟩
        | _ => exact ⟨_, _, _, rfl, hg2⟩
      cases ans3 with
      | err e => exact ⟨_, _, _, rfl, hg⟩
      | _ => exact key
    · rw [if_neg hd]
      rw [BProg.run_bind, M.bind_ok (run_ask_rec ..)]
      have hg := Guarded.create (.copy src dst) hx hq (H.io (.copyFile src dst) w2).1
      simp only [List.append_assoc, List.cons_append, List.nil_append] at hg ⊢
      generalize (H.io (.copyFile src dst) w2).2 = w3
      generalize (H.io (.copyFile src dst) w2).1 = ans3 at hg ⊢
      cases ans3 <;> exact ⟨_, _, _, rfl, hg⟩

theorem movePath_safe (ev : Expr → M (W × List (IOp × IORes)) Expr) (src dst : Str) :
    Safe H ev (Builtins.movePath src dst) := by
  intro env w t
  rw [Builtins.movePath]
  by_cases hp : pathEq src dst = true
  · rw [if_pos hp]
    exact ⟨.ok (), w, [], by rw [List.append_nil]; rfl, .nil⟩
  rw [if_neg hp, BProg.run_bind, M.bind_ok (run_askBool_rec ..)]
  generalize (H.io (.exists_ dst) w).2 = w1
  generalize (H.io (.exists_ dst) w).1 = ans
  by_cases hx : ans = .bool true
  · subst hx
    exact ⟨_, w1, [_], rfl, .ask (.exists_ dst) _⟩
  rw [if_neg (fun h => hx ((saysTrue_iff _).mp h))]
  rw [BProg.run_bind, M.bind_ok (run_ask_rec ..)]
  have hg := Guarded.create (.move src dst) hx (q := []) (by simp) (H.io (.rename src dst) w1).1
  simp only [List.append_assoc, List.cons_append, List.nil_append] at hg ⊢
  generalize (H.io (.rename src dst) w1).2 = w3
  generalize (H.io (.rename src dst) w1).1 = ans3 at hg ⊢
  cases ans3 <;> exact ⟨_, _, _, rfl, hg⟩

/-- C59, in every world, all requests `fs@cp` and `fs@mv` make to it — for `cp` of a directory tree
of any shape — either only ask or create a path that they have just found not to exist; nothing is
ever overwritten or removed. `t'` are the requests made after the two arguments were evaluated. -/
theorem C59_guarded {w w1 w2 : W × List (IOp × IORes)} (hs : Std env) {a b : Expr} {x y : Str}
    {op : Str} (hop : op = c!"cp" ∨ op = c!"mv")
    (ha : evalN P (recording H) (stdB P L) n a env w = (.ok (.str x), env1, w1))
    (hb : evalN P (recording H) (stdB P L) n b env1 w1 = (.ok (.str y), env2, w2)) :
    ∃ o w' t', evalN P (recording H) (stdB P L) (n + 1) (call c!"fs" op [a, b]) env w =
      (o, env2, w', w2.2 ++ t') ∧ Guarded t' := by
  rw [eval_twoPaths hs hop ha hb]
  have key : ∀ p : BProg Unit, Safe H (evalN P (recording H) (stdB P L) n) p →
      ∃ o w' t', (p.run (recording H) (evalN P (recording H) (stdB P L) n) >>=
        fun _ => pure Expr.none) env2 w2 = (o, env2, w', w2.2 ++ t') ∧ Guarded t' := by
    intro p hp
    obtain ⟨o, w', t', h, g⟩ := hp env2 w2.1 w2.2
    have h' : p.run (recording H) (evalN P (recording H) (stdB P L) n) env2 w2 =
      (o, env2, w', w2.2 ++ t') := h
    cases o with
    | ok u => exact ⟨_, w', t', M.bind_ok h', g⟩
    | err e => exact ⟨.err e, w', t', by simp [-bind_pure_comp, M.bind_def, h'], g⟩
    | panic => exact ⟨.panic, w', t', by simp [-bind_pure_comp, M.bind_def, h'], g⟩
    | exit c => exact ⟨.exit c, w', t', by simp [-bind_pure_comp, M.bind_def, h'], g⟩
    | noFuel => exact ⟨.noFuel, w', t', by simp [-bind_pure_comp, M.bind_def, h'], g⟩
  split
  · exact key _ (movePath_safe _ _ _)
  · exact key _ (copyPath_safe _ _ _ _)

/-- C59, `fs@mv` succeeds only by one `rename` request to the world that reports success (or with
equal paths, `C59_same_path`), so if the world moves atomically, `mv` does. -/
theorem C59_mv_atomic (hs : Std env) {a b : Expr} {x y : Str}
    (ha : evalN P H (stdB P L) n a env w = (.ok (.str x), env1, w1))
    (hb : evalN P H (stdB P L) n b env1 w1 = (.ok (.str y), env2, w2))
    (hp : pathEq (pathJoin env.getCwd x) (pathJoin env.getCwd y) = false) {w3 w4 : W} {r : IORes}
    (hx : H.io (.exists_ (pathJoin env.getCwd y)) w2 = (.bool false, w3))
    (hr : H.io (.rename (pathJoin env.getCwd x) (pathJoin env.getCwd y)) w3 = (r, w4)) :
    ((∀ e, r ≠ .err e) ∧ evalN P H (stdB P L) (n + 1) (call c!"fs" c!"mv" [a, b]) env w =
        (.ok .none, env2, w4)) ∨
      ∃ e m, r = .err e ∧ evalN P H (stdB P L) (n + 1) (call c!"fs" c!"mv" [a, b]) env w =
        (.err (.customError m), env2, w4) := by
  rw [eval_twoPaths hs (.inr rfl) ha hb, if_pos rfl]
  by_cases he : ∃ e, r = .err e
  · obtain ⟨e, rfl⟩ := he
    refine .inr ⟨e, c!"could not move " ++ pathJoin env.getCwd x ++ c!" to " ++
      pathJoin env.getCwd y, rfl, ?_⟩
    simp [-bind_pure_comp, Builtins.movePath, hp, Builtins.askBool, BProg.run_bind, BProg.run_ask,
      BProg.run_fail, BProg.run_ret, M.bind_def, hx, hr]
  · refine .inl ⟨fun e h => he ⟨e, h⟩, ?_⟩
    cases r with
    | err e => exact absurd ⟨e, rfl⟩ he
    | _ =>
      simp [-bind_pure_comp, Builtins.movePath, hp, Builtins.askBool, BProg.run_bind, BProg.run_ask,
        BProg.run_ret, M.bind_def, hx, hr]

/-- A world where `/d` is a directory with the files `x` and `y`, and nothing else exists. -/
def demoDir : Host Unit where
  io op w := match op with
    | .exists_ p => (.bool (decide (p = c!"/d")), w)
    | .isDir p => (.bool (decide (p = c!"/d")), w)
    | .readDir _ => (.strs [c!"x", c!"y"], w)
    | _ => (.unit, w)

example : (evalN Demo.plat (recording demoDir) (stdB Demo.plat Demo.lib) 2
    (call c!"fs" c!"cp" [.str c!"/d", .str c!"/e"]) Demo.env ((), [])).2.2.2 =
    [(.exists_ c!"/e", .bool false), (.isDir c!"/d", .bool true), (.createDirAll c!"/e", .unit),
      (.readDir c!"/d", .strs [c!"x", c!"y"]),
      (.exists_ c!"/e/x", .bool false), (.isDir c!"/d/x", .bool false),
      (.copyFile c!"/d/x" c!"/e/x", .unit),
      (.exists_ c!"/e/y", .bool false), (.isDir c!"/d/y", .bool false),
      (.copyFile c!"/d/y" c!"/e/y", .unit)] := rfl

end

/-! ### Instances: the hypotheses can be met -/

section

example := C58_read (P := Demo.plat) (L := Demo.lib) (n := 0) (w := utf8Encode c!"hi") demo_std
  demoFile_files (f := .str c!"f") (name := c!"f") rfl rfl

example := C58_write_read (P := Demo.plat) (L := Demo.lib) (n := 0) (w := utf8Encode c!"hi") demo_std
  demo_std demoFile_files (name := c!"f") (a := .list [.none]) rfl rfl

example := C60_head (P := Demo.plat) (L := Demo.lib) (n := 0) (w := utf8Encode c!"a\nb\n") demo_std
  demoFile_files (f := .str c!"f") (a := .int (.lit 1)) (name := c!"f") (ls := [c!"a", c!"b"])
  (by simp [IsLine]) rfl rfl rfl

example := C59_same_path (P := Demo.plat) (H := demoDir) (L := Demo.lib) (n := 0) (w := ()) demo_std
  (a := .str c!"/d/") (b := .str c!"/d") (op := c!"mv") (.inr rfl) rfl rfl (by decide) (by decide)

example := C59_guarded (P := Demo.plat) (H := demoDir) (L := Demo.lib) (n := 0) (w := ((), [])) demo_std
  (a := .str c!"/d") (b := .str c!"/e") (op := c!"cp") (.inl rfl) rfl rfl

end

example := C58_append (P := Demo.plat) (L := Demo.lib) (n := 0) (w := utf8Encode c!"hi") demo_std
  demoFile_files (name := c!"f") (a := .str c!"x") rfl rfl rfl (by intro e; simp [demoFile])

example := C59_exists (P := Demo.plat) (H := demoDir) (L := Demo.lib) (n := 0) (w := ()) demo_std
  (a := .str c!"/x") (b := .str c!"/d") (op := c!"mv") (.inr rfl) rfl rfl (by decide) (by decide) rfl

example := C58_readAs (P := Demo.plat) (b := [104]) (v := .bytes (utf8Encode c!"h")) (.text c!"h")

end Dune.Props
