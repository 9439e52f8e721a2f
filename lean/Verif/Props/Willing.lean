import Verif.Props.Tree

/-! C68: the file commands succeed when the file system has no reason to refuse. -/

namespace Dune.Props

open Spec

/-- A file system that refuses a request only for a reason: there is nothing to read, to copy or to
remove, the place is taken or there is no directory for it, the directory to remove is not empty. -/
structure Willing {W : Type} (H : Host W) (fs : W → List Str → Option Entry) : Prop where
  readDir : ∀ p w, fs w p = some .dir → ∀ e, (H.io (.readDir (render p)) w).1 ≠ .err e
  createDirAll : ∀ p w, (∀ n ∈ p, Name n) → (∀ q, q <+: p → ∀ b, fs w q ≠ some (.file b)) →
    ∀ e, (H.io (.createDirAll (render p)) w).1 ≠ .err e
  copyFile : ∀ p q m b w, Name m → fs w p = some (.file b) → fs w q = some .dir →
    fs w (q ++ [m]) = none → ∀ e, (H.io (.copyFile (render p) (render (q ++ [m]))) w).1 ≠ .err e
  removeFile : ∀ p b w, fs w p = some (.file b) → ∀ e, (H.io (.removeFile (render p)) w).1 ≠ .err e
  removeDir : ∀ p w, fs w p = some .dir → (∀ n, fs w (p ++ [n]) = none) →
    ∀ e, (H.io (.removeDir (render p)) w).1 ≠ .err e
  removeDirAll : ∀ p w, fs w p = some .dir → ∀ e, (H.io (.removeDirAll (render p)) w).1 ≠ .err e

/-- There is room at `dst` for what is at `src`: nothing is there, a file needs the directory it is
copied into, a directory needs that no file is in the way (missing directories are created). -/
def Room (fs : List Str → Option Entry) (src dst : List Str) : Prop :=
  fs dst = none ∧
  ((∃ b, fs src = some (.file b)) ∧ (∃ d m, dst = d ++ [m] ∧ fs d = some .dir) ∨
    fs src = some .dir ∧ ¬ src <+: dst ∧ ∀ q, q <+: dst → ∀ b, fs q ≠ some (.file b))

section

variable {W : Type} {P : Plat} {H : Host W} {L : Lib} {n : Nat} {env env1 env2 : Env}
  {w w1 w2 : W} {fs : W → List Str → Option Entry}

theorem not_refused {op : IOp} {r : IORes} {w' : W} {Q : Prop}
    (h : H.io op w = (r, w')) (hW : ∀ e, (H.io op w).1 ≠ .err e)
    (hr : (∃ e, r = .err e) ∨ ((∀ e, r ≠ .err e) ∧ Q)) : (∀ e, r ≠ .err e) ∧ Q := by
  rcases hr with ⟨e, rfl⟩ | hr
  · exact absurd (by rw [h]) (hW e)
  · exact hr

/-- Nothing is below a path at which there is nothing, so the source is not below the destination. -/
theorem Room.apart (hF : FileTree H fs) {src dst : List Str} (h : Room (fs w) src dst) :
    ¬ src <+: dst ∧ ¬ dst <+: src := by
  constructor
  · rcases h with ⟨hd, ⟨⟨b, hb⟩, d, m, rfl, hdm⟩ | ⟨_, h, _⟩⟩
    · rintro ⟨r, hr⟩
      have hr0 : r ≠ [] := by
        rintro rfl
        rw [List.append_nil] at hr
        rw [hr, hd] at hb
        cases hb
      obtain ⟨r', m', rfl⟩ : ∃ r' m', r = r' ++ [m'] :=
        ⟨r.dropLast, r.getLast hr0, (List.dropLast_append_getLast hr0).symm⟩
      rw [← List.append_assoc] at hr
      have hd' := (List.append_inj' hr rfl).1
      rw [← hd'] at hdm
      rcases r' with _ | ⟨c, r'⟩
      · rw [List.append_nil, hb] at hdm
        cases hdm
      · rw [below_file hF hb (by simp)] at hdm
        cases hdm
    · exact h
  · rintro ⟨r, rfl⟩
    have := below_none hF h.1 r
    rcases h.2 with ⟨⟨b, hb⟩, _⟩ | ⟨hb, _⟩ <;> rw [this] at hb <;> cases hb

theorem entries_work (hF : FileTree H fs) {ev0 : Expr → M W Expr} {fuel : Nat}
    (ih : ∀ (src dst : List Str) (w : W), (∀ n ∈ src, Name n) → (∀ n ∈ dst, Name n) →
      Room (fs w) src dst → (∀ r, (fs w (src ++ r)).isSome → r.length < fuel) →
      ∃ w', (Builtins.copyPath fuel (render src) (render dst)).run H ev0 env w = (.ok (), env, w'))
    {src dst : List Str} (hsrc : ∀ n ∈ src, Name n) (hdst : ∀ n ∈ dst, Name n)
    (hi1 : ¬ src <+: dst) (hi2 : ¬ dst <+: src) :
    ∀ (ns : List Str), ns.Nodup → ∀ w : W, fs w dst = some .dir →
      (∀ m ∈ ns, (fs w (src ++ [m])).isSome ∧ fs w (dst ++ [m]) = none) →
      (∀ r, (fs w (src ++ r)).isSome → r.length < fuel + 1) →
      ∃ w', (Builtins.copyEntries (Builtins.copyPath fuel) (render src) (render dst) ns).run H ev0
          env w = (.ok (), env, w')
  | [], _, w, _, _, _ => ⟨w, rfl⟩
  | n :: ns, hnd, w, hdd, hns, hdepth => by
    obtain ⟨hsome, hnone⟩ := hns n (by simp)
    have hn : Name n := hF.names w (src ++ [n]) hsome n (by simp)
    have hsn := names_append hsrc (q := [n]) (by simpa using hn)
    have hdn := names_append hdst (q := [n]) (by simpa using hn)
    have hroom : Room (fs w) (src ++ [n]) (dst ++ [n]) := by
      refine ⟨hnone, ?_⟩
      rcases he : fs w (src ++ [n]) with _ | b | _
      · rw [he] at hsome
        cases hsome
      · exact .inl ⟨⟨b, rfl⟩, dst, n, rfl, hdd⟩
      · refine .inr ⟨rfl, fun h => ?_, ?_⟩
        · rcases prefix_split h with h | h
          · exact hi1 h
          · exact hi2 h
        · intro q hq b hb
          rcases List.prefix_concat_iff.mp hq with rfl | ⟨r, hr⟩
          · rw [hnone] at hb
            cases hb
          · rcases r with _ | ⟨c, r⟩
            · rw [List.append_nil] at hr
              rw [hr, hdd] at hb
              cases hb
            · rw [← hr, below_file hF hb (by simp)] at hdd
              cases hdd
    obtain ⟨w1, h1⟩ := ih (src ++ [n]) (dst ++ [n]) w hsn hdn hroom (by
      intro r hr
      have := hdepth (n :: r) (by simpa using hr)
      simpa using this)
    obtain ⟨o, w1', h1', hc⟩ := run_copy (env := env) (ev0 := ev0) hF fuel (src ++ [n]) (dst ++ [n]) w
      hsn hdn
    rw [h1] at h1'
    cases h1'
    have hsame : ∀ r, fs w1 (src ++ r) = fs w (src ++ r) := by
      intro r
      refine hc.frame _ (fun h => ?_) fun h => ?_
      · rcases prefix_split h with h | h
        · exact hi2 h
        · exact hi1 h
      · rcases prefix_split h with h | h
        · exact hi1 h
        · exact hi2 h
    rw [List.nodup_cons] at hnd
    obtain ⟨w2, h2⟩ := entries_work hF ih hsrc hdst hi1 hi2 ns hnd.2 w1
      (by rw [hc.keep dst (by rw [hdd]; rfl), hdd])
      (by
        intro m hm
        have hmn : m ≠ n := fun e => hnd.1 (e ▸ hm)
        obtain ⟨hm1, hm2⟩ := hns m (List.mem_cons_of_mem _ hm)
        refine ⟨by rw [hsame]; exact hm1, ?_⟩
        rw [hc.frame, hm2]
        · intro h
          rw [List.prefix_append_right_inj] at h
          simp only [List.cons_prefix_cons] at h
          exact hmn h.1.symm
        · intro h
          rw [List.prefix_append_right_inj] at h
          simp only [List.cons_prefix_cons] at h
          exact hmn h.1)
      (fun r hr => hdepth r (by rw [← hsame]; exact hr))
    refine ⟨w2, ?_⟩
    rw [Builtins.copyEntries, BProg.run_bind, join_render hsrc hn, join_render hdst hn, M.bind_ok h1, h2]

theorem copy_works (hF : FileTree H fs) (hW : Willing H fs) {ev0 : Expr → M W Expr} :
    ∀ (fuel : Nat) (src dst : List Str) (w : W), (∀ n ∈ src, Name n) → (∀ n ∈ dst, Name n) →
      Room (fs w) src dst → (∀ r, (fs w (src ++ r)).isSome → r.length < fuel) →
      ∃ w', (Builtins.copyPath fuel (render src) (render dst)).run H ev0 env w = (.ok (), env, w')
  | 0, src, _, w, _, _, hr, hd => by
    have : (fs w (src ++ [])).isSome := by
      rw [List.append_nil]
      rcases hr.2 with ⟨⟨b, hb⟩, _⟩ | ⟨hb, _⟩ <;> rw [hb] <;> rfl
    exact absurd (hd [] this) (by simp)
  | fuel + 1, src, dst, w, hsrc, hdst, hr, hdepth => by
    obtain ⟨hi1, hi2⟩ := hr.apart hF
    have he : src ≠ dst := fun e => hi1 (e ▸ List.prefix_refl _)
    rw [Builtins.copyPath, pathEq_render hsrc hdst, if_neg (by simpa using he), BProg.run_bind,
      M.bind_ok (run_askBool (hF.exists_ dst w hdst)), hr.1]
    simp only [Option.isSome_none, Bool.false_eq_true, if_false]
    rw [BProg.run_bind]
    rcases hr.2 with ⟨⟨b, hb⟩, d, m, rfl, hdm⟩ | ⟨hdir, _, hfree⟩
    · have hm : Name m := hdst m (by simp)
      rw [M.bind_ok (run_askBool ((hF.isDir src w hsrc).2 (by rw [hb]; simp))), if_neg (by simp),
        BProg.run_bind, BProg.run_ask]
      obtain ⟨r, w1, h1, _, hr1⟩ := hF.copyFile src (d ++ [m]) w hsrc hdst
      obtain ⟨hne, _⟩ := not_refused h1 (hW.copyFile src d m b w hm hb hdm hr.1) hr1
      rw [M.bind_ok (io_ok h1)]
      refine ⟨w1, ?_⟩
      cases r <;> first | exact absurd rfl (hne _) | rfl
    · rw [M.bind_ok (run_askBool ((hF.isDir src w hsrc).1 hdir)), if_pos rfl, BProg.run_bind,
        BProg.run_ask]
      obtain ⟨r, w1, h1, hf1, hk1, hr1⟩ := hF.createDirAll dst w hdst
      obtain ⟨hne, hcr⟩ := not_refused h1 (hW.createDirAll dst w hdst hfree) hr1
      rw [M.bind_ok (io_ok h1)]
      have hss : ∀ x, fs w1 (src ++ x) = fs w (src ++ x) := fun x =>
        hf1 _ fun h => hi1 ((List.prefix_append src x).trans h)
      have hsd : fs w1 src = some .dir := by simpa using (hss []).trans (by simpa using hdir)
      have hgoal : ∃ w', ((do
          match ← BProg.ask (.readDir (render src)) with
          | .strs names => Builtins.copyEntries (Builtins.copyPath fuel) (render src) (render dst) names
          | _ => BProg.fail (c!"could not create directory " ++ render dst)) : BProg Unit).run H ev0
            env w1 = (.ok (), env, w') := by
        rw [BProg.run_bind, BProg.run_ask]
        rcases hF.readDir src w1 hsd with ⟨e, h2⟩ | ⟨ns, h2, hnd, hns⟩
        · exact absurd (by rw [h2]) (hW.readDir src w1 hsd e)
        · rw [M.bind_ok (io_ok h2)]
          refine entries_work hF (fun s d w => copy_works hF hW fuel s d w) hsrc hdst hi1 hi2 ns hnd w1
            (hcr dst (List.prefix_refl _)) ?_ fun r h => hdepth r (by rw [← hss]; exact h)
          intro m hm
          refine ⟨(hns m).mp hm, ?_⟩
          rw [hf1]
          · exact below_none hF hr.1 [m]
          · intro h
            have := h.length_le
            simp only [List.length_append, List.length_cons, List.length_nil] at this
            omega
      obtain ⟨w', h4⟩ := hgoal
      refine ⟨w', ?_⟩
      rw [← h4]
      cases r <;> first | exact absurd rfl (hne _) | rfl

/-- C68.  `fs@cp` succeeds if there is something to copy and room for it, the file system refuses
nothing without a reason, and the tree is not deeper than the native stack; then everything at and
below the destination is what is at and below the source, and nothing else has changed but the
missing directories above the destination. -/
theorem C68_copy_works (hs : Std env) (hF : FileTree H fs) (hW : Willing H fs) {a b : Expr} {x y : Str}
    {src dst : List Str}
    (ha : evalN P H (stdB P L) n a env w = (.ok (.str x), env1, w1))
    (hb : evalN P H (stdB P L) n b env1 w1 = (.ok (.str y), env2, w2))
    (hx : Resolved env.getCwd x (render src)) (hy : Resolved env.getCwd y (render dst))
    (hsrc : ∀ n ∈ src, Name n) (hdst : ∀ n ∈ dst, Name n) (hroom : Room (fs w2) src dst)
    (hdepth : ∀ r, (fs w2 (src ++ r)).isSome → r.length < P.stackDepth) :
    ∃ w', evalN P H (stdB P L) (n + 1) (call c!"fs" c!"cp" [a, b]) env w = (.ok .none, env2, w') ∧
      (∀ r, fs w' (dst ++ r) = fs w2 (src ++ r)) ∧
      ∀ q, ¬ dst <+: q → ¬ q <+: dst → fs w' q = fs w2 q := by
  obtain ⟨hi1, hi2⟩ := hroom.apart hF
  have he : src ≠ dst := fun e => hi1 (e ▸ List.prefix_refl _)
  obtain ⟨o, w', h, hframe, _, hdone⟩ := C68_copy (P := P) (L := L) hs hF ha hb hx hy hsrc hdst he
  obtain ⟨w'', hw⟩ := copy_works (env := env2) (ev0 := evalN P H (stdB P L) n) hF hW P.stackDepth src dst
    w2 hsrc hdst hroom hdepth
  have h' := h
  rw [eval_twoPaths hs (.inl rfl) ha hb, if_neg (by decide), hx.join, hy.join, M.bind_ok hw] at h'
  cases h'
  exact ⟨_, h, (hdone .none rfl).2.2.2 hi1 hi2, hframe⟩

/-- C68.  `fs@rm` removes whatever is at the path, files and directories with all they contain, unless
the file system refuses without a reason. -/
theorem C68_rm_works (hs : Std env) (hF : FileTree H fs) (hW : Willing H fs) {a : Expr} {x : Str}
    {p : List Str} (ha : evalN P H (stdB P L) n a env w = (.ok (.str x), env1, w1))
    (hx : Resolved env.getCwd x (render p)) (hp : (fs w1 p).isSome) :
    ∃ w', evalN P H (stdB P L) (n + 1) (call c!"fs" c!"rm" [a]) env w = (.ok .none, env1, w') ∧
      (∀ q, p <+: q → fs w' q = none) ∧ ∀ q, ¬ p <+: q → fs w' q = fs w1 q := by
  have hpn := hF.names w1 p hp
  obtain ⟨o, w', h, hf, hr⟩ := C68_rm (P := P) (L := L) hs hF ha hx hpn
  rcases hr with ⟨rfl, _, hr⟩ | ⟨m, rfl⟩
  · exact ⟨w', h, hr, hf⟩
  have hd : display P (.str x) = x := rfl
  exfalso
  rcases he : fs w1 p with _ | b | _
  · rw [he] at hp
    cases hp
  · have h1 := (hF.isDir p w1 hpn).2 (by rw [he]; simp)
    obtain ⟨r, w2, h2, hr⟩ := hF.removeFile p w1 hpn
    have hne := hW.removeFile p b w1 he
    rw [h2] at hne
    revert h
    lib hs, Init.fsM
    brun [Builtins.rmB, Builtins.pathArg, ha, hd, hx.join, Builtins.removePath, Builtins.askBool, h1, h2]
  · have h1 := (hF.isDir p w1 hpn).1 he
    obtain ⟨r, w2, h2, _⟩ := hF.removeDirAll p w1 hpn
    have hne := hW.removeDirAll p w1 he
    rw [h2] at hne
    revert h
    lib hs, Init.fsM
    brun [Builtins.rmB, Builtins.pathArg, ha, hd, hx.join, Builtins.removePath, Builtins.askBool, h1, h2]

/-- C68.  `fs@rmdir` removes an empty directory, unless the file system refuses without a reason. -/
theorem C68_rmdir_works (hs : Std env) (hF : FileTree H fs) (hW : Willing H fs) {a : Expr} {x : Str}
    {p : List Str} (ha : evalN P H (stdB P L) n a env w = (.ok (.str x), env1, w1))
    (hx : Resolved env.getCwd x (render p)) (hp : fs w1 p = some .dir)
    (hempty : ∀ m, fs w1 (p ++ [m]) = none) :
    ∃ w', evalN P H (stdB P L) (n + 1) (call c!"fs" c!"rmdir" [a]) env w = (.ok .none, env1, w') ∧
      fs w' p = none ∧ ∀ q, q ≠ p → fs w' q = fs w1 q := by
  have hpn := hF.names w1 p (by rw [hp]; rfl)
  obtain ⟨o, w', h, hr⟩ := C68_rmdir (P := P) (L := L) hs hF ha hx hpn
  rcases hr with ⟨rfl, _, _, hr⟩ | ⟨m, rfl, _⟩
  · exact ⟨w', h, hr⟩
  have hd : display P (.str x) = x := rfl
  exfalso
  obtain ⟨r, w2, h2, _⟩ := hF.removeDir p w1 hpn
  have hne := hW.removeDir p w1 hp hempty
  rw [h2] at hne
  revert h
  lib hs, Init.fsM
  brun [Builtins.dirB, Builtins.pathArg, ha, hd, hx.join, h2]

/-- C68.  `fs@mkdir` creates the directory with all missing ones above it if no file is in the way,
unless the file system refuses without a reason; an existing directory stays as it is. -/
theorem C68_mkdir_works (hs : Std env) (hF : FileTree H fs) (hW : Willing H fs) {a : Expr} {x : Str}
    {p : List Str} (ha : evalN P H (stdB P L) n a env w = (.ok (.str x), env1, w1))
    (hx : Resolved env.getCwd x (render p)) (hp : ∀ n ∈ p, Name n)
    (hfree : ∀ q, q <+: p → ∀ b, fs w1 q ≠ some (.file b)) :
    ∃ w', evalN P H (stdB P L) (n + 1) (call c!"fs" c!"mkdir" [a]) env w = (.ok .none, env1, w') ∧
      (∀ q, q <+: p → fs w' q = some .dir) ∧ ∀ q, ¬ q <+: p → fs w' q = fs w1 q := by
  obtain ⟨o, w', h, hf, _, hr⟩ := C68_mkdir (P := P) (L := L) hs hF ha hx hp
  rcases hr with ⟨rfl, hr⟩ | ⟨m, rfl⟩
  · exact ⟨w', h, hr, hf⟩
  have hd : display P (.str x) = x := rfl
  exfalso
  obtain ⟨r, w2, h2, _⟩ := hF.createDirAll p w1 hp
  have hne := hW.createDirAll p w1 hp hfree
  rw [h2] at hne
  revert h
  lib hs, Init.fsM
  brun [Builtins.dirB, Builtins.pathArg, ha, hd, hx.join, h2]

/-- C68.  `fs@ls` of a directory lists exactly its entries, each once, as the given path followed by
the name, unless the file system refuses without a reason. -/
theorem C68_ls_works (hs : Std env) (hF : FileTree H fs) (hW : Willing H fs) {a : Expr} {x : Str}
    {p : List Str} (ha : evalN P H (stdB P L) n a env w = (.ok (.str x), env1, w1))
    (hx : Resolved env.getCwd x (render p)) (hdir : fs w1 p = some .dir)
    (hx0 : x ≠ []) (hx1 : x.getLast? ≠ some '/') :
    ∃ ns : List Str, ns.Nodup ∧ (∀ m, m ∈ ns ↔ (fs w1 (p ++ [m])).isSome) ∧
      evalN P H (stdB P L) (n + 1) (call c!"fs" c!"ls" [a]) env w =
        (.ok (.list (ns.map fun m => .str (x ++ '/' :: m))), env1, w1) := by
  have hpn := hF.names w1 p (by rw [hdir]; rfl)
  rcases C68_ls_dir (P := P) (L := L) hs hF ha hx hpn hdir hx0 hx1 with ⟨m, h⟩ | h
  · have hd : display P (.str x) = x := rfl
    have h1 := (hF.isDir p w1 hpn).1 hdir
    exfalso
    rcases hF.readDir p w1 hdir with ⟨e, h2⟩ | ⟨ns, h2, _⟩
    · exact hW.readDir p w1 hdir e (by rw [h2])
    · revert h
      lib hs, Init.fsM
      brun [Builtins.lsB, ha, hd, hx.join, Builtins.askBool, h1, h2]
  · exact h

end

/-! ### The file system in memory is willing -/

theorem disk_willing : Willing diskHost Disk.at_ where
  readDir p d hd e := by simp [diskHost]
  createDirAll p d hp hf e := by
    simp only [diskHost, parts_render hp]
    rw [dif_pos]
    · simp
    · refine ⟨hp, fun q hq => ?_⟩
      cases h : isFile (d.at_ q) with
      | false => rfl
      | true =>
        obtain ⟨b, hb⟩ := (isFile_iff _).mp h
        exact absurd hb (hf q (by simpa using hq) b)
  copyFile p q m b d hm hp hq hn e := by
    have hpn := d.names p (by rw [hp]; rfl)
    have hqn := names_append (d.names q (by rw [hq]; rfl)) (q := [m]) (by simpa using hm)
    simp only [diskHost, parts_render hpn, parts_render hqn, Disk.copy, hp]
    simp only [List.getLast?_append, List.getLast?_singleton, Option.some_or, List.dropLast_concat]
    rw [dif_pos]
    · simp
    · exact ⟨hm, (isDir_iff _).mpr hq, by rw [hn]; rfl⟩
  removeFile p b d hp e := by
    have hpn := d.names p (by rw [hp]; rfl)
    simp only [diskHost, parts_render hpn]
    rw [if_pos ((isFile_iff _).mpr ⟨b, hp⟩)]
    simp
  removeDir p d hp hn e := by
    have hpn := d.names p (by rw [hp]; rfl)
    simp only [diskHost, parts_render hpn]
    rw [if_pos]
    · simp
    · refine ⟨(isDir_iff _).mpr hp, List.eq_nil_iff_forall_not_mem.mpr fun m hm => ?_⟩
      have := (d.mem_children p m).mp hm
      rw [hn] at this
      cases this
  removeDirAll p d hp e := by simp [diskHost]

/-! ### Instances: the hypotheses can be met -/

/-- nothing in the example is deeper than the native stack -/
theorem disk1_shallow (p : List Str) : ∀ r, (disk1.at_ (p ++ r)).isSome → r.length < Demo.plat.stackDepth := by
  intro r h
  have h1 : ∀ q ∈ disk1.all, q.length < Demo.plat.stackDepth := by decide
  have := h1 _ (disk1.mem _ h)
  rw [List.length_append] at this
  omega

theorem disk1_free {p : List Str} (h : ∀ q ∈ p.inits, isFile (disk1.at_ q) = false) :
    ∀ q, q <+: p → ∀ b, disk1.at_ q ≠ some (.file b) := by
  intro q hq b hb
  have := h q (by simpa using hq)
  rw [hb] at this
  cases this

/-- copying a directory, where `/c` does not exist yet -/
example := C68_copy_works (P := Demo.plat) (L := Demo.lib) (n := 1) (w := disk1) (src := [c!"d"])
  (dst := [c!"c", c!"n"]) demo_std disk_tree disk_willing (a := .str c!"/d") (b := .str c!"/c/n") rfl rfl
  (.absolute _ _) (.absolute _ _) (by decide) (by decide)
  ⟨rfl, .inr ⟨rfl, by decide, disk1_free (by decide)⟩⟩ (disk1_shallow _)

/-- copying a file into a directory -/
example := C68_copy_works (P := Demo.plat) (L := Demo.lib) (n := 1) (w := disk1) (src := [c!"d", c!"x"])
  (dst := [c!"d", c!"e", c!"z"]) demo_std disk_tree disk_willing (a := .str c!"/d/x")
  (b := .str c!"/d/e/z") rfl rfl (.absolute _ _) (.absolute _ _) (by decide) (by decide)
  ⟨rfl, .inl ⟨⟨[1], rfl⟩, [c!"d", c!"e"], c!"z", rfl, rfl⟩⟩ (disk1_shallow _)

example := C68_rm_works (P := Demo.plat) (L := Demo.lib) (n := 1) (w := disk1) (p := [c!"d"]) demo_std
  disk_tree disk_willing (a := .str c!"/d") rfl (.absolute _ _) rfl

example := C68_mkdir_works (P := Demo.plat) (L := Demo.lib) (n := 1) (w := disk1) (p := [c!"d", c!"m"])
  demo_std disk_tree disk_willing (a := .str c!"/d/m") rfl (.absolute _ _) (by decide)
  (disk1_free (by decide))

example := C68_ls_works (P := Demo.plat) (L := Demo.lib) (n := 1) (w := disk1) (p := [c!"d"]) demo_std
  disk_tree disk_willing (a := .str c!"/d") rfl (.absolute _ _) rfl (by decide) (by decide)

/-- the root directory is empty -/
example := C68_rmdir_works (P := Demo.plat) (L := Demo.lib) (n := 1) (w := disk0) (p := []) demo_std
  disk_tree disk_willing (a := .str c!"/") rfl (.absolute _ _) rfl (by simp [disk0])

end Dune.Props
