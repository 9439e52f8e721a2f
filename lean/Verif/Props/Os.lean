import Verif.Model.Os
import Verif.Proof.Start
import Verif.Props.Listing

/-! C126: the name and the family of the system. -/

namespace Dune.Props

open Spec Init

/-- The Linux distributions (Android not counted). -/
def distributions : List OsType :=
  [.alpine, .arch, .centos, .debian, .fedora, .linux, .manjaro, .mint, .opensuse,
    .endeavouros, .oraclelinux, .pop, .redhat, .redhatenterprise, .suse, .ubuntu, .amazon, .solus]

theorem start_os (X : Machine) (t : OsType) (v : Str) : ∃ tbl : BMap Expr,
    (start (withOs X t v)).get c!"os" = some (.map tbl) ∧ tbl.get? c!"name" = some (.str (osName t)) ∧
      tbl.get? c!"family" = some (.str (osFamily t)) ∧ tbl.get? c!"version" = some (.str v) := by
  refine ⟨_, (start_get _).trans rfl, ?_⟩
  rw [BMap.ofList, BMap.get?_extend, BMap.get?_extend, BMap.get?_extend, members]
  simp only [withOs, if_true, List.append_assoc]
  simp only [List.reverse_append, BMap.get?_extend.get?_append]
  exact ⟨rfl, rfl, rfl⟩

section

variable {W : Type} {P : Plat} {H : Host W} {L : Lib} {n : Nat} {w : W} {X : Machine} {t : OsType} {version : Str}

/-- C126.  `os@name` and `os@family` are texts: both are `windows` exactly on Windows, both are `unknown` exactly on
systems the shell does not know, and the names of different known systems differ.  `os@version` is what the system
says. -/
theorem C126_os : ∃ nm fam : OsType → Str,
    (∀ t, evalN P H (stdB P L) (n + 1) (member c!"os" c!"name") (start (withOs X t version)) w =
      (.ok (.str (nm t)), start (withOs X t version), w)) ∧
    (∀ t, evalN P H (stdB P L) (n + 1) (member c!"os" c!"family") (start (withOs X t version)) w =
      (.ok (.str (fam t)), start (withOs X t version), w)) ∧
    (∀ t, evalN P H (stdB P L) (n + 1) (member c!"os" c!"version") (start (withOs X t version)) w =
      (.ok (.str version), start (withOs X t version), w)) ∧
    (∀ t, (nm t = c!"windows" ↔ t = .windows) ∧ (fam t = c!"windows" ↔ t = .windows) ∧
      (nm t = c!"unknown" ↔ t = .other) ∧ (fam t = c!"unknown" ↔ t = .other)) ∧
    Function.Injective nm := by
  have hat : ∀ t, (start (withOs X t version)).get c!"@" = some (.builtin c!"@" .index []) := fun t =>
    (start_std (X := withOs X t version)).op (Init.b c!"@" .index) (by mem_tac)
  refine ⟨osName, osFamily, fun t => ?_, fun t => ?_, fun t => ?_, fun t => ?_, fun a b h => ?_⟩
  · obtain ⟨tbl, h, h1, -, -⟩ := start_os X t version
    exact evalD_member (k := 799) (hat t) h h1
  · obtain ⟨tbl, h, -, h1, -⟩ := start_os X t version
    exact evalD_member (k := 799) (hat t) h h1
  · obtain ⟨tbl, h, -, -, h1⟩ := start_os X t version
    exact evalD_member (k := 799) (hat t) h h1
  · cases t <;> decide
  · cases a <;> cases b <;> first | rfl | exact absurd h (by decide)

/-- C126, refuted: that `os@family` is `linux` on every Linux distribution.  It is, except on Amazon Linux, where it
is `android`, and on Solus, where it is `unix`. -/
theorem C126_linux_refuted (h : t ∈ distributions) : ∃ fam : Str,
    evalN P H (stdB P L) (n + 1) (member c!"os" c!"family") (start (withOs X t version)) w =
      (.ok (.str fam), start (withOs X t version), w) ∧
    (fam = c!"linux" ↔ t ≠ .amazon ∧ t ≠ .solus) ∧ (t = .amazon → fam = c!"android") ∧ (t = .solus → fam = c!"unix") := by
  have hat : (start (withOs X t version)).get c!"@" = some (.builtin c!"@" .index []) :=
    (start_std (X := withOs X t version)).op (Init.b c!"@" .index) (by mem_tac)
  obtain ⟨tbl, h0, -, h1, -⟩ := start_os X t version
  refine ⟨osFamily t, evalD_member (k := 799) hat h0 h1, ?_⟩
  clear h0 h1 hat
  revert h
  cases t <;> decide

end

/-! ### Instances: the hypotheses can be met -/

example : OsType.solus ∈ distributions ∧ OsType.debian ∈ distributions ∧ OsType.windows ∉ distributions := by decide

example : ∃ fam : Str, evalN Demo.plat Demo.host (stdB Demo.plat Demo.lib) 3 (member c!"os" c!"family")
      (start (withOs ⟨none, none, none, none, none, fun _ => [], .none, .none⟩ .solus c!"4")) [] =
    (.ok (.str fam), start (withOs ⟨none, none, none, none, none, fun _ => [], .none, .none⟩ .solus c!"4"), []) ∧
      fam = c!"unix" := by
  obtain ⟨fam, h, -, -, h1⟩ := C126_linux_refuted (P := Demo.plat) (H := Demo.host) (L := Demo.lib) (n := 2) (w := [])
    (X := ⟨none, none, none, none, none, fun _ => [], .none, .none⟩) (t := .solus) (version := c!"4") (by decide)
  exact ⟨fam, h, h1 rfl⟩

end Dune.Props
