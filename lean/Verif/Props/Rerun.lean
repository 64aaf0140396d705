import Verif.Proofs.Rerun
import Verif.Props.ProgramExamples
/-!
# C84: repeated and interrupted runs
-/
namespace Verif.Props
open Verif.Py Verif.Model Verif.Spec Verif.Proofs

theorem program_same (X : Ext) (D : Disk) (cfg : Cfg) (fuel : Nat) (now : Str → DateTime → Str) {a r} (b : FS) (h : program X D cfg fuel a = some r) :
    ∃ r', program (X.atTime now) D cfg fuel b = some r' ∧ r'.err = r.err ∧ r'.calls = r.calls ∧ Related X.env.now now a b r.fs r'.fs := by
  have h0 : Related X.env.now now a b a b := fun _ => .inl ⟨rfl, rfl⟩
  unfold program at h ⊢
  cases hf : obsFiles D cfg with
  | error e => rw [hf] at h; cases h; exact ⟨_, rfl, rfl, rfl, h0⟩
  | ok files =>
    rw [hf] at h
    cases files with
    | nil => cases h; exact ⟨_, rfl, rfl, rfl, h0⟩
    | cons f files =>
      simp only [Option.map_eq_some_iff] at h ⊢
      obtain ⟨ins, h1, rfl⟩ := h
      obtain ⟨-, h3, h4⟩ := loop_same (m' := now) (prmOf X D cfg) (m := X.env.now) rfl ins Glob.empty h0
      have hp : prmOf (X.atTime now) D cfg = atTime (prmOf X D cfg) now := rfl
      refine ⟨_, ⟨ins, h1, rfl⟩, ?_, ?_, ?_⟩
      · simp only; rw [hp, h3]
      · simp only; rw [hp, h3]
      · simp only; rw [hp]; exact h4

theorem atTime_now (X : Ext) : X.atTime X.env.now = X := rfl

/-- C84: what a run writes does not depend on the files that are already there: the files are those a run over an empty output directory leaves, and those which were there and are not written. -/
theorem C84_overlay (X : Ext) (D : Disk) (cfg : Cfg) (fuel : Nat) (fs : FS) (r : Outcome) (h : program X D cfg fuel fs = some r) :
    ∃ r0, program X D cfg fuel [] = some r0 ∧ r.err = r0.err ∧ r.calls = r0.calls ∧ ∀ p, r.fs.get? p = (r0.fs.get? p).or (fs.get? p) := by
  obtain ⟨r0, h1, h2, h3, h4⟩ := program_same X D cfg fuel X.env.now [] h
  rw [atTime_now] at h1
  refine ⟨r0, h1, h2.symm, h3.symm, fun p => ?_⟩
  rcases h4 p with ⟨h5, h6⟩ | ⟨s, t, h5, h6, h7⟩
  · rw [h5, h6]; rfl
  · rw [h5, h6, h7.eq]; rfl

/-- C84: running the program again, at any time, changes nothing but the dates in the first lines. -/
theorem C84_rerun (X : Ext) (D : Disk) (cfg : Cfg) (fuel : Nat) (fs : FS) (r : Outcome) (h : program X D cfg fuel fs = some r) (now : Str → DateTime → Str) :
    ∃ r', program (X.atTime now) D cfg fuel r.fs = some r' ∧ r'.err = r.err ∧ r'.calls = r.calls ∧ ∀ p, Option.Rel SameButDate (r.fs.get? p) (r'.fs.get? p) := by
  obtain ⟨r', h1, h2, h3, h4⟩ := program_same X D cfg fuel now r.fs h
  refine ⟨r', h1, h2, h3, fun p => ?_⟩
  rcases h4 p with ⟨h5, h6⟩ | ⟨s, t, h5, h6, h7⟩
  · rw [h6]
    cases r.fs.get? p with
    | none => exact .none
    | some s => exact .some (.inl rfl)
  · rw [h5, h6]
    exact .some h7.same

/-- C84: a run that is stopped at any point, even in the middle of writing, and repeated at any later time leaves what an uninterrupted run leaves, but for the dates in the first lines. -/
theorem C84_interrupted (X : Ext) (D : Disk) (cfg : Cfg) (fuel : Nat) (fs fs1 fs2 : FS) (r r0 : Outcome) (i k : Nat) (h : program X D cfg fuel fs = some r)
    (h0 : program X D cfg fuel [] = some r0) (hs : stoppedAt X D cfg fuel fs i k = some fs1) (ht : Torn r0.fs fs1 fs2) (now : Str → DateTime → Str) :
    ∃ r', program (X.atTime now) D cfg fuel fs2 = some r' ∧ r'.err = r.err ∧ r'.calls = r.calls ∧ ∀ p, Option.Rel SameButDate (r.fs.get? p) (r'.fs.get? p) := by
  obtain ⟨r1, a1, a2, a3, a4⟩ := C84_overlay X D cfg fuel fs r h
  cases h0.symm.trans a1
  obtain ⟨r', b1, b2, b3, b4⟩ := program_same X D cfg fuel now fs2 h0
  refine ⟨r', b1, b2.trans a2.symm, b3.trans a3.symm, fun p => ?_⟩
  rcases b4 p with ⟨h5, h6⟩ | ⟨s, t, h5, h6, h7⟩
  · have h5 : r0.fs.get? p = none := h5
    have hk : fs1.get? p = fs.get? p := by
      unfold stoppedAt at hs
      unfold program at h0
      cases hf : obsFiles D cfg with
      | error e => rw [hf] at hs; cases hs; rfl
      | ok files =>
        rw [hf] at hs h0
        simp only [Option.map_eq_some_iff] at hs
        obtain ⟨ins, c1, rfl⟩ := hs
        have hn : (mainLoop (prmOf X D cfg) ins Glob.empty []).2.1.get? p = none := by
          cases files with
          | nil => cases c1; rfl
          | cons f files =>
            simp only [c1, Option.map_some, Option.some.injEq] at h0
            subst h0
            exact h5
        have hc := firstPart_files (prmOf X D cfg) k p i ins Glob.empty [] hn
        have hrel : Related X.env.now X.env.now [] fs [] fs := fun _ => .inl ⟨rfl, rfl⟩
        obtain ⟨-, -, c4⟩ := loop_same (m' := X.env.now) (prmOf X D cfg) (m := X.env.now) rfl (firstPart i k ins) Glob.empty hrel
        rcases c4 p with c5 | ⟨s, t, c5, _⟩
        · exact c5.2
        · rw [hc] at c5; cases c5
    rw [a4 p, h6, ht p h5, h5, hk]
    cases fs.get? p with
    | none => exact .none
    | some s => exact .some (.inl rfl)
  · rw [a4 p, h5, h6]
    exact .some h7.same

namespace ProgEx

/-- the example run stopped after three items: the file of R24 lacks its last line -/
theorem C84_example : ∃ fs1, stoppedAt ext disk cfg 5 [] 0 3 = some fs1 ∧ (fs1.get? (c% "out/2017/002/irkj/irkj_R24_002_17.dat")).map (fun t => (splitOn '\n' t).length) = some 13 ∧
    (fs1.get? (c% "out/2017/002/irkj/irkj_G01_002_17.dat")).map (fun t => (splitOn '\n' t).length) = some 14 := by
  have h : (stoppedAt ext disk cfg 5 [] 0 3).map (fun fs1 => ((fs1.get? (c% "out/2017/002/irkj/irkj_R24_002_17.dat")).map (fun t => (splitOn '\n' t).length),
      (fs1.get? (c% "out/2017/002/irkj/irkj_G01_002_17.dat")).map (fun t => (splitOn '\n' t).length))) = some (some 13, some 14) := by decide +kernel
  obtain ⟨fs1, h1, h2⟩ := Option.map_eq_some_iff.1 h
  simp only [Prod.mk.injEq] at h2
  exact ⟨fs1, h1, h2.1, h2.2⟩

end ProgEx

end Verif.Props
