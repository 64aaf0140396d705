import Verif.Props.Program
import Verif.Props.MainExamples
/-!
# Runs without input, and runs that cannot list a directory
-/
namespace Verif.Props
open Verif.Py Verif.Model Verif.Spec Verif.Proofs

/-- C74: without observation files the run ends with `SystemExit` and touches no file. -/
theorem C74_none (X : Ext) (D : Disk) (cfg : Cfg) (fuel : Nat) (fs : FS) (hn : PlainNames D cfg.obsDir) (h : InputFiles D cfg.obsDir []) :
    program X D cfg fuel fs = some ⟨fs, [], some .exit⟩ := by
  unfold program
  rw [(C72_files D cfg [] hn).2 h]

theorem listDirs_error (D : Disk) (ds : List Str) (d : Str) (ds' : List Str) (er : PyErr) (hd : ∀ x ∈ ds, ∃ l, D.listing x = .ok l)
    (he : D.listing d = .error er) : listDirs D (ds ++ d :: ds') = .error er := by
  induction ds with
  | nil => simp only [List.nil_append, listDirs, he]
  | cons x ds ih =>
    obtain ⟨l, hl⟩ := hd x (by simp)
    simp only [List.cons_append, listDirs, hl]
    rw [ih fun y hy => hd y (by simp [hy])]

/-- C74: if an observation directory cannot be listed the run ends with the error of the first such directory and touches no file. -/
theorem C74_listing (X : Ext) (D : Disk) (cfg : Cfg) (fuel : Nat) (fs : FS) (ds : List Str) (d : Str) (ds' : List Str) (er : PyErr)
    (hc : cfg.obsDir = ds ++ d :: ds') (hd : ∀ x ∈ ds, ∃ l, D.listing x = .ok l) (he : D.listing d = .error er) :
    program X D cfg fuel fs = some ⟨fs, [], some er⟩ := by
  unfold program obsFiles
  rw [hc, listDirs_error D ds d ds' er hd he]

/-- C74: a run that ends normally has gone through every observation file. -/
theorem C74_all (X : Ext) (D : Disk) (cfg : Cfg) (fuel : Nat) (fs : FS) (r : Outcome) (hn : PlainNames D cfg.obsDir)
    (hrun : program X D cfg fuel fs = some r) (hend : r.err = none) :
    ∃ paths, paths ≠ [] ∧ InputFiles D cfg.obsDir paths ∧ r.calls.length = paths.length := by
  cases hf : obsFiles D cfg with
  | error e =>
    unfold program at hrun
    rw [hf] at hrun
    cases hrun; cases hend
  | ok paths =>
    refine ⟨paths, ?_, (C72_files D cfg paths hn).1 hf, ?_⟩
    · rintro rfl
      unfold program at hrun
      rw [hf] at hrun
      cases hrun; cases hend
    · cases paths with
      | nil =>
        unfold program at hrun
        rw [hf] at hrun
        cases hrun; cases hend
      | cons p ps =>
        obtain ⟨ins, -, hm, hlen, -, -⟩ := program_file X D cfg fuel fs r (p :: ps) 0 p hf rfl hrun
        have herr : (mainLoop (prmOf X D cfg) ins Glob.empty fs).2.2.2 = none := by rw [hm]; exact hend
        rw [← hlen, ← mainLoop_length _ ins _ _ herr, hm]

/-- for the example: an empty directory and one with a file that is not an observation file -/
def noInput : Disk := ⟨fun d => if d = c% "a" then .ok [] else .ok [c% "readme.txt"], fun _ _ => .error .os, fun _ => false⟩

/-- the hypotheses of `C74_none` and `C74_listing` can be met -/
theorem C74_example : InputFiles noInput [c% "a", c% "b"] [] ∧ PlainNames noInput [c% "a", c% "b"] := by
  have hp : PlainNames noInput [c% "a", c% "b"] := by
    intro d hd l hl n hn
    simp only [List.mem_cons, List.not_mem_nil, or_false] at hd
    unfold noInput at hl
    rcases hd with rfl | rfl
    · simp only [if_true, Except.ok.injEq] at hl
      subst hl; cases hn
    · simp only [show ¬ (c% "b" = c% "a") by decide, if_false] at hl
      simp only [Except.ok.injEq] at hl
      subst hl
      simp only [List.mem_cons, List.not_mem_nil, or_false] at hn
      subst hn; decide
  exact ⟨(C72_files noInput { MainEx.cfg true none with obsDir := [c% "a", c% "b"] } [] hp).1 (by decide +kernel), hp⟩

end Verif.Props
