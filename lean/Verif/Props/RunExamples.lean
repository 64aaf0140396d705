import Verif.Props.Run
import Verif.Props.ProgramExamples
/-!
# Concrete runs for C79, C80 and C81
-/
namespace Verif.Props.ProgEx
open Verif.Py Verif.Model Verif.Spec Verif.Proofs Verif.Props

/-- a configuration file in the directory of the run; the disk of the example lies in `./` -/
def world : World :=
  ⟨fun p => if p = c% "./tecs.cfg" ∨ p = c% "my.cfg" then some cfgLines else none, fun d => if d = c% "." then .ok disk else .error .os⟩

/-- the same disk with a second observation file, which has no header -/
def disk2 : Disk :=
  ⟨fun d => if d = c% "d" then .ok [c% "irkj0030.17o", c% "irkj0020.17o.xyz", c% "irkj0020.17o"] else disk.listing d,
   fun f p => if f = .plain ∧ p = c% "d/irkj0030.17o" then .ok [HLine.render 211 (.version 211 'O' 'M' obsWords)] else disk.lines f p,
   fun p => p = c% "d/irkj0030.17o" ∨ disk.present p⟩

/-- a run without arguments: the output files, no message -/
theorem C81_example : (tecsRun ev dtLen ext world ⟨false, none, false⟩ 5 []).map (fun r => (r.fs.map (·.1), r.message, r.err)) =
    some ([c% "out/2017/002/irkj/irkj_G01_002_17.dat", c% "out/2017/002/irkj/irkj_R24_002_17.dat"], false, none) := by decide +kernel

/-- `-c my.cfg` with the same file -/
theorem C81_example_bare : (tecsRun ev dtLen ext world ⟨false, some (c% "my.cfg"), false⟩ 5 []).map (fun r => (r.fs, r.message, r.err)) =
    some ([], false, some .os) := by decide +kernel

/-- `name = value` -/
def item (name value : Str) : CfgItem := .assign [] name [' '] [' '] value [] none

/-- the hypotheses of `C81_directory` -/
theorem C81_hypotheses : ∃ items cfg', CfgWritten items cfgLines ∧ (∀ v, ¬ LastValue items (c% "cfg_file") v) ∧
    readCfg ev dtLen (c% "./tecs.cfg") (some cfgLines) = .ok cfg' ∧ world.config (c% "./tecs.cfg") = some cfgLines ∧ world.chdir (c% ".") = .ok disk := by
  refine ⟨[.comment (c% " an example"), item (c% "obsDir") (c% "d"), item (c% "navDir") (c% "n"), item (c% "outDir") (c% "out"),
    item (c% "recFields") (c% "tsn, el, c1, site.x"), item (c% "datetimeFormat") (c% "%Y"), item (c% "navIgnoreAbsence") (c% "False"),
    item (c% "samplingInterval") (c% "0"), item (c% "logFile") (c% "l")], { cfg with cfgFile := c% "./tecs.cfg" }, ?_, ?_, by decide +kernel, by decide, rfl⟩
  · have hb : ∀ s, s = [] ∨ s = [' '] ∨ s = ['\n'] → Blank s := by rintro s (rfl | rfl | rfl) <;> (unfold Blank; decide)
    have hi : ∀ n v, CfgName n → CfgValue v → (item n v).Ok := fun n v h1 h2 => ⟨hb _ (by simp), h1, hb _ (by simp), hb _ (by simp), h2, hb _ (by simp)⟩
    have hv : ∀ v, (v.all fun c => c ≠ '=' ∧ c ≠ '#') = true → (v.head?.all fun c => isSpace c = false) = true → (v.getLast?.all fun c => isSpace c = false) = true → CfgValue v := by
      intro v h1 h2 h3
      refine ⟨fun c hc => by simpa using List.all_eq_true.1 h1 c hc, fun c hc => ?_, fun c hc => ?_⟩
      · rw [hc] at h2; simpa using h2
      · rw [hc] at h3; simpa using h3
    refine .cons _ ['\n'] _ _ trivial (hb _ (by simp)) ?_
    iterate 8
      refine .cons _ ['\n'] _ _ (hi _ _ ?_ (hv _ (by decide) (by decide) (by decide))) (hb _ (by simp)) ?_
      · show ∀ c ∈ _, _
        decide
    exact .nil
  · rintro v ⟨pre, i, post, h1, ⟨-, a, b, c, d, r, rfl⟩, -⟩
    have hm : CfgItem.assign a (c% "cfg_file") b c v d r ∈ pre ++ CfgItem.assign a (c% "cfg_file") b c v d r :: post := by simp
    rw [← h1] at hm
    simp [item] at hm

/-- a second file that cannot be read: the output of the first file is as before, and the message is printed -/
theorem C80_example : (mainRun ext disk2 cfg false 5 []).map (fun r => (r.fs.map (·.1), r.message, r.err)) =
    some ([c% "out/2017/002/irkj/irkj_G01_002_17.dat", c% "out/2017/002/irkj/irkj_R24_002_17.dat"], true, none) := by decide +kernel

/-- every direction is an arithmetic error: the message is printed -/
theorem C80_example_item : (mainRun { ext with elAz := fun _ _ => .error .zeroDiv } disk cfg false 5 []).map (fun r => (r.message, r.err)) = some (true, none) := by
  decide +kernel

/-- `--save-coordinates` -/
theorem C79_example : (mainRun ext disk2 cfg true 5 []).map (fun r => (r.fs, r.message, r.err)) =
    some ([(c% "coordinates.txt", c% "irkj; 3; 2\n")], true, none) := by decide +kernel

end Verif.Props.ProgEx
