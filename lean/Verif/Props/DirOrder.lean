import Verif.Spec.DirOrder
import Verif.Props.ProgramExamples
/-!
# The order of the observation directories and of their listings (C72)
-/
namespace Verif.Props
open Verif.Py Verif.Model Verif.Spec Verif.Proofs

theorem listDirs_allListed {D : Disk} {g : Str → List Str} : ∀ {ds : List Str}, (∀ d ∈ ds, D.listing d = .ok (g d)) → listDirs D ds = .ok (ds.map fun d => (d, g d))
  | [], _ => rfl
  | d :: ds, h => by
    unfold listDirs
    rw [h d (by simp), listDirs_allListed fun x hx => h x (by simp [hx])]
    rfl

theorem findFiles_reordered {g g' : Str → List Str} {ds ds' : List Str} (hp : ds'.Perm ds) (hg : ∀ d ∈ ds, (g' d).Perm (g d)) (r : Re) :
    (findFiles (ds'.map fun d => (d, g' d)) r).Perm (findFiles (ds.map fun d => (d, g d)) r) := by
  have e : ∀ (k : Str → List Str) (l : List Str), findFiles (l.map fun d => (d, k d)) r = l.flatMap fun d => ((k d).filter r.accepts).map (joinPath d) := by
    intro k l
    unfold findFiles
    rw [List.map_map, List.flatMap_def]
    rfl
  rw [e, e]
  refine List.Perm.trans ?_ (hp.flatMap_right _)
  refine List.Perm.flatMap_left _ fun d hd => ?_
  exact ((hg d (hp.mem_iff.1 hd)).filter _).map _

theorem sortStr_reordered {l m : List Str} (h : l.Perm m) : sortStr l = sortStr m :=
  sortStr_unique (h.trans (sortStr_perm m).symm) (sorted_sortStr m)

/-- the same parameters with other observation directories -/
def withObsDirs (P : Prm) (dirs : List Str) : Prm := { P with cfg := { P.cfg with obsDir := dirs } }

theorem process_obsDirs (P : Prm) (dirs : List Str) (o : ObsIn) (xyz : Dict DateTime Pos) (it : ObsItem) (c : Char) (n : Int) (e : DateTime) (s : St) :
    process (withObsDirs P dirs) o xyz it c n e s = process P o xyz it c n e s := rfl

theorem runItems_obsDirs (P : Prm) (dirs : List Str) (o : ObsIn) (sampling : Option Int) (xyz : Dict DateTime Pos) (its : List ObsItem) :
    ∀ last s, runItems (withObsDirs P dirs) o sampling xyz its last s = runItems P o sampling xyz its last s := by
  induction its with
  | nil => intro _ _; rfl
  | cons it its ih =>
    intro last s
    unfold runItems
    simp only [process_obsDirs, ih]

theorem processFile_obsDirs (P : Prm) (dirs : List Str) (f : FileIn) (g : Glob) (fs : FS) : processFile (withObsDirs P dirs) f g fs = processFile P f g fs := by
  unfold processFile
  simp only [runItems_obsDirs]
  rfl

theorem mainLoop_obsDirs (P : Prm) (dirs : List Str) (fsn : List FileIn) : ∀ g fs, mainLoop (withObsDirs P dirs) fsn g fs = mainLoop P fsn g fs := by
  induction fsn with
  | nil => intro _ _; rfl
  | cons f fsn ih =>
    intro g fs
    unfold mainLoop
    simp only [processFile_obsDirs, ih]

theorem listDirs_sameNav {D D' : Disk} : ∀ {ds : List Str}, (∀ d ∈ ds, D'.listing d = D.listing d) → listDirs D' ds = listDirs D ds
  | [], _ => rfl
  | d :: ds, h => by
    unfold listDirs
    rw [h d (by simp), listDirs_sameNav fun x hx => h x (by simp [hx])]

/-- C72: neither the order in which the observation directories are given nor the order in which the operating system lists their entries matters: the run is the same - the same
output files, the same calls of the writer, the same end. -/
theorem C72_directories (X : Ext) (D D' : Disk) (cfg cfg' : Cfg) (h : SameArchive D D' cfg cfg') (fuel : Nat) (fs : FS) : program X D' cfg' fuel fs = program X D cfg fuel fs := by
  obtain ⟨g, hg⟩ : ∃ g : Str → List Str, ∀ d ∈ cfg.obsDir, D.listing d = .ok (g d) :=
    ⟨fun d => match D.listing d with | .ok l => l | .error _ => [], fun d hd => by obtain ⟨l, l', h1, -⟩ := h.listed d hd; simp only [h1]⟩
  obtain ⟨g', hg'⟩ : ∃ g' : Str → List Str, ∀ d ∈ cfg.obsDir, D'.listing d = .ok (g' d) :=
    ⟨fun d => match D'.listing d with | .ok l => l | .error _ => [], fun d hd => by obtain ⟨l, l', -, h1, -⟩ := h.listed d hd; simp only [h1]⟩
  have hgp : ∀ d ∈ cfg.obsDir, (g' d).Perm (g d) := by
    intro d hd
    obtain ⟨l, l', h1, h2, h3⟩ := h.listed d hd
    rw [hg d hd] at h1
    rw [hg' d hd] at h2
    cases h1
    cases h2
    exact h3
  have hl := listDirs_allListed hg
  have hl' : listDirs D' cfg'.obsDir = _ := listDirs_allListed fun d hd => hg' d (h.dirs.mem_iff.1 hd)
  have hfiles : obsFiles D' cfg' = obsFiles D cfg := by
    unfold obsFiles
    rw [hl, hl']
    simp only [sortStr_reordered (findFiles_reordered h.dirs hgp reObs)]
  have hxyz : someXyz D' cfg' = someXyz D cfg := by
    unfold someXyz
    rw [hl, hl']
    have := findFiles_reordered h.dirs hgp reXyz
    simp only [ne_eq, decide_eq_decide]
    rw [not_iff_not]
    exact ⟨fun e => by rw [e] at this; exact this.symm.eq_nil, fun e => by rw [e] at this; exact this.eq_nil⟩
  have hnav : loadFor D' cfg' = loadFor D cfg := by
    have hD : navFileOf D' = navFileOf D := by
      obtain ⟨_, _, _⟩ := D
      obtain ⟨_, _, _⟩ := D'
      obtain ⟨-, -, -, -, rfl, rfl⟩ := h
      rfl
    funext d c
    unfold loadFor
    rw [show cfg'.navDir = cfg.navDir from by rw [h.settings], show cfg'.navPriority = cfg.navPriority from by rw [h.settings], listDirs_sameNav h.navigation, hD]
  have hprm : prmOf X D' cfg' = withObsDirs (prmOf X D cfg) cfg'.obsDir := by
    unfold prmOf withObsDirs
    rw [hnav]
    simp only [Prm.mk.injEq, and_true]
    exact h.settings
  have hin : ∀ b p, fileIn D' fuel b p = fileIn D fuel b p := by
    obtain ⟨_, _, _⟩ := D
    obtain ⟨_, _, _⟩ := D'
    obtain ⟨-, -, -, -, rfl, rfl⟩ := h
    exact fun _ _ => rfl
  unfold program
  rw [hfiles, hxyz, hprm]
  have : fileIn D' fuel (someXyz D cfg) = fileIn D fuel (someXyz D cfg) := funext (hin _)
  rw [this]
  simp only [mainLoop_obsDirs]

end Verif.Props

namespace Verif.Props.ProgEx
open Verif.Py Verif.Spec Verif.Model Verif.Proofs

/-- another directory, and other orders -/
def diskDirs (turn : Bool) : Disk :=
  { disk with listing := fun d => if d = c% "d" then .ok (if turn then [c% "irkj0020.17o", c% "irkj0020.17o.xyz", c% "readme"] else [c% "readme", c% "irkj0020.17o.xyz", c% "irkj0020.17o"])
      else if d = c% "e" then .ok [c% "aaaa0030.17o"] else disk.listing d }

def cfgDirs (turn : Bool) : Cfg := { cfg with obsDir := if turn then [c% "e", c% "d"] else [c% "d", c% "e"] }

theorem C72_directories_hypotheses : SameArchive (diskDirs false) (diskDirs true) (cfgDirs false) (cfgDirs true) where
  settings := rfl
  dirs := List.Perm.swap ..
  listed := by
    intro d hd
    simp only [cfgDirs, Bool.false_eq_true, if_false, List.mem_cons, List.not_mem_nil, or_false] at hd
    rcases hd with rfl | rfl
    · exact ⟨_, _, rfl, rfl, by decide⟩
    · exact ⟨_, _, rfl, rfl, .refl _⟩
  navigation := by
    intro d hd
    simp only [cfgDirs, cfg, List.mem_cons, List.not_mem_nil, or_false] at hd
    subst hd
    rfl
  present := rfl
  lines := rfl

/-- the run of the example: the files of both directories are looked at, in the order of their paths -/
theorem C72_directories_example : obsFiles (diskDirs true) (cfgDirs true) = .ok [c% "d/irkj0020.17o", c% "e/aaaa0030.17o"] ∧
    (program ext (diskDirs true) (cfgDirs true) 5 []).map (fun r => (r.err, r.fs)) = (program ext (diskDirs false) (cfgDirs false) 5 []).map (fun r => (r.err, r.fs)) := by decide +kernel

end Verif.Props.ProgEx
