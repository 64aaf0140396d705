import Verif.Props.MainExamples
/-!
# C93: output files are closed
-/
namespace Verif.Props
open Verif.Py Verif.Model Verif.Spec Verif.Proofs

private theorem closed_started (P : Prm) (f : FileIn) (g : Glob) (fs : FS) (o : ObsIn) (t : DateTime) (l : Pos) (xyz : Dict DateTime Pos)
    (h : Started P f o t l xyz) (he : (processFile P f g fs).err = none) :
    closedIn P f g fs = (runItems P o (samplingFor P.cfg o.interval) xyz o.items none (startState P o t l g fs)).1.w.endUp.2 := by
  rw [processFile_started P f g fs o t l xyz h _ rfl] at he
  simp only at he
  unfold closedIn
  rw [h.opened]
  simp only
  rw [if_neg (not_not.2 h.system), h.tofo]
  simp only [ne_eq, not_true_eq_false, if_false]
  rw [h.lbh]
  simp only
  rw [h.data]
  simp only
  generalize runItems P o (samplingFor P.cfg o.interval) xyz o.items none (startState P o t l g fs) = r at he
  obtain ⟨s, er⟩ := r
  cases er with
  | some e => cases he
  | none =>
    cases hs : o.stop with
    | ok u => rfl
    | error e =>
      rw [hs] at he
      simp only at he ⊢
      split at he
      · rename_i hr; rw [if_pos hr]
      · cases he

/-- C93: an observation file processed without an exception closes exactly the output files it has written, each once. -/
theorem C93_file (P : Prm) (ho : P.cfg.outDir ≠ []) (ho2 : P.cfg.outDir.getLast? ≠ some '/') (f : FileIn) (g : Glob) (hg : GInv P g) (fs : FS)
    (hl : ∀ o t, f.opened = .ok o → Accepted o t → LegalTimes o t ∧ ∃ name, LastComponent o.filename name ∧ name ≠ [])
    (he : (processFile P f g fs).err = none) :
    (closedIn P f g fs).Nodup ∧ ∀ p, p ∈ closedIn P f g fs ↔ WritesAt P f (processFile P f g fs).ops p := by
  rcases processFile_cases P f with ⟨o, t, l, xyz, hst⟩ | ⟨err, hno⟩
  · obtain ⟨hleg, name, hn, hn0⟩ := hl o t hst.opened ((accepted_iff ..).2 ⟨hst.system, hst.tofo⟩)
    have hops := file_opsOk P f o t l xyz hst g fs hleg
    rw [closed_started P f g fs o t l xyz hst he]
    have hr := runItems_spec P o (samplingFor P.cfg o.interval) xyz o.items none _ (start_inv P o t l g fs hg hst.lbh (dayOf o))
    rw [processFile_started P f g fs o t l xyz hst _ rfl] at he hops ⊢
    simp only at he hops ⊢
    generalize runItems P o (samplingFor P.cfg o.interval) xyz o.items none (startState P o t l g fs) = r at *
    obtain ⟨s, er⟩ := r
    obtain ⟨-, -, -, r5⟩ := hr
    obtain ⟨e, e1, e2⟩ := r5 fs (start_winv ..)
    have he2 : e = none := by
      rcases e2 with rfl | rfl
      · rfl
      · cases e with
        | none => rfl
        | some e => cases he
    subst he2
    simp only at e1 hops ⊢
    have key := C93_closed P.env P.cfg o.filename name hn hn0 ho ho2 o.interval (dayOf o) s.ops hops fs (by rw [e1])
    rw [e1] at key
    refine ⟨key.2.1, fun p => ?_⟩
    rw [key.2.2 p]
    constructor
    · rintro ⟨sat, e, v, h1, h2⟩
      exact ⟨o, name, sat, e, v, hst.opened, hn, (mem_writesOf ..).1 h1, h2⟩
    · rintro ⟨o', name', sat, e, v, h1, h2, h3, h4⟩
      rw [hst.opened] at h1
      cases h1
      have hnn : name' = name := (basename_of_last h2).symm.trans (basename_of_last hn)
      exact ⟨sat, e, v, (mem_writesOf ..).2 h3, by rw [h4, hnn]⟩
  · have hnot : ∀ o t l xyz, ¬ Started P f o t l xyz := by
      intro o t l xyz hst
      have := (file_ok P f g fs o t l xyz hst hg).ops
      rw [hno] at this
      obtain ⟨new, h⟩ := this
      cases h
    have hc : closedIn P f g fs = [] := by
      unfold closedIn
      split
      · rfl
      · rename_i o h1
        split
        · rfl
        · rename_i h2
          split
          · rfl
          · rename_i t sys h3
            split
            · rfl
            · rename_i h4
              split
              · rfl
              · rename_i l h5
                split
                · rfl
                · rename_i xyz h6
                  exact absurd ⟨h1, not_not.1 h2, by rw [h3, not_not.1 h4], h5, h6⟩ (hnot o t l xyz)
    rw [hc, hno]
    refine ⟨List.nodup_nil, fun p => ?_⟩
    constructor
    · intro h; cases h
    · rintro ⟨o', name', sat, e, v, h1, h2, h3, h4⟩; cases h3

/-- C93: over a run without exception, every observation file closes exactly the output files it has written, each once. -/
theorem C93_run (P : Prm) (ho : P.cfg.outDir ≠ []) (ho2 : P.cfg.outDir.getLast? ≠ some '/') (files : List FileIn) (fs : FS)
    (hl : ∀ f ∈ files, ∀ o t, f.opened = .ok o → Accepted o t → LegalTimes o t ∧ ∃ name, LastComponent o.filename name ∧ name ≠ [])
    (hrun : (mainLoop P files Glob.empty fs).2.2.2 = none) :
    (closedLoop P files Glob.empty fs).length = files.length ∧
    ∀ (i : Nat) f ops closed, files[i]? = some f → (mainLoop P files Glob.empty fs).2.2.1[i]? = some ops →
      (closedLoop P files Glob.empty fs)[i]? = some closed → closed.Nodup ∧ ∀ p, p ∈ closed ↔ WritesAt P f ops p := by
  have key : ∀ g fs, GInv P g → (mainLoop P files g fs).2.2.2 = none → (closedLoop P files g fs).length = files.length ∧
    ∀ (i : Nat) f ops closed, files[i]? = some f → (mainLoop P files g fs).2.2.1[i]? = some ops →
      (closedLoop P files g fs)[i]? = some closed → closed.Nodup ∧ ∀ p, p ∈ closed ↔ WritesAt P f ops p := by
    clear hrun
    induction files with
    | nil => intro g fs _ _; exact ⟨rfl, fun i f ops closed h => by cases i <;> cases h⟩
    | cons f files ih =>
      intro g fs hg hrun
      simp only [mainLoop, closedLoop] at hrun ⊢
      cases he : (processFile P f g fs).err with
      | some er => rw [he] at hrun; cases hrun
      | none =>
        rw [he] at hrun
        simp only at hrun ⊢
        have h2 := ih (fun f' hf => hl f' (by simp [hf])) _ _ (file_ginv P f g fs hg he) hrun
        refine ⟨by simp [h2.1], ?_⟩
        intro i f' ops closed h3 h4 h5
        cases i with
        | zero =>
          cases h3; cases h4; cases h5
          exact C93_file P ho ho2 f g hg fs (hl f (by simp)) he
        | succ i => exact h2.2 i f' ops closed h3 h4 h5
  exact key _ fs (ginv_empty P) hrun

/-- a file with records of two satellites; the hypotheses hold by `C71_hypotheses` -/
theorem C93_run_example :
    (mainLoop (MainEx.prm false none MainEx.loadBoth MainEx.posOk) [MainEx.file] Glob.empty []).2.2.2 = none ∧
    closedLoop (MainEx.prm false none MainEx.loadBoth MainEx.posOk) [MainEx.file] Glob.empty [] =
      [[c% "out/2015/002/irkj/irkj_G01_002_15.dat", c% "out/2015/002/irkj/irkj_R05_002_15.dat"]] := by
  decide +kernel

end Verif.Props
