import Verif.Proofs.Run
import Verif.Props.ProgramEnd
import Verif.Proofs.Output
import Verif.Props.Config
/-!
# C79: `--save-coordinates`; C80: the message on errors; C81: the start of the program
-/
namespace Verif.Props
open Verif.Py Verif.Model Verif.Spec Verif.Proofs

/-! ## C80 -/

theorem sampling_some (cfg : Cfg) (interval : Rat) (us : Int) : samplingFor cfg interval = some us ↔
    cfg.samplingInterval = some us ∧ us ≠ 0 ∧ interval < (us : Rat) / 1000000 := by
  unfold samplingFor
  cases cfg.samplingInterval with
  | none => simp
  | some u =>
    simp only [Option.some.injEq]
    by_cases h0 : u = 0
    · simp only [h0, if_true, reduceCtorEq, false_iff]
      rintro ⟨rfl, h, -⟩; exact h rfl
    · simp only [h0, if_false, gt_iff_lt]
      by_cases h1 : interval < (u : Rat) / 1000000
      · simp only [h1, if_true, Option.some.injEq]
        constructor
        · rintro rfl; exact ⟨rfl, h0, h1⟩
        · exact fun h => h.1
      · simp only [h1, if_false, reduceCtorEq, false_iff]
        rintro ⟨rfl, -, h⟩; exact h1 h

/-- C58: the rule determines which considered items are left -/
theorem C58_unique (o : ObsIn) (dt : Int) (items : List ObsItem) (f g : List (ObsItem × Bool)) (hf : Decimated o dt items f) (hg : Decimated o dt items g)
    (it : ObsItem) (hc : ∃ c n e, Considered o it c n e) : it ∈ leftOf f ↔ it ∈ leftOf g :=
  ⟨fun h => agree_left (decimated_agree hf hg) h hc, fun h => agree_left (decimated_agree hg hf) h hc⟩

/-- the items of a started file -/
theorem started_errors (P : Prm) (f : FileIn) (o : ObsIn) (t : DateTime) (l : Pos) (xyz : Dict DateTime Pos) (h : Started P f o t l xyz) (g : Glob) (fs : FS)
    (hg : GInv P g) (hcl : Clean P g) (hleg : ∀ it ∈ o.items, ∀ e, it.epoch = some e → Legal e)
    (hr : (runItems P o (samplingFor P.cfg o.interval) xyz o.items none (startState P o t l g fs)).2 = none) :
    (errorsItems P o (samplingFor P.cfg o.interval) xyz o.items none (startState P o t l g fs) = 0 ↔
      ∀ kept, Kept P.cfg o kept → ∀ it ∈ kept, ∀ c n e, Considered o it c n e → ¬ ItemError P xyz it c n e) ∧
    (errorsItems P o (samplingFor P.cfg o.interval) xyz o.items none (startState P o t l g fs) = 0 →
      Clean P (runItems P o (samplingFor P.cfg o.interval) xyz o.items none (startState P o t l g fs)).1.g) := by
  have hinv := start_inv P o t l g fs hg h.lbh (dayOf o)
  have hcl' : Clean P (startState P o t l g fs).g := hcl
  cases hs : samplingFor P.cfg o.interval with
  | none =>
    rw [hs] at hr
    obtain ⟨h1, h2⟩ := run_errors P o xyz o.items none _ hinv hcl' hr
    refine ⟨h1.trans ⟨fun hh kept hk => ?_, fun hh => hh _ (.all ((sampling_none ..).1 hs))⟩, h2⟩
    cases hk with
    | all _ => exact hh
    | some us flags a b c _ => rw [(sampling_some ..).2 ⟨a, b, c⟩] at hs; cases hs
  | some us =>
    obtain ⟨a, b, c⟩ := (sampling_some ..).1 hs
    rw [hs] at hr
    have hd := decimated o us o.items hleg
    rw [errors_thin P o us xyz o.items none none, run_thin P o us xyz o.items none none]
    rw [run_thin P o us xyz o.items none none] at hr
    obtain ⟨h1, h2⟩ := run_errors P o xyz _ none _ hinv hcl' hr
    refine ⟨h1.trans ⟨fun hh kept hk it hi c' n e hc => ?_, fun hh => hh _ (.some us _ a b c hd)⟩, h2⟩
    cases hk with
    | all hno => rw [(sampling_none ..).2 hno] at hs; cases hs
    | some us' flags a' _ _ hd' =>
      rw [a] at a'
      cases a'
      exact hh it ((C58_unique o us o.items flags _ hd' hd it ⟨c', n, e, hc⟩).1 hi) c' n e hc

theorem accepted_system {c : Char} : c ∈ supported ++ ['M'] ↔ Processed c ∨ c = 'M' := by
  rw [List.mem_append, processed_mem]
  simp

theorem file_errors (P : Prm) (f : FileIn) (g : Glob) (fs : FS) (hg : GInv P g) (hcl : Clean P g)
    (hleg : ∀ o, f.opened = .ok o → ∀ it ∈ o.items, ∀ e, it.epoch = some e → Legal e) (he : (processFile P f g fs).err = none) :
    (errorsFile P f g fs = 0 ↔ ¬ FileError P f) ∧ (errorsFile P f g fs = 0 → Clean P (processFile P f g fs).g) := by
  cases h1 : f.opened with
  | error er =>
    unfold processFile at he ⊢
    unfold errorsFile
    rw [h1] at he ⊢
    simp only at he ⊢
    split at he
    · rename_i hh
      simp only [hh, if_true, Nat.one_ne_zero, false_iff, not_not, false_imp_iff, and_true]
      refine .opening ?_
      rw [h1]
      exact hh.imp (congrArg _) (congrArg _)
    · cases he
  | ok o =>
    have hinj : ∀ {o'}, f.opened = .ok o' → o' = o := by
      intro o' h; rw [h1] at h; cases h; rfl
    by_cases h2 : o.system ∉ supported ++ ['M']
    · unfold processFile errorsFile
      rw [h1]
      simp only [h2, not_false_eq_true, if_true, true_iff, true_imp_iff]
      refine ⟨?_, hcl⟩
      have hno : ¬ (Processed o.system ∨ o.system = 'M') := fun h => h2 (accepted_system.2 h)
      rintro (h | ⟨o', t, s, ho, hs, -⟩ | ⟨o', t, ho, ha, -⟩ | ⟨o', t, xyz, kept, it, c, n, e, ho, ha, -⟩)
      · rw [h1] at h; simp at h
      · cases hinj ho; exact hno hs
      · cases hinj ho; exact hno ha.1
      · cases hinj ho; exact hno ha.1
    · have h2 := not_not.1 h2
      cases h3 : o.tofo with
      | none =>
        unfold processFile at he
        rw [h1] at he
        simp only [h2, not_true_eq_false, if_false, h3] at he
        cases he
      | some ts =>
        obtain ⟨t, sys⟩ := ts
        by_cases h4 : sys = c% "GPS"
        · subst h4
          have hacc : Accepted o t := ⟨accepted_system.1 h2, h3⟩
          cases h5 : P.lbh o.xyz with
          | error e =>
            unfold processFile at he
            rw [h1] at he
            simp only [h2, not_true_eq_false, if_false, h3, ne_eq, h5] at he
            cases he
          | ok l =>
            cases h6 : f.xyzData with
            | error e =>
              unfold processFile at he
              rw [h1] at he
              simp only [h2, not_true_eq_false, if_false, h3, ne_eq, h5, h6] at he
              cases he
            | ok xyz =>
              have hst : Started P f o t l xyz := ⟨h1, h2, h3, h5, h6⟩
              obtain ⟨hr, -⟩ := run_of_file P f o t l xyz hst g fs he
              obtain ⟨e1, e2⟩ := started_errors P f o t l xyz hst g fs hg hcl (hleg o h1) hr
              rw [processFile_started P f g fs o t l xyz hst _ rfl]
              unfold errorsFile
              rw [h1]
              simp only [h2, not_true_eq_false, if_false, h3, ne_eq, h5, h6, hr]
              have hfe : FileError P f ↔ o.stop = .error .rinex ∨
                  ¬ ∀ kept, Kept P.cfg o kept → ∀ it ∈ kept, ∀ c n e, Considered o it c n e → ¬ ItemError P xyz it c n e := by
                constructor
                · rintro (h | ⟨o', t', s, ho, hs, htt, hne⟩ | ⟨o', t', ho, ha, hstop⟩ | ⟨o', t', xyz', kept, it, c, n, e, ho, ha, hx, hk, hi, hc, hie⟩)
                  · rw [h1] at h; simp at h
                  · cases hinj ho; rw [h3] at htt; cases htt; exact absurd rfl hne
                  · cases hinj ho; exact .inl hstop
                  · cases hinj ho
                    rw [h6] at hx; cases hx
                    exact .inr fun hh => hh kept hk it hi c n e hc hie
                · rintro (h | h)
                  · exact .broken o t h1 hacc h
                  · push Not at h
                    obtain ⟨kept, hk, it, hi, c, n, e, hc, hie⟩ := h
                    exact .item o t xyz kept it c n e h1 hacc h6 hk hi hc hie
              rw [hfe, not_or, not_not, ← e1]
              cases hstop : o.stop with
              | ok u => exact ⟨by simp, fun h => e2 (by omega)⟩
              | error er =>
                simp only
                by_cases her : er = .rinex
                · simp only [her, if_true]
                  exact ⟨by simp, fun h => absurd h (by omega)⟩
                · simp only [her, if_false, Nat.add_zero]
                  exact ⟨by simp [her], e2⟩
        · unfold processFile errorsFile
          rw [h1]
          simp only [h2, not_true_eq_false, if_false, h3, ne_eq, h4, not_false_eq_true, if_true, Nat.one_ne_zero, false_iff, not_not, false_imp_iff, and_true]
          exact .timeSystem o t sys h1 (accepted_system.1 h2) h3 h4

theorem loop_errors (P : Prm) (files : List FileIn) : ∀ g fs, GInv P g → Clean P g →
    (∀ f ∈ files, ∀ o, f.opened = .ok o → ∀ it ∈ o.items, ∀ e, it.epoch = some e → Legal e) → (mainLoop P files g fs).2.2.2 = none →
    (errorsLoop P files g fs = 0 ↔ ∀ f ∈ files, ¬ FileError P f) := by
  induction files with
  | nil => intro g fs _ _ _ _; simp [errorsLoop]
  | cons f files ih =>
    intro g fs hg hcl hleg hr
    simp only [mainLoop, errorsLoop] at hr ⊢
    cases he : (processFile P f g fs).err with
    | some e => rw [he] at hr; cases hr
    | none =>
      rw [he] at hr
      simp only at hr ⊢
      obtain ⟨e1, e2⟩ := file_errors P f g fs hg hcl (hleg f (by simp)) he
      by_cases h0 : errorsFile P f g fs = 0
      · rw [h0, Nat.zero_add, ih _ _ (file_ginv P f g fs hg he) (e2 h0) (fun f' hf => hleg f' (by simp [hf])) hr]
        simp [e1.1 h0]
      · refine ⟨fun h => absurd (by omega) h0, fun h => ?_⟩
        exact absurd (e1.2 (h f (by simp))) h0

/-- C80: a run that ends normally prints the message on errors exactly if something was wrong with one of the observation files. -/
theorem C80_message (X : Ext) (D : Disk) (cfg : Cfg) (fuel : Nat) (fs : FS) (r : RunOut) (hrun : mainRun X D cfg false fuel fs = some r) (hend : r.err = none) :
    ∃ paths ins, obsFiles D cfg = .ok paths ∧ List.Forall₂ (fun p f => fileIn D fuel (someXyz D cfg) p = some f) paths ins ∧
      (r.message = true ↔ ∃ f ∈ ins, FileError (prmOf X D cfg) f) := by
  unfold mainRun at hrun
  cases hf : obsFiles D cfg with
  | error e => rw [hf] at hrun; cases hrun; cases hend
  | ok paths =>
    rw [hf] at hrun
    cases paths with
    | nil => cases hrun; cases hend
    | cons p ps =>
      simp only [Bool.false_eq_true, if_false, Option.map_eq_some_iff] at hrun
      obtain ⟨ins, h1, rfl⟩ := hrun
      have hall : ∀ (l : List Str) (r : List FileIn), allOf (fileIn D fuel (someXyz D cfg)) l = some r →
          List.Forall₂ (fun p f => fileIn D fuel (someXyz D cfg) p = some f) l r := by
        intro l
        induction l with
        | nil => intro r h; cases h; exact .nil
        | cons a l ih =>
          intro r h
          simp only [allOf, Option.bind_eq_some_iff, Option.map_eq_some_iff] at h
          obtain ⟨b, hb, r', hr', rfl⟩ := h
          exact .cons hb (ih r' hr')
      have hfa := hall _ _ h1
      refine ⟨_, ins, rfl, hfa, ?_⟩
      simp only at hend
      have hleg' : ∀ f ∈ ins, ∀ o, f.opened = .ok o → ∀ it ∈ o.items, ∀ e, it.epoch = some e → Legal e := by
        intro f hf o ho
        obtain ⟨i, hi, rfl⟩ := List.getElem_of_mem hf
        have hlen := hfa.length_eq
        have := (List.forall₂_iff_get.1 hfa).2 i (by omega) hi
        simp only [List.get_eq_getElem, fileIn, Option.bind_eq_some_iff, Option.map_eq_some_iff] at this
        obtain ⟨o', h1, x, -, h3⟩ := this
        rw [← h3] at ho
        simp only at ho
        subst ho
        exact (obsFile_legal h1).2.2.2
      have := loop_errors (prmOf X D cfg) ins _ fs (ginv_empty _) (clean_empty _) hleg' hend
      simp only [decide_eq_true_eq, hend, true_and, ne_eq]
      rw [this]
      push Not
      rfl

/-- C80: a run that ends with an exception (also `SystemExit`) does not print the message, with or without `--save-coordinates` and from the command line on. -/
theorem C80_exception (ev : Str → Except PyErr Str) (dtLen : Str → Nat) (X : Ext) (W : World) (a : Args) (fuel : Nat) (fs : FS) (r : RunOut)
    (hrun : tecsRun ev dtLen X W a fuel fs = some r) (hend : r.err ≠ none) : r.message = false := by
  have main : ∀ (X : Ext) (D : Disk) (cfg : Cfg) (save : Bool) (r : RunOut), mainRun X D cfg save fuel fs = some r → r.err ≠ none → r.message = false := by
    intro X D cfg save r h he
    unfold mainRun at h
    split at h
    · cases h; rfl
    · cases h; rfl
    · split at h <;>
      · rw [Option.map_eq_some_iff] at h
        obtain ⟨l, -, rfl⟩ := h
        simp only at he ⊢
        simp [he]
  unfold tecsRun at hrun
  split at hrun
  · cases hrun; rfl
  · split at hrun
    · cases hrun; rfl
    · split at hrun
      · cases hrun; rfl
      · split at hrun
        · cases hrun; rfl
        · exact main _ _ _ _ r hrun hend

/-- apart from the message, a run without `--save-coordinates` is the run described by C72–C77 -/
theorem C80_program (X : Ext) (D : Disk) (cfg : Cfg) (fuel : Nat) (fs : FS) :
    (mainRun X D cfg false fuel fs).map (fun r => (r.fs, r.err)) = (program X D cfg fuel fs).map (fun r => (r.fs, r.err)) := by
  unfold mainRun program
  cases obsFiles D cfg with
  | error e => rfl
  | ok paths =>
    cases paths with
    | nil => rfl
    | cons p ps =>
      simp only [Bool.false_eq_true, if_false, Option.map_map]
      rfl

/-! ## C79 -/

theorem saveLoop_spec (X : Ext) (files : List (Except PyErr ObsIn)) :
    (∃ done rest lines, files = done ++ rest ∧ SavedLines X done lines ∧ (saveLoop X files).1 = lines.flatten ∧
      ((saveLoop X files).2.2 = none ↔ rest = []) ) ∧
    ((saveLoop X files).2.2 = none → ((saveLoop X files).2.1 ≠ 0 ↔ ∃ f ∈ files, Faulty f)) := by
  induction files with
  | nil => exact ⟨⟨[], [], [], rfl, .nil, rfl, by simp [saveLoop]⟩, by simp [saveLoop]⟩
  | cons f files ih =>
    obtain ⟨⟨done, rest, lines, i1, i2, i3, i4⟩, i5⟩ := ih
    have hskip : (Faulty f ∨ OtherSystem f) → SavedLines X (f :: done) lines := fun h => .out _ _ _ h i2
    cases f with
    | error e =>
      by_cases he : e = .rinex ∨ e = .uncompress
      · have hfa : Faulty (.error e) := he.elim (fun h => .inl (by rw [h])) (fun h => .inr (.inl (by rw [h])))
        simp only [saveLoop, he, if_true]
        refine ⟨⟨.error e :: done, rest, lines, by rw [i1]; rfl, hskip (.inl hfa), i3, i4⟩, fun _ => ?_⟩
        simp only [Nat.add_one_ne_zero, ne_eq, not_false_eq_true, true_iff]
        exact ⟨_, by simp, hfa⟩
      · simp only [saveLoop, he, if_false]
        exact ⟨⟨[], _, [], rfl, .nil, rfl, by simp⟩, by simp⟩
    | ok o =>
      have hinj : Faulty (.ok o) ↔ ∃ t s, (Processed o.system ∨ o.system = 'M') ∧ o.tofo = some (t, s) ∧ s ≠ c% "GPS" := by
        unfold Faulty
        simp
      by_cases h2 : o.system ∉ supported ++ ['M']
      · have hno : ¬ (Processed o.system ∨ o.system = 'M') := fun h => h2 (accepted_system.2 h)
        simp only [saveLoop, h2, not_false_eq_true, if_true]
        refine ⟨⟨.ok o :: done, rest, lines, by rw [i1]; rfl, hskip (.inr ⟨o, rfl, not_or.1 hno⟩), i3, i4⟩, fun h => ?_⟩
        rw [i5 h]
        simp only [List.mem_cons, exists_eq_or_imp]
        rw [hinj]
        constructor
        · exact .inr
        · rintro (⟨t, s, hs, -⟩ | h)
          · exact absurd hs hno
          · exact h
      · have h2 := not_not.1 h2
        simp only [saveLoop, h2, not_true_eq_false, if_false]
        cases h3 : o.tofo with
        | none => exact ⟨⟨[], _, [], rfl, .nil, rfl, by simp⟩, by simp⟩
        | some ts =>
          obtain ⟨t, sys⟩ := ts
          simp only
          by_cases h4 : sys = c% "GPS"
          · subst h4
            simp only [ne_eq, not_true_eq_false, if_false]
            have hacc : Accepted o t := ⟨accepted_system.1 h2, h3⟩
            cases h5 : X.lbh o.xyz with
            | error e => exact ⟨⟨[], _, [], rfl, .nil, rfl, by simp⟩, by simp⟩
            | ok l =>
              simp only
              refine ⟨⟨.ok o :: done, rest, coordinatesLine X.env o l :: lines, by rw [i1]; rfl,
                .line o t _ _ _ hacc ⟨_, l, lastComponent_basename _, h5, rfl⟩ i2, by rw [i3]; rfl, i4⟩, fun h => ?_⟩
              refine (i5 h).trans ?_
              simp only [List.mem_cons, exists_eq_or_imp]
              rw [hinj]
              constructor
              · exact .inr
              · rintro (⟨t', s, -, ht, hs⟩ | h)
                · rw [h3] at ht; cases ht; exact absurd rfl hs
                · exact h
          · simp only [ne_eq, h4, not_false_eq_true, if_true]
            have hfa : Faulty (.ok o) := hinj.2 ⟨t, sys, accepted_system.1 h2, h3, h4⟩
            refine ⟨⟨.ok o :: done, rest, lines, by rw [i1]; rfl, hskip (.inl hfa), i3, i4⟩, fun _ => ?_⟩
            simp only [Nat.add_one_ne_zero, not_false_eq_true, true_iff]
            exact ⟨_, by simp, hfa⟩

/-- C79: with `--save-coordinates` and observation files, the run writes one file, `coordinates.txt`, and touches no other; a run that ends normally leaves in it exactly
one line for every file accepted, in order, and a run that ends with an exception the lines of the files before.  The message on errors is printed exactly if
a file was left out with an error. -/
theorem C79_coordinates (X : Ext) (D : Disk) (cfg : Cfg) (fuel : Nat) (fs : FS) (r : RunOut) (paths : List Str) (hf : obsFiles D cfg = .ok paths)
    (hne : paths ≠ []) (hrun : mainRun X D cfg true fuel fs = some r) :
    (∀ path, path ≠ c% "coordinates.txt" → r.fs.get? path = fs.get? path) ∧
    ∃ opened, List.Forall₂ (fun p o => obsFile D fuel p = some o) paths opened ∧
      (∃ done rest lines, opened = done ++ rest ∧ SavedLines X done lines ∧ r.fs.get? (c% "coordinates.txt") = some lines.flatten ∧
        (r.err = none ↔ rest = [])) ∧
      (r.message = true ↔ r.err = none ∧ ∃ f ∈ opened, Faulty f) := by
  unfold mainRun at hrun
  rw [hf] at hrun
  cases paths with
  | nil => exact absurd rfl hne
  | cons p ps =>
    simp only [if_true, Option.map_eq_some_iff] at hrun
    obtain ⟨os, h1, rfl⟩ := hrun
    have hall : ∀ (l : List Str) (r : List (Except PyErr ObsIn)), allOf (obsFile D fuel) l = some r →
        List.Forall₂ (fun p f => obsFile D fuel p = some f) l r := by
      intro l
      induction l with
      | nil => intro r h; cases h; exact .nil
      | cons a l ih =>
        intro r h
        simp only [allOf, Option.bind_eq_some_iff, Option.map_eq_some_iff] at h
        obtain ⟨b, hb, r', hr', rfl⟩ := h
        exact .cons hb (ih r' hr')
    obtain ⟨⟨done, rest, lines, s1, s2, s3, s4⟩, s5⟩ := saveLoop_spec X os
    refine ⟨?_, os, hall _ _ h1, ⟨done, rest, lines, s1, s2, ?_, s4⟩, ?_⟩
    · intro path hp
      simp only
      rw [Dict.get?_set, if_neg fun h => hp h.symm]
    · simp only
      rw [Dict.get?_set, s3]
      exact if_pos rfl
    · simp only [decide_eq_true_eq]
      constructor
      · exact fun h => ⟨h.1, (s5 h.1).1 h.2⟩
      · exact fun h => ⟨h.1, (s5 h.1).2 h.2⟩

/-! ## C81 -/

/-- C81: a run uses the directory of the configuration file: with a configuration file `dir/name` that can be read and does not set `cfg_file`, the run is the
one on the disk as seen from `dir`. -/
theorem C81_directory (ev : Str → Except PyErr Str) (dtLen : Str → Nat) (X : Ext) (W : World) (a : Args) (fuel : Nat) (fs : FS) (dir name : Str)
    (items : List CfgItem) (lines : List Str) (cfg : Cfg) (D : Disk)
    (hv : a.version = false) (ha : a.rcfile = some (dir ++ '/' :: name) ∨ a.rcfile = none ∧ dir = c% "." ∧ name = c% "tecs.cfg")
    (hd : dir ≠ []) (hd2 : dir.getLast? ≠ some '/') (hn : '/' ∉ name)
    (hw : W.config (dir ++ '/' :: name) = some lines) (hl : CfgWritten items lines) (hset : ∀ v, ¬ LastValue items (c% "cfg_file") v)
    (hc : readCfg ev dtLen (dir ++ '/' :: name) (some lines) = .ok cfg) (hD : W.chdir dir = .ok D) :
    tecsRun ev dtLen X W a fuel fs = mainRun { X with dtLen := dtLen cfg.datetimeFormat } D cfg a.saveCoordinates fuel fs := by
  have hname : configName a = dir ++ '/' :: name := by
    unfold configName
    rcases ha with ha | ⟨ha, rfl, rfl⟩
    · rw [ha]
      simp
    · rw [ha]; rfl
  have hfile : cfg.cfgFile = dir ++ '/' :: name := by
    obtain ⟨d, h1, -, -, h4, -⟩ := C48_settings (dir ++ '/' :: name) items lines hl
    have h4 := h4 hset
    unfold readCfg at hc
    rw [h1] at hc
    simp only at hc
    have : cfg.cfgFile = textOf d (c% "cfg_file") := by
      repeat' (split at hc; first | cases hc | skip)
      all_goals cases hc
      rfl
    rw [this]
    simp [textOf, h4]
  have hdn : dirname (dir ++ '/' :: name) = dir := by
    unfold dirname
    rw [basename_of_last (⟨hn, .inr ⟨dir, rfl⟩⟩ : LastComponent (dir ++ '/' :: name) name)]
    have htake : (dir ++ '/' :: name).take ((dir ++ '/' :: name).length - name.length) = dir ++ ['/'] := by
      rw [show dir ++ '/' :: name = (dir ++ ['/']) ++ name by simp]
      rw [show ((dir ++ ['/']) ++ name).length - name.length = (dir ++ ['/']).length by simp only [List.length_append]; omega]
      exact List.take_left
    rw [htake]
    simp only [List.reverse_append, List.reverse_cons, List.reverse_nil, List.nil_append, List.cons_append, List.dropWhile_cons, decide_true, if_true]
    have : dir.reverse.dropWhile (· = '/') = dir.reverse := by
      cases h : dir.reverse with
      | nil => rfl
      | cons x r =>
        have hx : x ≠ '/' := by
          rintro rfl
          apply hd2
          rw [← List.head?_reverse, h]; rfl
        simp [hx]
    rw [this, if_neg (by simpa using hd), List.reverse_reverse]
  unfold tecsRun
  rw [hname, hw]
  simp only [hv, Bool.false_eq_true, if_false, hc, hfile, hdn, hd, hD]

/-- C81: the runs that stop before anything is done.  `--version`; a configuration file that cannot be opened or read; a configuration file named without
directory, as in `-c my.cfg`; a directory that cannot be entered.  No file is touched and no message is printed. -/
theorem C81_stops (ev : Str → Except PyErr Str) (dtLen : Str → Nat) (X : Ext) (W : World) (a : Args) (fuel : Nat) (fs : FS) :
    (a.version = true → tecsRun ev dtLen X W a fuel fs = some ⟨fs, false, some .exit⟩) ∧
    (a.version = false → ∀ name, a.rcfile = some name → name ≠ [] →
      (∀ er, readCfg ev dtLen name (W.config name) = .error er → tecsRun ev dtLen X W a fuel fs = some ⟨fs, false, some er⟩) ∧
      (W.config name = none → tecsRun ev dtLen X W a fuel fs = some ⟨fs, false, some .cfg⟩) ∧
      (∀ items lines, '/' ∉ name → W.config name = some lines → CfgWritten items lines → (∀ v, ¬ LastValue items (c% "cfg_file") v) →
        ∃ er, tecsRun ev dtLen X W a fuel fs = some ⟨fs, false, some er⟩ ∧ ((∃ cfg, readCfg ev dtLen name (some lines) = .ok cfg) → er = .os))) := by
  refine ⟨fun h => by simp [tecsRun, h], fun hv name ha hne => ?_⟩
  have hname : configName a = name := by unfold configName; rw [ha]; simp [hne]
  refine ⟨fun er he => ?_, fun hw => ?_, fun items lines hs hw hl hset => ?_⟩
  · unfold tecsRun
    rw [hname, he]
    simp [hv]
  · unfold tecsRun
    rw [hname, hw]
    simp [hv, readCfg, readSettings]
  · cases hc : readCfg ev dtLen name (some lines) with
    | error er =>
      refine ⟨er, ?_, by simp⟩
      unfold tecsRun
      rw [hname, hw, hc]
      simp [hv]
    | ok cfg =>
      refine ⟨.os, ?_, fun _ => rfl⟩
      have hfile : cfg.cfgFile = name := by
        obtain ⟨d, h1, -, -, h4, -⟩ := C48_settings name items lines hl
        have h4 := h4 hset
        unfold readCfg at hc
        rw [h1] at hc
        simp only at hc
        have : cfg.cfgFile = textOf d (c% "cfg_file") := by
          repeat' (split at hc; first | cases hc | skip)
          all_goals cases hc
          rfl
        rw [this]
        simp [textOf, h4]
      have hdn : dirname name = [] := by
        unfold dirname
        rw [basename_of_last (⟨hs, .inl rfl⟩ : LastComponent name name)]
        simp
      unfold tecsRun
      rw [hname, hw, hc]
      simp only [hv, Bool.false_eq_true, if_false, hfile, hdn, if_true]

end Verif.Props
