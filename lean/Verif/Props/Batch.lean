import Verif.Spec.Batch
import Verif.Props.Rerun
/-!
# C90: files processed together or separately
-/
namespace Verif.Props
open Verif.Py Verif.Model Verif.Spec Verif.Proofs

/-- the same parameters with other observation directories -/
def withDirs (P : Prm) (ds : List Str) : Prm := { P with cfg := { P.cfg with obsDir := ds } }

theorem process_dirs (P : Prm) (ds : List Str) (o : ObsIn) (xyz : Dict DateTime Pos) (it : ObsItem) (c : Char) (n : Int) (e : DateTime) (s : St) :
    process (withDirs P ds) o xyz it c n e s = process P o xyz it c n e s := rfl

theorem runItems_dirs (P : Prm) (ds : List Str) (o : ObsIn) (k : Option Int) (xyz : Dict DateTime Pos) (items : List ObsItem) : ∀ last s,
    runItems (withDirs P ds) o k xyz items last s = runItems P o k xyz items last s := by
  induction items with
  | nil => exact fun _ _ => rfl
  | cons it its ih =>
    intro last s
    simp only [runItems, process_dirs, ih]

theorem start_dirs (P : Prm) (ds : List Str) (o : ObsIn) (t : DateTime) (l : Pos) (g : Glob) (fs : FS) :
    startState (withDirs P ds) o t l g fs = startState P o t l g fs := rfl

theorem processFile_dirs (P : Prm) (ds : List Str) (f : FileIn) (g : Glob) (fs : FS) : processFile (withDirs P ds) f g fs = processFile P f g fs := by
  unfold processFile
  simp only [runItems_dirs, start_dirs]
  rfl

theorem mainLoop_dirs (P : Prm) (ds : List Str) (files : List FileIn) : ∀ g fs, mainLoop (withDirs P ds) files g fs = mainLoop P files g fs := by
  induction files with
  | nil => exact fun _ _ => rfl
  | cons f files ih =>
    intro g fs
    simp only [mainLoop, processFile_dirs, ih]

/-! ## One file -/

theorem file_independent (P : Prm) (f : FileIn) (g g' : Glob) (fs fs' : FS) (ga : GInv P g) (gb : GInv P g')
    (good : ∀ o, f.opened = .ok o → ∀ it ∈ o.items, ∀ c n e, Considered o it c n e → ¬ ArithError P c n e) :
    (processFile P f g fs).ops = (processFile P f g' fs').ops ∧ (processFile P f g fs).err = (processFile P f g' fs').err := by
  rcases processFile_cases P f with ⟨o, t, l, xyz, hst⟩ | ⟨err, hno⟩
  · obtain ⟨s1, s2⟩ := runItems_sim P o (samplingFor P.cfg o.interval) xyz o.items (good o hst.opened) none _ _ (start_sim P o t l g g' fs fs')
      (start_inv P o t l g fs ga hst.lbh _) (start_inv P o t l g' fs' gb hst.lbh _)
    rw [processFile_started P f g fs o t l xyz hst _ rfl, processFile_started P f g' fs' o t l xyz hst _ rfl]
    simp only
    rw [s2]
    exact ⟨s1.ops, rfl⟩
  · rw [hno, hno]; exact ⟨rfl, rfl⟩

theorem file_records (P : Prm) (f : FileIn) (g g' : Glob) (fs fs' : FS) (ga : GInv P g) (gb : GInv P g') (hcfg : P.cfg.navIgnoreAbsence = false)
    (e1 : (processFile P f g fs).err = none) (e2 : (processFile P f g' fs').err = none) :
    writesOf (processFile P f g fs).ops = writesOf (processFile P f g' fs').ops := by
  rcases processFile_cases P f with ⟨o, t, l, xyz, hst⟩ | ⟨err, hno⟩
  · have key : ∀ g fs, GInv P g → (processFile P f g fs).err = none →
        writesOf (processFile P f g fs).ops = refWrites P o (samplingFor P.cfg o.interval) xyz o.items none (fun _ => false) := by
      intro g fs hg he
      obtain ⟨hr, hro⟩ := run_of_file P f o t l xyz hst g fs he
      obtain ⟨new, n1, n2⟩ := ref_spec P o (samplingFor P.cfg o.interval) xyz o.items (.inl hcfg) none _ (start_inv P o t l g fs hg hst.lbh (dayOf o)) hr
      rw [hro, n1, start_ops, writesOf_append, n2, start_nav]
      rfl
    rw [key g fs ga e1, key g' fs' gb e2]
  · rw [hno, hno]

theorem file_fs (P : Prm) (f : FileIn) (g g' : Glob) (fs : FS) (ga : GInv P g) (gb : GInv P g')
    (h : (processFile P f g fs).ops = (processFile P f g' fs).ops) : (processFile P f g fs).fs = (processFile P f g' fs).fs := by
  rcases processFile_cases P f with ⟨o, t, l, xyz, hst⟩ | ⟨err, hno⟩
  · obtain ⟨w, er, h1, -⟩ := (file_ok P f g fs o t l xyz hst ga).fs
    obtain ⟨w', er', h2, -⟩ := (file_ok P f g' fs o t l xyz hst gb).fs
    rw [h, h2] at h1
    exact (congrArg WOut.fs h1).symm
  · rw [hno, hno]

theorem ginv_time {P : Prm} {m : Str → DateTime → Str} {g : Glob} (h : GInv (atTime P m) g) : GInv P g := ⟨h.pos, h.freq, h.freqS⟩

theorem batch_file (P : Prm) (m' : Str → DateTime → Str) (f : FileIn) (g g' : Glob) (fs fs' : FS) (ga : GInv P g) (gb : GInv P g')
    (good : ∀ o, f.opened = .ok o → ∀ it ∈ o.items, ∀ c n e, Considered o it c n e → ¬ ArithError P c n e) :
    (processFile (atTime P m') f g' fs').ops = (processFile P f g fs).ops ∧
      Related P.env.now m' fs fs' (processFile P f g fs).fs (processFile (atTime P m') f g' fs').fs := by
  obtain ⟨h1, h2⟩ := file_independent P f g g' fs fs ga gb good
  have h3 := file_fs P f g g' fs ga gb h1
  have h4 := file_same (m := P.env.now) (m' := m') (a := fs) (b := fs') P rfl f g' (fs := fs) (fs' := fs') (fun _ => .inl ⟨rfl, rfl⟩)
  rw [h1, h3]
  exact ⟨h4.ops, h4.related⟩

/-! ## One run -/

/-- the calls and files of one file in the middle of a run -/
theorem loop_middle (P : Prm) (A B : List FileIn) (f : FileIn) (fs : FS) (h : (mainLoop P (A ++ f :: B) Glob.empty fs).2.2.2 = none) :
    ∃ g fs1, GInv P g ∧ (processFile P f g fs1).err = none ∧ GInv P (processFile P f g fs1).g ∧
      (mainLoop P (A ++ f :: B) Glob.empty fs).2.2.1[A.length]? = some (processFile P f g fs1).ops ∧
      fs1 = (mainLoop P A Glob.empty fs).2.1 ∧ (mainLoop P A Glob.empty fs).2.2.1.length = A.length ∧
      (mainLoop P (A ++ f :: B) Glob.empty fs).2.2.1 = (mainLoop P A Glob.empty fs).2.2.1 ++ (processFile P f g fs1).ops ::
        (mainLoop P B (processFile P f g fs1).g (processFile P f g fs1).fs).2.2.1 ∧
      (mainLoop P (A ++ f :: B) Glob.empty fs).2.1 = (mainLoop P B (processFile P f g fs1).g (processFile P f g fs1).fs).2.1 := by
  have hA : (mainLoop P A Glob.empty fs).2.2.2 = none := by
    by_contra hA
    rw [mainLoop_append_err P A (f :: B) _ _ hA] at h
    exact hA h
  have hlen := mainLoop_length P A _ _ hA
  have hg := mainLoop_ginv P A _ fs (ginv_empty P) hA
  rw [mainLoop_append P A (f :: B) _ _ hA] at h ⊢
  have he : (processFile P f (mainLoop P A Glob.empty fs).1 (mainLoop P A Glob.empty fs).2.1).err = none := by
    simp only [mainLoop] at h
    cases he : (processFile P f (mainLoop P A Glob.empty fs).1 (mainLoop P A Glob.empty fs).2.1).err with
    | none => rfl
    | some e => rw [he] at h; cases h
  refine ⟨(mainLoop P A Glob.empty fs).1, _, hg, he, file_ginv P f _ _ hg he, ?_, rfl, hlen, ?_, ?_⟩
  · simp only [mainLoop, he]
    rw [List.getElem?_append_right (by omega), hlen]
    simp
  · simp only [mainLoop, he]
  · simp only [mainLoop, he]

/-- a file leaves the output files of other stations and days alone -/
theorem not_writes {P : Prm} {D : Disk} {fuel : Nat} {b : Bool} {path name p : Str} {f : FileIn} (hfile : fileIn D fuel b p = some f) (hname : LastComponent path name)
    {e : DateTime} (hleg : Legal e) (hday : NamedDay path e.date) (sat : Str) (hno : ¬ SameOutput path p) (g : Glob) (fs : FS) (hg : GInv P g) :
    ¬ WritesAt P f (processFile P f g fs).ops (outputPath P.cfg.outDir (name.take 4) sat e) := by
  rintro ⟨o', name', sat', e', v', w1, w2, w3, w4⟩
  obtain ⟨hop', -⟩ := fileIn_opened hfile
  rw [w1] at hop'
  obtain ⟨u1, u2, u3, u4⟩ := obsFile_legal hop'
  obtain ⟨t', xyz', -, it, hit, c, n, e'', hcon, hm⟩ := writes_day hg w1 w3
  obtain ⟨-, a2, -⟩ := mem_writesFor hm
  simp only at a2
  subst a2
  rw [u1] at w2
  obtain ⟨i1, -, i3⟩ := outputPath_inj hleg (u4 it hit _ hcon.2.1) (fun h => hname.1 (List.mem_of_mem_take h))
    (fun h => w2.1 (List.mem_of_mem_take h)) w4
  apply hno
  refine ⟨name, name', e.date, hname, w2, i1, hday, ?_⟩
  have := hcon.2.2.2
  rw [u2, namedDay_iff p _ ⟨name', w2⟩] at this
  rw [i3]
  exact this

/-- what a run does with one of its files, when no other has the same station and day -/
theorem program_middle (X : Ext) (D : Disk) (cfg : Cfg) (fuel : Nat) (fs : FS) (r : Outcome) (paths : List Str) (i : Nat) (path name : Str)
    (hout : OutDirOk cfg) (hn : PlainNames D cfg.obsDir) (hf : InputFiles D cfg.obsDir paths) (hi : Only paths i path) (hname : LastComponent path name)
    (hy : FourDigits paths) (hrun : program X D cfg fuel fs = some r) (hend : r.err = none) :
    ∃ f g fs1, fileIn D fuel (someXyz D cfg) path = some f ∧ GInv (prmOf X D cfg) g ∧ (processFile (prmOf X D cfg) f g fs1).err = none ∧
      r.calls[i]? = some (processFile (prmOf X D cfg) f g fs1).ops ∧
      ∀ sat e, Legal e → NamedDay path e.date →
        fs1.get? (outputPath cfg.outDir (name.take 4) sat e) = fs.get? (outputPath cfg.outDir (name.take 4) sat e) ∧
        r.fs.get? (outputPath cfg.outDir (name.take 4) sat e) = (processFile (prmOf X D cfg) f g fs1).fs.get? (outputPath cfg.outDir (name.take 4) sat e) := by
  obtain ⟨hi, honly⟩ := hi
  have hf' := (C72_files D cfg paths hn).2 hf
  obtain ⟨p, ps, rfl⟩ : ∃ p ps, paths = p :: ps := by
    cases paths with
    | nil => simp at hi
    | cons p ps => exact ⟨p, ps, rfl⟩
  obtain ⟨ins, hins, rfl⟩ := program_ins hf' hrun
  have hl := ins_legal hf hy hins
  obtain ⟨hlen, hget⟩ := allOf_get hins
  obtain ⟨f, hfi, hf1⟩ := hget i path hi
  have hil := (List.getElem?_eq_some_iff.1 hf1).1
  have hsplit : ins = ins.take i ++ f :: ins.drop (i + 1) := by
    have h5 := (List.getElem?_eq_some_iff.1 hf1).2
    rw [← h5, List.cons_getElem_drop_succ, List.take_append_drop]
  generalize hA : ins.take i = A at hsplit
  generalize ins.drop (i + 1) = B at hsplit
  have hAl : A.length = i := by rw [← hA, List.length_take]; omega
  subst hsplit
  simp only at hend ⊢
  obtain ⟨g, fs1, hg, he, hg', hops, hfs1, -, hcalls, hfs⟩ := loop_middle (prmOf X D cfg) A B f fs hend
  rw [hAl] at hops
  refine ⟨f, g, fs1, hfi, hg, he, hops, fun sat e hleg hday => ?_⟩
  have hother : ∀ (j : Nat) (f' : FileIn), j ≠ i → (A ++ f :: B)[j]? = some f' → ∀ g fs, GInv (prmOf X D cfg) g →
      ¬ WritesAt (prmOf X D cfg) f' (processFile (prmOf X D cfg) f' g fs).ops (outputPath cfg.outDir (name.take 4) sat e) := by
    intro j f' hj hf2 g fs hg
    have hjl := (List.getElem?_eq_some_iff.1 hf2).1
    obtain ⟨q, hq⟩ : ∃ q, (p :: ps)[j]? = some q := ⟨_, List.getElem?_eq_getElem (by omega)⟩
    obtain ⟨f'', hf'', hf3⟩ := hget j q hq
    rw [hf2] at hf3
    cases hf3
    exact not_writes (P := prmOf X D cfg) hf'' hname hleg hday sat (honly j q hj hq) g fs hg
  constructor
  · rw [hfs1]
    refine mainLoop_elsewhere (prmOf X D cfg) hout.1 hout.2 A (fun f' h => hl f' (by simp [h])) _ _ _ (ginv_empty _) ?_
    intro j f' ops' hj hops'
    obtain ⟨f4, g4, fs4, k1, k2, rfl, -, -⟩ := mainLoop_at (prmOf X D cfg) A _ _ (ginv_empty _) j ops' hops'
    rw [hj] at k1
    cases k1
    have hjl := (List.getElem?_eq_some_iff.1 hj).1
    exact hother j f' (by omega) (by rw [List.getElem?_append_left hjl, hj]) g4 fs4 k2
  · rw [hfs]
    refine mainLoop_elsewhere (prmOf X D cfg) hout.1 hout.2 B (fun f' h => hl f' (by simp [h])) _ _ _ hg' ?_
    intro j f' ops' hj hops'
    obtain ⟨f4, g4, fs4, k1, k2, rfl, -, -⟩ := mainLoop_at (prmOf X D cfg) B _ _ hg' j ops' hops'
    rw [hj] at k1
    cases k1
    refine hother (i + 1 + j) f' (by omega) ?_ g4 fs4 k2
    rw [List.getElem?_append_right (by omega), hAl, show i + 1 + j - i = j + 1 by omega, List.getElem?_cons_succ, hj]

/-! ## Two runs -/

theorem listDirs_same {D D' : Disk} {dirs : List Str} (h : ∀ d ∈ dirs, D'.listing d = D.listing d) : listDirs D' dirs = listDirs D dirs := by
  induction dirs with
  | nil => rfl
  | cons d dirs ih => simp only [listDirs, h d (by simp), ih fun x hx => h x (by simp [hx])]

theorem prior_mem {files priority : List Str} {f : Str} (h : getPriorFile files priority = some f) : f ∈ files := by
  induction priority with
  | nil =>
    cases files with
    | nil => simp [getPriorFile] at h
    | cons a l => simp only [getPriorFile, Option.some.injEq] at h; simp [h]
  | cons q qs ih =>
    cases files with
    | nil => simp [getPriorFile] at h
    | cons a l =>
      simp only [getPriorFile] at h
      split at h
      · rename_i g hg
        cases h
        exact List.mem_of_find?_eq_some hg
      · exact ih h

/-- the navigation file chosen is in one of the directories -/
theorem chosen_mem {dirs : List (Str × List Str)} {e : DateTime} {c : Char} {priority : List Str} {f : Str} (h : chooseNavFile dirs e c priority = .ok f) :
    ∃ d ∈ dirs, ∃ n ∈ d.2, f = inDir d.1 n := by
  have hmem : f ∈ findNavFiles dirs e c ∨ f ∈ findNavFiles dirs e 'M' := by
    have : f ∈ (if findNavFiles dirs e c = [] then findNavFiles dirs e 'M' else findNavFiles dirs e c) := by
      unfold chooseNavFile at h
      simp only at h
      generalize (if findNavFiles dirs e c = [] then findNavFiles dirs e 'M' else findNavFiles dirs e c) = files at h ⊢
      cases files with
      | nil => cases h
      | cons a l =>
        simp only at h
        split at h
        · cases h; simp
        · split at h
          · rename_i g hg
            cases h
            exact prior_mem hg
          · cases h
    split at this
    · exact .inr this
    · exact .inl this
  have key : ∀ s, f ∈ findNavFiles dirs e s → ∃ d ∈ dirs, ∃ n ∈ d.2, f = inDir d.1 n := by
    intro s hs
    unfold findNavFiles findFiles at hs
    obtain ⟨l, h1, h2⟩ := List.mem_flatten.1 hs
    obtain ⟨d, h3, rfl⟩ := List.mem_map.1 h1
    obtain ⟨n, h4, rfl⟩ := List.mem_map.1 h2
    exact ⟨d, h3, n, (List.mem_filter.1 h4).1, rfl⟩
  rcases hmem with h | h
  · exact key _ h
  · exact key _ h

theorem listing_of_mem {D : Disk} {dirs : List Str} : ∀ {r : List (Str × List Str)}, listDirs D dirs = .ok r → ∀ d ∈ r, d.1 ∈ dirs ∧ D.listing d.1 = .ok d.2 := by
  induction dirs with
  | nil => intro r h; simp only [listDirs, Except.ok.injEq] at h; subst h; simp
  | cons a dirs ih =>
    intro r h d hd
    simp only [listDirs] at h
    cases hl : D.listing a with
    | error e => rw [hl] at h; cases h
    | ok l =>
      rw [hl] at h
      simp only at h
      cases hr : listDirs D dirs with
      | error e => rw [hr] at h; cases h
      | ok r' =>
        rw [hr] at h
        simp only [Except.ok.injEq] at h
        subst h
        rcases List.mem_cons.1 hd with rfl | hd
        · exact ⟨by simp, hl⟩
        · obtain ⟨h1, h2⟩ := ih hr d hd
          exact ⟨by simp [h1], h2⟩

section
variable {D D' : Disk} {cfg cfg' : Cfg} {path : Str} {xl : List XyzLine}

theorem shares_load (h : Shares D D' cfg cfg' path xl) : loadFor D' cfg' = loadFor D cfg := by
  have h1 : cfg'.navDir = cfg.navDir := by rw [h.config]
  have h2 : cfg'.navPriority = cfg.navPriority := by rw [h.config]
  funext d c
  unfold loadFor
  rw [h1, h2, listDirs_same h.navDirs]
  cases cfg.navPriority.get? c with
  | none => rfl
  | some priority =>
    simp only
    cases hd : listDirs D cfg.navDir with
    | error e => rfl
    | ok dirs =>
      simp only
      cases hc : chooseNavFile dirs d.start c priority with
      | error e => rfl
      | ok f =>
        simp only
        obtain ⟨a, h3, n, h4, rfl⟩ := chosen_mem hc
        obtain ⟨h5, h6⟩ := listing_of_mem hd a h3
        have hf : navFileOf D' (inDir a.1 n) = navFileOf D (inDir a.1 n) := by
          unfold navFileOf fetchNav
          rw [h.navFiles a.1 h5 a.2 h6 n h4, h.navFiles a.1 h5 a.2 h6 n h4]
        unfold loadNavigationMessage
        rw [hc]
        simp only [hf]

theorem shares_prm (X : Ext) (now : Str → DateTime → Str) (h : Shares D D' cfg cfg' path xl) :
    prmOf (X.atTime now) D' cfg' = withDirs (atTime (prmOf X D cfg) now) cfg'.obsDir := by
  unfold prmOf
  rw [shares_load h]
  conv_lhs => rw [h.config]
  rfl

theorem dirs_listed {paths : List Str} (hf : obsFiles D cfg = .ok paths) : ∃ r, listDirs D cfg.obsDir = .ok r := by
  unfold obsFiles at hf
  cases h : listDirs D cfg.obsDir with
  | error e => rw [h] at hf; cases hf
  | ok r => exact ⟨r, rfl⟩

theorem shares_file (h : Shares D D' cfg cfg' path xl) (fuel : Nat) (hl : ∃ r, listDirs D cfg.obsDir = .ok r) (hl' : ∃ r, listDirs D' cfg'.obsDir = .ok r) :
    fileIn D' fuel (someXyz D' cfg') path = fileIn D fuel (someXyz D cfg) path := by
  obtain ⟨xyz, h1, -, d, h2, h3⟩ := coordinates_data D cfg path xl hl h.coordinates.1
  obtain ⟨xyz', h4, -, d', h5, h6⟩ := coordinates_data D' cfg' path xl hl' h.coordinates.2
  rw [h2] at h5
  cases h5
  rw [h3] at h6
  cases h6
  have ho : obsFile D' fuel path = obsFile D fuel path := by
    have hf : fetchObs D' path = fetchObs D path := by
      unfold fetchObs
      simp only [h.file]
    unfold obsFile
    rw [hf]
  unfold fileIn
  rw [ho, h1, h4]

end

/-- C90: an observation file gives the same output in every run, whatever the other observation files are, wherever the observation directories are, at any
time, and whatever is in the output directory before: the calls of the writer are the same, and every output file of the station and day is either written
in neither run or has, after both, the same text but for the date in the first line.  (The runs end normally; no other file has the same station and day,
see C56; no position of a satellite fails with an arithmetic error, see C59.) -/
theorem C90_files (X : Ext) (D D' : Disk) (cfg cfg' : Cfg) (fuel : Nat) (fs fs' : FS) (r r' : Outcome) (paths paths' : List Str) (i i' : Nat) (path name : Str)
    (xl : List XyzLine) (now : Str → DateTime → Str) (hout : OutDirOk cfg) (hn : PlainNames D cfg.obsDir) (hn' : PlainNames D' cfg'.obsDir)
    (hf : InputFiles D cfg.obsDir paths) (hf' : InputFiles D' cfg'.obsDir paths') (hs : Shares D D' cfg cfg' path xl)
    (hi : Only paths i path) (hi' : Only paths' i' path) (hname : LastComponent path name) (hy : FourDigits paths) (hy' : FourDigits paths')
    (hrun : program X D cfg fuel fs = some r) (hend : r.err = none) (hrun' : program (X.atTime now) D' cfg' fuel fs' = some r') (hend' : r'.err = none)
    (good : ∀ o, obsFile D fuel path = some (.ok o) → ∀ it ∈ o.items, ∀ c n e, Considered o it c n e → ¬ ArithError (prmOf X D cfg) c n e) :
    (∃ ops, r.calls[i]? = some ops ∧ r'.calls[i']? = some ops) ∧
    ∀ sat e, Legal e → NamedDay path e.date →
      (r.fs.get? (outputPath cfg.outDir (name.take 4) sat e) = fs.get? (outputPath cfg.outDir (name.take 4) sat e) ∧
        r'.fs.get? (outputPath cfg.outDir (name.take 4) sat e) = fs'.get? (outputPath cfg.outDir (name.take 4) sat e)) ∨
      ∃ s t, r.fs.get? (outputPath cfg.outDir (name.take 4) sat e) = some s ∧ r'.fs.get? (outputPath cfg.outDir (name.take 4) sat e) = some t ∧
        SameButDate s t := by
  obtain ⟨f, g, fs1, k1, k2, -, k4, k5⟩ := program_middle X D cfg fuel fs r paths i path name hout hn hf hi hname hy hrun hend
  have hod : cfg'.outDir = cfg.outDir := by rw [hs.config]
  have hout' : OutDirOk cfg' := by unfold OutDirOk; rw [hod]; exact hout
  obtain ⟨f', g', fs1', l1, l2, -, l4, l5⟩ := program_middle (X.atTime now) D' cfg' fuel fs' r' paths' i' path name hout' hn' hf' hi' hname hy' hrun' hend'
  rw [shares_file hs fuel (dirs_listed ((C72_files D cfg paths hn).2 hf)) (dirs_listed ((C72_files D' cfg' paths' hn').2 hf')), k1] at l1
  cases l1
  rw [shares_prm X now hs] at l2 l4 l5
  rw [processFile_dirs] at l4 l5
  have hg' : GInv (prmOf X D cfg) g' := ⟨l2.pos, l2.freq, l2.freqS⟩
  obtain ⟨b1, b2⟩ := batch_file (prmOf X D cfg) now f g g' fs1 fs1' k2 hg' (fun o ho => good o (by rw [(fileIn_opened k1).1, ho]))
  refine ⟨⟨_, k4, by rw [l4, b1]⟩, fun sat e hleg hday => ?_⟩
  obtain ⟨k6, k7⟩ := k5 sat e hleg hday
  obtain ⟨l6, l7⟩ := l5 sat e hleg hday
  rw [hod] at l6 l7
  rw [k7, l7, ← k6, ← l6]
  rcases b2 (outputPath cfg.outDir (name.take 4) sat e) with h | ⟨s, t, h1, h2, h3⟩
  · exact .inl h
  · exact .inr ⟨s, t, h1, h2, h3.same⟩

/-- C90: if satellites without navigation data are left out (`navIgnoreAbsence` is `False`), the records are the same even if positions fail with arithmetic
errors. -/
theorem C90_records (X : Ext) (D D' : Disk) (cfg cfg' : Cfg) (fuel : Nat) (fs fs' : FS) (r r' : Outcome) (paths paths' : List Str) (i i' : Nat) (path : Str)
    (xl : List XyzLine) (now : Str → DateTime → Str) (hn : PlainNames D cfg.obsDir) (hn' : PlainNames D' cfg'.obsDir)
    (hf : InputFiles D cfg.obsDir paths) (hf' : InputFiles D' cfg'.obsDir paths') (hs : Shares D D' cfg cfg' path xl)
    (hi : paths[i]? = some path) (hi' : paths'[i']? = some path)
    (hrun : program X D cfg fuel fs = some r) (hend : r.err = none) (hrun' : program (X.atTime now) D' cfg' fuel fs' = some r') (hend' : r'.err = none)
    (hcfg : cfg.navIgnoreAbsence = false) : ∃ ops ops', r.calls[i]? = some ops ∧ r'.calls[i']? = some ops' ∧ writesOf ops' = writesOf ops := by
  have h1 := (C72_files D cfg paths hn).2 hf
  have h1' := (C72_files D' cfg' paths' hn').2 hf'
  have run : ∀ (X : Ext) (D : Disk) (cfg : Cfg) (fs : FS) (r : Outcome) (paths : List Str) (i : Nat), obsFiles D cfg = .ok paths → paths[i]? = some path →
      program X D cfg fuel fs = some r → r.err = none → ∃ f g fs1, fileIn D fuel (someXyz D cfg) path = some f ∧ GInv (prmOf X D cfg) g ∧
        (processFile (prmOf X D cfg) f g fs1).err = none ∧ r.calls[i]? = some (processFile (prmOf X D cfg) f g fs1).ops := by
    intro X D cfg fs r paths i hf hi hrun hend
    obtain ⟨ins, f, hm, hlen, hfi, hfile⟩ := program_file X D cfg fuel fs r paths i path hf hi hrun
    have herr : (mainLoop (prmOf X D cfg) ins Glob.empty fs).2.2.2 = none := by rw [hm]; exact hend
    have hcalls : (mainLoop (prmOf X D cfg) ins Glob.empty fs).2.2.1 = r.calls := by rw [hm]
    have hlen2 := mainLoop_length _ ins _ _ herr
    rw [hcalls] at hlen2
    have hil := (List.getElem?_eq_some_iff.1 hfi).1
    obtain ⟨ops, hops⟩ : ∃ ops, r.calls[i]? = some ops := ⟨_, List.getElem?_eq_getElem (by omega)⟩
    rw [← hcalls] at hops
    obtain ⟨f', g, fs1, a1, a2, rfl, -, a4⟩ := mainLoop_at (prmOf X D cfg) ins _ _ (ginv_empty _) i ops hops
    rw [hfi] at a1
    cases a1
    exact ⟨f, g, fs1, hfile, a2, a4 herr, by rw [← hcalls, hops]⟩
  obtain ⟨f, g, fs1, k1, k2, k3, k4⟩ := run X D cfg fs r paths i h1 hi hrun hend
  obtain ⟨f', g', fs1', l1, l2, l3, l4⟩ := run (X.atTime now) D' cfg' fs' r' paths' i' h1' hi' hrun' hend'
  rw [shares_file hs fuel (dirs_listed h1) (dirs_listed h1'), k1] at l1
  cases l1
  rw [shares_prm X now hs] at l2 l3 l4
  rw [processFile_dirs] at l3 l4
  have hg' : GInv (prmOf X D cfg) g' := ⟨l2.pos, l2.freq, l2.freqS⟩
  have h4 := file_same (m := (prmOf X D cfg).env.now) (m' := now) (a := fs1') (b := fs1') (prmOf X D cfg) rfl f g' (fs := fs1') (fs' := fs1') (fun _ => .inl ⟨rfl, rfl⟩)
  refine ⟨_, _, k4, l4, ?_⟩
  rw [h4.ops]
  rw [h4.err] at l3
  exact (file_records (prmOf X D cfg) f g g' fs1 fs1' k2 hg' hcfg k3 l3).symm

namespace ProgEx

/-- the example run with another station in another directory, processed first -/
def cfgTwo : Cfg := { cfg with obsDir := [c% "b", c% "d"] }
def otherPath : Str := c% "b/abcd0020.17o"
def diskTwo : Disk :=
  { disk with
    listing := fun d => if d = c% "b" then .ok [c% "abcd0020.17o"] else disk.listing d
    lines := fun f p => if p = otherPath then (if f = .plain then .ok obsLines else .error .os) else disk.lines f p }

theorem shares : Shares disk diskTwo cfg cfgTwo obsPath coords where
  config := rfl
  file := fun _ => rfl
  navDirs := by
    intro d hd
    have hd : d ∈ [c% "n"] := hd
    rw [List.mem_singleton] at hd
    subst hd
    rfl
  navFiles := by
    intro d hd l hl n hn k
    have hd : d ∈ [c% "n"] := hd
    rw [List.mem_singleton] at hd
    subst hd
    have hl : Except.ok [c% "BRDC00IGS_R_20170020000_01D_MN.rnx"] = Except.ok l := hl
    cases hl
    rw [List.mem_singleton] at hn
    subst hn
    rfl
  coordinates := by
    refine ⟨C73_coord_hypotheses, ?_⟩
    obtain ⟨h, -⟩ := C73_coord_hypotheses
    exact ⟨h, obsPath, c% "irkj0020.17o", [], false, false, rfl, .inr ⟨c% "d", by decide, rfl⟩,
      .daily (c% "irkj") (c% "002") '0' (c% "17") 'o' false ⟨rfl, by decide⟩ ⟨rfl, by decide⟩ rfl ⟨rfl, by decide⟩ rfl, obsName,
      .inr ⟨by decide, rfl, c% "d", by decide, _, c% "irkj0020.17o.xyz", rfl, by decide, by decide, by decide⟩⟩

theorem plainTwo : PlainNames diskTwo cfgTwo.obsDir := by
  intro d hd l hl n hn
  have hd : d ∈ [c% "b", c% "d"] := hd
  simp only [List.mem_cons, List.not_mem_nil, or_false] at hd
  rcases hd with rfl | rfl
  · have hl : Except.ok [c% "abcd0020.17o"] = Except.ok l := hl
    cases hl
    revert n
    decide
  · have hl : Except.ok [c% "readme", c% "irkj0020.17o.xyz", c% "irkj0020.17o"] = Except.ok l := hl
    cases hl
    revert n
    decide

theorem inputsTwo : InputFiles diskTwo cfgTwo.obsDir [otherPath, obsPath] := (C72_files diskTwo cfgTwo [otherPath, obsPath] plainTwo).1 (by decide +kernel)

theorem onlyOne : Only [obsPath] 0 obsPath := by
  refine ⟨rfl, fun j p hj hp => ?_⟩
  cases j with
  | zero => exact absurd rfl hj
  | succ j => simp at hp

theorem onlyTwo : Only [otherPath, obsPath] 1 obsPath := by
  refine ⟨rfl, fun j p hj hp => ?_⟩
  match j, hj, hp with
  | 0, _, hp =>
    cases hp
    rintro ⟨m, n, d, h1, h2, h3, -⟩
    have e1 : m = c% "irkj0020.17o" := by rw [← basename_of_last h1]; decide
    have e2 : n = c% "abcd0020.17o" := by rw [← basename_of_last h2]; decide
    subst e1 e2
    revert h3
    decide
  | 1, hj, _ => exact absurd rfl hj
  | j + 2, _, hp => simp at hp

theorem fourTwo : FourDigits [otherPath, obsPath] := by
  intro p hp d hd
  simp only [List.mem_cons, List.not_mem_nil, or_false] at hp
  rcases hp with rfl | rfl
  · have := (namedDay_iff otherPath d ⟨_, (⟨by decide, .inr ⟨c% "b", by decide⟩⟩ : LastComponent otherPath (c% "abcd0020.17o"))⟩).2 hd
    have h2 : getRinexDate otherPath = some ⟨2017, 1, 2⟩ := by decide +kernel
    rw [h2] at this
    cases this
    decide
  · exact C77_hypotheses.2.2 _ (by simp) d hd

theorem good : ∀ o, obsFile disk 5 obsPath = some (.ok o) → ∀ it ∈ o.items, ∀ c n e, Considered o it c n e → ¬ ArithError (prmOf ext disk cfg) c n e := by
  intro o ho it hit c n e hc
  rw [arith_iff]
  have h : ((obsFile disk 5 obsPath).map fun r => match r with
      | .ok o => o.items.all fun it => match decode it with
        | .ok (c, n, e) => decide (posFlow (prmOf ext disk cfg) c n e ≠ .skip)
        | .error _ => false
      | .error _ => false) = some true := by decide +kernel
  rw [ho] at h
  simp only [Option.map_some, Option.some.injEq, List.all_eq_true] at h
  have := h it hit
  rw [(decode_ok ..).2 ⟨hc.1, hc.2.1⟩] at this
  simpa using this

/-- all conditions of C90 hold for the example run and one with the other station before it; the file of R24 is the same -/
theorem C90_example : ∃ r r', program ext disk cfg 5 [] = some r ∧ program (ext.atTime fun _ _ => c% "later") diskTwo cfgTwo 5 [] = some r' ∧
    r.err = none ∧ r'.err = none ∧ r'.fs.length = 4 ∧ (∃ ops, r.calls[0]? = some ops ∧ r'.calls[1]? = some ops ∧ (writesOf ops).length = 4) ∧
    ∃ s t, r.fs.get? (c% "out/2017/002/irkj/irkj_R24_002_17.dat") = some s ∧ r'.fs.get? (c% "out/2017/002/irkj/irkj_R24_002_17.dat") = some t ∧
      s ≠ t ∧ SameButDate s t := by
  obtain ⟨r, h1, h2, -⟩ := C77_example
  have h : (program (ext.atTime fun _ _ => c% "later") diskTwo cfgTwo 5 []).map (fun r => (r.err, r.fs.length,
      (r.fs.get? (c% "out/2017/002/irkj/irkj_R24_002_17.dat")).map fun t => (splitOn '\n' t).head?)) = some (none, 4, some (some (c% "# Created on later"))) := by
    decide +kernel
  obtain ⟨r', h3, h4⟩ := Option.map_eq_some_iff.1 h
  simp only [Prod.mk.injEq] at h4
  obtain ⟨⟨ops, c1, c2⟩, key⟩ := C90_files ext disk diskTwo cfg cfgTwo 5 [] [] r r' [obsPath] [otherPath, obsPath] 0 1 obsPath (c% "irkj0020.17o") coords
    (fun _ _ => c% "later") C77_hypotheses.2.1 plain plainTwo inputs inputsTwo shares onlyOne onlyTwo last C77_hypotheses.2.2 fourTwo h1 h2 h3 h4.1 good
  have hw : (program ext disk cfg 5 []).map (fun r => (r.calls[0]?.map fun ops => (writesOf ops).length,
      (r.fs.get? (c% "out/2017/002/irkj/irkj_R24_002_17.dat")).map fun t => (splitOn '\n' t).head?)) = some (some 4, some (some (c% "# Created on 2026-01-01"))) := by
    decide +kernel
  rw [h1] at hw
  simp only [Option.map_some, Option.some.injEq, Prod.mk.injEq] at hw
  refine ⟨r, r', h1, h3, h2, h4.1, h4.2.1, ⟨ops, c1, c2, ?_⟩, ?_⟩
  · rw [c1] at hw
    simpa using hw.1
  · have hday : NamedDay obsPath ⟨2017, 1, 2⟩ := (namedDay_iff obsPath _ ⟨_, last⟩).1 (by decide +kernel)
    have hp : outputPath cfg.outDir ((c% "irkj0020.17o").take 4) (c% "R24") ⟨2017, 1, 2, 3, 4, 0, 0⟩ = c% "out/2017/002/irkj/irkj_R24_002_17.dat" := by decide +kernel
    have := key (c% "R24") ⟨2017, 1, 2, 3, 4, 0, 0⟩ legal0 hday
    rw [hp] at this
    rcases this with ⟨h5, -⟩ | ⟨s, t, h5, h6, h7⟩
    · rw [h5] at hw
      exact absurd hw.2 (by simp [Dict.get?])
    · refine ⟨s, t, h5, h6, ?_, h7⟩
      rintro rfl
      have h8 := hw.2
      have h9 := h4.2.2
      rw [h5] at h8
      rw [h6] at h9
      rw [h8] at h9
      revert h9
      decide

end ProgEx

end Verif.Props
