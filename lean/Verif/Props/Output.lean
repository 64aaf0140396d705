import Verif.Proofs.Output
/-!
# C77: the output files of a run
-/
namespace Verif.Props
open Verif.Py Verif.Model Verif.Spec Verif.Proofs

theorem inDir_last (d n : Str) (hn : '/' ∉ n) : LastComponent (inDir d n) n := by
  refine ⟨hn, ?_⟩
  unfold inDir
  split
  · exact .inl rfl
  · split
    · rename_i _ h
      obtain ⟨d', rfl⟩ := List.getLast?_eq_some_iff.1 h
      exact .inr ⟨d', by simp⟩
    · exact .inr ⟨d, rfl⟩

theorem obsName_ne {n : Str} {hat comp : Bool} (h : ObsName n hat comp) : n ≠ [] := by
  obtain ⟨stem, suf, rfl, hs, hx⟩ := h
  obtain ⟨w, e, rfl, hw, he, hm⟩ := stem_shape hs
  simp

theorem input_last {D : Disk} {dirs paths : List Str} (h : InputFiles D dirs paths) {p : Str} (hp : p ∈ paths) : ∃ name, LastComponent p name ∧ name ≠ [] := by
  classical
  obtain ⟨-, ls, -, hperm⟩ := h
  obtain ⟨d, -, hd⟩ := List.mem_flatMap.1 (hperm.mem_iff.1 hp)
  obtain ⟨n, hn, rfl⟩ := List.mem_map.1 hd
  obtain ⟨hat, comp, ho⟩ := of_decide_eq_true (List.mem_filter.1 hn).2
  exact ⟨n, inDir_last _ _ (obsName_word ho).2, obsName_ne ho⟩

theorem program_ins {X : Ext} {D : Disk} {cfg : Cfg} {fuel : Nat} {fs : FS} {r : Outcome} {p : Str} {ps : List Str}
    (hf : obsFiles D cfg = .ok (p :: ps)) (hrun : program X D cfg fuel fs = some r) :
    ∃ ins, allOf (fileIn D fuel (someXyz D cfg)) (p :: ps) = some ins ∧
      r = ⟨(mainLoop (prmOf X D cfg) ins Glob.empty fs).2.1, (mainLoop (prmOf X D cfg) ins Glob.empty fs).2.2.1, (mainLoop (prmOf X D cfg) ins Glob.empty fs).2.2.2⟩ := by
  unfold program at hrun
  rw [hf] at hrun
  simp only [Option.map_eq_some_iff] at hrun
  obtain ⟨ins, h1, rfl⟩ := hrun
  exact ⟨ins, h1, rfl⟩

theorem fileIn_opened {D : Disk} {fuel : Nat} {b : Bool} {p : Str} {f : FileIn} (h : fileIn D fuel b p = some f) :
    obsFile D fuel p = some f.opened ∧ xyzData D b p = some f.xyzData := by
  unfold fileIn at h
  simp only [Option.bind_eq_some_iff, Option.map_eq_some_iff] at h
  obtain ⟨o, h1, x, h2, rfl⟩ := h
  exact ⟨h1, h2⟩

/-- the days named by the files have years with four digits -/
def FourDigits (paths : List Str) : Prop := ∀ p ∈ paths, ∀ d, NamedDay p d → 1000 ≤ d.year

/-- the files of a run have legal times -/
theorem ins_legal {D : Disk} {cfg : Cfg} {fuel : Nat} {b : Bool} {paths : List Str} {ins : List FileIn} (hin : InputFiles D cfg.obsDir paths)
    (hy : FourDigits paths) (h : allOf (fileIn D fuel b) paths = some ins) :
    ∀ f ∈ ins, ∀ o t, f.opened = .ok o → Accepted o t → LegalTimes o t ∧ ∃ name, LastComponent o.filename name ∧ name ≠ [] := by
  intro f hf o t ho ha
  obtain ⟨p, hp, hpf⟩ := allOf_mem h f hf
  obtain ⟨h1, -⟩ := fileIn_opened hpf
  rw [ho] at h1
  obtain ⟨e1, e2, e3, e4⟩ := obsFile_legal h1
  obtain ⟨name, hn, hn0⟩ := input_last hin hp
  refine ⟨⟨e3 t _ ha.2, fun it hi e he => ⟨e4 it hi e he, fun hd => ?_⟩⟩, name, by rw [e1]; exact hn, hn0⟩
  rw [e2, namedDay_iff p _ ⟨name, hn⟩] at hd
  exact hy p hp _ hd

/-- what a file writes carries the day named by it -/
theorem writes_day {P : Prm} {f : FileIn} {g : Glob} {fs : FS} {o : ObsIn} (hg : GInv P g) (ho : f.opened = .ok o) {w : Str × DateTime × List (Option FVal)}
    (hw : w ∈ writesOf (processFile P f g fs).ops) :
    ∃ t xyz, Accepted o t ∧ ∃ it ∈ o.items, ∃ c n e, Considered o it c n e ∧ w ∈ writesFor P xyz it c n e := by
  rcases processFile_cases P f with ⟨o', t, l, xyz, hst⟩ | ⟨err, hno⟩
  · have : o' = o := by have := hst.opened; rw [ho] at this; cases this; rfl
    subst this
    exact ⟨t, xyz, (accepted_iff ..).2 ⟨hst.system, hst.tofo⟩, (file_ok P f g fs o' t l xyz hst hg).writes w hw⟩
  · rw [hno] at hw; cases hw

theorem mem_writesFor {P : Prm} {xyz : Dict DateTime Pos} {it : ObsItem} {c : Char} {n : Int} {e : DateTime} {w : Str × DateTime × List (Option FVal)}
    (h : w ∈ writesFor P xyz it c n e) : w.1 = it.sat ∧ w.2.1 = e ∧ recOf P xyz it c n e = .ok (some w.2.2) := by
  unfold writesFor at h
  split at h
  · rename_i v hv
    simp only [List.mem_cons, List.not_mem_nil, or_false] at h
    subst h
    exact ⟨rfl, rfl, hv⟩
  · cases h

/-- C77: the contents of the output files.  In a run that ends normally, let a file be accepted, and let no later file have the same first four characters of
the name and the same day.  The output file of every satellite with records consists of the comment and one line per record, in order, with exactly the
configured columns; the records are those described by `RecordsOf`. -/
theorem output_files (X : Ext) (D : Disk) (cfg : Cfg) (fuel : Nat) (fs : FS) (r : Outcome) (paths : List Str) (i : Nat) (path name : Str) (o : ObsIn)
    (xl : List XyzLine) (t : DateTime) (hcfg : Configured X cfg) (hout : OutDirOk cfg) (hn : PlainNames D cfg.obsDir)
    (hf : InputFiles D cfg.obsDir paths) (hi : paths[i]? = some path) (hname : LastComponent path name) (hyears : FourDigits paths)
    (hlast : ∀ (j : Nat) (p : Str), i < j → paths[j]? = some p → ¬ SameOutput path p)
    (hrun : program X D cfg fuel fs = some r) (hend : r.err = none) (ho : obsFile D fuel path = some (.ok o)) (hint : 0 ≤ o.interval)
    (hx : CoordLines D cfg.obsDir path xl) (ha : Accepted o t)
    (good : cfg.navIgnoreAbsence = false ∨ ∀ it ∈ o.items, ∀ c n e, Considered o it c n e → ¬ ArithError (prmOf X D cfg) c n e) :
    ∃ xyz kept ws, Positions xl xyz ∧ Kept cfg o kept ∧ RecordsOf (prmOf X D cfg) o xyz [] kept ws ∧
      ∀ sat e v more, ws.filter (fun w => w.1 == sat) = (sat, e, v) :: more →
        ∃ satDef nav pos lbh lines text, OutputIs (prmOf X D cfg) o (name.take 4) sat e v more satDef nav pos lbh lines text ∧
          r.fs.get? (outputPath cfg.outDir (name.take 4) sat e) = some text := by
  have hf' := (C72_files D cfg paths hn).2 hf
  obtain ⟨h1, h2, h3, h4⟩ := obsFile_legal ho
  obtain ⟨ops, xyz, kept, hops, hpos, hkept, hrec⟩ := run_records X D cfg fuel fs r paths i path o xl t hf' hi hrun hend ho hx ha h4 good
  refine ⟨xyz, kept, writesOf ops, hpos, hkept, hrec, ?_⟩
  intro sat e v more hsat
  obtain ⟨p, ps, rfl⟩ : ∃ p ps, paths = p :: ps := by
    cases paths with
    | nil => simp at hi
    | cons p ps => exact ⟨p, ps, rfl⟩
  obtain ⟨ins, hins, rfl⟩ := program_ins hf' hrun
  have hl := ins_legal hf hyears hins
  obtain ⟨hlen, hget⟩ := allOf_get hins
  obtain ⟨f, hfi, hf1⟩ := hget i path hi
  obtain ⟨hop, -⟩ := fileIn_opened hfi
  rw [ho] at hop
  have hop : f.opened = .ok o := (Option.some.inj hop).symm
  have hil := (List.getElem?_eq_some_iff.1 hf1).1
  have hsplit : ins = ins.take i ++ f :: ins.drop (i + 1) := by
    have h5 := (List.getElem?_eq_some_iff.1 hf1).2
    rw [← h5, List.cons_getElem_drop_succ, List.take_append_drop]
  generalize hA : ins.take i = A at hsplit
  generalize ins.drop (i + 1) = B at hsplit
  have hAl : A.length = i := by rw [← hA, List.length_take]; omega
  subst hsplit
  simp only at hops hend ⊢
  rw [← hAl] at hops
  generalize hP : prmOf X D cfg = P at *
  have hc : P.cfg = cfg := by rw [← hP]; rfl
  have hdt : P.dtLen = X.dtLen := by rw [← hP]; rfl
  rw [← hc] at hout
  have hmem : (sat, e, v) ∈ writesOf ops := (List.mem_filter.1 (by rw [hsat]; simp : (sat, e, v) ∈ (writesOf ops).filter (fun w => w.1 == sat))).1
  -- the day of this file
  have hday : ∀ w ∈ writesOf ops, Legal w.2.1 ∧ o.fileDate = some w.2.1.date ∧ ∃ xyz it c n, recOf P xyz it c n w.2.1 = .ok (some w.2.2) := by
    intro w hw
    obtain ⟨g, fs1, hg, rfl⟩ := mainLoop_prefix P A B f fs ops hops
    obtain ⟨t', xyz', -, it, hit, c, n, e', hcon, hm⟩ := writes_day hg hop hw
    obtain ⟨-, a2, a3⟩ := mem_writesFor hm
    rw [a2]
    exact ⟨h4 it hit e' hcon.2.1, hcon.2.2.2, xyz', it, c, n, a3⟩
  have hlater : ∀ (j : Nat) f' ops', A.length < j → (A ++ f :: B)[j]? = some f' → (mainLoop P (A ++ f :: B) Glob.empty fs).2.2.1[j]? = some ops' →
      ¬ WritesAt P f' ops' (outputPath P.cfg.outDir (name.take 4) sat e) := by
    rintro j f' ops' hj hf' hops' ⟨o', name', sat', e', v', w1, w2, w3, w4⟩
    rw [hAl] at hj
    have hjl := (List.getElem?_eq_some_iff.1 hf').1
    obtain ⟨q, hq⟩ : ∃ q, (p :: ps)[j]? = some q := ⟨_, List.getElem?_eq_getElem (by omega)⟩
    obtain ⟨f'', hf'', hf3⟩ := hget j q hq
    rw [hf'] at hf3
    cases hf3
    obtain ⟨hop', -⟩ := fileIn_opened hf''
    rw [w1] at hop'
    obtain ⟨u1, u2, u3, u4⟩ := obsFile_legal hop'
    obtain ⟨f4, g, fs1, k1, k2, k3, -, -⟩ := mainLoop_at P (A ++ f :: B) _ _ (ginv_empty P) j ops' hops'
    rw [hf'] at k1
    cases k1
    rw [k3] at w3
    obtain ⟨t', xyz', -, it, hit, c, n, e'', hcon, hm⟩ := writes_day k2 w1 w3
    obtain ⟨-, a2, -⟩ := mem_writesFor hm
    simp only at a2
    subst a2
    have hlast' := hlast j q hj hq
    rw [u1] at w2
    obtain ⟨i1, -, i3⟩ := outputPath_inj (hday _ hmem).1 (u4 it hit _ hcon.2.1) (fun h => hname.1 (List.mem_of_mem_take h))
      (fun h => w2.1 (List.mem_of_mem_take h)) w4
    apply hlast'
    refine ⟨name, name', e.date, hname, w2, i1, ?_, ?_⟩
    · have := (hday _ hmem).2.1
      rw [h2, namedDay_iff path _ ⟨name, hname⟩] at this
      exact this
    · have := hcon.2.2.2
      rw [u2, namedDay_iff q _ ⟨name', w2⟩] at this
      rw [i3]
      exact this
  obtain ⟨satDef, nav, pos, lbh, texts, c1, c2, c3, c4, c5, c6⟩ := C76_files P hout.1 hout.2 A B f fs hl hend o hop name (by rw [h1]; exact hname) ops hops
    sat e v more hsat hlater
  rw [hc] at c6
  refine ⟨satDef, nav, pos, lbh, texts, _, ⟨c1, c2, c3, c4, ?_, ?_⟩, c6⟩
  · obtain ⟨m1, m2, m3⟩ := configured_format hcfg
    rw [← hdt, ← hc] at m3
    rw [← hc] at m1 m2
    have hall : ∀ w ∈ (sat, e, v) :: more, w ∈ writesOf ops := by
      intro w hw
      rw [← hsat] at hw
      exact (List.mem_filter.1 hw).1
    have : ∀ (l : List (Str × DateTime × List (Option FVal))) (ts : List Str), (∀ w ∈ l, w ∈ writesOf ops) →
        List.Forall₂ (fun w t => recordText P.env P.cfg o.interval w.2.1 w.2.2 = .ok (some t)) l ts →
        List.Forall₂ (fun w s => RecordLine P o.interval w.2.1 w.2.2 s) l ts := by
      intro l ts hl h
      induction h with
      | nil => exact .nil
      | @cons w t l ts h _ ih =>
        refine .cons ?_ (ih fun w hw => hl w (by simp [hw]))
        obtain ⟨-, -, xyz', it, c, n, hr⟩ := hday w (hl w (by simp))
        exact record_line P m1 m2 m3 xyz' it c n w.2.1 w.2.2 hr o.interval hint t h
    exact this _ _ hall c5
  · rw [hc]

theorem stored_nonneg {v : Nat} {i : Int} {q : Rat} (h : Stored v i (.fin q)) (hi : 0 ≤ i) : 0 ≤ q := by
  obtain ⟨ms, h1, h2, h3⟩ := h
  have hms : 0 ≤ ms := by omega
  cases h3
  split
  · have : (0 : Int) ≤ ms / 1000 := by omega
    exact_mod_cast this
  · have : (0 : Rat) ≤ ms := by exact_mod_cast hms
    positivity

/-- C77, RINEX 2: a run over directories that contain a well-formed RINEX 2 file, and that ends normally, leaves for every satellite with records in this file
an output file with the comment and one line per record; the records are those of the observations written in the file. -/
theorem C77_rinex2 (X : Ext) (D : Disk) (cfg : Cfg) (fuel : Nat) (fs : FS) (r : Outcome) (paths : List Str) (i : Nat) (path name : Str) (file : List Str)
    (v : Nat) (sys : Char) (hs : List HLine) (ts : List Str) (es : List Epoch) (xl : List XyzLine)
    (hcfg : Configured X cfg) (hout : OutDirOk cfg) (hn : PlainNames D cfg.obsDir) (hf : InputFiles D cfg.obsDir paths) (hi : paths[i]? = some path)
    (hname : LastComponent path name) (hyears : FourDigits paths) (hlast : ∀ (j : Nat) (p : Str), i < j → paths[j]? = some p → ¬ SameOutput path p)
    (hrun : program X D cfg fuel fs = some r) (hend : r.err = none)
    (hr : ReadAs D path file) (hfile : File2 file v sys hs ts es) (hx : CoordLines D cfg.obsDir path xl) :
    ∃ o, Opened2 path v sys hs ts es o ∧ ∀ t, Accepted o t →
      (cfg.navIgnoreAbsence = false ∨ ∀ it ∈ o.items, ∀ c n e, Considered o it c n e → ¬ ArithError (prmOf X D cfg) c n e) →
      ∃ xyz kept ws, Positions xl xyz ∧ Kept cfg o kept ∧ RecordsOf (prmOf X D cfg) o xyz [] kept ws ∧
        ∀ sat e v more, ws.filter (fun w => w.1 == sat) = (sat, e, v) :: more →
          ∃ satDef nav pos lbh lines text, OutputIs (prmOf X D cfg) o (name.take 4) sat e v more satDef nav pos lbh lines text ∧
            r.fs.get? (outputPath cfg.outDir (name.take 4) sat e) = some text := by
  obtain ⟨o, ho, hop⟩ := C73_open2 D fuel path file v sys hs ts es hr hfile
  refine ⟨o, hop, fun t ha good => ?_⟩
  refine output_files X D cfg fuel fs r paths i path name o xl t hcfg hout hn hf hi hname hyears hlast hrun hend ho ?_ hx ha good
  obtain ⟨d, h1, h2⟩ := hop.interval
  refine stored_nonneg h2 ?_
  have hd := List.mem_of_mem_take h1.1
  rw [← spacings_epochs es hfile.epochs] at hd
  exact (spacings_increasing hfile.legal hfile.increasing d hd).1.le

/-- C77, RINEX 3: the same -/
theorem C77_rinex3 (X : Ext) (D : Disk) (cfg : Cfg) (fs : FS) (paths : List Str) (i : Nat) (path name : Str) (file : List Str)
    (v : Nat) (sys : Char) (es : List HEntry) (items : List Item3) (a b : DateTime) (xl : List XyzLine)
    (hcfg : Configured X cfg) (hout : OutDirOk cfg) (hn : PlainNames D cfg.obsDir) (hf : InputFiles D cfg.obsDir paths) (hi : paths[i]? = some path)
    (hname : LastComponent path name) (hyears : FourDigits paths) (hlast : ∀ (j : Nat) (p : Str), i < j → paths[j]? = some p → ¬ SameOutput path p)
    (hr : ReadAs D path file) (hfile : File3 file v sys es items a b) (hx : CoordLines D cfg.obsDir path xl) :
    ∃ o n, Opened3 path v sys es items a b o ∧ ∀ fuel r t, n ≤ fuel → program X D cfg fuel fs = some r → r.err = none → Accepted o t →
      (cfg.navIgnoreAbsence = false ∨ ∀ it ∈ o.items, ∀ c n e, Considered o it c n e → ¬ ArithError (prmOf X D cfg) c n e) →
      ∃ xyz kept ws, Positions xl xyz ∧ Kept cfg o kept ∧ RecordsOf (prmOf X D cfg) o xyz [] kept ws ∧
        ∀ sat e v more, ws.filter (fun w => w.1 == sat) = (sat, e, v) :: more →
          ∃ satDef nav pos lbh lines text, OutputIs (prmOf X D cfg) o (name.take 4) sat e v more satDef nav pos lbh lines text ∧
            r.fs.get? (outputPath cfg.outDir (name.take 4) sat e) = some text := by
  obtain ⟨n, o, ho, hop⟩ := C73_open3 D path file v sys es items a b hr hfile
  refine ⟨o, n, hop, fun fuel r t hfu hrun hend ha good => ?_⟩
  exact output_files X D cfg fuel fs r paths i path name o xl t hcfg hout hn hf hi hname hyears hlast hrun hend (ho fuel hfu)
    (stored_nonneg hop.interval hfile.increasing.le) hx ha good

/-- C77: nothing else is touched: a path that is not the output path of a satellite and the station and day of an input file keeps its contents (or remains
absent), also if the run ends with an exception, and whatever the texts of the files. -/
theorem C77_elsewhere (X : Ext) (D : Disk) (cfg : Cfg) (fuel : Nat) (fs : FS) (r : Outcome) (paths : List Str) (hout : OutDirOk cfg)
    (hn : PlainNames D cfg.obsDir) (hf : InputFiles D cfg.obsDir paths) (hyears : FourDigits paths) (hrun : program X D cfg fuel fs = some r) (q : Str)
    (hq : ∀ p ∈ paths, ∀ name sat e, LastComponent p name → NamedDay p e.date → q ≠ outputPath cfg.outDir (name.take 4) sat e) :
    r.fs.get? q = fs.get? q := by
  have hf' := (C72_files D cfg paths hn).2 hf
  cases paths with
  | nil =>
    unfold program at hrun
    rw [hf'] at hrun
    cases hrun
    rfl
  | cons p ps =>
    obtain ⟨ins, hins, rfl⟩ := program_ins hf' hrun
    have hl := ins_legal hf hyears hins
    simp only
    refine mainLoop_elsewhere (prmOf X D cfg) hout.1 hout.2 ins hl q _ _ (ginv_empty _) ?_
    rintro j f' ops' hf1 hops' ⟨o', name', sat', e', v', w1, w2, w3, w4⟩
    obtain ⟨p', hp', hf2⟩ := allOf_mem hins f' (List.mem_of_getElem? hf1)
    obtain ⟨hop', -⟩ := fileIn_opened hf2
    rw [w1] at hop'
    obtain ⟨u1, u2, u3, u4⟩ := obsFile_legal hop'
    obtain ⟨f4, g, fs1, k1, k2, k3, -, -⟩ := mainLoop_at (prmOf X D cfg) ins _ _ (ginv_empty _) j ops' hops'
    rw [hf1] at k1
    cases k1
    rw [k3] at w3
    obtain ⟨t', xyz', -, it, hit, c, n, e'', hcon, hm⟩ := writes_day k2 w1 w3
    obtain ⟨-, a2, -⟩ := mem_writesFor hm
    simp only at a2
    subst a2
    rw [u1] at w2
    have := hcon.2.2.2
    rw [u2, namedDay_iff p' _ ⟨name', w2⟩] at this
    exact hq p' hp' name' sat' e' w2 this w4

/-- C77: what `prmOf X D cfg` in the statements about runs stands for: the configuration, the length of the dates, the functions given for the
coordinates (in this order of the arguments) and the navigation files of the disk. -/
theorem C77_parameters (X : Ext) (D : Disk) (cfg : Cfg) :
    (prmOf X D cfg).cfg = cfg ∧ (prmOf X D cfg).env = X.env ∧ (prmOf X D cfg).dtLen = X.dtLen ∧
    (∀ station, (prmOf X D cfg).lbh station = X.lbh station) ∧ (∀ system eph dt, (prmOf X D cfg).satPos system eph dt = X.satPos system eph dt) ∧
    (∀ station satellite, (prmOf X D cfg).elAz station satellite = X.elAz station satellite) ∧
    (∀ day system, (prmOf X D cfg).load day system = loadFor D cfg day system) :=
  ⟨rfl, rfl, rfl, fun _ => rfl, fun _ _ _ => rfl, fun _ _ => rfl, fun _ _ => rfl⟩

/-! ## C53: the columns named in the comment -/

/-- With a configuration read from a file the comment names the columns of the records, in their order, separated by a comma and a blank; a single column is
followed by a comma. -/
theorem C53_columns (X : Ext) (cfg : Cfg) (h : Configured X cfg) :
    columnsText cfg.recFields = List.intercalate (c% ", ") cfg.recFields ++ (if cfg.recFields.length = 1 then [','] else []) := by
  obtain ⟨-, hc, -⟩ := configured_format h
  have hb : ∀ f ∈ cfg.recFields, bareName f = f := by
    intro f hf
    obtain ⟨k, hk⟩ := hc f hf
    have : ∀ p ∈ columns, bareName p.1 = p.1 := by decide +kernel
    exact this _ hk
  have hm : cfg.recFields.map bareName = cfg.recFields := by
    conv_rhs => rw [← List.map_id cfg.recFields]
    exact List.map_congr_left hb
  generalize cfg.recFields = l at hm hb
  match l with
  | [] => rfl
  | [n] => simp only [columnsText, hb n (by simp), List.intercalate_singleton, List.length_singleton, if_true]
  | n :: m :: l => simp only [columnsText, hm, List.length_cons, Nat.add_eq_right, Nat.add_eq_zero_iff, Nat.one_ne_zero, and_false, if_false, List.append_nil]


end Verif.Props
