import Verif.Proofs.MainMore
import Verif.Props.NavNames
/-!
# Properties C57–C63, C70, C71: the main loop
-/
namespace Verif.Props
open Verif.Py Verif.Model Verif.Spec Verif.Proofs

/-! ## general -/

/-- the choice of the navigation file depends only on the date of the epoch (the model of the main loop uses this) -/
theorem load_by_date (navFile : Str → Except PyErr NavTable) (dirs : List (Str × List Str)) (e e' : DateTime) (h : e.date = e'.date) (c : Char)
    (priority : List Str) :
    loadNavigationMessage navFile dirs e c priority = loadNavigationMessage navFile dirs e' c priority := by
  have hr : ∀ c, composeNavRe c e = composeNavRe c e' := by
    intro c
    obtain ⟨y, m, d, hh, mm, ss, us⟩ := e
    obtain ⟨y', m', d', hh', mm', ss', us'⟩ := e'
    simp only [DateTime.date, Date.mk.injEq] at h
    obtain ⟨rfl, rfl, rfl⟩ := h
    rfl
  have hf : ∀ c, findNavFiles dirs e c = findNavFiles dirs e' c := fun c => by unfold findNavFiles; rw [hr]
  unfold loadNavigationMessage chooseNavFile
  rw [hf, hf]

theorem accepted_iff (o : ObsIn) (t : DateTime) : Accepted o t ↔ o.system ∈ supported ++ ['M'] ∧ o.tofo = some (t, c% "GPS") := by
  unfold Accepted
  rw [processed_mem]
  simp

theorem mainLoop_ginv (P : Prm) (files : List FileIn) : ∀ (g : Glob) (fs : FS), GInv P g → (mainLoop P files g fs).2.2.2 = none → GInv P (mainLoop P files g fs).1 := by
  induction files with
  | nil => intro g fs hg _; exact hg
  | cons f files ih =>
    intro g fs hg
    simp only [mainLoop]
    cases he : (processFile P f g fs).err with
    | some e => simp
    | none => exact ih _ _ (file_ginv P f g fs hg he)

theorem mainLoop_append (P : Prm) (A B : List FileIn) : ∀ (g : Glob) (fs : FS), (mainLoop P A g fs).2.2.2 = none →
    mainLoop P (A ++ B) g fs =
      ((mainLoop P B (mainLoop P A g fs).1 (mainLoop P A g fs).2.1).1, (mainLoop P B (mainLoop P A g fs).1 (mainLoop P A g fs).2.1).2.1,
        (mainLoop P A g fs).2.2.1 ++ (mainLoop P B (mainLoop P A g fs).1 (mainLoop P A g fs).2.1).2.2.1,
        (mainLoop P B (mainLoop P A g fs).1 (mainLoop P A g fs).2.1).2.2.2) := by
  induction A with
  | nil => intro g fs _; rfl
  | cons f A ih =>
    intro g fs
    simp only [mainLoop, List.cons_append]
    cases he : (processFile P f g fs).err with
    | some e => simp
    | none =>
      simp only
      intro h
      rw [ih _ _ h]
      rfl

theorem mainLoop_append_err (P : Prm) (A B : List FileIn) : ∀ (g : Glob) (fs : FS), (mainLoop P A g fs).2.2.2 ≠ none →
    mainLoop P (A ++ B) g fs = mainLoop P A g fs := by
  induction A with
  | nil => intro g fs h; exact absurd rfl h
  | cons f A ih =>
    intro g fs
    simp only [mainLoop, List.cons_append]
    cases he : (processFile P f g fs).err with
    | some e => simp
    | none =>
      simp only
      intro h
      rw [ih _ _ h]

theorem mainLoop_length (P : Prm) (A : List FileIn) : ∀ (g : Glob) (fs : FS), (mainLoop P A g fs).2.2.2 = none → (mainLoop P A g fs).2.2.1.length = A.length := by
  induction A with
  | nil => intro g fs _; rfl
  | cons f A ih =>
    intro g fs
    simp only [mainLoop]
    cases he : (processFile P f g fs).err with
    | some e => simp
    | none =>
      simp only
      intro h
      simp [ih _ _ h]

/-! ## C57 -/

/-- C57: every record written for the i-th file is the record of an item of that file: an item of a supported system and of the day of the file, whose columns
are those described by `Gives`. -/
theorem C57_records (P : Prm) (files : List FileIn) (fs : FS) (i : Nat) (ops : List WOp) (h : (mainLoop P files Glob.empty fs).2.2.1[i]? = some ops)
    (sat : Str) (e : DateTime) (vals : List (Option FVal)) (hw : (sat, e, vals) ∈ writesOf ops) :
    ∃ f o xyz it c n, files[i]? = some f ∧ f.opened = .ok o ∧ f.xyzData = .ok xyz ∧ it ∈ o.items ∧ it.sat = sat ∧ Considered o it c n e ∧
      Gives P xyz it c n e vals := by
  obtain ⟨f, g, fs', h1, hg, rfl, -, -⟩ := mainLoop_at P files _ fs (ginv_empty P) i ops h
  rcases processFile_cases P f with ⟨o, t, l, xyz, hst⟩ | ⟨err, hno⟩
  · obtain ⟨it, hi, c, n, e', hc, hm⟩ := (file_ok P f g fs' o t l xyz hst hg).writes _ hw
    unfold writesFor at hm
    split at hm
    · rename_i v hv
      simp only [List.mem_singleton, Prod.mk.injEq] at hm
      obtain ⟨rfl, rfl, rfl⟩ := hm
      exact ⟨f, o, xyz, it, c, n, h1, hst.opened, hst.data, hi, rfl, hc, recOf_gives P xyz it c n e hc.2.2.1 vals hv⟩
    · cases hm
  · rw [hno] at hw; cases hw

/-- C57: admissibility in words: supported system, date of the file, elevation not negative, known position or `navIgnoreAbsence`, a GLONASS record always has
an ephemeris with frequency number. -/
theorem C57_admissible (P : Prm) (files : List FileIn) (fs : FS) (i : Nat) (ops : List WOp) (h : (mainLoop P files Glob.empty fs).2.2.1[i]? = some ops)
    (sat : Str) (e : DateTime) (vals : List (Option FVal)) (hw : (sat, e, vals) ∈ writesOf ops) :
    ∃ f o c n r el, files[i]? = some f ∧ f.opened = .ok o ∧ sat = c :: r ∧ pyInt r = .ok n ∧ (c = 'G' ∨ c = 'R' ∨ c = 'S' ∨ c = 'C' ∨ c = 'E') ∧
      o.fileDate = some ⟨e.year, e.month, e.day⟩ ∧ ColIs vals (c% "el") (num el) ∧ 0 ≤ el ∧
      ((∃ p, SatAt P c n e p) ∨ P.cfg.navIgnoreAbsence = true) ∧
      (c = 'R' → ∃ p dt eph k, SatAt P c n e p ∧ EphemerisIs P c n e dt eph ∧ eph[7]? = some (.fin k)) := by
  obtain ⟨f, o, xyz, it, c, n, h1, h2, -, -, rfl, ⟨⟨r, hr1, hr2⟩, he, hp, hd⟩, hg⟩ := C57_records P files fs i ops h sat e vals hw
  obtain ⟨x, l, sp, el, az, hgeo⟩ := hg.geometry
  refine ⟨f, o, c, n, r, el, h1, h2, hr1, hr2, hp, hd, hgeo.elCol, hgeo.visible, ?_, ?_⟩
  · rcases hgeo.direction with ⟨hs, -⟩ | ⟨hi, -⟩
    · exact .inl ⟨sp, hs⟩
    · exact .inr hi
  · rintro rfl
    rcases hgeo.direction with ⟨hs, -⟩ | ⟨-, hne, -⟩
    · obtain ⟨k, hk, -⟩ := hg.tec
      rcases hk with ⟨-, dt, eph, h3, h4⟩ | ⟨hne, -⟩
      · exact ⟨sp, dt, eph, k, hs, h3, h4⟩
      · exact absurd rfl hne
    · exact absurd rfl hne

/-! ## C60, C70 -/

/-- C60: the position in a record is the entry of the coordinate file for its epoch, or the position in force at the item; the geodetic coordinates
and the direction belong to this position. -/
theorem C60_position (P : Prm) (files : List FileIn) (fs : FS) (i : Nat) (ops : List WOp) (h : (mainLoop P files Glob.empty fs).2.2.1[i]? = some ops)
    (sat : Str) (e : DateTime) (vals : List (Option FVal)) (hw : (sat, e, vals) ∈ writesOf ops) :
    ∃ f o xyz it x l, files[i]? = some f ∧ f.opened = .ok o ∧ f.xyzData = .ok xyz ∧ it ∈ o.items ∧ it.sat = sat ∧ it.epoch = some e ∧
      (xyz.get? e = some x ∨ xyz.get? e = none ∧ x = it.xyz) ∧
      Cols3 vals (c% "site.x") (c% "site.y") (c% "site.z") x ∧ P.lbh x = .ok l ∧ Cols3 vals (c% "site.l") (c% "site.b") (c% "site.h") l := by
  obtain ⟨f, o, xyz, it, c, n, h1, h2, h3, h4, h5, h6, hg⟩ := C57_records P files fs i ops h sat e vals hw
  obtain ⟨x, l, sp, el, az, hgeo⟩ := hg.geometry
  exact ⟨f, o, xyz, it, x, l, h1, h2, h3, h4, h5, h6.2.1, hgeo.site, hgeo.siteCols, hgeo.lbh, hgeo.lbhCols⟩

/-- C60: the direction in a record is that from the position in the record to the position of the satellite in the record, which is computed from the
navigation message chosen; zeros stand for an unknown satellite position. -/
theorem C60_direction (P : Prm) (files : List FileIn) (fs : FS) (i : Nat) (ops : List WOp) (h : (mainLoop P files Glob.empty fs).2.2.1[i]? = some ops)
    (sat : Str) (e : DateTime) (vals : List (Option FVal)) (hw : (sat, e, vals) ∈ writesOf ops) :
    ∃ c n r x sp el az, sat = c :: r ∧ pyInt r = .ok n ∧ Cols3 vals (c% "site.x") (c% "site.y") (c% "site.z") x ∧
      Cols3 vals (c% "sat.x") (c% "sat.y") (c% "sat.z") sp ∧ ColIs vals (c% "el") (num el) ∧ ColIs vals (c% "az") (num az) ∧
      ((SatAt P c n e sp ∧ P.elAz x sp = .ok (el, az)) ∨
       (P.cfg.navIgnoreAbsence = true ∧ (∀ p, ¬ SatAt P c n e p) ∧ sp = ⟨0, 0, 0⟩ ∧ el = 0 ∧ az = 0)) := by
  obtain ⟨f, o, xyz, it, c, n, h1, h2, h3, h4, rfl, ⟨⟨r, hr1, hr2⟩, -⟩, hg⟩ := C57_records P files fs i ops h sat e vals hw
  obtain ⟨x, l, sp, el, az, hgeo⟩ := hg.geometry
  refine ⟨c, n, r, x, sp, el, az, hr1, hr2, hgeo.siteCols, hgeo.satCols, hgeo.elCol, hgeo.azCol, ?_⟩
  rcases hgeo.direction with hs | ⟨h1, -, h2⟩
  · exact .inl hs
  · exact .inr ⟨h1, h2⟩

/-- C70: the observables and LLI columns hold the value of the alphabetically first code of their family in the item, the validity column the validity
bits, the requested TEC columns the documented combinations with the carrier frequencies of the system (and frequency number). -/
theorem C70_columns (P : Prm) (files : List FileIn) (fs : FS) (i : Nat) (ops : List WOp) (h : (mainLoop P files Glob.empty fs).2.2.1[i]? = some ops)
    (sat : Str) (e : DateTime) (vals : List (Option FVal)) (hw : (sat, e, vals) ∈ writesOf ops) :
    ∃ f o it c n, files[i]? = some f ∧ f.opened = .ok o ∧ it ∈ o.items ∧ it.sat = sat ∧ Considered o it c n e ∧ vals.length + 3 = columns.length ∧
      (∀ col lli family, (col, lli, family) ∈ obsColumns → ∃ v, FamilyIs it.data family v ∧
        ColIs vals col (v.bind fun u => u.1.map fun q => .flt (.fin q)) ∧ ColIs vals lli (v.map fun u => .int u.2.1)) ∧
      (∃ types v, it.types c = some types ∧ ValidityIs types it.data v ∧ ColIs vals (c% "validity") (some (.int v))) ∧
      (∃ k, FrequencyNumber P c n e k ∧ (P.cfg.outFileModeText = true →
        ∀ x a y b kind, (['t', 'e', 'c', '.', x, a, y, b], kind) ∈ columns → ['t', 'e', 'c', '.', x, a, y, b] ∈ P.cfg.recFields →
          (['t', 'e', 'c', '.', x, a, y, b] = c% "tec.l8c8" → c% "tec.l1c1" ∈ P.cfg.recFields ∨ c% "tec.l2c2" ∈ P.cfg.recFields) →
          ∃ v w r, FamilyIs it.data [upperObs x, a] v ∧ FamilyIs it.data [upperObs y, b] w ∧
            TecIs x y (v.bind fun u => u.1) (w.bind fun u => u.1) (carrier c a k) (carrier c b k) r ∧
            ColIs vals ['t', 'e', 'c', '.', x, a, y, b] (r.map fun q => .flt (.fin q)))) := by
  obtain ⟨f, o, xyz, it, c, n, h1, h2, h3, h4, h5, h6, hg⟩ := C57_records P files fs i ops h sat e vals hw
  exact ⟨f, o, it, c, n, h1, h2, h4, h5, h6, hg.length, hg.observables, hg.validity, hg.tec⟩

/-! ## C71 -/

theorem started_of (P : Prm) (f : FileIn) (o : ObsIn) (t : DateTime) (xyz : Dict DateTime Pos) (h1 : f.opened = .ok o) (h2 : f.xyzData = .ok xyz) (h3 : Accepted o t)
    (g : Glob) (fs : FS) (he : (processFile P f g fs).err = none) : ∃ l, Started P f o t l xyz := by
  obtain ⟨h4, h5⟩ := (accepted_iff o t).1 h3
  cases hl : P.lbh o.xyz with
  | ok l => exact ⟨l, h1, h4, h5, hl, h2⟩
  | error er =>
    exfalso
    unfold processFile at he
    rw [h1] at he
    simp only at he
    rw [if_neg (not_not.2 h4), h5] at he
    simp only [ne_eq, not_true_eq_false, if_false] at he
    rw [hl] at he
    cases he

theorem run_of_file (P : Prm) (f : FileIn) (o : ObsIn) (t : DateTime) (l : Pos) (xyz : Dict DateTime Pos) (h : Started P f o t l xyz) (g : Glob) (fs : FS)
    (he : (processFile P f g fs).err = none) :
    (runItems P o (samplingFor P.cfg o.interval) xyz o.items none (startState P o t l g fs)).2 = none ∧
    (processFile P f g fs).ops = (runItems P o (samplingFor P.cfg o.interval) xyz o.items none (startState P o t l g fs)).1.ops := by
  rw [processFile_started P f g fs o t l xyz h _ rfl] at he ⊢
  refine ⟨?_, rfl⟩
  simp only at he
  cases hr : (runItems P o (samplingFor P.cfg o.interval) xyz o.items none (startState P o t l g fs)).2 with
  | none => rfl
  | some er => rw [hr] at he; cases he

theorem sampling_none (cfg : Cfg) (interval : Rat) : samplingFor cfg interval = none ↔
    cfg.samplingInterval = none ∨ ∃ us, cfg.samplingInterval = some us ∧ (us = 0 ∨ (us : Rat) / 1000000 ≤ interval) := by
  unfold samplingFor
  cases cfg.samplingInterval with
  | none => simp
  | some us =>
    simp only [reduceCtorEq, Option.some.injEq, exists_eq_left', false_or]
    by_cases h0 : us = 0
    · simp [h0]
    · simp only [h0, if_false, false_or, gt_iff_lt]
      by_cases h1 : interval < (us : Rat) / 1000000
      · simp [h1]
      · simp [h1, not_lt.1 h1]

/-- C71: without decimation the records written for a file are exactly those of its items, in order: every considered item gives its record if it can
(`Gives`), except the first item of a system without navigation file. -/
theorem C71_exact (P : Prm) (files : List FileIn) (fs : FS) (i : Nat) (f : FileIn) (o : ObsIn) (t : DateTime) (xyz : Dict DateTime Pos) (ops : List WOp)
    (hrun : (mainLoop P files Glob.empty fs).2.2.2 = none) (hops : (mainLoop P files Glob.empty fs).2.2.1[i]? = some ops)
    (hf : files[i]? = some f) (ho : f.opened = .ok o) (hx : f.xyzData = .ok xyz) (ha : Accepted o t)
    (hs : P.cfg.samplingInterval = none ∨ ∃ us, P.cfg.samplingInterval = some us ∧ (us = 0 ∨ (us : Rat) / 1000000 ≤ o.interval))
    (good : P.cfg.navIgnoreAbsence = false ∨ ∀ it ∈ o.items, ∀ c n e, Considered o it c n e → ¬ ArithError P c n e) :
    RecordsOf P o xyz [] o.items (writesOf ops) := by
  obtain ⟨f', g, fs', h1, hg, rfl, -, he⟩ := mainLoop_at P files _ fs (ginv_empty P) i ops hops
  rw [hf] at h1
  cases h1
  obtain ⟨l, hst⟩ := started_of P f o t xyz ho hx ha g fs' (he hrun)
  obtain ⟨hr, hro⟩ := run_of_file P f o t l xyz hst g fs' (he hrun)
  rw [(sampling_none ..).2 hs] at hr hro
  obtain ⟨new, n1, n2⟩ := records_run P o xyz o.items good none _ [] (start_inv P o t l g fs' hg hst.lbh (dayOf o)) (by
    intro c; rw [start_nav]; simp [Dict.has, Dict.get?]) hr
  rw [hro, n1, start_ops, writesOf_append]
  simpa [writesOf] using n2

/-! ## C58 -/

/-- C58: with a sampling interval larger than the interval of the file, the records are exactly those of the items left by the decimation: the first considered
item is left, and then an item is left iff it has the epoch of the last one left or comes at least the sampling interval later. -/
theorem C58_decimation (P : Prm) (files : List FileIn) (fs : FS) (i : Nat) (f : FileIn) (o : ObsIn) (t : DateTime) (xyz : Dict DateTime Pos) (ops : List WOp)
    (hrun : (mainLoop P files Glob.empty fs).2.2.2 = none) (hops : (mainLoop P files Glob.empty fs).2.2.1[i]? = some ops)
    (hf : files[i]? = some f) (ho : f.opened = .ok o) (hx : f.xyzData = .ok xyz) (ha : Accepted o t)
    (us : Int) (hs : P.cfg.samplingInterval = some us) (h0 : us ≠ 0) (hlarger : o.interval < (us : Rat) / 1000000)
    (hlegal : ∀ it ∈ o.items, ∀ e, it.epoch = some e → Legal e)
    (good : P.cfg.navIgnoreAbsence = false ∨ ∀ it ∈ o.items, ∀ c n e, Considered o it c n e → ¬ ArithError P c n e) :
    ∃ flags, Decimated o us o.items flags ∧ RecordsOf P o xyz [] (leftOf flags) (writesOf ops) := by
  obtain ⟨f', g, fs', h1, hg, rfl, -, he⟩ := mainLoop_at P files _ fs (ginv_empty P) i ops hops
  rw [hf] at h1
  cases h1
  obtain ⟨l, hst⟩ := started_of P f o t xyz ho hx ha g fs' (he hrun)
  obtain ⟨hr, hro⟩ := run_of_file P f o t l xyz hst g fs' (he hrun)
  have hsam : samplingFor P.cfg o.interval = some us := by
    unfold samplingFor
    rw [hs]
    simp [h0, hlarger]
  rw [hsam] at hr hro
  rw [run_thin P o us xyz o.items none none] at hr hro
  refine ⟨_, decimated o us o.items hlegal, ?_⟩
  have hsub : ∀ it ∈ leftOf (flagsOf o us none o.items), it ∈ o.items := by
    intro it hi
    simp only [leftOf, List.mem_map, List.mem_filter] at hi
    obtain ⟨p, ⟨hp, -⟩, rfl⟩ := hi
    rw [← flags_items o us o.items none]
    exact List.mem_map_of_mem hp
  obtain ⟨new, n1, n2⟩ := records_run P o xyz _ (good.imp id fun hg it hi => hg it (hsub it hi)) none _ [] (start_inv P o t l g fs' hg hst.lbh (dayOf o)) (by
    intro c; rw [start_nav]; simp [Dict.has, Dict.get?]) hr
  rw [hro, n1, start_ops, writesOf_append]
  simpa [writesOf] using n2

/-- the records of a file are records of its considered items, in order -/
theorem records_epochs (P : Prm) (o : ObsIn) (xyz : Dict DateTime Pos) (seen : List Char) (items : List ObsItem) (ws : List Rec)
    (h : RecordsOf P o xyz seen items ws) (R : DateTime → DateTime → Prop)
    (hR : ∀ pre it mid it' post c n e c' n' e', items = pre ++ it :: mid ++ it' :: post → Considered o it c n e → Considered o it' c' n' e' → R e e') :
    (ws.map (·.2.1)).Pairwise R ∧ ∀ w ∈ ws, ∃ it ∈ items, ∃ c n, Considered o it c n w.2.1 := by
  have shift : ∀ (it0 : ObsItem) (its : List ObsItem),
      (∀ pre it mid it' post c n e c' n' e', it0 :: its = pre ++ it :: mid ++ it' :: post → Considered o it c n e → Considered o it' c' n' e' → R e e') →
      ∀ pre it mid it' post c n e c' n' e', its = pre ++ it :: mid ++ it' :: post → Considered o it c n e → Considered o it' c' n' e' → R e e' := by
    intro it0 its h pre it mid it' post c n e c' n' e' h1
    exact h (it0 :: pre) it mid it' post c n e c' n' e' (by rw [h1]; simp)
  induction h with
  | nil => exact ⟨List.Pairwise.nil, by simp⟩
  | other seen it its ws _ _ ih =>
    obtain ⟨a, b⟩ := ih (shift _ _ hR)
    exact ⟨a, fun w hw => by obtain ⟨it', hi, h⟩ := b w hw; exact ⟨it', by simp [hi], h⟩⟩
  | lost seen it its ws c n e _ _ _ _ ih =>
    obtain ⟨a, b⟩ := ih (shift _ _ hR)
    exact ⟨a, fun w hw => by obtain ⟨it', hi, h⟩ := b w hw; exact ⟨it', by simp [hi], h⟩⟩
  | none seen it its ws c n e _ _ _ _ ih =>
    obtain ⟨a, b⟩ := ih (shift _ _ hR)
    exact ⟨a, fun w hw => by obtain ⟨it', hi, h⟩ := b w hw; exact ⟨it', by simp [hi], h⟩⟩
  | record seen it its ws c n e vals hc _ _ _ ih =>
    obtain ⟨a, b⟩ := ih (shift _ _ hR)
    refine ⟨?_, ?_⟩
    · simp only [List.map_cons, List.pairwise_cons]
      refine ⟨?_, a⟩
      intro e' he'
      obtain ⟨w, hw, rfl⟩ := List.mem_map.1 he'
      obtain ⟨it', hi, c', n', hc'⟩ := b w hw
      obtain ⟨mid, post, rfl⟩ := List.append_of_mem hi
      exact hR [] it mid it' post c n e c' n' _ (by simp) hc hc'
    · intro w hw
      rcases List.mem_cons.1 hw with rfl | hw
      · exact ⟨it, by simp, c, n, hc⟩
      · obtain ⟨it', hi, h⟩ := b w hw
        exact ⟨it', by simp [hi], h⟩

theorem lastKept_unique (o : ObsIn) (flags : List (ObsItem × Bool)) : ∀ t u, LastKept o flags t → LastKept o flags u → t = u := by
  induction flags using List.reverseRecOn with
  | nil => rintro t u ⟨pre, it, post, h, -⟩; simp at h
  | append_singleton pre p ih =>
    obtain ⟨it, b⟩ := p
    intro t u ht hu
    by_cases hb : (∃ c n e, Considered o it c n e) → b = false
    · rw [lastKept_other o pre it b _ hb] at ht hu
      exact ih t u ht hu
    · simp only [Classical.not_imp, Bool.not_eq_false] at hb
      obtain ⟨⟨c, n, e, hc⟩, rfl⟩ := hb
      rw [lastKept_kept o pre it c n e _ hc] at ht hu
      rw [ht, hu]

theorem kept_before (o : ObsIn) (dt : Int) (hdt : 0 < dt) (flags : List (ObsItem × Bool))
    (rule : ∀ pre it b post c n e, flags = pre ++ (it, b) :: post → Considered o it c n e → (b = true ↔ KeepRule o dt pre e)) (pre : List (ObsItem × Bool)) :
    (∃ post, flags = pre ++ post) → ∀ it c n e, (it, true) ∈ pre → Considered o it c n e →
      ∃ t, LastKept o pre t ∧ (t = e ∨ dt ≤ instant t - instant e) := by
  induction pre using List.reverseRecOn with
  | nil => intro _ it c n e h; cases h
  | append_singleton pre p ih =>
    obtain ⟨it0, b⟩ := p
    rintro ⟨post, hpost⟩ it c n e hm hc
    have ih := ih ⟨(it0, b) :: post, by rw [hpost]; simp⟩
    by_cases hb : (∃ c n e, Considered o it0 c n e) → b = false
    · simp only [lastKept_other o pre it0 b _ hb]
      rcases List.mem_append.1 hm with hm | hm
      · exact ih it c n e hm hc
      · simp only [List.mem_singleton, Prod.mk.injEq] at hm
        obtain ⟨rfl, rfl⟩ := hm
        cases hb ⟨c, n, e, hc⟩
    · simp only [Classical.not_imp, Bool.not_eq_false] at hb
      obtain ⟨⟨c0, n0, e0, hc0⟩, rfl⟩ := hb
      simp only [lastKept_kept o pre it0 c0 n0 e0 _ hc0, exists_eq_left]
      rcases List.mem_append.1 hm with hm | hm
      · obtain ⟨t, h1, h2⟩ := ih it c n e hm hc
        rcases (rule pre it0 true post c0 n0 e0 (by rw [hpost]; simp) hc0).1 rfl with h3 | ⟨t', h3, h4⟩
        · exact absurd h1 (h3 t)
        · have := lastKept_unique o pre t t' h1 h3
          subst this
          rcases h2 with rfl | h2 <;> rcases h4 with rfl | h4
          · exact .inl rfl
          · exact .inr h4
          · exact .inr h2
          · right; omega
      · simp only [List.mem_singleton, Prod.mk.injEq] at hm
        obtain ⟨rfl, -⟩ := hm
        exact .inl (considered_unique o it c0 c n0 n e0 e hc0 hc).2.2

/-- C58: the epochs of the records written are in order, and two of them are equal or at least the sampling interval apart. -/
theorem C58_spaced (P : Prm) (o : ObsIn) (xyz : Dict DateTime Pos) (us : Int) (h0 : 0 < us) (items : List ObsItem) (flags : List (ObsItem × Bool))
    (hd : Decimated o us items flags) (ws : List Rec) (h : RecordsOf P o xyz [] (leftOf flags) ws) :
    (ws.map (·.2.1)).Pairwise (fun e e' => e' = e ∨ us ≤ instant e' - instant e) := by
  refine (records_epochs P o xyz [] _ ws h _ ?_).1
  intro pre it mid it' post c n e c' n' e' hl hc hc'
  unfold leftOf at hl
  obtain ⟨A, B, hAB, hA, hB⟩ := List.map_eq_append_iff.1 hl
  obtain ⟨A1, A2, rfl, hA1, hA2⟩ := List.map_eq_append_iff.1 hA
  obtain ⟨p, A3, rfl, rfl, -⟩ := List.map_eq_cons_iff.1 hA2
  obtain ⟨p', B3, rfl, rfl, -⟩ := List.map_eq_cons_iff.1 hB
  obtain ⟨F1, F2, hF, hF1, hF2⟩ := List.filter_eq_append_iff.1 hAB
  obtain ⟨G1, G2, rfl, hG1, hp', -⟩ := List.filter_eq_cons_iff.1 hF2
  have hm : p ∈ F1 := (List.mem_filter.1 (by rw [hF1]; simp : p ∈ F1.filter (·.2))).1
  have hpt : p.2 = true := (List.mem_filter.1 (by rw [hF1]; simp : p ∈ F1.filter (·.2))).2
  obtain ⟨it, b⟩ := p
  obtain ⟨it', b'⟩ := p'
  simp only at hpt hp' hc hc'
  subst hpt hp'
  have hF : flags = (F1 ++ G1) ++ (it', true) :: G2 := by rw [hF]; simp
  obtain ⟨t, h1, h2⟩ := kept_before o us h0 flags hd.rule (F1 ++ G1) ⟨_, hF⟩ it c n e (by simp [hm]) hc
  rcases (hd.rule _ it' true G2 c' n' e' hF hc').1 rfl with h3 | ⟨t', h3, h4⟩
  · exact absurd h1 (h3 t)
  · have := lastKept_unique o _ t t' h1 h3
    subst this
    rcases h2 with rfl | h2 <;> rcases h4 with rfl | h4
    · exact .inl rfl
    · exact .inr h4
    · exact .inr h2
    · right; omega

/-! ## C59 -/

theorem start_sim (P : Prm) (o : ObsIn) (t : DateTime) (l : Pos) (g g' : Glob) (fs fs' : FS) : Sim (startState P o t l g fs) (startState P o t l g' fs') := by
  unfold startState
  refine (call_sim P o _ _ _ (call_sim P o _ _ _ ?_).1).1
  exact ⟨rfl, rfl, rfl, rfl, rfl⟩

/-- C59: if no satellite position fails with an arithmetic error, what is done for a file — all calls of the writer, and the exception if there is one — does
not depend on the files processed before. -/
theorem C59_independent (P : Prm) (A B : List FileIn) (fsA fsB : FS) (hA : (mainLoop P A Glob.empty fsA).2.2.2 = none)
    (hB : (mainLoop P B Glob.empty fsB).2.2.2 = none) (f : FileIn)
    (good : ∀ o, f.opened = .ok o → ∀ it ∈ o.items, ∀ c n e, Considered o it c n e → ¬ ArithError P c n e) :
    (processFile P f (mainLoop P A Glob.empty fsA).1 (mainLoop P A Glob.empty fsA).2.1).ops =
      (processFile P f (mainLoop P B Glob.empty fsB).1 (mainLoop P B Glob.empty fsB).2.1).ops ∧
    (processFile P f (mainLoop P A Glob.empty fsA).1 (mainLoop P A Glob.empty fsA).2.1).err =
      (processFile P f (mainLoop P B Glob.empty fsB).1 (mainLoop P B Glob.empty fsB).2.1).err := by
  have ga := mainLoop_ginv P A _ fsA (ginv_empty P) hA
  have gb := mainLoop_ginv P B _ fsB (ginv_empty P) hB
  generalize (mainLoop P A Glob.empty fsA).1 = g at *
  generalize (mainLoop P B Glob.empty fsB).1 = g' at *
  generalize (mainLoop P A Glob.empty fsA).2.1 = fs at *
  generalize (mainLoop P B Glob.empty fsB).2.1 = fs' at *
  rcases processFile_cases P f with ⟨o, t, l, xyz, hst⟩ | ⟨err, hno⟩
  · obtain ⟨s1, s2⟩ := runItems_sim P o (samplingFor P.cfg o.interval) xyz o.items (good o hst.opened) none _ _ (start_sim P o t l g g' fs fs')
      (start_inv P o t l g fs ga hst.lbh _) (start_inv P o t l g' fs' gb hst.lbh _)
    rw [processFile_started P f g fs o t l xyz hst _ rfl, processFile_started P f g' fs' o t l xyz hst _ rfl]
    simp only
    rw [s2]
    exact ⟨s1.ops, rfl⟩
  · rw [hno, hno]; exact ⟨rfl, rfl⟩

/-- C59: without `navIgnoreAbsence` the records written for a file do not depend on the files processed before, even with arithmetic errors
(as long as no exception ends the program). -/
theorem C59_records (P : Prm) (A B : List FileIn) (fsA fsB : FS) (hA : (mainLoop P A Glob.empty fsA).2.2.2 = none)
    (hB : (mainLoop P B Glob.empty fsB).2.2.2 = none) (f : FileIn) (hcfg : P.cfg.navIgnoreAbsence = false)
    (e1 : (processFile P f (mainLoop P A Glob.empty fsA).1 (mainLoop P A Glob.empty fsA).2.1).err = none)
    (e2 : (processFile P f (mainLoop P B Glob.empty fsB).1 (mainLoop P B Glob.empty fsB).2.1).err = none) :
    writesOf (processFile P f (mainLoop P A Glob.empty fsA).1 (mainLoop P A Glob.empty fsA).2.1).ops =
      writesOf (processFile P f (mainLoop P B Glob.empty fsB).1 (mainLoop P B Glob.empty fsB).2.1).ops := by
  have ga := mainLoop_ginv P A _ fsA (ginv_empty P) hA
  have gb := mainLoop_ginv P B _ fsB (ginv_empty P) hB
  generalize (mainLoop P A Glob.empty fsA).1 = g at *
  generalize (mainLoop P B Glob.empty fsB).1 = g' at *
  generalize (mainLoop P A Glob.empty fsA).2.1 = fs at *
  generalize (mainLoop P B Glob.empty fsB).2.1 = fs' at *
  rcases processFile_cases P f with ⟨o, t, l, xyz, hst⟩ | ⟨err, hno⟩
  · have key : ∀ g fs, GInv P g → (processFile P f g fs).err = none →
        writesOf (processFile P f g fs).ops = refWrites P o (samplingFor P.cfg o.interval) xyz o.items none (fun _ => false) := by
      intro g fs hg he
      obtain ⟨hr, hro⟩ := run_of_file P f o t l xyz hst g fs he
      obtain ⟨new, n1, n2⟩ := ref_spec P o (samplingFor P.cfg o.interval) xyz o.items (.inl hcfg) none _ (start_inv P o t l g fs hg hst.lbh (dayOf o)) hr
      rw [hro, n1, start_ops, writesOf_append, n2, start_nav]
      rfl
    rw [key g fs ga e1, key g' fs' gb e2]
  · rw [hno, hno]

/-! ## C61 -/

/-- what a considered item of a system without navigation file gives -/
theorem gives_absent (P : Prm) (xyz : Dict DateTime Pos) (it : ObsItem) (c : Char) (n : Int) (e : DateTime) (hp : Processed c) (hR : c ≠ 'R')
    (hi : P.cfg.navIgnoreAbsence = true) (hn : NoNavigation P e.date c) (hk : KnownCodes it c) (x l : Pos) (hs : SiteAt xyz it e x) (hl : P.lbh x = .ok l) :
    ∃ vals, Gives P xyz it c n e vals := by
  have hno : ∀ p, ¬ SatAt P c n e p := by
    rintro p ⟨dt, eph, ⟨f, m, h1, -⟩, -⟩
    rcases hn with hn | hn <;> rw [hn] at h1 <;> cases h1
  obtain ⟨v, hv⟩ := recOf_some P xyz it c n e hp hk x l ⟨0, 0, 0⟩ 0 0 0 hs hl (.inr ⟨hi, hR, hno, rfl, rfl, rfl⟩) le_rfl (.inr ⟨hR, rfl⟩)
  exact ⟨v, recOf_gives P xyz it c n e hp v hv⟩

open Classical in
/-- the considered items of a system -/
noncomputable def ofSystem (o : ObsIn) (c : Char) (items : List ObsItem) : List ObsItem := items.filter fun it => decide (∃ n e, Considered o it c n e)

/-- the records of a system -/
def writesOfSystem (c : Char) (ws : List Rec) : List Rec := ws.filter fun w => w.1.head? == some c

open Classical in
theorem absent_records (P : Prm) (o : ObsIn) (xyz : Dict DateTime Pos) (c : Char) (hp : Processed c) (hR : c ≠ 'R') (hi : P.cfg.navIgnoreAbsence = true)
    (seen : List Char) (items : List ObsItem) (ws : List Rec) (h : RecordsOf P o xyz seen items ws)
    (hn : ∀ d, o.fileDate = some d → NoNavigation P d c)
    (hk : ∀ it ∈ items, ∀ n e, Considered o it c n e → KnownCodes it c ∧ ∃ x l, SiteAt xyz it e x ∧ P.lbh x = .ok l) :
    List.Forall₂ (fun it w => ∃ n e vals, w = (it.sat, e, vals) ∧ Considered o it c n e ∧ Gives P xyz it c n e vals)
      (if c ∈ seen then ofSystem o c items else (ofSystem o c items).tail) (writesOfSystem c ws) := by
  have head : ∀ it c' n e, Considered o it c' n e → it.sat.head? = some c' := by
    rintro it c' n e ⟨⟨r, hr, -⟩, -⟩; rw [hr]; rfl
  have other : ∀ it its c' n e, Considered o it c' n e → c' ≠ c → ofSystem o c (it :: its) = ofSystem o c its := by
    intro it its c' n e hc hne
    unfold ofSystem
    rw [List.filter_cons_of_neg]
    simp only [decide_eq_true_eq]
    rintro ⟨n', e', hc'⟩
    exact hne (considered_unique o it c' c n n' e e' hc hc').1
  have own : ∀ it its n e, Considered o it c n e → ofSystem o c (it :: its) = it :: ofSystem o c its := by
    intro it its n e hc
    unfold ofSystem
    rw [List.filter_cons_of_pos]
    simp only [decide_eq_true_eq]
    exact ⟨n, e, hc⟩
  induction h with
  | nil seen => split <;> exact List.Forall₂.nil
  | other seen it its ws hno _ ih =>
    have : ofSystem o c (it :: its) = ofSystem o c its := by
      unfold ofSystem
      rw [List.filter_cons_of_neg]
      simp only [decide_eq_true_eq]
      rintro ⟨n, e, hc⟩
      exact hno c n e hc
    rw [this]
    exact ih (fun it' hi => hk it' (by simp [hi]))
  | lost seen it its ws c' n e hc hns hnn _ ih =>
    have ih := ih (fun it' hi => hk it' (by simp [hi]))
    by_cases hcc : c' = c
    · subst hcc
      rw [own it its n e hc, if_neg hns]
      simp only [List.mem_cons, true_or, if_true] at ih
      exact ih
    · rw [other it its c' n e hc hcc]
      simp only [List.mem_cons, eq_comm (a := c), hcc, false_or] at ih
      exact ih
  | none seen it its ws c' n e hc hav hno _ ih =>
    have ih := ih (fun it' hi => hk it' (by simp [hi]))
    by_cases hcc : c' = c
    · subst hcc
      exfalso
      obtain ⟨h1, x, l, h2, h3⟩ := hk it (by simp) n e hc
      obtain ⟨v, hv⟩ := gives_absent P xyz it c' n e hp hR hi (hn _ hc.2.2.2) h1 x l h2 h3
      exact hno v hv
    · rw [other it its c' n e hc hcc]
      simp only [List.mem_cons, eq_comm (a := c), hcc, false_or] at ih
      exact ih
  | record seen it its ws c' n e vals hc hav hg _ ih =>
    have ih := ih (fun it' hi => hk it' (by simp [hi]))
    by_cases hcc : c' = c
    · subst hcc
      rw [own it its n e hc]
      have hs : c' ∈ seen := by
        rcases hav with h | ⟨m, hm⟩
        · exact h
        · exfalso
          rcases hn _ hc.2.2.2 with h | h <;> rw [h] at hm <;> cases hm
      rw [if_pos hs]
      simp only [List.mem_cons, true_or, if_true] at ih
      unfold writesOfSystem
      rw [List.filter_cons_of_pos (by simp [head it c' n e hc])]
      exact List.Forall₂.cons ⟨n, e, vals, rfl, hc, hg⟩ ih
    · rw [other it its c' n e hc hcc]
      simp only [List.mem_cons, eq_comm (a := c), hcc, false_or] at ih
      unfold writesOfSystem
      rw [List.filter_cons_of_neg (by simp [head it c' n e hc, hcc])]
      exact ih

/-- C61: with `navIgnoreAbsence` and no navigation file for a system other than GLONASS, the records of the system are those of its considered items
without the first one. -/
theorem C61_first_lost (P : Prm) (files : List FileIn) (fs : FS) (i : Nat) (f : FileIn) (o : ObsIn) (t : DateTime) (xyz : Dict DateTime Pos) (ops : List WOp)
    (hrun : (mainLoop P files Glob.empty fs).2.2.2 = none) (hops : (mainLoop P files Glob.empty fs).2.2.1[i]? = some ops)
    (hf : files[i]? = some f) (ho : f.opened = .ok o) (hx : f.xyzData = .ok xyz) (ha : Accepted o t)
    (hs : P.cfg.samplingInterval = none ∨ ∃ us, P.cfg.samplingInterval = some us ∧ (us = 0 ∨ (us : Rat) / 1000000 ≤ o.interval))
    (good : ∀ it ∈ o.items, ∀ c n e, Considered o it c n e → ¬ ArithError P c n e)
    (c : Char) (hp : Processed c) (hR : c ≠ 'R') (hi : P.cfg.navIgnoreAbsence = true) (hn : ∀ d, o.fileDate = some d → NoNavigation P d c)
    (hk : ∀ it ∈ o.items, ∀ n e, Considered o it c n e → KnownCodes it c ∧ ∃ x l, SiteAt xyz it e x ∧ P.lbh x = .ok l) :
    List.Forall₂ (fun it w => ∃ n e vals, w = (it.sat, e, vals) ∧ Considered o it c n e ∧ Gives P xyz it c n e vals)
      (ofSystem o c o.items).tail (writesOfSystem c (writesOf ops)) := by
  have h := C71_exact P files fs i f o t xyz ops hrun hops hf ho hx ha hs (.inr good)
  simpa using absent_records P o xyz c hp hR hi [] o.items _ h hn hk

/-! ## C47, up to the records -/

/-- C47: in text mode (the only mode), for every record of every run and every requested TEC column: the column holds the value computed from the observables
of the item and the carriers of the satellite (missing iff one of them is missing or zero).  Only `tec.l8c8` is different: it is so iff `tec.l1c1` or `tec.l2c2`
is requested as well, and missing in every record otherwise. -/
theorem C47_records (P : Prm) (ht : P.cfg.outFileModeText = true) (files : List FileIn) (fs : FS) (i : Nat) (ops : List WOp)
    (h : (mainLoop P files Glob.empty fs).2.2.1[i]? = some ops) (sat : Str) (e : DateTime) (vals : List (Option FVal)) (hw : (sat, e, vals) ∈ writesOf ops) :
    ∃ f o it c n k, files[i]? = some f ∧ f.opened = .ok o ∧ it ∈ o.items ∧ it.sat = sat ∧ Considered o it c n e ∧ FrequencyNumber P c n e k ∧
      ∀ x a y b kind, (['t', 'e', 'c', '.', x, a, y, b], kind) ∈ columns → ['t', 'e', 'c', '.', x, a, y, b] ∈ P.cfg.recFields →
        ((['t', 'e', 'c', '.', x, a, y, b] ≠ c% "tec.l8c8" ∨ c% "tec.l1c1" ∈ P.cfg.recFields ∨ c% "tec.l2c2" ∈ P.cfg.recFields) ∧
          ∃ v w r, FamilyIs it.data [upperObs x, a] v ∧ FamilyIs it.data [upperObs y, b] w ∧
            TecIs x y (v.bind fun u => u.1) (w.bind fun u => u.1) (carrier c a k) (carrier c b k) r ∧
            ColIs vals ['t', 'e', 'c', '.', x, a, y, b] (r.map fun q => .flt (.fin q))) ∨
        (['t', 'e', 'c', '.', x, a, y, b] = c% "tec.l8c8" ∧ c% "tec.l1c1" ∉ P.cfg.recFields ∧ c% "tec.l2c2" ∉ P.cfg.recFields ∧
          ColIs vals ['t', 'e', 'c', '.', x, a, y, b] none) := by
  obtain ⟨f, o, xyz, it, c, n, h1, h2, h3, h4, h5, h6, hg⟩ := C57_records P files fs i ops h sat e vals hw
  obtain ⟨k, hk, htec⟩ := hg.tec
  refine ⟨f, o, it, c, n, k, h1, h2, h4, h5, h6, hk, ?_⟩
  intro x a y b kind hcol hreq
  by_cases h8 : ['t', 'e', 'c', '.', x, a, y, b] = c% "tec.l8c8" → c% "tec.l1c1" ∈ P.cfg.recFields ∨ c% "tec.l2c2" ∈ P.cfg.recFields
  · refine .inl ⟨?_, htec ht x a y b kind hcol hreq h8⟩
    by_cases he : ['t', 'e', 'c', '.', x, a, y, b] = c% "tec.l8c8"
    · exact .inr (h8 he)
    · exact .inl he
  · push Not at h8
    obtain ⟨he, hn1, hn2⟩ := h8
    exact .inr ⟨he, hn1, hn2, he ▸ hg.l8c8 ht hn1 hn2⟩

/-! ## C62 -/

theorem leftOut_file (P : Prm) (f : FileIn) (h : LeftOut f) (g : Glob) (fs : FS) : processFile P f g fs = ⟨g, fs, [], none⟩ := by
  unfold processFile
  rcases h with h | h | ⟨o, h, h2⟩
  · simp [h]
  · simp [h]
  · rw [h]
    simp only
    by_cases hs : o.system ∉ supported ++ ['M']
    · rw [if_pos hs]
    · rw [if_neg hs]
      rcases h2 with ⟨h2, h3⟩ | ⟨t, s, h2, h3⟩
      · exfalso
        apply hs
        rw [processed_mem] at h2
        simp [h2, h3]
      · rw [h2]
        simp only [ne_eq, h3, not_false_eq_true, if_true]

/-- C62: a file that cannot be opened (as reported by the readers), or whose system or time system is not supported, changes nothing: tables, files written,
calls of the writer and outcome are those of the run without it. -/
theorem C62_left_out (P : Prm) (A B : List FileIn) (f : FileIn) (h : LeftOut f) (fs : FS) :
    (mainLoop P (A ++ f :: B) Glob.empty fs).2.1 = (mainLoop P (A ++ B) Glob.empty fs).2.1 ∧
    (mainLoop P (A ++ f :: B) Glob.empty fs).2.2.1.flatten = (mainLoop P (A ++ B) Glob.empty fs).2.2.1.flatten ∧
    (mainLoop P (A ++ f :: B) Glob.empty fs).2.2.2 = (mainLoop P (A ++ B) Glob.empty fs).2.2.2 := by
  by_cases hA : (mainLoop P A Glob.empty fs).2.2.2 = none
  · rw [mainLoop_append P A (f :: B) _ _ hA, mainLoop_append P A B _ _ hA]
    simp only [mainLoop, leftOut_file P f h]
    simp
  · rw [mainLoop_append_err P A (f :: B) _ _ hA, mainLoop_append_err P A B _ _ hA]
    exact ⟨rfl, rfl, rfl⟩

theorem runItems_stop (P : Prm) (o : ObsIn) (st : Except PyErr Unit) (sampling : Option Int) (xyz : Dict DateTime Pos) (items : List ObsItem) : ∀ last s,
    runItems P { o with stop := st } sampling xyz items last s = runItems P o sampling xyz items last s := by
  induction items with
  | nil => intro last s; rfl
  | cons it its ih =>
    intro last s
    simp only [runItems]
    have h1 : admit { o with stop := st } sampling last it = admit o sampling last it := rfl
    rw [h1]
    cases admit o sampling last it with
    | error er => rfl
    | ok q =>
      cases q with
      | none => exact ih last s
      | some q =>
        obtain ⟨c, n, e, last'⟩ := q
        have h2 : process P { o with stop := st } xyz it c n e s = process P o xyz it c n e s := rfl
        simp only [h2]
        cases (process P o xyz it c n e s).2 with
        | some er => rfl
        | none => exact ih _ _

/-- C62: a read error (`RinexError`) in the middle of a file has the effect of the end of the file there: the items before it are processed as usual. -/
theorem C62_read_error (P : Prm) (f : FileIn) (o : ObsIn) (g : Glob) (fs : FS) :
    processFile P { f with opened := .ok { o with stop := .error .rinex } } g fs = processFile P { f with opened := .ok { o with stop := .ok () } } g fs := by
  rcases processFile_cases P { f with opened := .ok { o with stop := .ok () } } with ⟨o', t, l, xyz, hst⟩ | ⟨err, hno⟩
  · obtain ⟨h1, h2, h3, h4, h5⟩ := hst
    simp only [Except.ok.injEq] at h1
    subst h1
    have hst : Started P { f with opened := .ok { o with stop := .ok () } } { o with stop := .ok () } t l xyz := ⟨rfl, h2, h3, h4, h5⟩
    have hst' : Started P { f with opened := .ok { o with stop := .error .rinex } } { o with stop := .error .rinex } t l xyz := ⟨rfl, h2, h3, h4, h5⟩
    rw [processFile_started P _ g fs _ t l xyz hst _ rfl, processFile_started P _ g fs _ t l xyz hst' _ rfl]
    simp only [runItems_stop, if_true]
    rfl
  · rw [hno]
    have h := hno g fs
    unfold processFile at h ⊢
    simp only at h ⊢
    by_cases h1 : o.system ∉ supported ++ ['M']
    · rw [if_pos h1] at h ⊢; exact h
    · rw [if_neg h1] at h ⊢
      cases h2 : o.tofo with
      | none => rw [h2] at h; exact h
      | some ts =>
        obtain ⟨t, sy⟩ := ts
        rw [h2] at h
        simp only at h ⊢
        by_cases h3 : sy = c% "GPS"
        · simp only [h3, ne_eq, not_true_eq_false, if_false] at h ⊢
          cases h4 : P.lbh o.xyz with
          | error er => rw [h4] at h; exact h
          | ok l =>
            rw [h4] at h
            simp only at h ⊢
            cases h5 : f.xyzData with
            | error er => rw [h5] at h; exact h
            | ok xyz =>
              exfalso
              rw [h5] at h
              have hst : Started P { f with opened := .ok { o with stop := .ok () } } { o with stop := .ok () } t l xyz := ⟨rfl, not_not.1 h1, by rw [← h3]; exact h2, h4, h5⟩
              have := (file_ok P _ Glob.empty fs _ t l xyz hst (ginv_empty P)).ops
              rw [hno] at this
              obtain ⟨new, hh⟩ := this
              cases hh
        · simp only [ne_eq, h3, not_false_eq_true, if_true] at h ⊢
          exact h

/-! ## output files -/

/-- the times of a file are legal, and those of the day of the file belong to years with four digits -/
def LegalTimes (o : ObsIn) (t : DateTime) : Prop :=
  Legal t ∧ ∀ it ∈ o.items, ∀ e, it.epoch = some e → Legal e ∧ (o.fileDate = some e.date → 1000 ≤ e.year)

theorem file_opsOk (P : Prm) (f : FileIn) (o : ObsIn) (t : DateTime) (l : Pos) (xyz : Dict DateTime Pos) (h : Started P f o t l xyz) (g : Glob) (fs : FS)
    (hl : LegalTimes o t) : OpsOk (dayOf o) (processFile P f g fs).ops := by
  rw [processFile_started P f g fs o t l xyz h _ rfl]
  obtain ⟨new, n1, n2⟩ := run_adds P o (samplingFor P.cfg o.interval) xyz o.items none (startState P o t l g fs)
  simp only [n1, start_ops]
  intro op hop
  have hcon : ∀ u, (∃ it ∈ o.items, ∃ c n, Considered o it c n u) → Legal u ∧ 1000 ≤ u.year ∧ (⟨u.year, u.month, u.day⟩ : Date) = dayOf o := by
    rintro u ⟨it, hi, c, n, hc⟩
    obtain ⟨a, b⟩ := hl.2 it hi u hc.2.1
    exact ⟨a, b hc.2.2.2, (dayOf_considered hc).symm⟩
  rcases List.mem_append.1 hop with hop | hop
  · simp only [List.mem_cons, List.not_mem_nil, or_false] at hop
    rcases hop with rfl | rfl <;> exact hl.1
  · cases op with
    | satellite s d n => trivial
    | position u p => exact (hcon u (n2 _ hop u rfl)).1
    | geodetic u p => exact (hcon u (n2 _ hop u rfl)).1
    | write s u v => exact hcon u (n2 _ hop u rfl)

theorem mem_writesOf (ops : List WOp) (s : Str) (e : DateTime) (v : List (Option FVal)) : WOp.write s e v ∈ ops ↔ (s, e, v) ∈ writesOf ops := by
  induction ops with
  | nil => simp [writesOf]
  | cons op ops ih => cases op <;> simp [writesOf, ih]

theorem recordsOf_writes (ops : List WOp) (sat : Str) : recordsOf ops sat = ((writesOf ops).filter (fun w => w.1 == sat)).map (·.2) := by
  induction ops with
  | nil => rfl
  | cons op ops ih =>
    cases op with
    | write s e v =>
      simp only [recordsOf, writesOf, List.filter_cons]
      by_cases h : s = sat
      · simp [h, ih]
      · simp [h, ih]
    | _ => simpa [recordsOf, writesOf] using ih

/-- the file may be written at `path` when it is processed -/
def WritesAt (P : Prm) (f : FileIn) (ops : List WOp) (path : Str) : Prop :=
  ∃ o name sat e v, f.opened = .ok o ∧ LastComponent o.filename name ∧ (sat, e, v) ∈ writesOf ops ∧ path = outputPath P.cfg.outDir (name.take 4) sat e

/-- a file leaves every output file alone for which it writes no record, also if an exception ends the program -/
theorem file_elsewhere (P : Prm) (ho : P.cfg.outDir ≠ []) (ho2 : P.cfg.outDir.getLast? ≠ some '/') (f : FileIn) (g : Glob) (hg : GInv P g) (fs : FS)
    (hl : ∀ o t, f.opened = .ok o → Accepted o t → LegalTimes o t ∧ ∃ name, LastComponent o.filename name ∧ name ≠ [])
    (path : Str) (hp : ¬ WritesAt P f (processFile P f g fs).ops path) : (processFile P f g fs).fs.get? path = fs.get? path := by
  rcases processFile_cases P f with ⟨o, t, l, xyz, hst⟩ | ⟨err, hno⟩
  · obtain ⟨hleg, name, hn, hn0⟩ := hl o t hst.opened ((accepted_iff ..).2 ⟨hst.system, hst.tofo⟩)
    obtain ⟨w, er, hrun, -⟩ := (file_ok P f g fs o t l xyz hst hg).fs
    have := C53_elsewhere P.env P.cfg o.filename name hn hn0 ho ho2 o.interval (dayOf o) _ (file_opsOk P f o t l xyz hst g fs hleg) fs path (by
      intro sat e v hm hpath
      exact hp ⟨o, name, sat, e, v, hst.opened, hn, (mem_writesOf ..).1 hm, hpath⟩)
    rw [hrun] at this
    exact this
  · rw [hno]

/-- C62: an exception that ends the program leaves the output files alone that the file being processed does not write; no further file is touched. -/
theorem C62_abort (P : Prm) (ho : P.cfg.outDir ≠ []) (ho2 : P.cfg.outDir.getLast? ≠ some '/') (A B : List FileIn) (f : FileIn) (fs : FS)
    (hA : (mainLoop P A Glob.empty fs).2.2.2 = none) (er : PyErr)
    (he : (processFile P f (mainLoop P A Glob.empty fs).1 (mainLoop P A Glob.empty fs).2.1).err = some er)
    (hl : ∀ o t, f.opened = .ok o → Accepted o t → LegalTimes o t ∧ ∃ name, LastComponent o.filename name ∧ name ≠ []) :
    (mainLoop P (A ++ f :: B) Glob.empty fs).2.2.2 = some er ∧
    ∃ ops, (mainLoop P (A ++ f :: B) Glob.empty fs).2.2.1 = (mainLoop P A Glob.empty fs).2.2.1 ++ [ops] ∧
      ∀ path, ¬ WritesAt P f ops path → (mainLoop P (A ++ f :: B) Glob.empty fs).2.1.get? path = (mainLoop P A Glob.empty fs).2.1.get? path := by
  rw [mainLoop_append P A (f :: B) _ _ hA]
  simp only [mainLoop, he]
  refine ⟨trivial, _, rfl, ?_⟩
  intro path hp
  exact file_elsewhere P ho ho2 f _ (mainLoop_ginv P A _ fs (ginv_empty P) hA) _ hl path hp

theorem mainLoop_elsewhere (P : Prm) (ho : P.cfg.outDir ≠ []) (ho2 : P.cfg.outDir.getLast? ≠ some '/') (files : List FileIn)
    (hl : ∀ f ∈ files, ∀ o t, f.opened = .ok o → Accepted o t → LegalTimes o t ∧ ∃ name, LastComponent o.filename name ∧ name ≠ [])
    (path : Str) : ∀ g fs, GInv P g → (∀ (i : Nat) f ops, files[i]? = some f → (mainLoop P files g fs).2.2.1[i]? = some ops → ¬ WritesAt P f ops path) →
      (mainLoop P files g fs).2.1.get? path = fs.get? path := by
  induction files with
  | nil => intro g fs _ _; rfl
  | cons f files ih =>
    intro g fs hg
    have h1 := fun hp => file_elsewhere P ho ho2 f g hg fs (hl f (by simp)) path hp
    simp only [mainLoop]
    cases he : (processFile P f g fs).err with
    | some er =>
      simp only
      intro hno
      exact h1 (hno 0 f _ rfl rfl)
    | none =>
      simp only
      intro hno
      rw [ih (fun f' hf => hl f' (by simp [hf])) _ _ (file_ginv P f g fs hg he) (fun i f' ops hf ho => hno (i + 1) f' ops (by simpa using hf) (by simpa using ho))]
      exact h1 (hno 0 f _ rfl rfl)

/-- C71: the contents of the output files after a run without exception: the file of a satellite consists of the header and the texts of the records of the
satellite (those described by `C71_exact`, `C58_decimation`), in order — provided that no later observation file writes the same output file (C56). -/
theorem C71_files (P : Prm) (ho : P.cfg.outDir ≠ []) (ho2 : P.cfg.outDir.getLast? ≠ some '/') (A B : List FileIn) (f : FileIn) (fs : FS)
    (hl : ∀ f' ∈ A ++ f :: B, ∀ o t, f'.opened = .ok o → Accepted o t → LegalTimes o t ∧ ∃ name, LastComponent o.filename name ∧ name ≠ [])
    (hrun : (mainLoop P (A ++ f :: B) Glob.empty fs).2.2.2 = none) (o : ObsIn) (hop : f.opened = .ok o) (name : Str) (hname : LastComponent o.filename name)
    (ops : List WOp) (hops : (mainLoop P (A ++ f :: B) Glob.empty fs).2.2.1[A.length]? = some ops)
    (sat : Str) (hsat : ∃ e v, (sat, e, v) ∈ writesOf ops)
    (hlater : ∀ (i : Nat) f' ops' e v, A.length < i → (A ++ f :: B)[i]? = some f' → (mainLoop P (A ++ f :: B) Glob.empty fs).2.2.1[i]? = some ops' →
      (sat, e, v) ∈ writesOf ops → ¬ WritesAt P f' ops' (outputPath P.cfg.outDir (name.take 4) sat e)) :
    ∃ pre e v post satDef nav xyz lbh texts, ops = pre ++ .write sat e v :: post ∧ recordsOf pre sat = [] ∧
      SatelliteIs pre sat satDef nav ∧ PositionIs pre xyz ∧ GeodeticIs pre lbh ∧
      List.Forall₂ (fun (w : Rec) t => recordText P.env P.cfg o.interval w.2.1 w.2.2 = .ok (some t)) ((writesOf ops).filter (fun w => w.1 == sat)) texts ∧
      (mainLoop P (A ++ f :: B) Glob.empty fs).2.1.get? (outputPath P.cfg.outDir (name.take 4) sat e) = some (
        headerText (P.env.now sat e) (o.filename ++ (c% ", ") ++ (if nav = none ∨ nav = some [] then c% "None" else nav.getD [])) satDef
          (P.env.repr o.interval) (samplingText P.env P.cfg o.interval) (name.take 4) (posText P.env.repr lbh) (posText P.env.repr xyz) P.cfg.datetimeFormat
          (columnsText P.cfg.recFields) P.cfg.recFortranFormat ++ texts.flatten) := by
  have hA : (mainLoop P A Glob.empty fs).2.2.2 = none := by
    by_contra hA
    rw [mainLoop_append_err P A (f :: B) _ _ hA] at hrun
    exact hA hrun
  have hlen := mainLoop_length P A _ _ hA
  have hgA := mainLoop_ginv P A _ fs (ginv_empty P) hA
  rw [mainLoop_append P A (f :: B) _ _ hA] at hrun hops hlater ⊢
  generalize (mainLoop P A Glob.empty fs).1 = g at *
  generalize (mainLoop P A Glob.empty fs).2.1 = fs1 at *
  generalize (mainLoop P A Glob.empty fs).2.2.1 = opsA at *
  simp only [mainLoop] at hrun hops hlater ⊢
  cases he : (processFile P f g fs1).err with
  | some er => rw [he] at hrun; cases hrun
  | none =>
    rw [he] at hrun hops hlater
    simp only at hrun hops hlater ⊢
    rw [List.getElem?_append_right (by omega), hlen, Nat.sub_self, List.getElem?_cons_zero] at hops
    cases hops
    rcases processFile_cases P f with ⟨o', t, l, xyzd, hst⟩ | ⟨err, hno⟩
    · have : o' = o := by have := hst.opened; rw [hop] at this; cases this; rfl
      subst this
      obtain ⟨hleg, -⟩ := hl f (by simp) o' t hst.opened ((accepted_iff ..).2 ⟨hst.system, hst.tofo⟩)
      have hn0 : name ≠ [] := by
        obtain ⟨-, name', h1, h2⟩ := hl f (by simp) o' t hst.opened ((accepted_iff ..).2 ⟨hst.system, hst.tofo⟩)
        have : name = name' := by
          rw [← basename_of_last hname, ← basename_of_last h1]
        rw [this]; exact h2
      obtain ⟨w, er, hro, her⟩ := (file_ok P f g fs1 o' t l xyzd hst hgA).fs
      rw [he] at her
      have her : er = none := by rcases her with h | h <;> exact h
      subst her
      have hok := file_opsOk P f o' t l xyzd hst g fs1 hleg
      have hrec : recordsOf (processFile P f g fs1).ops sat ≠ [] := by
        rw [recordsOf_writes]
        obtain ⟨e, v, hm⟩ := hsat
        intro hnil
        have := List.mem_map_of_mem (f := (·.2)) (List.mem_filter.2 ⟨hm, by simp⟩ : (sat, e, v) ∈ (writesOf (processFile P f g fs1).ops).filter (fun w => w.1 == sat))
        rw [hnil] at this; cases this
      obtain ⟨pre, e, v, post, satDef, nav, xyz, lbh, texts, c1, c2, c3, c4, c5, c6, c7⟩ :=
        C53_contents P.env P.cfg o'.filename name hname hn0 ho ho2 o'.interval (dayOf o') _ hok fs1 (by rw [hro]) sat hrec
      refine ⟨pre, e, v, post, satDef, nav, xyz, lbh, texts, c1, c2, c3, c4, c5, ?_, ?_⟩
      · rw [recordsOf_writes, List.forall₂_map_left_iff] at c6
        exact c6
      · rw [hro] at c7
        rw [mainLoop_elsewhere P ho ho2 B (fun f' hf => hl f' (by simp [hf])) _ _ _ (file_ginv P f g fs1 hgA he), c7]
        intro i f' ops' hf' hops'
        refine hlater (A.length + (i + 1)) f' ops' e v (by omega) ?_ ?_ ?_
        · rw [List.getElem?_append_right (by omega)]; simpa using hf'
        · rw [List.getElem?_append_right (by omega), hlen]; simpa using hops'
        · rw [c1, writesOf_append]; simp [writesOf]
    · rw [hno] at hsat
      obtain ⟨e, v, hm⟩ := hsat
      cases hm

/-! ## C63 -/

theorem file_cause (P : Prm) (f : FileIn) (g : Glob) (fs : FS) (hg : GInv P g) (er : PyErr) (he : (processFile P f g fs).err = some er) : Cause P f er := by
  rcases processFile_cases P f with ⟨o, t, l, xyz, hst⟩ | ⟨err, hno⟩
  · rcases (file_ok P f g fs o t l xyz hst hg).fail er he with h | ⟨h1, h2⟩
    · exact cause_of_fails P f o hst.opened xyz hst.data er h
    · exact .reading o hst.opened h1 h2
  · unfold processFile at he
    split at he
    · rename_i e h
      split at he
      · cases he
      · rename_i hne
        cases he
        exact .opening h (fun h => hne (.inl h)) (fun h => hne (.inr h))
    · rename_i o h
      split at he
      · cases he
      · rename_i hs
        split at he
        · rename_i ht; cases he; exact .start o h ht rfl
        · rename_i t s ht
          split at he
          · cases he
          · rename_i hgps
            split at he
            · rename_i er' hl; cases he; exact .geodetic o h hl
            · rename_i l hl
              split at he
              · rename_i er' hx; cases he; exact .xyzFile hx
              · rename_i xyz hx
                exfalso
                have hst : Started P f o t l xyz := ⟨h, not_not.1 hs, by rw [ht, not_not.1 hgps], hl, hx⟩
                obtain ⟨new, hh⟩ := (file_ok P f g fs o t l xyz hst hg).ops
                rw [hno] at hh
                cases hh

/-- C63: whenever an exception ends the program, one of the causes listed in `Cause` is present in the input: the loop does not fail on its own tables
(navigation files, satellite positions, GLONASS frequencies, positions in the writer), and the records always have the number of values the format needs. -/
theorem C63_causes (P : Prm) (files : List FileIn) (fs : FS) (er : PyErr) (h : (mainLoop P files Glob.empty fs).2.2.2 = some er) : ∃ f ∈ files, Cause P f er := by
  have key : ∀ (files : List FileIn) (g : Glob) (fs : FS), GInv P g → (mainLoop P files g fs).2.2.2 = some er → ∃ f ∈ files, Cause P f er := by
    intro files
    induction files with
    | nil => intro g fs _ h; cases h
    | cons f files ih =>
      intro g fs hg
      simp only [mainLoop]
      cases he : (processFile P f g fs).err with
      | some er' =>
        simp only
        intro h
        cases h
        exact ⟨f, by simp, file_cause P f g fs hg er he⟩
      | none =>
        simp only
        intro h
        obtain ⟨f', hf, hc⟩ := ih _ _ (file_ginv P f g fs hg he) h
        exact ⟨f', by simp [hf], hc⟩
  exact key files _ fs (ginv_empty P) h

/-- C63: without these causes no exception ends the program. -/
theorem C63_no_abort (P : Prm) (files : List FileIn) (fs : FS) (h : ∀ f ∈ files, ∀ er, ¬ Cause P f er) : (mainLoop P files Glob.empty fs).2.2.2 = none := by
  cases hr : (mainLoop P files Glob.empty fs).2.2.2 with
  | none => rfl
  | some er =>
    obtain ⟨f, hf, hc⟩ := C63_causes P files fs er hr
    exact absurd hc (h f hf er)

end Verif.Props
