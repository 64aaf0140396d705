import Verif.Proofs.MainHeader
import Verif.Props.MainExamples
/-!
# C76: the comment at the beginning of an output file
-/
namespace Verif.Props
open Verif.Py Verif.Model Verif.Spec Verif.Proofs

theorem samplingText_shown (P : Prm) (o : ObsIn) : samplingText P.env P.cfg o.interval = samplingShown P o := by
  unfold samplingText samplingShown
  cases P.cfg.samplingInterval with
  | none => simp only [Option.getD_none, Int.cast_zero, zero_div]; split <;> simp
  | some us => simp only [Option.getD_some]; split <;> simp

theorem mainLoop_prefix (P : Prm) (A B : List FileIn) (f : FileIn) (fs : FS) (ops : List WOp)
    (hops : (mainLoop P (A ++ f :: B) Glob.empty fs).2.2.1[A.length]? = some ops) :
    ∃ g fs1, GInv P g ∧ ops = (processFile P f g fs1).ops := by
  obtain ⟨f', g, fs1, h1, h2, h3, -, -⟩ := mainLoop_at P (A ++ f :: B) _ _ (ginv_empty P) A.length ops hops
  simp only [List.getElem?_append_right (Nat.le_refl _), Nat.sub_self, List.getElem?_cons_zero, Option.some.injEq] at h1
  subst h1
  exact ⟨g, fs1, h2, h3⟩

/-- C76: after a run without exception the file of a satellite consists of a comment and the texts of the records of that satellite, in order.  The comment
names the observation file and the navigation file of the system on that day, describes the satellite (with the frequency number of the ephemeris used for
its first record, or the number of its ranging code), and gives the position of the site: geodetic and cartesian coordinates that belong together, and that
are those of the first record if the epochs of the file are in order.  (Provided that no later observation file writes the same output file, C56.) -/
theorem C76_files (P : Prm) (ho : P.cfg.outDir ≠ []) (ho2 : P.cfg.outDir.getLast? ≠ some '/') (A B : List FileIn) (f : FileIn) (fs : FS)
    (hl : ∀ f' ∈ A ++ f :: B, ∀ o t, f'.opened = .ok o → Accepted o t → LegalTimes o t ∧ ∃ name, LastComponent o.filename name ∧ name ≠ [])
    (hrun : (mainLoop P (A ++ f :: B) Glob.empty fs).2.2.2 = none) (o : ObsIn) (hop : f.opened = .ok o) (name : Str) (hname : LastComponent o.filename name)
    (ops : List WOp) (hops : (mainLoop P (A ++ f :: B) Glob.empty fs).2.2.1[A.length]? = some ops)
    (sat : Str) (e : DateTime) (v : List (Option FVal)) (more : List Rec) (hsat : (writesOf ops).filter (fun w => w.1 == sat) = (sat, e, v) :: more)
    (hlater : ∀ (i : Nat) f' ops', A.length < i → (A ++ f :: B)[i]? = some f' → (mainLoop P (A ++ f :: B) Glob.empty fs).2.2.1[i]? = some ops' →
      ¬ WritesAt P f' ops' (outputPath P.cfg.outDir (name.take 4) sat e)) :
    ∃ satDef nav xyz lbh texts, SatDefIs P sat e satDef ∧ NavSourceIs P sat e.date nav ∧ P.lbh xyz = .ok lbh ∧
      (∀ t, o.tofo = some (t, c% "GPS") → InOrder o t → Cols3 v (c% "site.x") (c% "site.y") (c% "site.z") xyz ∧ Cols3 v (c% "site.l") (c% "site.b") (c% "site.h") lbh) ∧
      List.Forall₂ (fun (w : Rec) t => recordText P.env P.cfg o.interval w.2.1 w.2.2 = .ok (some t)) ((sat, e, v) :: more) texts ∧
      (mainLoop P (A ++ f :: B) Glob.empty fs).2.1.get? (outputPath P.cfg.outDir (name.take 4) sat e) = some (
        headerText (P.env.now sat e) (o.filename ++ (c% ", ") ++ (if nav = none ∨ nav = some [] then c% "None" else nav.getD [])) satDef
          (P.env.repr o.interval) (samplingShown P o) (name.take 4) (posText P.env.repr lbh) (posText P.env.repr xyz) P.cfg.datetimeFormat
          (columnsText P.cfg.recFields) P.cfg.recFortranFormat ++ texts.flatten) := by
  have hmem : (sat, e, v) ∈ writesOf ops := (List.mem_filter.1 (by rw [hsat]; simp : (sat, e, v) ∈ (writesOf ops).filter (fun w => w.1 == sat))).1
  -- the epochs of all records are of the same day
  have hsame : ∀ e' v', (sat, e', v') ∈ writesOf ops → outputPath P.cfg.outDir (name.take 4) sat e' = outputPath P.cfg.outDir (name.take 4) sat e ∧ OpsOk (dayOf o) ops := by
    obtain ⟨g, fs1, hg, rfl⟩ := mainLoop_prefix P A B f fs ops hops
    rcases processFile_cases P f with ⟨o', t, l, xyzd, hst⟩ | ⟨err, hno⟩
    · have : o' = o := by have := hst.opened; rw [hop] at this; cases this; rfl
      subst this
      obtain ⟨hleg, -⟩ := hl f (by simp) o' t hst.opened ((accepted_iff ..).2 ⟨hst.system, hst.tofo⟩)
      have hok := file_opsOk P f o' t l xyzd hst g fs1 hleg
      intro e' v' hm
      have h1 := (hok _ ((mem_writesOf ..).2 hm)).2.2
      have h2 := (hok _ ((mem_writesOf ..).2 hmem)).2.2
      have h := h1.trans h2.symm
      simp only [Date.mk.injEq] at h
      refine ⟨?_, hok⟩
      unfold outputPath doy
      simp only [h.1, h.2.1, h.2.2]
    · rw [hno] at hmem; cases hmem
  obtain ⟨pre, e0, v0, post, satDef, nav, xyz, lbh, texts, c1, c2, c3, c4, c5, c6, c7⟩ :=
    C71_files P ho ho2 A B f fs hl hrun o hop name hname ops hops sat ⟨e, v, hmem⟩ (by
      intro i f' ops' e' v' hi hf hops' hm
      rw [(hsame e' v' hm).1]
      exact hlater i f' ops' hi hf hops')
  have hfirst : e0 = e ∧ v0 = v := by
    rw [c1, writesOf_append, List.filter_append] at hsat
    have hpre : (writesOf pre).filter (fun w => w.1 == sat) = [] := by
      rw [recordsOf_writes, List.map_eq_nil_iff] at c2; exact c2
    rw [hpre] at hsat
    simp only [writesOf, List.nil_append, List.filter_cons, beq_self_eq_true, if_true, List.cons.injEq, Prod.mk.injEq, true_and] at hsat
    exact hsat.1
  obtain ⟨rfl, rfl⟩ := hfirst
  have hok := (hsame e0 v0 hmem).2
  have hokp : OpsOk (dayOf o) pre := fun op hop => hok op (by rw [c1]; simp [hop])
  have hh : ∃ t, o.tofo = some (t, c% "GPS") ∧ HeaderIs P o t pre sat e0 v0 := by
    obtain ⟨g, fs1, hg, hops2⟩ := mainLoop_prefix P A B f fs ops hops
    rcases processFile_cases P f with ⟨o', t, l, xyzd, hst⟩ | ⟨err, hno⟩
    · have : o' = o := by have := hst.opened; rw [hop] at this; cases this; rfl
      subst this
      obtain ⟨done, d1, d2⟩ := file_calls P f g fs1 o' t l xyzd hst hg
      rw [← hops2] at d2
      exact ⟨t, hst.tofo, header_of_calls d2 d1 pre sat e0 v0 post c1 c2⟩
    · rw [hops2, hno] at hmem; cases hmem
  obtain ⟨t, ht, hh⟩ := hh
  obtain ⟨s1, s2⟩ := hh.source satDef nav c3
  have hlbh := paired_latest hokp hh.paired c4 c5
  refine ⟨satDef, nav, xyz, lbh, texts, s1, s2, hlbh, ?_, by rw [← hsat]; exact c6, by rw [← samplingText_shown]; exact c7⟩
  intro t' ht' hord
  rw [ht] at ht'
  cases ht'
  obtain ⟨l, q1, q2, q3⟩ := hh.position _ hokp hord xyz c4
  rw [hlbh] at q1
  cases q1
  exact ⟨q2, q3⟩

/-- the comment of the GLONASS satellite of the example: position of the coordinate file, frequency number 3 -/
theorem C76_example :
    (((mainLoop (MainEx.prm false none MainEx.loadBoth MainEx.posOk) [MainEx.file] Glob.empty []).2.1.get? (c% "out/2015/002/irkj/irkj_R05_002_15.dat")).map
      (fun t => ((splitOn '\n' t).drop 1).take 7)) =
      some [c% "# Sources: d/irkj0020.15o, irkj0020.15g", c% "# Satellite: R05 (k = 3)", c% "# Interval: 30", c% "# Sampling interval: 0 (not used).",
        c% "# Site: irkj", c% "# Position (L, B, H): 6, 5, 4", c% "# Position (X, Y, Z): 4, 5, 6"] := by
  decide +kernel

/-- its epochs are in order -/
theorem C76_hypotheses : InOrder MainEx.obs (MainEx.at_ 0 0) := by
  constructor
  · intro it hi e he
    simp only [MainEx.obs, List.mem_cons, List.not_mem_nil, or_false] at hi
    rcases hi with rfl | rfl | rfl | rfl <;> simp only [MainEx.item, Option.some.injEq] at he <;> subst he <;> decide +kernel
  · simp only [MainEx.obs, MainEx.item, List.pairwise_cons, List.mem_cons, List.not_mem_nil, or_false, forall_eq_or_imp, forall_eq, Option.some.injEq,
      List.Pairwise.nil, and_true, false_imp_iff, implies_true]
    refine ⟨⟨?_, ?_, ?_⟩, ⟨?_, ?_⟩, ?_⟩ <;> (rintro _ _ rfl rfl; decide +kernel)

end Verif.Props
