import Verif.Spec.Stops
import Verif.Props.Run
/-!
# What stops a run (C109)
-/
namespace Verif.Props
open Verif.Py Verif.Spec Verif.Model Verif.Proofs

theorem process_pos (P : Prm) (o : ObsIn) (xyz : Dict DateTime Pos) (it : ObsItem) (c : Char) (n : Int) (e : DateTime) (s : St) (h : SInv P e.date s)
    (he : (process P o xyz it c n e s).2 = none) (hn : navFlow P e.date c (s.navMsg.has c) = .next) : ∀ er, posFlow P c n e ≠ .stop er := by
  unfold process at he
  obtain ⟨nf, nm, n1, n2, n3⟩ := navStage_spec P e.date c s h
  rw [hn] at n2
  obtain ⟨i1, i2, -⟩ := n3 (by rw [n2]; simp)
  simp only [n2] at he
  obtain ⟨sx, gf, p1, p2, p3⟩ := posStage_spec P c n e _ i1 (by rw [n1]; exact i2)
  intro er her
  cases hb : (posStage P c n e (navStage P c e.date s).1).2 with
  | stop er' => rw [hb] at he; cases he
  | skip =>
    rw [hb] at p2
    split at p2
    · cases p2
    · rw [her] at p2; cases p2
  | next =>
    rw [hb] at p2
    by_cases hc : (navStage P c e.date s).1.g.satXyz.has (c, n, e) = true
    · unfold Dict.has at hc
      obtain ⟨v, hv⟩ := Option.isSome_iff_exists.1 hc
      exact (i1.g.pos c n e v hv).2 er her
    · rw [if_neg hc, her] at p2; cases p2

/-- what a loop without exception says about its items -/
theorem run_needs (P : Prm) (o : ObsIn) (xyz : Dict DateTime Pos) (items : List ObsItem) :
    ∀ last s, SInv P (dayOf o) s → (∀ c, s.navMsg.has c = true → ∀ er, navFlow P (dayOf o) c false ≠ .stop er) →
      (runItems P o none xyz items last s).2 = none → ∀ it ∈ items, (∃ r, decode it = .ok r) ∧ ∀ c n e, Considered o it c n e →
        (∀ er, navFlow P e.date c false ≠ .stop er) ∧
        ((∃ m, P.load e.date c = .ok m) → (∀ er, posFlow P c n e ≠ .stop er) ∧ (posFlow P c n e = .skip ∨ ∃ x, recOf P xyz it c n e = .ok x)) := by
  induction items with
  | nil => intro last s _ _ _ it hi; cases hi
  | cons it its ih =>
    intro last s h hseen
    simp only [runItems]
    cases ha : admit o none last it with
    | error er => simp
    | ok a =>
      cases a with
      | none =>
        simp only
        intro he it' hi
        rcases List.mem_cons.1 hi with rfl | hi
        · obtain ⟨a1, a2⟩ := (admit_none ..).1 ha
          refine ⟨a1, fun c n e hc => ?_⟩
          have := a2 c n e hc
          simp [decimate] at this
        · exact ih last s h hseen he it' hi
      | some q =>
        obtain ⟨c, n, e, last'⟩ := q
        simp only
        obtain ⟨hc, -⟩ := (admit_some ..).1 ha
        have hday := dayOf_considered hc
        have hs : SInv P e.date s := by rw [← hday]; exact h
        have hp := process_spec P o xyz it c n e s hs
        have hpos := process_pos P o xyz it c n e s hs
        generalize process P o xyz it c n e s = R at *
        obtain ⟨t, er⟩ := R
        cases er with
        | some er => simp
        | none =>
          simp only
          intro he
          have hinv := hp.inv rfl
          rw [← hday] at hinv
          have hne := hp.noerr rfl
          have hnav : ∀ er, navFlow P e.date c false ≠ .stop er := by
            intro er her
            cases hb : s.navMsg.has c with
            | true => exact hseen c hb er (by rw [hday]; exact her)
            | false =>
              rw [hb] at hne
              rcases hne with h1 | ⟨h1, -⟩ <;> rw [her] at h1 <;> cases h1
          intro it' hi
          rcases List.mem_cons.1 hi with rfl | hi
          · refine ⟨⟨_, ((considered_iff ..).1 hc).1⟩, ?_⟩
            intro c' n' e' hc'
            obtain ⟨rfl, rfl, rfl⟩ := considered_unique o it' c c' n n' e e' hc hc'
            refine ⟨hnav, ?_⟩
            rintro ⟨m, hm⟩
            have hnx : navFlow P e.date c (s.navMsg.has c) = .next := by
              unfold navFlow
              split
              · rfl
              · rw [hm]
            refine ⟨hpos rfl hnx, ?_⟩
            rcases hne with h1 | ⟨-, ⟨-, h2⟩ | h2⟩
            · rw [hnx] at h1; cases h1
            · exact .inl h2
            · exact .inr h2
          · refine ih last' t hinv ?_ he it' hi
            intro c' hc'
            rw [hp.seen rfl c'] at hc'
            simp only [Bool.or_eq_true, decide_eq_true_eq] at hc'
            rcases hc' with rfl | hc'
            · rw [hday]; exact hnav
            · exact hseen c' hc'

/-- the same with the sampling interval -/
theorem run_needs_kept (P : Prm) (o : ObsIn) (xyz : Dict DateTime Pos) (s : St) (hleg : ∀ it ∈ o.items, ∀ e, it.epoch = some e → Legal e)
    (h : SInv P (dayOf o) s) (hn : s.navMsg = []) (he : (runItems P o (samplingFor P.cfg o.interval) xyz o.items none s).2 = none) :
    (∀ it ∈ o.items, ∃ r, decode it = .ok r) ∧
    ∀ items, Kept P.cfg o items → ∀ it ∈ items, ∀ c n e, Considered o it c n e →
        (∀ er, navFlow P e.date c false ≠ .stop er) ∧
        ((∃ m, P.load e.date c = .ok m) → (∀ er, posFlow P c n e ≠ .stop er) ∧ (posFlow P c n e = .skip ∨ ∃ x, recOf P xyz it c n e = .ok x)) := by
  have hseen : ∀ c, s.navMsg.has c = true → ∀ er, navFlow P (dayOf o) c false ≠ .stop er := by
    intro c hc; rw [hn] at hc; simp [Dict.has, Dict.get?] at hc
  cases hsm : samplingFor P.cfg o.interval with
  | none =>
    rw [hsm] at he
    have key := run_needs P o xyz o.items none s h hseen he
    refine ⟨fun it hi => (key it hi).1, ?_⟩
    intro items hk it hi c n e hc
    have hall := (sampling_none ..).1 hsm
    cases hk with
    | all _ => exact (key it hi).2 c n e hc
    | some us flags h1 h2 h3 h4 =>
      exfalso
      rcases hall with h5 | ⟨us', h5, h6⟩
      · rw [h1] at h5; cases h5
      · rw [h1] at h5; cases h5
        rcases h6 with h6 | h6
        · exact h2 h6
        · exact absurd h3 (not_lt.2 h6)
  | some us =>
    rw [hsm] at he
    have hdec : ∀ it ∈ o.items, ∃ r, decode it = .ok r := by
      have : ∀ (items : List ObsItem) last s, (runItems P o (some us) xyz items last s).2 = none → ∀ it ∈ items, ∃ r, decode it = .ok r := by
        intro items
        induction items with
        | nil => intro _ _ _ it hi; cases hi
        | cons it its ih =>
          intro last s
          simp only [runItems]
          cases ha : admit o (some us) last it with
          | error er => simp
          | ok a =>
            have hd : ∃ r, decode it = .ok r := by
              cases hd : decode it with
              | ok r => exact ⟨r, rfl⟩
              | error er => rw [(admit_error ..).2 hd] at ha; cases ha
            cases a with
            | none =>
              simp only
              intro he it' hi
              rcases List.mem_cons.1 hi with rfl | hi
              · exact hd
              · exact ih _ _ he it' hi
            | some q =>
              obtain ⟨c, n, e, last'⟩ := q
              simp only
              cases hr : (process P o xyz it c n e s).2 with
              | some er => simp
              | none =>
                simp only
                intro he it' hi
                rcases List.mem_cons.1 hi with rfl | hi
                · exact hd
                · exact ih _ _ he it' hi
      exact this o.items none s he
    refine ⟨hdec, ?_⟩
    rw [run_thin P o us xyz o.items none none] at he
    have key := run_needs P o xyz _ none s h hseen he
    intro items hk it hi c n e hc
    have hsome : P.cfg.samplingInterval = some us ∧ us ≠ 0 ∧ o.interval < (us : Rat) / 1000000 := by
      unfold samplingFor at hsm
      split at hsm
      · cases hsm
      · rename_i us' h1
        split at hsm
        · cases hsm
        · rename_i h2
          split at hsm
          · rename_i h3
            cases hsm
            exact ⟨h1, h2, h3⟩
          · cases hsm
    cases hk with
    | all h5 =>
      exfalso
      rcases h5 with h5 | ⟨us', h5, h6⟩
      · rw [hsome.1] at h5; cases h5
      · rw [hsome.1] at h5; cases h5
        rcases h6 with h6 | h6
        · exact hsome.2.1 h6
        · exact absurd hsome.2.2 (not_lt.2 h6)
    | some us' flags h1 h2 h3 h4 =>
      rw [hsome.1] at h1; cases h1
      have := (C58_unique o us o.items flags _ h4 (decimated o us o.items hleg) it ⟨c, n, e, hc⟩).1 hi
      exact (key it this).2 c n e hc

theorem nav_stop {P : Prm} {d : Date} {c : Char} {er : PyErr} (h : P.load d c = .error er) (hh : ¬ Handled er) : navFlow P d c false = .stop er := by
  unfold navFlow
  rw [h]
  simp only [Bool.false_eq_true, if_false]
  rw [if_neg (show ¬ (er = .rinex ∨ er = .nm) from hh)]

theorem pos_stop {P : Prm} {c : Char} {n : Int} {e : DateTime} {dt : Rat} {eph : List PyFloat} {er : PyErr} (h : EphemerisIs P c n e dt eph)
    (hs : P.satPos c eph dt = .error er) (ha : ¬ Arithmetic er) : posFlow P c n e = .stop er := by
  unfold posFlow
  rw [(ephemeris_iff ..).1 h]
  simp only [hs]
  rw [if_neg ((not_arith er).2 ha)]

/-- a file with one of these ends the program, whatever the tables hold -/
theorem file_stops (P : Prm) (f : FileIn) (g : Glob) (fs : FS) (hg : GInv P g)
    (hleg : ∀ o, f.opened = .ok o → ∀ it ∈ o.items, ∀ e, it.epoch = some e → Legal e) (h : Stops P f) : (processFile P f g fs).err ≠ none := by
  intro he
  -- what a normal end says about the observations
  have items : ∀ o t, f.opened = .ok o → Accepted o t → ∀ xyz, f.xyzData = .ok xyz → ∃ s, SInv P (dayOf o) s ∧ s.navMsg = [] ∧
      (runItems P o (samplingFor P.cfg o.interval) xyz o.items none s).2 = none := by
    intro o t ho ha xyz hx
    obtain ⟨l, hst⟩ := started_of P f o t xyz ho hx ha g fs he
    exact ⟨_, start_inv P o t l g fs hg hst.lbh (dayOf o), start_nav .., (run_of_file P f o t l xyz hst g fs he).1⟩
  have reached : ∀ o xyz it c n e, Reached P f o xyz it c n e →
      (∀ er, navFlow P e.date c false ≠ .stop er) ∧
      ((∃ m, P.load e.date c = .ok m) → (∀ er, posFlow P c n e ≠ .stop er) ∧ (posFlow P c n e = .skip ∨ ∃ x, recOf P xyz it c n e = .ok x)) := by
    intro o xyz it c n e hr
    obtain ⟨t, ha⟩ := hr.accepted
    obtain ⟨s, h1, h2, h3⟩ := items o t hr.opened ha xyz hr.data
    obtain ⟨its, hk, hi⟩ := hr.kept
    exact (run_needs_kept P o xyz s (hleg o hr.opened) h1 h2 h3).2 its hk it hi c n e hr.considered
  have opened_xyz : ∀ o t, f.opened = .ok o → Accepted o t → ∃ xyz, f.xyzData = .ok xyz := by
    intro o t ho ha
    cases hx : f.xyzData with
    | ok xyz => exact ⟨xyz, rfl⟩
    | error er =>
      exfalso
      obtain ⟨h4, h5⟩ := (accepted_iff o t).1 ha
      unfold processFile at he
      rw [ho] at he
      simp only at he
      rw [if_neg (not_not.2 h4), h5] at he
      simp only [ne_eq, not_true_eq_false, if_false] at he
      cases hl : P.lbh o.xyz with
      | error er' => rw [hl] at he; cases he
      | ok l => rw [hl, hx] at he; cases he
  have loaded : ∀ c n e p, SatAt P c n e p → (∃ m, P.load e.date c = .ok m) ∧ posFlow P c n e ≠ .skip := by
    rintro c n e p ⟨dt, eph, h1, h2⟩
    refine ⟨by obtain ⟨a, b, h3, -⟩ := h1; exact ⟨_, h3⟩, ?_⟩
    unfold posFlow
    rw [(ephemeris_iff ..).1 h1]
    simp only [h2]
    split
    · split <;> simp
    · simp
  cases h with
  | opening er h1 h2 h3 =>
    unfold processFile at he
    rw [h1] at he
    simp only at he
    rw [if_neg (by simp [h2, h3])] at he
    cases he
  | start o h1 h2 h3 =>
    unfold processFile at he
    rw [h1] at he
    simp only at he
    have : ¬ o.system ∉ supported ++ ['M'] := by
      rw [not_not]
      rcases h2 with h2 | h2
      · rcases h2 with h2 | h2 | h2 | h2 | h2 <;> rw [h2] <;> decide
      · rw [h2]; decide
    rw [if_neg this, h3] at he
    cases he
  | geodetic o t er h1 h2 h3 =>
    obtain ⟨xyz, hx⟩ := opened_xyz o t h1 h2
    obtain ⟨l, hst⟩ := started_of P f o t xyz h1 hx h2 g fs he
    rw [hst.lbh] at h3; cases h3
  | xyzFile o t er h1 h2 h3 =>
    obtain ⟨xyz, hx⟩ := opened_xyz o t h1 h2
    rw [h3] at hx; cases hx
  | reading o t er h1 h2 h3 h4 =>
    obtain ⟨xyz, hx⟩ := opened_xyz o t h1 h2
    obtain ⟨l, hst⟩ := started_of P f o t xyz h1 hx h2 g fs he
    have hr := (run_of_file P f o t l xyz hst g fs he).1
    rw [processFile_started P f g fs o t l xyz hst _ rfl] at he
    simp only [hr, h3] at he
    rw [if_neg h4] at he
    cases he
  | item o t it h1 h2 h3 h4 =>
    obtain ⟨xyz, hx⟩ := opened_xyz o t h1 h2
    obtain ⟨s, a1, a2, a3⟩ := items o t h1 h2 xyz hx
    obtain ⟨⟨c, n, e⟩, hr⟩ := (run_needs_kept P o xyz s (hleg o h1) a1 a2 a3).1 it h3
    obtain ⟨⟨r, b1, b2⟩, b3⟩ := (decode_ok ..).1 hr
    rcases h4 with h4 | ⟨a, r', er, h4, h5⟩ | h4
    · rw [h4] at b1; cases b1
    · rw [h4] at b1; cases b1; rw [h5] at b2; cases b2
    · rw [h4] at b3; cases b3
  | load o xyz it c n e er h1 h2 h3 => exact (reached _ _ _ _ _ _ h1).1 er (nav_stop h2 h3)
  | satellite o xyz it c n e dt eph er h1 h2 h3 h4 =>
    have h2' := h2
    obtain ⟨a, b, h5, -⟩ := h2'
    exact ((reached _ _ _ _ _ _ h1).2 ⟨_, h5⟩).1 er (pos_stop h2 h3 h4)
  | frequency o xyz it n e dt eph h1 h2 h3 h4 =>
    have h2' := h2
    obtain ⟨a, b, h5, -⟩ := h2'
    refine ((reached _ _ _ _ _ _ h1).2 ⟨_, h5⟩).1 .index ?_
    unfold posFlow
    rw [(ephemeris_iff ..).1 h2]
    simp only
    cases hs : P.satPos 'R' eph dt with
    | error er => exact absurd hs (h3 er)
    | ok p => simp only [if_true, h4]
  | site o xyz it c n e x p er h1 h2 h3 h4 =>
    obtain ⟨hl, hns⟩ := loaded c n e p h2
    rcases ((reached _ _ _ _ _ _ h1).2 hl).2 with h5 | ⟨y, h5⟩
    · exact hns h5
    · rw [siteAt_iff] at h3
      unfold recOf at h5
      rw [← h3, h4] at h5
      cases h5
  | direction o xyz it c n e x p er h1 h2 h3 h4 h6 =>
    obtain ⟨hl, hns⟩ := loaded c n e p h2
    rcases ((reached _ _ _ _ _ _ h1).2 hl).2 with h5 | ⟨y, h5⟩
    · exact hns h5
    · rw [siteAt_iff] at h3
      unfold recOf at h5
      rw [← h3, (satAt_iff ..).1 h2] at h5
      cases hlb : P.lbh x with
      | error er' => rw [hlb] at h5; cases h5
      | ok l =>
        rw [hlb] at h5
        simp only [angles, h4] at h5
        rw [if_neg ((not_arith er).2 h6)] at h5
        cases h5
  | types o xyz it c n e x p el az h1 h2 h3 h4 h6 h7 =>
    obtain ⟨hl, hns⟩ := loaded c n e p h2
    rcases ((reached _ _ _ _ _ _ h1).2 hl).2 with h5 | ⟨y, h5⟩
    · exact hns h5
    · rw [siteAt_iff] at h3
      unfold recOf at h5
      rw [← h3, (satAt_iff ..).1 h2] at h5
      cases hlb : P.lbh x with
      | error er' => rw [hlb] at h5; cases h5
      | ok l =>
        rw [hlb] at h5
        simp only [angles, h4] at h5
        rw [if_neg (not_lt.2 h6)] at h5
        simp only at h5
        cases hq : (if c = 'R' then freqOf P n e else some (0, 0, 0)) with
        | none => rw [hq] at h5; cases h5
        | some q =>
          obtain ⟨f1, f2, k⟩ := q
          rw [hq] at h5
          simp only at h5
          obtain ⟨-, hval⟩ := frequency_of P c n e f1 f2 k hq
          obtain ⟨d, -, hv⟩ := values_spec P it c h1.considered.2.2.1 k el az p x l
          rw [hval, hv, h7] at h5
          cases h5

/-- C109: a run over files one of which has such a fault does not end normally. -/
theorem C109_stops (P : Prm) (files : List FileIn) (fs : FS)
    (hleg : ∀ f ∈ files, ∀ o, f.opened = .ok o → ∀ it ∈ o.items, ∀ e, it.epoch = some e → Legal e) (h : ∃ f ∈ files, Stops P f) :
    ∃ er, (mainLoop P files Glob.empty fs).2.2.2 = some er := by
  have key : ∀ (files : List FileIn) (g : Glob) (fs : FS), GInv P g →
      (∀ f ∈ files, ∀ o, f.opened = .ok o → ∀ it ∈ o.items, ∀ e, it.epoch = some e → Legal e) → (∃ f ∈ files, Stops P f) →
      ∃ er, (mainLoop P files g fs).2.2.2 = some er := by
    intro files
    induction files with
    | nil => rintro g fs _ _ ⟨f, hf, _⟩; cases hf
    | cons f files ih =>
      intro g fs hg hleg hst
      simp only [mainLoop]
      cases he : (processFile P f g fs).err with
      | some er => exact ⟨er, rfl⟩
      | none =>
        simp only
        obtain ⟨f', hf, hs⟩ := hst
        rcases List.mem_cons.1 hf with rfl | hf
        · exact absurd he (file_stops P f' g fs hg (hleg f' (by simp)) hs)
        · exact ih _ _ (file_ginv P f g fs hg he) (fun f'' h => hleg f'' (by simp [h])) ⟨f', hf, hs⟩
  exact key files _ fs (ginv_empty P) hleg h

/-- C109: a run of the program that ends normally has met none of these faults in any observation file of the directories. -/
theorem C109_program (X : Ext) (D : Disk) (cfg : Cfg) (fuel : Nat) (fs : FS) (r : Outcome) (hrun : program X D cfg fuel fs = some r) (hend : r.err = none) :
    ∃ paths ins, obsFiles D cfg = .ok paths ∧ List.Forall₂ (fun p f => fileIn D fuel (someXyz D cfg) p = some f) paths ins ∧
      ∀ f ∈ ins, ¬ Stops (prmOf X D cfg) f := by
  unfold program at hrun
  cases hf : obsFiles D cfg with
  | error e => rw [hf] at hrun; cases hrun; cases hend
  | ok paths =>
    rw [hf] at hrun
    cases paths with
    | nil => cases hrun; cases hend
    | cons p ps =>
      simp only [Option.map_eq_some_iff] at hrun
      obtain ⟨ins, h1, rfl⟩ := hrun
      have hall : ∀ (l : List Str) (r : List FileIn), allOf (fileIn D fuel (someXyz D cfg)) l = some r →
          List.Forall₂ (fun p f => fileIn D fuel (someXyz D cfg) p = some f) l r := by
        intro l
        induction l with
        | nil => intro r h; cases h; exact .nil
        | cons a l ih =>
          intro r h
          simp only [allOf, Option.bind_eq_some_iff, Option.map_eq_some_iff] at h
          obtain ⟨b, hb, r', hr', rfl⟩ := h
          exact .cons hb (ih r' hr')
      have hfa := hall _ _ h1
      refine ⟨_, ins, rfl, hfa, ?_⟩
      simp only at hend
      have hleg' : ∀ f ∈ ins, ∀ o, f.opened = .ok o → ∀ it ∈ o.items, ∀ e, it.epoch = some e → Legal e := by
        intro f hf o ho
        obtain ⟨i, hi, rfl⟩ := List.getElem_of_mem hf
        have hlen := hfa.length_eq
        have := (List.forall₂_iff_get.1 hfa).2 i (by omega) hi
        simp only [List.get_eq_getElem, fileIn, Option.bind_eq_some_iff, Option.map_eq_some_iff] at this
        obtain ⟨o', h1, x, -, h3⟩ := this
        rw [← h3] at ho
        simp only at ho
        subst ho
        exact (obsFile_legal h1).2.2.2
      intro f hf hs
      obtain ⟨er, her⟩ := C109_stops (prmOf X D cfg) ins fs hleg' ⟨f, hf, hs⟩
      rw [hend] at her
      cases her

end Verif.Props
