import Verif.Spec.SatOrder
import Verif.Props.ObsSame
import Verif.Props.Apart
import Verif.Props.Output
/-!
# The order of the satellites in an epoch (C116)
-/
namespace Verif.Props
open Verif.Py Verif.Model Verif.Spec Verif.Proofs

/-! ## The items -/

/-- in a list without repetition of the key, the elements of one key are at most one: the order does not matter -/
theorem filter_perm {α : Type} {β : Type} [BEq β] [LawfulBEq β] (key : α → β) {l l' : List α} (hp : l'.Perm l) (hn : (l.map key).Nodup) (b : β) :
    l'.filter (fun a => key a == b) = l.filter fun a => key a == b := by
  have h1 : (l'.filter fun a => key a == b).Perm (l.filter fun a => key a == b) := hp.filter _
  have h2 : (l.filter fun a => key a == b).length ≤ 1 := by
    clear h1 hp
    induction l with
    | nil => simp
    | cons a l ih =>
      simp only [List.map_cons, List.nodup_cons] at hn
      rw [List.filter_cons]
      split
      · rename_i h
        have : l.filter (fun a => key a == b) = [] := by
          rw [List.filter_eq_nil_iff]
          intro x hx hk
          have e1 := eq_of_beq h
          have e2 := eq_of_beq hk
          exact hn.1 (List.mem_map.2 ⟨x, hx, by rw [e2, e1]⟩)
        simp [this]
      · exact ih hn.2
  match h : l.filter (fun a => key a == b), h2 with
  | [], _ => rw [h] at h1; exact h1.eq_nil
  | [x], _ => rw [h] at h1; exact List.perm_singleton.1 h1
  | _ :: _ :: _, h3 => simp at h3

/-- the items of a list of epochs, each a list of satellites -/
theorem items_reordered {S : Type} (name : S → Str) (item : DateTime → S → ObsItem) (hsat : ∀ t s, (item t s).sat = name s) (hep : ∀ t s, (item t s).epoch = some t)
    {l l' : List (DateTime × List S)} (h : List.Forall₂ (fun q q' => q'.1 = q.1 ∧ q'.2.Perm q.2 ∧ (q.2.map name).Nodup) l l') :
    List.Forall₂ OneEpoch (l.map fun q => q.2.map (item q.1)) (l'.map fun q => q.2.map (item q.1)) := by
  rw [List.forall₂_map_left_iff, List.forall₂_map_right_iff]
  refine h.imp fun q q' h => ?_
  obtain ⟨t, s⟩ := q
  obtain ⟨t', s'⟩ := q'
  obtain ⟨rfl, hp, hn⟩ := h
  refine ⟨⟨some t', fun it hit => ?_⟩, hp.map _, ?_⟩
  · obtain ⟨x, -, rfl⟩ := List.mem_map.1 hit
    exact hep _ _
  · rw [List.map_map]
    simpa only [Function.comp_def, hsat] using hn

theorem same_members {o o' : ObsIn} (h : SameButOrder o o') (it : ObsItem) : it ∈ o'.items ↔ it ∈ o.items := by
  obtain ⟨gs, gs', hg, h1, h2⟩ := h.items
  rw [h1, h2]
  clear h1 h2
  induction hg with
  | nil => rfl
  | cons a _ ih => simp only [List.flatten_cons, List.mem_append, ih, a.perm.mem_iff]

theorem same_times {o o' : ObsIn} (h : SameButOrder o o') : o'.items.map (·.epoch) = o.items.map (·.epoch) := by
  obtain ⟨gs, gs', hg, h1, h2⟩ := h.items
  rw [h1, h2]
  clear h1 h2
  induction hg with
  | nil => rfl
  | cons a _ ih =>
    simp only [List.flatten_cons, List.map_append, ih]
    congr 1
    obtain ⟨e, he⟩ := a.epoch
    rw [List.map_congr_left he, List.map_congr_left fun it hit => he it (a.perm.mem_iff.1 hit), List.map_const', List.map_const', a.perm.length_eq]

/-- C116: how a RINEX 2 file with the satellites in another order is opened -/
theorem C116_open2 (D D' : Disk) (fuel : Nat) (path : Str) (file file' : List Str) (hr : ReadAs D path file) (hr' : ReadAs D' path file') (h : SameSats2 file file') :
    ∃ o o', obsFile D fuel path = some (.ok o) ∧ obsFile D' fuel path = some (.ok o') ∧ SameButOrder o o' := by
  obtain ⟨v, v', sys, hs, hs', ts, es, es', h1, h2, hv, hms, hpos, hto, hobs⟩ := h
  obtain ⟨o, e1, p1⟩ := C73_open2 D fuel path file v sys hs ts es hr h1
  obtain ⟨o', e2, p2⟩ := C73_open2 D' fuel path file' v' sys hs' ts es' hr' h2
  refine ⟨o, o', e1, e2, ?_⟩
  have htimes : es.map (·.time) = es'.map (·.time) := by
    clear h1 h2 p1 p2 hms
    induction hobs with
    | nil => rfl
    | cons a _ ih => simp only [List.map_cons, ih, a.time]
  have hf : List.Forall₂ (fun (q q' : DateTime × List (SatId × List Field)) => q'.1 = q.1 ∧ q'.2.Perm q.2 ∧ (q.2.map fun s => s.1.name).Nodup)
      (es.map fun e => (e.time, e.sats)) (es'.map fun e => (e.time, e.sats)) := by
    rw [List.forall₂_map_left_iff, List.forall₂_map_right_iff]
    exact hobs.imp fun a b h => ⟨h.time, h.sats, h.once⟩
  have hg := items_reordered (S := SatId × List Field) (fun s => s.1.name) (fun t s => ⟨some t, s.1.name, ts.zip (s.2.map Field.obs2), sitePos hs, fun _ => some ts⟩)
    (fun _ _ => rfl) (fun _ _ => rfl) hf
  simp only [List.map_map] at hg
  refine ⟨by rw [p2.filename, p1.filename], fileDate_same p2.date p1.date, by rw [p2.system, p1.system], by rw [p2.tofo, p1.tofo, hto], by rw [p2.xyz, p1.xyz, hpos], ?_,
    by rw [p2.stop, p1.stop], ⟨_, _, hg, by rw [p1.items]; rfl, by rw [p2.items, hpos]; rfl⟩⟩
  obtain ⟨i, k1, k2⟩ := p1.interval
  obtain ⟨j, j1, j2⟩ := p2.interval
  rw [← htimes] at j1
  have := mostFrequent_unique k1 j1
  subst this
  refine stored_ms hv.symm (spacing_ms ?_ i (List.mem_of_mem_take k1.1)) j2 k2
  intro t ht
  obtain ⟨e, he, rfl⟩ := List.mem_map.1 ht
  exact hms e he

/-- C116: the same for RINEX 3 -/
theorem C116_open3 (D D' : Disk) (path : Str) (file file' : List Str) (hr : ReadAs D path file) (hr' : ReadAs D' path file') (h : SameSats3 file file') :
    ∃ n o o', (∀ fuel, n ≤ fuel → obsFile D fuel path = some (.ok o) ∧ obsFile D' fuel path = some (.ok o')) ∧ SameButOrder o o' := by
  obtain ⟨v, sys, hs, hs', items, items', a, b, h1, h2, ha, hb, htm, hpos, hto, hobs⟩ := h
  obtain ⟨n, o, e1, p1⟩ := C73_open3 D path file v sys hs items a b hr h1
  obtain ⟨n', o', e2, p2⟩ := C73_open3 D' path file' v sys hs' items' a b hr' h2
  refine ⟨max n n', o, o', fun fuel hf => ⟨e1 fuel (le_trans (le_max_left ..) hf), e2 fuel (le_trans (le_max_right ..) hf)⟩, ?_⟩
  have hg := items_reordered (S := SatId × List Field) (fun s => s.1.name3)
    (fun t s => ⟨some t, s.1.name3, (((typeMapOf v hs).of s.1.sys).getD []).zip (s.2.map Field.obs3), sitePos (linesOf hs), (typeMapOf v hs).of⟩)
    (fun _ _ => rfl) (fun _ _ => rfl) (hobs.imp fun a b h => ⟨h.time, h.sats, h.once⟩)
  exact ⟨by rw [p2.filename, p1.filename], fileDate_same p2.date p1.date, by rw [p2.system, p1.system], by rw [p2.tofo, p1.tofo, hto], by rw [p2.xyz, p1.xyz, hpos],
    stored_ms Iff.rfl (instant_ms ha hb) p2.interval p1.interval, by rw [p2.stop, p1.stop],
    ⟨_, _, hg, by rw [p1.items, items3_obs]; rfl, by rw [p2.items, items3_obs, ← hpos, ← htm]; rfl⟩⟩

/-! ## The records of one satellite -/

/-- the records of one satellite, without the question whether its system occurred before -/
def refSat (P : Prm) (o : ObsIn) (sampling : Option Int) (xyz : Dict DateTime Pos) (sat : Str) : List ObsItem → Option DateTime → List Rec
  | [], _ => []
  | it :: its, last =>
    match admit o sampling last it with
    | .error _ => refSat P o sampling xyz sat its last
    | .ok none => refSat P o sampling xyz sat its last
    | .ok (some (c, n, e, last)) => (if it.sat == sat then writesFor P xyz it c n e else []) ++ refSat P o sampling xyz sat its last

/-- `last` after the items -/
def lastAfter (o : ObsIn) (sampling : Option Int) : List ObsItem → Option DateTime → Option DateTime
  | [], last => last
  | it :: its, last =>
    match admit o sampling last it with
    | .error _ => lastAfter o sampling its last
    | .ok none => lastAfter o sampling its last
    | .ok (some (_, _, _, last)) => lastAfter o sampling its last

theorem refSat_append (P : Prm) (o : ObsIn) (sampling : Option Int) (xyz : Dict DateTime Pos) (sat : Str) (a b : List ObsItem) :
    ∀ last, refSat P o sampling xyz sat (a ++ b) last = refSat P o sampling xyz sat a last ++ refSat P o sampling xyz sat b (lastAfter o sampling a last) := by
  induction a with
  | nil => intro last; rfl
  | cons it a ih =>
    intro last
    simp only [List.cons_append, refSat, lastAfter]
    split
    · exact ih _
    · exact ih _
    · rw [ih, List.append_assoc]

theorem adds_seen (P : Prm) (o : ObsIn) (xyz : Dict DateTime Pos) (sat : Str)
    (hnav : P.cfg.navIgnoreAbsence = false ∨ ∀ c d, sat.head? = some c → o.fileDate = some d → ∃ m, P.load d c = .ok m)
    (it : ObsItem) (c : Char) (n : Int) (e : DateTime) (hc : Considered o it c n e) (hsat : it.sat = sat) (b : Bool) : adds P xyz it c n e b = writesFor P xyz it c n e := by
  have htrue : navFlow P e.date c true = .next := by unfold navFlow; rw [if_pos rfl]
  unfold adds
  cases b with
  | true => rw [if_neg (by rw [htrue]; exact fun h => by cases h)]
  | false =>
    split
    · next hskip =>
      rcases hnav with hn | hn
      · have hpo : posOf P c n e = none := by
          cases hpp : posOf P c n e with
          | none => rfl
          | some p =>
            obtain ⟨dt, eph, ⟨fl, m, q1, -⟩, -⟩ := (satAt_iff ..).2 hpp
            unfold navFlow at hskip
            rw [if_neg (by simp), q1] at hskip
            cases hskip
        unfold writesFor recOf angles
        simp only [hpo, hn, if_true]
        cases P.lbh (siteOf xyz it e) <;> simp
      · obtain ⟨m, hm⟩ := hn c e.date (by rw [← hsat]; exact considered_head hc) hc.2.2.2
        unfold navFlow at hskip
        rw [if_neg (by simp), hm] at hskip
        cases hskip
    · rfl

theorem refWrites_sat (P : Prm) (o : ObsIn) (sampling : Option Int) (xyz : Dict DateTime Pos) (sat : Str)
    (hnav : P.cfg.navIgnoreAbsence = false ∨ ∀ c d, sat.head? = some c → o.fileDate = some d → ∃ m, P.load d c = .ok m) (items : List ObsItem)
    (hdec : ∀ it ∈ items, ∃ r, decode it = .ok r) :
    ∀ last seen, (refWrites P o sampling xyz items last seen).filter (fun w => w.1 == sat) = refSat P o sampling xyz sat items last := by
  induction items with
  | nil => intro _ _; rfl
  | cons it its ih =>
    intro last seen
    have ih := ih fun i h => hdec i (by simp [h])
    simp only [refWrites, refSat]
    cases ha : admit o sampling last it with
    | error er =>
      obtain ⟨r, hr⟩ := hdec it (by simp)
      rw [(admit_error ..).1 ha] at hr; cases hr
    | ok a =>
      cases a with
      | none => exact ih _ _
      | some q =>
        obtain ⟨c, n, e, l1⟩ := q
        obtain ⟨hc, -⟩ := (admit_some ..).1 ha
        simp only
        rw [List.filter_append, ih]
        congr 1
        have hall := adds_sat P xyz it c n e (seen c)
        have hadd : adds P xyz it c n e (seen c) = (if navFlow P e.date c (seen c) = .skip then [] else writesFor P xyz it c n e) := rfl
        rw [← hadd]
        by_cases hk : it.sat = sat
        · rw [if_pos (by simpa using hk), ← adds_seen P o xyz sat hnav it c n e hc hk (seen c)]
          exact List.filter_eq_self.2 fun w hw => by rw [hall w hw]; simpa using hk
        · rw [if_neg (by simpa using hk)]
          exact List.filter_eq_nil_iff.2 fun w hw => by rw [hall w hw]; simpa using hk

theorem decimate_again {sampling : Option Int} {last l : Option DateTime} {e : DateTime} (h : decimate sampling last e = some l) : decimate sampling l e = some l := by
  unfold decimate at h ⊢
  cases sampling with
  | none => simp
  | some dt =>
    simp only at h ⊢
    cases last with
    | none => cases h; simp
    | some t =>
      simp only at h
      split at h
      · next ht => cases h; simp [ht]
      · split at h
        · cases h
        · cases h; simp

open Classical in
/-- the items of one epoch: what they give is decided for all of them together -/
theorem refSat_epoch (P : Prm) (o : ObsIn) (sampling : Option Int) (xyz : Dict DateTime Pos) (sat : Str) (e : Option DateTime) (g : List ObsItem)
    (he : ∀ it ∈ g, it.epoch = e) (hdec : ∀ it ∈ g, ∃ r, decode it = .ok r) : ∀ last,
    refSat P o sampling xyz sat g last = (match (generalizing := false) e with
      | none => []
      | some e => if decimate sampling last e = none then [] else
          (g.filter fun it => it.sat == sat).flatMap fun it => match admit o none none it with
            | .ok (some (c, n, e, _)) => writesFor P xyz it c n e
            | _ => []) ∧
    lastAfter o sampling g last = (match (generalizing := false) e with
      | none => last
      | some e => match decimate sampling last e with
        | none => last
        | some l => if ∃ it ∈ g, ∃ c n, Considered o it c n e then l else last) := by
  induction g with
  | nil =>
    intro last
    constructor
    · cases e with
      | none => rfl
      | some e => simp [refSat]
    · cases e with
      | none => rfl
      | some e => simp only [lastAfter]; cases decimate sampling last e <;> simp
  | cons it g ih =>
    intro last
    have ih := ih (fun i h => he i (by simp [h])) (fun i h => hdec i (by simp [h]))
    have hit := he it (by simp)
    simp only [refSat, lastAfter]
    cases ha : admit o sampling last it with
    | error er =>
      obtain ⟨r, hr⟩ := hdec it (by simp)
      rw [(admit_error ..).1 ha] at hr; cases hr
    | ok a =>
      cases a with
      | none =>
        obtain ⟨a1, a2⟩ := (admit_none ..).1 ha
        obtain ⟨i1, i2⟩ := ih last
        simp only
        rw [i1, i2]
        cases e with
        | none => exact ⟨rfl, rfl⟩
        | some e =>
          simp only
          cases hd : decimate sampling last e with
          | none => simp
          | some l =>
            have hnc : ∀ c n e', ¬ Considered o it c n e' := by
              intro c n e' hc
              have h1 := hc.2.1
              rw [hit] at h1
              cases h1
              rw [a2 c n e hc] at hd
              cases hd
            have hadm : admit o none none it = .ok none := (admit_none ..).2 ⟨a1, fun c n e' hc => absurd hc (hnc c n e')⟩
            constructor
            · simp only [reduceCtorEq, if_false]
              rw [List.filter_cons]
              split
              · rw [List.flatMap_cons, hadm]; rfl
              · rfl
            · simp only [List.mem_cons, exists_eq_or_imp]
              have : ¬ ∃ c n, Considered o it c n e := by rintro ⟨c, n, h⟩; exact hnc _ _ _ h
              simp only [this, false_or]
      | some q =>
        obtain ⟨c, n, e1, l1⟩ := q
        obtain ⟨hc, hd⟩ := (admit_some ..).1 ha
        have h1 := hc.2.1
        rw [hit] at h1
        subst h1
        obtain ⟨i1, i2⟩ := ih l1
        simp only at i1 i2 ⊢
        rw [i1, i2, decimate_again hd, hd]
        have hadm : admit o none none it = .ok (some (c, n, e1, none)) := (admit_some ..).2 ⟨hc, rfl⟩
        constructor
        · simp only [reduceCtorEq, if_false]
          rw [List.filter_cons]
          split
          · rw [List.flatMap_cons, hadm]
          · rfl
        · simp only [ite_self]
          rw [if_pos ⟨it, by simp, c, n, hc⟩]

theorem admit_same {o o' : ObsIn} (h : o'.fileDate = o.fileDate) (s : Option Int) (l : Option DateTime) (it : ObsItem) : admit o' s l it = admit o s l it := by
  unfold admit; rw [h]

theorem refSat_same (P : Prm) (o o' : ObsIn) (h : o'.fileDate = o.fileDate) (s : Option Int) (xyz : Dict DateTime Pos) (sat : Str) (items : List ObsItem) :
    ∀ last, refSat P o' s xyz sat items last = refSat P o s xyz sat items last := by
  induction items with
  | nil => intro _; rfl
  | cons it its ih => intro last; simp only [refSat, admit_same h, ih]

/-- the records of a satellite do not depend on the order of the satellites in the epochs -/
theorem refSat_reordered (P : Prm) (o : ObsIn) (sampling : Option Int) (xyz : Dict DateTime Pos) (sat : Str) {gs gs' : List (List ObsItem)} (h : List.Forall₂ OneEpoch gs gs')
    (hdec : ∀ g ∈ gs, ∀ it ∈ g, ∃ r, decode it = .ok r) : ∀ last, refSat P o sampling xyz sat gs'.flatten last = refSat P o sampling xyz sat gs.flatten last := by
  induction h with
  | nil => intro _; rfl
  | @cons g g' gs gs' hg _ ih =>
    intro last
    obtain ⟨e, he⟩ := hg.epoch
    have hd := hdec g (by simp)
    obtain ⟨a1, a2⟩ := refSat_epoch P o sampling xyz sat e g he hd last
    obtain ⟨b1, b2⟩ := refSat_epoch P o sampling xyz sat e g' (fun it hi => he it (hg.perm.mem_iff.1 hi)) (fun it hi => hd it (hg.perm.mem_iff.1 hi)) last
    have hex : ∀ e, (∃ it ∈ g', ∃ c n, Considered o it c n e) ↔ ∃ it ∈ g, ∃ c n, Considered o it c n e := fun e => by
      simp only [hg.perm.mem_iff]
    have hlast : lastAfter o sampling g' last = lastAfter o sampling g last := by
      rw [a2, b2]
      cases e with
      | none => rfl
      | some e =>
        simp only
        cases decimate sampling last e with
        | none => rfl
        | some l =>
          simp only
          by_cases hx : ∃ it ∈ g, ∃ c n, Considered o it c n e
          · rw [if_pos hx]; exact if_pos ((hex e).2 hx)
          · rw [if_neg hx]; exact if_neg fun h => hx ((hex e).1 h)
    rw [filter_perm (fun it : ObsItem => it.sat) hg.perm hg.once sat] at b1
    rw [List.flatten_cons, List.flatten_cons, refSat_append, refSat_append, a1, b1, hlast, ih fun g h => hdec g (by simp [h])]

/-- the calls of a file are those of the reference, with any sampling interval -/
theorem writes_ref_kept (P : Prm) (files : List FileIn) (fs : FS) (i : Nat) (f : FileIn) (o : ObsIn) (t : DateTime) (xyz : Dict DateTime Pos) (ops : List WOp)
    (hrun : (mainLoop P files Glob.empty fs).2.2.2 = none) (hops : (mainLoop P files Glob.empty fs).2.2.1[i]? = some ops)
    (hf : files[i]? = some f) (ho : f.opened = .ok o) (hx : f.xyzData = .ok xyz) (ha : Accepted o t) (hleg : ∀ it ∈ o.items, ∀ e, it.epoch = some e → Legal e)
    (good : P.cfg.navIgnoreAbsence = false ∨ ∀ it ∈ o.items, ∀ c n e, Considered o it c n e → ¬ ArithError P c n e) :
    writesOf ops = refWrites P o (samplingFor P.cfg o.interval) xyz o.items none (fun _ => false) ∧ ∀ it ∈ o.items, ∃ r, decode it = .ok r := by
  obtain ⟨f', g, fs', h1, hg, rfl, -, he⟩ := mainLoop_at P files _ fs (ginv_empty P) i ops hops
  rw [hf] at h1
  cases h1
  obtain ⟨l, hst⟩ := started_of P f o t xyz ho hx ha g fs' (he hrun)
  obtain ⟨hr, hro⟩ := run_of_file P f o t l xyz hst g fs' (he hrun)
  have hinv := start_inv P o t l g fs' hg hst.lbh (dayOf o)
  obtain ⟨new, n1, n2⟩ := ref_spec P o (samplingFor P.cfg o.interval) xyz o.items good none _ hinv hr
  have hneed := (run_needs_kept P o xyz _ hleg hinv (start_nav ..) hr).1
  refine ⟨?_, hneed⟩
  rw [hro, n1, start_ops, writesOf_append, n2, start_nav]
  rfl

/-! ## The run -/

theorem run_split {X : Ext} {D : Disk} {cfg : Cfg} {fuel : Nat} {fs : FS} {r : Outcome} {paths : List Str} {i : Nat} {path : Str} (hf : obsFiles D cfg = .ok paths)
    (hi : paths[i]? = some path) (hrun : program X D cfg fuel fs = some r) :
    ∃ A f B, allOf (fileIn D fuel (someXyz D cfg)) paths = some (A ++ f :: B) ∧ A.length = i ∧ fileIn D fuel (someXyz D cfg) path = some f ∧
      r = ⟨(mainLoop (prmOf X D cfg) (A ++ f :: B) Glob.empty fs).2.1, (mainLoop (prmOf X D cfg) (A ++ f :: B) Glob.empty fs).2.2.1,
        (mainLoop (prmOf X D cfg) (A ++ f :: B) Glob.empty fs).2.2.2⟩ := by
  obtain ⟨p, ps, rfl⟩ : ∃ p ps, paths = p :: ps := by
    cases paths with
    | nil => simp at hi
    | cons p ps => exact ⟨p, ps, rfl⟩
  obtain ⟨ins, hins, rfl⟩ := program_ins hf hrun
  obtain ⟨hlen, hget⟩ := allOf_get hins
  obtain ⟨f, hfi, hf1⟩ := hget i path hi
  have hil := (List.getElem?_eq_some_iff.1 hf1).1
  have hsplit : ins = ins.take i ++ f :: ins.drop (i + 1) := by
    have h5 := (List.getElem?_eq_some_iff.1 hf1).2
    rw [← h5, List.cons_getElem_drop_succ, List.take_append_drop]
  refine ⟨ins.take i, f, ins.drop (i + 1), ?_, by rw [List.length_take]; omega, hfi, ?_⟩
  · rw [← hsplit]; exact hins
  · rw [← hsplit]

/-- no later file writes the output file of a record -/
theorem not_later {D : Disk} {fuel : Nat} {b : Bool} {fs : FS} {paths : List Str} {path name : Str} (P : Prm) {A B : List FileIn} {f : FileIn} {o : ObsIn}
    (hins : allOf (fileIn D fuel b) paths = some (A ++ f :: B)) (ho : obsFile D fuel path = some (.ok o)) (hop : f.opened = .ok o)
    (hname : LastComponent path name) (hlast : ∀ (j : Nat) (p : Str), A.length < j → paths[j]? = some p → ¬ SameOutput path p)
    {ops : List WOp} (hops : (mainLoop P (A ++ f :: B) Glob.empty fs).2.2.1[A.length]? = some ops)
    {sat : Str} {e : DateTime} {v : List (Option FVal)} (hmem : (sat, e, v) ∈ writesOf ops) :
    ∀ (j : Nat) f' ops', A.length < j → (A ++ f :: B)[j]? = some f' → (mainLoop P (A ++ f :: B) Glob.empty fs).2.2.1[j]? = some ops' →
      ¬ WritesAt P f' ops' (outputPath P.cfg.outDir (name.take 4) sat e) := by
  obtain ⟨h1, h2, h3, h4⟩ := obsFile_legal ho
  obtain ⟨hlen, hget⟩ := allOf_get hins
  have hday : Legal e ∧ o.fileDate = some e.date := by
    obtain ⟨g, fs1, hg, rfl⟩ := mainLoop_prefix P A B f fs ops hops
    obtain ⟨t', xyz', -, it, hit, c, n, e', hcon, hm⟩ := writes_day hg hop hmem
    obtain ⟨-, a2, -⟩ := mem_writesFor hm
    simp only at a2
    subst a2
    exact ⟨h4 it hit _ hcon.2.1, hcon.2.2.2⟩
  rintro j f' ops' hj hf' hops' ⟨o', name', sat', e', v', w1, w2, w3, w4⟩
  have hjl := (List.getElem?_eq_some_iff.1 hf').1
  obtain ⟨q, hq⟩ : ∃ q, paths[j]? = some q := ⟨_, List.getElem?_eq_getElem (by omega)⟩
  obtain ⟨f'', hf'', hf3⟩ := hget j q hq
  rw [hf'] at hf3
  cases hf3
  obtain ⟨hop', -⟩ := fileIn_opened hf''
  rw [w1] at hop'
  obtain ⟨u1, u2, u3, u4⟩ := obsFile_legal hop'
  obtain ⟨f4, g, fs1, k1, k2, k3, -, -⟩ := mainLoop_at P (A ++ f :: B) _ _ (ginv_empty P) j ops' hops'
  rw [hf'] at k1
  cases k1
  rw [k3] at w3
  obtain ⟨t', xyz', -, it, hit, c, n, e'', hcon, hm⟩ := writes_day k2 w1 w3
  obtain ⟨-, a2, -⟩ := mem_writesFor hm
  simp only at a2
  subst a2
  have hlast' := hlast j q hj hq
  rw [u1] at w2
  obtain ⟨i1, -, i3⟩ := outputPath_inj hday.1 (u4 it hit _ hcon.2.1) (fun h => hname.1 (List.mem_of_mem_take h))
    (fun h => w2.1 (List.mem_of_mem_take h)) w4
  apply hlast'
  refine ⟨name, name', e.date, hname, w2, i1, ?_, ?_⟩
  · have := hday.2
    rw [h2, namedDay_iff path _ ⟨name, hname⟩] at this
    exact this
  · have := hcon.2.2.2
    rw [u2, namedDay_iff q _ ⟨name', w2⟩] at this
    rw [i3]
    exact this

theorem inOrder_same {o o' : ObsIn} (h : SameButOrder o o') {t : DateTime} (hin : InOrder o t) : InOrder o' t := by
  refine ⟨fun it hit e he => hin.1 it ((same_members h it).1 hit) e he, ?_⟩
  have h1 : (o.items.map (·.epoch)).Pairwise fun a b => ∀ e f, a = some e → b = some f → instant e ≤ instant f := List.pairwise_map.2 hin.2
  rw [← same_times h] at h1
  exact List.pairwise_map.1 h1

theorem accepted_same {o o' : ObsIn} (h : SameButOrder o o') {t : DateTime} (ha : Accepted o t) : Accepted o' t := by
  rw [accepted_iff] at ha ⊢
  rw [h.system, h.tofo]
  exact ha

theorem considered_same {o o' : ObsIn} (h : SameButOrder o o') {it : ObsItem} {c : Char} {n : Int} {e : DateTime} (hc : Considered o' it c n e) : Considered o it c n e := by
  unfold Considered at hc ⊢
  rw [h.fileDate] at hc
  exact hc

/-- C116: two runs over archives that differ in one observation file, and there only in the order of the satellites within the epochs: the records of each satellite are the same, and so is its
output file. -/
theorem C116_run (X : Ext) (D D' : Disk) (cfg : Cfg) (fuel : Nat) (fs fs' : FS) (r r' : Outcome) (paths : List Str) (i : Nat) (path name : Str) (file : List Str) (xl : List XyzLine) (o o' : ObsIn) (t : DateTime)
    (hout : OutDirOk cfg) (hn : PlainNames D cfg.obsDir) (hf : InputFiles D cfg.obsDir paths) (hnames : FileNames D cfg.navDir) (hd : Elsewhere D D' path) (hr : ReadAs D path file)
    (hi : paths[i]? = some path) (hname : LastComponent path name) (hyears : FourDigits paths) (hlast : ∀ (j : Nat) (p : Str), i < j → paths[j]? = some p → ¬ SameOutput path p)
    (ho : obsFile D fuel path = some (.ok o)) (ho' : obsFile D' fuel path = some (.ok o')) (hso : SameButOrder o o') (hx : CoordLines D cfg.obsDir path xl)
    (hrun : program X D cfg fuel fs = some r) (hend : r.err = none) (hrun' : program X D' cfg fuel fs' = some r') (hend' : r'.err = none)
    (ha : Accepted o t) (hin : InOrder o t)
    (good : cfg.navIgnoreAbsence = false ∨ ∀ it ∈ o.items, ∀ c n e, Considered o it c n e → ¬ ArithError (prmOf X D cfg) c n e)
    (sat : Str) (hnav : cfg.navIgnoreAbsence = false ∨ ∀ c d, sat.head? = some c → o.fileDate = some d → ∃ m, (prmOf X D cfg).load d c = .ok m) :
    ∃ ops ops', r.calls[i]? = some ops ∧ r'.calls[i]? = some ops' ∧
      (writesOf ops').filter (fun w => w.1 == sat) = (writesOf ops).filter (fun w => w.1 == sat) ∧
      ∀ e v more, (writesOf ops).filter (fun w => w.1 == sat) = (sat, e, v) :: more →
        ∃ text, r.fs.get? (outputPath cfg.outDir (name.take 4) sat e) = some text ∧ r'.fs.get? (outputPath cfg.outDir (name.take 4) sat e) = some text := by
  have hf1 := (C72_files D cfg paths hn).2 hf
  have hf2 : obsFiles D' cfg = .ok paths := by rw [obsFiles_elsewhere hd]; exact hf1
  obtain ⟨n0, hat, comp, hl, hon⟩ : ∃ name hat comp, LastComponent path name ∧ ObsName name hat comp := by
    obtain ⟨dir, name, hat, comp, hp, ho, -⟩ := hr.treated
    have hs : '/' ∉ name := (obsName_word ho).2
    exact ⟨name, hat, comp, ⟨hs, hp.imp id fun h => ⟨dir, h.1⟩⟩, ho⟩
  have hprm := prm_elsewhere X hd hl hon hnames
  obtain ⟨A, f, B, hins, hA, hfi, rfl⟩ := run_split hf1 hi hrun
  obtain ⟨A', f', B', hins', hA', hfi', rfl⟩ := run_split hf2 hi hrun'
  have hf' : InputFiles D' cfg.obsDir paths := by
    refine (C72_files D' cfg paths ?_).1 hf2
    intro d hdm l hl
    rw [hd.listing] at hl
    exact hn d hdm l hl
  have hl1 := ins_legal hf hyears hins
  have hl2 := ins_legal hf' hyears hins'
  rw [hprm] at *
  simp only at hend hend' ⊢
  generalize hP : prmOf X D cfg = P at *
  have hc : P.cfg = cfg := by rw [← hP]; rfl
  obtain ⟨hop, hxo⟩ := fileIn_opened hfi
  obtain ⟨hop', hxo'⟩ := fileIn_opened hfi'
  rw [ho] at hop
  rw [ho'] at hop'
  have hop : f.opened = .ok o := (Option.some.inj hop).symm
  have hop' : f'.opened = .ok o' := (Option.some.inj hop').symm
  have hld : ∃ r, listDirs D cfg.obsDir = .ok r := by
    unfold obsFiles at hf1
    cases h : listDirs D cfg.obsDir with
    | error e => rw [h] at hf1; cases hf1
    | ok r => exact ⟨r, rfl⟩
  obtain ⟨xyz, hxyz, -⟩ := C73_coordinates D cfg path xl hld hx
  rw [someXyz_elsewhere hd, xyz_elsewhere hd hl hon, hxyz] at hxo'
  rw [hxyz] at hxo
  have hxe : f.xyzData = .ok xyz := (Option.some.inj hxo).symm
  have hxe' : f'.xyzData = .ok xyz := (Option.some.inj hxo').symm
  have hcalls : ∀ (A : List FileIn) f B fs, (mainLoop P (A ++ f :: B) Glob.empty fs).2.2.2 = none → ∃ ops, (mainLoop P (A ++ f :: B) Glob.empty fs).2.2.1[A.length]? = some ops := by
    intro A f B fs herr
    have hlen2 := mainLoop_length P _ _ _ herr
    exact ⟨_, List.getElem?_eq_getElem (by rw [hlen2]; simp)⟩
  obtain ⟨ops, hops⟩ := hcalls A f B fs hend
  obtain ⟨ops', hops'⟩ := hcalls A' f' B' fs' hend'
  have ha' := accepted_same hso ha
  obtain ⟨h1, -, -, hleg⟩ := obsFile_legal ho
  obtain ⟨-, -, -, hleg'⟩ := obsFile_legal ho'
  have good1 : P.cfg.navIgnoreAbsence = false ∨ ∀ it ∈ o.items, ∀ c n e, Considered o it c n e → ¬ ArithError P c n e := by rw [hc]; exact good
  have good2 : P.cfg.navIgnoreAbsence = false ∨ ∀ it ∈ o'.items, ∀ c n e, Considered o' it c n e → ¬ ArithError P c n e := by
    rw [hc]
    exact good.imp id fun g it hit c n e hco => g it ((same_members hso it).1 hit) c n e (considered_same hso hco)
  have hnav2 : P.cfg.navIgnoreAbsence = false ∨ ∀ c d, sat.head? = some c → o.fileDate = some d → ∃ m, P.load d c = .ok m := by rw [hc]; exact hnav
  have heq : (writesOf ops').filter (fun w => w.1 == sat) = (writesOf ops).filter (fun w => w.1 == sat) := by
    obtain ⟨w1, d1⟩ := writes_ref_kept P _ fs A.length f o t xyz ops hend hops (by simp) hop hxe ha hleg good1
    obtain ⟨w2, d2⟩ := writes_ref_kept P _ fs' A'.length f' o' t xyz ops' hend' hops' (by simp) hop' hxe' ha' hleg' good2
    rw [w1, w2, hso.interval, refWrites_sat P o _ xyz sat hnav2 o.items d1, refWrites_sat P o' _ xyz sat (by rw [hso.fileDate]; exact hnav2) o'.items d2,
      refSat_same P o o' hso.fileDate]
    obtain ⟨gs, gs', hg, q1, q2⟩ := hso.items
    rw [q1, q2]
    refine refSat_reordered P o _ xyz sat hg (fun g hgm it hit => d1 it ?_) none
    rw [q1]
    exact List.mem_flatten.2 ⟨g, hgm, hit⟩
  refine ⟨ops, ops', by rw [← hA]; exact hops, by rw [← hA']; exact hops', heq, fun e v more hrec => ?_⟩
  have hmem : (sat, e, v) ∈ writesOf ops := (List.mem_filter.1 (by rw [hrec]; simp : (sat, e, v) ∈ (writesOf ops).filter (fun w => w.1 == sat))).1
  have hmem' : (sat, e, v) ∈ writesOf ops' := by
    have : (sat, e, v) ∈ (writesOf ops').filter (fun w => w.1 == sat) := by
      have h2 : (writesOf ops').filter (fun w => w.1 == sat) = (sat, e, v) :: more := by rw [← hrec]; exact heq
      rw [h2]; simp
    exact (List.mem_filter.1 this).1
  have hrec' : (writesOf ops').filter (fun w => w.1 == sat) = (sat, e, v) :: more := by rw [← hrec]; exact heq
  rw [← hc] at hout ⊢
  obtain ⟨sd, nv, p, l, ts, c1, c2, c3, c4, c5, c6⟩ := C76_files P hout.1 hout.2 A B f fs hl1 hend o hop name (by rw [h1]; exact hname) ops hops sat e v more hrec
    (not_later P hins ho hop hname (by rw [hA]; exact hlast) hops hmem)
  obtain ⟨sd', nv', p', l', ts', c1', c2', c3', c4', c5', c6'⟩ :=
    C76_files P hout.1 hout.2 A' B' f' fs' hl2 hend' o' hop' name (by rw [hso.filename, h1]; exact hname) ops' hops' sat e v more hrec'
      (not_later P hins' ho' hop' hname (by rw [hA']; exact hlast) hops' hmem')
  refine ⟨_, c6, ?_⟩
  rw [c6']
  have hg : o.tofo = some (t, c% "GPS") := ((accepted_iff ..).1 ha).2
  have hg' : o'.tofo = some (t, c% "GPS") := ((accepted_iff ..).1 ha').2
  rw [hso.interval] at c5'
  rw [satDef_unique c1' c1, navSource_unique c2' c2, cols3_unique (c4' _ hg' (inOrder_same hso hin)).1 (c4 _ hg hin).1,
    cols3_unique (c4' _ hg' (inOrder_same hso hin)).2 (c4 _ hg hin).2, texts_unique c5' c5]
  unfold samplingShown
  rw [hso.filename, hso.interval]

end Verif.Props

namespace Verif.Props.MainEx
open Verif.Py Verif.Spec Verif.Model Verif.Proofs Verif.Props

/-- Without navigation data the order does matter: the first observation of a system is lost (C61), and which satellite it belongs to depends on the order. -/
theorem C116_witness :
    let P := prm true none loadNone posOk
    let o : ObsIn := { obs with items := [item (c% "G01") 0 0, item (c% "G02") 0 0] }
    let o' : ObsIn := { obs with items := [item (c% "G02") 0 0, item (c% "G01") 0 0] }
    SameButOrder o o' ∧
    (mainLoop P [⟨.ok o, .ok []⟩] Glob.empty []).2.2.1.map (fun ops => (writesOf ops).map (·.1)) = [[c% "G02"]] ∧
    (mainLoop P [⟨.ok o', .ok []⟩] Glob.empty []).2.2.1.map (fun ops => (writesOf ops).map (·.1)) = [[c% "G01"]] := by
  refine ⟨⟨rfl, rfl, rfl, rfl, rfl, rfl, rfl, [[item (c% "G01") 0 0, item (c% "G02") 0 0]], [[item (c% "G02") 0 0, item (c% "G01") 0 0]],
    .cons ⟨⟨some (at_ 0 0), ?_⟩, List.Perm.swap .., by decide⟩ .nil, rfl, rfl⟩, by decide +kernel, by decide +kernel⟩
  intro it hi
  simp only [List.mem_cons, List.not_mem_nil, or_false] at hi
  rcases hi with rfl | rfl <;> rfl

end Verif.Props.MainEx

namespace Verif.Props.ProgEx
open Verif.Py Verif.Spec Verif.Model Verif.Proofs

/-- the satellites in the other order -/
def epochT (s : Nat) : Epoch := { epoch s with sats := (epoch s).sats.reverse }

theorem epochT_ok {s : Nat} (h : s < 60) : (epochT s).Ok 3 := by
  obtain ⟨a, b, c, d, e, f⟩ := epoch_ok h
  exact ⟨a, b, c, d, by simpa [epochT] using e, fun s hs => f s (by simpa [epochT] using hs)⟩

def obsLinesT : List Str :=
  [HLine.render 211 (.version 211 'O' 'M' obsWords), HLine.render 211 (.firstObs ⟨2017, 1, 2, 3, 4, 0, 0⟩ 0 (c% "GPS")), HLine.render 211 (.position 10000 20000 30000)] ++
    typeLines exTypes ++ [] ++ hline [] lblEnd :: bodyLines [.obs (epochT 0), .obs (epochT 30)]

theorem turned2 : File2 obsLinesT 211 'M' head exTypes [epochT 0, epochT 30] where
  version := by decide
  text := by
    refine ⟨[HLine.render 211 (.version 211 'O' 'M' obsWords), HLine.render 211 (.firstObs ⟨2017, 1, 2, 3, 4, 0, 0⟩ 0 (c% "GPS")), HLine.render 211 (.position 10000 20000 30000)], typeLines exTypes, [],
      head, [], 'O', obsWords, hline [] lblEnd, bodyLines [.obs (epochT 0), .obs (epochT 30)], [.obs (epochT 0), .obs (epochT 30)],
      by decide, by decide, by decide, rfl, rfl, typeText_refl _, ?_, trivial, by decide +kernel, by decide +kernel, by decide +kernel, written_refl _, rfl, ?_⟩
    · exact ⟨⟨[], by simp, by simp⟩, ⟨[], by simp, by simp⟩, ⟨[], by simp, by simp⟩, trivial⟩
    · intro i hi
      simp only [List.mem_cons, List.not_mem_nil, or_false] at hi
      rcases hi with rfl | rfl
      · exact ⟨epochT_ok (by decide), fun _ h => nomatch h⟩
      · exact ⟨epochT_ok (by decide), fun _ h => nomatch h⟩
  header := C73_hypotheses.header
  types := C73_hypotheses.types
  epochs := by
    intro e he
    simp only [List.mem_cons, List.not_mem_nil, or_false] at he
    rcases he with rfl | rfl
    · simp [epochT, epoch]
    · simp [epochT, epoch]
  two := by decide
  increasing := by decide +kernel
  span := by decide +kernel

def diskT : Disk := { disk with lines := fun f p => if f = .plain ∧ p = obsPath then .ok obsLinesT else disk.lines f p }

/-- the files of the example differ in the order of the satellites only -/
theorem C116_hypotheses : SameSats2 obsLines obsLinesT ∧ Elsewhere disk diskT obsPath ∧ ReadAs disk obsPath obsLines ∧ ReadAs diskT obsPath obsLinesT ∧
    CoordLines disk cfg.obsDir obsPath coords ∧ OutDirOk cfg ∧ InputFiles disk cfg.obsDir [obsPath] := by
  refine ⟨⟨211, 211, 'M', head, head, exTypes, _, _, C73_hypotheses, turned2, by decide, ?_, rfl, rfl, ?_⟩, ⟨fun _ => rfl, fun _ => rfl, ?_⟩, readAs, ?_, C73_coord_hypotheses, ⟨by decide, by decide⟩, inputs⟩
  · intro e he
    simp only [List.mem_cons, List.not_mem_nil, or_false] at he
    rcases he with rfl | rfl <;> rfl
  · have h : ∀ s, Reordered (epoch s) (epochT s) := fun s => ⟨rfl, List.reverse_perm _, by
      show ([_, _] : List Str).Nodup
      decide +kernel⟩
    exact .cons (h 0) (.cons (h 30) .nil)
  · intro k p hp
    simp [diskT, hp]
  · exact ⟨by decide, c% "d", c% "irkj0020.17o", false, false, .inr ⟨rfl, no_slash_mark⟩, obsName, rfl⟩

/-- the two runs: the output files are created in another order, and hold the same -/
theorem C116_example :
    ((program ext diskT cfg 5 []).map fun r => (r.err, r.fs.map (·.1))) = some (none, [c% "out/2017/002/irkj/irkj_R24_002_17.dat", c% "out/2017/002/irkj/irkj_G01_002_17.dat"]) ∧
    ((program ext disk cfg 5 []).map fun r => (r.err, r.fs.map (·.1))) = some (none, [c% "out/2017/002/irkj/irkj_G01_002_17.dat", c% "out/2017/002/irkj/irkj_R24_002_17.dat"]) ∧
    ((program ext diskT cfg 5 []).map fun r => (r.fs.get? (c% "out/2017/002/irkj/irkj_R24_002_17.dat"), r.fs.get? (c% "out/2017/002/irkj/irkj_G01_002_17.dat"))) =
      (program ext disk cfg 5 []).map fun r => (r.fs.get? (c% "out/2017/002/irkj/irkj_R24_002_17.dat"), r.fs.get? (c% "out/2017/002/irkj/irkj_G01_002_17.dat")) := by
  refine ⟨by decide +kernel, by decide +kernel, by decide +kernel⟩

end Verif.Props.ProgEx
