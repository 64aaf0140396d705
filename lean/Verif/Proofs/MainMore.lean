import Verif.Proofs.MainFile
import Verif.Proofs.MainThin
import Verif.Props.Writer
import Verif.Props.Select
/-!
# Proofs: causes of failure, completeness, the calls of the writer
-/
namespace Verif.Proofs
open Verif.Py Verif.Model Verif.Spec Verif.Props

/-! ## completeness -/

theorem recOf_some (P : Prm) (xyz : Dict DateTime Pos) (it : ObsItem) (c : Char) (n : Int) (e : DateTime) (hc : Processed c)
    (hk : KnownCodes it c) (x l sp : Pos) (el az k : Rat) (hs : SiteAt xyz it e x) (hl : P.lbh x = .ok l) (hd : DirectionIs P c n e x sp el az)
    (hv : 0 ≤ el) (hf : FrequencyNumber P c n e k) : ∃ v, recOf P xyz it c n e = .ok (some v) := by
  obtain ⟨types, ht1, ht2, ht3⟩ := hk
  have hx := (siteAt_iff ..).1 hs
  subst hx
  unfold recOf
  rw [hl]
  simp only
  rw [(angles_iff ..).2 ⟨hd, hv⟩]
  simp only
  have hfr : ∃ q, (if c = 'R' then freqOf P n e else some (0, 0, 0)) = some q := by
    rcases hf with ⟨rfl, dt, eph, h1, h2⟩ | ⟨h1, -⟩
    · rw [ephemeris_iff] at h1
      refine ⟨(gloF1 k, gloF2 k, k), ?_⟩
      simp only [if_true]
      unfold freqOf
      rw [h1]
      simp [h2]
    · exact ⟨_, by rw [if_neg h1]⟩
  obtain ⟨⟨f1, f2, k'⟩, hq⟩ := hfr
  rw [hq]
  simp only
  obtain ⟨-, hval⟩ := frequency_of P c n e f1 f2 k' hq
  obtain ⟨d, -, hv⟩ := values_spec P it c hc k' el az sp (siteOf xyz it e) l
  obtain ⟨v, hv', -⟩ := C42_bits types (validityTypes it.data) ht2 (fun o ho => ht3 o ((mem_validityTypes _ _).1 ho))
  rw [hval, hv, ht1]
  simp only
  rw [hv']
  exact ⟨_, rfl⟩

/-! ## formatting never fails -/

theorem chunk_fits (r : ObsRec) (t : Str → Option Rat) (vd : Nat) (el az : Rat) (sp x l : Pos) (i : Nat) (nk : Str × ColKind) (v : FVal)
    (h1 : columns[i + 3]? = some nk) (h2 : (chunk r t vd el az sp x l)[i]? = some (some v)) : ColFits nk.2 v := by
  have fl : ∀ (o : Option Rat) (a b c : _), fv o = some v → ColFits (.fix a b c) v := by
    intro o a b c h
    cases o with
    | none => cases h
    | some q =>
      simp only [fv, Option.map_some, Option.some.injEq] at h
      subst h
      exact ⟨q, .inl rfl⟩
  have il : ∀ (o : Option Int) (a : _), iv o = some v → ColFits (.int a) v := by
    intro o a h
    cases o with
    | none => cases h
    | some q =>
      simp only [iv, Option.map_some, Option.some.injEq] at h
      subst h
      exact ⟨q, rfl⟩
  have hi : i < 51 := by
    obtain ⟨hh, -⟩ := List.getElem?_eq_some_iff.1 h2
    exact hh
  unfold chunk at h2
  interval_cases i <;>
    (simp only [columns, List.getElem?_cons_succ, List.getElem?_cons_zero, Option.some.injEq, Nat.reduceAdd] at h1 h2
     subst h1
     first | exact fl _ _ _ _ h2 | exact il _ _ h2)

theorem recOf_chunk (P : Prm) (xyz : Dict DateTime Pos) (it : ObsItem) (c : Char) (n : Int) (e : DateTime) (v : List (Option FVal))
    (h : recOf P xyz it c n e = .ok (some v)) : ∃ r t vd el az sp x l, v = chunk r t vd el az sp x l := by
  unfold recOf at h
  split at h
  · cases h
  split at h
  · cases h
  · cases h
  split at h
  · cases h
  unfold values at h
  split at h
  · cases h
  split at h
  · cases h
  split at h
  · cases h
  split at h
  · cases h
  · cases h
  · cases h; exact ⟨_, _, _, _, _, _, _, _, rfl⟩

theorem record_text (P : Prm) (xyz : Dict DateTime Pos) (it : ObsItem) (c : Char) (n : Int) (e : DateTime) (v : List (Option FVal))
    (h : recOf P xyz it c n e = .ok (some v)) (hf : FormatOk P) (i : Rat) (hi : 0 < i) : ∃ s, recordText P.env P.cfg i e v = .ok (some s) := by
  obtain ⟨r, t, vd, el, az, sp, x, l, rfl⟩ := recOf_chunk P xyz it c n e v h
  obtain ⟨fields, h1, h2, h3⟩ := hf
  obtain ⟨-, -, texts, -, -, -, ht⟩ := C55_record P.env P.cfg P.dtLen fields h1 h2 h3 i hi e (chunk r t vd el az sp x l) rfl
    (fun i nk v a b => chunk_fits r t vd el az sp x l i nk v a b)
  exact ⟨_, ht⟩

/-! ## causes -/

theorem sel_error (P : Prm) (c : Char) (n : Int) (e : DateTime) (hc : Processed c) (er : PyErr) (h : selOf P c n e = .error er) :
    ∃ f m, P.load e.date c = .ok (f, m) ∧ m.get? n = some [] ∧ er = .index := by
  unfold selOf selectMessage at h
  have hget : Dict.get? ([(c, tableOf P e.date c)] : NavTable) c = some (tableOf P e.date c) := by simp [Dict.get?]
  rw [hget] at h
  simp only at h
  split at h
  · cases h
  rename_i hne
  have hload : ∃ f, P.load e.date c = .ok (f, tableOf P e.date c) := by
    unfold tableOf at hne ⊢
    cases hl : P.load e.date c with
    | error er => rw [hl] at hne; exact absurd rfl hne
    | ok fm => obtain ⟨f, m⟩ := fm; exact ⟨f, rfl⟩
  obtain ⟨f, hf⟩ := hload
  split at h
  · cases h
  rename_i b hb
  split at h
  · cases h
  rename_i hno
  have tot : ∀ dt : Int, ∀ er, (match scanTimes (daySeconds e.time) dt (sortNat b.keys) with
      | none => (.ok none : Except PyErr (Option (Rat × List PyFloat)))
      | some (mt, diff) =>
        match b.get? mt with
        | none => .error .key
        | some v => .ok (some (if gpsWay c then weekSecond e c else (diff : Rat), v))) ≠ .error er := by
    intro dt er hh
    obtain ⟨r, hr⟩ := search_total (b := b) (obs := e.time) (dt := dt) (w := weekSecond e c) (g := gpsWay c)
    have := hh.symm.trans hr; cases this
  split at h
  · simp only [if_true] at h
    split at h
    · rename_i hnil
      simp only [Except.error.injEq] at h
      refine ⟨f, _, hf, ?_, h.symm⟩
      rw [hb]
      cases b with
      | nil => rfl
      | cons p b =>
        exfalso
        have : p.1 ∈ sortNat (Dict.keys (p :: b)) := (mem_sortNat _ _).2 (by simp [Dict.keys])
        rw [hnil] at this; cases this
    · rename_i mt rest hm
      obtain ⟨v, hv⟩ := mem_keys_get.1 ((mem_sortNat mt b.keys).1 (by rw [hm]; simp))
      rw [hv] at h; cases h
  split at h
  · exact absurd h (tot _ _)
  split at h
  · exact absurd h (tot _ _)
  split at h
  · exact absurd h (tot _ _)
  exfalso
  unfold Processed at hc
  tauto

theorem not_arith (er : PyErr) : er ∉ arithmetic ↔ ¬ Arithmetic er := by
  unfold arithmetic Arithmetic; simp

theorem cause_of_fails (P : Prm) (f : FileIn) (o : ObsIn) (ho : f.opened = .ok o) (xyz : Dict DateTime Pos) (hx : f.xyzData = .ok xyz) (er : PyErr) (h : Fails P o xyz o.items er) :
    Cause P f er := by
  cases h with
  | item it hi hd =>
    unfold decode at hd
    split at hd
    · rename_i hs; cases hd; exact .noSat o it ho hi hs rfl
    · rename_i a r hs
      split at hd
      · rename_i e' he
        simp only [Except.error.injEq] at hd
        subst hd
        exact .satName o it a r ho hi hs he
      · split at hd
        · rename_i hn; cases hd; exact .noEpoch o it ho hi hn rfl
        · cases hd
  | nav it c n e b hi hc hn =>
    unfold navFlow at hn
    split at hn
    · cases hn
    · split at hn
      · rename_i e' he
        split at hn
        · cases hn
        · rename_i hne; cases hn; exact .load o it c n e ho hi hc he hne
      · cases hn
  | pos it c n e hi hc hp =>
    unfold posFlow at hp
    split at hp
    · rename_i e' he
      cases hp
      obtain ⟨file, m, h1, h2, h3⟩ := sel_error P c n e hc.2.2.1 er he
      exact .noMessage o it c n e file m ho hi hc h1 h2 h3
    · cases hp
    · rename_i dt eph hs
      split at hp
      · rename_i e' he
        split at hp
        · cases hp
        · rename_i hm; cases hp
          exact .satellite o it c n e dt eph ho hi hc ((ephemeris_iff ..).2 hs) he ((not_arith _).1 hm)
      · split at hp
        · rename_i hR
          subst hR
          split at hp
          · rename_i h7
            exact .frequency o it n e dt eph ho hi hc ((ephemeris_iff ..).2 hs) (by rw [h7]; simp)
          · cases hp
          · rename_i h7 h8
            exact .frequency o it n e dt eph ho hi hc ((ephemeris_iff ..).2 hs) (by intro k hk; rw [h8] at hk; exact h7 k (Option.some.inj hk))
        · cases hp
  | site it c n e hi hc hs =>
    unfold siteFlow at hs
    split at hs
    · cases hs
    · rename_i e' he; cases hs; exact .site o xyz it c n e _ ho hx hi hc ((siteAt_iff ..).2 rfl) he
  | record it c n e hi hc hr =>
    unfold recOf at hr
    split at hr
    · rename_i e' he; cases hr; exact .site o xyz it c n e _ ho hx hi hc ((siteAt_iff ..).2 rfl) he
    rename_i l hl
    split at hr
    · rename_i e' he
      cases hr
      unfold angles at he
      simp only at he
      split at he
      · split at he
        · cases he
        · split at he <;> cases he
      · rename_i p hpo
        split at he
        · rename_i e'' h2
          split at he
          · cases he
          · rename_i hm; cases he; exact .direction o xyz it c n e _ _ ho hx hi hc ((siteAt_iff ..).2 rfl) ((satAt_iff ..).2 hpo) h2 ((not_arith _).1 hm)
        · cases he
    · cases hr
    · rename_i sp el az ha
      split at hr
      · rename_i hk
        split at hk
        · rename_i hR
          subst hR
          have hp : ∃ p, posOf P 'R' n e = some p := by
            cases hpo : posOf P 'R' n e with
            | some p => exact ⟨p, rfl⟩
            | none =>
              rw [hpo] at ha
              unfold angles at ha
              simp only [if_true] at ha
              split at ha <;> cases ha
          obtain ⟨p, hp⟩ := hp
          obtain ⟨dt, eph, h1, h2⟩ := (satAt_iff ..).2 hp
          have hs := (ephemeris_iff ..).1 h1
          refine .frequency o it n e dt eph ho hi hc h1 ?_
          intro k hk7
          unfold freqOf at hk
          rw [hs] at hk
          simp only [hk7] at hk
          cases hk
        · cases hk
      · rename_i f1 f2 k hk
        obtain ⟨-, hval⟩ := frequency_of P c n e f1 f2 k hk
        obtain ⟨d, -, hv⟩ := values_spec P it c hc.2.2.1 k el az sp (siteOf xyz it e) l
        rw [hval, hv] at hr
        split at hr
        · rename_i ht; cases hr; exact .types o it c n e ho hi hc ht rfl
        · rename_i ts hts
          exfalso
          by_cases hknown : ∀ o ∈ ts ++ validityTypes it.data, Known o
          · obtain ⟨v', hv', hbits⟩ := C42_bits ts (validityTypes it.data) (fun o ho => hknown o (by simp [ho])) (fun o ho => hknown o (by simp [ho]))
            rw [hv'] at hr
            cases hr
          · have := (C42_unknown ts (validityTypes it.data)).1 (by simpa using hknown)
            rw [this] at hr
            cases hr
  | format it c n e v hi hc hr ht =>
    by_cases hf : FormatOk P
    · by_cases h0 : 0 < o.interval
      · exfalso
        obtain ⟨s, hs⟩ := record_text P xyz it c n e v hr hf o.interval h0
        rw [hs] at ht
        rcases ht with ht | ⟨ht, -⟩ <;> cases ht
      · exact .interval o ho (not_lt.1 h0)
    · exact .format hf

/-! ## the calls of the writer -/

/-- the epoch of a call -/
def opEpoch : WOp → Option DateTime
  | .satellite _ _ _ => none
  | .position t _ => some t
  | .geodetic t _ => some t
  | .write _ t _ => some t

/-- only the given epoch occurs in the new calls, and only satellites announced by the item -/
def Adds (e : DateTime) (s t : St) : Prop := ∃ new, t.ops = s.ops ++ new ∧ ∀ op ∈ new, ∀ u, opEpoch op = some u → u = e

theorem Adds.refl (e : DateTime) (s : St) : Adds e s s := ⟨[], by simp, by simp⟩
theorem Adds.of_eq {e : DateTime} {s t : St} (h : t.ops = s.ops) : Adds e s t := ⟨[], by simp [h], by simp⟩
theorem Adds.trans {e : DateTime} {s t u : St} (h : Adds e s t) (h' : Adds e t u) : Adds e s u := by
  obtain ⟨a, h1, h2⟩ := h
  obtain ⟨b, h3, h4⟩ := h'
  refine ⟨a ++ b, by rw [h3, h1]; simp, ?_⟩
  intro op hop
  rcases List.mem_append.1 hop with hop | hop
  · exact h2 op hop
  · exact h4 op hop
theorem Adds.call (P : Prm) (o : ObsIn) (op : WOp) (e : DateTime) (s : St) (h : ∀ u, opEpoch op = some u → u = e) : Adds e s (call P o op s).1 :=
  ⟨[op], rfl, by intro op' hop; simp only [List.mem_singleton] at hop; subst hop; exact h⟩

theorem nav_ops (P : Prm) (c : Char) (d : Date) (s : St) : (navStage P c d s).1.ops = s.ops := by
  have key : ∀ t : St, (if t.navMsg.has c then (t, Flow.next)
      else match P.load d c with
        | .error e => if e = .rinex ∨ e = .nm then ({ t with navMsg := t.navMsg.set c [], g := t.g.setNav d c none }, .skip)
            else ({ t with navMsg := t.navMsg.set c [], g := t.g.setNav d c none }, .stop e)
        | .ok (f, m) => ({ t with navMsg := (t.navMsg.set c []).set c m, g := (t.g.setNav d c none).setNav d c (some f) }, .next)).1.ops = t.ops := by
    intro t
    split
    · rfl
    · split
      · split <;> rfl
      · rfl
  have : (if s.g.navFile.has d then s else { s with g := { s.g with navFile := s.g.navFile.set d [] } }).ops = s.ops := by split <;> rfl
  exact (key _).trans this

theorem pos_ops (P : Prm) (c : Char) (n : Int) (e : DateTime) (s : St) : (posStage P c n e s).1.ops = s.ops := by
  unfold posStage
  simp only
  split
  · rfl
  · split
    · rfl
    · rfl
    · split
      · split <;> rfl
      · split
        · split
          · rfl
          · split <;> rfl
          · rfl
        · rfl

theorem site_adds (P : Prm) (o : ObsIn) (xyz : Dict DateTime Pos) (e : DateTime) (p : Pos) (s : St) : Adds e s (siteStage P o xyz e p s).1 := by
  have fin : ∀ r : St × Flow, Adds e s r.1 → Adds e s (match r.2 with
      | .next =>
        match latest r.1.w.xyz with
        | .error e => (r.1, .stop e)
        | .ok p =>
          if r.1.x ≠ p then ((call P o (.geodetic e r.1.l) (call P o (.position e r.1.x) r.1).1).1, .next)
          else (r.1, .next)
      | f => (r.1, f) : St × Flow).1 := by
    intro r hr
    split
    · split
      · exact hr
      · split
        · exact hr.trans ((Adds.call P o _ e _ (by simp [opEpoch])).trans (Adds.call P o _ e _ (by simp [opEpoch])))
        · exact hr
    · exact hr
  unfold siteStage
  refine fin _ ?_
  split
  · simp only; split <;> exact .of_eq rfl
  · split
    · simp only; split <;> exact .of_eq rfl
    · exact .refl _ _

theorem emit_adds (P : Prm) (o : ObsIn) (it : ObsItem) (c : Char) (n : Int) (d : Date) (e : DateTime) (s : St) : Adds e s (emitStage P o it c n d e s).1 := by
  unfold emitStage
  split
  · exact .refl _ _
  split
  · exact .refl _ _
  · exact .refl _ _
  split
  · exact .refl _ _
  split
  · exact .refl _ _
  · exact .refl _ _
  unfold outStage
  split
  · exact .refl _ _
  split
  · exact Adds.call P o _ e _ (by simp [opEpoch])
  split
  · exact .refl _ _
  split
  · exact .refl _ _
  exact (Adds.call P o _ e _ (by simp [opEpoch])).trans (Adds.call P o _ e _ (by simp [opEpoch]))

theorem process_adds (P : Prm) (o : ObsIn) (xyz : Dict DateTime Pos) (it : ObsItem) (c : Char) (n : Int) (e : DateTime) (s : St) :
    Adds e s (process P o xyz it c n e s).1 := by
  unfold process
  simp only
  have h1 : Adds e s (navStage P c e.date s).1 := .of_eq (nav_ops ..)
  split
  · exact h1
  · exact h1
  have h2 := h1.trans (.of_eq (pos_ops P c n e _))
  split
  · exact h2
  · exact h2
  have h3 := h2.trans (site_adds P o xyz e it.xyz _)
  split
  · exact h3
  · exact h3
  exact h3.trans (emit_adds ..)

theorem run_adds (P : Prm) (o : ObsIn) (sampling : Option Int) (xyz : Dict DateTime Pos) (items : List ObsItem) : ∀ last s,
    ∃ new, (runItems P o sampling xyz items last s).1.ops = s.ops ++ new ∧
      ∀ op ∈ new, ∀ u, opEpoch op = some u → ∃ it ∈ items, ∃ c n, Considered o it c n u := by
  induction items with
  | nil => intro last s; exact ⟨[], by simp [runItems], by simp⟩
  | cons it its ih =>
    intro last s
    simp only [runItems]
    cases ha : admit o sampling last it with
    | error er => exact ⟨[], by simp, by simp⟩
    | ok q =>
      cases q with
      | none =>
        obtain ⟨new, h1, h2⟩ := ih last s
        refine ⟨new, h1, fun op hop u hu => ?_⟩
        obtain ⟨it', hi, h⟩ := h2 op hop u hu
        exact ⟨it', by simp [hi], h⟩
      | some q =>
        obtain ⟨c, n, e, last'⟩ := q
        simp only
        obtain ⟨hc, -⟩ := (admit_some ..).1 ha
        obtain ⟨new, h1, h2⟩ := process_adds P o xyz it c n e s
        have own : ∀ op ∈ new, ∀ u, opEpoch op = some u → ∃ it' ∈ it :: its, ∃ c n, Considered o it' c n u := by
          intro op hop u hu
          rw [h2 op hop u hu]
          exact ⟨it, by simp, c, n, hc⟩
        cases hp : (process P o xyz it c n e s).2 with
        | some er => exact ⟨new, h1, own⟩
        | none =>
          simp only
          obtain ⟨new2, h3, h4⟩ := ih last' (process P o xyz it c n e s).1
          refine ⟨new ++ new2, by rw [h3, h1]; simp, ?_⟩
          intro op hop u hu
          rcases List.mem_append.1 hop with hop | hop
          · exact own op hop u hu
          · obtain ⟨it', hi, h⟩ := h4 op hop u hu
            exact ⟨it', by simp [hi], h⟩

end Verif.Proofs
