import Verif.Proofs.MainRun
import Verif.Proofs.Calendar
/-!
# Proofs: decimation, and the records of a file
-/
namespace Verif.Proofs
open Verif.Py Verif.Model Verif.Spec Verif.Props

/-! ## decimation -/

def flagsOf (o : ObsIn) (dt : Int) : Option DateTime → List ObsItem → List (ObsItem × Bool)
  | _, [] => []
  | last, it :: its =>
    match admit o (some dt) last it with
    | .error _ => (it, true) :: flagsOf o dt last its
    | .ok (some (_, _, _, last')) => (it, true) :: flagsOf o dt last' its
    | .ok none =>
      match admit o none none it with
      | .ok (some _) => (it, false) :: flagsOf o dt last its
      | _ => (it, true) :: flagsOf o dt last its

theorem flags_items (o : ObsIn) (dt : Int) (items : List ObsItem) : ∀ last, (flagsOf o dt last items).map (·.1) = items := by
  induction items with
  | nil => intro last; rfl
  | cons it its ih =>
    intro last
    simp only [flagsOf]
    split
    · simp [ih]
    · simp [ih]
    · split <;> simp [ih]

theorem admit_free (o : ObsIn) (last : Option DateTime) (it : ObsItem) (c : Char) (n : Int) (e : DateTime) (h : Considered o it c n e) :
    admit o none last it = .ok (some (c, n, e, last)) := (admit_some ..).2 ⟨h, rfl⟩

theorem run_thin (P : Prm) (o : ObsIn) (dt : Int) (xyz : Dict DateTime Pos) (items : List ObsItem) : ∀ last last2 s,
    runItems P o (some dt) xyz items last s = runItems P o none xyz (leftOf (flagsOf o dt last items)) last2 s := by
  induction items with
  | nil => intro last last2 s; rfl
  | cons it its ih =>
    intro last last2 s
    simp only [flagsOf]
    cases ha : admit o (some dt) last it with
    | error er =>
      simp only [leftOf, List.filter_cons, if_true, List.map_cons, runItems, ha]
      rw [(admit_error ..).2 ((admit_error ..).1 ha)]
    | ok q =>
      cases q with
      | some q =>
        obtain ⟨c, n, e, last'⟩ := q
        obtain ⟨hc, -⟩ := (admit_some ..).1 ha
        simp only [leftOf, List.filter_cons, if_true, List.map_cons, runItems, ha, admit_free o last2 it c n e hc]
        cases (process P o xyz it c n e s).2 with
        | some er => rfl
        | none => exact ih _ _ _
      | none =>
        simp only
        obtain ⟨hd, hdec⟩ := (admit_none ..).1 ha
        cases hb : admit o none none it with
        | error er =>
          rw [(admit_error ..).1 hb] at hd
          obtain ⟨r, hr⟩ := hd; cases hr
        | ok q =>
          cases q with
          | some q =>
            simp only [leftOf, List.filter_cons, if_false, runItems, ha, Bool.false_eq_true]
            exact ih _ _ _
          | none =>
            have hb' : admit o none last2 it = .ok none :=
              (admit_none ..).2 ⟨hd, fun c n e hc => by
                have := ((admit_none ..).1 hb).2 c n e hc
                simp [decimate] at this⟩
            simp only [leftOf, List.filter_cons, if_true, List.map_cons, runItems, ha, hb']
            exact ih _ _ _

theorem lastKept_kept (o : ObsIn) (pre : List (ObsItem × Bool)) (it : ObsItem) (c : Char) (n : Int) (e t : DateTime) (hc : Considered o it c n e) :
    LastKept o (pre ++ [(it, true)]) t ↔ t = e := by
  constructor
  · rintro ⟨pre', it', post, h1, ⟨c', n', h2⟩, h3⟩
    rcases List.eq_nil_or_concat post with rfl | ⟨post', x, rfl⟩
    · obtain ⟨-, h⟩ := List.append_inj' h1 rfl
      simp only [List.cons.injEq, Prod.mk.injEq, and_true] at h
      subst h
      exact (considered_unique o it c' c n' n t e h2 hc).2.2
    · have h1' : pre ++ [(it, true)] = (pre' ++ (it', true) :: post') ++ [x] := by rw [h1]; simp
      obtain ⟨-, h⟩ := List.append_inj' h1' rfl
      simp only [List.cons.injEq, and_true] at h
      subst h
      have := h3 it true (by simp) ⟨c, n, e, hc⟩
      cases this
  · rintro rfl
    exact ⟨pre, it, [], rfl, ⟨c, n, hc⟩, by intro it' b h; cases h⟩

theorem lastKept_other (o : ObsIn) (pre : List (ObsItem × Bool)) (it : ObsItem) (b : Bool) (t : DateTime)
    (h : (∃ c n e, Considered o it c n e) → b = false) : LastKept o (pre ++ [(it, b)]) t ↔ LastKept o pre t := by
  constructor
  · rintro ⟨pre', it', post, h1, ⟨c', n', h2⟩, h3⟩
    rcases List.eq_nil_or_concat post with rfl | ⟨post', x, rfl⟩
    · obtain ⟨-, hh⟩ := List.append_inj' h1 rfl
      simp only [List.cons.injEq, Prod.mk.injEq, and_true] at hh
      obtain ⟨rfl, rfl⟩ := hh
      cases h ⟨c', n', t, h2⟩
    · have h1' : pre ++ [(it, b)] = (pre' ++ (it', true) :: post') ++ [x] := by rw [h1]; simp
      obtain ⟨h4, -⟩ := List.append_inj' h1' rfl
      exact ⟨pre', it', post', h4, ⟨c', n', h2⟩, fun it'' b' hm => h3 it'' b' (by simp [hm])⟩
  · rintro ⟨pre', it', post, h1, h2, h3⟩
    refine ⟨pre', it', post ++ [(it, b)], by rw [h1]; simp, h2, ?_⟩
    intro it'' b' hm hc
    rcases List.mem_append.1 hm with hm | hm
    · exact h3 it'' b' hm hc
    · simp only [List.mem_singleton, Prod.mk.injEq] at hm
      obtain ⟨rfl, rfl⟩ := hm
      exact h hc

theorem flags_rule (o : ObsIn) (dt : Int) (items : List ObsItem) (hL : ∀ it ∈ items, ∀ e, it.epoch = some e → Legal e) :
    ∀ last pre0, (∀ t, LastKept o pre0 t ↔ last = some t) → (∀ t, last = some t → Legal t) →
    ∀ pre it b post c n e, flagsOf o dt last items = pre ++ (it, b) :: post → Considered o it c n e → (b = true ↔ KeepRule o dt (pre0 ++ pre) e) := by
  induction items with
  | nil => intro last pre0 _ _ pre it b post c n e h; simp [flagsOf] at h
  | cons it0 its ih =>
    intro last pre0 hk hl pre it b post c n e h hc
    have ih := ih (fun it' hi => hL it' (by simp [hi]))
    simp only [flagsOf] at h
    -- the rule for the first item
    have rule : ∀ c n e, Considered o it0 c n e → (KeepRule o dt pre0 e ↔ decimate (some dt) last e ≠ none) := by
      intro c n e hc
      have hle := hL it0 (by simp) e hc.2.1
      unfold KeepRule
      simp only [hk]
      cases last with
      | none => simp [decimate]
      | some t =>
        have hlt := hl t rfl
        simp only [Option.some.injEq, forall_eq', false_or, exists_eq_left', decimate]
        by_cases h1 : t = e
        · subst h1; simp
        · simp only [h1, if_false]
          have hs : instant e - instant t = e.sub t := by
            unfold DateTime.sub; rw [instant_eq hle, instant_eq hlt]
          rw [hs]
          by_cases h2 : e.sub t < dt
          · simp only [h2, if_true]
            constructor
            · rintro (h | h)
              · exact absurd h.symm h1
              · omega
            · intro h; exact absurd rfl h
          · simp only [h2, if_false]
            constructor
            · intro _ h; cases h
            · intro _; right; omega
    have app : ∀ (p : ObsItem × Bool) (pre : List (ObsItem × Bool)), pre0 ++ p :: pre = (pre0 ++ [p]) ++ pre := by intro p pre; simp
    cases ha : admit o (some dt) last it0 with
    | error er =>
      have hno : ∀ c n e, ¬ Considered o it0 c n e := by
        intro c n e hc
        have := ((considered_iff ..).1 hc).1
        rw [(admit_error ..).1 ha] at this; cases this
      rw [ha] at h
      simp only at h
      cases pre with
      | nil =>
        simp only [List.nil_append, List.cons.injEq, Prod.mk.injEq] at h
        obtain ⟨⟨rfl, -⟩, -⟩ := h
        exact absurd hc (hno _ _ _)
      | cons p pre =>
        simp only [List.cons_append, List.cons.injEq] at h
        obtain ⟨rfl, h⟩ := h
        rw [app]
        refine ih last _ ?_ hl pre it b post c n e h hc
        intro t
        rw [lastKept_other o pre0 it0 true t (by rintro ⟨c, n, e, hc⟩; exact absurd hc (hno _ _ _))]
        exact hk t
    | ok q =>
      cases q with
      | some q =>
        obtain ⟨c0, n0, e0, last'⟩ := q
        obtain ⟨hc0, hd0⟩ := (admit_some ..).1 ha
        rw [ha] at h
        simp only at h
        cases pre with
        | nil =>
          simp only [List.nil_append, List.cons.injEq, Prod.mk.injEq] at h
          obtain ⟨⟨rfl, rfl⟩, -⟩ := h
          obtain ⟨rfl, rfl, rfl⟩ := considered_unique o it0 c c0 n n0 e e0 hc hc0
          simp only [List.append_nil, true_iff]
          exact (rule _ _ _ hc).2 (by rw [hd0]; simp)
        | cons p pre =>
          simp only [List.cons_append, List.cons.injEq] at h
          obtain ⟨rfl, h⟩ := h
          have hl' : last' = some e0 := by
            unfold decimate at hd0
            split at hd0
            · contradiction
            · split at hd0
              · cases hd0; rfl
              · split at hd0
                · rename_i heq; cases hd0; rw [heq]
                · split at hd0
                  · cases hd0
                  · cases hd0; rfl
          rw [app]
          refine ih last' _ ?_ ?_ pre it b post c n e h hc
          · intro t
            rw [lastKept_kept o pre0 it0 c0 n0 e0 t hc0, hl']
            simp [eq_comm]
          · intro t ht
            rw [hl'] at ht; cases ht
            exact hL it0 (by simp) _ hc0.2.1
      | none =>
        obtain ⟨hd, hdec⟩ := (admit_none ..).1 ha
        rw [ha] at h
        simp only at h
        have hflag : ∃ b0, flagsOf o dt last (it0 :: its) = (it0, b0) :: flagsOf o dt last its ∧ ((∃ c n e, Considered o it0 c n e) → b0 = false) := by
          simp only [flagsOf, ha]
          cases hb : admit o none none it0 with
          | error er => exact ⟨true, rfl, by
              rintro ⟨c, n, e, hc⟩
              have := ((considered_iff ..).1 hc).1
              rw [(admit_error ..).1 hb] at this; cases this⟩
          | ok q =>
            cases q with
            | some q => exact ⟨false, rfl, fun _ => rfl⟩
            | none => exact ⟨true, rfl, by
                rintro ⟨c, n, e, hc⟩
                have := ((admit_none ..).1 hb).2 c n e hc
                simp [decimate] at this⟩
        obtain ⟨b0, hf, hb0⟩ := hflag
        have h' : (it0, b0) :: flagsOf o dt last its = pre ++ (it, b) :: post := by
          rw [← hf]; simp only [flagsOf, ha]; exact h
        clear h
        cases pre with
        | nil =>
          simp only [List.nil_append, List.cons.injEq, Prod.mk.injEq] at h'
          obtain ⟨⟨rfl, rfl⟩, -⟩ := h'
          rw [hb0 ⟨c, n, e, hc⟩]
          simp only [Bool.false_eq_true, List.append_nil, false_iff]
          rw [rule _ _ _ hc, hdec _ _ _ hc]
          simp
        | cons p pre =>
          simp only [List.cons_append, List.cons.injEq] at h'
          obtain ⟨rfl, h⟩ := h'
          rw [app]
          refine ih last _ ?_ hl pre it b post c n e h hc
          intro t
          rw [lastKept_other o pre0 it0 b0 t hb0]
          exact hk t

theorem decimated (o : ObsIn) (dt : Int) (items : List ObsItem) (hL : ∀ it ∈ items, ∀ e, it.epoch = some e → Legal e) :
    Decimated o dt items (flagsOf o dt none items) := by
  refine ⟨flags_items o dt items none, ?_⟩
  intro pre it b post c n e h hc
  have := flags_rule o dt items hL none [] (by
    intro t
    simp only [reduceCtorEq, iff_false]
    rintro ⟨pre, it, post, h, -⟩
    simp at h) (by intro t h; cases h) pre it b post c n e h hc
  simpa using this

/-! ## the records -/

theorem records_run (P : Prm) (o : ObsIn) (xyz : Dict DateTime Pos) (items : List ObsItem)
    (good : P.cfg.navIgnoreAbsence = false ∨ ∀ it ∈ items, ∀ c n e, Considered o it c n e → ¬ ArithError P c n e) :
    ∀ last s seen, SInv P (dayOf o) s → (∀ c, s.navMsg.has c = true ↔ c ∈ seen) → (runItems P o none xyz items last s).2 = none →
      ∃ new, (runItems P o none xyz items last s).1.ops = s.ops ++ new ∧ RecordsOf P o xyz seen items (writesOf new) := by
  induction items with
  | nil => intro last s seen h _ _; exact ⟨[], by simp [runItems], .nil seen⟩
  | cons it its ih =>
    intro last s seen h hseen
    have ih := ih (good.imp id fun hg it' hi => hg it' (by simp [hi]))
    simp only [runItems]
    cases ha : admit o none last it with
    | error er => simp
    | ok a =>
      cases a with
      | none =>
        simp only
        intro he
        obtain ⟨new, i1, i2⟩ := ih last s seen h hseen he
        refine ⟨new, i1, .other seen it its _ ?_ i2⟩
        intro c n e hc
        have := ((admit_none ..).1 ha).2 c n e hc
        simp [decimate] at this
      | some q =>
        obtain ⟨c, n, e, last'⟩ := q
        simp only
        obtain ⟨hc, -⟩ := (admit_some ..).1 ha
        have hp := process_spec P o xyz it c n e s (by rw [← dayOf_considered hc]; exact h)
        generalize process P o xyz it c n e s = R at *
        obtain ⟨t, er⟩ := R
        obtain ⟨new, p1, -, p3⟩ := hp.ops
        simp only at p1 p3 ⊢
        cases er with
        | some er => simp
        | none =>
          simp only
          intro he
          have hinv := hp.inv rfl
          rw [← dayOf_considered hc] at hinv
          have hseen' : ∀ c', t.navMsg.has c' = true ↔ c' ∈ c :: seen := by
            intro c'
            have := hp.seen rfl c'
            simp only at this
            rw [this]
            rw [Bool.or_eq_true, decide_eq_true_iff, hseen, List.mem_cons, eq_comm (a := c)]
          obtain ⟨new2, i1, i2⟩ := ih last' t (c :: seen) hinv hseen' he
          refine ⟨new ++ new2, by rw [i1, p1]; simp, ?_⟩
          have p3 := p3 rfl
          rw [writesOf_append, p3]
          have nonav : navFlow P e.date c (s.navMsg.has c) ≠ .skip → navFlow P e.date c (s.navMsg.has c) = .next →
              (c ∈ seen ∨ ∃ m, P.load e.date c = .ok m) := by
            intro _ hnext
            unfold navFlow at hnext
            split at hnext
            · rename_i hh; exact .inl ((hseen c).1 hh)
            · split at hnext
              · split at hnext <;> cases hnext
              · rename_i m hm; exact .inr ⟨m, hm⟩
          rcases hp.noerr rfl with hskip | ⟨hnext, hrest⟩
          · simp only [hskip, if_true, List.nil_append]
            refine .lost seen it its _ c n e hc ?_ ?_ i2
            · intro hm
              rw [← hseen] at hm
              rw [hm] at hskip
              simp [navFlow] at hskip
            · unfold navFlow at hskip
              split at hskip
              · cases hskip
              · split at hskip
                · rename_i er her
                  split at hskip
                  · rename_i hor
                    rcases hor with rfl | rfl
                    · exact .inl her
                    · exact .inr her
                  · cases hskip
                · cases hskip
          · have hns : navFlow P e.date c (s.navMsg.has c) ≠ .skip := by rw [hnext]; simp
            have hav := nonav hns hnext
            simp only [hns, if_false]
            have arith : ArithError P c n e → ∀ vals, ¬ Gives P xyz it c n e vals := by
              intro hae vals hgv
              rcases good with hg | hg
              · obtain ⟨x, l, sp, el, az, hgeo⟩ := hgv.geometry
                rcases hgeo.direction with ⟨⟨dt, eph, q1, q2⟩, -⟩ | ⟨hi, -⟩
                · obtain ⟨dt', eph', q3, q4⟩ := hae
                  rw [ephemeris_iff] at q1 q3
                  rw [q1] at q3
                  cases q3
                  rw [q2] at q4
                  simp at q4
                · rw [hg] at hi; cases hi
              · exact hg it (by simp) c n e hc hae
            by_cases h2 : s.g.satXyz.has (c, n, e) = false ∧ posFlow P c n e = .skip
            · rw [if_pos h2, List.nil_append]
              exact .none seen it its _ c n e hc hav (arith ((arith_iff ..).2 h2.2)) i2
            · rw [if_neg h2]
              rcases hrest with hh | ⟨x, hx⟩
              · exact absurd hh h2
              · unfold writesFor
                cases x with
                | none =>
                  simp only [hx, List.nil_append]
                  exact .none seen it its _ c n e hc hav (recOf_none P xyz it c n e hc.2.2.1 hx) i2
                | some v =>
                  simp only [hx, List.cons_append, List.nil_append]
                  exact .record seen it its _ c n e v hc hav (recOf_gives P xyz it c n e hc.2.2.1 v hx) i2

end Verif.Proofs
