import Verif.Proofs.MainRecord
/-!
# Proofs: the loop over the items and the files
-/
namespace Verif.Proofs
open Verif.Py Verif.Model Verif.Spec Verif.Props

abbrev Rec := Str × DateTime × List (Option FVal)

theorem decode_ok (it : ObsItem) (c : Char) (n : Int) (e : DateTime) : decode it = .ok (c, n, e) ↔ SatIs it c n ∧ it.epoch = some e := by
  unfold decode SatIs
  cases it.sat with
  | nil => simp
  | cons a r =>
    simp only [List.cons.injEq]
    cases hr : pyInt r with
    | error er =>
      simp only [reduceCtorEq, false_iff, not_and]
      rintro ⟨r', ⟨rfl, rfl⟩, h⟩; rw [hr] at h; cases h
    | ok m =>
      simp only
      cases it.epoch with
      | none => simp
      | some e' =>
        simp only [Except.ok.injEq, Prod.mk.injEq, Option.some.injEq]
        constructor
        · rintro ⟨rfl, rfl, rfl⟩; exact ⟨⟨r, ⟨rfl, rfl⟩, hr⟩, rfl⟩
        · rintro ⟨⟨r', ⟨rfl, rfl⟩, h⟩, rfl⟩; rw [hr] at h; cases h; exact ⟨rfl, rfl, rfl⟩

theorem considered_iff (o : ObsIn) (it : ObsItem) (c : Char) (n : Int) (e : DateTime) :
    Considered o it c n e ↔ decode it = .ok (c, n, e) ∧ c ∈ supported ∧ some e.date = o.fileDate := by
  unfold Considered
  rw [decode_ok, processed_mem, eq_comm (a := o.fileDate)]
  tauto

theorem considered_unique (o : ObsIn) (it : ObsItem) (c c' : Char) (n n' : Int) (e e' : DateTime) (h : Considered o it c n e) (h' : Considered o it c' n' e') :
    c = c' ∧ n = n' ∧ e = e' := by
  have := ((considered_iff ..).1 h).1.symm.trans ((considered_iff ..).1 h').1
  simpa using this

theorem admit_some (o : ObsIn) (sampling : Option Int) (last : Option DateTime) (it : ObsItem) (c : Char) (n : Int) (e : DateTime) (last' : Option DateTime) :
    admit o sampling last it = .ok (some (c, n, e, last')) ↔ Considered o it c n e ∧ decimate sampling last e = some last' := by
  rw [considered_iff]
  unfold admit
  cases hd : decode it with
  | error er => simp
  | ok r =>
    obtain ⟨c', n', e'⟩ := r
    simp only [Except.ok.injEq, Prod.mk.injEq]
    split
    · simp only [Except.ok.injEq, reduceCtorEq, false_iff]
      rintro ⟨⟨⟨rfl, rfl, rfl⟩, h1, h2⟩, -⟩; contradiction
    · split
      · simp only [Except.ok.injEq, reduceCtorEq, false_iff]
        rintro ⟨⟨⟨rfl, rfl, rfl⟩, h1, h2⟩, -⟩; contradiction
      · rename_i h1 h2
        have h1 := not_not.1 h1
        have h2 := not_not.1 h2
        cases hdec : decimate sampling last e' with
        | none =>
          simp only [Except.ok.injEq, reduceCtorEq, false_iff]
          rintro ⟨⟨⟨rfl, rfl, rfl⟩, -⟩, h⟩; rw [hdec] at h; cases h
        | some q =>
          simp only [Except.ok.injEq, Option.some.injEq, Prod.mk.injEq]
          constructor
          · rintro ⟨rfl, rfl, rfl, rfl⟩; exact ⟨⟨⟨rfl, rfl, rfl⟩, h1, h2⟩, hdec⟩
          · rintro ⟨⟨⟨rfl, rfl, rfl⟩, -⟩, h⟩; rw [hdec] at h; cases h; exact ⟨rfl, rfl, rfl, rfl⟩

theorem admit_error (o : ObsIn) (sampling : Option Int) (last : Option DateTime) (it : ObsItem) (er : PyErr) :
    admit o sampling last it = .error er ↔ decode it = .error er := by
  unfold admit
  cases decode it with
  | error er' => simp
  | ok r =>
    obtain ⟨c, n, e⟩ := r
    simp only [reduceCtorEq, iff_false]
    split
    · simp
    · split
      · simp
      · split <;> simp

theorem admit_none (o : ObsIn) (sampling : Option Int) (last : Option DateTime) (it : ObsItem) :
    admit o sampling last it = .ok none ↔ (∃ r, decode it = .ok r) ∧ ∀ c n e, Considered o it c n e → decimate sampling last e = none := by
  constructor
  · intro h
    refine ⟨?_, ?_⟩
    · cases hd : decode it with
      | error er => rw [(admit_error ..).2 hd] at h; cases h
      | ok r => exact ⟨r, rfl⟩
    · intro c n e hc
      cases hdec : decimate sampling last e with
      | none => rfl
      | some q => rw [(admit_some ..).2 ⟨hc, hdec⟩] at h; cases h
  · rintro ⟨⟨r, hr⟩, h⟩
    cases ha : admit o sampling last it with
    | error er => rw [(admit_error ..).1 ha] at hr; cases hr
    | ok a =>
      cases a with
      | none => rfl
      | some q =>
        obtain ⟨c, n, e, l⟩ := q
        obtain ⟨h1, h2⟩ := (admit_some ..).1 ha
        rw [h c n e h1] at h2; cases h2

/-- the date of the file -/
def dayOf (o : ObsIn) : Date := o.fileDate.getD ⟨0, 0, 0⟩

theorem dayOf_considered {o : ObsIn} {it : ObsItem} {c : Char} {n : Int} {e : DateTime} (h : Considered o it c n e) : dayOf o = e.date := by
  unfold dayOf; rw [h.2.2.2]; rfl

/-- why the loop ends with an exception -/
inductive Fails (P : Prm) (o : ObsIn) (xyz : Dict DateTime Pos) (items : List ObsItem) (er : PyErr) : Prop
  | item (it : ObsItem) : it ∈ items → decode it = .error er → Fails P o xyz items er
  | nav (it : ObsItem) (c n e b) : it ∈ items → Considered o it c n e → navFlow P e.date c b = .stop er → Fails P o xyz items er
  | pos (it : ObsItem) (c n e) : it ∈ items → Considered o it c n e → posFlow P c n e = .stop er → Fails P o xyz items er
  | site (it : ObsItem) (c n e) : it ∈ items → Considered o it c n e → siteFlow P xyz it e = .stop er → Fails P o xyz items er
  | record (it : ObsItem) (c n e) : it ∈ items → Considered o it c n e → recOf P xyz it c n e = .error er → Fails P o xyz items er
  | format (it : ObsItem) (c n e v) : it ∈ items → Considered o it c n e → recOf P xyz it c n e = .ok (some v) →
      (recordText P.env P.cfg o.interval e v = .error er ∨ recordText P.env P.cfg o.interval e v = .ok none ∧ er = .type) → Fails P o xyz items er

theorem Fails.mono {P : Prm} {o : ObsIn} {xyz : Dict DateTime Pos} {L L' : List ObsItem} {er : PyErr} (h : Fails P o xyz L er) (hs : ∀ x ∈ L, x ∈ L') :
    Fails P o xyz L' er := by
  cases h with
  | item it h1 h2 => exact .item it (hs _ h1) h2
  | nav it c n e b h1 h2 h3 => exact .nav it c n e b (hs _ h1) h2 h3
  | pos it c n e h1 h2 h3 => exact .pos it c n e (hs _ h1) h2 h3
  | site it c n e h1 h2 h3 => exact .site it c n e (hs _ h1) h2 h3
  | record it c n e h1 h2 h3 => exact .record it c n e (hs _ h1) h2 h3
  | format it c n e v h1 h2 h3 h4 => exact .format it c n e v (hs _ h1) h2 h3 h4

structure RunOk (P : Prm) (o : ObsIn) (xyz : Dict DateTime Pos) (items : List ObsItem) (s : St) (r : St × Option PyErr) : Prop where
  inv : r.2 = none → SInv P (dayOf o) r.1
  ops : ∃ new, r.1.ops = s.ops ++ new ∧ ∀ w ∈ writesOf new, ∃ it ∈ items, ∃ c n e, Considered o it c n e ∧ w ∈ writesFor P xyz it c n e
  fail : ∀ er, r.2 = some er → Fails P o xyz items er
  winv : ∀ fs0, WInv P o fs0 s → ∃ er, runOps P.env P.cfg o.filename o.interval r.1.ops Writer.new fs0 = ⟨r.1.w, r.1.fs, er⟩ ∧ (er = none ∨ er = r.2)

theorem runItems_spec (P : Prm) (o : ObsIn) (sampling : Option Int) (xyz : Dict DateTime Pos) (items : List ObsItem) :
    ∀ last s, SInv P (dayOf o) s → RunOk P o xyz items s (runItems P o sampling xyz items last s) := by
  induction items with
  | nil =>
    intro last s h
    simp only [runItems]
    exact ⟨fun _ => h, ⟨[], by simp, by intro w hw; cases hw⟩, (by intro er h; cases h), fun fs0 hw => ⟨none, hw, .inl rfl⟩⟩
  | cons it its ih =>
    intro last s h
    simp only [runItems]
    cases ha : admit o sampling last it with
    | error er =>
      simp only
      exact ⟨(by intro h; cases h), ⟨[], by simp, by intro w hw; cases hw⟩,
        (by intro er' h'; cases h'; exact .item it (by simp) ((admit_error ..).1 ha)), fun fs0 hw => ⟨none, hw, .inl rfl⟩⟩
    | ok a =>
      cases a with
      | none =>
        simp only
        obtain ⟨i1, ⟨new, i2, i3⟩, i4, i5⟩ := ih last s h
        refine ⟨i1, ⟨new, i2, ?_⟩, fun er he => (i4 er he).mono (by intro x hx; simp [hx]), i5⟩
        intro w hw
        obtain ⟨it', hi, hh⟩ := i3 w hw
        exact ⟨it', by simp [hi], hh⟩
      | some q =>
        obtain ⟨c, n, e, last'⟩ := q
        simp only
        obtain ⟨hc, -⟩ := (admit_some ..).1 ha
        have hp := process_spec P o xyz it c n e s (by rw [← dayOf_considered hc]; exact h)
        generalize process P o xyz it c n e s = R at *
        obtain ⟨t, er⟩ := R
        obtain ⟨new, p1, p2, -⟩ := hp.ops
        simp only at p1 ⊢
        have hnew : ∀ w ∈ writesOf new, ∃ it' ∈ it :: its, ∃ c n e, Considered o it' c n e ∧ w ∈ writesFor P xyz it' c n e := by
          intro w hw
          rcases p2 with p2 | p2
          · rw [p2] at hw; cases hw
          · exact ⟨it, by simp, c, n, e, hc, by rw [← p2]; exact hw⟩
        cases er with
        | some er =>
          simp only
          refine ⟨(by intro h; cases h), ⟨new, p1, hnew⟩, ?_, hp.winv⟩
          intro er' h'
          cases h'
          rcases hp.fail er rfl with h | h | h | h | ⟨v, h1, h2⟩
          · exact .nav it c n e _ (by simp) hc h
          · exact .pos it c n e (by simp) hc h
          · exact .site it c n e (by simp) hc h
          · exact .record it c n e (by simp) hc h
          · exact .format it c n e v (by simp) hc h1 h2
        | none =>
          simp only
          have hinv := hp.inv rfl
          rw [← dayOf_considered hc] at hinv
          obtain ⟨i1, ⟨new2, i2, i3⟩, i4, i5⟩ := ih last' t hinv
          refine ⟨i1, ⟨new ++ new2, by rw [i2, p1]; simp, ?_⟩, fun er he => (i4 er he).mono (by intro x hx; simp [hx]), ?_⟩
          · intro w hw
            rw [writesOf_append] at hw
            rcases List.mem_append.1 hw with hw | hw
            · exact hnew w hw
            · obtain ⟨it', hi, hh⟩ := i3 w hw
              exact ⟨it', by simp [hi], hh⟩
          · intro fs0 hw
            obtain ⟨er, w1, w2⟩ := hp.winv fs0 hw
            apply i5
            rcases w2 with rfl | rfl <;> exact w1

/-! ## the reference -/

/-- the records of the items; `seen` are the systems that occurred before -/
def refWrites (P : Prm) (o : ObsIn) (sampling : Option Int) (xyz : Dict DateTime Pos) : List ObsItem → Option DateTime → (Char → Bool) → List Rec
  | [], _, _ => []
  | it :: its, last, seen =>
    match admit o sampling last it with
    | .error _ => []
    | .ok none => refWrites P o sampling xyz its last seen
    | .ok (some (c, n, e, last)) =>
      (if navFlow P e.date c (seen c) = .skip then [] else writesFor P xyz it c n e) ++
        refWrites P o sampling xyz its last (fun c' => decide (c = c') || seen c')

theorem ref_spec (P : Prm) (o : ObsIn) (sampling : Option Int) (xyz : Dict DateTime Pos) (items : List ObsItem)
    (good : P.cfg.navIgnoreAbsence = false ∨ ∀ it ∈ items, ∀ c n e, Considered o it c n e → ¬ ArithError P c n e) :
    ∀ last s, SInv P (dayOf o) s → (runItems P o sampling xyz items last s).2 = none →
      ∃ new, (runItems P o sampling xyz items last s).1.ops = s.ops ++ new ∧ writesOf new = refWrites P o sampling xyz items last s.navMsg.has := by
  induction items with
  | nil => intro last s h _; exact ⟨[], by simp [runItems], rfl⟩
  | cons it its ih =>
    intro last s h
    have ih := ih (good.imp id fun hg it' hi => hg it' (by simp [hi]))
    simp only [runItems, refWrites]
    cases ha : admit o sampling last it with
    | error er => simp
    | ok a =>
      cases a with
      | none => simp only; exact ih last s h
      | some q =>
        obtain ⟨c, n, e, last'⟩ := q
        simp only
        obtain ⟨hc, -⟩ := (admit_some ..).1 ha
        have hp := process_spec P o xyz it c n e s (by rw [← dayOf_considered hc]; exact h)
        generalize process P o xyz it c n e s = R at *
        obtain ⟨t, er⟩ := R
        obtain ⟨new, p1, -, p3⟩ := hp.ops
        simp only at p1 p3 ⊢
        cases er with
        | some er => simp
        | none =>
          simp only
          intro he
          have hinv := hp.inv rfl
          rw [← dayOf_considered hc] at hinv
          obtain ⟨new2, i1, i2⟩ := ih last' t hinv he
          have hseen : t.navMsg.has = fun c' => decide (c = c') || s.navMsg.has c' := by
            funext c'; exact hp.seen rfl c'
          refine ⟨new ++ new2, by rw [i1, p1]; simp, ?_⟩
          rw [writesOf_append, p3 rfl, i2, hseen]
          congr 1
          by_cases h1 : navFlow P e.date c (s.navMsg.has c) = .skip
          · simp only [h1, if_true]
          · simp only [h1, if_false]
            by_cases h2 : s.g.satXyz.has (c, n, e) = false ∧ posFlow P c n e = .skip
            · simp only [h2, and_self, if_true]
              rcases good with hg | hg
              · have hpo : posOf P c n e = none := by
                  cases hpp : posOf P c n e with
                  | none => rfl
                  | some p =>
                    obtain ⟨dt, eph, q1, q2⟩ := (satAt_iff ..).2 hpp
                    obtain ⟨dt', eph', q3, q4⟩ := (arith_iff ..).2 h2.2
                    rw [ephemeris_iff] at q1 q3
                    rw [q1] at q3
                    cases q3
                    rw [q2] at q4
                    simp at q4
                unfold writesFor recOf angles
                simp only [hpo, hg, if_true]
                cases P.lbh (siteOf xyz it e) <;> simp
              · exact absurd ((arith_iff ..).2 h2.2) (hg it (by simp) c n e hc)
            · simp only [h2, if_false]

end Verif.Proofs
