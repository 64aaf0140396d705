import Verif.Spec.Output
import Verif.Props.Program
import Verif.Props.MainHeader
import Verif.Props.Config
/-!
# Output files of a run: preparations
-/
namespace Verif.Proofs
open Verif.Py Verif.Model Verif.Spec Verif.Props

/-! ## every time delivered is legal -/

theorem validateEpoch_any_legal {l : List Int} {t : DateTime} (h : validateEpoch l = .ok t) : Legal t := by
  unfold validateEpoch at h
  split at h
  · cases h
  · generalize fixComponent (l.set 0 (fullYear (l.getD 0 0))) 2 1 = r1 at h
    obtain ⟨l1, d1⟩ := r1
    simp only at h
    generalize fixComponent l1 3 60 = r2 at h
    obtain ⟨l2, d2⟩ := r2
    simp only [bind_eq_ok] at h
    obtain ⟨u, -, h⟩ := h
    unfold DateTime.add at h
    simp only at h
    split at h
    · cases h
      exact (legal_iff _).2 (DateTime.ofMicros_valid (by omega) (by omega))
    · cases h

theorem catching_ok_cases {α : Type} {x h : Except PyErr α} {cls : List PyErr} {a : α} (hh : catching x cls h = .ok a) : x = .ok a ∨ h = .ok a := by
  cases x with
  | ok b => left; exact hh
  | error e =>
    simp only [catching_error] at hh
    split at hh
    · exact .inr hh
    · cases hh

theorem epochDate3_legal {line : Str} {t : DateTime} (h : epochDate3 line = .ok (some t)) : Legal t := by
  unfold epochDate3 at h
  rcases catching_ok_cases h with h | h
  · simp only [bind, Except.bind] at h
    split at h
    · cases h
    split at h
    · cases h
    split at h
    · cases h
    split at h
    · cases h
    · rename_i u hu
      cases h
      exact validateEpoch_any_legal hu
  · cases h

theorem parseEpoch3_legal {line : Str} {ep : Epoch3} (h : parseEpoch3 line = .ok ep) : ∀ t, ep.epoch = some t → Legal t := by
  unfold parseEpoch3 at h
  split at h
  · cases h
  · cases h
  split at h
  · cases h
  · rename_i u hu
    split at h
    · cases h
    split at h
    · cases h
    split at h
    · cases h
    · cases h
      intro t ht
      simp only at ht
      subst ht
      exact epochDate3_legal hu

theorem dataLine3_epoch {chunks : List (Nat × Nat)} {line : Str} {ep : Epoch3} {sp : List Str} {o : Obj3} {y : Option Rec3} {l' : Loc3} {o' : Obj3}
    (h : dataLine3 chunks line ep sp o = .ok (y, l', o')) :
    (∀ r, y = some r → r.epoch = ep.epoch) ∧ ∃ ep', l'.ep = some ep' ∧ ep'.epoch = ep.epoch := by
  unfold dataLine3 at h
  split at h
  · split at h
    · cases h
    split at h
    · cases h
    split at h
    · cases h
    split at h
    · cases h
    · cases h
      exact ⟨fun r hr => by cases hr; rfl, _, rfl, rfl⟩
  · cases h
    exact ⟨fun r hr => (by cases hr), _, rfl, rfl⟩

theorem eventLine3_epoch {v : Nat} {line : Str} {ep : Epoch3} {sp : List Str} {o : Obj3} {y : Option Rec3} {l' : Loc3} {o' : Obj3}
    (h : eventLine3 v line ep sp o = .ok (y, l', o')) : y = none ∧ ∃ ep', l'.ep = some ep' ∧ ep'.epoch = ep.epoch := by
  unfold eventLine3 at h
  simp only at h
  generalize (if ep.num > 0 then sp ++ [line] else sp) = sp' at h
  generalize (if ep.num > 0 then ep.num - 1 else ep.num) = n at h
  by_cases hn : n = 0
  · rw [if_pos hn] at h
    cases hh : handleEvent3 v ep.flag sp' o with
    | error e => rw [hh] at h; cases h
    | ok o2 => rw [hh] at h; cases h; exact ⟨rfl, _, rfl, rfl⟩
  · rw [if_neg hn] at h
    cases h; exact ⟨rfl, _, rfl, rfl⟩

/-- the epoch remembered by the reader is legal -/
def LegalLoc (l : Loc3) : Prop := ∀ ep t, l.ep = some ep → ep.epoch = some t → Legal t

theorem step3_legal {v : Nat} {chunks : List (Nat × Nat)} {line : Str} {l : Loc3} {o : Obj3} (hl : LegalLoc l) {y : Option Rec3} {l' : Loc3} {o' : Obj3}
    (h : step3 v chunks line l o = .ok (y, l', o')) : LegalLoc l' ∧ ∀ r t, y = some r → r.epoch = some t → Legal t := by
  unfold step3 at h
  split at h
  · cases h
  · split at h
    · cases h
    · rename_i ep hep
      cases h
      refine ⟨?_, fun r t hr => (by cases hr)⟩
      rintro ep' t ⟨⟩ ht
      exact parseEpoch3_legal hep t ht
  · split at h
    · cases h
    · rename_i ep hep
      split at h
      · obtain ⟨rfl, ep', h1, h2⟩ := eventLine3_epoch h
        refine ⟨?_, fun r t hr => (by cases hr)⟩
        intro ep'' t h3 h4
        rw [h1] at h3
        cases h3
        exact hl ep t hep (by rw [← h2]; exact h4)
      · obtain ⟨h0, ep', h1, h2⟩ := dataLine3_epoch h
        have he : (if ep.flag = 1 then { ep with flag := 0 } else ep).epoch = ep.epoch := by split <;> rfl
        rw [he] at h0 h2
        refine ⟨?_, ?_⟩
        · intro ep'' t h3 h4
          rw [h1] at h3
          cases h3
          exact hl ep t hep (by rw [← h2]; exact h4)
        · intro r t hr ht
          exact hl ep t hep (by rw [← h0 r hr]; exact ht)

theorem readLoop3_legal (v : Nat) (chunks : List (Nat × Nat)) (ls : List Str) :
    ∀ l o, LegalLoc l → ∀ y ∈ (readLoop3 v chunks ls l o).yields, ∀ t, y.1.epoch = some t → Legal t := by
  induction ls with
  | nil => intro l o _ y hy; cases hy
  | cons line ls ih =>
    intro l o hl y hy
    simp only [readLoop3] at hy
    cases hs : step3 v chunks line l o with
    | error e => rw [hs] at hy; cases hy
    | ok r =>
      obtain ⟨z, l', o'⟩ := r
      rw [hs] at hy
      obtain ⟨h1, h2⟩ := step3_legal hl hs
      cases z with
      | none => exact ih l' o' h1 y hy
      | some rec =>
        rcases List.mem_cons.1 hy with rfl | hy
        · exact fun t ht => h2 rec t rfl ht
        · exact ih l' o' h1 y hy

/-- the time of the first observation, if known, is legal -/
def LegalHdr (h : HeaderVals) : Prop := ∀ t s, h.tofo = some (t, s) → Legal t

theorem parseTofo_legal {v : Nat} {line : Str} {t : DateTime} {s : Str} (h : parseTofo v line = .ok (t, s)) : Legal t := by
  unfold parseTofo at h
  simp only [bind, Except.bind] at h
  split at h
  · cases h
  split at h
  · cases h
  split at h
  · cases h
  split at h
  · cases h
  · rename_i u hu
    cases h
    exact validateEpoch_any_legal hu

theorem assign_legal {v : Nat} {i : HItem} {line : Str} {h h' : HeaderVals} (hl : LegalHdr h) (ha : i.assign v line h = .ok h') : LegalHdr h' := by
  cases i <;> simp only [HItem.assign, bind, Except.bind] at ha <;> split at ha <;> first | cases ha; done | skip
  · cases ha; exact hl
  · rename_i u hu
    cases ha
    rintro t s ⟨⟩
    exact parseTofo_legal hu
  · cases ha; exact hl
  · cases ha; exact hl

theorem parseHeaderGo_legal (v : Nat) (ls : List Str) : ∀ items h h', LegalHdr h → parseHeaderGo v ls items h = .ok h' → LegalHdr h' := by
  induction ls with
  | nil => intro items h h' hl hh; cases hh; exact hl
  | cons line ls ih =>
    intro items h h' hl hh
    simp only [parseHeaderGo] at hh
    split at hh
    · exact ih _ _ _ hl hh
    · rename_i i _
      cases ha : i.assign v line h with
      | error e => rw [ha] at hh; cases hh
      | ok h1 =>
        rw [ha] at hh
        exact ih _ _ _ (assign_legal hl ha) hh

theorem empty_legal : LegalHdr .empty := by intro t s h; cases h

theorem readBlock_hdr {c : Cfg2} {st : St2} {line : Str} {ls : List Str} (h : LegalHdr st.hdr) {ys : List (Rec2 × St2)} {st' : St2} {ls' : List Str}
    (hb : readBlock c st line ls = (ys, .ok (st', ls'))) : LegalHdr st'.hdr := by
  unfold readBlock at hb
  split at hb
  · cases hb
  split at hb
  · split at hb
    · cases hb
    split at hb
    · cases hb
    · rename_i hh
      cases hb
      exact parseHeaderGo_legal _ _ _ _ _ h hh
  · split at hb
    · split at hb
      · cases hb
      · cases hb; exact h
    · split at hb
      · cases hb
      · split at hb
        · cases hb
        · cases hb; exact h

theorem readSats_state (c : Cfg2) (st : St2) (t : DateTime) (prns : List Str) : ∀ ls, ∀ y ∈ (readSats c st t prns ls).1, y.2 = st := by
  induction prns with
  | nil => intro ls y hy; cases hy
  | cons p prns ih =>
    intro ls y hy
    simp only [readSats] at hy
    split at hy
    · cases hy
    split at hy
    · cases hy
    split at hy
    · exact ih _ y hy
    · rcases List.mem_cons.1 hy with rfl | hy
      · rfl
      · exact ih _ y hy

theorem readBlock_yields {c : Cfg2} {st : St2} {line : Str} {ls : List Str} : ∀ y ∈ (readBlock c st line ls).1, y.2 = st := by
  intro y hy
  unfold readBlock at hy
  split at hy
  · cases hy
  split at hy
  · split at hy
    · cases hy
    split at hy <;> cases hy
  · split at hy
    · split at hy <;> cases hy
    · split at hy
      · cases hy
      · rename_i t _
        have hs := readSats_state c st t
        split at hy
        · rename_i he; have := hs _ _ y (by rw [he]; exact hy); exact this
        · rename_i he; have := hs _ _ y (by rw [he]; exact hy); exact this

theorem readLoop_hdr (c : Cfg2) (fuel : Nat) : ∀ st ls, LegalHdr st.hdr →
    (∀ y ∈ (readLoop c fuel st ls).yields, LegalHdr y.2.hdr) ∧ ∀ st', (readLoop c fuel st ls).stop = .ok st' → LegalHdr st'.hdr := by
  induction fuel with
  | zero =>
    intro st ls h
    cases ls with
    | nil => exact ⟨fun y hy => (by cases hy), fun st' h' => (by cases h'; exact h)⟩
    | cons => exact ⟨fun y hy => (by cases hy), fun st' h' => (by cases h'; exact h)⟩
  | succ n ih =>
    intro st ls h
    cases ls with
    | nil => exact ⟨fun y hy => (by cases hy), fun st' h' => (by cases h'; exact h)⟩
    | cons line ls =>
      simp only [readLoop]
      have hy1 := @readBlock_yields c st line ls
      cases hb : readBlock c st line ls with
      | mk ys r =>
        rw [hb] at hy1
        cases r with
        | error e => exact ⟨fun y hy => (by rw [hy1 y hy]; exact h), fun st' h' => (by cases h')⟩
        | ok r =>
          obtain ⟨st1, ls1⟩ := r
          obtain ⟨h1, h2⟩ := ih st1 ls1 (readBlock_hdr h hb)
          refine ⟨?_, h2⟩
          intro y hy
          rcases List.mem_append.1 hy with hy | hy
          · rw [hy1 y hy]; exact h
          · exact h1 y hy

theorem collectDeltas_state (n : Nat) (ys : List (Rec2 × St2)) : ∀ e ds st0 ds' st, collectDeltas n ys e ds st0 = .enough ds' st → ∃ y ∈ ys, y.2 = st := by
  induction ys with
  | nil => intro e ds st0 ds' st h; cases h
  | cons y ys ih =>
    intro e ds st0 ds' st h
    simp only [collectDeltas] at h
    have lift : (∃ y' ∈ ys, y'.2 = st) → ∃ y' ∈ y :: ys, y'.2 = st := fun ⟨y', h1, h2⟩ => ⟨y', by simp [h1], h2⟩
    split at h
    · exact lift (ih _ _ _ _ _ h)
    · split at h
      · exact lift (ih _ _ _ _ _ h)
      · split at h
        · exact lift (ih _ _ _ _ _ h)
        · cases h; exact ⟨y, by simp, rfl⟩

theorem openObs2_legal {v : Nat} {file : List Str} {o : Obs2} (h : openObs2 v file = .ok o) : LegalHdr o.st.hdr := by
  unfold openObs2 at h
  simp only [bind_eq_ok, pure_eq_ok] at h
  obtain ⟨types, -, hd, hh, ⟨dt, st⟩, hi, iv, -, rfl⟩ := h
  have h0 : LegalHdr hd := parseHeaderGo_legal _ _ _ _ _ empty_legal hh
  have h1 := readLoop_hdr ⟨v, types, linesPerRec types.length⟩ (splitHeader2 file).2.length ⟨hd, none⟩ (splitHeader2 file).2 h0
  show LegalHdr { st.hdr with interval := _ }
  suffices LegalHdr st.hdr from this
  unfold getInterval at hi
  split at hi
  · rename_i ds st1 hc
    simp only [bind_eq_ok, pure_eq_ok] at hi
    obtain ⟨i, -, hi⟩ := hi
    cases hi
    obtain ⟨y, hy, hst⟩ := collectDeltas_state _ _ _ _ _ _ _ hc
    rw [← hst]
    exact h1.1 y hy
  · split at hi
    · cases hi
    · rename_i st1 hs
      split at hi
      · cases hi
      · simp only [bind_eq_ok, pure_eq_ok] at hi
        obtain ⟨i, -, hi⟩ := hi
        cases hi
        exact h1.2 _ hs

theorem openObs3_legal {v fuel : Nat} {file : List Str} {o : Obs3} (h : openObs3 v fuel file = some (.ok o)) : LegalHdr o.obj.hdr := by
  unfold openObs3 at h
  simp only at h
  split at h
  · cases h
  rename_i o1 ho
  split at h
  · cases h
  · cases h
  split at h
  · cases h
  split at h
  · cases h
  · cases h
    show LegalHdr { o1.hdr with interval := _ }
    suffices LegalHdr o1.hdr from this
    unfold parseHeader3 at ho
    split at ho
    · cases ho
    · rename_i hh
      split at ho
      · cases ho
      · cases ho; exact parseHeaderGo_legal _ _ _ _ _ empty_legal hh

theorem allOf_mem {α β : Type} {f : α → Option β} {l : List α} {r : List β} (h : allOf f l = some r) : ∀ b ∈ r, ∃ a ∈ l, f a = some b := by
  induction l generalizing r with
  | nil => cases h; intro b hb; cases hb
  | cons a l ih =>
    simp only [allOf, Option.bind_eq_some_iff, Option.map_eq_some_iff] at h
    obtain ⟨b, hb, r', hr, rfl⟩ := h
    intro b' hb'
    rcases List.mem_cons.1 hb' with rfl | hb'
    · exact ⟨a, by simp, hb⟩
    · obtain ⟨a', h1, h2⟩ := ih hr b' hb'
      exact ⟨a', by simp [h1], h2⟩

theorem obsIn_some {path : Str} {h : HeaderVals} {items : List ObsItem} {stop : Except PyErr Unit} {o : ObsIn} (ho : obsIn path h items stop = some (.ok o)) :
    o.filename = path ∧ o.fileDate = getRinexDate path ∧ o.tofo = h.tofo ∧ o.items = items := by
  unfold obsIn at ho
  split at ho
  · cases ho
  · simp only [Option.bind_eq_some_iff, Option.map_eq_some_iff] at ho
    obtain ⟨p, -, i, -, ho⟩ := ho
    cases ho
    exact ⟨rfl, rfl, rfl, rfl⟩

/-- whatever the text of an observation file, the times it gives are legal -/
theorem obsFile_legal {D : Disk} {fuel : Nat} {path : Str} {o : ObsIn} (h : obsFile D fuel path = some (.ok o)) :
    o.filename = path ∧ o.fileDate = getRinexDate path ∧ (∀ t s, o.tofo = some (t, s) → Legal t) ∧ ∀ it ∈ o.items, ∀ e, it.epoch = some e → Legal e := by
  unfold obsFile at h
  split at h
  · cases h
  split at h
  · cases h
  split at h
  · split at h
    · cases h
    · rename_i o2 ho
      unfold obsIn2 at h
      simp only [Option.bind_eq_some_iff] at h
      obtain ⟨items, hi, h⟩ := h
      obtain ⟨h1, h2, h3, h4⟩ := obsIn_some h
      refine ⟨h1, h2, by rw [h3]; exact openObs2_legal ho, ?_⟩
      rw [h4]
      intro it hit e he
      obtain ⟨y, hy, hy2⟩ := allOf_mem hi it hit
      unfold itemOf2 at hy2
      simp only [Option.bind_eq_some_iff, Option.map_eq_some_iff] at hy2
      obtain ⟨r, -, p, -, rfl⟩ := hy2
      cases he
      exact readRecords2_legal o2.cfg _ o2.st o2.rest (Nat.le_refl _) y hy
  · split at h
    · cases h
    · cases h
    · rename_i o3 ho
      unfold obsIn3 at h
      simp only [Option.bind_eq_some_iff] at h
      obtain ⟨items, hi, h⟩ := h
      obtain ⟨h1, h2, h3, h4⟩ := obsIn_some h
      refine ⟨h1, h2, by rw [h3]; exact openObs3_legal ho, ?_⟩
      rw [h4]
      intro it hit e he
      obtain ⟨y, hy, hy2⟩ := allOf_mem hi it hit
      unfold itemOf3 at hy2
      simp only [Option.bind_eq_some_iff, Option.map_eq_some_iff] at hy2
      obtain ⟨r, -, p, -, rfl⟩ := hy2
      exact readLoop3_legal _ _ _ ⟨none, []⟩ _ (by intro ep t h; cases h) y hy e he

/-! ## paths of output files -/

theorem dig_lists {a b : Nat} {f : Nat → Str} (hv : ∀ n, n = a ∨ n = b → digitsVal (f n) = n) (h : f a = f b) : a = b := by
  rw [← hv a (.inl rfl), ← hv b (.inr rfl), h]

theorem append_slash {a b u v : Str} (ha : '/' ∉ a) (hb : '/' ∉ b) (h : a ++ '/' :: u = b ++ '/' :: v) : a = b ∧ u = v := by
  induction a generalizing b with
  | nil =>
    cases b with
    | nil => simpa using h
    | cons x b => simp only [List.nil_append, List.cons_append, List.cons.injEq] at h; exact absurd h.1 (fun e => hb (by rw [e]; simp))
  | cons x a ih =>
    cases b with
    | nil => simp only [List.nil_append, List.cons_append, List.cons.injEq] at h; exact absurd h.1 (fun e => ha (by simp [e]))
    | cons y b =>
      simp only [List.cons_append, List.cons.injEq] at h
      obtain ⟨h1, h2⟩ := ih (fun hh => ha (by simp [hh])) (fun hh => hb (by simp [hh])) h.2
      exact ⟨by rw [h.1, h1], h2⟩

theorem outputPath_inj {d m n s s' : Str} {t u : DateTime} (ht : Legal t) (hu : Legal u) (hm : '/' ∉ m) (hn : '/' ∉ n)
    (h : outputPath d m s t = outputPath d n s' u) : m = n ∧ s = s' ∧ t.date = u.date := by
  unfold outputPath at h
  simp only [List.append_assoc, List.cons_append] at h
  have h := List.append_cancel_left h
  simp only [List.cons.injEq, true_and] at h
  have hy : dig4 t.year = dig4 u.year ∧ dig3 (doy t) = dig3 (doy u) := by
    simp only [dig4, dig3, dig2, List.cons_append, List.nil_append, List.cons.injEq, true_and] at h
    obtain ⟨a1, a2, a3, a4, b1, b2, b3, -⟩ := h
    simp only [dig4, dig3, dig2, a1, a2, a3, a4, b1, b2, b3, and_self]
  rw [hy.1, hy.2] at h
  simp only [List.append_cancel_left_eq, List.cons.injEq, true_and] at h
  obtain ⟨h1, h2⟩ := append_slash hm hn h
  subst h1
  have e1 : t.year = u.year := dig_lists (f := dig4) (by
    rintro n (rfl | rfl)
    · exact digitsVal_dig4 (by have := ht.1.2.1; omega)
    · exact digitsVal_dig4 (by have := hu.1.2.1; omega)) hy.1
  have e2 : doy t = doy u := dig_lists (f := dig3) (by
    rintro n (rfl | rfl)
    · exact digitsVal_dig3 (by have := yday_eq ht; omega)
    · exact digitsVal_dig3 (by have := yday_eq hu; omega)) hy.2
  refine ⟨rfl, ?_, ?_⟩
  · rw [e1] at h2
    have h3 := List.append_cancel_left h2
    simp only [List.cons.injEq, true_and] at h3
    exact List.append_cancel_right h3
  · have hd : dayNumber t.year t.month t.day = dayNumber u.year u.month u.day := by
      unfold doy at e2
      unfold dayNumber
      rw [← e1] at e2 ⊢
      omega
    rw [dayNumber_eq ht.1, dayNumber_eq hu.1] at hd
    obtain ⟨h3, h4, h5⟩ := ymd2ord_inj ((legalDate_iff ..).1 ht.1) ((legalDate_iff ..).1 hu.1) hd
    unfold DateTime.date
    rw [h3, h4, h5]

/-! ## the format -/

theorem composed_columns (dtLen : Nat) (fields r : List Str) (fmt fort : Str) (h : composeRecFormat (formatDef dtLen) fields = .ok (r, fmt, fort)) :
    r ≠ [] ∧ (∀ f ∈ r, ∃ k, (f, k) ∈ columns) ∧ composeRecFormat (formatDef dtLen) r = .ok (r, fmt, fort) := by
  have key : ∀ l, l ≠ [] → (∀ f ∈ l, ∃ k, (f, k) ∈ columns) → composeRecFormat (formatDef dtLen) l = .ok (r, fmt, fort) → l = r := by
    intro l h1 h2 h3
    obtain ⟨fmt', fort', h4, -⟩ := C50_record dtLen l h1 h2
    rw [h3] at h4
    simp only [Except.ok.injEq, Prod.mk.injEq] at h4
    exact h4.1.symm
  by_cases hall : c% "all" ∈ fields
  · obtain ⟨names, h1, -, h2⟩ := C50_all dtLen fields hall
    rw [h2] at h
    have hne : names ≠ [] := by
      rintro rfl
      have := h1.length_eq
      simp [columns] at this
    have hc : ∀ f ∈ names, ∃ k, (f, k) ∈ columns := by
      intro f hf
      obtain ⟨⟨f', k⟩, hk, rfl⟩ := List.mem_map.1 (h1.mem_iff.1 hf)
      exact ⟨k, hk⟩
    obtain rfl := key names hne hc h
    exact ⟨hne, hc, h⟩
  · have hne : fields ≠ [] := by
      rintro rfl
      cases h
    have hc : ∀ f ∈ fields, ∃ k, (f, k) ∈ columns := by
      intro f hf
      by_contra hno
      have := C50_unknown dtLen fields hall f hf (fun k hk => hno ⟨k, hk⟩)
      rw [this] at h
      cases h
    obtain rfl := key fields hne hc h
    exact ⟨hne, hc, h⟩

theorem configured_format {X : Ext} {cfg : Cfg} (h : Configured X cfg) :
    cfg.recFields ≠ [] ∧ (∀ f ∈ cfg.recFields, ∃ k, (f, k) ∈ columns) ∧
      composeRecFormat (formatDef X.dtLen) cfg.recFields = .ok (cfg.recFields, cfg.recFormat, cfg.recFortranFormat) := by
  obtain ⟨ev, dtLen, filename, content, h, hd⟩ := h
  rw [hd]
  unfold readCfg at h
  split at h
  · cases h
  split at h
  · cases h
  split at h
  · cases h
  simp only at h
  split at h
  · cases h
  split at h
  · cases h
  split at h
  · cases h
  split at h
  · cases h
  rename_i hc
  split at h
  · cases h
  split at h
  · cases h
  · cases h
    exact composed_columns _ _ _ _ _ hc

/-- the line of a record of the main loop -/
theorem record_line (P : Prm) (hne : P.cfg.recFields ≠ []) (hc : ∀ f ∈ P.cfg.recFields, ∃ k, (f, k) ∈ columns)
    (hf : composeRecFormat (formatDef P.dtLen) P.cfg.recFields = .ok (P.cfg.recFields, P.cfg.recFormat, P.cfg.recFortranFormat))
    (xyz : Dict DateTime Pos) (it : ObsItem) (c : Char) (n : Int) (e : DateTime) (v : List (Option FVal))
    (h : recOf P xyz it c n e = .ok (some v)) (i : Rat) (hi : 0 ≤ i) (s : Str) (hs : recordText P.env P.cfg i e v = .ok (some s)) :
    RecordLine P i e v s := by
  have hi : 0 < i := by
    rcases hi.lt_or_eq with h | rfl
    · exact h
    · rw [C54_zero] at hs; cases hs
  obtain ⟨r, t, vd, el, az, sp, x, l, rfl⟩ := recOf_chunk P xyz it c n e v h
  obtain ⟨slot, full, texts, h1, h2, h3, h4⟩ := C55_record P.env P.cfg P.dtLen _ hne hc ⟨_, hf⟩ i hi e (chunk r t vd el az sp x l) rfl
    (fun i nk v a b => chunk_fits r t vd el az sp x l i nk v a b)
  rw [h4] at hs
  cases hs
  exact ⟨slot, full, texts, h1, h2, h3, rfl⟩

end Verif.Proofs
