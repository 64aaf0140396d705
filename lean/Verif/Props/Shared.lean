import Verif.Spec.Shared
import Verif.Props.Order
import Verif.Proofs.Run
/-!
# C87: a column does not depend on the other columns
-/
namespace Verif.Props
open Verif.Py Verif.Model Verif.Spec Verif.Proofs

/-- the runs differ in the columns only -/
structure SameBut (P P' : Prm) : Prop where
  env : P'.env = P.env
  lbh : P'.lbh = P.lbh
  satPos : P'.satPos = P.satPos
  elAz : P'.elAz = P.elAz
  load : P'.load = P.load
  cfg : OtherColumns P.cfg P'.cfg

theorem SameBut.ignore {P P' : Prm} (h : SameBut P P') : P'.cfg.navIgnoreAbsence = P.cfg.navIgnoreAbsence := by
  obtain ⟨_, _, _, hc⟩ := h.cfg; rw [hc]
theorem SameBut.text {P P' : Prm} (h : SameBut P P') : P'.cfg.outFileModeText = P.cfg.outFileModeText := by
  obtain ⟨_, _, _, hc⟩ := h.cfg; rw [hc]
theorem SameBut.format {P P' : Prm} (h : SameBut P P') : P'.cfg.datetimeFormat = P.cfg.datetimeFormat := by
  obtain ⟨_, _, _, hc⟩ := h.cfg; rw [hc]

theorem SameBut.symm {P P' : Prm} (h : SameBut P P') : SameBut P' P := by
  refine ⟨h.env.symm, h.lbh.symm, h.satPos.symm, h.elAz.symm, h.load.symm, P.cfg.recFields, P.cfg.recFormat, P.cfg.recFortranFormat, ?_⟩
  obtain ⟨_, _, _, hc⟩ := h.cfg; rw [hc]

theorem SameBut.ephemeris {P P' : Prm} (h : SameBut P P') (c : Char) (n : Int) (e : DateTime) (dt : Rat) (eph : List PyFloat) :
    EphemerisIs P' c n e dt eph ↔ EphemerisIs P c n e dt eph := by
  unfold EphemerisIs; rw [h.load]

theorem SameBut.satAt {P P' : Prm} (h : SameBut P P') (c : Char) (n : Int) (e : DateTime) (p : Pos) : SatAt P' c n e p ↔ SatAt P c n e p := by
  unfold SatAt; simp only [h.ephemeris, h.satPos]

theorem SameBut.direction {P P' : Prm} (h : SameBut P P') (c : Char) (n : Int) (e : DateTime) (x sp : Pos) (el az : Rat) :
    DirectionIs P' c n e x sp el az ↔ DirectionIs P c n e x sp el az := by
  unfold DirectionIs; simp only [h.satAt, h.elAz, h.ignore]

theorem SameBut.frequency {P P' : Prm} (h : SameBut P P') (c : Char) (n : Int) (e : DateTime) (k : Rat) :
    FrequencyNumber P' c n e k ↔ FrequencyNumber P c n e k := by
  unfold FrequencyNumber; simp only [h.ephemeris]

theorem SameBut.noNavigation {P P' : Prm} (h : SameBut P P') (d : Date) (c : Char) : NoNavigation P' d c ↔ NoNavigation P d c := by
  unfold NoNavigation; rw [h.load]

theorem satAt_unique {P : Prm} {c : Char} {n : Int} {e : DateTime} {p q : Pos} (hp : SatAt P c n e p) (hq : SatAt P c n e q) : p = q := by
  rw [satAt_iff] at hp hq
  rw [hp] at hq
  exact Option.some.inj hq

theorem direction_unique {P : Prm} {c : Char} {n : Int} {e : DateTime} {x p q : Pos} {a b a' b' : Rat} (h : DirectionIs P c n e x p a b)
    (h' : DirectionIs P c n e x q a' b') : p = q ∧ a = a' ∧ b = b' := by
  rcases h with ⟨h1, h2⟩ | ⟨_, _, h1, rfl, rfl, rfl⟩ <;> rcases h' with ⟨h3, h4⟩ | ⟨_, _, h3, rfl, rfl, rfl⟩
  · have := satAt_unique h1 h3
    subst this
    rw [h2] at h4
    simpa using h4
  · exact absurd h1 (h3 _)
  · exact absurd h3 (h1 _)
  · exact ⟨rfl, rfl, rfl⟩

theorem frequency_unique {P : Prm} {c : Char} {n : Int} {e : DateTime} {k k' : Rat} (h : FrequencyNumber P c n e k) (h' : FrequencyNumber P c n e k') : k = k' := by
  rcases h with ⟨h0, dt, eph, h1, h2⟩ | ⟨h0, rfl⟩ <;> rcases h' with ⟨h0', dt', eph', h1', h2'⟩ | ⟨h0', rfl⟩
  · rw [ephemeris_iff] at h1 h1'
    rw [h1] at h1'
    simp only [Except.ok.injEq, Option.some.injEq, Prod.mk.injEq] at h1'
    obtain ⟨rfl, rfl⟩ := h1'
    rw [h2] at h2'
    simpa using h2'
  · exact absurd h0 h0'
  · exact absurd h0' h0
  · rfl

theorem siteAt_unique {xyz xyz' : Dict DateTime Pos} (hx : ∀ t, xyz.get? t = xyz'.get? t) {it : ObsItem} {e : DateTime} {p q : Pos} (h : SiteAt xyz it e p)
    (h' : SiteAt xyz' it e q) : p = q := by
  unfold SiteAt at h h'
  rw [hx] at h
  rcases h with h | ⟨h, rfl⟩ <;> rcases h' with h' | ⟨h', rfl⟩ <;> simp_all

theorem tecIs_unique {x y : Char} {v w f g r r' : Option Rat} (h : TecIs x y v w f g r) (h' : TecIs x y v w f g r') : r = r' := by
  rcases h with ⟨p, q, a, b, h1, h2, h3, h4, h5, h6, h7, h8, h9⟩ | ⟨h1, rfl⟩ <;>
    rcases h' with ⟨p', q', a', b', h1', h2', h3', h4', h5', h6', h7', h8', h9'⟩ | ⟨h1', rfl⟩
  · rw [h1] at h1'; rw [h2] at h2'; rw [h3] at h3'; rw [h4] at h4'
    cases h1'; cases h2'; cases h3'; cases h4'
    rw [h9, h9']
  · exact absurd ⟨p, q, a, b, h1, h2, h3, h4, h5, h6, h7, h8⟩ h1'
  · exact absurd ⟨p', q', a', b', h1', h2', h3', h4', h5', h6', h7', h8'⟩ h1
  · rfl

theorem validityIs_unique {types : List Str} {r : ObsRec} {v v' : Nat} (h : ValidityIs types r v) (h' : ValidityIs types r v') : v = v' := by
  apply Nat.eq_of_testBit_eq
  intro k
  rw [Bool.eq_iff_iff, h k, h' k]

/-- which column it is -/
inductive ColClass (col : Str) : Prop
  | el : col = c% "el" → ColClass col
  | az : col = c% "az" → ColClass col
  | sat : col ∈ [c% "sat.x", c% "sat.y", c% "sat.z"] → ColClass col
  | site : col ∈ [c% "site.x", c% "site.y", c% "site.z"] → ColClass col
  | lbh : col ∈ [c% "site.l", c% "site.b", c% "site.h"] → ColClass col
  | validity : col = c% "validity" → ColClass col
  | value (lli family : Str) : (col, lli, family) ∈ obsColumns → ColClass col
  | lli (value family : Str) : (value, col, family) ∈ obsColumns → ColClass col
  | tec (x a y b : Char) : col = ['t', 'e', 'c', '.', x, a, y, b] → ColClass col

def colClass (col : Str) : Bool :=
  col == c% "el" || col == c% "az" || [c% "sat.x", c% "sat.y", c% "sat.z"].contains col || [c% "site.x", c% "site.y", c% "site.z"].contains col ||
  [c% "site.l", c% "site.b", c% "site.h"].contains col || col == c% "validity" || (obsColumns.map (·.1)).contains col || (obsColumns.map (·.2.1)).contains col ||
  (col.take 4 == c% "tec." && col.length == 8)

theorem colClass_spec {col : Str} (h : colClass col = true) : ColClass col := by
  unfold colClass at h
  simp only [Bool.or_eq_true] at h
  rcases h with (((((((h | h) | h) | h) | h) | h) | h) | h) | h
  · exact .el (beq_iff_eq.1 h)
  · exact .az (beq_iff_eq.1 h)
  · exact .sat (List.contains_iff_mem.1 h)
  · exact .site (List.contains_iff_mem.1 h)
  · exact .lbh (List.contains_iff_mem.1 h)
  · exact .validity (beq_iff_eq.1 h)
  · obtain ⟨⟨a, b, c⟩, h1, h2⟩ := List.mem_map.1 (List.contains_iff_mem.1 h)
    exact .value b c (by rw [← h2]; exact h1)
  · obtain ⟨⟨a, b, c⟩, h1, h2⟩ := List.mem_map.1 (List.contains_iff_mem.1 h)
    exact .lli a c (by rw [← h2]; exact h1)
  · simp only [Bool.and_eq_true, beq_iff_eq] at h
    obtain ⟨h1, h2⟩ := h
    match col, h1, h2 with
    | [p, q, r, s, x, a, y, b], h1, _ =>
      simp only [List.take_succ_cons, List.take_zero, List.cons.injEq, and_true] at h1
      obtain ⟨rfl, rfl, rfl, rfl⟩ := h1
      exact .tec x a y b rfl

theorem columns_classes : ∀ nk ∈ columns.drop 3, colClass nk.1 = true := by decide

theorem colIs_mem {vals : List (Option FVal)} {name : Str} {v : Option FVal} (h : ColIs vals name v) : ∃ kind, (name, kind) ∈ columns.drop 3 := by
  obtain ⟨i, kind, h1, -⟩ := h
  refine ⟨kind, List.mem_of_getElem? (i := i) ?_⟩
  rw [List.getElem?_drop, Nat.add_comm]
  exact h1

theorem cols3_mem {vals vals' : List (Option FVal)} {a b c col : Str} {p : Pos} (h : Cols3 vals a b c p) (h' : Cols3 vals' a b c p) (hc : col ∈ [a, b, c]) :
    ∃ v, ColIs vals col v ∧ ColIs vals' col v := by
  obtain ⟨h1, h2, h3⟩ := h
  obtain ⟨h4, h5, h6⟩ := h'
  simp only [List.mem_cons, List.not_mem_nil, or_false] at hc
  rcases hc with rfl | rfl | rfl
  · exact ⟨_, h1, h4⟩
  · exact ⟨_, h2, h5⟩
  · exact ⟨_, h3, h6⟩

/-- the records of an item in two runs that differ in the columns only agree in the shared columns -/
theorem gives_shared {P P' : Prm} (h : SameBut P P') (ht : P.cfg.outFileModeText = true) {xyz xyz' : Dict DateTime Pos} (hx : ∀ t, xyz.get? t = xyz'.get? t)
    {it : ObsItem} {c : Char} {n : Int} {e : DateTime} {vals vals' : List (Option FVal)} (hg : Gives P xyz it c n e vals) (hg' : Gives P' xyz' it c n e vals')
    (col : Str) (kind : ColKind) (hcol : (col, kind) ∈ columns.drop 3) (h1 : col ∈ P.cfg.recFields) (h2 : col ∈ P'.cfg.recFields)
    (h8 : col = c% "tec.l8c8" → (WithL8C8 P.cfg.recFields ↔ WithL8C8 P'.cfg.recFields)) :
    ∃ v, ColIs vals col v ∧ ColIs vals' col v := by
  obtain ⟨x, l, sp, el, az, g⟩ := hg.geometry
  obtain ⟨x', l', sp', el', az', g'⟩ := hg'.geometry
  have ex := siteAt_unique hx g.site g'.site
  subst ex
  have el' := g'.lbh
  rw [h.lbh, g.lbh] at el'
  cases el'
  obtain ⟨rfl, rfl, rfl⟩ := direction_unique g.direction ((h.direction ..).1 g'.direction)
  cases colClass_spec (columns_classes _ hcol) with
  | el hc => subst hc; exact ⟨_, g.elCol, g'.elCol⟩
  | az hc => subst hc; exact ⟨_, g.azCol, g'.azCol⟩
  | sat hc => exact cols3_mem g.satCols g'.satCols hc
  | site hc => exact cols3_mem g.siteCols g'.siteCols hc
  | lbh hc => exact cols3_mem g.lbhCols g'.lbhCols hc
  | validity hc =>
    subst hc
    obtain ⟨ts, v, a1, a2, a3⟩ := hg.validity
    obtain ⟨ts', v', b1, b2, b3⟩ := hg'.validity
    rw [a1] at b1
    cases b1
    cases validityIs_unique a2 b2
    exact ⟨_, a3, b3⟩
  | value lli family hc =>
    obtain ⟨v, a1, a2, -⟩ := hg.observables _ _ _ hc
    obtain ⟨v', b1, b2, -⟩ := hg'.observables _ _ _ hc
    cases family_unique _ _ _ _ a1 b1
    exact ⟨_, a2, b2⟩
  | lli value family hc =>
    obtain ⟨v, a1, -, a2⟩ := hg.observables _ _ _ hc
    obtain ⟨v', b1, -, b2⟩ := hg'.observables _ _ _ hc
    cases family_unique _ _ _ _ a1 b1
    exact ⟨_, a2, b2⟩
  | tec x a y b hc =>
    subst hc
    obtain ⟨k, a1, a2⟩ := hg.tec
    obtain ⟨k', b1, b2⟩ := hg'.tec
    cases frequency_unique a1 ((h.frequency ..).1 b1)
    have hm := List.mem_of_mem_drop hcol
    by_cases hw : ['t', 'e', 'c', '.', x, a, y, b] = c% "tec.l8c8" ∧ ¬ WithL8C8 P.cfg.recFields
    · obtain ⟨hc, hw⟩ := hw
      have hw' := mt (h8 hc).2 hw
      unfold WithL8C8 at hw hw'
      simp only [not_or] at hw hw'
      exact ⟨none, hc ▸ hg.l8c8 ht hw.1 hw.2, hc ▸ hg'.l8c8 (h.text.trans ht) hw'.1 hw'.2⟩
    have hw' : ['t', 'e', 'c', '.', x, a, y, b] = c% "tec.l8c8" → WithL8C8 P.cfg.recFields := fun hc => by
      by_contra h0
      exact hw ⟨hc, h0⟩
    obtain ⟨v, w, r, c1, c2, c3, c4⟩ := a2 ht x a y b kind hm h1 hw'
    obtain ⟨v', w', r', d1, d2, d3, d4⟩ := b2 (h.text.trans ht) x a y b kind hm h2 (fun hc => (h8 hc).1 (hw' hc))
    cases family_unique _ _ _ _ c1 d1
    cases family_unique _ _ _ _ c2 d2
    cases tecIs_unique c3 d3
    exact ⟨_, c4, d4⟩

/-- whether an item gives a record does not depend on the columns -/
theorem gives_transfer {P P' : Prm} (h : SameBut P P') {xyz xyz' : Dict DateTime Pos} (hx : ∀ t, xyz.get? t = xyz'.get? t)
    {it : ObsItem} {c : Char} {n : Int} {e : DateTime} {vals : List (Option FVal)} (hc : Processed c) (hg : Gives P xyz it c n e vals) :
    ∃ vals', Gives P' xyz' it c n e vals' := by
  obtain ⟨x, l, sp, el, az, g⟩ := hg.geometry
  obtain ⟨k, hk, -⟩ := hg.tec
  have hs : SiteAt xyz' it e x := by
    have := g.site
    unfold SiteAt at *
    rwa [← hx]
  obtain ⟨v, hv⟩ := recOf_some P' xyz' it c n e hc hg.known x l sp el az k hs (by rw [h.lbh]; exact g.lbh) ((h.direction ..).2 g.direction) g.visible
    ((h.frequency ..).2 hk)
  exact ⟨v, recOf_gives P' xyz' it c n e hc v hv⟩

/-- two records of runs that differ in the columns only -/
def RecShared (P P' : Prm) (w w' : Rec) : Prop :=
  w'.1 = w.1 ∧ w'.2.1 = w.2.1 ∧ ∀ col kind, (col, kind) ∈ columns.drop 3 → col ∈ P.cfg.recFields → col ∈ P'.cfg.recFields →
    (col = c% "tec.l8c8" → (WithL8C8 P.cfg.recFields ↔ WithL8C8 P'.cfg.recFields)) →
    ∃ v, ColIs w.2.2 col v ∧ ColIs w'.2.2 col v

open Classical in
/-- the items considered -/
noncomputable def considered (o : ObsIn) (items : List ObsItem) : List ObsItem := items.filter fun it => decide (∃ c n e, Considered o it c n e)

theorem considered_no {o : ObsIn} {it : ObsItem} {items : List ObsItem} (h : ∀ c n e, ¬ Considered o it c n e) : considered o (it :: items) = considered o items := by
  unfold considered
  rw [List.filter_cons_of_neg]
  simpa using h
theorem considered_yes {o : ObsIn} {it : ObsItem} {items : List ObsItem} {c : Char} {n : Int} {e : DateTime} (h : Considered o it c n e) :
    considered o (it :: items) = it :: considered o items := by
  unfold considered
  rw [List.filter_cons_of_pos]
  simpa using ⟨c, n, e, h⟩

/-- items that are not considered do not matter -/
theorem records_considered {P : Prm} {o : ObsIn} {xyz : Dict DateTime Pos} {seen : List Char} {items : List ObsItem} {ws : List Rec}
    (h : RecordsOf P o xyz seen items ws) : RecordsOf P o xyz seen (considered o items) ws := by
  induction h with
  | nil => exact .nil _
  | other seen it its ws hc _ ih => rw [considered_no hc]; exact ih
  | lost seen it its ws c n e hc h1 h2 _ ih => rw [considered_yes hc]; exact .lost _ _ _ _ c n e hc h1 h2 ih
  | none seen it its ws c n e hc h1 h2 _ ih => rw [considered_yes hc]; exact .none _ _ _ _ c n e hc h1 h2 ih
  | record seen it its ws c n e vals hc h1 h2 _ ih => rw [considered_yes hc]; exact .record _ _ _ _ c n e vals hc h1 h2 ih

theorem kept_considered {cfg cfg' : Cfg} (hs : cfg'.samplingInterval = cfg.samplingInterval) {o : ObsIn} {kept kept' : List ObsItem} (h : Kept cfg o kept)
    (h' : Kept cfg' o kept') : considered o kept = considered o kept' := by
  cases h with
  | all h1 =>
    cases h' with
    | all => rfl
    | some us flags h2 h3 h4 h5 =>
      rw [hs] at h2
      rcases h1 with h1 | ⟨us', h1, h6⟩
      · rw [h1] at h2; cases h2
      · rw [h1] at h2; cases h2
        rcases h6 with h6 | h6
        · exact absurd h6 h3
        · exact absurd h6 (not_le.2 h4)
  | some us flags h2 h3 h4 h5 =>
    cases h' with
    | all h1 =>
      rw [hs] at h1
      rcases h1 with h1 | ⟨us', h1, h6⟩
      · rw [h1] at h2; cases h2
      · rw [h1] at h2; cases h2
        rcases h6 with h6 | h6
        · exact absurd h6 h3
        · exact absurd h6 (not_le.2 h4)
    | some us' flags' h2' h3' h4' h5' =>
      rw [hs, h2] at h2'
      cases h2'
      have ha := decimated_agree h5 h5'
      clear h5 h5' h2
      unfold Agree at ha
      induction ha with
      | nil => rfl
      | @cons x y f g hx _ ih =>
        obtain ⟨it, b⟩ := x
        obtain ⟨it', b'⟩ := y
        obtain ⟨e1, e2⟩ := hx
        simp only at e1 e2
        subst e1
        have left : ∀ b l, leftOf ((it, b) :: l) = if b = true then it :: leftOf l else leftOf l := by
          intro b l; cases b <;> rfl
        rw [left, left]
        by_cases hc : ∃ c n e, Considered o it c n e
        · cases e2 hc
          obtain ⟨c, n, e, hc⟩ := hc
          split
          · rw [considered_yes hc, considered_yes hc, ih]
          · exact ih
        · have hc : ∀ c n e, ¬ Considered o it c n e := fun c n e h => hc ⟨c, n, e, h⟩
          split <;> split <;> simp only [considered_no hc, ih]

/-- C87: the records of an observation file in two runs that differ in the columns only: the same satellites and times, in the same order, and the same values
in the shared columns. -/
theorem C87_records {P P' : Prm} (h : SameBut P P') (ht : P.cfg.outFileModeText = true) {o : ObsIn} {xyz xyz' : Dict DateTime Pos}
    (hx : ∀ t, xyz.get? t = xyz'.get? t) {kept kept' : List ObsItem} {ws ws' : List Rec} (hk : Kept P.cfg o kept) (hk' : Kept P'.cfg o kept')
    (hr : RecordsOf P o xyz [] kept ws) (hr' : RecordsOf P' o xyz' [] kept' ws') : List.Forall₂ (RecShared P P') ws ws' := by
  have hs : P'.cfg.samplingInterval = P.cfg.samplingInterval := by obtain ⟨_, _, _, hc⟩ := h.cfg; rw [hc]
  have hr1 := records_considered hr
  have hr2 := records_considered hr'
  rw [← kept_considered hs hk hk'] at hr2
  clear hr hr'
  generalize considered o kept = items at hr1 hr2
  generalize ([] : List Char) = seen at hr1 hr2
  have hno : ∀ {seen : List Char} {it : ObsItem} {c c' : Char} {n n' : Int} {e e' : DateTime}, Considered o it c n e → Considered o it c' n' e' → c ∉ seen → NoNavigation P e.date c →
      ¬ (c' ∈ seen ∨ ∃ m, P.load e'.date c' = .ok m) := by
    intro seen it c c' n n' e e' h1 h2 h3 h4 h5
    obtain ⟨rfl, rfl, rfl⟩ := considered_unique o it c c' n n' e e' h1 h2
    rcases h5 with h5 | ⟨m, h5⟩
    · exact h3 h5
    · rcases h4 with h4 | h4 <;> · rw [h4] at h5; cases h5
  induction hr1 generalizing ws' with
  | nil => cases hr2; exact .nil
  | other seen it its ws hc _ ih =>
    cases hr2 with
    | other => exact ih ‹_›
    | lost _ _ _ _ c n e h1 => exact absurd h1 (hc c n e)
    | none _ _ _ _ c n e h1 => exact absurd h1 (hc c n e)
    | record _ _ _ _ c n e _ h1 => exact absurd h1 (hc c n e)
  | lost seen it its ws c n e hc h1 h2 _ ih =>
    cases hr2 with
    | other _ _ _ _ h3 => exact absurd hc (h3 c n e)
    | lost _ _ _ _ c' n' e' h3 =>
      obtain ⟨rfl, rfl, rfl⟩ := considered_unique o it c c' n n' e e' hc h3
      exact ih ‹_›
    | none _ _ _ _ c' n' e' h3 h4 => rw [h.load] at h4; exact absurd h4 (hno hc h3 h1 h2)
    | record _ _ _ _ c' n' e' _ h3 h4 => rw [h.load] at h4; exact absurd h4 (hno hc h3 h1 h2)
  | none seen it its ws c n e hc h1 h2 _ ih =>
    cases hr2 with
    | other _ _ _ _ h3 => exact absurd hc (h3 c n e)
    | lost _ _ _ _ c' n' e' h3 h4 h5 => exact absurd h1 (hno h3 hc h4 ((h.noNavigation ..).1 h5))
    | none _ _ _ _ c' n' e' h3 =>
      obtain ⟨rfl, rfl, rfl⟩ := considered_unique o it c c' n n' e e' hc h3
      exact ih ‹_›
    | record _ _ _ _ c' n' e' vals h3 h4 h5 =>
      obtain ⟨rfl, rfl, rfl⟩ := considered_unique o it c c' n n' e e' hc h3
      obtain ⟨v, hv⟩ := gives_transfer h.symm (fun t => (hx t).symm) hc.2.2.1 h5
      exact absurd hv (h2 v)
  | record seen it its ws c n e vals hc h1 h2 _ ih =>
    cases hr2 with
    | other _ _ _ _ h3 => exact absurd hc (h3 c n e)
    | lost _ _ _ _ c' n' e' h3 h4 h5 => exact absurd h1 (hno h3 hc h4 ((h.noNavigation ..).1 h5))
    | none _ _ _ _ c' n' e' h3 h4 h5 =>
      obtain ⟨rfl, rfl, rfl⟩ := considered_unique o it c c' n n' e e' hc h3
      obtain ⟨v, hv⟩ := gives_transfer h hx hc.2.2.1 h2
      exact absurd hv (h5 v)
    | record _ _ _ _ c' n' e' vals' h3 h4 h5 =>
      obtain ⟨rfl, rfl, rfl⟩ := considered_unique o it c c' n n' e e' hc h3
      exact .cons ⟨rfl, rfl, fun col kind a1 a2 a3 a4 => gives_shared h ht hx h2 h5 col kind a1 a2 a3 a4⟩ (ih ‹_›)

theorem roundsTo_unique {q : Rat} {d n m : Nat} (hn : RoundsTo q d n) (hm : RoundsTo q d m) : n = m := by
  obtain ⟨a1, a2, a3⟩ := hn
  obtain ⟨b1, b2, b3⟩ := hm
  have key : ∀ {n m : Nat}, (n : Rat) - 1 / 2 ≤ q * 10 ^ d → q * 10 ^ d ≤ n + 1 / 2 → ((q * 10 ^ d = n - 1 / 2 ∨ q * 10 ^ d = n + 1 / 2) → n % 2 = 0) →
      (m : Rat) - 1 / 2 ≤ q * 10 ^ d → q * 10 ^ d ≤ m + 1 / 2 → ((q * 10 ^ d = m - 1 / 2 ∨ q * 10 ^ d = m + 1 / 2) → m % 2 = 0) → n < m → False := by
    intro n m a1 a2 a3 b1 b2 b3 hlt
    have h1 : (n : Rat) + 1 ≤ m := by exact_mod_cast hlt
    have h2 : (m : Rat) ≤ n + 1 := by linarith
    have h3 : m = n + 1 := by
      have : m ≤ n + 1 := by exact_mod_cast h2
      omega
    subst h3
    push_cast at b1 b2
    have h4 : q * 10 ^ d = n + 1 / 2 := by linarith
    have := a3 (.inr h4)
    have := b3 (.inl (by push_cast; linarith))
    omega
  rcases Nat.lt_trichotomy n m with h | h | h
  · exact (key a1 a2 a3 b1 b2 b3 h).elim
  · exact h
  · exact (key b1 b2 b3 a1 a2 a3 h).elim

theorem numVal_unique {v : FVal} {q q' : Rat} (h : NumVal v q) (h' : NumVal v q') : q = q' := by
  rcases h with h | ⟨i, h, rfl⟩ <;> rcases h' with h' | ⟨j, h', rfl⟩ <;> subst h <;> cases h' <;> rfl

theorem colText_unique {kind : ColKind} {v : FVal} {s s' : Str} (h : ColText kind v s) (h' : ColText kind v s') : s = s' := by
  cases kind with
  | int w =>
    obtain ⟨i, rfl, rfl⟩ := h
    obtain ⟨j, h1, rfl⟩ := h'
    cases h1
    rfl
  | fix a b d =>
    obtain ⟨q, n, h1, h2, rfl⟩ := h
    obtain ⟨q', n', h1', h2', rfl⟩ := h'
    cases numVal_unique h1 h1'
    cases roundsTo_unique h2 h2'
    rfl
  | text =>
    have h : v = .str s := h
    have h' : v = .str s' := h'
    rw [h] at h'
    cases h'
    rfl

/-- C87: two lines of runs that differ in the columns only -/
theorem shared_lines {P P' : Prm} (h : SameBut P P') {interval : Rat} {w w' : Rec} (hw : RecShared P P' w w') {line line' : Str}
    (hl : RecordLine P interval w.2.1 w.2.2 line) (hl' : RecordLine P' interval w'.2.1 w'.2.2 line') :
    SharedColumns P.cfg.recFields P'.cfg.recFields line line' := by
  obtain ⟨-, e1, hcols⟩ := hw
  rw [e1] at hl'
  obtain ⟨slot, full, texts, a1, a2, a3, rfl⟩ := hl
  obtain ⟨slot', full', texts', b1, b2, b3, rfl⟩ := hl'
  refine ⟨texts, texts', rfl, rfl, a3.length_eq.symm, b3.length_eq.symm, ?_⟩
  intro j j' col hj hj' h8
  obtain ⟨s, hs, i, kind, v, c1, c2, c3⟩ := forall₂_at a3 hj
  obtain ⟨s', hs', i', kind', v', d1, d2, d3⟩ := forall₂_at b3 hj'
  obtain ⟨rfl, rfl⟩ := column_index c1 d1
  rw [hs, hs']
  have hv : v = v' := by
    by_cases hi : i < 3
    · have hslot := C54_unique _ _ _ a1 b1
      subst hslot
      have hdate : P'.env.strft P'.cfg.datetimeFormat w.2.1 = P.env.strft P.cfg.datetimeFormat w.2.1 := by rw [h.env, h.format]
      rw [hdate] at b2
      obtain ⟨-, x0, x1, x2, -⟩ := a2
      obtain ⟨-, y0, y1, y2, -⟩ := b2
      have : i = 0 ∨ i = 1 ∨ i = 2 := by omega
      rcases this with rfl | rfl | rfl
      · rw [x0] at c2; rw [y0] at d2; cases c2; cases d2; rfl
      · rw [x1] at c2; rw [y1] at d2; cases c2; cases d2; rfl
      · rw [x2] at c2; rw [y2] at d2; cases c2; cases d2; rfl
    · obtain ⟨k, rfl⟩ : ∃ k, i = k + 3 := ⟨i - 3, by omega⟩
      have hm : (col, kind) ∈ columns.drop 3 := by
        refine List.mem_of_getElem? (i := k) ?_
        rw [List.getElem?_drop, Nat.add_comm]
        exact c1
      obtain ⟨u, ⟨p, _, e2, e3⟩, ⟨p', _, e4, e5⟩⟩ := hcols col kind hm (List.mem_of_getElem? hj) (List.mem_of_getElem? hj') h8
      have q1 := (column_index c1 e2).1
      have q2 := (column_index c1 e4).1
      have q1 : p = k := by omega
      have q2 : p' = k := by omega
      subst q1; subst q2
      rw [a2.2.2.2.2 _ u e3] at c2
      rw [b2.2.2.2.2 _ u e5] at d2
      rw [c2] at d2
      exact Option.some.inj d2
  subst hv
  rw [colText_unique c3 d3]

theorem forall₂_filter {α : Type} {R : α → α → Prop} {p : α → Bool} {l m : List α} (h : List.Forall₂ R l m) (hp : ∀ a b, R a b → p a = p b) :
    List.Forall₂ R (l.filter p) (m.filter p) := by
  induction h with
  | nil => exact .nil
  | @cons a b l m h _ ih =>
    rw [List.filter_cons, List.filter_cons, ← hp a b h]
    split
    · exact .cons h ih
    · exact ih

theorem positions_same {xl : List XyzLine} {xyz xyz' : Dict DateTime Pos} (h : Positions xl xyz) (h' : Positions xl xyz') : ∀ t, xyz.get? t = xyz'.get? t := by
  intro t
  have := (h t).trans (h' t).symm
  cases hx : xyz.get? t with
  | none => rw [hx] at this; cases hy : xyz'.get? t with
    | none => rfl
    | some q => rw [hy] at this; cases this
  | some p => rw [hx] at this; cases hy : xyz'.get? t with
    | none => rw [hy] at this; cases this
    | some q =>
      rw [hy] at this
      obtain ⟨x, y, z⟩ := p
      obtain ⟨x', y', z'⟩ := q
      simp only [Option.map_some, Option.some.injEq, List.cons.injEq, PyFloat.fin.injEq, and_true] at this
      obtain ⟨rfl, rfl, rfl⟩ := this
      rfl

theorem forall₂_join {α β : Type} {R : α → α → Prop} {T : β → β → Prop} {Q Q' : α → β → Prop} {l l' : List α} {m m' : List β} (h : List.Forall₂ R l l')
    (h1 : List.Forall₂ Q l m) (h2 : List.Forall₂ Q' l' m') (ht : ∀ a a' b b', R a a' → Q a b → Q' a' b' → T b b') : List.Forall₂ T m m' := by
  induction h generalizing m m' with
  | nil => cases h1; cases h2; exact .nil
  | cons h _ ih =>
    cases h1; cases h2
    exact .cons (ht _ _ _ _ h ‹_› ‹_›) (ih ‹_› ‹_›)

theorem configured_text {ev : Str → Except PyErr Str} {dtLen : Str → Nat} {filename : Str} {content : Option (List Str)} {cfg : Cfg}
    (h : readCfg ev dtLen filename content = .ok cfg) : cfg.outFileModeText = true := by
  unfold readCfg at h
  split at h
  · cases h
  split at h
  · cases h
  split at h
  · cases h
  simp only at h
  split at h
  · cases h
  split at h
  · cases h
  split at h
  · cases h
  split at h
  · cases h
  split at h
  · cases h
  split at h
  · cases h
  · cases h
    rfl

/-- C87: two runs over the same disk whose configurations differ in the columns only.  Let an observation file be accepted in both runs (and not overwritten
by a later file of the same station and day).  The output files of the satellites are the same files with the same number of lines; and the lines have the
same texts in the columns shared by both configurations. -/
theorem C87_files (X : Ext) (D : Disk) (cfg cfg' : Cfg) (fuel : Nat) (fs fs' : FS) (r r' : Outcome) (paths : List Str) (i : Nat) (path name : Str) (o : ObsIn)
    (xl : List XyzLine) (t : DateTime) (hother : OtherColumns cfg cfg') (hcfg : Configured X cfg) (hcfg' : Configured X cfg') (hout : OutDirOk cfg)
    (hn : PlainNames D cfg.obsDir) (hf : InputFiles D cfg.obsDir paths) (hi : paths[i]? = some path) (hname : LastComponent path name) (hyears : FourDigits paths)
    (hlast : ∀ (j : Nat) (p : Str), i < j → paths[j]? = some p → ¬ SameOutput path p)
    (hrun : program X D cfg fuel fs = some r) (hend : r.err = none) (hrun' : program X D cfg' fuel fs' = some r') (hend' : r'.err = none)
    (ho : obsFile D fuel path = some (.ok o)) (hint : 0 ≤ o.interval) (hx : CoordLines D cfg.obsDir path xl) (ha : Accepted o t)
    (good : cfg.navIgnoreAbsence = false ∨ ∀ it ∈ o.items, ∀ c n e, Considered o it c n e → ¬ ArithError (prmOf X D cfg) c n e) :
    ∃ xyz kept ws, Positions xl xyz ∧ Kept cfg o kept ∧ RecordsOf (prmOf X D cfg) o xyz [] kept ws ∧
      ∀ sat e v more, ws.filter (fun w => w.1 == sat) = (sat, e, v) :: more →
        ∃ comment comment' lines lines', lines.length = more.length + 1 ∧ List.Forall₂ (SharedColumns cfg.recFields cfg'.recFields) lines lines' ∧
          r.fs.get? (outputPath cfg.outDir (name.take 4) sat e) = some (comment ++ lines.flatten) ∧
          r'.fs.get? (outputPath cfg.outDir (name.take 4) sat e) = some (comment' ++ lines'.flatten) := by
  have hsame : SameBut (prmOf X D cfg) (prmOf X D cfg') := by
    obtain ⟨a, b, c, rfl⟩ := hother
    exact ⟨rfl, rfl, rfl, rfl, rfl, a, b, c, rfl⟩
  have htext : cfg.outFileModeText = true := by
    obtain ⟨ev, dtLen, filename, content, h1, -⟩ := hcfg
    exact configured_text h1
  have hdirs : cfg'.obsDir = cfg.obsDir ∧ cfg'.outDir = cfg.outDir ∧ cfg'.navIgnoreAbsence = cfg.navIgnoreAbsence := by
    obtain ⟨_, _, _, hc⟩ := hother; rw [hc]; exact ⟨rfl, rfl, rfl⟩
  obtain ⟨d1, d2, d3⟩ := hdirs
  have good' : cfg'.navIgnoreAbsence = false ∨ ∀ it ∈ o.items, ∀ c n e, Considered o it c n e → ¬ ArithError (prmOf X D cfg') c n e := by
    rw [d3]
    refine good.imp id fun h it hit c n e hc ha => h it hit c n e hc ?_
    obtain ⟨dt, eph, h1, h2⟩ := ha
    exact ⟨dt, eph, (hsame.ephemeris ..).1 h1, h2⟩
  obtain ⟨xyz, kept, ws, a1, a2, a3, a4⟩ := output_files X D cfg fuel fs r paths i path name o xl t hcfg hout hn hf hi hname hyears hlast hrun hend ho hint hx ha good
  obtain ⟨xyz', kept', ws', b1, b2, b3, b4⟩ := output_files X D cfg' fuel fs' r' paths i path name o xl t hcfg' (by unfold OutDirOk; rw [d2]; exact hout)
    (by rw [d1]; exact hn) (by rw [d1]; exact hf) hi hname hyears hlast hrun' hend' ho hint (by rw [d1]; exact hx) ha good'
  refine ⟨xyz, kept, ws, a1, a2, a3, ?_⟩
  intro sat e v more hsat
  have hws := C87_records hsame htext (positions_same a1 b1) a2 b2 a3 b3
  have hfil := forall₂_filter (p := fun w : Rec => w.1 == sat) hws (fun a b h => by rw [h.1])
  rw [hsat] at hfil
  generalize hfw : ws'.filter (fun w => w.1 == sat) = l at hfil
  cases hfil with
  | @cons _ w' _ more' h1 h2 =>
    obtain ⟨sat', e', v'⟩ := w'
    obtain ⟨e1, e2, e3⟩ := h1
    simp only at e1 e2
    subst e1; subst e2
    obtain ⟨_, _, _, _, lines, text, ho1, hg1⟩ := a4 _ _ _ _ hsat
    obtain ⟨_, _, _, _, lines', text', ho2, hg2⟩ := b4 _ _ _ _ hfw
    rw [ho1.text] at hg1
    rw [ho2.text, d2] at hg2
    refine ⟨_, _, lines, lines', ?_, ?_, hg1, hg2⟩
    · rw [← ho1.records.length_eq]; rfl
    · have hall : List.Forall₂ (RecShared (prmOf X D cfg) (prmOf X D cfg')) ((sat', e', v) :: more) ((sat', e', v') :: more') := .cons ⟨rfl, rfl, e3⟩ h2
      exact forall₂_join hall ho1.records ho2.records fun a a' b b' x y z => shared_lines hsame x y z

namespace ProgEx

/-- the configuration of the example with other columns -/
def cfg2 : Cfg := { cfg with recFields := [c% "site.x", c% "c1", c% "tec.l1l2"], recFormat := c% "{40: 23.12f} {22: 16.3f} {14: 21.3f}\n",
                             recFortranFormat := c% "(F23.12,1X,F16.3,1X,F21.3)" }

theorem configured2 : readCfg ev dtLen (c% "t.cfg") (some (cfgLines.set 4 (c% "recFields = site.x, c1, tec.l1l2\n"))) = .ok cfg2 := by decide +kernel

/-- the lines of R24 in the runs with both configurations -/
theorem C87_example : OtherColumns cfg cfg2 ∧ Configured ext cfg ∧ Configured ext cfg2 ∧
    ((program ext disk cfg2 5 []).bind fun r => (r.fs.get? (c% "out/2017/002/irkj/irkj_R24_002_17.dat")).map fun t => (splitOn '\n' t).drop 11) = some
      [c% "         1.000000000000           -0.099                 0.000", c% "         5.000000000000           -0.099                 0.000", []] ∧
    ((program ext disk cfg 5 []).bind fun r => (r.fs.get? (c% "out/2017/002/irkj/irkj_R24_002_17.dat")).map fun t => (splitOn '\n' t).drop 11) = some
      [c% "        368    4.00000           -0.099          1.000000000000", c% "        369    8.00000           -0.099          5.000000000000", []] :=
  ⟨⟨_, _, _, rfl⟩, ⟨ev, dtLen, _, _, configured, rfl⟩, ⟨ev, dtLen, _, _, configured2, rfl⟩, by decide +kernel, by decide +kernel⟩

end ProgEx

end Verif.Props
