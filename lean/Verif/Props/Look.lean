import Verif.Spec.Look
import Verif.Props.Elev
import Verif.Props.Sky
import Verif.Props.DoubleGps
import Verif.Props.DoubleGlonass
/-!
# Property C105: the geometric columns of the output file against the geometry
-/
namespace Verif.Props
open Verif.Py Verif.Model Verif.Model.DoubleGeo Verif.Spec Verif.Proofs

/-- a word against a quantity near the value of its column -/
theorem word_near_digits {P : Prm} {interval : Rat} {e : DateTime} {vals : List (Option FVal)} {line : Str} (h : RecordLine P interval e vals line)
    (hd : DateIsWord P e) {j : Nat} {col : Str} {q : Rat} (hj : P.cfg.recFields[j]? = some col) (hv : ColIs vals col (num q)) {s : Bool} {w d : Nat}
    (hk : ∀ kind, (col, kind) ∈ columns → kind = .fix s w d) {x t r : ℝ} (hx : |(q : ℝ) - x| ≤ t) (hr : t + 1 / 2 / 10 ^ d ≤ r) : WordNear line j x r := by
  obtain ⟨kind, word, k1, k2, k3⟩ := word_at P interval e vals line h hd j col _ hj hv
  rw [hk kind k1] at k3
  obtain ⟨q1, q', w', hn, e1, e2, e3, -⟩ := k3
  cases e1
  have hq : q1 = q := by
    rcases hn with hn | ⟨i, hn, -⟩
    · simpa [num] using hn.symm
    · simp [num] at hn
  subst hq
  refine ⟨word, q', k2, e2, ?_⟩
  have e3' : |(q' : ℝ) - (q1 : ℝ)| ≤ 1 / 2 / 10 ^ d := by
    have : ((|q' - q1| : Rat) : ℝ) ≤ ((1 / 2 / 10 ^ d : Rat) : ℝ) := by exact_mod_cast e3
    push_cast at this
    exact this
  have : (q' : ℝ) - x = ((q' : ℝ) - q1) + ((q1 : ℝ) - x) := by ring
  rw [this]
  refine (abs_add_le _ _).trans ?_
  linarith

/-- a value that the column can show is shown exactly -/
theorem word_zero {P : Prm} {interval : Rat} {e : DateTime} {vals : List (Option FVal)} {line : Str} (h : RecordLine P interval e vals line)
    (hd : DateIsWord P e) {j : Nat} {col : Str} (hj : P.cfg.recFields[j]? = some col) (hv : ColIs vals col (num 0)) {s : Bool} {w d : Nat}
    (hk : ∀ kind, (col, kind) ∈ columns → kind = .fix s w d) : WordNear line j 0 0 := by
  obtain ⟨kind, word, k1, k2, k3⟩ := word_at P interval e vals line h hd j col _ hj hv
  rw [hk kind k1] at k3
  obtain ⟨q1, q', w', hn, e1, e2, -, e4⟩ := k3
  cases e1
  have hq : q1 = 0 := by
    rcases hn with hn | ⟨i, hn, -⟩
    · simpa [num] using hn.symm
    · simp [num] at hn
  subst hq
  have := e4 0 (by simp)
  subst this
  exact ⟨word, 0, k2, e2, by simp⟩

theorem kind_of {col : Str} {kind0 : ColKind} (h : columns.filter (fun c => c.1 == col) = [(col, kind0)]) : ∀ kind, (col, kind) ∈ columns → kind = kind0 := by
  intro kind hm
  have : (col, kind) ∈ columns.filter (fun c => c.1 == col) := by simp [hm]
  rw [h] at this
  simpa using this

theorem kind_el : ∀ kind, (c% "el", kind) ∈ columns → kind = .fix true 10 5 := kind_of rfl
theorem kind_az : ∀ kind, (c% "az", kind) ∈ columns → kind = .fix true 11 5 := kind_of rfl
theorem kind_satx : ∀ kind, (c% "sat.x", kind) ∈ columns → kind = .fix true 23 12 := kind_of rfl
theorem kind_saty : ∀ kind, (c% "sat.y", kind) ∈ columns → kind = .fix true 23 12 := kind_of rfl
theorem kind_satz : ∀ kind, (c% "sat.z", kind) ∈ columns → kind = .fix true 23 12 := kind_of rfl
theorem kind_sitex : ∀ kind, (c% "site.x", kind) ∈ columns → kind = .fix true 23 12 := kind_of rfl
theorem kind_sitey : ∀ kind, (c% "site.y", kind) ∈ columns → kind = .fix true 23 12 := kind_of rfl
theorem kind_sitez : ∀ kind, (c% "site.z", kind) ∈ columns → kind = .fix true 23 12 := kind_of rfl
theorem kind_sitel : ∀ kind, (c% "site.l", kind) ∈ columns → kind = .fix true 17 12 := kind_of rfl
theorem kind_siteb : ∀ kind, (c% "site.b", kind) ∈ columns → kind = .fix true 16 12 := kind_of rfl
theorem kind_siteh : ∀ kind, (c% "site.h", kind) ∈ columns → kind = .fix true 18 12 := kind_of rfl

/-- the length of the position of a station -/
theorem station_len {x : Pos} {l b h : ℝ} (hs : StationAt x l b h) : 0 < Geo.primeVertical b + h ∧ 6000000 ≤ Geo.len (vec x) ∧ Geo.len (vec x) ≤ 50000000 := by
  have hl0 := foot_len l b h
  have hu := footUp_bounds b
  have hsd := footSide_sq b
  obtain ⟨k1, k2⟩ := abs_le.1 hs.height
  have hpv : 6356752 ≤ Geo.primeVertical b := by
    refine hu.1.trans ?_
    rw [footUp]
    have h1 := Proofs.Geo.primeVertical_pos b
    have h2 := mul_nonneg Proofs.Geo.ecc2_pos.le (sq_nonneg (Real.sin b))
    nlinarith
  rw [hs.position] at hl0
  have hlen0 : 0 ≤ Geo.len (vec x) := Real.sqrt_nonneg _
  refine ⟨by linarith, ?_, ?_⟩
  · by_contra hn
    push Not at hn
    nlinarith [sq_nonneg (footSide b)]
  · by_contra hn
    push Not at hn
    nlinarith

theorem ephemeris_unique {P : Prm} {c : Char} {n : Int} {e : DateTime} {d1 d2 : Rat} {e1 e2 : List PyFloat} (h1 : EphemerisIs P c n e d1 e1)
    (h2 : EphemerisIs P c n e d2 e2) : d1 = d2 ∧ e1 = e2 := by
  obtain ⟨f, m, a1, a2⟩ := h1
  obtain ⟨f', m', b1, b2⟩ := h2
  rw [a1] at b1
  cases b1
  rw [a2] at b2
  cases b2
  exact ⟨rfl, rfl⟩

/-- C105, the line of a record -/
theorem C105_line (F : Flt) (hF : Accurate F) (P : Prm) (hP : Computed F P) (xyz : Dict DateTime Pos) (it : ObsItem) (c : Char) (n : Int) (interval : Rat) (e : DateTime)
    (vals : List (Option FVal)) (line : Str) (hg : Gives P xyz it c n e vals) (h : RecordLine P interval e vals line) (hd : DateIsWord P e) :
    ∃ x, SiteAt xyz it e x ∧ StationBack P x line ∧
      ((∃ s, SatAt P c n e s ∧ LookBack P x s line ∧ OrbitBack P c n e line) ∨
       (P.cfg.navIgnoreAbsence = true ∧ c ≠ 'R' ∧ (∀ s, ¬ SatAt P c n e s) ∧ NoLook P line)) := by
  obtain ⟨x, l, sp, el, az, g⟩ := hg.geometry
  refine ⟨x, g.site, ?_, ?_⟩
  · -- the station
    obtain ⟨fuel, hf, hl⟩ := hP.lbh _ _ g.lbh
    have key : ∀ l0 b0 h0, StationAt x l0 b0 h0 → (∃ k : ℤ, |(l.x : ℝ) - (l0 * 180 / Real.pi + 360 * k)| ≤ 1e-12) ∧ |(l.y : ℝ) - b0 * 180 / Real.pi| ≤ 2e-12 ∧
        |(l.z : ℝ) - h0| ≤ 3e-6 := by
      intro l0 b0 h0 hs
      obtain ⟨s1, s2, s3⟩ := station_len hs
      obtain ⟨L, B, H, r1, r2, -, -, r3, r4⟩ := C96_degrees F hF fuel l0 b0 h0 _ _ _ hs.latitude s1 hs.position s2 s3 hs.axis hf
      rw [hl] at r1
      injection r1 with r1
      injection r1 with r1
      unfold vec at r1
      simp only [Prod.mk.injEq] at r1
      obtain ⟨rfl, rfl, rfl⟩ := r1
      exact ⟨r2, r3, r4⟩
    refine ⟨⟨?_, ?_, ?_⟩, ?_, ?_, ?_⟩
    · exact fun j hj => word_near_digits h hd hj g.siteCols.1 kind_sitex (t := 0) (by simp [vec]) (by norm_num)
    · exact fun j hj => word_near_digits h hd hj g.siteCols.2.1 kind_sitey (t := 0) (by simp [vec]) (by norm_num)
    · exact fun j hj => word_near_digits h hd hj g.siteCols.2.2 kind_sitez (t := 0) (by simp [vec]) (by norm_num)
    · intro l0 b0 h0 hs j hj
      obtain ⟨⟨k, hk⟩, -, -⟩ := key l0 b0 h0 hs
      exact ⟨k, word_near_digits h hd hj g.lbhCols.1 kind_sitel hk (by norm_num)⟩
    · intro l0 b0 h0 hs j hj
      exact word_near_digits h hd hj g.lbhCols.2.1 kind_siteb (key l0 b0 h0 hs).2.1 (by norm_num)
    · intro l0 b0 h0 hs j hj
      exact word_near_digits h hd hj g.lbhCols.2.2 kind_siteh (key l0 b0 h0 hs).2.2 (by norm_num)
  · rcases g.direction with ⟨hsat, hela⟩ | ⟨d1, d2, d3, rfl, rfl, rfl⟩
    · refine .inl ⟨sp, hsat, ⟨⟨?_, ?_, ?_⟩, ?_, ?_⟩, ⟨?_, ?_⟩⟩
      · exact fun j hj => word_near_digits h hd hj g.satCols.1 kind_satx (t := 0) (by simp [vec]) (by norm_num)
      · exact fun j hj => word_near_digits h hd hj g.satCols.2.1 kind_saty (t := 0) (by simp [vec]) (by norm_num)
      · exact fun j hj => word_near_digits h hd hj g.satCols.2.2 kind_satz (t := 0) (by simp [vec]) (by norm_num)
      · intro l0 b0 h0 ls bs hs' hst hsa hc0 hc1 j hj
        obtain ⟨fuel, hf, hl⟩ := hP.elAz _ _ _ _ hela
        obtain ⟨EL, AZ, r1, r2⟩ := C104_elevation F hF fuel hf _ _ _ l0 b0 h0 _ _ _ ls bs hs' hst.latitude hst.height hst.position hst.axis hsa.latitude hsa.height hsa.position
          hsa.distance hsa.axis hc0 hc1
        rw [show computeElAzF F fuel (vec x) (vec sp) = _ from r1] at hl
        injection hl with hl
        injection hl with hl
        simp only [Prod.mk.injEq] at hl
        obtain ⟨rfl, rfl⟩ := hl
        exact word_near_digits h hd hj g.elCol kind_el r2 (by norm_num [vec])
      · intro l0 b0 h0 ls bs hs' hst hsa hc0 hc1 D e' n' he hn hD hD1 a ha j hj
        obtain ⟨fuel, hf, hl⟩ := hP.elAz _ _ _ _ hela
        obtain ⟨s1, s2, s3⟩ := station_len hst
        obtain ⟨EL, AZ, r1, -, r2⟩ := C98_look F hF fuel hf _ _ _ l0 b0 h0 _ _ _ ls bs hs' hst.latitude s1 hst.position ⟨s2, s3⟩ hst.axis hsa.latitude hsa.height hsa.position
          ⟨le_trans (by norm_num) hsa.distance.1, hsa.distance.2⟩ hsa.axis _ e' n' D rfl he hn hD hc0 hc1
        rw [show computeElAzF F fuel (vec x) (vec sp) = _ from r1] at hl
        injection hl with hl
        injection hl with hl
        simp only [Prod.mk.injEq] at hl
        obtain ⟨rfl, rfl⟩ := hl
        obtain ⟨-, -, r3⟩ := r2 hD1
        obtain ⟨k, hk⟩ := r3 a ha
        exact ⟨k, word_near_digits h hd hj g.azCol kind_az hk (by norm_num; linarith)⟩
      · intro hc dt q heph o iode rest hq hR
        obtain ⟨dt', eph', he', hs⟩ := hsat
        obtain ⟨rfl, rfl⟩ := ephemeris_unique heph he'
        obtain ⟨fuel, hp⟩ := hP.kepler c q dt sp hc hs
        rw [hq] at hp
        obtain ⟨r, r1, r2⟩ := C95_position F hF fuel o iode rest dt hR
        rw [hp] at r1
        injection r1 with r1
        obtain ⟨tk, E, v, t1, t2, t3, t4, t5⟩ := r2 _ r1.symm
        refine ⟨tk, E, v, t1, t2, t3, t4, ?_, ?_, ?_⟩
        · exact fun j hj => word_near_digits h hd hj g.satCols.1 kind_satx t5.1 (by norm_num)
        · exact fun j hj => word_near_digits h hd hj g.satCols.2.1 kind_saty t5.2.1 (by norm_num)
        · exact fun j hj => word_near_digits h hd hj g.satCols.2.2 kind_satz t5.2.2 (by norm_num)
      · intro hc dt q heph p v w health freq rest hq hR
        obtain ⟨dt', eph', he', hs⟩ := hsat
        obtain ⟨rfl, rfl⟩ := ephemeris_unique heph he'
        have hp := hP.motion c q dt sp hc hs
        rw [hq] at hp
        obtain ⟨r, r1, t5⟩ := C97_position F hF p v w health freq rest dt hR
        rw [hp] at r1
        injection r1 with r1
        subst r1
        refine ⟨?_, ?_, ?_⟩
        · exact fun j hj => word_near_digits h hd hj g.satCols.1 kind_satx t5.1 (by norm_num)
        · exact fun j hj => word_near_digits h hd hj g.satCols.2.1 kind_saty t5.2.1 (by norm_num)
        · exact fun j hj => word_near_digits h hd hj g.satCols.2.2 kind_satz t5.2.2 (by norm_num)
    · refine .inr ⟨d1, d2, d3, ⟨?_, ?_, ?_⟩, ?_⟩
      · exact fun j hj => word_zero h hd hj g.satCols.1 kind_satx
      · exact fun j hj => word_zero h hd hj g.satCols.2.1 kind_saty
      · exact fun j hj => word_zero h hd hj g.satCols.2.2 kind_satz
      · intro col hcol j hj
        simp only [List.mem_cons, List.not_mem_nil, or_false] at hcol
        rcases hcol with rfl | rfl
        · exact word_zero h hd hj g.elCol kind_el
        · exact word_zero h hd hj g.azCol kind_az

/-- C105, the output file -/
theorem C105_file (F : Flt) (hF : Accurate F) (P : Prm) (hP : Computed F P) (o : ObsIn) (xyz : Dict DateTime Pos) (kept : List ObsItem) (ws : List Rec)
    (hr : RecordsOf P o xyz [] kept ws)
    (site sat : Str) (e : DateTime) (v : List (Option FVal)) (more : List Rec) (satDef : Str) (nav : Option Str) (pos lbh : Pos) (lines : List Str) (text : Str)
    (hw : ws.filter (fun w => w.1 == sat) = (sat, e, v) :: more) (hout : OutputIs P o site sat e v more satDef nav pos lbh lines text)
    (hd : ∀ t, DateIsWord P t) :
    List.Forall₂ (fun w line => ∃ it ∈ kept, ∃ c n x, it.sat = sat ∧ Considered o it c n w.2.1 ∧ SiteAt xyz it w.2.1 x ∧ StationBack P x line ∧
        ((∃ s, SatAt P c n w.2.1 s ∧ LookBack P x s line ∧ OrbitBack P c n w.2.1 line) ∨
         (P.cfg.navIgnoreAbsence = true ∧ c ≠ 'R' ∧ (∀ s, ¬ SatAt P c n w.2.1 s) ∧ NoLook P line)))
      ((sat, e, v) :: more) lines := by
  have hmem : ∀ w ∈ (sat, e, v) :: more, ∃ it ∈ kept, ∃ c n, it.sat = sat ∧ Considered o it c n w.2.1 ∧ Gives P xyz it c n w.2.1 w.2.2 := by
    intro w hw'
    rw [← hw, List.mem_filter] at hw'
    obtain ⟨it, h1, c, n, h2, h3, h4⟩ := records_gives P o xyz [] kept ws hr w hw'.1
    exact ⟨it, h1, c, n, h2.trans (by simpa using hw'.2), h3, h4⟩
  have hrec := hout.records
  clear hout hw
  generalize (sat, e, v) :: more = l at hmem hrec
  induction hrec with
  | nil => exact .nil
  | @cons w line l lines h _ ih =>
    refine .cons ?_ (ih fun w hw => hmem w (by simp [hw]))
    obtain ⟨it, h1, c, n, h2, h3, h4⟩ := hmem w (by simp)
    obtain ⟨x, h5, h6⟩ := C105_line F hF P hP xyz it c n o.interval w.2.1 w.2.2 line h4 h (hd _)
    exact ⟨it, h1, c, n, x, h2, h3, h5, h6⟩

/-! ## The hypotheses -/

theorem rnd_rat (x : ℝ) : ∃ q : Rat, Flt.binary64.rnd x = q := by
  change ∃ q : Rat, Verif.Py.rnd x = q
  unfold Verif.Py.rnd
  split
  · exact ⟨0, by simp⟩
  · exact ⟨(nearestEven (x / (2 : ℝ) ^ max (Int.log 2 |x| - 52) (-1074)) : Rat) * (2 : Rat) ^ max (Int.log 2 |x| - 52) (-1074), by push_cast; rfl⟩

theorem atan2_rat (y x : ℝ) : ∃ q : Rat, Flt.binary64.atan2 y x = q := rnd_rat _

theorem latLoop_rat (fuel : ℕ) (Q z Bi B N : ℝ) (h : latLoopF Flt.binary64 fuel Q z Bi = .ok (some (B, N))) : ∃ q : Rat, B = q := by
  induction fuel generalizing Bi with
  | zero => simp [latLoopF] at h
  | succ fuel ih =>
    unfold latLoopF at h
    split at h
    · cases h
    split at h
    · cases h
    simp only at h
    split at h
    · injection h with h
      injection h with h
      injection h with h1 h2
      rw [← h1]
      exact atan2_rat _ _
    · exact ih _ h

theorem lbh_rat (fuel : ℕ) (x y z : ℝ) (v : ℝ × ℝ × ℝ) (h : xyz2lbhDegF Flt.binary64 fuel x y z = .ok (some v)) : ∃ q : Pos, v = vec q := by
  have hv : ∀ a b c : ℝ, (∃ q : Rat, a = q) → (∃ q : Rat, b = q) → (∃ q : Rat, c = q) → ∃ q : Pos, (a, b, c) = vec q := by
    rintro _ _ _ ⟨a, rfl⟩ ⟨b, rfl⟩ ⟨c, rfl⟩
    exact ⟨⟨a, b, c⟩, rfl⟩
  have h0 : ∃ q : Rat, (0 : ℝ) = q := ⟨0, by simp⟩
  unfold xyz2lbhDegF at h
  split at h
  · injection h with h; injection h with h; rw [← h]; exact hv _ _ _ h0 h0 h0
  · injection h with h; injection h with h; rw [← h]; exact hv _ _ _ h0 h0 h0
  · cases h
  · cases h
  · rename_i l b hh heq
    have hH : ∃ q : Rat, hh = q := by
      unfold xyz2lbhF at heq
      split at heq
      · cases heq
      simp only at heq
      split at heq
      · cases heq
      split at heq
      · cases heq
      split at heq
      · cases heq
      · cases heq
      · injection heq with heq
        injection heq with heq
        injection heq with _ heq
        injection heq with _ heq
        rw [← heq]
        exact rnd_rat _
    simp only at h
    injection h with h
    injection h with h
    rw [← h]
    refine hv _ _ _ ?_ (rnd_rat _) hH
    split
    · exact rnd_rat _
    · exact rnd_rat _

theorem elAz_rat (fuel : ℕ) (x s : ℝ × ℝ × ℝ) (v : ℝ × ℝ) (h : computeElAzF Flt.binary64 fuel x s = .ok (some v)) : ∃ el az : Rat, v = ((el : ℝ), (az : ℝ)) := by
  obtain ⟨x0, y0, z0⟩ := x
  obtain ⟨xs, ys, zs⟩ := s
  unfold computeElAzF at h
  simp only at h
  split at h
  · cases h
  · cases h
  split at h
  · cases h
  · cases h
  split at h
  · cases h
  split at h
  · cases h
  split at h
  · cases h
  split at h
  · cases h
  split at h
  · cases h
  injection h with h
  injection h with h
  obtain ⟨a, ha⟩ := rnd_rat _
  rw [← h, ha]
  split
  · obtain ⟨b, hb⟩ := rnd_rat _
    exact ⟨a, b, by rw [hb]⟩
  · obtain ⟨b, hb⟩ := rnd_rat _
    exact ⟨a, b, by rw [hb]⟩

theorem pos_rat {a b c : ℝ} (ha : ∃ q : Rat, a = q) (hb : ∃ q : Rat, b = q) (hc : ∃ q : Rat, c = q) : ∃ q : Pos, (a, b, c) = vec q := by
  obtain ⟨a, rfl⟩ := ha
  obtain ⟨b, rfl⟩ := hb
  obtain ⟨c, rfl⟩ := hc
  exact ⟨⟨a, b, c⟩, rfl⟩

theorem gps_rat (fuel : ℕ) (eph : List ℝ) (t : ℝ) (v : ℝ × ℝ × ℝ) (h : gpsSatXyzF Flt.binary64 fuel eph t = .ok (some v)) : ∃ q : Pos, v = vec q := by
  unfold gpsSatXyzF at h
  split at h
  · simp only at h
    split at h
    · cases h
    split at h
    · cases h
    split at h
    · cases h
    · cases h
    split at h
    · cases h
    · rename_i p heq
      injection h with h
      injection h with h
      subst h
      unfold gpsAfterF at heq
      split at heq
      · cases heq
      split at heq
      · cases heq
      split at heq
      · cases heq
      injection heq with heq
      rw [← heq]
      exact pos_rat (rnd_rat _) (rnd_rat _) (rnd_rat _)
  · cases h

theorem glonass_rat (eph : List ℝ) (t : ℝ) (v : ℝ × ℝ × ℝ) (h : glonassSatXyzF Flt.binary64 eph t = .ok v) : ∃ q : Pos, v = vec q := by
  unfold glonassSatXyzF at h
  split at h
  · simp only at h
    split at h
    · injection h with h
      rw [← h]
      exact pos_rat (rnd_rat _) (rnd_rat _) (rnd_rat _)
    · split at h
      · cases h
      split at h
      · cases h
      split at h
      · cases h
      injection h with h
      rw [← h]
      exact pos_rat (rnd_rat _) (rnd_rat _) (rnd_rat _)
  · cases h

theorem fin_inj {a b : List Rat} (h : a.map PyFloat.fin = b.map PyFloat.fin) : a = b :=
  List.map_injective_iff.2 (fun _ _ h => by injection h) h

/-- the result of the code in binary64, if there is one -/
def GpsResult (c : Char) (eph : List PyFloat) (t : Rat) (p : Pos) : Prop :=
  ∃ q : List Rat, eph = q.map .fin ∧
    ((c = 'G' ∨ c = 'C' ∨ c = 'E') ∧ (∃ fuel, gpsSatXyzF Flt.binary64 fuel (q.map fun x : Rat => (x : ℝ)) t = .ok (some (vec p))) ∨
     (c = 'R' ∨ c = 'S') ∧ glonassSatXyzF Flt.binary64 (q.map fun x : Rat => (x : ℝ)) t = .ok (vec p))

/-- C105, the hypotheses: whatever the rest of the parameters, there are numerical functions that return every result of the code in binary64. -/
theorem C105_hypotheses (P0 : Prm) : ∃ P : Prm, P.cfg = P0.cfg ∧ P.env = P0.env ∧ P.dtLen = P0.dtLen ∧ P.load = P0.load ∧ Computed Flt.binary64 P ∧
    (∀ p v fuel, 8 ≤ fuel → xyz2lbhDegF Flt.binary64 fuel p.x p.y p.z = .ok (some v) → ∃ q, P.lbh p = .ok q) ∧
    (∀ x s v fuel, 8 ≤ fuel → computeElAzF Flt.binary64 fuel (vec x) (vec s) = .ok (some v) → ∃ r, P.elAz x s = .ok r) ∧
    (∀ c (q : List Rat) (t : Rat) v fuel, c = 'G' ∨ c = 'C' ∨ c = 'E' → gpsSatXyzF Flt.binary64 fuel (q.map fun x : Rat => (x : ℝ)) t = .ok (some v) → ∃ p, P.satPos c (q.map .fin) t = .ok p) ∧
    (∀ c (q : List Rat) (t : Rat) v, c = 'R' ∨ c = 'S' → glonassSatXyzF Flt.binary64 (q.map fun x : Rat => (x : ℝ)) t = .ok v → ∃ p, P.satPos c (q.map .fin) t = .ok p) := by
  classical
  refine ⟨{ P0 with
    lbh := fun p => if h : ∃ q : Pos, ∃ fuel, 8 ≤ fuel ∧ xyz2lbhDegF Flt.binary64 fuel p.x p.y p.z = .ok (some (vec q)) then .ok h.choose else .error .value
    elAz := fun x s => if h : ∃ r : Rat × Rat, ∃ fuel, 8 ≤ fuel ∧ computeElAzF Flt.binary64 fuel (vec x) (vec s) = .ok (some ((r.1 : ℝ), (r.2 : ℝ))) then .ok h.choose else .error .value
    satPos := fun c eph t => if h : ∃ p, GpsResult c eph t p then .ok h.choose else .error .value }, rfl, rfl, rfl, rfl, ⟨?_, ?_, ?_, ?_⟩, ?_, ?_, ?_, ?_⟩
  · intro p q h
    simp only at h
    split at h
    · rename_i hx
      injection h with h
      rw [← h]
      exact hx.choose_spec
    · cases h
  · intro x s el az h
    simp only at h
    split at h
    · rename_i hx
      injection h with h
      have := hx.choose_spec
      rw [h] at this
      exact this
    · cases h
  · intro c q t p hc h
    simp only at h
    split at h
    · rename_i hx
      injection h with h
      obtain ⟨q', e, h1⟩ := hx.choose_spec
      rw [h] at h1
      rw [fin_inj e]
      rcases h1 with ⟨-, h1⟩ | ⟨hc', -⟩
      · exact h1
      · rcases hc with rfl | rfl | rfl <;> rcases hc' with hc' | hc' <;> exact absurd hc' (by decide)
    · cases h
  · intro c q t p hc h
    simp only at h
    split at h
    · rename_i hx
      injection h with h
      obtain ⟨q', e, h1⟩ := hx.choose_spec
      rw [h] at h1
      rw [fin_inj e]
      rcases h1 with ⟨hc', -⟩ | ⟨-, h1⟩
      · rcases hc with rfl | rfl <;> rcases hc' with hc' | hc' | hc' <;> exact absurd hc' (by decide)
      · exact h1
    · cases h
  · intro p v fuel hf h
    obtain ⟨q, rfl⟩ := lbh_rat _ _ _ _ _ h
    have hx : ∃ q : Pos, ∃ fuel, 8 ≤ fuel ∧ xyz2lbhDegF Flt.binary64 fuel p.x p.y p.z = .ok (some (vec q)) := ⟨q, fuel, hf, h⟩
    simp only
    rw [dif_pos hx]
    exact ⟨_, rfl⟩
  · intro x s v fuel hf h
    obtain ⟨el, az, rfl⟩ := elAz_rat _ _ _ _ h
    have hx : ∃ r : Rat × Rat, ∃ fuel, 8 ≤ fuel ∧ computeElAzF Flt.binary64 fuel (vec x) (vec s) = .ok (some ((r.1 : ℝ), (r.2 : ℝ))) := ⟨(el, az), fuel, hf, h⟩
    simp only
    rw [dif_pos hx]
    exact ⟨_, rfl⟩
  · intro c q t v fuel hc h
    obtain ⟨p, rfl⟩ := gps_rat _ _ _ _ h
    have hx : ∃ p, GpsResult c (q.map .fin) t p := ⟨p, q, rfl, .inl ⟨hc, fuel, h⟩⟩
    simp only
    rw [dif_pos hx]
    exact ⟨_, rfl⟩
  · intro c q t v hc h
    obtain ⟨p, rfl⟩ := glonass_rat _ _ _ h
    have hx : ∃ p, GpsResult c (q.map .fin) t p := ⟨p, q, rfl, .inr ⟨hc, h⟩⟩
    simp only
    rw [dif_pos hx]
    exact ⟨_, rfl⟩

/-- C105: the station and the satellite of C104_example -/
theorem C105_example : StationAt ⟨6378137, 0, 0⟩ 0 0 0 ∧ SatelliteAt ⟨20000000, 20000000, 0⟩ (Real.pi / 4) 0 (20000000 * √2 - 6378137) := by
  obtain ⟨h1, h2, h3, h4, h5, -⟩ := C104_example
  have hp := Real.pi_pos
  refine ⟨⟨by simpa using hp, h1, by rw [h2]; simp [vec], ?_⟩, ⟨by simpa using hp, h4, by rw [h3]; simp [vec], ?_, ?_⟩⟩
  · simp only [Geo.axisDist, vec]
    exact Real.le_sqrt_of_sq_le (by norm_num)
  · simpa [vec] using h5
  · simp only [Geo.axisDist, vec]
    exact Real.le_sqrt_of_sq_le (by norm_num)

end Verif.Props
