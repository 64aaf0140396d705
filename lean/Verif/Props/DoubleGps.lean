import Verif.Props.DoubleKepler
import Verif.Proofs.Rel
/-!
# Property C95: satellite positions in floating point
-/
namespace Verif.Props
open Verif.Py Verif.Spec Verif.Spec.Geo Verif.Proofs Verif.Model.DoubleGeo

theorem sqrtF_ok (F : Flt) (x : ℝ) (h : 0 ≤ x) : sqrtF F x = .ok (F.rnd √x) := by unfold sqrtF; rw [if_neg (by linarith)]

/-- the time from the reference time, reduced to the week -/
theorem tk_near (F : Flt) (hF : Accurate F) (sec toe : ℝ) (h1 : 0 ≤ toe ∧ toe ≤ 604800) (h2 : 0 ≤ sec ∧ sec ≤ 604800) :
    ∃ tk, (tk = sec - toe ∨ tk = sec - toe - 604800 ∨ tk = sec - toe + 604800) ∧ |tk| ≤ 302400 + 1e-9 ∧ Appr (tkF F sec toe) tk 302401 11e-11 := by
  have ht : |sec - toe| ≤ 604800 := by rw [abs_le]; constructor <;> linarith
  have a1 := (Appr.exact ht).rnd hF (B' := 604800) (ε' := 68e-12) le_rfl (by norm_num)
  have k := abs_le.1 a1.2
  have ht' := abs_le.1 ht
  unfold tkF
  split
  · rename_i hgt
    have hb : |sec - toe - 604800| ≤ 302400 + 1e-9 := by
      norm_num at k hgt ⊢; rw [abs_le]; constructor <;> linarith
    have a2 : Appr (F.rnd (sec - toe) - 604800) (sec - toe - 604800) (302400 + 1e-9) 68e-12 := ⟨hb, by rw [sub_sub_sub_cancel_right]; exact a1.2⟩
    exact ⟨_, .inr (.inl rfl), hb, a2.rnd hF (by norm_num) (by norm_num)⟩
  · split
    · rename_i hgt
      have hb : |sec - toe + 604800| ≤ 302400 + 1e-9 := by
        norm_num at k hgt ⊢; rw [abs_le]; constructor <;> linarith
      have a2 : Appr (F.rnd (sec - toe) + 604800) (sec - toe + 604800) (302400 + 1e-9) 68e-12 := ⟨hb, by rw [add_sub_add_right_eq_sub]; exact a1.2⟩
      exact ⟨_, .inr (.inr rfl), hb, a2.rnd hF (by norm_num) (by norm_num)⟩
    · rename_i hgt hlt
      have hb : |sec - toe| ≤ 302400 + 1e-9 := by
        norm_num at k hgt hlt ⊢; rw [abs_le]; constructor <;> linarith
      exact ⟨_, .inl rfl, hb, ⟨hb.trans (by norm_num), a1.2.trans (by norm_num)⟩⟩

/-- the mean motion -/
theorem motion_near (F : Flt) (hF : Accurate F) (s : ℝ) (h : 5000 ≤ s ∧ s ≤ 7000) :
    Appr (F.pow s 2) (s ^ 2) 49000000 (3 / 2 ^ 53 * 49000000) ∧ F.pow (F.pow s 2) 3 ≠ 0 ∧
      0 ≤ F.rnd (mu F / F.pow (F.pow s 2) 3) ∧
      Appr (F.rnd √(F.rnd (mu F / F.pow (F.pow s 2) 3))) √(earthMu / (s ^ 2) ^ 3) 16e-5 (20 / 2 ^ 53 * 16e-5) := by
  have hs2 : 25000000 ≤ s ^ 2 := by nlinarith
  have hs2' : s ^ 2 ≤ 49000000 := by nlinarith
  have ha3 : 25000000 ^ 3 ≤ (s ^ 2) ^ 3 := pow_le_pow_left₀ (by norm_num) hs2 3
  have ha3' : (s ^ 2) ^ 3 ≤ 49000000 ^ 3 := pow_le_pow_left₀ (by positivity) hs2' 3
  have ha3p : 0 < (s ^ 2) ^ 3 := by positivity
  have r1 : Rel (F.pow s 2) (s ^ 2) (3 / 2 ^ 53) := (Rel.refl s).pow hF (ρ1 := 0) 2 (by linarith) (by norm_num) (by norm_num) (by norm_num) (by norm_num)
  have r2 : Rel (F.pow (F.pow s 2) 3) ((s ^ 2) ^ 3) (13 / 2 ^ 53) :=
    r1.pow hF (ρ1 := 10 / 2 ^ 53) 3 (by linarith) (by norm_num) (by norm_num) (by norm_num) (by norm_num)
  have hmu : (398600.44e+9 : ℝ) = earthMu := by unfold earthMu; norm_num
  have hmup : (0 : ℝ) < earthMu := by unfold earthMu; norm_num
  have r3 : Rel (mu F) earthMu (2 / 2 ^ 53) := by
    unfold mu; rw [hmu]; exact (Rel.refl _).rnd hF (by unfold earthMu; norm_num) (by norm_num) (by norm_num)
  have r4 : Rel (mu F / F.pow (F.pow s 2) 3) (earthMu / (s ^ 2) ^ 3) (16 / 2 ^ 53) :=
    r3.div r2 hmup ha3p (by norm_num) (by norm_num) (by norm_num) (by norm_num)
  have hqlo : (3.3e-9 : ℝ) ≤ earthMu / (s ^ 2) ^ 3 := by
    rw [le_div_iff₀ ha3p]; unfold earthMu; norm_num at ha3' ⊢; linarith
  have hqhi : earthMu / (s ^ 2) ^ 3 ≤ 16e-5 ^ 2 := by
    rw [div_le_iff₀ ha3p]; unfold earthMu; norm_num at ha3 ⊢; linarith
  have hqp : 0 < earthMu / (s ^ 2) ^ 3 := by positivity
  have r5 : Rel (F.rnd (mu F / F.pow (F.pow s 2) 3)) (earthMu / (s ^ 2) ^ 3) (18 / 2 ^ 53) :=
    r4.rnd hF (le_trans (by norm_num) hqlo) (by norm_num) (by norm_num)
  have hsq : √(earthMu / (s ^ 2) ^ 3) ≤ 16e-5 := Real.sqrt_le_iff.2 ⟨by norm_num, hqhi⟩
  have hsqlo : (5e-5 : ℝ) ≤ √(earthMu / (s ^ 2) ^ 3) := Real.le_sqrt_of_sq_le (le_trans (by norm_num) hqlo)
  have r6 : Rel (F.rnd √(F.rnd (mu F / F.pow (F.pow s 2) 3))) √(earthMu / (s ^ 2) ^ 3) (20 / 2 ^ 53) :=
    (r5.sqrt hqp (by norm_num) (by norm_num)).rnd hF (le_trans (by norm_num) hsqlo) (by norm_num) (by norm_num)
  refine ⟨⟨?_, ?_⟩, (r2.pos ha3p (by norm_num)).ne', (r5.pos hqp (by norm_num)).le, ⟨?_, ?_⟩⟩
  · rw [abs_of_nonneg (by positivity)]; exact hs2'
  · exact r1.abs.trans (mul_le_mul_of_nonneg_left hs2' (by norm_num))
  · rw [abs_of_nonneg (Real.sqrt_nonneg _)]; exact hsq
  · exact r6.abs.trans (mul_le_mul_of_nonneg_left hsq (by norm_num))

/-- the mean anomaly -/
theorem mean_near (F : Flt) (hF : Accurate F) (o : Elements) (sec tk tk' : ℝ) (h : Realistic o sec) (atk : Appr tk' tk 302401 11e-11) :
    Appr (F.rnd (o.m0 + F.rnd (F.rnd (F.rnd √(F.rnd (mu F / F.pow (F.pow o.sqrtA 2) 3)) + o.dn) * tk'))) (meanAnomaly o tk) 566866e-4 144e-15 := by
  obtain ⟨-, -, -, an0⟩ := motion_near F hF o.sqrtA h.sqrtA
  have adn := Appr.exact h.dn
  have am0 := Appr.exact h.m0
  have an := (an0.add adn).rnd hF (B' := 161000e-9) (ε' := 374e-21) (by norm_num) (by norm_num)
  have ant := (an.mul atk).rnd hF (B' := 486866e-4) (ε' := 137e-15) (by norm_num) (by norm_num)
  have amk := (am0.add ant).rnd hF (B' := 566866e-4) (ε' := 144e-15) (by norm_num) (by norm_num)
  exact amk

/-- the eccentric anomalies of near mean anomalies are near -/
theorem kepler_near_two (e M M' E G d : ℝ) (h0 : 0 ≤ e) (h1 : e ≤ 1 / 4) (hE : Kepler e M E) (hG : Kepler e M' G) (hd : |M' - M| ≤ d) : |G - E| ≤ 4 / 3 * d := by
  have h := kepler_dist e M G E h0 hE
  have hr : keplerRes e M G = M' - M := by unfold Kepler at hG; unfold keplerRes; linarith
  rw [hr] at h
  have := abs_nonneg (G - E)
  nlinarith

/-- the true anomaly -/
theorem anomaly_near (F : Flt) (hF : Accurate F) (e E E' : ℝ) (h0 : 0 ≤ e) (h1 : e ≤ 1 / 4) (ak : Appr E' E 60 232e-15) :
    0 ≤ F.rnd (1 - F.pow e 2) ∧ F.rnd (1 - F.rnd (e * F.cos E')) ≠ 0 ∧
    ∃ v, TrueAnomaly e E v ∧
      Appr (F.atan2 (F.rnd (F.rnd (F.rnd √(F.rnd (1 - F.pow e 2)) * F.sin E') / F.rnd (1 - F.rnd (e * F.cos E'))))
        (F.rnd (F.rnd (F.cos E' - e) / F.rnd (1 - F.rnd (e * F.cos E'))))) v 3.2 628e-15 := by
  have ae : Appr e e (1 / 4) 0 := .exact (by rw [abs_of_nonneg h0]; exact h1)
  have a1 := Appr.exact (x := 1) (B := 1) (by norm_num)
  have ap : Appr (F.pow e 2) (e ^ 2) (1 / 16) (1 / 2 ^ 55) := by
    have he2 : e ^ 2 ≤ 1 / 16 := by nlinarith
    refine ⟨by rw [abs_of_nonneg (by positivity)]; exact he2, (hF.pow e 2).trans ?_⟩
    rw [abs_of_nonneg h0]
    have : e ^ 2 / 2 ^ 52 ≤ 1 / 16 / 2 ^ 52 := by gcongr
    norm_num at this ⊢
    linarith
  have aw0 : Appr (F.rnd (1 - F.pow e 2)) (1 - e ^ 2) 1 (1.5 / 2 ^ 53) := by
    have h := (a1.sub ap).2
    have : Appr (1 - F.pow e 2) (1 - e ^ 2) 1 (1 / 2 ^ 55) := ⟨by rw [abs_le]; constructor <;> nlinarith, by simpa using h⟩
    exact this.rnd hF le_rfl (by norm_num)
  have hlo : (0.9 : ℝ) ^ 2 ≤ 1 - e ^ 2 := by nlinarith
  have wq : Appr (F.rnd √(F.rnd (1 - F.pow e 2))) √(1 - e ^ 2) 1 (4 / 2 ^ 53) :=
    (aw0.sqrt (m := 0.9) (C := 1) (by norm_num) hlo (by norm_num) (by norm_num) (by norm_num)).rnd hF le_rfl (by norm_num)
  obtain ⟨hs1, -⟩ := kepler_slope e E h0
  have hm : (3 / 4 : ℝ) ≤ |1 - e * Real.cos E| := by rw [abs_of_pos (by linarith)]; linarith
  have sk := ak.sin hF (ε' := 233e-15) (by norm_num)
  have ck := ak.cos hF (ε' := 233e-15) (by norm_num)
  have ec := (ae.mul ck).rnd hF (B' := 250000e-6) (ε' := 583e-16) (by norm_num) (by norm_num)
  have dd := (a1.sub ec).rnd hF (B' := 125000e-5) (ε' := 585e-16) (by norm_num) (by norm_num)
  have ws := (wq.mul sk).rnd hF (B' := 100000e-5) (ε' := 234e-15) (by norm_num) (by norm_num)
  have fs := (ws.div dd hm (by norm_num)).rnd hF (B' := 133334e-5) (ε' := 417e-15) (by norm_num) (by norm_num)
  have ce := (ck.sub ae).rnd hF (B' := 125000e-5) (ε' := 234e-15) (by norm_num) (by norm_num)
  have fc := (ce.div dd hm (by norm_num)).rnd hF (B' := 166667e-5) (ε' := 443e-15) (by norm_num) (by norm_num)
  refine ⟨aw0.pos hlo (by norm_num), dd.neZero hm (by norm_num), ?_⟩
  have hp : 0 < 1 - e * Real.cos E := by linarith
  have hta := trueAnomaly_atan2 e E h0 (by linarith)
  set v0 := Verif.Model.Geo.atan2 (√(1 - e ^ 2) * Real.sin E / (1 - e * Real.cos E)) ((Real.cos E - e) / (1 - e * Real.cos E))
  have hc : (Real.cos E - e) / (1 - e * Real.cos E) = Real.cos v0 := by rw [div_eq_iff hp.ne', ← hta.1]; ring
  have hs : √(1 - e ^ 2) * Real.sin E / (1 - e * Real.cos E) = Real.sin v0 := by rw [div_eq_iff hp.ne', ← hta.2]; ring
  have hfc := fc.2
  have hfs := fs.2
  rw [hc] at hfc
  rw [hs] at hfs
  set fs' := F.rnd (F.rnd (F.rnd √(F.rnd (1 - F.pow e 2)) * F.sin E') / F.rnd (1 - F.rnd (e * F.cos E')))
  set fc' := F.rnd (F.rnd (F.cos E' - e) / F.rnd (1 - F.rnd (e * F.cos E')))
  obtain ⟨hne, k, hk⟩ := arg_near v0 fc' fs' 443e-15 (by norm_num) hfc (hfs.trans (by norm_num))
  obtain ⟨hb, k2, hk2⟩ := hF.atan2 fs' fc' hne
  have herr : |F.atan2 fs' fc' - (v0 + (k + k2 : ℤ) * (2 * Real.pi))| ≤ 628e-15 := by
    have := abs_add_le (F.atan2 fs' fc' - (Complex.arg ⟨fc', fs'⟩ + 2 * Real.pi * k2)) (Complex.arg ⟨fc', fs'⟩ - (v0 + 2 * Real.pi * k))
    rw [show F.atan2 fs' fc' - (Complex.arg ⟨fc', fs'⟩ + 2 * Real.pi * k2) + (Complex.arg ⟨fc', fs'⟩ - (v0 + 2 * Real.pi * k)) =
      F.atan2 fs' fc' - (v0 + (k + k2 : ℤ) * (2 * Real.pi)) by push_cast; ring] at this
    refine this.trans ((add_le_add hk2 hk).trans (by norm_num))
  refine ⟨v0 + (k + k2 : ℤ) * (2 * Real.pi), ?_, ?_, herr⟩
  · unfold TrueAnomaly
    rw [Real.cos_add_int_mul_two_pi, Real.sin_add_int_mul_two_pi]
    exact hta
  · have := abs_sub_abs_le_abs_sub (v0 + (k + k2 : ℤ) * (2 * Real.pi)) (F.atan2 fs' fc')
    rw [abs_sub_comm] at herr
    norm_num at this herr hb ⊢
    linarith

/-- the position from the anomalies -/
theorem after_near (F : Flt) (hF : Accurate F) (o : Elements) (sec tk tk' E E' a0' : ℝ) (h : Realistic o sec) (atk : Appr tk' tk 302401 11e-11)
    (ak : Appr E' E 60 232e-15) (aa0 : Appr a0' (o.sqrtA ^ 2) 49000000 (3 / 2 ^ 53 * 49000000)) :
    ∃ v p, TrueAnomaly o.e E v ∧
      gpsAfterF F o.crs o.cuc o.e o.cus a0' o.toe o.cic o.node o.cis o.i0 o.crc o.w o.nodeDot o.iDot tk' E' = .ok p ∧
      WithinVec 1e-4 p (orbitPoint (radius o E v + 2 * o.sqrtA ^ 2 * o.e * Real.cos E) (argLat o v) (inclination o v tk) (nodeLon o tk)) := by
  obtain ⟨hsq, hdn, v, hv, av⟩ := anomaly_near F hF o.e E E' h.e.1 h.e.2 ak
  have ae : Appr o.e o.e (1 / 4) 0 := .exact (by rw [abs_of_nonneg h.e.1]; exact h.e.2)
  unfold gpsAfterF
  rw [sqrtF_ok _ _ hsq]
  simp only
  rw [divF_ok _ _ _ hdn, divF_ok _ _ _ hdn]
  simp only
  refine ⟨v, _, hv, rfl, ?_⟩
  set v' := F.atan2 (F.rnd (F.rnd (F.rnd √(F.rnd (1 - F.pow o.e 2)) * F.sin E') / F.rnd (1 - F.rnd (o.e * F.cos E'))))
        (F.rnd (F.rnd (F.cos E' - o.e) / F.rnd (1 - F.rnd (o.e * F.cos E'))))
  have a1 := Appr.exact (x := 1) (B := 1) (by norm_num)
  have a2 := Appr.exact (x := 2) (B := 2) (by norm_num)
  have ck := ak.cos hF (ε' := 233e-15) (by norm_num)
  have ec := (ae.mul ck).rnd hF (B' := 250000e-6) (ε' := 583e-16) (by norm_num) (by norm_num)
  have aw0 := Appr.exact h.w
  have acuc := Appr.exact h.cuc
  have acus := Appr.exact h.cus
  have acrc := Appr.exact h.crc
  have acrs := Appr.exact h.crs
  have acic := Appr.exact h.cic
  have acis := Appr.exact h.cis
  have ai0 := Appr.exact h.i0
  have aid := Appr.exact h.iDot
  have aod := Appr.exact h.nodeDot
  have anode := Appr.exact h.node
  have atoe : Appr o.toe o.toe 604800 0 := .exact (by rw [abs_of_nonneg h.toe.1]; exact h.toe.2)
  have aom : Appr (omega F) earthOmega 73e-6 (1 / 2 ^ 53 * 73e-6 + 1 / 2 ^ 100) := by
    unfold omega
    have : |(7.2921151467e-5 : ℝ)| ≤ 73e-6 := by rw [abs_of_pos (by norm_num)]; norm_num
    exact (Appr.exact this).rnd hF le_rfl (by norm_num)
  have u0 := (av.add aw0).rnd hF (B' := 112000e-4) (ε' := 630e-15) (by norm_num) (by norm_num)
  have u2 := (a2.mul u0).rnd hF (B' := 224000e-4) (ε' := 127e-14) (by norm_num) (by norm_num)
  have c2 := u2.cos hF (ε' := 128e-14) (by norm_num)
  have s2 := u2.sin hF (ε' := 128e-14) (by norm_num)
  have cc := (acuc.mul c2).rnd hF (B' := 100000e-7) (ε' := 129e-16) (by norm_num) (by norm_num)
  have cs := (acus.mul s2).rnd hF (B' := 100000e-7) (ε' := 129e-16) (by norm_num) (by norm_num)
  have u1 := (u0.add cc).rnd hF (B' := 112100e-4) (ε' := 645e-15) (by norm_num) (by norm_num)
  have uk := (u1.add cs).rnd hF (B' := 112200e-4) (ε' := 660e-15) (by norm_num) (by norm_num)
  have r1 := (a1.add ec).rnd hF (B' := 125000e-5) (ε' := 585e-16) (by norm_num) (by norm_num)
  have r2 := (aa0.mul r1).rnd hF (B' := 61250000) (ε' := 290e-8) (by norm_num) (by norm_num)
  have r3 := (acrc.mul c2).rnd hF (B' := 100000) (ε' := 129e-9) (by norm_num) (by norm_num)
  have r4 := (r2.add r3).rnd hF (B' := 61350000) (ε' := 304e-8) (by norm_num) (by norm_num)
  have r5 := (acrs.mul s2).rnd hF (B' := 100000) (ε' := 129e-9) (by norm_num) (by norm_num)
  have rk := (r4.add r5).rnd hF (B' := 61450000) (ε' := 318e-8) (by norm_num) (by norm_num)
  have i1 := (acic.mul c2).rnd hF (B' := 100000e-7) (ε' := 129e-16) (by norm_num) (by norm_num)
  have i2 := (acis.mul s2).rnd hF (B' := 100000e-7) (ε' := 129e-16) (by norm_num) (by norm_num)
  have i3 := (i1.add i2).rnd hF (B' := 200000e-7) (ε' := 259e-16) (by norm_num) (by norm_num)
  have i4 := (ai0.add i3).rnd hF (B' := 802000e-5) (ε' := 268e-16) (by norm_num) (by norm_num)
  have i5 := (aid.mul atk).rnd hF (B' := 302401e-6) (ε' := 144e-18) (by norm_num) (by norm_num)
  have ik := (i4.add i5).rnd hF (B' := 832241e-5) (ε' := 279e-16) (by norm_num) (by norm_num)
  have o1 := (aod.sub aom).rnd hF (B' := 740000e-10) (ε' := 164e-22) (by norm_num) (by norm_num)
  have o2 := (o1.mul atk).rnd hF (B' := 223777e-4) (ε' := 156e-16) (by norm_num) (by norm_num)
  have o3 := (anode.add o2).rnd hF (B' := 303777e-4) (ε' := 190e-16) (by norm_num) (by norm_num)
  have o4 := (aom.mul atoe).rnd hF (B' := 441504e-4) (ε' := 981e-17) (by norm_num) (by norm_num)
  have ok := (o3.sub o4).rnd hF (B' := 745281e-4) (ε' := 371e-16) (by norm_num) (by norm_num)
  have cu := uk.cos hF (ε' := 661e-15) (by norm_num)
  have su := uk.sin hF (ε' := 661e-15) (by norm_num)
  have co := ok.cos hF (ε' := 374e-16) (by norm_num)
  have so := ok.sin hF (ε' := 374e-16) (by norm_num)
  have ci := ik.cos hF (ε' := 282e-16) (by norm_num)
  have si := ik.sin hF (ε' := 282e-16) (by norm_num)
  have x1 := (cu.mul co).rnd hF (B' := 100000e-5) (ε' := 699e-15) (by norm_num) (by norm_num)
  have x2 := (su.mul so).rnd hF (B' := 100000e-5) (ε' := 699e-15) (by norm_num) (by norm_num)
  have x3 := (x2.mul ci).rnd hF (B' := 100000e-5) (ε' := 728e-15) (by norm_num) (by norm_num)
  have x4 := (x1.sub x3).rnd hF (B' := 200000e-5) (ε' := 143e-14) (by norm_num) (by norm_num)
  have x5 := (rk.mul x4).rnd hF (B' := 122900000) (ε' := 943e-7) (by norm_num) (by norm_num)
  have y1 := (cu.mul so).rnd hF (B' := 100000e-5) (ε' := 699e-15) (by norm_num) (by norm_num)
  have y2 := (su.mul co).rnd hF (B' := 100000e-5) (ε' := 699e-15) (by norm_num) (by norm_num)
  have y3 := (y2.mul ci).rnd hF (B' := 100000e-5) (ε' := 728e-15) (by norm_num) (by norm_num)
  have y4 := (y1.add y3).rnd hF (B' := 200000e-5) (ε' := 143e-14) (by norm_num) (by norm_num)
  have y5 := (rk.mul y4).rnd hF (B' := 122900000) (ε' := 943e-7) (by norm_num) (by norm_num)
  have z1 := (rk.mul su).rnd hF (B' := 61450000) (ε' := 439e-7) (by norm_num) (by norm_num)
  have z2 := (z1.mul si).rnd hF (B' := 61450000) (ε' := 457e-7) (by norm_num) (by norm_num)
  have eu : v + o.w + o.cuc * Real.cos (2 * (v + o.w)) + o.cus * Real.sin (2 * (v + o.w)) = argLat o v := by unfold argLat; ring
  have er : o.sqrtA ^ 2 * (1 + o.e * Real.cos E) + o.crc * Real.cos (2 * (v + o.w)) + o.crs * Real.sin (2 * (v + o.w)) =
      radius o E v + 2 * o.sqrtA ^ 2 * o.e * Real.cos E := by unfold radius; ring
  have ei : o.i0 + (o.cic * Real.cos (2 * (v + o.w)) + o.cis * Real.sin (2 * (v + o.w))) + o.iDot * tk = inclination o v tk := by unfold inclination; ring
  have eo : o.node + (o.nodeDot - earthOmega) * tk - earthOmega * o.toe = nodeLon o tk := rfl
  refine ⟨?_, ?_, ?_⟩
  · have := x5.2
    rw [eu, er, ei, eo] at this
    exact this.trans (by norm_num)
  · have := y5.2
    rw [eu, er, ei, eo] at this
    exact this.trans (by norm_num)
  · have := z2.2
    rw [eu, er, ei, mul_assoc] at this
    exact this.trans (by norm_num)

/-- C95: in floating point, for elements of a navigation satellite, the computation raises no exception, and each coordinate of the position it ends with is within
0.1 mm of the formulas of C68 for the exact solution of Kepler's equation. -/
theorem C95_position (F : Flt) (hF : Accurate F) (fuel : ℕ) (o : Elements) (iode : ℝ) (rest : List ℝ) (sec : ℝ) (h : Realistic o sec) :
    ∃ r, gpsSatXyzF F fuel (iode :: o.layout ++ rest) sec = .ok r ∧ ∀ p, r = some p →
      ∃ tk E v, (tk = sec - o.toe ∨ tk = sec - o.toe - 604800 ∨ tk = sec - o.toe + 604800) ∧ |tk| ≤ 302400 + 1e-9 ∧
        Kepler o.e (meanAnomaly o tk) E ∧ TrueAnomaly o.e E v ∧
        WithinVec 1e-4 p (orbitPoint (radius o E v + 2 * o.sqrtA ^ 2 * o.e * Real.cos E) (argLat o v) (inclination o v tk) (nodeLon o tk)) := by
  obtain ⟨tk, htk, htkB, atk⟩ := tk_near F hF sec o.toe h.toe h.sec
  obtain ⟨aa0, hpw, hq, -⟩ := motion_near F hF o.sqrtA h.sqrtA
  have amk := mean_near F hF o sec tk _ h atk
  simp only [Elements.layout, List.cons_append, List.nil_append, gpsSatXyzF]
  rw [divF_ok _ _ _ hpw]
  simp only
  rw [sqrtF_ok _ _ hq]
  simp only
  set mk := F.rnd (o.m0 + F.rnd (F.rnd (F.rnd √(F.rnd (mu F / F.pow (F.pow o.sqrtA 2) 3)) + o.dn) * tkF F sec o.toe))
  have hmk : |mk| ≤ 128 := by
    have := amk.bound
    exact this.trans (by norm_num)
  obtain ⟨r, hr, hE⟩ := C94_kepler F hF fuel o.e mk h.e.1 h.e.2 hmk
  rw [hr]
  cases r with
  | none => exact ⟨none, rfl, by simp⟩
  | some E' =>
    simp only
    obtain ⟨G, hG, -⟩ := (C68_converges o.e mk h.e.1 (by linarith [h.e.2])).1
    obtain ⟨E, hEk, -⟩ := (C68_converges o.e (meanAnomaly o tk) h.e.1 (by linarith [h.e.2])).1
    have hEG := hE E' rfl G hG
    have hGE := kepler_near_two o.e (meanAnomaly o tk) mk E G _ h.e.1 h.e.2 hEk hG amk.2
    have hEM := kepler_near o.e (meanAnomaly o tk) E h.e.1 h.e.2 hEk
    have ak : Appr E' E 60 232e-15 := by
      refine ⟨?_, ?_⟩
      · have h1 := abs_sub_abs_le_abs_sub E (meanAnomaly o tk)
        rw [abs_sub_comm] at h1
        have h2 := amk.1
        norm_num at h1 h2 hEM ⊢
        linarith
      · have h1 := abs_sub_le E' G E
        unfold Within at hEG
        exact h1.trans ((add_le_add hEG hGE).trans (by norm_num))
    obtain ⟨v, p, hv, hp, hw⟩ := after_near F hF o sec tk _ E E' _ h atk ak aa0
    rw [hp]
    refine ⟨some p, rfl, ?_⟩
    rintro p' ⟨⟩
    exact ⟨tk, E, v, htk, htkB, hEk, hv, hw⟩

/-! ## the two models -/

theorem divF_exact (x y : ℝ) : divF Flt.exact x y = Verif.Model.Geo.pyDiv x y := rfl

theorem sqrtF_exact (x : ℝ) : sqrtF Flt.exact x = Verif.Model.Geo.pySqrt x := rfl

theorem keplerLoopF_exact (fuel : ℕ) : ∀ e0 mk ek ek1 prv cur : ℝ,
    keplerLoopF Flt.exact fuel e0 mk ek ek1 prv cur = Verif.Model.Geo.keplerLoop fuel e0 mk ek ek1 prv cur := by
  induction fuel with
  | zero => intros; unfold keplerLoopF Verif.Model.Geo.keplerLoop; rfl
  | succ n ih =>
    intro e0 mk ek ek1 prv cur
    unfold keplerLoopF Verif.Model.Geo.keplerLoop
    simp only [divF_exact, ih]
    rfl

/-- C95: without rounding the model is that of C68. -/
theorem C95_exact (fuel : ℕ) (eph : List ℝ) (sec : ℝ) : gpsSatXyzF Flt.exact fuel eph sec = Verif.Model.Geo.gpsSatXyz fuel eph sec := by
  unfold gpsSatXyzF Verif.Model.Geo.gpsSatXyz
  simp only [keplerLoopF_exact, divF_exact, sqrtF_exact]
  rfl

/-- C95: a GPS orbit of eccentricity 0.01 meets the hypotheses, and in binary64, at the reference time at perigee, the loop ends -/
theorem C95_example : Realistic ⟨5153.6, 0.01, 0, 1, 0.95, 2, 4e-9, -8e-9, 1e-10, 1e-6, 5e-6, 250, -30, 1e-7, -1e-7, 7200⟩ 7200 ∧
    ∃ p, gpsSatXyzF Flt.binary64 2 (0 :: (⟨5153.6, 0.01, 0, 1, 0.95, 2, 4e-9, -8e-9, 1e-10, 1e-6, 5e-6, 250, -30, 1e-7, -1e-7, 7200⟩ : Elements).layout ++ [0, 0]) 7200 = .ok (some p) := by
  have hR : Realistic ⟨5153.6, 0.01, 0, 1, 0.95, 2, 4e-9, -8e-9, 1e-10, 1e-6, 5e-6, 250, -30, 1e-7, -1e-7, 7200⟩ 7200 := by
    constructor <;> norm_num [abs_le]
  refine ⟨hR, ?_⟩
  obtain ⟨r, hr, -⟩ := C95_position Flt.binary64 accurate_binary64 2 _ 0 [0, 0] 7200 hR
  cases r with
  | some p => exact ⟨p, hr⟩
  | none =>
    exfalso
    obtain ⟨-, hpw, hq, -⟩ := motion_near Flt.binary64 accurate_binary64 5153.6 (by norm_num)
    simp only [Elements.layout, List.cons_append, List.nil_append, gpsSatXyzF] at hr
    rw [divF_ok _ _ _ hpw] at hr
    simp only at hr
    rw [sqrtF_ok _ _ hq] at hr
    simp only at hr
    have htk : tkF Flt.binary64 7200 7200 = 0 := by
      have h0 : Flt.binary64.rnd (7200 - 7200) = 0 := by rw [sub_self]; exact rnd_zero
      unfold tkF
      rw [h0]
      norm_num
    have hz : Flt.binary64.rnd 0 = 0 := rnd_zero
    rw [htk, mul_zero, hz, add_zero, hz, C94_example.2.2] at hr
    simp only at hr
    split at hr <;> cases hr

end Verif.Props
