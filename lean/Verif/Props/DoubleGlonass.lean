import Verif.Props.DoubleGps
import Verif.Spec.Motion
import Verif.Props.Orbit
/-!
# Property C97: positions of GLONASS and SBAS satellites in floating point
-/
namespace Verif.Props
open Verif.Py Verif.Spec Verif.Spec.Geo Verif.Proofs Verif.Model.DoubleGeo

theorem _root_.Verif.Proofs.Rel.appr {x' x ρ B ε : ℝ} (h : Rel x' x ρ) (hx : 0 ≤ x) (hB : x ≤ B) (hρ : 0 ≤ ρ) (hε : ρ * B ≤ ε) : Appr x' x B ε :=
  ⟨by rwa [abs_of_nonneg hx], h.abs.trans ((mul_le_mul_of_nonneg_left hB hρ).trans hε)⟩

/-- the square of a rounded coordinate -/
theorem sq_near (F : Flt) (hF : Accurate F) (x : ℝ) (hx : |x| ≤ 5e7) :
    |F.pow (F.rnd x) 2 - x ^ 2| ≤ 5 / 2 ^ 53 * x ^ 2 + 1 / 2 ^ 70 := by
  have h1 := hF.rnd x
  have h2 := hF.pow (F.rnd x) 2
  set y := F.rnd x
  have hx0 := abs_nonneg x
  have hy : |y| ≤ |x| + (|x| / 2 ^ 53 + 1 / 2 ^ 100) := by
    have := abs_add_le x (y - x); rw [add_sub_cancel] at this; linarith
  have h3 : |y ^ 2 - x ^ 2| ≤ (|x| / 2 ^ 53 + 1 / 2 ^ 100) * (2 * |x| + (|x| / 2 ^ 53 + 1 / 2 ^ 100)) := by
    rw [show y ^ 2 - x ^ 2 = (y - x) * (y + x) by ring, abs_mul]
    refine mul_le_mul h1 ?_ (abs_nonneg _) (by positivity)
    exact (abs_add_le _ _).trans (by linarith)
  have h4 : |y| ^ 2 ≤ (|x| + (|x| / 2 ^ 53 + 1 / 2 ^ 100)) ^ 2 := pow_le_pow_left₀ (abs_nonneg _) hy 2
  have h5 := abs_sub_le (F.pow y 2) (y ^ 2) (x ^ 2)
  rw [← sq_abs x]
  rw [← sq_abs x] at h3 h5
  set a := |x|
  norm_num at *
  nlinarith

/-- the distance from the centre, computed from squares `X`, `Y`, `Z` with small errors -/
theorem distance_of_squares (F : Flt) (hF : Accurate F) (x y z X Y Z : ℝ) (h1 : 1e7 ≤ len (x, y, z))
    (hX : |X - x ^ 2| ≤ 5 / 2 ^ 53 * x ^ 2 + 1 / 2 ^ 70) (hY : |Y - y ^ 2| ≤ 5 / 2 ^ 53 * y ^ 2 + 1 / 2 ^ 70) (hZ : |Z - z ^ 2| ≤ 5 / 2 ^ 53 * z ^ 2 + 1 / 2 ^ 70) :
    0 ≤ F.rnd (F.rnd (X + Y) + Z) ∧ Rel (F.rnd √(F.rnd (F.rnd (X + Y) + Z))) (len (x, y, z)) (10 / 2 ^ 53) := by
  have hd : dot (x, y, z) (x, y, z) = x ^ 2 + y ^ 2 + z ^ 2 := by unfold dot; ring
  have hl : len (x, y, z) = √(x ^ 2 + y ^ 2 + z ^ 2) := by unfold len; rw [hd]
  have hsq : len (x, y, z) ^ 2 = x ^ 2 + y ^ 2 + z ^ 2 := by rw [hl, Real.sq_sqrt (by positivity)]
  have hlo : 1e14 ≤ x ^ 2 + y ^ 2 + z ^ 2 := by rw [← hsq]; norm_num at h1 ⊢; nlinarith
  rw [abs_le] at hX hY hZ
  have hx2 := sq_nonneg x
  have hy2 := sq_nonneg y
  have hz2 := sq_nonneg z
  have hXY := hF.rnd (X + Y)
  have hXYb : |X + Y| ≤ (1 + 5 / 2 ^ 53) * (x ^ 2 + y ^ 2) + 2 / 2 ^ 70 := by
    rw [abs_le]; constructor <;> linarith [hX.1, hX.2, hY.1, hY.2]
  have hXY' := abs_le.1 (hXY.trans (add_le_add_left (div_le_div_of_nonneg_right hXYb (by positivity)) _))
  have hr : Rel (F.rnd (X + Y) + Z) (x ^ 2 + y ^ 2 + z ^ 2) (6.5 / 2 ^ 53) := by
    clear hXY hXYb hsq hl hd
    norm_num at hX hY hZ hXY' hlo
    constructor <;> norm_num <;> linarith [hX.1, hX.2, hY.1, hY.2, hZ.1, hZ.2, hXY'.1, hXY'.2]
  have hpos : 0 < x ^ 2 + y ^ 2 + z ^ 2 := by norm_num at hlo; linarith
  have hr1 : Rel (F.rnd (F.rnd (X + Y) + Z)) (x ^ 2 + y ^ 2 + z ^ 2) (8.1 / 2 ^ 53) :=
    hr.rnd hF (le_trans (by norm_num) hlo) (by norm_num) (by norm_num)
  refine ⟨(hr1.pos hpos (by norm_num)).le, ?_⟩
  rw [hl]
  have hh : 1 / 2 ^ 46 ≤ √(x ^ 2 + y ^ 2 + z ^ 2) := by rw [← hl]; exact le_trans (by norm_num) h1
  have hr2 := hr1.sqrt hpos (by norm_num) (by norm_num)
  exact hr2.rnd hF hh (by norm_num) (by norm_num)

theorem distance_near (F : Flt) (hF : Accurate F) (x y z : ℝ) (h1 : 1e7 ≤ len (x, y, z)) (h2 : len (x, y, z) ≤ 5e7) :
    0 ≤ F.rnd (F.rnd (F.pow (F.rnd x) 2 + F.pow (F.rnd y) 2) + F.pow (F.rnd z) 2) ∧
      Rel (F.rnd √(F.rnd (F.rnd (F.pow (F.rnd x) 2 + F.pow (F.rnd y) 2) + F.pow (F.rnd z) 2))) (len (x, y, z)) (10 / 2 ^ 53) := by
  have hsq : len (x, y, z) ^ 2 = x ^ 2 + y ^ 2 + z ^ 2 := by
    unfold len dot; rw [Real.sq_sqrt (by nlinarith [mul_self_nonneg x, mul_self_nonneg y, mul_self_nonneg z])]; ring
  have hhi : x ^ 2 + y ^ 2 + z ^ 2 ≤ 5e7 ^ 2 := by rw [← hsq]; exact pow_le_pow_left₀ (Real.sqrt_nonneg _) h2 2
  have hx : |x| ≤ 5e7 := abs_le_of_sq_le_sq (by linarith [sq_nonneg y, sq_nonneg z]) (by norm_num)
  have hy : |y| ≤ 5e7 := abs_le_of_sq_le_sq (by linarith [sq_nonneg x, sq_nonneg z]) (by norm_num)
  have hz : |z| ≤ 5e7 := abs_le_of_sq_le_sq (by linarith [sq_nonneg y, sq_nonneg x]) (by norm_num)
  exact distance_of_squares F hF x y z _ _ _ h1 (sq_near F hF x hx) (sq_near F hF y hy) (sq_near F hF z hz)

/-- the factors of the acceleration -/
theorem factors_near (F : Flt) (hF : Accurate F) (r' r : ℝ) (h1 : 1e7 ≤ r) (h2 : r ≤ 5e7) (hr : Rel r' r (10 / 2 ^ 53)) :
    F.pow r' 3 ≠ 0 ∧ F.pow r' 5 ≠ 0 ∧ Appr (F.rnd (mu F / F.pow r' 3)) (earthMu / r ^ 3) 398601e-12 (40 / 2 ^ 53 * 398601e-12) ∧
      Appr (F.rnd (F.rnd (F.rnd (F.rnd (F.rnd (3 / 2) * j0sqd F) * mu F) * 6378136 ^ 2) / F.pow r' 5)) (3 / 2 * iccJ2 * earthMu * iccRadius ^ 2 / r ^ 5) 264e-12 (70 / 2 ^ 53 * 264e-12) ∧
      Appr (F.pow r' 2) (r ^ 2) 25e14 (24 / 2 ^ 53 * 25e14) := by
  have hmu : (398600.44e+9 : ℝ) = earthMu := by unfold earthMu; norm_num
  have hmup : (0 : ℝ) < earthMu := by unfold earthMu; norm_num
  have h0 : 0 < r := lt_of_lt_of_le (by norm_num) h1
  have hone : 1 ≤ r := le_trans (by norm_num) h1
  have p2 : Rel (F.pow r' 2) (r ^ 2) (24 / 2 ^ 53) := hr.pow hF (ρ1 := 21 / 2 ^ 53) 2 hone (by norm_num) (by norm_num) (by norm_num) (by norm_num)
  have p3 : Rel (F.pow r' 3) (r ^ 3) (34 / 2 ^ 53) := hr.pow hF (ρ1 := 31 / 2 ^ 53) 3 hone (by norm_num) (by norm_num) (by norm_num) (by norm_num)
  have p5 : Rel (F.pow r' 5) (r ^ 5) (54 / 2 ^ 53) := hr.pow hF (ρ1 := 51 / 2 ^ 53) 5 hone (by norm_num) (by norm_num) (by norm_num) (by norm_num)
  have b2 : r ^ 2 ≤ 25e14 := (pow_le_pow_left₀ h0.le h2 2).trans (by norm_num)
  have b3 : 1e21 ≤ r ^ 3 := le_trans (by norm_num) (pow_le_pow_left₀ (by norm_num) h1 3)
  have b5 : 1e35 ≤ r ^ 5 := le_trans (by norm_num) (pow_le_pow_left₀ (by norm_num) h1 5)
  have c3 : r ^ 3 ≤ 125e21 := (pow_le_pow_left₀ h0.le h2 3).trans (by norm_num)
  have c5 : r ^ 5 ≤ 3125e35 := (pow_le_pow_left₀ h0.le h2 5).trans (by norm_num)
  have h3p : 0 < r ^ 3 := by positivity
  have h5p : 0 < r ^ 5 := by positivity
  have r3 : Rel (mu F) earthMu (2 / 2 ^ 53) := by
    unfold mu; rw [hmu]; exact (Rel.refl _).rnd hF (by unfold earthMu; norm_num) (by norm_num) (by norm_num)
  have q3lo : (3e-9 : ℝ) ≤ earthMu / r ^ 3 := by
    rw [le_div_iff₀ h3p]; unfold earthMu; norm_num at c3 ⊢; linarith
  have q3hi : earthMu / r ^ 3 ≤ 398601e-12 := by
    rw [div_le_iff₀ h3p]; unfold earthMu; norm_num at b3 ⊢; linarith
  have q3 : Rel (mu F / F.pow r' 3) (earthMu / r ^ 3) (37 / 2 ^ 53) := r3.div p3 hmup h3p (by norm_num) (by norm_num) (by norm_num) (by norm_num)
  have q3' : Rel (F.rnd (mu F / F.pow r' 3)) (earthMu / r ^ 3) (40 / 2 ^ 53) := q3.rnd hF (le_trans (by norm_num) q3lo) (by norm_num) (by norm_num)
  have hj : (1082625.7e-9 : ℝ) = iccJ2 := by unfold iccJ2; norm_num
  have s0 : Rel (F.rnd (3 / 2)) (3 / 2) (2 / 2 ^ 53) := (Rel.refl _).rnd hF (by norm_num) (by norm_num) (by norm_num)
  have s1 : Rel (j0sqd F) iccJ2 (2 / 2 ^ 53) := by
    unfold j0sqd; rw [hj]; exact (Rel.refl _).rnd hF (by unfold iccJ2; norm_num) (by norm_num) (by norm_num)
  have s2 : Rel (F.rnd (F.rnd (3 / 2) * j0sqd F)) (3 / 2 * iccJ2) (6 / 2 ^ 53) :=
    (s0.mul s1 (by norm_num) (by unfold iccJ2; norm_num) (by norm_num) (by norm_num) (τ := 4.1 / 2 ^ 53) (by norm_num) (by norm_num)).rnd hF
      (by unfold iccJ2; norm_num) (by norm_num) (by norm_num)
  have s3 : Rel (F.rnd (F.rnd (F.rnd (3 / 2) * j0sqd F) * mu F)) (3 / 2 * iccJ2 * earthMu) (10 / 2 ^ 53) :=
    (s2.mul r3 (by unfold iccJ2; norm_num) hmup (by norm_num) (by norm_num) (τ := 8.1 / 2 ^ 53) (by norm_num) (by norm_num)).rnd hF
      (by unfold iccJ2 earthMu; norm_num) (by norm_num) (by norm_num)
  have s4 : Rel (F.rnd (F.rnd (F.rnd (F.rnd (3 / 2) * j0sqd F) * mu F) * 6378136 ^ 2)) (3 / 2 * iccJ2 * earthMu * 6378136 ^ 2) (12 / 2 ^ 53) :=
    (s3.mul (Rel.refl _) (by unfold iccJ2 earthMu; norm_num) (by norm_num) (by norm_num) (by norm_num) (τ := 10.1 / 2 ^ 53) (by norm_num) (by norm_num)).rnd hF
      (by unfold iccJ2 earthMu; norm_num) (by norm_num) (by norm_num)
  have hn : (0 : ℝ) < 3 / 2 * iccJ2 * earthMu * 6378136 ^ 2 := by unfold iccJ2 earthMu; norm_num
  have q5lo : (2e-14 : ℝ) ≤ 3 / 2 * iccJ2 * earthMu * 6378136 ^ 2 / r ^ 5 := by
    rw [le_div_iff₀ h5p]; unfold iccJ2 earthMu; norm_num at c5 ⊢; linarith
  have q5hi : 3 / 2 * iccJ2 * earthMu * 6378136 ^ 2 / r ^ 5 ≤ 264e-12 := by
    rw [div_le_iff₀ h5p]; unfold iccJ2 earthMu; norm_num at b5 ⊢; linarith
  have q5 := s4.div p5 hn h5p (by norm_num) (by norm_num) (τ := 67 / 2 ^ 53) (by norm_num) (by norm_num)
  have q5' := q5.rnd hF (ρ' := 70 / 2 ^ 53) (le_trans (by norm_num) q5lo) (by norm_num) (by norm_num)
  have hicc : iccRadius = 6378136 := rfl
  refine ⟨(p3.pos h3p (by norm_num)).ne', (p5.pos h5p (by norm_num)).ne', q3'.appr (by positivity) q3hi (by norm_num) le_rfl, ?_, p2.appr (by positivity) b2 (by norm_num) le_rfl⟩
  rw [hicc]
  exact q5'.appr (by positivity) q5hi (by norm_num) le_rfl

section
variable (F : Flt) (hF : Accurate F)
include hF

/-- attraction and oblateness -/
theorem attract_near {f' f s' s r' r k x' x z' z : ℝ} (af : Appr f' f 398601e-12 (40 / 2 ^ 53 * 398601e-12)) (as : Appr s' s 264e-12 (70 / 2 ^ 53 * 264e-12))
    (ar2 : Appr (F.pow r' 2) (r ^ 2) 25e14 (24 / 2 ^ 53 * 25e14)) (hr2 : 1e14 ≤ |r ^ 2|) (hk : |k| ≤ 3)
    (ax : Appr x' x 75000000 450e-9) (az : Appr z' z 75000000 450e-9) :
    Appr (attractF F f' s' r' k x' z') (f * x - s * x * (k - 5 * z ^ 2 / r ^ 2)) 355233e-4 843e-15 := by
  have a5 := Appr.exact (x := 5) (B := 5) (by norm_num)
  have ak := Appr.exact hk
  have t1 := (af.mul ax).rnd hF (B' := 298951e-4) (ε' := 316e-15) (by norm_num) (by norm_num)
  have t2 := (as.mul ax).rnd hF (B' := 198000e-7) (ε' := 275e-18) (by norm_num) (by norm_num)
  have z2 := az.pow2 hF (B' := 5625000000000000) (ε' := 688e-1) (by norm_num) (by norm_num)
  have z5 := (a5.mul z2).rnd hF (B' := 28125000000000000) (ε' := 348) (by norm_num) (by norm_num)
  have q := (z5.div ar2 hr2 (by norm_num)).rnd hF (B' := 281250e-3) (ε' := 223e-13) (by norm_num) (by norm_num)
  have kq := (ak.sub q).rnd hF (B' := 284250e-3) (ε' := 224e-13) (by norm_num) (by norm_num)
  have t3 := (t2.mul kq).rnd hF (B' := 562815e-5) (ε' := 523e-15) (by norm_num) (by norm_num)
  have acc := (t1.sub t3).rnd hF (B' := 355233e-4) (ε' := 843e-15) (by norm_num) (by norm_num)
  exact acc

/-- the rotation of the Earth -/
theorem rotation_near {x' x v' v : ℝ} (ax : Appr x' x 75000000 450e-9) (av : Appr v' v 10000 2e-12) :
    Appr (F.rnd (F.pow (omega F) 2 * x')) (earthOmega ^ 2 * x) 398814e-6 262e-17 ∧ Appr (F.rnd (F.rnd (2 * omega F) * v')) (2 * earthOmega * v) 145843e-5 780e-18 := by
  have aom : Appr (omega F) earthOmega 729212e-10 820e-23 := by
    unfold omega
    exact (Appr.exact (x := earthOmega) (B := 729212e-10) (by unfold earthOmega; norm_num)).rnd hF (by norm_num) (by norm_num)
  have a2 := Appr.exact (x := 2) (B := 2) (by norm_num)
  have om2 := aom.pow2 hF (B' := 531751e-14) (ε' := 238e-26) (by norm_num) (by norm_num)
  have t4 := (om2.mul ax).rnd hF (B' := 398814e-6) (ε' := 262e-17) (by norm_num) (by norm_num)
  have o2 := (a2.mul aom).rnd hF (B' := 145843e-9) (ε' := 326e-22) (by norm_num) (by norm_num)
  have cor := (o2.mul av).rnd hF (B' := 145843e-5) (ε' := 780e-18) (by norm_num) (by norm_num)
  exact ⟨t4, cor⟩

theorem stage_near {x' x v' v k' k dt : ℝ} (ax0 : Appr x' x 50000000 6e-9) (av : Appr v' v 10000 2e-12) (kx : Appr k' k 690853e-1 156e-11) (adt : Appr dt dt 1800 0) :
    Appr (stageF F x' v' k' dt) (x + v * dt / 2 + k * dt / 8) 75000000 450e-9 := by
  have a2 := Appr.exact (x := 2) (B := 2) (by norm_num)
  have a8 := Appr.exact (x := 8) (B := 8) (by norm_num)
  have vd := (av.mul adt).rnd hF (B' := 18000000) (ε' := 560e-11) (by norm_num) (by norm_num)
  have vd2 := (vd.div a2 (m := 2) (by norm_num) (by norm_num)).rnd hF (B' := 9000000) (ε' := 380e-11) (by norm_num) (by norm_num)
  have kd := (kx.mul adt).rnd hF (B' := 124354000) (ε' := 283e-8) (by norm_num) (by norm_num)
  have kd8 := (kd.div a8 (m := 8) (by norm_num) (by norm_num)).rnd hF (B' := 15544300) (ε' := 356e-9) (by norm_num) (by norm_num)
  have st1 := (ax0.add vd2).rnd hF (B' := 59000000) (ε' := 164e-10) (by norm_num) (by norm_num)
  have st2 := (st1.add kd8).rnd hF (B' := 74544300) (ε' := 381e-9) (by norm_num) (by norm_num)
  exact st2.weaken (by norm_num) (by norm_num)

theorem result_near {x' x v' v k1' k1_ k2' k2_ k3' k3_ dt : ℝ} (ax0 : Appr x' x 50000000 6e-9) (av : Appr v' v 10000 2e-12) (k1 : Appr k1' k1_ 690853e-1 156e-11) (k2 : Appr k2' k2_ 690853e-1 156e-11)
    (k3 : Appr k3' k3_ 690853e-1 156e-11) (adt : Appr dt dt 1800 0) : |resultF F x' v' k1' k2' k3' dt - (x + v * dt + (k1_ + k2_ + k3_) * dt / 6)| ≤ 2e-6 := by
  have a6 := Appr.exact (x := 6) (B := 6) (by norm_num)
  have s1 := (k1.add k2).rnd hF (B' := 138171) (ε' := 314e-11) (by norm_num) (by norm_num)
  have s2 := (s1.add k3).rnd hF (B' := 207257) (ε' := 473e-11) (by norm_num) (by norm_num)
  have s3 := (s2.mul adt).rnd hF (B' := 373063000) (ε' := 856e-8) (by norm_num) (by norm_num)
  have s4 := (s3.div a6 (m := 6) (by norm_num) (by norm_num)).rnd hF (B' := 62177200) (ε' := 144e-8) (by norm_num) (by norm_num)
  have vd := (av.mul adt).rnd hF (B' := 18000000) (ε' := 560e-11) (by norm_num) (by norm_num)
  have w := (ax0.add vd).rnd hF (B' := 68000000) (ε' := 192e-10) (by norm_num) (by norm_num)
  have res := (w.add s4).rnd hF (B' := 130178000) (ε' := 148e-8) (by norm_num) (by norm_num)
  exact res.2.trans (by norm_num)

/-- one evaluation of the acceleration, times `dt` -/
theorem kx_near {f' f s' s r' r x' x z' z v' v a' a dt : ℝ} (af : Appr f' f 398601e-12 (40 / 2 ^ 53 * 398601e-12)) (as : Appr s' s 264e-12 (70 / 2 ^ 53 * 264e-12))
    (ar2 : Appr (F.pow r' 2) (r ^ 2) 25e14 (24 / 2 ^ 53 * 25e14)) (hr2 : 1e14 ≤ |r ^ 2|) (av : Appr v' v 10000 2e-12) (aa : Appr a' a 1 2e-16) (adt : Appr dt dt 1800 0)
    (ax : Appr x' x 75000000 450e-9) (az : Appr z' z 75000000 450e-9) :
    Appr (F.rnd (fxF F f' s' r' v' a' x' z' * dt)) ((f * x - s * x * (1 - 5 * z ^ 2 / r ^ 2) + earthOmega ^ 2 * x + 2 * earthOmega * v + a) * dt) 690853e-1 156e-11 := by
  have acc := attract_near F hF af as ar2 hr2 (k := 1) (by norm_num) ax az
  obtain ⟨t4, cor⟩ := rotation_near F hF ax av
  have s1 := (acc.add t4).rnd hF (B' := 359222e-4) (ε' := 850e-15) (by norm_num) (by norm_num)
  have s2 := (s1.add cor).rnd hF (B' := 373807e-4) (ε' := 855e-15) (by norm_num) (by norm_num)
  have fx := (s2.add aa).rnd hF (B' := 383807e-4) (ε' := 860e-15) (by norm_num) (by norm_num)
  have kx := (fx.mul adt).rnd hF (B' := 690853e-1) (ε' := 156e-11) (by norm_num) (by norm_num)
  exact kx

theorem ky_near {f' f s' s r' r x' x z' z v' v a' a dt : ℝ} (af : Appr f' f 398601e-12 (40 / 2 ^ 53 * 398601e-12)) (as : Appr s' s 264e-12 (70 / 2 ^ 53 * 264e-12))
    (ar2 : Appr (F.pow r' 2) (r ^ 2) 25e14 (24 / 2 ^ 53 * 25e14)) (hr2 : 1e14 ≤ |r ^ 2|) (av : Appr v' v 10000 2e-12) (aa : Appr a' a 1 2e-16) (adt : Appr dt dt 1800 0)
    (ax : Appr x' x 75000000 450e-9) (az : Appr z' z 75000000 450e-9) :
    Appr (F.rnd (fyF F f' s' r' v' a' x' z' * dt)) ((f * x - s * x * (1 - 5 * z ^ 2 / r ^ 2) + earthOmega ^ 2 * x - 2 * earthOmega * v + a) * dt) 690853e-1 156e-11 := by
  have acc := attract_near F hF af as ar2 hr2 (k := 1) (by norm_num) ax az
  obtain ⟨t4, cor⟩ := rotation_near F hF ax av
  have s1 := (acc.add t4).rnd hF (B' := 359222e-4) (ε' := 850e-15) (by norm_num) (by norm_num)
  have s2 := (s1.sub cor).rnd hF (B' := 373807e-4) (ε' := 855e-15) (by norm_num) (by norm_num)
  have fx := (s2.add aa).rnd hF (B' := 383807e-4) (ε' := 860e-15) (by norm_num) (by norm_num)
  have kx := (fx.mul adt).rnd hF (B' := 690853e-1) (ε' := 156e-11) (by norm_num) (by norm_num)
  exact kx

theorem kz_near {f' f s' s r' r z' z a' a dt : ℝ} (af : Appr f' f 398601e-12 (40 / 2 ^ 53 * 398601e-12)) (as : Appr s' s 264e-12 (70 / 2 ^ 53 * 264e-12))
    (ar2 : Appr (F.pow r' 2) (r ^ 2) 25e14 (24 / 2 ^ 53 * 25e14)) (hr2 : 1e14 ≤ |r ^ 2|) (aa : Appr a' a 1 2e-16) (adt : Appr dt dt 1800 0)
    (az : Appr z' z 75000000 450e-9) :
    Appr (F.rnd (fzF F f' s' r' a' z' * dt)) ((f * z - s * z * (3 - 5 * z ^ 2 / r ^ 2) + a) * dt) 690853e-1 156e-11 := by
  have acc := attract_near F hF af as ar2 hr2 (k := 3) (by norm_num) az az
  have fx := (acc.add aa).rnd hF (B' := 383807e-4) (ε' := 860e-15) (by norm_num) (by norm_num)
  have kx := (fx.mul adt).rnd hF (B' := 690853e-1) (ε' := 156e-11) (by norm_num) (by norm_num)
  exact kx

end

/-- C97: in floating point, for the message of a GLONASS or SBAS satellite and a time within half an hour of it, the computation raises no exception, and each
coordinate of the position it returns is within two micrometres of the exact Nyström step (that of C69). -/
theorem C97_position (F : Flt) (hF : Accurate F) (p v w : Vec) (health freq : ℝ) (rest : List ℝ) (dt : ℝ) (h : RealisticMessage p v w dt) :
    ∃ q, glonassSatXyzF F (broadcastLayout p v w health freq ++ rest) dt = .ok q ∧
      WithinVec 2e-6 q (nystromStep (frozenAcc earthMu iccRadius iccJ2 earthOmega (len (scale 1000 p)) (scale 1000 v) (scale 1000 w)) (scale 1000 p) (scale 1000 v) dt) := by
  obtain ⟨x, y, z⟩ := p
  obtain ⟨vx, vy, vz⟩ := v
  obtain ⟨wx, wy, wz⟩ := w
  obtain ⟨⟨hd1, hd2⟩, ⟨hv1, hv2, hv3⟩, ⟨hw1, hw2, hw3⟩, ht⟩ := h
  simp only at hv1 hv2 hv3 hw1 hw2 hw3
  have hlen : len (x * 1000, y * 1000, z * 1000) = 1000 * len (x, y, z) := by
    unfold len dot
    simp only
    rw [show x * 1000 * (x * 1000) + y * 1000 * (y * 1000) + z * 1000 * (z * 1000) = 1000 ^ 2 * (x * x + y * y + z * z) by ring, Real.sqrt_mul (by norm_num),
      Real.sqrt_sq (by norm_num)]
  have hl1 : 1e7 ≤ len (x * 1000, y * 1000, z * 1000) := by rw [hlen]; norm_num at hd1 ⊢; linarith
  have hl2 : len (x * 1000, y * 1000, z * 1000) ≤ 5e7 := by rw [hlen]; norm_num at hd2 ⊢; linarith
  obtain ⟨hs, hr⟩ := distance_near F hF _ _ _ hl1 hl2
  obtain ⟨h3, h5, af, as, ar2⟩ := factors_near F hF _ _ hl1 hl2 hr
  have hsc : ∀ a b c : ℝ, scale 1000 (a, b, c) = (a * 1000, b * 1000, c * 1000) := by
    intro a b c; unfold scale; simp only [mul_comm]
  rw [hsc, hsc, hsc]
  have hsqr : len (x * 1000, y * 1000, z * 1000) ^ 2 = (x * 1000) ^ 2 + (y * 1000) ^ 2 + (z * 1000) ^ 2 := by
    unfold len; rw [Real.sq_sqrt]
    · unfold dot; ring
    · unfold dot; simp only; nlinarith [sq_nonneg (x * 1000), sq_nonneg (y * 1000), sq_nonneg (z * 1000)]
  have hbd : (x * 1000) ^ 2 + (y * 1000) ^ 2 + (z * 1000) ^ 2 ≤ 50000000 ^ 2 := by
    rw [← hsqr]; exact pow_le_pow_left₀ (Real.sqrt_nonneg _) (hl2.trans (by norm_num)) 2
  have hx : |x * 1000| ≤ 50000000 := abs_le_of_sq_le_sq (by linarith [sq_nonneg (y * 1000), sq_nonneg (z * 1000)]) (by norm_num)
  have hy : |y * 1000| ≤ 50000000 := abs_le_of_sq_le_sq (by linarith [sq_nonneg (x * 1000), sq_nonneg (z * 1000)]) (by norm_num)
  have hz : |z * 1000| ≤ 50000000 := abs_le_of_sq_le_sq (by linarith [sq_nonneg (y * 1000), sq_nonneg (x * 1000)]) (by norm_num)
  have hr2 : 1e14 ≤ |len (x * 1000, y * 1000, z * 1000) ^ 2| := by
    rw [abs_of_nonneg (sq_nonneg _)]
    exact le_trans (by norm_num) (pow_le_pow_left₀ (by norm_num) hl1 2)
  have sc : ∀ a B : ℝ, |a| ≤ B → |a * 1000| ≤ B * 1000 := by
    intro a B h; rw [abs_mul, show |(1000 : ℝ)| = 1000 by norm_num]; linarith
  have ax0 : Appr (F.rnd (x * 1000)) (x * 1000) 50000000 6e-9 := (Appr.exact hx).rnd hF le_rfl (by norm_num)
  have ay0 : Appr (F.rnd (y * 1000)) (y * 1000) 50000000 6e-9 := (Appr.exact hy).rnd hF le_rfl (by norm_num)
  have az0 : Appr (F.rnd (z * 1000)) (z * 1000) 50000000 6e-9 := (Appr.exact hz).rnd hF le_rfl (by norm_num)
  have avx : Appr (F.rnd (vx * 1000)) (vx * 1000) 10000 2e-12 := (Appr.exact (sc _ _ hv1)).rnd hF (by norm_num) (by norm_num)
  have avy : Appr (F.rnd (vy * 1000)) (vy * 1000) 10000 2e-12 := (Appr.exact (sc _ _ hv2)).rnd hF (by norm_num) (by norm_num)
  have avz : Appr (F.rnd (vz * 1000)) (vz * 1000) 10000 2e-12 := (Appr.exact (sc _ _ hv3)).rnd hF (by norm_num) (by norm_num)
  have aax : Appr (F.rnd (wx * 1000)) (wx * 1000) 1 2e-16 := (Appr.exact (sc _ _ hw1)).rnd hF (by norm_num) (by norm_num)
  have aay : Appr (F.rnd (wy * 1000)) (wy * 1000) 1 2e-16 := (Appr.exact (sc _ _ hw2)).rnd hF (by norm_num) (by norm_num)
  have aaz : Appr (F.rnd (wz * 1000)) (wz * 1000) 1 2e-16 := (Appr.exact (sc _ _ hw3)).rnd hF (by norm_num) (by norm_num)
  have adt := Appr.exact ht
  simp only [broadcastLayout, List.cons_append, List.nil_append, glonassSatXyzF]
  by_cases h0 : dt = 0
  · rw [if_pos h0]
    refine ⟨_, rfl, ?_⟩
    subst h0
    simp only [nystromStep, scale, add, WithinVec, Within]
    norm_num
    refine ⟨ax0.2.trans (by norm_num), ay0.2.trans (by norm_num), az0.2.trans (by norm_num)⟩
  rw [if_neg h0, sqrtF_ok _ _ hs]
  simp only
  rw [divF_ok _ _ _ h3]
  simp only
  rw [divF_ok _ _ _ h5]
  simp only
  set r := len (x * 1000, y * 1000, z * 1000)
  set r' := F.rnd √(F.rnd (F.rnd (F.pow (F.rnd (x * 1000)) 2 + F.pow (F.rnd (y * 1000)) 2) + F.pow (F.rnd (z * 1000)) 2))
  have af' : Appr (-F.rnd (mu F / F.pow r' 3)) (-earthMu / r ^ 3) 398601e-12 (40 / 2 ^ 53 * 398601e-12) := by
    rw [neg_div]
    refine ⟨by rw [abs_neg]; exact af.1, ?_⟩
    rw [show ∀ a b : ℝ, -a - -b = -(a - b) by intros; ring, abs_neg]; exact af.2
  have as' : Appr (F.rnd (F.rnd (F.rnd (F.rnd (F.rnd (3 / 2) * j0sqd F) * mu F) * 6378136 ^ 2) / F.pow r' 5)) (3 / 2 * iccJ2 * earthMu * iccRadius ^ 2 / r ^ 5) 264e-12
    (70 / 2 ^ 53 * 264e-12) := as
  set f' := -F.rnd (mu F / F.pow r' 3)
  set s' := F.rnd (F.rnd (F.rnd (F.rnd (F.rnd (3 / 2) * j0sqd F) * mu F) * 6378136 ^ 2) / F.pow r' 5)
  refine ⟨_, rfl, ?_⟩
  have wk : ∀ {a' a : ℝ}, Appr a' a 50000000 6e-9 → Appr a' a 75000000 450e-9 := fun k => k.weaken (by norm_num) (by norm_num)
  have kx1 := kx_near F hF af' as' ar2 hr2 avy aax adt (wk ax0) (wk az0)
  have ky1 := ky_near F hF af' as' ar2 hr2 avx aay adt (wk ay0) (wk az0)
  have kz1 := kz_near F hF af' as' ar2 hr2 aaz adt (wk az0)
  have x1 := stage_near F hF ax0 avx kx1 adt
  have y1 := stage_near F hF ay0 avy ky1 adt
  have z1 := stage_near F hF az0 avz kz1 adt
  have kx2 := kx_near F hF af' as' ar2 hr2 avy aax adt x1 z1
  have ky2 := ky_near F hF af' as' ar2 hr2 avx aay adt y1 z1
  have kz2 := kz_near F hF af' as' ar2 hr2 aaz adt z1
  have x2 := stage_near F hF ax0 avx kx2 adt
  have y2 := stage_near F hF ay0 avy ky2 adt
  have z2 := stage_near F hF az0 avz kz2 adt
  have kx3 := kx_near F hF af' as' ar2 hr2 avy aax adt x2 z2
  have ky3 := ky_near F hF af' as' ar2 hr2 avx aay adt y2 z2
  have kz3 := kz_near F hF af' as' ar2 hr2 aaz adt z2
  have rx := result_near F hF ax0 avx kx1 kx2 kx3 adt
  have ry := result_near F hF ay0 avy ky1 ky2 ky3 adt
  have rz := result_near F hF az0 avz kz1 kz2 kz3 adt
  have half : ∀ X V A : ℝ, X + V * dt / 2 + A * dt * dt / 8 = X + dt / 2 * V + dt ^ 2 / 8 * A := by intros; ring
  have fin : ∀ X V A B C : ℝ, X + V * dt + (A * dt + B * dt + C * dt) * dt / 6 = X + dt * V + dt ^ 2 / 6 * (A + B + C) := by intros; ring
  rw [fin] at rx ry rz
  simp only [half] at rx ry rz
  exact ⟨rx, ry, rz⟩

/-- C97: with exact arithmetic the model is that of C69 -/
theorem C97_exact (eph : List ℝ) (dt : ℝ) : glonassSatXyzF Flt.exact eph dt = Verif.Model.Geo.glonassSatXyz eph dt := by
  unfold glonassSatXyzF Verif.Model.Geo.glonassSatXyz
  simp only [divF_exact, sqrtF_exact]
  rfl

/-- C97: a message of a GLONASS satellite meets the hypotheses; 900 seconds later its position is computed in binary64. -/
theorem C97_example : RealisticMessage (10000, 15000, 18000) (-0.5, 2, -1.5) (0, 1e-9, -2e-9) 900 ∧
    ∃ q, glonassSatXyzF Flt.binary64 (broadcastLayout (10000, 15000, 18000) (-0.5, 2, -1.5) (0, 1e-9, -2e-9) 0 1) 900 = .ok q := by
  have h : RealisticMessage (10000, 15000, 18000) (-0.5, 2, -1.5) (0, 1e-9, -2e-9) 900 := by
    refine ⟨⟨?_, ?_⟩, ?_, ?_, by norm_num⟩
    · unfold len dot; exact Real.le_sqrt_of_sq_le (by norm_num)
    · unfold len dot; exact Real.sqrt_le_iff.2 ⟨by norm_num, by norm_num⟩
    · refine ⟨?_, ?_, ?_⟩ <;> norm_num [abs_of_pos]
    · refine ⟨?_, ?_, ?_⟩ <;> norm_num [abs_of_pos]
  obtain ⟨q, hq, -⟩ := C97_position Flt.binary64 accurate_binary64 _ _ _ 0 1 [] 900 h
  rw [List.append_nil] at hq
  exact ⟨h, q, hq⟩

end Verif.Props
