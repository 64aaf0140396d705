import Verif.Proofs.Elev
import Verif.Props.DoubleLook
/-!
# Property C104: the computed elevation against the true elevation
-/
namespace Verif.Props
open Verif.Py Verif.Spec Verif.Spec.Geo Verif.Proofs Verif.Proofs.Geo Verif.Model.DoubleGeo Real

/-- the height of a point over the centre in the direction of the vertical, without the height over the ellipsoid -/
noncomputable def footUp (b : ℝ) : ℝ := primeVertical b * (1 - ecc2 * sin b ^ 2)
/-- the distance of the vertical from the centre -/
noncomputable def footSide (b : ℝ) : ℝ := primeVertical b * ecc2 * (sin b * cos b)

/-- `N(1 - e² sin² b)` is between the semiaxes -/
theorem footUp_bounds (b : ℝ) : 6356752 ≤ footUp b ∧ footUp b ≤ 6378137 := by
  have hW := W_sq b
  have hr := radicand b
  have hW0 := W_pos b
  have e : footUp b = 6378137 * W b := by
    rw [footUp, primeVertical_eq, ← hW, semiMajor]; field_simp
  rw [e]
  have hs : sin b ^ 2 ≤ 1 := Real.sin_sq_le_one b
  have hs0 := sq_nonneg (sin b)
  have e1 := ecc2_pos
  have hec : 1 - ecc2 = (6356752.314245 / 6378137) ^ 2 := by unfold ecc2 semiMajor semiMinor; norm_num
  constructor
  · have h1 : (6356752.314245 / 6378137) ^ 2 ≤ W b ^ 2 := by rw [hW, ← hec]; nlinarith
    have := (abs_le_of_sq_le_sq' h1 hW0.le).2
    norm_num at this ⊢
    linarith
  · have := W_le b
    linarith

theorem footSide_sq (b : ℝ) : footSide b ^ 2 ≤ 21450 ^ 2 := by
  have h1 := N_ecc_le b
  have h2 := mul_pos (primeVertical_pos b) ecc2_pos
  have h3 : (sin b * cos b) ^ 2 ≤ (1 / 2) ^ 2 := by
    have := Real.sin_sq_add_cos_sq b
    nlinarith [sq_nonneg (sin b ^ 2 - cos b ^ 2)]
  rw [footSide, mul_pow]
  calc (primeVertical b * ecc2) ^ 2 * (sin b * cos b) ^ 2 ≤ 42900 ^ 2 * (1 / 2) ^ 2 := by gcongr
    _ = 21450 ^ 2 := by norm_num

/-- the distance of a point from a point on the vertical direction through the centre -/
theorem foot_dist (l b h k : ℝ) : dot (sub (cartesian l b h) (scale k (up l b))) (sub (cartesian l b h) (scale k (up l b))) = (footUp b + h - k) ^ 2 + footSide b ^ 2 := by
  have h1 := Real.sin_sq_add_cos_sq b
  have h2 := Real.sin_sq_add_cos_sq l
  have e1 : cos b ^ 2 = 1 - sin b ^ 2 := by linarith
  have e2 : cos l ^ 2 = 1 - sin l ^ 2 := by linarith
  simp only [dot, sub, scale, cartesian, up, footUp, footSide]
  set N := primeVertical b
  have : ((N + h) * cos b * cos l - k * (cos b * cos l)) * ((N + h) * cos b * cos l - k * (cos b * cos l)) +
      ((N + h) * cos b * sin l - k * (cos b * sin l)) * ((N + h) * cos b * sin l - k * (cos b * sin l)) = (N + h - k) ^ 2 * cos b ^ 2 * (cos l ^ 2 + sin l ^ 2) := by ring
  rw [this, e2]
  have : (N * ecc2 * (sin b * cos b)) ^ 2 = N ^ 2 * ecc2 ^ 2 * sin b ^ 2 * cos b ^ 2 := by ring
  rw [this, e1]
  ring

theorem sub_zero_up (p : Vec) (u : Vec) : sub p (scale 0 u) = p := by
  simp [sub, scale]

theorem foot_len (l b h : ℝ) : len (cartesian l b h) ^ 2 = (footUp b + h) ^ 2 + footSide b ^ 2 := by
  have := foot_dist l b h 0
  rw [sub_zero_up, sub_zero] at this
  rw [← this, len, Real.sq_sqrt]
  rw [this]
  positivity

/-- the station is close to the point of the sphere -/
theorem station_near (l b h : ℝ) (hh : |h| ≤ 10000) : len (sub (cartesian l b h) (scale 6371000 (up l b))) ≤ 32400 := by
  rw [len, foot_dist, Real.sqrt_le_iff]
  refine ⟨by norm_num, ?_⟩
  have h1 := footUp_bounds b
  have h2 := footSide_sq b
  obtain ⟨h3, h4⟩ := abs_le.1 hh
  have : (footUp b + h - 6371000) ^ 2 ≤ 24248 ^ 2 := sq_le_sq' (by linarith) (by linarith)
  norm_num at this h2 ⊢
  linarith

/-- the satellite is close to the point over the same vertical -/
theorem satellite_near (l b h : ℝ) (hh : 0 < primeVertical b + h) (hr : 20000000 ≤ len (cartesian l b h)) :
    len (sub (cartesian l b h) (scale (len (cartesian l b h)) (up l b))) ≤ 21460 := by
  have hl := foot_len l b h
  have h2 := footSide_sq b
  set r := len (cartesian l b h)
  have hV : 0 < footUp b + h := by
    have hlow : -42900 ≤ footUp b + h := by
      have e : footUp b = primeVertical b - primeVertical b * ecc2 * sin b ^ 2 := by rw [footUp]; ring
      have h1 := N_ecc_le b
      have h3 := mul_pos (primeVertical_pos b) ecc2_pos
      have h4 := Real.sin_sq_le_one b
      have h5 := sq_nonneg (sin b)
      rw [e]
      nlinarith
    by_contra hn
    push Not at hn
    have : (footUp b + h) ^ 2 ≤ 42900 ^ 2 := sq_le_sq' hlow (by linarith)
    nlinarith
  have hle : footUp b + h ≤ r := (abs_le_of_sq_le_sq' (a := footUp b + h) (b := r) (by nlinarith) (by linarith)).2
  have hd : r - (footUp b + h) ≤ 24 := by
    by_contra hn
    push Not at hn
    have : (r - (footUp b + h)) * (r + (footUp b + h)) = footSide b ^ 2 := by linarith [show (r - (footUp b + h)) * (r + (footUp b + h)) = r ^ 2 - (footUp b + h) ^ 2 by ring]
    have h3 : 24 * 20000000 ≤ (r - (footUp b + h)) * (r + (footUp b + h)) := mul_le_mul hn.le (by linarith) (by norm_num) (by linarith)
    norm_num at h3 h2
    linarith
  rw [len, foot_dist, Real.sqrt_le_iff]
  refine ⟨by norm_num, ?_⟩
  have : (footUp b + h - r) ^ 2 ≤ 24 ^ 2 := sq_le_sq' (by linarith) (by linarith)
  norm_num at this h2 ⊢
  linarith

theorem len_up (l b k : ℝ) (hk : 0 ≤ k) : len (scale k (up l b)) = k := by
  have := up_unit l b
  unfold len
  have e : dot (scale k (up l b)) (scale k (up l b)) = k ^ 2 * dot (up l b) (up l b) := by unfold dot scale; ring
  rw [e, this, mul_one, Real.sqrt_sq hk]

/-- C104, the geometry: the elevation over a sphere of 6371 km that the program computes is that over the horizon of the station up to 54 km over the distance of
the satellite from the sphere. -/
theorem C104_geometry (l0 b0 h0 ls bs hs : ℝ) (hh0 : |h0| ≤ 10000) (hhs : 0 < primeVertical bs + hs) (hr : 20000000 ≤ len (cartesian ls bs hs)) :
    |elevation (up l0 b0) (cartesian l0 b0 h0) (cartesian ls bs hs) -
      elevation (up l0 b0) (scale 6371000 (up l0 b0)) (scale (len (cartesian ls bs hs)) (up ls bs))| ≤ 54000 / (len (cartesian ls bs hs) - 6371000) := by
  set r := len (cartesian ls bs hs) with hrdef
  have hpos : 0 < r - 6371000 := by linarith
  have hd : r - 6371000 ≤ len (sub (scale r (up ls bs)) (scale 6371000 (up l0 b0))) := by
    have := norm_sub_norm_le (eu (scale r (up ls bs))) (eu (scale 6371000 (up l0 b0)))
    rw [← eu_sub, eu_norm, eu_norm, eu_norm, len_up _ _ _ (by linarith), len_up _ _ _ (by norm_num)] at this
    exact this
  have h1 := len_sub_le (cartesian ls bs hs) (cartesian l0 b0 h0) (scale r (up ls bs)) (scale 6371000 (up l0 b0))
  have h2 := station_near l0 b0 h0 hh0
  have h3 := satellite_near ls bs hs hhs hr
  rw [← hrdef] at h3
  have hδ : 53860 / (r - 6371000) ≤ 1 / 100 := by rw [div_le_div_iff₀ hpos (by norm_num)]; linarith
  have := elevation_close (up l0 b0) (cartesian l0 b0 h0) (cartesian ls bs hs) (scale 6371000 (up l0 b0)) (scale r (up ls bs)) (up_unit _ _)
    (53860 / (r - 6371000)) hδ (by linarith) ?_
  · refine this.trans ?_
    rw [div_mul_eq_mul_div, div_le_div_iff_of_pos_right hpos]
    norm_num
  · refine h1.trans ((add_le_add h3 h2).trans ?_)
    calc (21460 + 32400 : ℝ) = 53860 / (r - 6371000) * (r - 6371000) := by field_simp; norm_num
      _ ≤ _ := by gcongr

/-- C104, in floating point: the elevation computed in floating point is the true elevation up to 0.23 degrees (for a satellite at 20000 km from the centre; less for
those farther away). -/
theorem C104_elevation (F : Flt) (hF : Accurate F) (fuel : ℕ) (hf : 8 ≤ fuel) (x0 y0 z0 l0 b0 h0 xs ys zs ls bs hs : ℝ)
    (hb0 : |b0| < π / 2) (hh0 : |h0| ≤ 10000) (hp0 : cartesian l0 b0 h0 = (x0, y0, z0)) (hQ0 : 1e-3 ≤ axisDist (x0, y0, z0))
    (hbs : |bs| < π / 2) (hhs : 0 < primeVertical bs + hs) (hps : cartesian ls bs hs = (xs, ys, zs))
    (hrs : 20000000 ≤ len (xs, ys, zs) ∧ len (xs, ys, zs) ≤ 50000000) (hQs : 1e-3 ≤ axisDist (xs, ys, zs))
    (hc0 : 1e-12 ≤ dot (up l0 b0) (up ls bs)) (hc1 : dot (up l0 b0) (up ls bs) ^ 2 ≤ 1 - 1e-10) :
    ∃ el az, computeElAzF F fuel (x0, y0, z0) (xs, ys, zs) = .ok (some (el, az)) ∧
      Within (3.1e6 / (len (xs, ys, zs) - 6371000)) el (elevation (up l0 b0) (x0, y0, z0) (xs, ys, zs) * 180 / π) := by
  have hl0 := foot_len l0 b0 h0
  have hu := footUp_bounds b0
  have hsd := footSide_sq b0
  obtain ⟨k1, k2⟩ := abs_le.1 hh0
  have hpv : 6356752 ≤ primeVertical b0 := by
    refine hu.1.trans ?_
    rw [footUp]
    have h1 := primeVertical_pos b0
    have h2 := mul_nonneg ecc2_pos.le (sq_nonneg (sin b0))
    nlinarith
  rw [hp0] at hl0
  have hlen0 : 0 ≤ len (x0, y0, z0) := Real.sqrt_nonneg _
  have hr0 : 6000000 ≤ len (x0, y0, z0) ∧ len (x0, y0, z0) ≤ 50000000 := by
    constructor
    · by_contra hn
      push Not at hn
      nlinarith [sq_nonneg (footSide b0)]
    · by_contra hn
      push Not at hn
      nlinarith
  obtain ⟨el, az, h1, h2, -⟩ := C98_look F hF fuel hf x0 y0 z0 l0 b0 h0 xs ys zs ls bs hs hb0 (by linarith) hp0 hr0 hQ0 hbs hhs hps ⟨by linarith [hrs.1], hrs.2⟩ hQs
    _ _ _ _ rfl rfl rfl rfl hc0 hc1
  refine ⟨el, az, h1, ?_⟩
  have hg := C104_geometry l0 b0 h0 ls bs hs hh0 hhs (by rw [hps]; exact hrs.1)
  rw [hp0, hps] at hg
  set r := len (xs, ys, zs)
  set c := dot (up l0 b0) (up ls bs)
  have hpos : 0 < r - 6371000 := by linarith [hrs.1]
  have hs5 : 1e-5 ≤ √(1 - c ^ 2) := Real.le_sqrt_of_sq_le (by norm_num at hc1 ⊢; linarith)
  have hsmall : 7e-11 / √(1 - c ^ 2) ≤ 7e-6 := by
    rw [div_le_iff₀ (by linarith)]
    norm_num at hs5 ⊢
    linarith
  unfold Within at h2 ⊢
  set t := elevation (up l0 b0) (x0, y0, z0) (xs, ys, zs)
  set t' := elevation (up l0 b0) (scale 6371000 (up l0 b0)) (scale r (up ls bs))
  have hpi := Real.pi_gt_d4
  have hdeg : |t' * 180 / π - t * 180 / π| ≤ 54000 / (r - 6371000) * 57.298 := by
    have : t' * 180 / π - t * 180 / π = -((t - t') * (180 / π)) := by ring
    rw [this, abs_neg, abs_mul, abs_of_pos (show 0 < 180 / π by positivity)]
    have h57 : 180 / π ≤ 57.298 := by rw [div_le_iff₀ (by positivity)]; norm_num at hpi ⊢; linarith
    gcongr
  have hsum : |el - t * 180 / π| ≤ |el - t' * 180 / π| + |t' * 180 / π - t * 180 / π| := by
    have : el - t * 180 / π = (el - t' * 180 / π) + (t' * 180 / π - t * 180 / π) := by ring
    rw [this]
    exact abs_add_le _ _
  have h6 : (7e-6 : ℝ) ≤ 5000 / (r - 6371000) := by rw [le_div_iff₀ hpos]; norm_num; linarith [hrs.2]
  calc _ ≤ 5000 / (r - 6371000) + 54000 / (r - 6371000) * 57.298 := by linarith
    _ = (5000 + 54000 * 57.298) / (r - 6371000) := by ring
    _ ≤ _ := by rw [div_le_div_iff_of_pos_right hpos]; norm_num

/-- C104, which satellites are kept: one that stands at least 0.24 degrees over the horizon of the station (and not within 1e-5 rad of the zenith of the ellipsoid)
gets a non-negative elevation. -/
theorem C104_kept (F : Flt) (hF : Accurate F) (fuel : ℕ) (hf : 8 ≤ fuel) (x0 y0 z0 l0 b0 h0 xs ys zs ls bs hs : ℝ)
    (hb0 : |b0| < π / 2) (hh0 : |h0| ≤ 10000) (hp0 : cartesian l0 b0 h0 = (x0, y0, z0)) (hQ0 : 1e-3 ≤ axisDist (x0, y0, z0))
    (hbs : |bs| < π / 2) (hhs : 0 < primeVertical bs + hs) (hps : cartesian ls bs hs = (xs, ys, zs))
    (hrs : 20000000 ≤ len (xs, ys, zs) ∧ len (xs, ys, zs) ≤ 50000000) (hQs : 1e-3 ≤ axisDist (xs, ys, zs))
    (hc1 : dot (up l0 b0) (up ls bs) ^ 2 ≤ 1 - 1e-10) (hel : 0.24 ≤ elevation (up l0 b0) (x0, y0, z0) (xs, ys, zs) * 180 / π) :
    ∃ el az, computeElAzF F fuel (x0, y0, z0) (xs, ys, zs) = .ok (some (el, az)) ∧ 0 ≤ el := by
  have hg := C104_geometry l0 b0 h0 ls bs hs hh0 hhs (by rw [hps]; exact hrs.1)
  rw [hp0, hps] at hg
  set r := len (xs, ys, zs) with hrdef
  have hpos : 0 < r - 6371000 := by linarith [hrs.1]
  have hpi := Real.pi_gt_d4
  have hpi0 := Real.pi_pos
  have hq : 54000 / (r - 6371000) ≤ 0.004 := by rw [div_le_iff₀ hpos]; norm_num; linarith [hrs.1]
  have ht : 0.0041 ≤ elevation (up l0 b0) (x0, y0, z0) (xs, ys, zs) := by
    rw [le_div_iff₀ hpi0] at hel
    norm_num at hel hpi ⊢
    linarith
  have ht' : 0 < elevation (up l0 b0) (scale 6371000 (up l0 b0)) (scale r (up ls bs)) := by
    have := (abs_le.1 hg).2
    norm_num at hq ht this ⊢
    linarith
  have hc0 : 1e-12 ≤ dot (up l0 b0) (up ls bs) := by
    unfold elevation at ht'
    rw [Real.arcsin_pos] at ht'
    have hl : 0 ≤ len (sub (scale r (up ls bs)) (scale 6371000 (up l0 b0))) := Real.sqrt_nonneg _
    have hd : 0 < dot (sub (scale r (up ls bs)) (scale 6371000 (up l0 b0))) (up l0 b0) := by
      by_contra hn
      push Not at hn
      exact absurd ht' (not_lt.2 (div_nonpos_of_nonpos_of_nonneg hn hl))
    have e : dot (sub (scale r (up ls bs)) (scale 6371000 (up l0 b0))) (up l0 b0) = r * dot (up l0 b0) (up ls bs) - 6371000 * dot (up l0 b0) (up l0 b0) := by
      unfold dot sub scale; ring
    rw [e, up_unit] at hd
    by_contra hn
    push Not at hn
    norm_num at hn
    nlinarith [hrs.2]
  obtain ⟨el, az, h1, h2⟩ := C104_elevation F hF fuel hf x0 y0 z0 l0 b0 h0 xs ys zs ls bs hs hb0 hh0 hp0 hQ0 hbs hhs hps hrs hQs hc0 hc1
  refine ⟨el, az, h1, ?_⟩
  have hb : 3.1e6 / (r - 6371000) ≤ 0.24 := by rw [div_le_iff₀ hpos]; norm_num; linarith [hrs.1]
  have := (abs_le.1 h2).1
  norm_num at this hb hel ⊢
  linarith

theorem accurate_exact : Accurate Flt.exact := by
  constructor
  · intro x; simp only [Flt.exact, id, sub_self, abs_zero]; positivity
  · intro x; simp [Flt.exact]
  · intro x; simp [Flt.exact]
  · intro x; simp [Flt.exact]
  · intro y x _
    refine ⟨?_, 0, by simp [Flt.exact]⟩
    have := Complex.abs_arg_le_pi ⟨x, y⟩
    have hp := Real.pi_lt_d2
    norm_num at hp ⊢
    exact this.trans (by linarith)
  · intro x n; simp only [Flt.exact, sub_self, abs_zero]; positivity

/-- C104, with exact arithmetic (the model of C64-C67) -/
theorem C104_exact (fuel : ℕ) (hf : 8 ≤ fuel) (x0 y0 z0 l0 b0 h0 xs ys zs ls bs hs : ℝ)
    (hb0 : |b0| < π / 2) (hh0 : |h0| ≤ 10000) (hp0 : cartesian l0 b0 h0 = (x0, y0, z0)) (hQ0 : 1e-3 ≤ axisDist (x0, y0, z0))
    (hbs : |bs| < π / 2) (hhs : 0 < primeVertical bs + hs) (hps : cartesian ls bs hs = (xs, ys, zs))
    (hrs : 20000000 ≤ len (xs, ys, zs) ∧ len (xs, ys, zs) ≤ 50000000) (hQs : 1e-3 ≤ axisDist (xs, ys, zs))
    (hc0 : 1e-12 ≤ dot (up l0 b0) (up ls bs)) (hc1 : dot (up l0 b0) (up ls bs) ^ 2 ≤ 1 - 1e-10) :
    ∃ el az, Verif.Model.Geo.computeElAz fuel (x0, y0, z0) (xs, ys, zs) = .ok (some (el, az)) ∧
      Within (3.1e6 / (len (xs, ys, zs) - 6371000)) el (elevation (up l0 b0) (x0, y0, z0) (xs, ys, zs) * 180 / π) := by
  rw [← C98_exact]
  exact C104_elevation Flt.exact accurate_exact fuel hf x0 y0 z0 l0 b0 h0 xs ys zs ls bs hs hb0 hh0 hp0 hQ0 hbs hhs hps hrs hQs hc0 hc1

/-- C104: a station on the equator and a satellite over the equator 45 degrees further east meet the hypotheses; the satellite stands more than 0.24 degrees high. -/
theorem C104_example : |(0 : ℝ)| ≤ 10000 ∧ cartesian 0 0 0 = (6378137, 0, 0) ∧ cartesian (π / 4) 0 (20000000 * √2 - 6378137) = (20000000, 20000000, 0) ∧
    0 < primeVertical 0 + (20000000 * √2 - 6378137) ∧ (20000000 ≤ len (20000000, 20000000, 0) ∧ len (20000000, 20000000, 0) ≤ 50000000) ∧
    dot (up 0 0) (up (π / 4) 0) = √2 / 2 ∧ 1e-12 ≤ √2 / 2 ∧ (√2 / 2) ^ 2 ≤ 1 - 1e-10 ∧
    0.24 ≤ elevation (up 0 0) (6378137, 0, 0) (20000000, 20000000, 0) * 180 / π := by
  have s2 : √2 * √2 = 2 := Real.mul_self_sqrt (by norm_num)
  have s2lo : 1.414 ≤ √2 := Real.le_sqrt_of_sq_le (by norm_num)
  have s2hi : √2 ≤ 1.415 := Real.sqrt_le_iff.2 ⟨by norm_num, by norm_num⟩
  have hl : len (20000000, 20000000, 0) = 20000000 * √2 := by
    unfold len dot
    simp only
    rw [show (20000000 : ℝ) * 20000000 + 20000000 * 20000000 + 0 * 0 = 20000000 ^ 2 * 2 by norm_num, Real.sqrt_mul (by norm_num), Real.sqrt_sq (by norm_num)]
  have hpv : primeVertical 0 = 6378137 := by simp [primeVertical, semiMajor]
  refine ⟨by norm_num, by simp [cartesian, hpv], ?_, by rw [hpv]; norm_num at s2lo ⊢, ?_, by rw [up_dot]; simp, by norm_num at s2lo ⊢; linarith, ?_, ?_⟩
  · simp only [cartesian, hpv, Real.sin_zero, Real.cos_zero, Real.cos_pi_div_four, Real.sin_pi_div_four]
    refine Prod.ext ?_ (Prod.ext ?_ ?_) <;> norm_num <;> nlinarith
  · rw [hl]; norm_num at s2lo s2hi ⊢; linarith
  · have : (√2 / 2) ^ 2 = 1 / 2 := by nlinarith
    rw [this]; norm_num
  · have hd : dot (sub (20000000, 20000000, 0) (6378137, 0, 0)) (up 0 0) = 13621863 := by simp [dot, sub, up]; norm_num
    have hlen : len (sub (20000000, 20000000, 0) (6378137, 0, 0)) ≤ 2 * 13621863 := by
      unfold len dot sub
      exact Real.sqrt_le_iff.2 ⟨by norm_num, by norm_num⟩
    have hlen0 : 0 < len (sub (20000000, 20000000, 0) (6378137, 0, 0)) := by
      unfold len dot sub
      exact Real.sqrt_pos.2 (by norm_num)
    have h6 : π / 6 ≤ elevation (up 0 0) (6378137, 0, 0) (20000000, 20000000, 0) := by
      unfold elevation
      rw [hd, Real.le_arcsin_iff_sin_le' ⟨by linarith [Real.pi_pos], by linarith [Real.pi_pos]⟩, Real.sin_pi_div_six, div_le_div_iff₀ (by norm_num) hlen0]
      linarith
    rw [le_div_iff₀ Real.pi_pos]
    linarith [Real.pi_pos]

end Verif.Props
