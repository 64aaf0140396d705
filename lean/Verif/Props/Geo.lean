import Verif.Proofs.Geo
import Mathlib.Topology.MetricSpace.Contracting
import Mathlib.Analysis.Real.Pi.Bounds
/-!
# Properties C64–C67: coordinates, elevation and azimuth

All of this is about exact real arithmetic.
-/
namespace Verif.Props
open Verif.Py Verif.Model.Geo Verif.Spec.Geo Verif.Proofs.Geo Real

/-! ## what `xyz2lbh` computes -/

theorem axisDist_pos (x y z : ℝ) (h : x ≠ 0 ∨ y ≠ 0) : 0 < axisDist (x, y, z) := by
  apply Real.sqrt_pos.2
  rcases h with h | h
  · have : 0 < x ^ 2 := by positivity
    simp only; nlinarith [sq_nonneg y]
  · have : 0 < y ^ 2 := by positivity
    simp only; nlinarith [sq_nonneg x]

/-- the start value of the iteration -/
noncomputable def firstLat (x y z : ℝ) : ℝ := z / axisDist (x, y, z) * 1 / (1 - ecc2)

/-- the longitude -/
noncomputable def lonOf (x y : ℝ) : ℝ :=
  open Classical in if x = 0 then (if y > 0 then π / 2 else 3 * π / 2) else atan2 y x

theorem xyz2lbh_eq (fuel : ℕ) (x y z : ℝ) (h : x ≠ 0 ∨ y ≠ 0) : xyz2lbh fuel x y z =
    match latLoop fuel (axisDist (x, y, z)) z (firstLat x y z) with
    | .error er => .error er
    | .ok none => .ok none
    | .ok (some (B, N)) => .ok (some (lonOf x y, B, axisDist (x, y, z) * cos B + z * sin B - N * (1 - ecc2 * sin B ^ 2))) := by
  have hQ := axisDist_pos x y z h
  have he := ecc2_lt
  unfold xyz2lbh
  rw [pySqrt_ok _ (by positivity), show √(x ^ 2 + y ^ 2) = axisDist (x, y, z) from rfl]
  simp only
  rw [pyDiv_ok _ _ hQ.ne']
  simp only
  rw [datumE_sq, pyDiv_ok _ _ (by linarith)]
  rfl

theorem xyz2lbh_axis (fuel : ℕ) (z : ℝ) : xyz2lbh fuel 0 0 z = .error .zeroDiv := by
  unfold xyz2lbh
  rw [pySqrt_ok _ (by positivity)]
  simp only
  rw [show √((0 : ℝ) ^ 2 + 0 ^ 2) = 0 by simp, pyDiv_zero]

theorem atan2_cos (y x : ℝ) : √(x ^ 2 + y ^ 2) * cos (atan2 y x) = x := by
  have := Complex.norm_mul_cos_arg ⟨x, y⟩
  rw [Complex.norm_eq_sqrt_sq_add_sq] at this
  exact this

theorem atan2_sin (y x : ℝ) : √(x ^ 2 + y ^ 2) * sin (atan2 y x) = y := by
  have := Complex.norm_mul_sin_arg ⟨x, y⟩
  rw [Complex.norm_eq_sqrt_sq_add_sq] at this
  exact this

theorem sin_three_pi_div_two : sin (3 * π / 2) = -1 := by
  rw [show 3 * π / 2 = π / 2 + π by ring, sin_add_pi, sin_pi_div_two]
theorem cos_three_pi_div_two : cos (3 * π / 2) = 0 := by
  rw [show 3 * π / 2 = π / 2 + π by ring, cos_add_pi, cos_pi_div_two, neg_zero]

theorem lonOf_cos (x y : ℝ) : √(x ^ 2 + y ^ 2) * cos (lonOf x y) = x := by
  unfold lonOf
  split
  · rename_i h
    split <;> simp [h, cos_three_pi_div_two]
  · exact atan2_cos y x

theorem lonOf_sin (x y : ℝ) : √(x ^ 2 + y ^ 2) * sin (lonOf x y) = y := by
  unfold lonOf
  split
  · rename_i h
    subst h
    split
    · rename_i h; simp [Real.sqrt_sq h.le]
    · rename_i h
      rw [sin_three_pi_div_two, show (0 : ℝ) ^ 2 + y ^ 2 = (-y) ^ 2 by ring, Real.sqrt_sq (by linarith)]
      ring
  · exact atan2_sin y x

theorem lonOf_range (x y : ℝ) : -π < lonOf x y ∧ lonOf x y < 2 * π ∧ (lonOf x y < 0 ∨ lonOf x y < 2 * π) := by
  have := pi_pos
  unfold lonOf
  split
  · split
    · refine ⟨by linarith, by linarith, .inr (by linarith)⟩
    · refine ⟨by linarith, by linarith, .inr (by linarith)⟩
  · have h1 := Complex.neg_pi_lt_arg ⟨x, y⟩
    have h2 := Complex.arg_le_pi ⟨x, y⟩
    unfold atan2
    refine ⟨h1, by linarith, .inr (by linarith)⟩

/-- what a result of `xyz2lbh` looks like -/
theorem xyz2lbh_result (fuel : ℕ) (x y z L B H : ℝ) (h : xyz2lbh fuel x y z = .ok (some (L, B, H))) :
    0 < axisDist (x, y, z) ∧ L = lonOf x y ∧
    ∃ b, B = next (axisDist (x, y, z)) z b ∧ |B - b| ≤ 1e-12 ∧
      H = axisDist (x, y, z) * cos B + z * sin B - primeVertical b * (1 - ecc2 * sin B ^ 2) := by
  by_cases h0 : x ≠ 0 ∨ y ≠ 0
  · have hQ := axisDist_pos x y z h0
    rw [xyz2lbh_eq fuel x y z h0] at h
    split at h
    · cases h
    · cases h
    · rename_i B' N' hl
      cases h
      obtain ⟨b, h1, rfl, h3⟩ := latLoop_result fuel _ z hQ _ _ _ hl
      exact ⟨hQ, rfl, b, h1, h3, rfl⟩
  · push Not at h0
    obtain ⟨rfl, rfl⟩ := h0
    rw [xyz2lbh_axis] at h
    cases h

theorem next_cos_sin (Q z b : ℝ) (hQ : 0 < Q) : Q * sin (next Q z b) = (z + shift b) * cos (next Q z b) := by
  unfold next
  have h := tan_arctan ((z + shift b) / Q)
  have hc := cos_arctan_pos ((z + shift b) / Q)
  rw [tan_eq_sin_div_cos] at h
  field_simp at h
  linarith

theorem abs_sin_sub (a b : ℝ) : |sin a - sin b| ≤ |a - b| := by
  have := Convex.norm_image_sub_le_of_norm_hasDerivWithin_le (f := sin) (s := Set.univ) (C := 1) (x := b) (y := a)
    (fun x _ => (hasDerivAt_sin x).hasDerivWithinAt) (fun x _ => by rw [Real.norm_eq_abs]; exact abs_cos_le_one x) convex_univ trivial trivial
  simpa [Real.norm_eq_abs] using this

theorem abs_cos_sub (a b : ℝ) : |cos a - cos b| ≤ |a - b| := by
  have := Convex.norm_image_sub_le_of_norm_hasDerivWithin_le (f := cos) (s := Set.univ) (C := 1) (x := b) (y := a)
    (fun x _ => (hasDerivAt_cos x).hasDerivWithinAt) (fun x _ => by rw [Real.norm_eq_abs, abs_neg]; exact abs_sin_le_one x) convex_univ trivial trivial
  simpa [Real.norm_eq_abs] using this

theorem N_ecc_le (b : ℝ) : primeVertical b * ecc2 ≤ 42900 := by
  rw [primeVertical_eq]
  have h := W_gt b
  have ha := aecc_lt
  rw [show semiMajor / W b * ecc2 = semiMajor * ecc2 / W b by ring, div_le_iff₀ (W_pos b)]
  nlinarith

/-! ## C64 -/

/-- C64: whatever point is converted, converting the result back gives the point to within a tenth of a micrometre in each coordinate. -/
theorem C64_roundtrip (fuel : ℕ) (x y z L B H : ℝ) (h : xyz2lbh fuel x y z = .ok (some (L, B, H))) :
    |(cartesian L B H).1 - x| ≤ 1e-7 ∧ |(cartesian L B H).2.1 - y| ≤ 1e-7 ∧ |(cartesian L B H).2.2 - z| ≤ 1e-7 := by
  obtain ⟨hQ, rfl, b, hB, hb, hH⟩ := xyz2lbh_result fuel x y z L B H h
  have hx := lonOf_cos x y
  have hy := lonOf_sin x y
  rw [show √(x ^ 2 + y ^ 2) = axisDist (x, y, z) from rfl] at hx hy
  have ht := next_cos_sin _ z b hQ
  rw [← hB] at ht
  unfold shift at ht
  have hN := N_lip B b
  have hs := abs_sin_sub B b
  have hNe := N_ecc_le b
  have hN0 : 0 ≤ primeVertical b * ecc2 := mul_nonneg (primeVertical_pos b).le ecc2_pos.le
  have hsc := sin_sq_add_cos_sq B
  have hcB := abs_cos_le_one B
  have hsB := abs_sin_le_one B
  set Q := axisDist (x, y, z)
  have e1 : (primeVertical B + H) * cos B - Q =
      (primeVertical B - primeVertical b) * cos B + primeVertical b * ecc2 * (sin B * cos B * (sin B - sin b)) := by
    rw [hH]
    linear_combination (Q : ℝ) * hsc - sin B * ht
  have e2 : (primeVertical B * (1 - ecc2) + H) * sin B - z =
      (primeVertical B - primeVertical b) * ((1 - ecc2) * sin B) - primeVertical b * ecc2 * (cos B ^ 2 * (sin B - sin b)) := by
    rw [hH]
    linear_combination (z + primeVertical b * ecc2 * sin B) * hsc + cos B * ht
  have b1 : |(primeVertical B + H) * cos B - Q| ≤ 1e-7 := by
    rw [e1]
    refine (abs_add_le _ _).trans ?_
    have t1 : |(primeVertical B - primeVertical b) * cos B| ≤ 43200 * 1e-12 := by
      rw [abs_mul]
      calc |primeVertical B - primeVertical b| * |cos B| ≤ (43200 * 1e-12) * 1 := by gcongr; exact hN.trans (by gcongr)
        _ = _ := by ring
    have t2 : |primeVertical b * ecc2 * (sin B * cos B * (sin B - sin b))| ≤ 42900 * 1e-12 := by
      rw [abs_mul, abs_of_nonneg hN0, abs_mul, abs_mul]
      calc primeVertical b * ecc2 * (|sin B| * |cos B| * |sin B - sin b|) ≤ 42900 * (1 * 1 * 1e-12) := by
            gcongr; exact hs.trans hb
        _ = _ := by ring
    norm_num at t1 t2 ⊢
    linarith
  have b2 : |(primeVertical B * (1 - ecc2) + H) * sin B - z| ≤ 1e-7 := by
    rw [e2]
    refine (abs_sub _ _).trans ?_
    have t1 : |(primeVertical B - primeVertical b) * ((1 - ecc2) * sin B)| ≤ 43200 * 1e-12 := by
      have he := ecc2_pos
      have he' := ecc2_lt
      rw [abs_mul, abs_mul, abs_of_pos (by linarith : 0 < 1 - ecc2)]
      calc |primeVertical B - primeVertical b| * ((1 - ecc2) * |sin B|) ≤ (43200 * 1e-12) * (1 * 1) := by
            have h3 : (1 - ecc2) ≤ 1 := by linarith
            have h4 : 0 ≤ (1 - ecc2) := by linarith
            gcongr
            exact hN.trans (by gcongr)
        _ = _ := by ring
    have t2 : |primeVertical b * ecc2 * (cos B ^ 2 * (sin B - sin b))| ≤ 42900 * 1e-12 := by
      rw [abs_mul, abs_of_nonneg hN0, abs_mul, abs_pow]
      calc primeVertical b * ecc2 * (|cos B| ^ 2 * |sin B - sin b|) ≤ 42900 * (1 ^ 2 * 1e-12) := by
            gcongr; exact hs.trans hb
        _ = _ := by ring
    norm_num at t1 t2 ⊢
    linarith
  refine ⟨?_, ?_, b2⟩
  · have : (cartesian (lonOf x y) B H).1 - x = ((primeVertical B + H) * cos B - Q) * cos (lonOf x y) := by
      simp only [cartesian]
      linear_combination hx
    rw [this, abs_mul]
    calc _ ≤ 1e-7 * (1 : ℝ) := by gcongr; exact abs_cos_le_one _
      _ = _ := by ring
  · have : (cartesian (lonOf x y) B H).2.1 - y = ((primeVertical B + H) * cos B - Q) * sin (lonOf x y) := by
      simp only [cartesian]
      linear_combination hy
    rw [this, abs_mul]
    calc _ ≤ 1e-7 * (1 : ℝ) := by gcongr; exact abs_sin_le_one _
      _ = _ := by ring

/-- the latitude of a point is a fixed point of the iteration -/
theorem fixed_of_geodetic (l b h x y z : ℝ) (hb : |b| < π / 2) (hh : 0 < primeVertical b + h) (hp : cartesian l b h = (x, y, z)) :
    0 < axisDist (x, y, z) ∧ axisDist (x, y, z) = (primeVertical b + h) * cos b ∧ next (axisDist (x, y, z)) z b = b ∧
    cos (lonOf x y) = cos l ∧ sin (lonOf x y) = sin l := by
  obtain ⟨hb1, hb2⟩ := abs_lt.1 hb
  have hc : 0 < cos b := cos_pos_of_mem_Ioo ⟨hb1, hb2⟩
  simp only [cartesian, Prod.mk.injEq] at hp
  obtain ⟨hx, hy, hz⟩ := hp
  have hQ : axisDist (x, y, z) = (primeVertical b + h) * cos b := by
    unfold axisDist
    simp only
    rw [← hx, ← hy, show ((primeVertical b + h) * cos b * cos l) ^ 2 + ((primeVertical b + h) * cos b * sin l) ^ 2 = ((primeVertical b + h) * cos b) ^ 2 by
      linear_combination ((primeVertical b + h) * cos b) ^ 2 * sin_sq_add_cos_sq l]
    exact Real.sqrt_sq (by positivity)
  have hpos : 0 < axisDist (x, y, z) := by rw [hQ]; positivity
  refine ⟨hpos, hQ, ?_, ?_, ?_⟩
  · unfold next
    apply arctan_eq_of_tan_eq _ ⟨hb1, hb2⟩
    rw [tan_eq_sin_div_cos, hQ, ← hz]
    unfold shift
    field_simp
    ring
  · have := lonOf_cos x y
    rw [show √(x ^ 2 + y ^ 2) = axisDist (x, y, z) from rfl] at this
    have h2 : axisDist (x, y, z) * cos l = x := by rw [hQ, hx]
    exact mul_left_cancel₀ hpos.ne' (this.trans h2.symm)
  · have := lonOf_sin x y
    rw [show √(x ^ 2 + y ^ 2) = axisDist (x, y, z) from rfl] at this
    have h2 : axisDist (x, y, z) * sin l = y := by rw [hQ, hy]
    exact mul_left_cancel₀ hpos.ne' (this.trans h2.symm)

theorem len_axis (x y z : ℝ) : len (x, y, z) = √(axisDist (x, y, z) ^ 2 + z ^ 2) := by
  unfold len dot axisDist
  simp only
  rw [Real.sq_sqrt (by positivity)]
  congr 1
  ring

/-- C64: the result is close to the geodetic coordinates of the point: the longitude is exact (up to turns), the latitude and the height of a point at
least 100 km from the centre are within 3.2e-12 rad and a micrometre; the error of the latitude decreases with the distance from the centre. -/
theorem C64_geodetic (fuel : ℕ) (l b h x y z L B H : ℝ) (hb : |b| < π / 2) (hh : 0 < primeVertical b + h) (hp : cartesian l b h = (x, y, z))
    (hr : 100000 ≤ len (x, y, z)) (hres : xyz2lbh fuel x y z = .ok (some (L, B, H))) :
    cos L = cos l ∧ sin L = sin l ∧ |B - b| ≤ 43200 / (len (x, y, z) - 86100) * 1e-12 ∧ |B - b| ≤ 3.2e-12 ∧ |H - h| ≤ 1e-6 := by
  obtain ⟨hQ, hQe, hfix, hcl, hsl⟩ := fixed_of_geodetic l b h x y z hb hh hp
  obtain ⟨-, rfl, b', hB, hb', hH⟩ := xyz2lbh_result fuel x y z L B H hres
  have hz : z = (primeVertical b * (1 - ecc2) + h) * sin b := by
    simp only [cartesian, Prod.mk.injEq] at hp
    exact hp.2.2.symm
  have hlen := len_axis x y z
  have hlip := next_lip _ z hQ (by rw [← hlen]; linarith) b' b
  rw [hfix, ← hB, ← hlen] at hlip
  set r := len (x, y, z)
  set Q := axisDist (x, y, z)
  have hd : |B - b| ≤ 43200 / (r - 86100) * 1e-12 := by
    have h1 : |b' - b| ≤ 1e-12 + |B - b| := by
      calc |b' - b| = |-(B - b') + (B - b)| := by congr 1; ring
        _ ≤ |-(B - b')| + |B - b| := abs_add_le _ _
        _ ≤ 1e-12 + |B - b| := by rw [abs_neg]; gcongr
    have h2 : |B - b| ≤ 43200 / (r - 42900) * (1e-12 + |B - b|) :=
      hlip.trans (mul_le_mul_of_nonneg_left h1 (div_nonneg (by norm_num) (by linarith)))
    rw [div_mul_eq_mul_div, le_div_iff₀ (by linarith)] at h2 ⊢
    nlinarith
  have hd2 : |B - b| ≤ 3.2e-12 := by
    refine hd.trans ?_
    rw [div_mul_eq_mul_div, div_le_iff₀ (by linarith)]
    norm_num
    linarith
  have hrd : r * |B - b| ≤ 3.2e-7 := by
    have h86 : 0 < r - 86100 := by linarith
    have h0 : 0 ≤ r := by linarith
    calc r * |B - b| ≤ r * (43200 / (r - 86100) * 1e-12) := by gcongr
      _ = r * 43200 * 1e-12 / (r - 86100) := by ring
      _ ≤ 3.2e-7 := by
        rw [div_le_iff₀ h86]
        norm_num
        linarith
  refine ⟨hcl, hsl, hd, hd2, ?_⟩
  have hh' : h = Q * cos b + z * sin b - primeVertical b * (1 - ecc2 * sin b ^ 2) := by
    rw [hQe, hz]
    linear_combination (-(primeVertical b + h)) * sin_sq_add_cos_sq b
  have hW : ∀ t, primeVertical t * (1 - ecc2 * sin t ^ 2) = semiMajor * W t := by
    intro t
    rw [primeVertical_eq, ← W_sq]
    have := W_pos t
    field_simp
  have hWl : |W B - W b| ≤ 0.0068 * |B - b| := by
    have := Convex.norm_image_sub_le_of_norm_hasDerivWithin_le (f := W) (s := Set.univ) (C := 0.0068) (x := b) (y := B)
      (fun x _ => (hasDeriv_W x).hasDerivWithinAt) (fun x _ => by
        rw [Real.norm_eq_abs, abs_div, abs_neg, abs_mul, abs_mul, abs_of_pos ecc2_pos, abs_of_pos (W_pos x), div_le_iff₀ (W_pos x)]
        have h1 := abs_cos_le_one x
        have h2 := abs_sin_le_one x
        have h3 := abs_nonneg (cos x)
        have h4 := abs_nonneg (sin x)
        have h5 := W_gt x
        have h6 := ecc2_lt
        have h7 := ecc2_pos
        have : |sin x| * |cos x| ≤ 1 := by nlinarith
        have : ecc2 * |sin x| * |cos x| ≤ 0.0066944 := by
          rw [mul_assoc]
          calc ecc2 * (|sin x| * |cos x|) ≤ 0.0066944 * 1 := by gcongr
            _ = _ := by ring
        norm_num at *
        linarith) convex_univ trivial trivial
    simpa [Real.norm_eq_abs] using this
  have hdiff : H - h = Q * (cos B - cos b) + z * (sin B - sin b) + ((primeVertical B - primeVertical b') * W B ^ 2 - semiMajor * (W B - W b)) := by
    rw [hH, hh']
    have h1 := hW B
    have h2 := hW b
    rw [W_sq]
    linear_combination h2 - h1
  have hQr : Q ≤ r := by
    rw [hlen]
    exact Real.le_sqrt_of_sq_le (by nlinarith [sq_nonneg z])
  have hzr : |z| ≤ r := by
    rw [hlen]
    exact Real.abs_le_sqrt (by nlinarith [sq_nonneg Q])
  have hr0 : 0 ≤ r := by linarith
  have t1 : |Q * (cos B - cos b)| ≤ 3.2e-7 := by
    rw [abs_mul, abs_of_pos hQ]
    calc Q * |cos B - cos b| ≤ r * |B - b| := mul_le_mul hQr (abs_cos_sub B b) (abs_nonneg _) hr0
      _ ≤ _ := hrd
  have t2 : |z * (sin B - sin b)| ≤ 3.2e-7 := by
    rw [abs_mul]
    calc |z| * |sin B - sin b| ≤ r * |B - b| := mul_le_mul hzr (abs_sin_sub B b) (abs_nonneg _) hr0
      _ ≤ _ := hrd
  have t3 : |(primeVertical B - primeVertical b') * W B ^ 2| ≤ 43200 * 1e-12 := by
    rw [abs_mul, abs_pow, abs_of_pos (W_pos B)]
    have hw1 := W_le B
    have hw0 := (W_pos B).le
    calc |primeVertical B - primeVertical b'| * W B ^ 2 ≤ (43200 * 1e-12) * 1 ^ 2 := by
          gcongr
          exact (N_lip B b').trans (by gcongr)
      _ = _ := by ring
  have t4 : |semiMajor * (W B - W b)| ≤ 6378137 * (0.0068 * 3.2e-12) := by
    rw [abs_mul, abs_of_pos (by unfold semiMajor; norm_num), show semiMajor = 6378137 from rfl]
    gcongr
    exact hWl.trans (by gcongr)
  rw [hdiff]
  have a1 := abs_add_le (Q * (cos B - cos b) + z * (sin B - sin b)) ((primeVertical B - primeVertical b') * W B ^ 2 - semiMajor * (W B - W b))
  have a2 := abs_add_le (Q * (cos B - cos b)) (z * (sin B - sin b))
  have a3 := abs_sub ((primeVertical B - primeVertical b') * W B ^ 2) (semiMajor * (W B - W b))
  norm_num at *
  linarith

/-- C64: every point off the axis and at least 100 km from the centre has geodetic coordinates as used in `C64_geodetic`. -/
theorem C64_exists (x y z : ℝ) (h0 : x ≠ 0 ∨ y ≠ 0) (hr : 100000 ≤ len (x, y, z)) :
    ∃ l b h, |b| < π / 2 ∧ 0 < primeVertical b + h ∧ cartesian l b h = (x, y, z) := by
  have hQ := axisDist_pos x y z h0
  have hlen := len_axis x y z
  have hlip := next_lip _ z hQ (by rw [← hlen]; linarith)
  rw [← hlen] at hlip
  have hκ : 43200 / (len (x, y, z) - 42900) ≤ 0.757 := by
    rw [div_le_iff₀ (by linarith)]
    norm_num
    linarith
  have hc : ContractingWith (Real.toNNReal 0.757) (next (axisDist (x, y, z)) z) := by
    refine ⟨?_, ?_⟩
    · rw [← NNReal.coe_lt_coe, Real.coe_toNNReal _ (by norm_num)]; norm_num
    · refine LipschitzWith.of_dist_le_mul fun b c => ?_
      rw [Real.dist_eq, Real.dist_eq, Real.coe_toNNReal _ (by norm_num)]
      exact (hlip b c).trans (by gcongr)
  have hf := hc.fixedPoint_isFixedPt
  set b := ContractingWith.fixedPoint _ hc
  have hf : next (axisDist (x, y, z)) z b = b := hf
  have hb : |b| < π / 2 := by
    rw [← hf, abs_lt]
    exact arctan_mem_Ioo _
  have hcos : 0 < cos b := cos_pos_of_mem_Ioo (abs_lt.1 hb)
  have hs := next_cos_sin _ z b hQ
  rw [hf] at hs
  refine ⟨lonOf x y, b, axisDist (x, y, z) / cos b - primeVertical b, hb, by simp; positivity, ?_⟩
  have hx := lonOf_cos x y
  have hy := lonOf_sin x y
  rw [show √(x ^ 2 + y ^ 2) = axisDist (x, y, z) from rfl] at hx hy
  simp only [cartesian, Prod.mk.injEq]
  refine ⟨?_, ?_, ?_⟩
  · refine Eq.trans ?_ hx; field_simp; ring
  · refine Eq.trans ?_ hy; field_simp; ring
  · unfold shift at hs
    field_simp
    linear_combination hs

/-! ## C65 -/

/-- C65: off the axis and at least 100 km from the centre the conversion ends after at most 106 passes, and at least 6000 km from the centre (stations and
satellites) after at most 8. -/
theorem C65_terminates (x y z : ℝ) (h0 : x ≠ 0 ∨ y ≠ 0) :
    (100000 ≤ len (x, y, z) → ∀ fuel ≥ 106, ∃ L B H, xyz2lbh fuel x y z = .ok (some (L, B, H))) ∧
    (6000000 ≤ len (x, y, z) → ∀ fuel ≥ 8, ∃ L B H, xyz2lbh fuel x y z = .ok (some (L, B, H))) := by
  have hQ := axisDist_pos x y z h0
  have hlen := len_axis x y z
  have main : ∀ (n : ℕ) (κ : ℝ), 0 ≤ κ → 42900 < len (x, y, z) → 43200 / (len (x, y, z) - 42900) ≤ κ → κ ^ n * π ≤ 1e-12 → ∀ fuel ≥ n + 2,
      ∃ L B H, xyz2lbh fuel x y z = .ok (some (L, B, H)) := by
    intro n κ hκ0 hr hκ hn fuel hf
    have hlip := next_lip _ z hQ (by rw [← hlen]; linarith)
    rw [← hlen] at hlip
    obtain ⟨B, N, hl⟩ := latLoop_ends' n _ z κ hQ hκ0 (fun b c => (hlip b c).trans (by gcongr)) hn (firstLat x y z)
    rw [xyz2lbh_eq fuel x y z h0, latLoop_mono _ fuel _ z hQ hf _ _ _ hl]
    exact ⟨_, _, _, rfl⟩
  have hpi : π < 3.15 := Real.pi_lt_d2
  constructor
  · intro hr
    refine main 104 0.757 (by norm_num) (by linarith) ?_ ?_
    · rw [div_le_iff₀ (by linarith)]
      norm_num
      linarith
    · calc (0.757 : ℝ) ^ 104 * π ≤ 0.757 ^ 104 * 3.15 := by gcongr
        _ ≤ _ := by norm_num
  · intro hr
    refine main 6 0.00726 (by norm_num) (by linarith) ?_ ?_
    · rw [div_le_iff₀ (by linarith)]
      norm_num
      linarith
    · calc (0.00726 : ℝ) ^ 6 * π ≤ 0.00726 ^ 6 * 3.15 := by gcongr
        _ ≤ _ := by norm_num

/-- C65: the result does not depend on the bound on the number of passes -/
theorem C65_unique (n m : ℕ) (x y z : ℝ) (r s : ℝ × ℝ × ℝ) (hr : xyz2lbh n x y z = .ok (some r)) (hs : xyz2lbh m x y z = .ok (some s)) : r = s := by
  by_cases h0 : x ≠ 0 ∨ y ≠ 0
  · have hQ := axisDist_pos x y z h0
    have mono : ∀ k k' t, k ≤ k' → xyz2lbh k x y z = .ok (some t) → xyz2lbh k' x y z = .ok (some t) := by
      intro k k' t hk h
      rw [xyz2lbh_eq _ x y z h0] at h ⊢
      split at h
      · cases h
      · cases h
      · rename_i B N hl
        rw [latLoop_mono _ k' _ z hQ hk _ _ _ hl]
        exact h
    rcases le_total n m with h | h
    · have := mono n m r h hr; rw [this] at hs; cases hs; rfl
    · have := mono m n s h hs; rw [this] at hr; cases hr; rfl
  · push Not at h0
    obtain ⟨rfl, rfl⟩ := h0
    rw [xyz2lbh_axis] at hr
    cases hr

/-! ## C66 -/

theorem direction_of_angle (t s c : ℝ) (h1 : -π < t) (h2 : t < 2 * π) (hs : √(s ^ 2 + c ^ 2) * sin t = s) (hc : √(s ^ 2 + c ^ 2) * cos t = c) :
    IsDirection (open Classical in if t * 180 / π < 0 then t * 180 / π + 360 else t * 180 / π) s c := by
  have hp := pi_pos
  have hneg : t * 180 / π < 0 ↔ t < 0 := by
    rw [div_neg_iff]
    constructor
    · rintro (⟨-, h⟩ | ⟨h, -⟩) <;> linarith
    · intro h; right; exact ⟨by linarith, hp⟩
  by_cases h : t < 0
  · rw [if_pos (hneg.2 h)]
    have e : (t * 180 / π + 360) * π / 180 = t + 2 * π := by field_simp; ring
    refine ⟨?_, ?_, ?_, ?_⟩
    · rw [← sub_le_iff_le_add, le_div_iff₀ hp]; linarith
    · have := hneg.2 h; linarith
    · rw [e, sin_add_two_pi, hs]
    · rw [e, cos_add_two_pi, hc]
  · rw [if_neg (fun h' => h (hneg.1 h'))]
    have e : t * 180 / π * π / 180 = t := by field_simp
    refine ⟨?_, ?_, ?_, ?_⟩
    · rw [le_div_iff₀ hp]; linarith
    · rw [div_lt_iff₀ hp]; linarith
    · rw [e, hs]
    · rw [e, hc]

/-- C66: the longitude in degrees is from 0 to 360 and points to the point; the latitude is between −90 and 90 degrees; the rest is as in radians. -/
theorem C66_degrees (fuel : ℕ) (x y z l b h : ℝ) (h0 : x ≠ 0 ∨ y ≠ 0) (hres : xyz2lbhDeg fuel x y z = .ok (some (l, b, h))) :
    IsDirection l y x ∧ -90 < b ∧ b < 90 ∧ ∃ L, xyz2lbh fuel x y z = .ok (some (L, b * π / 180, h)) := by
  have hQ := axisDist_pos x y z h0
  obtain ⟨r, hr⟩ := latLoop_total fuel _ z hQ (firstLat x y z)
  have heq := xyz2lbh_eq fuel x y z h0
  rw [hr] at heq
  unfold xyz2lbhDeg at hres
  rw [heq] at hres
  cases r with
  | none => cases hres
  | some p =>
    obtain ⟨B, N⟩ := p
    simp only at heq hres
    cases hres
    obtain ⟨-, -, b', hB, -⟩ := xyz2lbh_result fuel x y z _ _ _ heq
    have hr := lonOf_range x y
    have hp := pi_pos
    have hb : B ∈ Set.Ioo (-(π / 2)) (π / 2) := by rw [hB]; exact arctan_mem_Ioo _
    have e : B * 180 / π * π / 180 = B := by field_simp
    refine ⟨?_, ?_, ?_, lonOf x y, by rw [e]; exact heq⟩
    · apply direction_of_angle _ _ _ hr.1 hr.2.1
      · rw [add_comm]; exact lonOf_sin x y
      · rw [add_comm]; exact lonOf_cos x y
    · rw [lt_div_iff₀ hp]; linarith [hb.1]
    · rw [div_lt_iff₀ hp]; linarith [hb.2]

/-- C66: on the axis of rotation (the poles) the conversion gives zeros. -/
theorem C66_axis (fuel : ℕ) (z : ℝ) : xyz2lbh fuel 0 0 z = .error .zeroDiv ∧ xyz2lbhDeg fuel 0 0 z = .ok (some (0, 0, 0)) := by
  refine ⟨xyz2lbh_axis fuel z, ?_⟩
  unfold xyz2lbhDeg
  rw [xyz2lbh_axis]

/-- C66: no other point is an error -/
theorem C66_total (fuel : ℕ) (x y z : ℝ) (h0 : x ≠ 0 ∨ y ≠ 0) : ∃ r, xyz2lbh fuel x y z = .ok r := by
  obtain ⟨r, hr⟩ := latLoop_total fuel _ z (axisDist_pos x y z h0) (firstLat x y z)
  rw [xyz2lbh_eq fuel x y z h0, hr]
  cases r with
  | none => exact ⟨_, rfl⟩
  | some p => exact ⟨_, rfl⟩

/-! ## C67 -/

theorem up_dot (l b l' b' : ℝ) : dot (up l b) (up l' b') = sin b * sin b' + cos b * cos b' * cos (l' - l) := by
  unfold dot up
  simp only
  rw [cos_sub]
  ring

theorem up_unit (l b : ℝ) : dot (up l b) (up l b) = 1 := by
  rw [up_dot]
  simp only [sub_self, cos_zero]
  linear_combination sin_sq_add_cos_sq b

theorem dot_sq_le (u v : Vec) : dot u v ^ 2 ≤ dot u u * dot v v := by
  obtain ⟨a, b, c⟩ := u
  obtain ⟨d, e, f⟩ := v
  simp only [dot]
  nlinarith [sq_nonneg (a * e - b * d), sq_nonneg (a * f - c * d), sq_nonneg (b * f - c * e)]

theorem up_dot_sq (l b l' b' : ℝ) : dot (up l b) (up l' b') ^ 2 ≤ 1 := by
  have := dot_sq_le (up l b) (up l' b')
  rwa [up_unit, up_unit, one_mul] at this

/-- elevation over a sphere: `c` is the cosine of the arc, `R` the radius of the sphere, `r` the distance of the satellite -/
theorem elevation_sphere (u v : Vec) (R r : ℝ) (hu : dot u u = 1) (hv : dot v v = 1) (hr : 0 < r) (hc : dot u v ^ 2 < 1) :
    elevation u (scale R u) (scale r v) = arctan ((dot u v - R / r) / √(1 - dot u v ^ 2)) := by
  have hs : 0 < √(1 - dot u v ^ 2) := Real.sqrt_pos.2 (by linarith)
  have hss : √(1 - dot u v ^ 2) ^ 2 = 1 - dot u v ^ 2 := Real.sq_sqrt (by linarith)
  have h1 : dot (sub (scale r v) (scale R u)) u = r * dot u v - R := by
    have : dot (sub (scale r v) (scale R u)) u = r * dot u v - R * dot u u := by simp only [dot, sub, scale]; ring
    rw [this, hu, mul_one]
  have h2 : dot (sub (scale r v) (scale R u)) (sub (scale r v) (scale R u)) = (r * dot u v - R) ^ 2 + (r * √(1 - dot u v ^ 2)) ^ 2 := by
    have : dot (sub (scale r v) (scale R u)) (sub (scale r v) (scale R u)) = r ^ 2 * dot v v - 2 * R * r * dot u v + R ^ 2 * dot u u := by
      simp only [dot, sub, scale]; ring
    rw [this, hu, hv, mul_pow, hss]
    ring
  unfold elevation len
  rw [h1, h2, arctan_eq_arcsin]
  congr 1
  set c := dot u v
  set s := √(1 - c ^ 2)
  have hd : 0 < r * s := by positivity
  rw [show (r * c - R) ^ 2 + (r * s) ^ 2 = (r * s) ^ 2 * (1 + ((c - R / r) / s) ^ 2) by field_simp; ring, Real.sqrt_mul (by positivity), Real.sqrt_sq hd.le]
  rw [show (c - R / r) / s = (r * c - R) / (r * s) by field_simp]
  rw [div_div]

/-- the result of `compute_el_az` -/
theorem computeElAz_result (fuel : ℕ) (x0 y0 z0 xs ys zs el az : ℝ) (h : computeElAz fuel (x0, y0, z0) (xs, ys, zs) = .ok (some (el, az))) :
    ∃ l0 b0 h0 ls bs hs, xyz2lbh fuel x0 y0 z0 = .ok (some (l0, b0, h0)) ∧ xyz2lbh fuel xs ys zs = .ok (some (ls, bs, hs)) ∧
      dot (up l0 b0) (up ls bs) ≠ 0 ∧ 0 < len (xs, ys, zs) ∧ sin (arctan (√(1 - dot (up l0 b0) (up ls bs) ^ 2) / dot (up l0 b0) (up ls bs))) ≠ 0 ∧
      el = arctan ((cos (arctan (√(1 - dot (up l0 b0) (up ls bs) ^ 2) / dot (up l0 b0) (up ls bs))) - 6371000 / len (xs, ys, zs)) /
        sin (arctan (√(1 - dot (up l0 b0) (up ls bs) ^ 2) / dot (up l0 b0) (up ls bs)))) * (180 / π) ∧
      IsDirection az (dot (sub (xs, ys, zs) (x0, y0, z0)) (east l0)) (dot (sub (xs, ys, zs) (x0, y0, z0)) (north l0 b0)) := by
  unfold computeElAz at h
  simp only at h
  cases h1 : xyz2lbh fuel x0 y0 z0 with
  | error er => rw [h1] at h; cases h
  | ok r1 =>
    rw [h1] at h
    cases r1 with
    | none => cases h
    | some p1 =>
      obtain ⟨l0, b0, h0⟩ := p1
      simp only at h
      cases h2 : xyz2lbh fuel xs ys zs with
      | error er => rw [h2] at h; cases h
      | ok r2 =>
        rw [h2] at h
        cases r2 with
        | none => cases h
        | some p2 =>
          obtain ⟨ls, bs, hs⟩ := p2
          simp only at h
          refine ⟨l0, b0, h0, ls, bs, hs, rfl, rfl, ?_⟩
          have hlen : √(xs ^ 2 + ys ^ 2 + zs ^ 2) = len (xs, ys, zs) := by
            unfold len dot; simp only; congr 1; ring
          have hQ := (xyz2lbh_result fuel xs ys zs ls bs hs h2).1
          have hlp : 0 < len (xs, ys, zs) := by
            rw [len_axis]
            exact Real.sqrt_pos.2 (by positivity)
          have hsq := up_dot_sq l0 b0 ls bs
          rw [pySqrt_ok _ (by positivity), hlen] at h
          simp only at h
          rw [← up_dot, pySqrt_ok _ (by linarith)] at h
          simp only at h
          by_cases hc : dot (up l0 b0) (up ls bs) = 0
          · rw [hc, pyDiv_zero] at h; cases h
          · rw [pyDiv_ok _ _ hc] at h
            simp only at h
            rw [pyDiv_ok _ _ hlp.ne'] at h
            simp only at h
            by_cases hsn : sin (arctan (√(1 - dot (up l0 b0) (up ls bs) ^ 2) / dot (up l0 b0) (up ls bs))) = 0
            · rw [hsn, pyDiv_zero] at h; cases h
            · rw [pyDiv_ok _ _ hsn] at h
              simp only at h
              cases h
              refine ⟨hc, hlp, hsn, by rw [show datumRe = 6371000 by unfold datumRe; norm_num], ?_⟩
              set e := dot (sub (xs, ys, zs) (x0, y0, z0)) (east l0) with he
              set n := dot (sub (xs, ys, zs) (x0, y0, z0)) (north l0 b0) with hn
              have e1 : -(xs - x0) * sin l0 + (ys - y0) * cos l0 = e := by rw [he]; simp only [dot, sub, east]; ring
              have e2 : -(xs - x0) * cos l0 * sin b0 - (ys - y0) * sin l0 * sin b0 + (zs - z0) * cos b0 = n := by
                rw [hn]; simp only [dot, sub, north]; ring
              rw [e1, e2, ← mul_div_assoc]
              have hp := pi_pos
              apply direction_of_angle
              · exact Complex.neg_pi_lt_arg _
              · have := Complex.arg_le_pi ⟨n, e⟩
                unfold atan2
                linarith
              · rw [add_comm]; exact atan2_sin e n
              · rw [add_comm]; exact atan2_cos e n

/-- C67: for a satellite less than 90 degrees of arc away the elevation is that over a sphere of 6371 km; for a satellite more than 90 degrees away, which is
below the horizon, the elevation is not negative exactly when the arc exceeds 90 degrees by at most asin(6371 km / distance). The azimuth is that of the
direction to the satellite in the local frame. -/
theorem C67_elevation (fuel : ℕ) (x0 y0 z0 xs ys zs el az : ℝ) (h : computeElAz fuel (x0, y0, z0) (xs, ys, zs) = .ok (some (el, az))) :
    ∃ l0 b0 h0 ls bs hs, xyz2lbh fuel x0 y0 z0 = .ok (some (l0, b0, h0)) ∧ xyz2lbh fuel xs ys zs = .ok (some (ls, bs, hs)) ∧
      (0 < dot (up l0 b0) (up ls bs) →
        el * π / 180 = elevation (up l0 b0) (scale 6371000 (up l0 b0)) (scale (len (xs, ys, zs)) (up ls bs))) ∧
      (dot (up l0 b0) (up ls bs) < 0 →
        elevation (up l0 b0) (scale 6371000 (up l0 b0)) (scale (len (xs, ys, zs)) (up ls bs)) < 0 ∧
        (0 ≤ el ↔ -dot (up l0 b0) (up ls bs) ≤ 6371000 / len (xs, ys, zs))) ∧
      IsDirection az (dot (sub (xs, ys, zs) (x0, y0, z0)) (east l0)) (dot (sub (xs, ys, zs) (x0, y0, z0)) (north l0 b0)) := by
  obtain ⟨l0, b0, h0, ls, bs, hs, h1, h2, hc, hr, hsn, rfl, haz⟩ := computeElAz_result fuel x0 y0 z0 xs ys zs el az h
  refine ⟨l0, b0, h0, ls, bs, hs, h1, h2, ?_, ?_, haz⟩
  all_goals
    have hle := up_dot_sq l0 b0 ls bs
    have hlt : dot (up l0 b0) (up ls bs) ^ 2 < 1 := by
      rcases hle.lt_or_eq with h | h
      · exact h
      · rw [h] at hsn; simp at hsn
    have hel := elevation_sphere (up l0 b0) (up ls bs) 6371000 (len (xs, ys, zs)) (up_unit _ _) (up_unit _ _) hr hlt
    set c := dot (up l0 b0) (up ls bs)
    set r := len (xs, ys, zs)
    have hsp : 0 < √(1 - c ^ 2) := Real.sqrt_pos.2 (by linarith)
    have hss : √(1 - c ^ 2) ^ 2 = 1 - c ^ 2 := Real.sq_sqrt (by linarith)
    set s := √(1 - c ^ 2)
    have hp := pi_pos
    have hone : 1 + (s / c) ^ 2 = (1 / c) ^ 2 := by field_simp; rw [hss]; ring
  · intro hpos
    have e1 : cos (arctan (s / c)) = c := by rw [cos_arctan, hone, Real.sqrt_sq (by positivity)]; field_simp
    have e2 : sin (arctan (s / c)) = s := by rw [sin_arctan, hone, Real.sqrt_sq (by positivity)]; field_simp
    rw [e1, e2, hel]
    field_simp
  · intro hneg
    have hq : √((1 / c) ^ 2) = -(1 / c) := by
      rw [Real.sqrt_sq_eq_abs, abs_of_neg (by apply div_neg_of_pos_of_neg <;> linarith)]
    have e1 : cos (arctan (s / c)) = -c := by rw [cos_arctan, hone, hq]; field_simp
    have e2 : sin (arctan (s / c)) = -s := by rw [sin_arctan, hone, hq]; field_simp
    rw [e1, e2, hel]
    have hR : 0 < 6371000 / r := by positivity
    refine ⟨?_, ?_⟩
    · rw [arctan_lt_zero]
      exact div_neg_of_neg_of_pos (by linarith) hsp
    · have h180 : 0 < 180 / π := by positivity
      rw [mul_nonneg_iff_of_pos_right h180, arctan_nonneg, div_neg, ← neg_div, le_div_iff₀ hsp]
      constructor <;> intro h <;> linarith

/-- C67: exact multiples of 90 degrees of arc are errors: a satellite at the zenith, at the nadir, or exactly 90 degrees away. -/
theorem C67_errors (fuel : ℕ) (x0 y0 z0 xs ys zs l0 b0 h0 ls bs hs : ℝ) (h1 : xyz2lbh fuel x0 y0 z0 = .ok (some (l0, b0, h0)))
    (h2 : xyz2lbh fuel xs ys zs = .ok (some (ls, bs, hs))) :
    (computeElAz fuel (x0, y0, z0) (xs, ys, zs) = .error .zeroDiv ∧ dot (up l0 b0) (up ls bs) ∈ ({0, 1, -1} : Set ℝ)) ∨
    ((∃ el az, computeElAz fuel (x0, y0, z0) (xs, ys, zs) = .ok (some (el, az))) ∧ dot (up l0 b0) (up ls bs) ∉ ({0, 1, -1} : Set ℝ)) := by
  have hlen : √(xs ^ 2 + ys ^ 2 + zs ^ 2) = len (xs, ys, zs) := by
    unfold len dot; simp only; congr 1; ring
  have hQ := (xyz2lbh_result fuel xs ys zs ls bs hs h2).1
  have hlp : 0 < len (xs, ys, zs) := by
    rw [len_axis]
    exact Real.sqrt_pos.2 (by positivity)
  have hsq := up_dot_sq l0 b0 ls bs
  unfold computeElAz
  simp only
  rw [h1, h2]
  simp only
  rw [pySqrt_ok _ (by positivity), hlen]
  simp only
  rw [← up_dot, pySqrt_ok _ (by linarith)]
  simp only
  by_cases hc : dot (up l0 b0) (up ls bs) = 0
  · left; rw [hc, pyDiv_zero]; simp
  · rw [pyDiv_ok _ _ hc]
    simp only
    rw [pyDiv_ok _ _ hlp.ne']
    simp only
    by_cases hsn : sin (arctan (√(1 - dot (up l0 b0) (up ls bs) ^ 2) / dot (up l0 b0) (up ls bs))) = 0
    · left
      rw [hsn, pyDiv_zero]
      refine ⟨rfl, ?_⟩
      rw [sin_arctan_eq_zero, div_eq_zero_iff] at hsn
      rcases hsn with h | h
      · rw [Real.sqrt_eq_zero (by linarith)] at h
        have : dot (up l0 b0) (up ls bs) ^ 2 = 1 := by linarith
        rcases sq_eq_one_iff.1 this with h | h <;> simp [h]
      · exact absurd h hc
    · right
      rw [pyDiv_ok _ _ hsn]
      refine ⟨⟨_, _, rfl⟩, ?_⟩
      simp only [Set.mem_insert_iff, Set.mem_singleton_iff, not_or]
      refine ⟨hc, fun h => hsn ?_, fun h => hsn ?_⟩ <;> rw [h] <;> simp

/-! ## examples -/

/-- points of the equator are converted in one pass -/
theorem equator (n : ℕ) (x y : ℝ) (h0 : x ≠ 0 ∨ y ≠ 0) : xyz2lbh (n + 1) x y 0 = .ok (some (lonOf x y, 0, axisDist (x, y, 0) - 6378137)) := by
  have hQ := axisDist_pos x y 0 h0
  have hf : firstLat x y 0 = 0 := by unfold firstLat; simp
  have hn : next (axisDist (x, y, 0)) 0 0 = 0 := by unfold next shift; simp
  have hN : primeVertical 0 = 6378137 := by unfold primeVertical semiMajor; simp
  rw [xyz2lbh_eq _ x y 0 h0, hf, latLoop_succ _ _ _ _ hQ, hn, if_pos (by norm_num), hN]
  simp

/-- C64, C65: the hypotheses hold for a station in Irkutsk -/
theorem C65_example : 6000000 ≤ len (-968310, 3794414, 5018167) ∧ ∃ L B H, xyz2lbh 8 (-968310) 3794414 5018167 = .ok (some (L, B, H)) := by
  have h : (6000000 : ℝ) ≤ len (-968310, 3794414, 5018167) := by
    unfold len dot
    apply Real.le_sqrt_of_sq_le
    norm_num
  exact ⟨h, (C65_terminates _ _ _ (.inl (by norm_num))).2 h 8 le_rfl⟩

/-- C67: a satellite 11,658 km below the horizontal plane of the station gets a positive elevation -/
theorem C67_example :
    dot (sub (-5280000, 26136000, 0) (6378137, 0, 0)) (up 0 0) = -11658137 ∧
    ∃ el az, computeElAz 1 (6378137, 0, 0) (-5280000, 26136000, 0) = .ok (some (el, az)) ∧ 0 ≤ el := by
  refine ⟨by simp [dot, sub, up]; norm_num, ?_⟩
  have h1 := equator 0 6378137 0 (.inl (by norm_num))
  have h2 := equator 0 (-5280000) 26136000 (.inl (by norm_num))
  have hq : axisDist (-5280000, 26136000, 0) = 26664000 := by
    unfold axisDist
    simp only
    rw [Real.sqrt_eq_iff_mul_self_eq (by norm_num) (by norm_num)]
    norm_num
  have hl : len (-5280000, 26136000, 0) = 26664000 := by
    rw [len_axis, hq]
    simp [Real.sqrt_sq]
  have hl0 : lonOf 6378137 0 = 0 := by
    unfold lonOf atan2
    rw [if_neg (by norm_num)]
    exact Complex.arg_eq_zero_iff.2 ⟨by norm_num, rfl⟩
  have hcos : cos (lonOf (-5280000) 26136000) = -20 / 101 := by
    have := lonOf_cos (-5280000) 26136000
    rw [show √((-5280000 : ℝ) ^ 2 + 26136000 ^ 2) = axisDist (-5280000, 26136000, 0) from rfl, hq] at this
    linarith
  rw [hl0] at h1
  have hd : dot (up 0 0) (up (lonOf (-5280000) 26136000) 0) = -20 / 101 := by rw [up_dot]; simp [hcos]
  rcases C67_errors 1 _ _ _ _ _ _ _ _ _ _ _ _ h1 h2 with ⟨-, h⟩ | ⟨⟨el, az, hr⟩, -⟩
  · exfalso
    rw [hd] at h
    simp only [Set.mem_insert_iff, Set.mem_singleton_iff] at h
    norm_num at h
  · refine ⟨el, az, hr, ?_⟩
    obtain ⟨l0, b0, h0, ls, bs, hs, e1, e2, -, hneg, -⟩ := C67_elevation 1 _ _ _ _ _ _ el az hr
    rw [h1] at e1
    rw [h2] at e2
    cases e1
    cases e2
    rw [hd, hl] at hneg
    exact (hneg (by norm_num)).2.2 (by norm_num)

end Verif.Props
