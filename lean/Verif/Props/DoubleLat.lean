import Verif.Props.DoubleGps
/-!
# Property C96: geodetic coordinates in floating point
-/
namespace Verif.Props
open Verif.Py Verif.Spec Verif.Spec.Geo Verif.Proofs Verif.Proofs.Geo Verif.Model.DoubleGeo

/-- the square of the eccentricity, as computed from the rounded eccentricity -/
theorem ecc_near (F : Flt) (hF : Accurate F) : Appr (F.pow (datumE F) 2) ecc2 0.0066944 (16 / 2 ^ 53) := by
  have rb : Rel (datumB F) semiMinor (2 / 2 ^ 53) := (Rel.refl semiMinor).rnd hF (by unfold semiMinor; norm_num) (by norm_num) (by norm_num)
  have rb2 : Rel (F.pow (datumB F) 2) (semiMinor ^ 2) (8 / 2 ^ 53) :=
    rb.pow hF (ρ1 := 5 / 2 ^ 53) 2 (by unfold semiMinor; norm_num) (by norm_num) (by norm_num) (by norm_num) (by norm_num)
  have ra2 : Rel (F.pow datumA 2) (semiMajor ^ 2) (3 / 2 ^ 53) :=
    (Rel.refl semiMajor).pow hF (ρ1 := 0) 2 (by unfold semiMajor; norm_num) (by norm_num) (by norm_num) (by norm_num) (by norm_num)
  have rq : Rel (F.rnd (F.pow (datumB F) 2 / F.pow datumA 2)) (semiMinor ^ 2 / semiMajor ^ 2) (14 / 2 ^ 53) :=
    (rb2.div ra2 (τ := 12 / 2 ^ 53) (by unfold semiMinor; norm_num) (by unfold semiMajor; norm_num) (by norm_num) (by norm_num) (by norm_num) (by norm_num)).rnd hF
      (by unfold semiMinor semiMajor; norm_num) (by norm_num) (by norm_num)
  have hq : semiMinor ^ 2 / semiMajor ^ 2 = 1 - ecc2 := by unfold ecc2 semiMajor semiMinor; norm_num
  rw [hq] at rq
  have hlo := ecc2_gt
  have hhi := ecc2_lt
  have a1 : Appr (1 - F.rnd (F.pow (datumB F) 2 / F.pow datumA 2)) ecc2 0.0066944 (14 / 2 ^ 53) := by
    refine ⟨by rw [abs_of_pos (by linarith)]; exact hhi.le, ?_⟩
    rw [show 1 - F.rnd (F.pow (datumB F) 2 / F.pow datumA 2) - ecc2 = -(F.rnd (F.pow (datumB F) 2 / F.pow datumA 2) - (1 - ecc2)) by ring, abs_neg]
    refine rq.abs.trans ?_
    norm_num at hlo ⊢
    linarith
  have a2 := a1.rnd hF (B' := 0.0066944) (ε' := 14.1 / 2 ^ 53) le_rfl (by norm_num)
  have a3 := (a2.sqrt' (m := 0.0818) (m1 := 0.0817) (C := 0.08182) (by norm_num) (by norm_num) (by norm_num at hlo ⊢; linarith) (by norm_num) (by norm_num) (by norm_num)).rnd
    hF (B' := 0.08182) (ε' := 86.5 / 2 ^ 53) le_rfl (by norm_num)
  have a4 := a3.pow2 hF (B' := 0.00669452) (ε' := 16 / 2 ^ 53) (by norm_num) (by norm_num)
  rw [Real.sq_sqrt (by linarith)] at a4
  exact ⟨by rw [abs_of_pos (by linarith)]; exact hhi.le, a4.2⟩

/-- the radius of curvature and the shift computed in one pass -/
theorem curvature_near (F : Flt) (hF : Accurate F) (b : ℝ) :
    0 ≤ F.rnd (1 - F.rnd (F.pow (datumE F) 2 * F.pow (F.sin b) 2)) ∧
    F.rnd √(F.rnd (1 - F.rnd (F.pow (datumE F) 2 * F.pow (F.sin b) 2))) ≠ 0 ∧
    Appr (F.rnd (datumA / F.rnd √(F.rnd (1 - F.rnd (F.pow (datumE F) 2 * F.pow (F.sin b) 2))))) (primeVertical b) 6399900 759e-11 ∧
    Appr (F.rnd (F.rnd (F.rnd (datumA / F.rnd √(F.rnd (1 - F.rnd (F.pow (datumE F) 2 * F.pow (F.sin b) 2)))) * F.pow (datumE F) 2) * F.sin b))
      (shift b) 42900 116e-10 := by
  have e2 := ecc_near F hF
  have sb : Appr (F.sin b) (Real.sin b) 1 (2 / 2 ^ 53) := ⟨Real.abs_sin_le_one b, (hF.sin b).trans (by norm_num)⟩
  have a1 := Appr.exact (x := 1) (B := 1) (by norm_num)
  have s2 := sb.pow2 hF (B' := 1) (ε' := 667e-18) (by norm_num) (by norm_num)
  have p1 := (e2.mul s2).rnd hF (B' := 669440e-8) (ε' := 179e-17) (by norm_num) (by norm_num)
  have r1 := (a1.sub p1).rnd hF (B' := 100670e-5) (ε' := 191e-17) (by norm_num) (by norm_num)
  have hr := radicand b
  have r2 : Appr (F.rnd (1 - F.rnd (F.pow (datumE F) 2 * F.pow (F.sin b) 2))) (1 - ecc2 * Real.sin b ^ 2) 1 191e-17 := by
    refine ⟨?_, r1.2⟩
    have : 0 ≤ ecc2 * Real.sin b ^ 2 := mul_nonneg ecc2_pos.le (sq_nonneg _)
    rw [abs_le]; constructor <;> linarith
  have hlo : (0.9966 : ℝ) ^ 2 ≤ 1 - ecc2 * Real.sin b ^ 2 := by norm_num at hr ⊢; linarith
  have aW := (r2.sqrt' (m := 0.9966) (m1 := 0.9965) (C := 1) (by norm_num) (by norm_num) hlo (by norm_num) (by norm_num) (by norm_num)).rnd
    hF (B' := 1) (ε' := 107e-17) le_rfl (by norm_num)
  have hW : (0.9966 : ℝ) ≤ |√(1 - ecc2 * Real.sin b ^ 2)| := by
    rw [abs_of_nonneg (Real.sqrt_nonneg _)]; exact Real.le_sqrt_of_sq_le hlo
  have aa : Appr datumA semiMajor 6378137 0 := Appr.exact (x := semiMajor) (by unfold semiMajor; norm_num)
  have aN := (aa.div aW hW (by norm_num)).rnd hF (B' := 6399900) (ε' := 759e-11) (by norm_num) (by norm_num)
  have Ne := (aN.mul e2).rnd hF (B' := 428435e-1) (ε' := 115e-10) (by norm_num) (by norm_num)
  have aS := (Ne.mul sb).rnd hF (B' := 428435e-1) (ε' := 116e-10) (by norm_num) (by norm_num)
  exact ⟨r2.pos hlo (by norm_num), aW.neZero hW (by norm_num), aN, aS.weaken (by norm_num) le_rfl⟩

/-- one pass of the loop, in rounded arithmetic -/
noncomputable def nextF (F : Flt) (Q z b : ℝ) : ℝ :=
  F.atan2 (F.rnd (z + F.rnd (F.rnd (F.rnd (datumA / F.rnd √(F.rnd (1 - F.rnd (F.pow (datumE F) 2 * F.pow (F.sin b) 2)))) * F.pow (datumE F) 2) * F.sin b))) Q

noncomputable def curvF (F : Flt) (b : ℝ) : ℝ := F.rnd (datumA / F.rnd √(F.rnd (1 - F.rnd (F.pow (datumE F) 2 * F.pow (F.sin b) 2))))

theorem latLoopF_succ (F : Flt) (hF : Accurate F) (n : ℕ) (Q z b : ℝ) : latLoopF F (n + 1) Q z b =
    (open Classical in if |F.rnd (nextF F Q z b - b)| ≤ F.rnd 1e-12 then .ok (some (nextF F Q z b, curvF F b)) else latLoopF F n Q z (nextF F Q z b)) := by
  obtain ⟨h1, h2, -, -⟩ := curvature_near F hF b
  rw [latLoopF, sqrtF_ok _ _ h1]
  simp only
  rw [divF_ok _ _ _ h2]
  rfl

/-- one pass is the exact pass up to 4·10⁻¹⁵ -/
theorem next_near (F : Flt) (hF : Accurate F) (Q Q' z b : ℝ) (hQ : 0 < Q) (hQ' : |Q' - Q| ≤ 1e-15 * Q) (hr : 6000000 ≤ √(Q ^ 2 + z ^ 2)) :
    |nextF F Q' z b - next Q z b| ≤ 4e-15 := by
  obtain ⟨-, -, -, aS⟩ := curvature_near F hF b
  set S' := F.rnd (F.rnd (F.rnd (datumA / F.rnd √(F.rnd (1 - F.rnd (F.pow (datumE F) 2 * F.pow (F.sin b) 2)))) * F.pow (datumE F) 2) * F.sin b)
  have hR := dist_le Q z 42900 (z + shift b) (by simpa using shift_le b)
  set T := z + shift b with hT
  set R := √(Q ^ 2 + T ^ 2) with hRd
  have hRp : 0 < R := by linarith
  have hc : R * Real.cos (next Q z b) = Q := by
    have := atan2_cos T Q
    rwa [atan2_pos _ _ hQ] at this
  have hs : R * Real.sin (next Q z b) = T := by
    have := atan2_sin T Q
    rwa [atan2_pos _ _ hQ] at this
  have hz : |z| ≤ √(Q ^ 2 + z ^ 2) := Real.abs_le_sqrt (by nlinarith [sq_nonneg Q])
  have hQR : Q ≤ R := Real.le_sqrt_of_sq_le (by nlinarith [sq_nonneg T])
  have aT := ((Appr.exact (x := z) le_rfl).add aS).rnd hF le_rfl le_rfl
  have hTerr : |F.rnd (z + S') - T| ≤ R * 2.15e-15 := by
    refine aT.2.trans ?_
    have h1 : |z| ≤ R + 42900 := by linarith
    norm_num at h1 hRp hR hr ⊢
    linarith
  have hQerr : |Q' - Q| ≤ R * 2.15e-15 := by
    refine hQ'.trans ?_
    norm_num at hQR ⊢
    linarith
  obtain ⟨hne, k, hk⟩ := arg_near_scaled (next Q z b) Q T Q' (F.rnd (z + S')) R 2.15e-15 hRp (by norm_num) hc.symm hs.symm hQerr hTerr
  obtain ⟨hb, k2, hk2⟩ := hF.atan2 (F.rnd (z + S')) Q' hne
  have heq : nextF F Q' z b = F.atan2 (F.rnd (z + S')) Q' := rfl
  rw [heq]
  set t' := F.atan2 (F.rnd (z + S')) Q'
  set θ := Complex.arg ⟨Q', F.rnd (z + S')⟩
  have herr : |t' - (next Q z b + 2 * Real.pi * (k + k2))| ≤ 4e-15 := by
    have := abs_add_le (t' - (θ + 2 * Real.pi * k2)) (θ - (next Q z b + 2 * Real.pi * k))
    rw [show t' - (θ + 2 * Real.pi * k2) + (θ - (next Q z b + 2 * Real.pi * k)) = t' - (next Q z b + 2 * Real.pi * (k + k2)) by ring] at this
    exact this.trans ((add_le_add hk2 hk).trans (by norm_num))
  -- no whole turn between them
  have hkk : (k + k2 : ℤ) = 0 := by
    by_contra hne0
    have h1 : (1 : ℝ) ≤ |((k + k2 : ℤ) : ℝ)| := by
      rw [← Int.cast_abs]; exact_mod_cast Int.one_le_abs hne0
    have hp3 := Real.pi_gt_d2
    have hp4 := Real.pi_lt_d2
    have h2 : |2 * Real.pi * ((k + k2 : ℤ) : ℝ)| ≤ |t'| + |next Q z b| + 4e-15 := by
      push_cast
      rw [show 2 * Real.pi * ((k : ℝ) + k2) = t' + -next Q z b + -(t' - (next Q z b + 2 * Real.pi * (k + k2))) by ring]
      refine (abs_add_three _ _ _).trans ?_
      rw [abs_neg, abs_neg]
      linarith
    rw [abs_mul, abs_of_pos (by linarith : 0 < 2 * Real.pi)] at h2
    have h3 : |next Q z b| ≤ Real.pi / 2 := by
      rw [abs_le]
      have := Real.arctan_mem_Ioo (T / Q)
      exact ⟨this.1.le, this.2.le⟩
    nlinarith
  have hz0 : ((k : ℝ) + k2) = 0 := by exact_mod_cast hkk
  rw [hz0, mul_zero, add_zero] at herr
  exact herr

/-- the loop ends within eight passes, near the fixed point -/
theorem latLoopF_ends (F : Flt) (hF : Accurate F) (Q Q' z β : ℝ) (hQ : 0 < Q) (hQ' : |Q' - Q| ≤ 1e-15 * Q) (hr : 6000000 ≤ √(Q ^ 2 + z ^ 2))
    (hβ : next Q z β = β) (fuel : ℕ) (hf : 8 ≤ fuel) (b0 : ℝ) :
    ∃ b B, latLoopF F fuel Q' z b0 = .ok (some (B, curvF F b)) ∧ |B - β| ≤ 2e-14 ∧ |b - β| ≤ 1.1e-12 := by
  have hnear := next_near F hF Q Q' z
  have hlip : ∀ b c, |next Q z b - next Q z c| ≤ 0.00726 * |b - c| := by
    intro b c
    refine (next_lip Q z hQ (by linarith) b c).trans ?_
    gcongr
    rw [div_le_iff₀ (by linarith)]
    norm_num
    linarith
  have hthr : |F.rnd 1e-12 - 1e-12| ≤ 1e-27 := (hF.rnd 1e-12).trans (by rw [abs_of_pos (by norm_num)]; norm_num)
  have hthr' := abs_le.1 hthr
  -- where it ends
  have hend : ∀ b, |F.rnd (nextF F Q' z b - b)| ≤ F.rnd 1e-12 → |nextF F Q' z b - β| ≤ 2e-14 ∧ |b - β| ≤ 1.1e-12 := by
    intro b hle
    have h1 := (rnd_abs F hF (nextF F Q' z b - b)).1
    have h2 := hnear b hQ hQ' hr
    have h3 := hlip b β
    rw [hβ] at h3
    have h4 := abs_sub_le (nextF F Q' z b) (next Q z b) β
    have h5 := abs_sub_le b (nextF F Q' z b) β
    rw [abs_sub_comm b (nextF F Q' z b)] at h5
    have h6 : |nextF F Q' z b - b| ≤ 1.0001e-12 := by
      norm_num at h1 hthr' ⊢
      linarith
    constructor
    · norm_num at *; linarith
    · norm_num at *; linarith
  have hD : ∀ b, |nextF F Q' z (nextF F Q' z b) - nextF F Q' z b| ≤ 0.00726 * |nextF F Q' z b - b| + 8e-15 := by
    intro b
    have h1 := hnear b hQ hQ' hr
    have h2 := hnear (nextF F Q' z b) hQ hQ' hr
    have h3 := hlip (nextF F Q' z b) b
    have h4 := abs_sub_le (nextF F Q' z (nextF F Q' z b)) (next Q z (nextF F Q' z b)) (nextF F Q' z b)
    have h5 := abs_sub_le (next Q z (nextF F Q' z b)) (next Q z b) (nextF F Q' z b)
    rw [abs_sub_comm (next Q z b)] at h5
    norm_num at *
    linarith
  -- after m more passes the step is below the threshold
  have hloop : ∀ (m : ℕ) (b : ℝ), 0.00726 ^ m * (|nextF F Q' z b - b| - 8.08e-15) ≤ 0.9e-12 → ∀ fuel ≥ m + 1,
      ∃ b' B, latLoopF F fuel Q' z b = .ok (some (B, curvF F b')) ∧ |B - β| ≤ 2e-14 ∧ |b' - β| ≤ 1.1e-12 := by
    intro m
    induction m with
    | zero =>
      intro b hb fuel hfu
      obtain ⟨fuel, rfl⟩ : ∃ k, fuel = k + 1 := ⟨fuel - 1, by omega⟩
      have hle : |F.rnd (nextF F Q' z b - b)| ≤ F.rnd 1e-12 := by
        have h1 := (rnd_abs F hF (nextF F Q' z b - b)).2
        rw [pow_zero, one_mul] at hb
        norm_num at h1 hthr' hb ⊢
        linarith
      rw [latLoopF_succ F hF, if_pos hle]
      exact ⟨b, _, rfl, hend b hle⟩
    | succ m ih =>
      intro b hb fuel hfu
      obtain ⟨fuel, rfl⟩ : ∃ k, fuel = k + 1 := ⟨fuel - 1, by omega⟩
      rw [latLoopF_succ F hF]
      split
      · rename_i hle
        exact ⟨b, _, rfl, hend b hle⟩
      · apply ih _ _ fuel (by omega)
        refine le_trans ?_ hb
        rw [pow_succ, mul_assoc]
        gcongr
        have := hD b
        norm_num at this ⊢
        linarith
  -- the first pass
  obtain ⟨fuel, rfl⟩ : ∃ k, fuel = k + 1 := ⟨fuel - 1, by omega⟩
  rw [latLoopF_succ F hF]
  split
  · rename_i hle
    exact ⟨b0, _, rfl, hend b0 hle⟩
  · apply hloop 6 _ _ fuel (by omega)
    have h1 := hnear b0 hQ hQ' hr
    have h2 := hnear (nextF F Q' z b0) hQ hQ' hr
    have m1 := Real.arctan_mem_Ioo ((z + shift b0) / Q)
    have m2 := Real.arctan_mem_Ioo ((z + shift (nextF F Q' z b0)) / Q)
    have hpi := Real.pi_lt_d2
    have h3 : |nextF F Q' z (nextF F Q' z b0) - nextF F Q' z b0| ≤ 3.2 := by
      rw [abs_le] at h1 h2 ⊢
      unfold next at h1 h2
      norm_num at h1 h2 hpi ⊢
      constructor <;> linarith [m1.1, m1.2, m2.1, m2.2, h1.1, h1.2, h2.1, h2.2]
    calc (0.00726 : ℝ) ^ 6 * (|nextF F Q' z (nextF F Q' z b0) - nextF F Q' z b0| - 8.08e-15) ≤ 0.00726 ^ 6 * 3.2 := by
          gcongr; norm_num at h3 ⊢; linarith
      _ ≤ _ := by norm_num

theorem primeVertical_le (b : ℝ) : primeVertical b ≤ 6399700 := by
  rw [primeVertical_eq, div_le_iff₀ (W_pos b)]
  have := W_gt b
  unfold semiMajor
  norm_num at this ⊢
  linarith

/-- the distance from the axis -/
theorem axis_near (F : Flt) (hF : Accurate F) (x y z : ℝ) (h : 1e-3 ≤ axisDist (x, y, z)) :
    0 ≤ F.rnd (F.pow x 2 + F.pow y 2) ∧ |F.rnd √(F.rnd (F.pow x 2 + F.pow y 2)) - axisDist (x, y, z)| ≤ 1e-15 * axisDist (x, y, z) ∧
      F.rnd √(F.rnd (F.pow x 2 + F.pow y 2)) ≠ 0 := by
  have hQ : 0 < axisDist (x, y, z) := lt_of_lt_of_le (by norm_num) h
  have hs : axisDist (x, y, z) ^ 2 = x ^ 2 + y ^ 2 := by unfold axisDist; exact Real.sq_sqrt (by positivity)
  have hs6 : (1e-6 : ℝ) ≤ x ^ 2 + y ^ 2 := by
    rw [← hs]
    calc (1e-6 : ℝ) = 1e-3 ^ 2 := by norm_num
      _ ≤ _ := pow_le_pow_left₀ (by norm_num) h 2
  have hp : 0 < x ^ 2 + y ^ 2 := lt_of_lt_of_le (by norm_num) hs6
  have r1 : Rel (F.pow x 2 + F.pow y 2) (x ^ 2 + y ^ 2) (2.1 / 2 ^ 53) := by
    apply Rel.of_abs
    have h1 := hF.pow x 2
    have h2 := hF.pow y 2
    rw [sq_abs] at h1 h2
    rw [show F.pow x 2 + F.pow y 2 - (x ^ 2 + y ^ 2) = (F.pow x 2 - x ^ 2) + (F.pow y 2 - y ^ 2) by ring]
    refine (abs_add_le _ _).trans ((add_le_add h1 h2).trans ?_)
    norm_num at hs6 ⊢
    linarith
  have r2 := r1.rnd hF (ρ' := 4 / 2 ^ 53) (le_trans (by norm_num) hs6) (by norm_num) (by norm_num)
  have r3 := (r2.sqrt hp (by norm_num) (by norm_num)).rnd hF (ρ' := 6 / 2 ^ 53) (le_trans (by norm_num) h) (by norm_num) (by norm_num)
  refine ⟨(r2.pos hp (by norm_num)).le, ?_, (r3.pos hQ (by norm_num)).ne'⟩
  exact r3.abs.trans (mul_le_mul_of_nonneg_right (by norm_num) hQ.le)

/-- the longitude -/
theorem lon_near (F : Flt) (hF : Accurate F) (x y : ℝ) : ∃ k : ℤ, |lonF F x y - (lonOf x y + 2 * Real.pi * k)| ≤ 2e-15 := by
  have hpi4 := Real.pi_lt_d2
  have hpi0 := Real.pi_pos
  have ap : Appr (F.rnd Real.pi) Real.pi 3.15 4e-16 := (Appr.exact (by rw [abs_of_pos hpi0]; exact hpi4.le)).rnd hF le_rfl (by norm_num)
  have a2 := Appr.exact (x := 2) (B := 2) (by norm_num)
  have a3 := Appr.exact (x := 3) (B := 3) (by norm_num)
  unfold lonF lonOf
  by_cases hx : x = 0
  · rw [if_pos hx, if_pos hx]
    refine ⟨0, ?_⟩
    simp only [Int.cast_zero, mul_zero, add_zero]
    split
    · exact ((ap.div a2 (m := 2) (by norm_num) (by norm_num)).rnd hF (B' := 2) (ε' := 2e-15) (by norm_num) (by norm_num)).2
    · have b1 := (a3.mul ap).rnd hF (B' := 9.45) (ε' := 2.3e-15) (by norm_num) (by norm_num)
      exact ((b1.div a2 (m := 2) (by norm_num) (by norm_num)).rnd hF (B' := 5) (ε' := 2e-15) (by norm_num) (by norm_num)).2
  · rw [if_neg hx, if_neg hx]
    obtain ⟨-, k, hk⟩ := hF.atan2 y x (by intro h; injection h with h1 h2; exact hx h1)
    exact ⟨k, hk.trans (by norm_num)⟩

/-- C96: in floating point, for a point from 6000 km to 50000 km from the centre of the Earth and not within a millimetre of the axis, the conversion to geodetic
coordinates raises no exception and ends within eight passes; the longitude (up to whole turns) is within 2·10⁻¹⁵ rad, the latitude within 2·10⁻¹⁴ rad and the height
within 3 micrometres of the geodetic coordinates of the point. -/
theorem C96_geodetic (F : Flt) (hF : Accurate F) (fuel : ℕ) (l b h x y z : ℝ) (hb : |b| < Real.pi / 2) (hh : 0 < primeVertical b + h)
    (hp : cartesian l b h = (x, y, z)) (hr : 6000000 ≤ len (x, y, z)) (hr2 : len (x, y, z) ≤ 50000000) (hQ : 1e-3 ≤ axisDist (x, y, z)) (hf : 8 ≤ fuel) :
    ∃ L B H, xyz2lbhF F fuel x y z = .ok (some (L, B, H)) ∧ (∃ k : ℤ, Within 2e-15 L (l + 2 * Real.pi * k)) ∧ Within 2e-14 B b ∧ Within 3e-6 H h := by
  obtain ⟨hQp, hQe, hfix, hcl, hsl⟩ := fixed_of_geodetic l b h x y z hb hh hp
  obtain ⟨hQ1, hQ2, hQ3⟩ := axis_near F hF x y z hQ
  have hlen := len_axis x y z
  have e2 := ecc_near F hF
  have a1 := Appr.exact (x := 1) (B := 1) (by norm_num)
  have elo := ecc2_lt
  have ae := (a1.sub e2).rnd hF (B' := 1.0067) (ε' := 2e-15) (by norm_num) (by norm_num)
  have hene : F.rnd (1 - F.pow (datumE F) 2) ≠ 0 := ae.neZero (m := 0.9) (by rw [abs_of_pos (by linarith)]; norm_num at elo ⊢; linarith) (by norm_num)
  unfold xyz2lbhF
  rw [sqrtF_ok _ _ hQ1]
  simp only
  rw [divF_ok _ _ _ hQ3]
  simp only
  rw [divF_ok _ _ _ hene]
  simp only
  set Q := axisDist (x, y, z) with hQd
  set Q' := F.rnd √(F.rnd (F.pow x 2 + F.pow y 2))
  set b0 := F.rnd (F.rnd (F.rnd (z / Q') * 1) / F.rnd (1 - F.pow (datumE F) 2))
  obtain ⟨b', B, hloop, hB, hb'⟩ := latLoopF_ends F hF Q Q' z b hQp hQ2 (by rw [← hlen]; exact hr) hfix fuel hf b0
  rw [hloop]
  simp only
  refine ⟨_, _, _, rfl, ?_, hB, ?_⟩
  · obtain ⟨k, hk⟩ := lon_near F hF x y
    have hang : ((lonOf x y : ℝ) : Real.Angle) = (l : Real.Angle) := Real.Angle.cos_sin_inj hcl hsl
    obtain ⟨k2, hk2⟩ := Real.Angle.angle_eq_iff_two_pi_dvd_sub.1 hang
    refine ⟨k + k2, ?_⟩
    show |_ - _| ≤ _
    rw [show l + 2 * Real.pi * ((k + k2 : ℤ) : ℝ) = lonOf x y + 2 * Real.pi * k by push_cast; linear_combination -hk2]
    exact hk
  · have hQle : Q ≤ 50000000 := by
      refine le_trans ?_ hr2
      rw [hlen]
      exact Real.le_sqrt_of_sq_le (by nlinarith [sq_nonneg z])
    have hzle : |z| ≤ 50000000 := by
      refine le_trans ?_ hr2
      rw [hlen]
      exact Real.abs_le_sqrt (by nlinarith [sq_nonneg Q])
    have aB : Appr B b 2 2e-14 := ⟨by have := Real.pi_lt_d2; norm_num at this ⊢; linarith, hB⟩
    have cB := aB.cos hF (ε' := 204e-16) (by norm_num)
    have sB := aB.sin hF (ε' := 204e-16) (by norm_num)
    have aQ : Appr Q' Q 50000000 (1e-15 * 50000000) := ⟨by rw [abs_of_pos hQp]; exact hQle, hQ2.trans (by gcongr)⟩
    have az := Appr.exact hzle
    have aN : Appr (curvF F b') (primeVertical b) 6399900 64e-9 := by
      obtain ⟨-, -, hN, -⟩ := curvature_near F hF b'
      have hNb := primeVertical_le b
      refine ⟨by rw [abs_of_pos (primeVertical_pos b)]; linarith, ?_⟩
      have h1 := N_lip b' b
      have h2 := abs_sub_le (curvF F b') (primeVertical b') (primeVertical b)
      have h3 : |curvF F b' - primeVertical b'| ≤ _ := hN.2
      norm_num at h1 h2 h3 hb' ⊢
      linarith
    have h1 := (aQ.mul cB).rnd hF (B' := 50000000) (ε' := 108e-8) (by norm_num) (by norm_num)
    have h2 := (az.mul sB).rnd hF (B' := 50000000) (ε' := 103e-8) (by norm_num) (by norm_num)
    have h3 := (h1.add h2).rnd hF (B' := 100000000) (ε' := 213e-8) (by norm_num) (by norm_num)
    have s2 := sB.pow2 hF (B' := 1) (ε' := 411e-16) (by norm_num) (by norm_num)
    have p1 := (e2.mul s2).rnd hF (B' := 669440e-8) (ε' := 206e-17) (by norm_num) (by norm_num)
    have g1 := (a1.sub p1).rnd hF (B' := 100670e-5) (ε' := 218e-17) (by norm_num) (by norm_num)
    have n1 := (aN.mul g1).rnd hF (B' := 6442780) (ε' := 791e-10) (by norm_num) (by norm_num)
    have h4 := (h3.sub n1).rnd hF (B' := 106443000) (ε' := 223e-8) (by norm_num) (by norm_num)
    have hH : Q * Real.cos b + z * Real.sin b - primeVertical b * (1 - ecc2 * Real.sin b ^ 2) = h := by
      simp only [cartesian, Prod.mk.injEq] at hp
      obtain ⟨-, -, hz⟩ := hp
      rw [hQe, ← hz]
      linear_combination (primeVertical b + h) * Real.sin_sq_add_cos_sq b
    rw [hH] at h4
    exact h4.2.trans (by norm_num)

/-- an angle in degrees -/
theorem degrees_near (F : Flt) (hF : Accurate F) (t' t B ε ε' : ℝ) (h : Appr t' t B ε) (hB : B ≤ 12)
    (hε' : 57.4 * ε + 4e-13 ≤ ε') : |F.rnd (F.rnd (t' * 180) / F.rnd Real.pi) - t * 180 / Real.pi| ≤ ε' := by
  have hpi4 := Real.pi_lt_d2
  have hpi3 := Real.pi_gt_d4
  have hpi0 := Real.pi_pos
  obtain ⟨hB0, hε0⟩ := h.nn
  have ap : Appr (F.rnd Real.pi) Real.pi 3.15 3.6e-16 := (Appr.exact (by rw [abs_of_pos hpi0]; exact hpi4.le)).rnd hF le_rfl (by norm_num)
  have a180 := Appr.exact (x := 180) (B := 180) (by norm_num)
  have b1 := (h.weaken hB le_rfl).mul a180
  have b2 := b1.rnd hF (B' := 2160) (ε' := 180.0001 * ε + 2.5e-13) (by norm_num) (by norm_num; linarith)
  have hm : (3.1415 : ℝ) ≤ |Real.pi| := by rw [abs_of_pos hpi0]; exact hpi3.le
  have b3 := b2.div ap hm (by norm_num)
  have b4 := b3.rnd hF (B' := 688) (ε' := ε') (by norm_num) (by norm_num at hε' ⊢; linarith)
  exact b4.2

/-- the longitude as it is computed -/
theorem xyz2lbhF_lon (F : Flt) (fuel : ℕ) (x y z L B H : ℝ) (hres : xyz2lbhF F fuel x y z = .ok (some (L, B, H))) : L = lonF F x y := by
  unfold xyz2lbhF at hres
  split at hres
  · cases hres
  · simp only at hres
    split at hres
    · cases hres
    · split at hres
      · cases hres
      · split at hres
        · cases hres
        · cases hres
        · cases hres; rfl

theorem lonF_bound (F : Flt) (hF : Accurate F) (x y : ℝ) : -3.15 ≤ lonF F x y ∧ lonF F x y ≤ 4.8 := by
  have hpi4 := Real.pi_lt_d4
  have hpi3 := Real.pi_gt_d4
  have hpi0 := Real.pi_pos
  have ap : Appr (F.rnd Real.pi) Real.pi 3.1416 4e-16 := (Appr.exact (by rw [abs_of_pos hpi0]; exact hpi4.le)).rnd hF le_rfl (by norm_num)
  have a2 := Appr.exact (x := 2) (B := 2) (by norm_num)
  have a3 := Appr.exact (x := 3) (B := 3) (by norm_num)
  unfold lonF
  split
  · split
    · have := abs_le.1 ((ap.div a2 (m := 2) (by norm_num) (by norm_num)).rnd hF (B' := 2) (ε' := 2e-15) (by norm_num) (by norm_num)).2
      norm_num at this ⊢
      constructor <;> linarith
    · have b1 := (a3.mul ap).rnd hF (B' := 9.45) (ε' := 2.3e-15) (by norm_num) (by norm_num)
      have := abs_le.1 ((b1.div a2 (m := 2) (by norm_num) (by norm_num)).rnd hF (B' := 5) (ε' := 2e-15) (by norm_num) (by norm_num)).2
      norm_num at this hpi4 hpi3 ⊢
      constructor <;> linarith
  · rename_i hx
    obtain ⟨hb, -⟩ := hF.atan2 y x (by intro h; injection h with h1 h2; exact hx h1)
    have := abs_le.1 hb
    norm_num at this ⊢
    constructor <;> linarith

/-- C96: the same in degrees: latitude within 2·10⁻¹² degrees, longitude within 10⁻¹² degrees up to whole turns and from 0 to 360 degrees. -/
theorem C96_degrees (F : Flt) (hF : Accurate F) (fuel : ℕ) (l b h x y z : ℝ) (hb : |b| < Real.pi / 2) (hh : 0 < primeVertical b + h)
    (hp : cartesian l b h = (x, y, z)) (hr : 6000000 ≤ len (x, y, z)) (hr2 : len (x, y, z) ≤ 50000000) (hQ : 1e-3 ≤ axisDist (x, y, z)) (hf : 8 ≤ fuel) :
    ∃ L B H, xyz2lbhDegF F fuel x y z = .ok (some (L, B, H)) ∧ (∃ k : ℤ, Within 1e-12 L (l * 180 / Real.pi + 360 * k)) ∧
      0 ≤ L ∧ L ≤ 360 + 1e-12 ∧ Within 2e-12 B (b * 180 / Real.pi) ∧ Within 3e-6 H h := by
  obtain ⟨L, B, H, hres, ⟨k, hL⟩, hB, hH⟩ := C96_geodetic F hF fuel l b h x y z hb hh hp hr hr2 hQ hf
  have hlon := xyz2lbhF_lon F fuel x y z L B H hres
  have hpi4 := Real.pi_lt_d4
  have hpi3 := Real.pi_gt_d4
  have hpi0 := Real.pi_pos
  have hLb : -3.15 ≤ L ∧ L ≤ 4.8 := by rw [hlon]; exact lonF_bound F hF x y
  unfold Within at hL hB
  have hLa : Appr L (l + 2 * Real.pi * k) 5 2e-15 := by
    refine ⟨?_, hL⟩
    have h1 := abs_le.1 hL
    rw [abs_le]
    norm_num at h1 hLb ⊢
    constructor <;> linarith
  have dL := degrees_near F hF L _ 5 2e-15 6e-13 hLa (by norm_num) (by norm_num)
  have dB := degrees_near F hF B b 2 2e-14 2e-12 ⟨by norm_num at hpi4 ⊢; linarith, hB⟩ (by norm_num) (by norm_num)
  have hturn : (l + 2 * Real.pi * k) * 180 / Real.pi = l * 180 / Real.pi + 360 * k := by field_simp; ring
  rw [hturn] at dL
  have hlb : -181 ≤ l * 180 / Real.pi + 360 * k ∧ l * 180 / Real.pi + 360 * k ≤ 300 := by
    rw [← hturn]
    have h1 := abs_le.1 hL
    rw [le_div_iff₀ hpi0, div_le_iff₀ hpi0]
    norm_num at h1 hLb hpi3 ⊢
    constructor <;> linarith
  unfold xyz2lbhDegF
  rw [hres]
  simp only
  set L' := F.rnd (F.rnd (L * 180) / F.rnd Real.pi)
  have dL' := abs_le.1 dL
  refine ⟨_, _, _, rfl, ?_, ?_, ?_, dB, hH⟩
  · split
    · have hap : Appr L' (l * 180 / Real.pi + 360 * k) 300 6e-13 := ⟨abs_le.2 ⟨by linarith, hlb.2⟩, dL⟩
      rename_i hneg
      have hb2 : |l * 180 / Real.pi + 360 * k + 360| ≤ 361 := by
        rw [abs_le]; norm_num at dL' ⊢; constructor <;> linarith
      have a1 : Appr (L' + 360) (l * 180 / Real.pi + 360 * k + 360) 361 6e-13 := ⟨hb2, by rw [add_sub_add_right_eq_sub]; exact dL⟩
      refine ⟨k + 1, ?_⟩
      have := (a1.rnd hF (B' := 361) (ε' := 1e-12) le_rfl (by norm_num)).2
      show |_ - _| ≤ _
      rw [show l * 180 / Real.pi + 360 * ((k + 1 : ℤ) : ℝ) = l * 180 / Real.pi + 360 * k + 360 by push_cast; ring]
      exact this
    · exact ⟨k, dL.trans (by norm_num)⟩
  · split
    · have a1 := abs_le.1 ((Appr.exact (x := L' + 360) le_rfl).rnd hF le_rfl le_rfl).2
      rename_i hneg
      rw [abs_of_nonneg (by norm_num at dL' ⊢; linarith)] at a1
      norm_num at a1 dL' ⊢
      linarith
    · rename_i hneg
      exact not_lt.1 hneg
  · split
    · have a1 := abs_le.1 ((Appr.exact (x := L' + 360) le_rfl).rnd hF le_rfl le_rfl).2
      rename_i hneg
      rw [abs_of_nonneg (by norm_num at dL' ⊢; linarith)] at a1
      norm_num at a1 dL' ⊢
      linarith
    · norm_num at dL' ⊢
      linarith

theorem latLoopF_exact (fuel : ℕ) : ∀ Q z b : ℝ, latLoopF Flt.exact fuel Q z b = Verif.Model.Geo.latLoop fuel Q z b := by
  induction fuel with
  | zero => intros; rfl
  | succ n ih =>
    intro Q z b
    rw [latLoopF, Verif.Model.Geo.latLoop]
    simp only [divF_exact, sqrtF_exact, ih]
    rfl

/-- C96: without rounding the model is that of C64-C66. -/
theorem C96_exact (fuel : ℕ) (x y z : ℝ) : xyz2lbhF Flt.exact fuel x y z = Verif.Model.Geo.xyz2lbh fuel x y z ∧
    xyz2lbhDegF Flt.exact fuel x y z = Verif.Model.Geo.xyz2lbhDeg fuel x y z := by
  have h : xyz2lbhF Flt.exact fuel x y z = Verif.Model.Geo.xyz2lbh fuel x y z := by
    unfold xyz2lbhF Verif.Model.Geo.xyz2lbh
    simp only [latLoopF_exact, divF_exact, sqrtF_exact]
    rfl
  refine ⟨h, ?_⟩
  unfold xyz2lbhDegF Verif.Model.Geo.xyz2lbhDeg
  rw [h]
  rfl

/-- C96: a station meets the hypotheses; in binary64 its coordinates are found -/
theorem C96_example : ∃ l b h L B H, cartesian l b h = (-968310, 3794414, 5018167) ∧ xyz2lbhF Flt.binary64 8 (-968310) 3794414 5018167 = .ok (some (L, B, H)) ∧
    Within 2e-14 B b ∧ Within 3e-6 H h := by
  have hlen : 6000000 ≤ len (-968310, 3794414, 5018167) ∧ len (-968310, 3794414, 5018167) ≤ 50000000 := by
    unfold len dot
    exact ⟨Real.le_sqrt_of_sq_le (by norm_num), Real.sqrt_le_iff.2 ⟨by norm_num, by norm_num⟩⟩
  obtain ⟨l, b, h, hb, hh, hp⟩ := C64_exists (-968310) 3794414 5018167 (by norm_num) (by linarith [hlen.1])
  obtain ⟨L, B, H, hres, -, hB, hH⟩ := C96_geodetic Flt.binary64 accurate_binary64 8 l b h _ _ _ hb hh hp hlen.1 hlen.2
    (by unfold axisDist; exact Real.le_sqrt_of_sq_le (by norm_num)) le_rfl
  exact ⟨l, b, h, L, B, H, hp, hres, hB, hH⟩

end Verif.Props
