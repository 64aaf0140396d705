import Verif.Props.DoubleLat
import Verif.Props.DoubleGlonass
/-!
# Property C98: elevation and azimuth in floating point
-/
namespace Verif.Props
open Verif.Py Verif.Spec Verif.Spec.Geo Verif.Proofs Verif.Model.DoubleGeo

theorem abs_arctan_le (t : ℝ) : |Real.arctan t| ≤ |t| := by
  have pos : ∀ t : ℝ, 0 ≤ t → Real.arctan t ≤ t := by
    intro t ht
    have := Real.le_tan (x := Real.arctan t) (by rwa [Real.arctan_nonneg]) (Real.arctan_lt_pi_div_two t)
    rwa [Real.tan_arctan] at this
  rcases le_total 0 t with h | h
  · rw [abs_of_nonneg h, abs_of_nonneg (by rwa [Real.arctan_nonneg])]; exact pos t h
  · rw [abs_of_nonpos h, ← abs_neg, ← Real.arctan_neg, abs_of_nonneg (by rw [Real.arctan_nonneg]; linarith)]
    exact pos _ (by linarith)

theorem arctan_sub_le (x y : ℝ) (h : -1 < x * y) : |Real.arctan x - Real.arctan y| ≤ |x - y| / (1 + x * y) := by
  have h1 := Real.arctan_add (x := x) (y := -y) (by linarith)
  rw [Real.arctan_neg] at h1
  rw [sub_eq_add_neg, h1]
  refine (abs_arctan_le _).trans ?_
  rw [abs_div, show 1 - x * -y = 1 + x * y by ring, abs_of_pos (show 0 < 1 + x * y by linarith), ← sub_eq_add_neg]

/-- the angle of a vector whose components have errors -/
theorem ratio_near (X Y X' Y' R δ : ℝ) (hX : 0 < X) (hX' : 0 < X') (hR : 0 < R) (hR2 : R ^ 2 ≤ X ^ 2 + Y ^ 2) (h1 : |X' - X| ≤ δ) (h2 : |Y' - Y| ≤ δ) (hδ : δ ≤ R / 1000) :
    |Real.arctan (Y' / X') - Real.arctan (Y / X)| ≤ 1.43 * δ / R := by
  have hδ0 : 0 ≤ δ := (abs_nonneg _).trans h1
  set S := √(X ^ 2 + Y ^ 2) with hS
  have hS2 : S ^ 2 = X ^ 2 + Y ^ 2 := Real.sq_sqrt (by positivity)
  have hRS : R ≤ S := Real.le_sqrt_of_sq_le hR2
  have hS0 : 0 < S := by linarith
  have hsum : |X| + |Y| ≤ 1.42 * S := by
    apply abs_le_of_sq_le_sq' _ (by positivity) |>.2
    rw [mul_pow, hS2, ← sq_abs X, ← sq_abs Y]
    norm_num
    nlinarith [sq_nonneg (|X| - |Y|), sq_abs X, sq_abs Y]
  have hnum : |X * Y' - X' * Y| ≤ 1.42 * S * δ := by
    rw [show X * Y' - X' * Y = X * (Y' - Y) - Y * (X' - X) by ring]
    refine (abs_sub _ _).trans ?_
    rw [abs_mul, abs_mul]
    calc |X| * |Y' - Y| + |Y| * |X' - X| ≤ |X| * δ + |Y| * δ := by gcongr
      _ = (|X| + |Y|) * δ := by ring
      _ ≤ _ := by gcongr
  have hdot : |X * (X' - X) + Y * (Y' - Y)| ≤ 1.42 * S * δ := by
    refine (abs_add_le _ _).trans ?_
    rw [abs_mul, abs_mul]
    calc |X| * |X' - X| + |Y| * |Y' - Y| ≤ |X| * δ + |Y| * δ := by gcongr
      _ = (|X| + |Y|) * δ := by ring
      _ ≤ _ := by gcongr
  have hSδ : 1.42 * S * δ ≤ 0.00142 * S ^ 2 := by
    norm_num; nlinarith
  have hden : 0.998 * S ^ 2 ≤ X * X' + Y * Y' := by
    have := (abs_le.1 hdot).1
    norm_num at this hSδ ⊢
    nlinarith
  have hdp : 0 < X * X' + Y * Y' := lt_of_lt_of_le (by norm_num; positivity) hden
  have hxx : 0 < X * X' := mul_pos hX hX'
  have e1 : 1 + Y' / X' * (Y / X) = (X * X' + Y * Y') / (X * X') := by field_simp
  have e2 : Y' / X' - Y / X = (X * Y' - X' * Y) / (X * X') := by field_simp
  refine (arctan_sub_le _ _ ?_).trans ?_
  · have : 0 < 1 + Y' / X' * (Y / X) := by rw [e1]; positivity
    linarith
  · rw [e1, e2, abs_div, abs_of_pos hxx, div_div_div_cancel_right₀ hxx.ne', div_le_div_iff₀ hdp hR]
    calc |X * Y' - X' * Y| * R ≤ 1.42 * S * δ * S := by gcongr
      _ ≤ 1.43 * δ * (0.998 * S ^ 2) := by norm_num; nlinarith [mul_nonneg hδ0 (sq_nonneg S)]
      _ ≤ _ := by gcongr

theorem arctan_rnd (F : Flt) (hF : Accurate F) (q : ℝ) : |F.atan (F.rnd q) - Real.arctan q| ≤ 7 / 2 ^ 53 := by
  have h1 := hF.rnd q
  have h2 := hF.atan (F.rnd q)
  set p := F.rnd q
  have hq := abs_nonneg q
  have hpq : (1 + q ^ 2) / 2 ≤ 1 + p * q := by
    have : |(p - q) * q| ≤ (|q| / 2 ^ 53 + 1 / 2 ^ 100) * |q| := by rw [abs_mul]; gcongr
    have h3 := (abs_le.1 this).1
    rw [← sq_abs q]
    have h4 : p * q = (p - q) * q + |q| ^ 2 := by rw [sq_abs]; ring
    rw [h4]
    norm_num at h3 ⊢
    nlinarith
  have h3 : |Real.arctan p - Real.arctan q| ≤ 3 / 2 ^ 53 := by
    refine (arctan_sub_le p q (by nlinarith [sq_nonneg q])).trans ?_
    rw [div_le_iff₀ (by nlinarith [sq_nonneg q])]
    refine h1.trans ?_
    have hq2 : 2 * |q| ≤ 1 + q ^ 2 := by nlinarith [sq_abs q, sq_nonneg (|q| - 1)]
    have hq3 := sq_nonneg q
    norm_num at hpq ⊢
    linarith
  have := abs_sub_le (F.atan p) (Real.arctan p) (Real.arctan q)
  norm_num at this h2 h3 ⊢
  linarith

/-- the angle computed from a quotient -/
theorem quotient_near (F : Flt) (hF : Accurate F) (X Y X' Y' R δ : ℝ) (hX : 0 < X) (hX' : 0 < X') (hR : 0 < R) (hR2 : R ^ 2 ≤ X ^ 2 + Y ^ 2) (h1 : |X' - X| ≤ δ)
    (h2 : |Y' - Y| ≤ δ) (hδ : δ ≤ R / 1000) : |F.atan (F.rnd (Y' / X')) - Real.arctan (Y / X)| ≤ 1.43 * δ / R + 7 / 2 ^ 53 := by
  have h3 := ratio_near X Y X' Y' R δ hX hX' hR hR2 h1 h2 hδ
  have h4 := arctan_rnd F hF (Y' / X')
  have := abs_sub_le (F.atan (F.rnd (Y' / X'))) (Real.arctan (Y' / X')) (Real.arctan (Y / X))
  linarith

/-- the cosine of the arc between the verticals -/
theorem arc_near (F : Flt) (hF : Accurate F) (l0 b0 ls bs L0 B0 Ls Bs : ℝ) (k0 ks : ℤ) (h0 : Appr L0 (l0 + 2 * Real.pi * k0) 5 2e-15) (hs : Appr Ls (ls + 2 * Real.pi * ks) 5 2e-15)
    (hb0 : |B0 - b0| ≤ 2e-14) (hbs : |Bs - bs| ≤ 2e-14) :
    |F.rnd (F.rnd (F.sin B0 * F.sin Bs) + F.rnd (F.rnd (F.cos B0 * F.cos Bs) * F.cos (F.rnd (Ls - L0)))) - dot (up l0 b0) (up ls bs)| ≤ 874e-16 := by
  have a0 : Appr B0 b0 |b0| 2e-14 := ⟨le_rfl, hb0⟩
  have as : Appr Bs bs |bs| 2e-14 := ⟨le_rfl, hbs⟩
  have sb0 := a0.sin hF (ε' := 203e-16) (by norm_num)
  have cb0 := a0.cos hF (ε' := 203e-16) (by norm_num)
  have sbs := as.sin hF (ε' := 203e-16) (by norm_num)
  have cbs := as.cos hF (ε' := 203e-16) (by norm_num)
  have p1 := (sb0.mul sbs).rnd hF (B' := 100000e-5) (ε' := 408e-16) (by norm_num) (by norm_num)
  have d := (hs.sub h0).rnd hF (B' := 100000e-4) (ε' := 512e-17) (by norm_num) (by norm_num)
  have cd := d.cos hF (ε' := 535e-17) (by norm_num)
  have p2 := (cb0.mul cbs).rnd hF (B' := 100000e-5) (ε' := 408e-16) (by norm_num) (by norm_num)
  have p3 := (p2.mul cd).rnd hF (B' := 100000e-5) (ε' := 463e-16) (by norm_num) (by norm_num)
  have c0 := (p1.add p3).rnd hF (B' := 200000e-5) (ε' := 874e-16) (by norm_num) (by norm_num)
  have hturn : Real.cos (ls + 2 * Real.pi * ks - (l0 + 2 * Real.pi * k0)) = Real.cos (ls - l0) := by
    rw [show ls + 2 * Real.pi * ks - (l0 + 2 * Real.pi * k0) = ls - l0 + ((ks - k0 : ℤ) : ℝ) * (2 * Real.pi) by push_cast; ring, Real.cos_add_int_mul_two_pi]
  rw [up_dot, ← hturn]
  exact c0.2

/-- the elevation, as a function of the cosine of the arc and the ratio of the distances -/
theorem elevation_near (F : Flt) (hF : Accurate F) (c c' w w' : ℝ) (hc : |c' - c| ≤ 874e-16) (hc0 : 1e-12 ≤ c) (hc1 : c ^ 2 ≤ 1 - 1e-10) (hw : |w' - w| ≤ 2e-15) (hw0 : 0 ≤ w)
    (hw1 : w ≤ 0.64) :
    0 ≤ F.rnd (1 - F.pow c' 2) ∧ c' ≠ 0 ∧
    F.sin (F.atan (F.rnd (F.rnd √(F.rnd (1 - F.pow c' 2)) / c'))) ≠ 0 ∧
    |F.atan (F.rnd (F.rnd (F.cos (F.atan (F.rnd (F.rnd √(F.rnd (1 - F.pow c' 2)) / c'))) - w') / F.sin (F.atan (F.rnd (F.rnd √(F.rnd (1 - F.pow c' 2)) / c'))))) -
      Real.arctan ((c - w) / √(1 - c ^ 2))| ≤ 1.2e-12 / √(1 - c ^ 2) := by
  have hcpos : 0 < c := lt_of_lt_of_le (by norm_num) hc0
  have hc2 : 0 ≤ 1 - c ^ 2 := le_trans (by norm_num : (0 : ℝ) ≤ 1e-10) (by linarith)
  set s := √(1 - c ^ 2) with hsd
  have hss : s ^ 2 = 1 - c ^ 2 := Real.sq_sqrt hc2
  have hs5 : 1e-5 ≤ s := Real.le_sqrt_of_sq_le (by norm_num at hc1 ⊢; linarith)
  have hs0 : 0 < s := lt_of_lt_of_le (by norm_num) hs5
  have hs1 : s ≤ 1 := by nlinarith [sq_nonneg c]
  have hcle : |c| ≤ 1 := abs_le_of_sq_le_sq (by linarith [sq_nonneg s]) (by norm_num)
  -- the reciprocal of s carries the errors
  set i := 1 / s with hi
  have hi1 : 1 ≤ i := by rw [hi, le_div_iff₀ hs0]; linarith
  have hi5 : i ≤ 1e5 := by rw [hi, div_le_iff₀ hs0]; norm_num at hs5 ⊢; linarith
  have ac : Appr c' c 1 874e-16 := ⟨hcle, hc⟩
  have a1 := Appr.exact (x := 1) (B := 1) (by norm_num)
  have c2 := ac.pow2 hF (B' := 1) (ε' := 1752e-16) (by norm_num) (by norm_num)
  have c3 := (a1.sub c2).rnd hF (B' := 2) (ε' := 176e-15) (by norm_num) (by norm_num)
  have c3' : Appr (F.rnd (1 - F.pow c' 2)) (1 - c ^ 2) 1 176e-15 := ⟨by rw [abs_of_nonneg hc2]; linarith [sq_nonneg c], c3.2⟩
  have hnn : 0 ≤ F.rnd (1 - F.pow c' 2) := by
    have := (abs_le.1 c3.2).1; norm_num at this hc1; linarith
  have s1 := c3'.sqrt hs0 (by rw [hss]) (by rw [hss]; norm_num at hc1 ⊢; linarith) (C := 1) (by norm_num) (by norm_num)
  rw [← hsd] at s1
  have hcpos' : 0 < c' := by have := (abs_le.1 hc).1; norm_num at this hc0; linarith
  have s2 : |F.rnd √(F.rnd (1 - F.pow c' 2)) - s| ≤ 1.77e-13 * i := by
    refine (s1.rnd hF (B' := 1) (ε' := 1.77e-13 * i) le_rfl ?_).2
    rw [show (176e-15 : ℝ) / s = 176e-15 * i by rw [hi]; ring]
    norm_num
    linarith
  set s' := F.rnd √(F.rnd (1 - F.pow c' 2))
  have hsig : |F.atan (F.rnd (s' / c')) - Real.arctan (s / c)| ≤ 2.6e-13 * i := by
    have := quotient_near F hF c s c' s' 1 (1.77e-13 * i) hcpos hcpos' one_pos (by rw [hss]; ring_nf; exact le_rfl) (hc.trans (by norm_num; linarith)) s2 (by norm_num at hi5 ⊢; linarith)
    refine this.trans ?_
    norm_num
    linarith
  have hone : 1 + (s / c) ^ 2 = (1 / c) ^ 2 := by field_simp; rw [hss]; ring
  have e1 : Real.cos (Real.arctan (s / c)) = c := by rw [Real.cos_arctan, hone, Real.sqrt_sq (by positivity)]; field_simp
  have e2 : Real.sin (Real.arctan (s / c)) = s := by rw [Real.sin_arctan, hone, Real.sqrt_sq (by positivity)]; field_simp
  set sg := F.atan (F.rnd (s' / c'))
  have asg : Appr sg (Real.arctan (s / c)) |Real.arctan (s / c)| (2.6e-13 * i) := ⟨le_rfl, hsig⟩
  have hsin := (asg.sin hF (ε' := 2.61e-13 * i) (by norm_num; linarith)).2
  have hcos : Appr (F.cos sg) (Real.cos (Real.arctan (s / c))) 1 (2.61e-13 * i) := asg.cos hF (by norm_num; linarith)
  rw [e2] at hsin
  rw [e1] at hcos
  have hspos : 0 < F.sin sg := by
    have h1 := (abs_le.1 hsin).1
    norm_num at h1 hi5 hs5
    linarith
  have aw : Appr w' w 0.64 2e-15 := ⟨by rwa [abs_of_nonneg hw0], hw⟩
  have hn := ((hcos.sub aw).rnd hF (B' := 1.64) (ε' := 2.65e-13 * i) (by norm_num) (by norm_num; linarith)).2
  refine ⟨hnn, hcpos'.ne', hspos.ne', ?_⟩
  have hR2 : (0.36 : ℝ) ^ 2 ≤ s ^ 2 + (c - w) ^ 2 := by
    rw [hss]
    have : c ≤ 1 := (le_abs_self c).trans hcle
    norm_num at hw1 ⊢
    nlinarith [mul_nonneg hw0 (sub_nonneg.2 this)]
  have := quotient_near F hF s (c - w) (F.sin sg) (F.rnd (F.cos sg - w')) 0.36 (2.65e-13 * i) hs0 hspos (by norm_num) hR2 (hsin.trans (by norm_num; linarith)) hn
    (by norm_num at hi5 ⊢; linarith)
  refine this.trans ?_
  rw [show (1.2e-12 : ℝ) / s = 1.2e-12 * i by rw [hi]; ring]
  norm_num
  linarith

/-- the factor from radians to degrees -/
theorem deg_near (F : Flt) (hF : Accurate F) (t' t ε : ℝ) (h : Appr t' t 4 ε) :
    |F.rnd (t' * F.rnd (180 / F.rnd Real.pi)) - t * 180 / Real.pi| ≤ 57.4 * ε + 2e-13 := by
  have hpi4 := Real.pi_lt_d2
  have hpi3 := Real.pi_gt_d4
  have hpi0 := Real.pi_pos
  obtain ⟨-, hε⟩ := h.nn
  have ap : Appr (F.rnd Real.pi) Real.pi 3.15 3.6e-16 := (Appr.exact (by rw [abs_of_pos hpi0]; exact hpi4.le)).rnd hF le_rfl (by norm_num)
  have hm : (3.1415 : ℝ) ≤ |Real.pi| := by rw [abs_of_pos hpi0]; exact hpi3.le
  have a180 := Appr.exact (x := 180) (B := 180) (by norm_num)
  have k1 := (a180.div ap hm (by norm_num)).rnd hF (B' := 57.3) (ε' := 1.4e-14) (by norm_num) (by norm_num)
  have k2 := ((h.mul k1).rnd hF (B' := 230) (ε' := 57.4 * ε + 2e-13) (by norm_num) (by norm_num; linarith)).2
  rwa [mul_div_assoc]

/-- the azimuth before the reduction to 0..360 -/
theorem azimuth_near (F : Flt) (hF : Accurate F) (x0 y0 z0 xs ys zs l0 b0 L0 B0 t : ℝ) (k0 : ℤ) (h0 : Appr L0 (l0 + 2 * Real.pi * k0) 5 2e-15) (hb0 : |B0 - b0| ≤ 2e-14)
    (hx : |xs - x0| ≤ 100000000) (hy : |ys - y0| ≤ 100000000) (hz : |zs - z0| ≤ 100000000) (D e n : ℝ)
    (he : e = dot (sub (xs, ys, zs) (x0, y0, z0)) (east l0)) (hn : n = dot (sub (xs, ys, zs) (x0, y0, z0)) (north l0 b0)) (hD : 1 ≤ D)
    (hes : e = D * Real.sin t) (hnc : n = D * Real.cos t) :
    ∃ k : ℤ, |F.atan2 (F.rnd (F.rnd (-F.rnd (xs - x0) * F.sin L0) + F.rnd (F.rnd (ys - y0) * F.cos L0)))
        (F.rnd (F.rnd (F.rnd (F.rnd (-F.rnd (xs - x0) * F.cos L0) * F.sin B0) - F.rnd (F.rnd (F.rnd (ys - y0) * F.sin L0) * F.sin B0)) + F.rnd (F.rnd (zs - z0) * F.cos B0)))| ≤ 3.15 ∧ Appr (F.atan2 (F.rnd (F.rnd (-F.rnd (xs - x0) * F.sin L0) + F.rnd (F.rnd (ys - y0) * F.cos L0)))
        (F.rnd (F.rnd (F.rnd (F.rnd (-F.rnd (xs - x0) * F.cos L0) * F.sin B0) - F.rnd (F.rnd (F.rnd (ys - y0) * F.sin L0) * F.sin B0)) + F.rnd (F.rnd (zs - z0) * F.cos B0))))
      (t + 2 * Real.pi * k) 4 (9.6e-6 / D + 2e-15) := by
  have a0 : Appr B0 b0 |b0| 2e-14 := ⟨le_rfl, hb0⟩
  have sb0 := a0.sin hF (ε' := 203e-16) (by norm_num)
  have cb0 := a0.cos hF (ε' := 203e-16) (by norm_num)
  have hturn : l0 + 2 * Real.pi * k0 = l0 + (k0 : ℝ) * (2 * Real.pi) := by ring
  rw [hturn] at h0
  have sl := h0.sin hF (ε' := 23e-16) (by norm_num)
  have cl := h0.cos hF (ε' := 23e-16) (by norm_num)
  rw [Real.sin_add_int_mul_two_pi] at sl
  rw [Real.cos_add_int_mul_two_pi] at cl
  have dx := (Appr.exact hx).rnd hF (B' := 100000000) (ε' := 112e-10) (by norm_num) (by norm_num)
  have dy := (Appr.exact hy).rnd hF (B' := 100000000) (ε' := 112e-10) (by norm_num) (by norm_num)
  have dz := (Appr.exact hz).rnd hF (B' := 100000000) (ε' := 112e-10) (by norm_num) (by norm_num)
  have dxn : Appr (-F.rnd (xs - x0)) (-(xs - x0)) 100000000 112e-10 := by
    refine ⟨by rw [abs_neg]; exact dx.1, ?_⟩
    rw [show ∀ a b : ℝ, -a - -b = -(a - b) by intros; ring, abs_neg]; exact dx.2
  have t1 := (dxn.mul sl).rnd hF (B' := 100000000) (ε' := 253e-9) (by norm_num) (by norm_num)
  have t2 := (dy.mul cl).rnd hF (B' := 100000000) (ε' := 253e-9) (by norm_num) (by norm_num)
  have xt := (t1.add t2).rnd hF (B' := 200000000) (ε' := 529e-9) (by norm_num) (by norm_num)
  have u1 := (dxn.mul cl).rnd hF (B' := 100000000) (ε' := 253e-9) (by norm_num) (by norm_num)
  have u2 := (u1.mul sb0).rnd hF (B' := 100000000) (ε' := 230e-8) (by norm_num) (by norm_num)
  have u3 := (dy.mul sl).rnd hF (B' := 100000000) (ε' := 253e-9) (by norm_num) (by norm_num)
  have u4 := (u3.mul sb0).rnd hF (B' := 100000000) (ε' := 230e-8) (by norm_num) (by norm_num)
  have u5 := (u2.sub u4).rnd hF (B' := 200000000) (ε' := 463e-8) (by norm_num) (by norm_num)
  have u6 := (dz.mul cb0).rnd hF (B' := 100000000) (ε' := 206e-8) (by norm_num) (by norm_num)
  have yt := (u5.add u6).rnd hF (B' := 300000000) (ε' := 673e-8) (by norm_num) (by norm_num)
  have e1 : -(xs - x0) * Real.sin l0 + (ys - y0) * Real.cos l0 = e := by rw [he]; simp only [dot, sub, east]; ring
  have e2 : -(xs - x0) * Real.cos l0 * Real.sin b0 - (ys - y0) * Real.sin l0 * Real.sin b0 + (zs - z0) * Real.cos b0 = n := by
    rw [hn]; simp only [dot, sub, north]; ring
  rw [e1] at xt
  rw [e2] at yt
  have hD0 : 0 < D := by linarith
  have hDd : D * (673e-8 / D) = 673e-8 := by field_simp
  have hsm : 673e-8 / D ≤ 673e-8 := div_le_self (by norm_num) hD
  obtain ⟨hne, k1, hk1⟩ := arg_near_scaled t n e _ _ D (673e-8 / D) hD0 (hsm.trans (by norm_num)) hnc hes (by rw [hDd]; exact yt.2) (by rw [hDd]; exact xt.2.trans (by norm_num))
  obtain ⟨hb, k2, hk2⟩ := hF.atan2 _ _ hne
  refine ⟨k1 + k2, hb, ?_⟩
  set A := F.atan2 (F.rnd (F.rnd (-F.rnd (xs - x0) * F.sin L0) + F.rnd (F.rnd (ys - y0) * F.cos L0)))
        (F.rnd (F.rnd (F.rnd (F.rnd (-F.rnd (xs - x0) * F.cos L0) * F.sin B0) - F.rnd (F.rnd (F.rnd (ys - y0) * F.sin L0) * F.sin B0)) + F.rnd (F.rnd (zs - z0) * F.cos B0)))
  have hd : |A - (t + 2 * Real.pi * ((k1 + k2 : ℤ) : ℝ))| ≤ 9.6e-6 / D + 2e-15 := by
    generalize Complex.arg _ = g at hk1 hk2
    have h3 := abs_sub_le A (g + 2 * Real.pi * k2) (t + 2 * Real.pi * ((k1 + k2 : ℤ) : ℝ))
    refine h3.trans ?_
    refine le_trans (add_le_add hk2 (b := _) (d := 1.415 * (673e-8 / D)) ?_) ?_
    · rw [show ∀ a : ℝ, a + 2 * Real.pi * k2 - (t + 2 * Real.pi * ((k1 + k2 : ℤ) : ℝ)) = a - (t + 2 * Real.pi * k1) by intro a; push_cast; ring]
      exact hk1
    · have : 0 < 1 / D := by positivity
      rw [show (1.415 : ℝ) * (673e-8 / D) = 1.415 * 673e-8 * (1 / D) by ring, show (9.6e-6 : ℝ) / D = 9.6e-6 * (1 / D) by ring]
      generalize 1 / D = i at this ⊢
      norm_num
      linarith
  refine ⟨?_, hd⟩
  have h4 := abs_le.1 hd
  have h5 := abs_le.1 hb
  have h6 : 9.6e-6 / D ≤ 9.6e-6 := div_le_self (by norm_num) hD
  rw [abs_le]
  norm_num at h4 h5 h6 ⊢
  constructor <;> linarith [h4.1, h4.2, h5.1, h5.2]

/-- C98: in floating point, for a station, a satellite from 10000 km to 50000 km from the centre of the Earth, and verticals that enclose an arc of less than 90 degrees but not less than
10⁻⁵ rad, the computation raises no exception and ends within eight passes.  The elevation is within 7·10⁻¹¹/sin(arc) degrees of that over a sphere of 6371 km (C67); the azimuth, for a
satellite at a horizontal distance of `D` metres, 1 m or more, is in 0..360 and within 6·10⁻⁴/D + 10⁻¹² degrees of the direction to the satellite in the local frame. -/
theorem C98_look (F : Flt) (hF : Accurate F) (fuel : ℕ) (hf : 8 ≤ fuel) (x0 y0 z0 l0 b0 h0 xs ys zs ls bs hs : ℝ)
    (hb0 : |b0| < Real.pi / 2) (hh0 : 0 < primeVertical b0 + h0) (hp0 : cartesian l0 b0 h0 = (x0, y0, z0))
    (hr0 : 6000000 ≤ len (x0, y0, z0) ∧ len (x0, y0, z0) ≤ 50000000) (hQ0 : 1e-3 ≤ axisDist (x0, y0, z0))
    (hbs : |bs| < Real.pi / 2) (hhs : 0 < primeVertical bs + hs) (hps : cartesian ls bs hs = (xs, ys, zs))
    (hrs : 10000000 ≤ len (xs, ys, zs) ∧ len (xs, ys, zs) ≤ 50000000) (hQs : 1e-3 ≤ axisDist (xs, ys, zs))
    (c e n D : ℝ) (hc : c = dot (up l0 b0) (up ls bs)) (he : e = dot (sub (xs, ys, zs) (x0, y0, z0)) (east l0)) (hn : n = dot (sub (xs, ys, zs) (x0, y0, z0)) (north l0 b0))
    (hDD : D = √(e ^ 2 + n ^ 2)) (hc0 : 1e-12 ≤ c) (hc1 : c ^ 2 ≤ 1 - 1e-10) :
    ∃ el az, computeElAzF F fuel (x0, y0, z0) (xs, ys, zs) = .ok (some (el, az)) ∧
      Within (7e-11 / √(1 - c ^ 2)) el (elevation (up l0 b0) (scale 6371000 (up l0 b0)) (scale (len (xs, ys, zs)) (up ls bs)) * 180 / Real.pi) ∧
      (1 ≤ D → 0 ≤ az ∧ az ≤ 360 + 1e-12 ∧ ∀ a, IsDirection a e n → ∃ k : ℤ, Within (6e-4 / D + 1e-12) az (a + 360 * k)) := by
  obtain ⟨L0, B0, H0, hres0, ⟨k0, hL0⟩, hB0, -⟩ := C96_geodetic F hF fuel l0 b0 h0 x0 y0 z0 hb0 hh0 hp0 hr0.1 hr0.2 hQ0 hf
  obtain ⟨Ls, Bs, Hs, hress, ⟨ks, hLs⟩, hBs, -⟩ := C96_geodetic F hF fuel ls bs hs xs ys zs hbs hhs hps (by linarith [hrs.1]) hrs.2 hQs hf
  have lonApp : ∀ x y z L B H l : ℝ, ∀ k : ℤ, xyz2lbhF F fuel x y z = .ok (some (L, B, H)) → Within 2e-15 L (l + 2 * Real.pi * k) → Appr L (l + 2 * Real.pi * k) 5 2e-15 := by
    intro x y z L B H l k hres hL
    have hLb : -3.15 ≤ L ∧ L ≤ 4.8 := by rw [xyz2lbhF_lon F fuel x y z L B H hres]; exact lonF_bound F hF x y
    refine ⟨?_, hL⟩
    unfold Within at hL
    have h1 := abs_le.1 hL
    rw [abs_le]
    norm_num at h1 hLb ⊢
    constructor <;> linarith
  have aL0 := lonApp _ _ _ _ _ _ _ _ hres0 hL0
  have aLs := lonApp _ _ _ _ _ _ _ _ hress hLs
  have hcn := arc_near F hF l0 b0 ls bs L0 B0 Ls Bs k0 ks aL0 aLs hB0 hBs
  rw [← hc] at hcn
  -- the distance of the satellite
  have sqn : ∀ x : ℝ, |F.pow x 2 - x ^ 2| ≤ 5 / 2 ^ 53 * x ^ 2 + 1 / 2 ^ 70 := by
    intro x
    have h1 := hF.pow x 2
    rw [sq_abs] at h1
    refine h1.trans ?_
    have := sq_nonneg x
    norm_num
    linarith
  obtain ⟨hd0, hrk⟩ := distance_of_squares F hF xs ys zs _ _ _ (le_trans (by norm_num) hrs.1) (sqn xs) (sqn ys) (sqn zs)
  have hrp : 0 < len (xs, ys, zs) := by linarith [hrs.1]
  have hrk0 : F.rnd √(F.rnd (F.rnd (F.pow xs 2 + F.pow ys 2) + F.pow zs 2)) ≠ 0 := (hrk.pos hrp (by norm_num)).ne'
  set rk := F.rnd √(F.rnd (F.rnd (F.pow xs 2 + F.pow ys 2) + F.pow zs 2))
  set r := len (xs, ys, zs)
  have hw1 : 6371000 / r ≤ 0.64 := by rw [div_le_iff₀ hrp]; norm_num; linarith [hrs.1]
  have hwlo : (0.1 : ℝ) ≤ 6371000 / r := by rw [le_div_iff₀ hrp]; norm_num; linarith [hrs.2]
  have hw : |F.rnd (6371000 / rk) - 6371000 / r| ≤ 2e-15 := by
    have d1 := (Rel.refl (6371000 : ℝ)).div hrk (by norm_num) hrp (by norm_num) (by norm_num) (τ := 11 / 2 ^ 53) (by norm_num) (by norm_num)
    have d2 := d1.rnd hF (ρ' := 13 / 2 ^ 53) (le_trans (by norm_num) hwlo) (by norm_num) (by norm_num)
    exact d2.abs.trans ((mul_le_mul_of_nonneg_left hw1 (by norm_num)).trans (by norm_num))
  obtain ⟨g1, g2, g3, g4⟩ := elevation_near F hF c _ _ _ hcn hc0 hc1 hw (by linarith) hw1
  -- the computation
  unfold computeElAzF
  simp only
  rw [hres0, hress]
  simp only
  rw [sqrtF_ok _ _ hd0]
  simp only
  rw [sqrtF_ok _ _ g1]
  simp only
  rw [divF_ok _ _ _ g2]
  simp only
  rw [divF_ok _ _ _ hrk0]
  simp only
  rw [divF_ok _ _ _ g3]
  simp only
  refine ⟨_, _, rfl, ?_, ?_⟩
  · -- the elevation
    have hlt : dot (up l0 b0) (up ls bs) ^ 2 < 1 := by
      rw [← hc]; exact lt_of_le_of_lt hc1 (by norm_num)
    have hel := elevation_sphere (up l0 b0) (up ls bs) 6371000 r (up_unit _ _) (up_unit _ _) hrp hlt
    rw [← hc] at hel
    rw [hel]
    have hs0 : 0 < √(1 - c ^ 2) := Real.sqrt_pos.2 (by rw [hc]; linarith)
    have hs1 : √(1 - c ^ 2) ≤ 1 := Real.sqrt_le_one.2 (by linarith [sq_nonneg c])
    have hb : |Real.arctan ((c - 6371000 / r) / √(1 - c ^ 2))| ≤ 4 := by
      have h1 := Real.arctan_mem_Ioo ((c - 6371000 / r) / √(1 - c ^ 2))
      have := Real.pi_lt_d2
      norm_num at this
      rw [abs_le]; constructor <;> linarith [h1.1, h1.2]
    have := deg_near F hF _ _ _ ⟨hb, g4⟩
    refine this.trans ?_
    have hi1 : 1 ≤ 1 / √(1 - c ^ 2) := by rw [le_div_iff₀ hs0]; linarith
    rw [show (1.2e-12 : ℝ) / √(1 - c ^ 2) = 1.2e-12 * (1 / √(1 - c ^ 2)) by ring, show (7e-11 : ℝ) / √(1 - c ^ 2) = 7e-11 * (1 / √(1 - c ^ 2)) by ring]
    set i := 1 / √(1 - c ^ 2)
    norm_num
    linarith
  · intro hD
    have hpi0 := Real.pi_pos
    have hpi3 := Real.pi_gt_d2
    have hpi4 := Real.pi_lt_d2
    have coord : ∀ x y z : ℝ, len (x, y, z) ≤ 50000000 → |x| ≤ 50000000 ∧ |y| ≤ 50000000 ∧ |z| ≤ 50000000 := by
      intro x y z h
      have hsq : len (x, y, z) ^ 2 = x ^ 2 + y ^ 2 + z ^ 2 := by
        unfold len dot; rw [Real.sq_sqrt (by nlinarith [mul_self_nonneg x, mul_self_nonneg y, mul_self_nonneg z])]; ring
      have hhi : x ^ 2 + y ^ 2 + z ^ 2 ≤ 50000000 ^ 2 := by rw [← hsq]; exact pow_le_pow_left₀ (Real.sqrt_nonneg _) h 2
      exact ⟨abs_le_of_sq_le_sq (by linarith [sq_nonneg y, sq_nonneg z]) (by norm_num), abs_le_of_sq_le_sq (by linarith [sq_nonneg x, sq_nonneg z]) (by norm_num),
        abs_le_of_sq_le_sq (by linarith [sq_nonneg y, sq_nonneg x]) (by norm_num)⟩
    obtain ⟨qx0, qy0, qz0⟩ := coord x0 y0 z0 hr0.2
    obtain ⟨qxs, qys, qzs⟩ := coord xs ys zs hrs.2
    have diff : ∀ a b : ℝ, |a| ≤ 50000000 → |b| ≤ 50000000 → |a - b| ≤ 100000000 := by
      intro a b h1 h2; exact (abs_sub _ _).trans (by linarith)
    have key : ∀ a, IsDirection a e n → ∃ k : ℤ, |F.atan2 (F.rnd (F.rnd (-F.rnd (xs - x0) * F.sin L0) + F.rnd (F.rnd (ys - y0) * F.cos L0)))
        (F.rnd (F.rnd (F.rnd (F.rnd (-F.rnd (xs - x0) * F.cos L0) * F.sin B0) - F.rnd (F.rnd (F.rnd (ys - y0) * F.sin L0) * F.sin B0)) + F.rnd (F.rnd (zs - z0) * F.cos B0)))| ≤ 3.15 ∧ Appr (F.atan2 (F.rnd (F.rnd (-F.rnd (xs - x0) * F.sin L0) + F.rnd (F.rnd (ys - y0) * F.cos L0)))
        (F.rnd (F.rnd (F.rnd (F.rnd (-F.rnd (xs - x0) * F.cos L0) * F.sin B0) - F.rnd (F.rnd (F.rnd (ys - y0) * F.sin L0) * F.sin B0)) + F.rnd (F.rnd (zs - z0) * F.cos B0))))
      (a * Real.pi / 180 + 2 * Real.pi * k) 4 (9.6e-6 / D + 2e-15) := by
      intro a ha
      exact azimuth_near F hF x0 y0 z0 xs ys zs l0 b0 L0 B0 (a * Real.pi / 180) k0 aL0 hB0 (diff _ _ qxs qx0) (diff _ _ qys qy0) (diff _ _ qzs qz0) D e n he hn hD
        (by rw [hDD]; exact ha.2.2.1) (by rw [hDD]; exact ha.2.2.2)
    set A := F.atan2 (F.rnd (F.rnd (-F.rnd (xs - x0) * F.sin L0) + F.rnd (F.rnd (ys - y0) * F.cos L0)))
        (F.rnd (F.rnd (F.rnd (F.rnd (-F.rnd (xs - x0) * F.cos L0) * F.sin B0) - F.rnd (F.rnd (F.rnd (ys - y0) * F.sin L0) * F.sin B0)) + F.rnd (F.rnd (zs - z0) * F.cos B0)))
    -- a direction exists
    obtain ⟨a0, ha0⟩ : ∃ a, IsDirection a e n := by
      refine ⟨_, direction_of_angle (Verif.Model.Geo.atan2 e n) e n (Complex.neg_pi_lt_arg _) ?_ ?_ ?_⟩
      · have := Complex.arg_le_pi ⟨n, e⟩
        unfold Verif.Model.Geo.atan2
        linarith
      · rw [add_comm]; exact atan2_sin e n
      · rw [add_comm]; exact atan2_cos e n
    obtain ⟨k1, hAb, hk1⟩ := key a0 ha0
    have hdeg : ∀ a : ℝ, ∀ k : ℤ, Appr A (a * Real.pi / 180 + 2 * Real.pi * k) 4 (9.6e-6 / D + 2e-15) →
        |F.rnd (A * F.rnd (180 / F.rnd Real.pi)) - (a + 360 * k)| ≤ 5.6e-4 / D + 4e-13 := by
      intro a k h
      have h1 := deg_near F hF _ _ _ h
      rw [show (a * Real.pi / 180 + 2 * Real.pi * k) * 180 / Real.pi = a + 360 * k by field_simp; ring] at h1
      refine h1.trans ?_
      have : 0 < 1 / D := by positivity
      rw [show (9.6e-6 : ℝ) / D = 9.6e-6 * (1 / D) by ring, show (5.6e-4 : ℝ) / D = 5.6e-4 * (1 / D) by ring]
      generalize 1 / D = i at this ⊢
      norm_num
      linarith
    have hDi : 5.6e-4 / D ≤ 5.6e-4 := div_le_self (by norm_num) hD
    have hD6 : 5.6e-4 / D ≤ 6e-4 / D := by gcongr; norm_num
    -- the range
    have hAdeg : |F.rnd (A * F.rnd (180 / F.rnd Real.pi))| ≤ 181 := by
      have h1 := abs_le.1 (deg_near F hF A A 0 (Appr.exact (hAb.trans (by norm_num))))
      have h2 : |A * 180 / Real.pi| ≤ 180.9 := by
        rw [abs_div, abs_of_pos hpi0, abs_mul, div_le_iff₀ hpi0, show |(180 : ℝ)| = 180 by norm_num]
        norm_num at hAb hpi3 ⊢
        linarith
      rw [abs_le] at h2 ⊢
      norm_num at h1 h2 ⊢
      constructor <;> linarith [h1.1, h1.2]
    set G := F.rnd (A * F.rnd (180 / F.rnd Real.pi))
    have hG := abs_le.1 hAdeg
    have hadd := hF.rnd (G + 360)
    rw [abs_of_pos (show 0 < G + 360 by linarith)] at hadd
    have hadd' := abs_le.1 hadd
    refine ⟨?_, ?_, ?_⟩
    · split
      · norm_num at hadd' ⊢; linarith
      · rename_i h; exact not_lt.1 h
    · split
      · norm_num at hadd' ⊢; linarith
      · norm_num; linarith
    · intro a ha
      obtain ⟨k, -, hk⟩ := key a ha
      have h1 := hdeg a k hk
      split
      · refine ⟨k + 1, ?_⟩
        have h2 := abs_sub_le (F.rnd (G + 360)) (G + 360) (a + 360 * ((k + 1 : ℤ) : ℝ))
        rw [show G + 360 - (a + 360 * ((k + 1 : ℤ) : ℝ)) = G - (a + 360 * k) by push_cast; ring] at h2
        show |_ - _| ≤ _
        refine h2.trans ?_
        have h3 : |F.rnd (G + 360) - (G + 360)| ≤ 2e-13 := hadd.trans (by norm_num; linarith)
        norm_num at h1 h3 hD6 ⊢
        linarith
      · refine ⟨k, h1.trans ?_⟩
        norm_num at hD6 ⊢
        linarith

/-- C98: with exact arithmetic the model is that of C67 -/
theorem C98_exact (fuel : ℕ) (obs sat : ℝ × ℝ × ℝ) : computeElAzF Flt.exact fuel obs sat = Verif.Model.Geo.computeElAz fuel obs sat := by
  obtain ⟨x0, y0, z0⟩ := obs
  obtain ⟨xs, ys, zs⟩ := sat
  unfold computeElAzF Verif.Model.Geo.computeElAz
  simp only [(C96_exact _ _ _ _).1, divF_exact, sqrtF_exact, show Verif.Model.Geo.datumRe = 6371000 by unfold Verif.Model.Geo.datumRe; norm_num]
  rfl

/-- C98: a station on the equator and a satellite over the equator 45 degrees further east meet the hypotheses; in binary64 the elevation is found. -/
theorem C98_example : ∃ el az, computeElAzF Flt.binary64 8 (6378137, 0, 0) (20000000, 20000000, 0) = .ok (some (el, az)) ∧
    Within 1e-10 el (Real.arctan ((√2 / 2 - 6371000 / (20000000 * √2)) / (√2 / 2)) * 180 / Real.pi) ∧ ∃ k : ℤ, Within 1e-10 az (90 + 360 * k) := by
  have hpi0 := Real.pi_pos
  have hN : ∀ h : ℝ, cartesian 0 0 h = (6378137 + h, 0, 0) := by
    intro h; simp [cartesian, primeVertical, semiMajor]
  have s2 : √2 * √2 = 2 := Real.mul_self_sqrt (by norm_num)
  have s2lo : 1.414 ≤ √2 := Real.le_sqrt_of_sq_le (by norm_num)
  have s2hi : √2 ≤ 1.415 := Real.sqrt_le_iff.2 ⟨by norm_num, by norm_num⟩
  have hS : cartesian (Real.pi / 4) 0 (20000000 * √2 - 6378137) = (20000000, 20000000, 0) := by
    simp only [cartesian, primeVertical, semiMajor, Real.sin_zero, Real.cos_zero, Real.cos_pi_div_four, Real.sin_pi_div_four]
    refine Prod.ext ?_ (Prod.ext ?_ ?_) <;> norm_num <;> nlinarith
  have hl : len (20000000, 20000000, 0) = 20000000 * √2 := by
    unfold len dot
    simp only
    rw [show (20000000 : ℝ) * 20000000 + 20000000 * 20000000 + 0 * 0 = 20000000 ^ 2 * 2 by norm_num, Real.sqrt_mul (by norm_num), Real.sqrt_sq (by norm_num)]
  have hlo : len (6378137, 0, 0) = 6378137 := by
    unfold len dot; simp only; rw [show (6378137 : ℝ) * 6378137 + 0 * 0 + 0 * 0 = 6378137 ^ 2 by norm_num, Real.sqrt_sq (by norm_num)]
  have hpv : primeVertical 0 = 6378137 := by simp [primeVertical, semiMajor]
  have hc : dot (up 0 0) (up (Real.pi / 4) 0) = √2 / 2 := by
    rw [up_dot]; simp
  have he : dot (sub (20000000, 20000000, 0) (6378137, 0, 0)) (east 0) = 20000000 := by simp [dot, sub, east]
  have hn : dot (sub (20000000, 20000000, 0) (6378137, 0, 0)) (north 0 0) = 0 := by simp [dot, sub, north]
  have hcc : (√2 / 2) ^ 2 = 1 / 2 := by nlinarith
  obtain ⟨el, az, h1, h2, h3⟩ := C98_look Flt.binary64 accurate_binary64 8 le_rfl 6378137 0 0 0 0 0 20000000 20000000 0 (Real.pi / 4) 0 (20000000 * √2 - 6378137)
    (by simpa using by positivity) (by rw [hpv]; norm_num) (by rw [hN]; norm_num) (by rw [hlo]; norm_num) (by unfold axisDist; exact Real.le_sqrt_of_sq_le (by norm_num))
    (by simpa using by positivity) (by rw [hpv]; linarith) hS (by rw [hl]; constructor <;> norm_num at s2lo s2hi ⊢ <;> linarith)
    (by unfold axisDist; exact Real.le_sqrt_of_sq_le (by norm_num)) _ _ _ _ rfl rfl rfl rfl (by rw [hc]; norm_num at s2lo ⊢; linarith) (by rw [hc, hcc]; norm_num)
  rw [he, hn] at h3
  have hD : √((20000000 : ℝ) ^ 2 + 0 ^ 2) = 20000000 := by rw [show (20000000 : ℝ) ^ 2 + 0 ^ 2 = 20000000 ^ 2 by norm_num, Real.sqrt_sq (by norm_num)]
  rw [hD] at h3
  refine ⟨el, az, h1, ?_, ?_⟩
  · have hsph := elevation_sphere (up 0 0) (up (Real.pi / 4) 0) 6371000 (len (20000000, 20000000, 0)) (up_unit _ _) (up_unit _ _) (by rw [hl]; positivity)
      (by rw [hc, hcc]; norm_num)
    have hsq : √(1 - (√2 / 2) ^ 2) = √2 / 2 := by
      rw [hcc, show (1 : ℝ) - 1 / 2 = (√2 / 2) ^ 2 by rw [hcc]; norm_num, Real.sqrt_sq (by positivity)]
    rw [hsph, hc, hl, hsq] at h2
    refine le_trans (b := 7e-11 / (√2 / 2)) h2 ?_
    rw [div_le_iff₀ (by positivity)]
    norm_num at s2lo ⊢
    linarith
  · obtain ⟨-, -, h4⟩ := h3 (by norm_num)
    obtain ⟨k, hk⟩ := h4 90 ⟨by norm_num, by norm_num, by rw [hD, show (90 : ℝ) * Real.pi / 180 = Real.pi / 2 by ring]; simp,
      by rw [show (90 : ℝ) * Real.pi / 180 = Real.pi / 2 by ring]; simp⟩
    exact ⟨k, le_trans hk (by norm_num)⟩

end Verif.Props
