import Verif.Props.Stops
import Verif.Props.Look
import Verif.Props.ArchiveSky
import Verif.Props.MainExamples
/-!
# Broadcast elements that are no ellipse (C109)
-/
namespace Verif.Props
open Verif.Py Verif.Spec Verif.Model Verif.Model.DoubleGeo Verif.Proofs

theorem hyperbola_root (F : Flt) (hF : Accurate F) (e : ℝ) (he : 1.001 ≤ |e|) : sqrtF F (F.rnd (1 - F.pow e 2)) = .error .value := by
  have h2 : 1.002 ≤ e ^ 2 := by rw [← sq_abs]; nlinarith
  have hp := abs_le.1 (hF.pow e 2)
  have habs : |e| ^ 2 = e ^ 2 := sq_abs e
  rw [habs] at hp
  have h3 : F.pow e 2 - 1 ≥ 0.001 := by
    have : e ^ 2 / 2 ^ 52 ≤ e ^ 2 * 0.0001 := by rw [div_eq_mul_inv]; gcongr; norm_num
    have : (1 : ℝ) / 2 ^ 100 ≤ 0.0001 := by norm_num
    nlinarith
  have hr := abs_le.1 (hF.rnd (1 - F.pow e 2))
  rw [abs_of_neg (by linarith : 1 - F.pow e 2 < 0)] at hr
  have h4 : -(1 - F.pow e 2) / 2 ^ 53 ≤ -(1 - F.pow e 2) * 0.0001 := by rw [div_eq_mul_inv]; gcongr <;> [linarith; norm_num]
  have : (1 : ℝ) / 2 ^ 100 ≤ 0.0001 := by norm_num
  unfold sqrtF
  rw [if_pos (by nlinarith)]

/-- C109: with an eccentricity (sixth number of the ephemeris) of 1.001 or more no position is computed, in any arithmetic with the errors of binary64: where the iteration ends, the
computation ends with `ValueError`. -/
theorem C109_hyperbola (F : Flt) (hF : Accurate F) (fuel : ℕ) (l : List ℝ) (sec e : ℝ) (hl : 17 ≤ l.length) (h5 : l[5]? = some e) (he : 1.001 ≤ |e|) :
    gpsSatXyzF F fuel l sec = .ok none ∨ gpsSatXyzF F fuel l sec = .error .zeroDiv ∨ gpsSatXyzF F fuel l sec = .error .value := by
  obtain ⟨a0, l0, rfl, u0⟩ := uncons hl
  obtain ⟨a1, l1, rfl, u1⟩ := uncons u0
  obtain ⟨a2, l2, rfl, u2⟩ := uncons u1
  obtain ⟨a3, l3, rfl, u3⟩ := uncons u2
  obtain ⟨a4, l4, rfl, u4⟩ := uncons u3
  obtain ⟨a5, l5, rfl, u5⟩ := uncons u4
  obtain ⟨a6, l6, rfl, u6⟩ := uncons u5
  obtain ⟨a7, l7, rfl, u7⟩ := uncons u6
  obtain ⟨a8, l8, rfl, u8⟩ := uncons u7
  obtain ⟨a9, l9, rfl, u9⟩ := uncons u8
  obtain ⟨a10, l10, rfl, u10⟩ := uncons u9
  obtain ⟨a11, l11, rfl, u11⟩ := uncons u10
  obtain ⟨a12, l12, rfl, u12⟩ := uncons u11
  obtain ⟨a13, l13, rfl, u13⟩ := uncons u12
  obtain ⟨a14, l14, rfl, u14⟩ := uncons u13
  obtain ⟨a15, l15, rfl, u15⟩ := uncons u14
  obtain ⟨a16, l16, rfl, u16⟩ := uncons u15
  simp only [List.getElem?_cons_succ, List.getElem?_cons_zero, Option.some.injEq] at h5
  subst h5
  have hdiv : ∀ {x y : ℝ} {er}, divF F x y = .error er → er = .zeroDiv := by
    intro x y er h
    unfold divF at h
    split at h
    · cases h; rfl
    · cases h
  have hloop : ∀ (fuel : ℕ) e0 mk ek ek1 prv cur er, keplerLoopF F fuel e0 mk ek ek1 prv cur = .error er → er = .zeroDiv := by
    intro fuel
    induction fuel with
    | zero =>
      intro e0 mk ek ek1 prv cur er h
      unfold keplerLoopF at h
      split at h <;> cases h
    | succ n ih =>
      intro e0 mk ek ek1 prv cur er h
      unfold keplerLoopF at h
      split at h
      · cases h
      · simp only at h
        split at h
        · next he => cases h; exact hdiv he
        · exact ih _ _ _ _ _ _ _ h
  have hlast : ∀ tk ek a0', gpsAfterF F a1 a4 a5 a6 a0' a8 a9 a10 a11 a12 a13 a14 a15 a16 tk ek = .error .value := by
    intro tk ek a0'
    unfold gpsAfterF
    rw [hyperbola_root F hF a5 he]
  unfold gpsSatXyzF
  simp only
  split
  · next h => rw [hdiv h]; exact .inr (.inl rfl)
  · split
    · next h =>
      unfold sqrtF at h
      split at h <;> cases h
      exact .inr (.inr rfl)
    · split
      · next h => rw [hloop _ _ _ _ _ _ _ _ h]; exact .inr (.inl rfl)
      · exact .inl rfl
      · rw [hlast]; exact .inr (.inr rfl)

/-- C109: such an ephemeris gives no position, whatever the observation. -/
theorem C109_no_position (F : Flt) (hF : Accurate F) (P : Prm) (hP : Computed F P) (c : Char) (hc : c = 'G' ∨ c = 'C' ∨ c = 'E') (n : Int) (e : DateTime) (dt : Rat) (q : List Rat)
    (hq : EphemerisIs P c n e dt (q.map .fin)) (hl : 17 ≤ q.length) (x : Rat) (h5 : q[5]? = some x) (hx : 1.001 ≤ |(x : ℝ)|) : ∀ p, ¬ SatAt P c n e p := by
  rintro p ⟨dt', eph', h1, h2⟩
  obtain ⟨rfl, rfl⟩ := ephemeris_unique hq h1
  obtain ⟨fuel, h3⟩ := hP.kepler c q dt p hc h2
  rcases C109_hyperbola F hF fuel (q.map fun x : Rat => (x : ℝ)) dt x (by simpa using hl) (by rw [List.getElem?_map, h5]; rfl) hx with h | h | h <;> rw [h] at h3 <;> cases h3

/-- C109: at the reference time and with mean anomaly zero the iteration ends, and `ValueError` follows. -/
theorem C109_perigee (F : Flt) (hF : Accurate F) (hS : SignSafe F) (hs : F.sin 0 = 0) (fuel : ℕ) (iode crs dn cuc e cus sqrtA toe cic omega0 cis i0 crc w0 omegaDot iDot : ℝ) (rest : List ℝ)
    (ha : 1000 ≤ sqrtA) (he : 1.001 ≤ |e|) :
    gpsSatXyzF F (fuel + 2) (iode :: crs :: dn :: 0 :: cuc :: e :: cus :: sqrtA :: toe :: cic :: omega0 :: cis :: i0 :: crc :: w0 :: omegaDot :: iDot :: rest) toe = .error .value := by
  have h0 := hS.zero.1
  have hr : ∀ x : ℝ, 0.0001 ≤ x → x / 2 ≤ F.rnd x := by
    intro x hx
    have := abs_le.1 (hF.rnd x)
    rw [abs_of_nonneg (by linarith)] at this
    have : x / 2 ^ 53 ≤ x * 0.0001 := by rw [div_eq_mul_inv]; gcongr; norm_num
    have : (1 : ℝ) / 2 ^ 100 ≤ 0.000001 := by norm_num
    linarith
  have hnz : ∀ x : ℝ, 0.0001 ≤ |x| → F.rnd x ≠ 0 := by
    intro x hx h
    have := (rnd_abs F hF x).1
    rw [h, abs_zero] at this
    have : (1 : ℝ) / 2 ^ 100 ≤ 0.00001 := by norm_num
    have : |x| * (1 - 1 / 2 ^ 53) ≥ |x| * 0.5 := by gcongr; norm_num
    linarith
  have hpow : ∀ x : ℝ, 1 ≤ x → ∀ n, x ^ n / 2 ≤ F.pow x n := by
    intro x hx n
    have := abs_le.1 (hF.pow x n)
    rw [abs_of_nonneg (by linarith)] at this
    have h1 : 1 ≤ x ^ n := one_le_pow₀ hx
    have : x ^ n / 2 ^ 52 ≤ x ^ n * 0.0001 := by rw [div_eq_mul_inv]; gcongr; norm_num
    have : (1 : ℝ) / 2 ^ 100 ≤ 0.000001 := by norm_num
    linarith
  have hA : 1 ≤ F.pow sqrtA 2 := by
    have := hpow sqrtA (by linarith) 2
    nlinarith
  have hA3 : 0 < F.pow (F.pow sqrtA 2) 3 := by
    have := hpow _ hA 3
    have : (1 : ℝ) ≤ F.pow sqrtA 2 ^ 3 := one_le_pow₀ hA
    linarith
  have hq : ∃ w, divF F (mu F) (F.pow (F.pow sqrtA 2) 3) = .ok w ∧ 0 ≤ w := by
    have hm : 0 ≤ mu F := by
      unfold mu
      have := hr 398600.44e+9 (by norm_num)
      linarith [this, (by norm_num : (0 : ℝ) ≤ 398600.44e+9 / 2)]
    have hd := div_nonneg hm hA3.le
    refine ⟨_, by unfold divF; rw [if_neg hA3.ne'], hS.rnd _ hd⟩
  obtain ⟨w, hw, hw0⟩ := hq
  have htk : tkF F toe toe = 0 := by
    unfold tkF
    rw [sub_self, h0, if_neg (by norm_num), if_neg (by norm_num)]
  unfold gpsSatXyzF
  simp only
  rw [hw]
  simp only [sqrtF, if_neg (not_lt.2 hw0), htk, mul_zero, h0, add_zero, zero_add]
  have hc : 0.9999 ≤ |F.cos 0| := by
    have := abs_le.1 (hF.cos 0)
    rw [Real.cos_zero] at this
    have h : (1 : ℝ) / 2 ^ 52 ≤ 0.0001 := by norm_num
    rw [abs_of_nonneg (by linarith)]
    linarith
  have hden : F.rnd (1 - F.rnd (e * F.cos 0)) ≠ 0 := by
    apply hnz
    have h1 : 1.001 * 0.9999 ≤ |e * F.cos 0| := by rw [abs_mul]; gcongr
    have h2 := (rnd_abs F hF (e * F.cos 0)).1
    have h3 : |e * F.cos 0| * (1 - 1 / 2 ^ 53) ≥ 1.001 * 0.9999 * 0.9999 := by gcongr; norm_num
    have h4 : (1 : ℝ) / 2 ^ 100 ≤ 0.00001 := by norm_num
    have h5 := abs_sub_abs_le_abs_sub (F.rnd (e * F.cos 0)) 1
    rw [abs_one, abs_sub_comm] at h5
    norm_num at *
    linarith
  have h1 : F.rnd (0 - F.rnd 1) ≠ 0 := by
    apply hnz
    rw [zero_sub, abs_neg]
    have := hr 1 (by norm_num)
    rw [abs_of_nonneg (by linarith)]
    norm_num at *
    linarith
  have hloop : keplerLoopF F (fuel + 2) e 0 0 (F.rnd 1) 0 1 = .ok (some 0) := by
    unfold keplerLoopF
    rw [if_neg (by norm_num)]
    simp only [hs, mul_zero, h0, sub_zero, divF, if_neg hden, zero_div]
    unfold keplerLoopF
    rw [if_neg (by rw [abs_zero]; exact abs_ne_zero.2 h1)]
    simp only [hs, mul_zero, h0, sub_zero, divF, if_neg hden, zero_div]
    unfold keplerLoopF
    rw [if_pos rfl]
  rw [hloop]
  simp only
  unfold gpsAfterF
  rw [hyperbola_root F hF e he]

/-- binary64 meets the conditions -/
theorem C109_binary64 (fuel : ℕ) : gpsSatXyzF Flt.binary64 (fuel + 2) [1, 0, 0, 0, 0, 2, 0, 5153, 100, 0, 0, 0, 1, 0, 0, 0, 0] 100 = .error .value := by
  refine C109_perigee _ C94_example.1 signSafe_binary64 ?_ fuel _ _ _ _ _ _ _ _ _ _ _ _ _ _ _ _ _ (by norm_num) (by norm_num)
  show Verif.Py.rnd (Real.sin 0) = 0
  rw [Real.sin_zero]
  exact signSafe_binary64.zero.1

/-- a file with four observations and an ephemeris that gives `ValueError` -/
theorem C109_example : Stops (MainEx.prm false none MainEx.loadBoth fun _ _ _ => .error .value) MainEx.file ∧
    (mainLoop (MainEx.prm false none MainEx.loadBoth fun _ _ _ => .error .value) [MainEx.file] Glob.empty []).2.2.2 = some .value := by
  refine ⟨.satellite MainEx.obs [(MainEx.at_ 0 30, ⟨4, 5, 6⟩)] (MainEx.item (c% "G01") 0 0) 'G' 1 (MainEx.at_ 0 0) 432000 (MainEx.eph 0) .value ?_ ?_ rfl ?_, by decide +kernel⟩
  · refine ⟨rfl, ⟨_, .inr rfl, rfl⟩, rfl, ⟨_, .all (.inl rfl), List.mem_cons_self⟩, ⟨_, rfl, by decide +kernel⟩, rfl, .inl rfl, rfl⟩
  · exact ⟨_, _, rfl, by decide +kernel⟩
  · rintro (h | h) <;> cases h

end Verif.Props
