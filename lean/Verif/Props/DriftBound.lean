import Verif.Props.Drift
import Verif.Proofs.Drift
import Verif.Props.DoubleGlonass
/-!
# C99: how far from the motion of the ICD a computed position can be
-/
namespace Verif.Props
open Verif.Py Verif.Model.Geo Verif.Spec.Geo Verif.Proofs.Geo Verif.Proofs.Drift Verif.Model.DoubleGeo Verif.Spec Real

/-- powers of the inverse distance -/
theorem inv_pow_diff {R r d : ℝ} (hR : 2.5e7 ≤ R) (hr : 2.5e7 ≤ r) (hd : |R - r| ≤ d) :
    |1 / R ^ 3 - 1 / r ^ 3| ≤ 3 * (4e-8) ^ 4 * d ∧ |1 / R ^ 5 - 1 / r ^ 5| ≤ 5 * (4e-8) ^ 6 * d ∧ |1 / R ^ 7 - 1 / r ^ 7| ≤ 7 * (4e-8) ^ 8 * d := by
  have R0 : 0 < R := lt_of_lt_of_le (by norm_num) hR
  have r0 : 0 < r := lt_of_lt_of_le (by norm_num) hr
  have ha : 1 / R ≤ 4e-8 := by
    rw [div_le_iff₀ R0]; norm_num at hR ⊢; linarith
  have hb : 1 / r ≤ 4e-8 := by
    rw [div_le_iff₀ r0]; norm_num at hr ⊢; linarith
  have ha0 : 0 ≤ 1 / R := by positivity
  have hb0 : 0 ≤ 1 / r := by positivity
  have hdiff : |1 / R - 1 / r| ≤ (4e-8) ^ 2 * d := by
    have e : 1 / R - 1 / r = (1 / R) * (1 / r) * (r - R) := by field_simp
    rw [e, abs_mul, abs_sub_comm, abs_of_nonneg (mul_nonneg ha0 hb0), pow_two]
    exact mul_le_mul (mul_le_mul ha hb hb0 (by norm_num)) hd (abs_nonneg _) (by norm_num)
  have key : ∀ n : ℕ, ∀ a b M δ : ℝ, 0 ≤ a → a ≤ M → 0 ≤ b → b ≤ M → |a - b| ≤ δ → |a ^ n - b ^ n| ≤ n * M ^ (n - 1) * δ := by
    intro n
    induction n with
    | zero => intro a b M δ h1 h2 h3 h4 h5; simp
    | succ n ih =>
      intro a b M δ h1 h2 h3 h4 h5
      have hM : 0 ≤ M := h1.trans h2
      have hδ : 0 ≤ δ := (abs_nonneg _).trans h5
      have e : a ^ (n + 1) - b ^ (n + 1) = a * (a ^ n - b ^ n) + (a - b) * b ^ n := by ring
      rw [e]
      refine (abs_add_le _ _).trans ?_
      rw [abs_mul, abs_mul, abs_of_nonneg h1, abs_of_nonneg (pow_nonneg h3 n)]
      have i1 := ih a b M δ h1 h2 h3 h4 h5
      have i2 : a * |a ^ n - b ^ n| ≤ M * (n * M ^ (n - 1) * δ) := mul_le_mul h2 i1 (abs_nonneg _) hM
      have i3 : |a - b| * b ^ n ≤ δ * M ^ n := mul_le_mul h5 (pow_le_pow_left₀ h3 h4 n) (pow_nonneg h3 n) hδ
      have i4 : M * (n * M ^ (n - 1) * δ) = n * M ^ n * δ := by
        cases n with
        | zero => simp
        | succ k => simp only [Nat.add_sub_cancel]; ring
      push_cast
      linarith
  have k3 := key 3 _ _ _ _ ha0 ha hb0 hb hdiff
  have k5 := key 5 _ _ _ _ ha0 ha hb0 hb hdiff
  have k7 := key 7 _ _ _ _ ha0 ha hb0 hb hdiff
  simp only [one_div_pow] at k3 k5 k7
  refine ⟨k3.trans (le_of_eq ?_), k5.trans (le_of_eq ?_), k7.trans (le_of_eq ?_)⟩ <;> (push_cast; ring)

/-- the change of the attraction with the distance alone -/
theorem attraction_diff {mu s k R r x z t : ℝ} (hmu : 0 ≤ mu ∧ mu ≤ 3.987e14) (hs : 0 ≤ s ∧ s ≤ 2.64e25) (hk : 0 ≤ k ∧ k ≤ 3) (hR : 2.5e7 ≤ R) (hr : 2.5e7 ≤ r) (hd : |R - r| ≤ 20 * |t|)
    (hx : |x| ≤ 2.6e7) (hz : |z| ≤ 2.6e7) :
    |(-mu / R ^ 3 * x - s / R ^ 5 * x * (k - 5 * z ^ 2 / R ^ 2)) - (-mu / r ^ 3 * x - s / r ^ 5 * x * (k - 5 * z ^ 2 / r ^ 2))| ≤ 1.62e-6 * |t| := by
  have R0 : 0 < R := lt_of_lt_of_le (by norm_num) hR
  have r0 : 0 < r := lt_of_lt_of_le (by norm_num) hr
  obtain ⟨h3, h5, h7⟩ := inv_pow_diff hR hr hd
  have e : (-mu / R ^ 3 * x - s / R ^ 5 * x * (k - 5 * z ^ 2 / R ^ 2)) - (-mu / r ^ 3 * x - s / r ^ 5 * x * (k - 5 * z ^ 2 / r ^ 2)) =
      -(mu * (1 / R ^ 3 - 1 / r ^ 3) * x) + -(s * k * (1 / R ^ 5 - 1 / r ^ 5) * x) + 5 * s * (1 / R ^ 7 - 1 / r ^ 7) * (x * (z * z)) := by
    field_simp
    ring
  have t0 := abs_nonneg t
  have a3 : |mu * (1 / R ^ 3 - 1 / r ^ 3) * x| ≤ 3.987e14 * (3 * (4e-8) ^ 4 * (20 * |t|)) * 2.6e7 := by
    rw [abs_mul, abs_mul, abs_of_nonneg hmu.1]
    exact mul_le_mul (mul_le_mul hmu.2 h3 (abs_nonneg _) (by norm_num)) hx (abs_nonneg _) (by positivity)
  have a5 : |s * k * (1 / R ^ 5 - 1 / r ^ 5) * x| ≤ 2.64e25 * 3 * (5 * (4e-8) ^ 6 * (20 * |t|)) * 2.6e7 := by
    rw [abs_mul, abs_mul, abs_of_nonneg (mul_nonneg hs.1 hk.1)]
    exact mul_le_mul (mul_le_mul (mul_le_mul hs.2 hk.2 hk.1 (by norm_num)) h5 (abs_nonneg _) (by norm_num)) hx (abs_nonneg _) (by positivity)
  have a7 : |5 * s * (1 / R ^ 7 - 1 / r ^ 7) * (x * (z * z))| ≤ 5 * 2.64e25 * (7 * (4e-8) ^ 8 * (20 * |t|)) * (2.6e7 * (2.6e7 * 2.6e7)) := by
    rw [abs_mul, abs_mul, abs_mul x, abs_mul z, abs_of_nonneg (mul_nonneg (by norm_num : (0:ℝ) ≤ 5) hs.1)]
    refine mul_le_mul (mul_le_mul (mul_le_mul_of_nonneg_left hs.2 (by norm_num)) h7 (abs_nonneg _) (by norm_num)) ?_ (by positivity) (by positivity)
    exact mul_le_mul hx (mul_le_mul hz hz (abs_nonneg _) (by norm_num)) (by positivity) (by norm_num)
  rw [e]
  refine (abs_add_le _ _).trans ?_
  refine (add_le_add_left (abs_add_le _ _) _).trans ?_
  rw [abs_neg, abs_neg]
  refine (add_le_add (add_le_add a3 a5) a7).trans ?_
  norm_num only
  linarith

/-- C69: the position computed is exactly one step of the Nyström method for the acceleration with distance and velocity kept. -/
theorem C69_step (p v w : Vec) (health freq : ℝ) (rest : List ℝ) (hp : p ≠ (0, 0, 0)) (dt : ℝ) :
    glonassSatXyz (broadcastLayout p v w health freq ++ rest) dt =
      .ok (nystromStep (frozenAcc earthMu iccRadius iccJ2 earthOmega (len (scale 1000 p)) (scale 1000 v) (scale 1000 w)) (scale 1000 p) (scale 1000 v) dt) := by
  have hr := len_pos hp
  obtain ⟨px, py, pz⟩ := p
  obtain ⟨vx, vy, vz⟩ := v
  obtain ⟨wx, wy, wz⟩ := w
  have hlen : √((px * 1000) ^ 2 + (py * 1000) ^ 2 + (pz * 1000) ^ 2) = len (scale 1000 (px, py, pz)) := by
    unfold len dot scale; simp only; congr 1; ring
  have m1 : earthMu = datumMu := by unfold datumMu earthMu; norm_num
  have m2 : iccRadius = datumAe := rfl
  have m3 : iccJ2 = datumJ0sqd := by unfold iccJ2 datumJ0sqd; norm_num
  have m4 : earthOmega = datumOmega := rfl
  rw [m1, m2, m3, m4]
  have ep : scale 1000 (px, py, pz) = (px * 1000, py * 1000, pz * 1000) := by unfold scale; simp only [mul_comm]
  have ev : scale 1000 (vx, vy, vz) = (vx * 1000, vy * 1000, vz * 1000) := by unfold scale; simp only [mul_comm]
  have ew : scale 1000 (wx, wy, wz) = (wx * 1000, wy * 1000, wz * 1000) := by unfold scale; simp only [mul_comm]
  generalize hrdef : len (scale 1000 (px, py, pz)) = r at *
  rw [ep, ev, ew]
  simp only [broadcastLayout, List.cons_append, List.nil_append, glonassSatXyz]
  by_cases hdt : dt = 0
  · rw [if_pos hdt, hdt]
    simp [nystromStep, add, scale]
  · rw [if_neg hdt, pySqrt_ok _ (by positivity), hlen]
    simp only
    rw [pyDiv_ok _ _ (by positivity)]
    simp only
    rw [pyDiv_ok _ _ (by positivity)]
    have eq1 : -datumMu / r ^ 3 = -(datumMu / r ^ 3) := by ring
    have fF := frozen_force datumMu datumAe datumJ0sqd datumOmega r (vx * 1000, vy * 1000, vz * 1000) (wx * 1000, wy * 1000, wz * 1000)
    rw [eq1] at fF
    generalize frozenAcc datumMu datumAe datumJ0sqd datumOmega r (vx * 1000, vy * 1000, vz * 1000) (wx * 1000, wy * 1000, wz * 1000) = A at fF ⊢
    simp only [nystromStep, add, scale, halfway, (fF _).1, (fF _).2.1, (fF _).2.2]
    generalize datumMu / r ^ 3 = q
    generalize 3 / 2 * datumJ0sqd * datumMu * datumAe ^ 2 / r ^ 5 = s
    have fx : ∀ x z : ℝ, -q * x - s * x * (1 - 5 * z ^ 2 / r ^ 2) + datumOmega ^ 2 * x + 2 * datumOmega * (vy * 1000) + wx * 1000 =
        force (-q - s + datumOmega ^ 2) (s * 5 / r ^ 2) (2 * datumOmega * (vy * 1000) + wx * 1000) x z := by
      intro x z; unfold force; ring
    have fy : ∀ x z : ℝ, -q * x - s * x * (1 - 5 * z ^ 2 / r ^ 2) + datumOmega ^ 2 * x - 2 * datumOmega * (vx * 1000) + wy * 1000 =
        force (-q - s + datumOmega ^ 2) (s * 5 / r ^ 2) (-2 * datumOmega * (vx * 1000) + wy * 1000) x z := by
      intro x z; unfold force; ring
    have fz : ∀ z : ℝ, -q * z - s * z * (3 - 5 * z ^ 2 / r ^ 2) + wz * 1000 = force (-q - s * 3) (s * 5 / r ^ 2) (wz * 1000) z z := by
      intro z; unfold force; ring
    have hw : ∀ x u k : ℝ, x + u * dt / 2 + k * dt * dt / 8 = x + dt / 2 * u + dt ^ 2 / 8 * k := fun x u k => by ring
    have he : ∀ x u k l m : ℝ, x + u * dt + (k * dt + l * dt + m * dt) * dt / 6 = x + dt * u + dt ^ 2 / 6 * (k + l + m) := fun x u k l m => by ring
    simp only [fx, fy, fz, hw, he]

theorem coord_le_len (u : Vec) : |u.1| ≤ len u ∧ |u.2.1| ≤ len u ∧ |u.2.2| ≤ len u := by
  have key : ∀ x : ℝ, x ^ 2 ≤ dot u u → |x| ≤ len u := fun x hx => Real.abs_le_sqrt hx
  refine ⟨key _ ?_, key _ ?_, key _ ?_⟩
  all_goals (unfold dot; nlinarith [sq_nonneg u.1, sq_nonneg u.2.1, sq_nonneg u.2.2])

/-- the second zonal term of the attraction -/
noncomputable abbrev zonal : ℝ := 3 / 2 * iccJ2 * earthMu * iccRadius ^ 2

theorem zonal_bound : 0 ≤ zonal ∧ zonal ≤ 2.64e25 := by
  unfold zonal iccJ2 earthMu iccRadius; constructor <;> norm_num

theorem rates_bound {r : ℝ} (h1 : 2.5e7 ≤ r) :
    |-earthMu / r ^ 3 - zonal / r ^ 5 + earthOmega ^ 2| ≤ 2.56e-8 ∧ |-earthMu / r ^ 3 - zonal / r ^ 5 * 3| ≤ 2.56e-8 ∧ |zonal / r ^ 5 * 5 / r ^ 2| ≤ 2.2e-26 := by
  have r0 : 0 < r := lt_of_lt_of_le (by norm_num) h1
  have hi : 1 / r ≤ 4e-8 := by rw [div_le_iff₀ r0]; norm_num at h1 ⊢; linarith
  have hi0 : 0 ≤ 1 / r := by positivity
  have p3 := pow_le_pow_left₀ hi0 hi 3
  have p5 := pow_le_pow_left₀ hi0 hi 5
  have p7 := pow_le_pow_left₀ hi0 hi 7
  obtain ⟨z0, z1⟩ := zonal_bound
  have e3 : earthMu / r ^ 3 = earthMu * (1 / r) ^ 3 := by field_simp
  have e5 : zonal / r ^ 5 = zonal * (1 / r) ^ 5 := by field_simp
  have e7 : zonal / r ^ 5 * 5 / r ^ 2 = 5 * (zonal * (1 / r) ^ 7) := by field_simp
  have b3 : earthMu * (1 / r) ^ 3 ≤ 3.987e14 * (4e-8) ^ 3 := mul_le_mul (by unfold earthMu; norm_num) p3 (by positivity) (by norm_num)
  have b5 : zonal * (1 / r) ^ 5 ≤ 2.64e25 * (4e-8) ^ 5 := mul_le_mul z1 p5 (by positivity) (by norm_num)
  have b7 : zonal * (1 / r) ^ 7 ≤ 2.64e25 * (4e-8) ^ 7 := mul_le_mul z1 p7 (by positivity) (by norm_num)
  have n3 : 0 ≤ earthMu * (1 / r) ^ 3 := mul_nonneg (by unfold earthMu; norm_num) (by positivity)
  have n5 : 0 ≤ zonal * (1 / r) ^ 5 := by positivity
  have n7 : 0 ≤ zonal * (1 / r) ^ 7 := by positivity
  rw [neg_div, e7, e3, e5]
  have ho : earthOmega ^ 2 ≤ 6e-9 := by unfold earthOmega; norm_num
  have ho0 := sq_nonneg earthOmega
  norm_num only at b3 b5 b7 ho
  refine ⟨?_, ?_, ?_⟩
  all_goals
    rw [abs_le]
    constructor <;> (norm_num only; linarith)

theorem acceleration_x {R r : ℝ} (hR : 2.5e7 ≤ R) (hr : 2.5e7 ≤ r) (v v0 w p p0 : Vec) {t : ℝ} (hd : |R - r| ≤ 20 * |t|) (hx : |p.1| ≤ 2.6e7) (hz : |p.2.2| ≤ 2.6e7) :
    |(frozenAcc earthMu iccRadius iccJ2 earthOmega R v w p).1 - (frozenAcc earthMu iccRadius iccJ2 earthOmega r v0 w p0).1 -
      ((-earthMu / r ^ 3 - zonal / r ^ 5 + earthOmega ^ 2) * (p.1 - p0.1) + zonal / r ^ 5 * 5 / r ^ 2 * (p.1 * p.2.2 ^ 2 - p0.1 * p0.2.2 ^ 2) + 2 * earthOmega * (v.2.1 - v0.2.1))| ≤ 1.62e-6 * |t| := by
  have := attraction_diff (mu := earthMu) (k := 1) (by unfold earthMu; constructor <;> norm_num) zonal_bound (by constructor <;> norm_num) hR hr hd hx hz
  refine le_trans (le_of_eq ?_) this
  congr 1
  unfold frozenAcc
  simp only
  ring

theorem acceleration_y {R r : ℝ} (hR : 2.5e7 ≤ R) (hr : 2.5e7 ≤ r) (v v0 w p p0 : Vec) {t : ℝ} (hd : |R - r| ≤ 20 * |t|) (hx : |p.2.1| ≤ 2.6e7) (hz : |p.2.2| ≤ 2.6e7) :
    |(frozenAcc earthMu iccRadius iccJ2 earthOmega R v w p).2.1 - (frozenAcc earthMu iccRadius iccJ2 earthOmega r v0 w p0).2.1 -
      ((-earthMu / r ^ 3 - zonal / r ^ 5 + earthOmega ^ 2) * (p.2.1 - p0.2.1) + zonal / r ^ 5 * 5 / r ^ 2 * (p.2.1 * p.2.2 ^ 2 - p0.2.1 * p0.2.2 ^ 2) +
        -2 * earthOmega * (v.1 - v0.1))| ≤ 1.62e-6 * |t| := by
  have := attraction_diff (mu := earthMu) (k := 1) (by unfold earthMu; constructor <;> norm_num) zonal_bound (by constructor <;> norm_num) hR hr hd hx hz
  refine le_trans (le_of_eq ?_) this
  congr 1
  unfold frozenAcc
  simp only
  ring

theorem acceleration_z {R r : ℝ} (hR : 2.5e7 ≤ R) (hr : 2.5e7 ≤ r) (v v0 w p p0 : Vec) {t : ℝ} (hd : |R - r| ≤ 20 * |t|) (hz : |p.2.2| ≤ 2.6e7) (u : ℝ) :
    |(frozenAcc earthMu iccRadius iccJ2 earthOmega R v w p).2.2 - (frozenAcc earthMu iccRadius iccJ2 earthOmega r v0 w p0).2.2 -
      ((-earthMu / r ^ 3 - zonal / r ^ 5 * 3) * (p.2.2 - p0.2.2) + zonal / r ^ 5 * 5 / r ^ 2 * (p.2.2 * p.2.2 ^ 2 - p0.2.2 * p0.2.2 ^ 2) + 0 * u)| ≤ 1.62e-6 * |t| := by
  have := attraction_diff (mu := earthMu) (k := 3) (by unfold earthMu; constructor <;> norm_num) zonal_bound (by constructor <;> norm_num) hR hr hd hz hz
  refine le_trans (le_of_eq ?_) this
  congr 1
  unfold frozenAcc
  simp only
  ring

/-- the three coordinates of the motion -/
theorem motion15 {w : Vec} {Q V : ℝ → Vec} (h : GlonassMotion w Q V) :
    let r := len (Q 0)
    let a := fun t => acceleration earthMu iccRadius iccJ2 earthOmega (Q t) (V t) w
    Coord15 (-earthMu / r ^ 3 - zonal / r ^ 5 + earthOmega ^ 2) (zonal / r ^ 5 * 5 / r ^ 2) (2 * earthOmega) (fun t => (Q t).1) (fun t => (V t).1) (fun t => (a t).1) (fun t => (Q t).2.2)
      (fun t => (V t).2.1) (fun t => (a t).2.1) ∧
    Coord15 (-earthMu / r ^ 3 - zonal / r ^ 5 + earthOmega ^ 2) (zonal / r ^ 5 * 5 / r ^ 2) (-2 * earthOmega) (fun t => (Q t).2.1) (fun t => (V t).2.1) (fun t => (a t).2.1) (fun t => (Q t).2.2)
      (fun t => (V t).1) (fun t => (a t).1) ∧
    Coord15 (-earthMu / r ^ 3 - zonal / r ^ 5 * 3) (zonal / r ^ 5 * 5 / r ^ 2) 0 (fun t => (Q t).2.2) (fun t => (V t).2.2) (fun t => (a t).2.2) (fun t => (Q t).2.2)
      (fun t => (V t).1) (fun t => (a t).1) := by
  intro r a
  have z0 : |(0:ℝ)| ≤ 900 := by norm_num
  have hr := h.distance 0 z0
  obtain ⟨b1, b2, b3⟩ := rates_bound hr.1
  have q : ∀ t, |t| ≤ 900 → |(Q t).1| ≤ 2.6e7 ∧ |(Q t).2.1| ≤ 2.6e7 ∧ |(Q t).2.2| ≤ 2.6e7 := fun t ht =>
    ⟨(coord_le_len _).1.trans (h.distance t ht).2, (coord_le_len _).2.1.trans (h.distance t ht).2, (coord_le_len _).2.2.trans (h.distance t ht).2⟩
  have dx : ∀ t, |t| ≤ 900 → HasDerivAt (fun t => (Q t).1) (V t).1 t := fun t ht => (h.moves t ht).1.fst
  have dy : ∀ t, |t| ≤ 900 → HasDerivAt (fun t => (Q t).2.1) (V t).2.1 t := fun t ht => (h.moves t ht).1.snd.fst
  have dz : ∀ t, |t| ≤ 900 → HasDerivAt (fun t => (Q t).2.2) (V t).2.2 t := fun t ht => (h.moves t ht).1.snd.snd
  have vx : ∀ t, |t| ≤ 900 → HasDerivAt (fun t => (V t).1) (a t).1 t := fun t ht => (h.moves t ht).2.fst
  have vy : ∀ t, |t| ≤ 900 → HasDerivAt (fun t => (V t).2.1) (a t).2.1 t := fun t ht => (h.moves t ht).2.snd.fst
  have vz : ∀ t, |t| ≤ 900 → HasDerivAt (fun t => (V t).2.2) (a t).2.2 t := fun t ht => (h.moves t ht).2.snd.snd
  have sx : ∀ t, |t| ≤ 900 → |(a t).1| ≤ 0.8 := fun t ht => (h.strength t ht).1
  have sy : ∀ t, |t| ≤ 900 → |(a t).2.1| ≤ 0.8 := fun t ht => (h.strength t ht).2.1
  have sz : ∀ t, |t| ≤ 900 → |(a t).2.2| ≤ 0.8 := fun t ht => (h.strength t ht).2.2
  have wz : ∀ t, |t| ≤ 900 → |(Q t).2.2 - (Q 0).2.2| ≤ 4360 * |t| := fun t ht => way ht h.velocity.2.2 ((fence_const dz vz sz).2 t ht)
  have k1 : |2 * earthOmega| ≤ 1.4585e-4 := by unfold earthOmega; norm_num
  have k2 : |-2 * earthOmega| ≤ 1.4585e-4 := by rw [neg_mul, abs_neg]; exact k1
  refine ⟨⟨b1, b3, k1, dx, vx, vy, sx, sy, fun t ht => (q t ht).1, fun t ht => (q t ht).2.2, h.velocity.1, wz, fun t ht => ?_⟩,
    ⟨b1, b3, k2, dy, vy, vx, sy, sx, fun t ht => (q t ht).2.1, fun t ht => (q t ht).2.2, h.velocity.2.1, wz, fun t ht => ?_⟩,
    ⟨b2, b3, by norm_num, dz, vz, vx, sz, sx, fun t ht => (q t ht).2.2, fun t ht => (q t ht).2.2, h.velocity.2.2, wz, fun t ht => ?_⟩⟩
  · exact acceleration_x (h.distance t ht).1 hr.1 (V t) (V 0) w (Q t) (Q 0) (h.radial t ht) (q t ht).1 (q t ht).2.2
  · exact acceleration_y (h.distance t ht).1 hr.1 (V t) (V 0) w (Q t) (Q 0) (h.radial t ht) (q t ht).2.1 (q t ht).2.2
  · exact acceleration_z (h.distance t ht).1 hr.1 (V t) (V 0) w (Q t) (Q 0) (h.radial t ht) (q t ht).2.2 _

/-- one step of the integration against the motion -/
theorem drift_step {w : Vec} {Q V : ℝ → Vec} (h : GlonassMotion w Q V) {t : ℝ} (ht : |t| ≤ 900) :
    let a := acceleration earthMu iccRadius iccJ2 earthOmega (Q 0) (V 0) w
    let s := nystromStep (frozenAcc earthMu iccRadius iccJ2 earthOmega (len (Q 0)) (V 0) w) (Q 0) (V 0) t
    |(Q t).1 - s.1 - earthOmega * a.2.1 * t ^ 3 / 3| ≤ 2500 * (|t| / 900) ^ 3 ∧ |(Q t).2.1 - s.2.1 + earthOmega * a.1 * t ^ 3 / 3| ≤ 2500 * (|t| / 900) ^ 3 ∧
      |(Q t).2.2 - s.2.2| ≤ 2500 * (|t| / 900) ^ 3 := by
  intro a s
  obtain ⟨cx, cy, cz⟩ := motion15 h
  have z0 : |(0:ℝ)| ≤ 900 := by norm_num
  have fF := frozen_force earthMu iccRadius iccJ2 earthOmega (len (Q 0)) (V 0) w
  have a0 : a = frozenAcc earthMu iccRadius iccJ2 earthOmega (len (Q 0)) (V 0) w (Q 0) := rfl
  generalize hA : frozenAcc earthMu iccRadius iccJ2 earthOmega (len (Q 0)) (V 0) w = A at fF a0
  have hs : s = nystromStep A (Q 0) (V 0) t := by rw [← hA]
  have sx : |(A (Q 0)).1| ≤ 0.8 := by rw [← a0]; exact (h.strength 0 z0).1
  have sy : |(A (Q 0)).2.1| ≤ 0.8 := by rw [← a0]; exact (h.strength 0 z0).2.1
  have sz : |(A (Q 0)).2.2| ≤ 0.8 := by rw [← a0]; exact (h.strength 0 z0).2.2
  set p1 := halfway (Q 0) (V 0) (A (Q 0)) t with hp1
  set p2 := halfway (Q 0) (V 0) (A p1) t with hp2
  have e1x : p1.1 = (Q 0).1 + (V 0).1 * t / 2 + (A (Q 0)).1 * t * t / 8 := by rw [hp1]; simp only [halfway, add, scale]; ring
  have e1y : p1.2.1 = (Q 0).2.1 + (V 0).2.1 * t / 2 + (A (Q 0)).2.1 * t * t / 8 := by rw [hp1]; simp only [halfway, add, scale]; ring
  have e1z : p1.2.2 = (Q 0).2.2 + (V 0).2.2 * t / 2 + (A (Q 0)).2.2 * t * t / 8 := by rw [hp1]; simp only [halfway, add, scale]; ring
  have e2x : p2.1 = (Q 0).1 + (V 0).1 * t / 2 + (A p1).1 * t * t / 8 := by rw [hp2]; simp only [halfway, add, scale]; ring
  have e2y : p2.2.1 = (Q 0).2.1 + (V 0).2.1 * t / 2 + (A p1).2.1 * t * t / 8 := by rw [hp2]; simp only [halfway, add, scale]; ring
  have e2z : p2.2.2 = (Q 0).2.2 + (V 0).2.2 * t / 2 + (A p1).2.2 * t * t / 8 := by rw [hp2]; simp only [halfway, add, scale]; ring
  have up : ∀ {k : ℝ}, |k| ≤ 0.8 → |k| ≤ 0.85 := fun hk => hk.trans (by norm_num)
  have w1x : |p1.1 - (Q 0).1| ≤ 2100 * |t| := by rw [e1x]; exact half_way ht h.velocity.1 (up sx)
  have w1y : |p1.2.1 - (Q 0).2.1| ≤ 2100 * |t| := by rw [e1y]; exact half_way ht h.velocity.2.1 (up sy)
  have w1z : |p1.2.2 - (Q 0).2.2| ≤ 2100 * |t| := by rw [e1z]; exact half_way ht h.velocity.2.2 (up sz)
  have fx : ∀ u : Vec, (A u).1 - (A (Q 0)).1 = (-earthMu / len (Q 0) ^ 3 - zonal / len (Q 0) ^ 5 + earthOmega ^ 2) * (u.1 - (Q 0).1) +
      zonal / len (Q 0) ^ 5 * 5 / len (Q 0) ^ 2 * (u.1 * u.2.2 ^ 2 - (Q 0).1 * (Q 0).2.2 ^ 2) := by
    intro u; rw [(fF u).1, (fF (Q 0)).1]; unfold force; ring
  have fy : ∀ u : Vec, (A u).2.1 - (A (Q 0)).2.1 = (-earthMu / len (Q 0) ^ 3 - zonal / len (Q 0) ^ 5 + earthOmega ^ 2) * (u.2.1 - (Q 0).2.1) +
      zonal / len (Q 0) ^ 5 * 5 / len (Q 0) ^ 2 * (u.2.1 * u.2.2 ^ 2 - (Q 0).2.1 * (Q 0).2.2 ^ 2) := by
    intro u; rw [(fF u).2.1, (fF (Q 0)).2.1]; unfold force; ring
  have fz : ∀ u : Vec, (A u).2.2 - (A (Q 0)).2.2 = (-earthMu / len (Q 0) ^ 3 - zonal / len (Q 0) ^ 5 * 3) * (u.2.2 - (Q 0).2.2) +
      zonal / len (Q 0) ^ 5 * 5 / len (Q 0) ^ 2 * (u.2.2 * u.2.2 ^ 2 - (Q 0).2.2 * (Q 0).2.2 ^ 2) := by
    intro u; rw [(fF u).2.2, (fF (Q 0)).2.2]; unfold force; ring
  have k2 : ∀ {k l : ℝ}, |l| ≤ 0.8 → |k - l| ≤ 0.05 → |k| ≤ 0.85 := by
    intro k l h1 h2
    have := abs_add_le (k - l) l
    rw [sub_add_cancel] at this
    norm_num at h1 h2 ⊢
    linarith
  have kx2 : |(A p1).1| ≤ 0.85 := k2 sx (by rw [fx]; exact (force_half cx.hα cx.hβ ht (cx.ax 0 z0) (cx.az 0 z0) w1x w1z).2)
  have ky2 : |(A p1).2.1| ≤ 0.85 := k2 sy (by rw [fy]; exact (force_half cy.hα cy.hβ ht (cy.ax 0 z0) (cy.az 0 z0) w1y w1z).2)
  have kz2 : |(A p1).2.2| ≤ 0.85 := k2 sz (by rw [fz]; exact (force_half cz.hα cz.hβ ht (cz.ax 0 z0) (cz.az 0 z0) w1z w1z).2)
  have w2x : |p2.1 - (Q 0).1| ≤ 2100 * |t| := by rw [e2x]; exact half_way ht h.velocity.1 kx2
  have w2y : |p2.2.1 - (Q 0).2.1| ≤ 2100 * |t| := by rw [e2y]; exact half_way ht h.velocity.2.1 ky2
  have w2z : |p2.2.2 - (Q 0).2.2| ≤ 2100 * |t| := by rw [e2z]; exact half_way ht h.velocity.2.2 kz2
  have px := step_cubic cx.hα cx.hβ ht (cx.ax 0 z0) (cx.az 0 z0) sx kx2 e1x e2x w1x w1z w2x w2z (fx p1) (fx p2)
  have py := step_cubic cy.hα cy.hβ ht (cy.ax 0 z0) (cy.az 0 z0) sy ky2 e1y e2y w1y w1z w2y w2z (fy p1) (fy p2)
  have pz := step_cubic cz.hα cz.hβ ht (cz.ax 0 z0) (cz.az 0 z0) sz kz2 e1z e2z w1z w1z w2z w2z (fz p1) (fz p2)
  have sx' : s.1 = (Q 0).1 + (V 0).1 * t + ((A (Q 0)).1 * t + (A p1).1 * t + (A p2).1 * t) * t / 6 := by rw [hs]; simp only [nystromStep, add, scale]; ring
  have sy' : s.2.1 = (Q 0).2.1 + (V 0).2.1 * t + ((A (Q 0)).2.1 * t + (A p1).2.1 * t + (A p2).2.1 * t) * t / 6 := by rw [hs]; simp only [nystromStep, add, scale]; ring
  have sz' : s.2.2 = (Q 0).2.2 + (V 0).2.2 * t + ((A (Q 0)).2.2 * t + (A p1).2.2 * t + (A p2).2.2 * t) * t / 6 := by rw [hs]; simp only [nystromStep, add, scale]; ring
  rw [← sx'] at px
  rw [← sy'] at py
  rw [← sz'] at pz
  rw [← a0] at px py pz
  have dx := cx.drift cy.jerk ht px
  have dy := cy.drift cx.jerk ht py
  have dz := cz.drift cx.jerk ht pz
  refine ⟨le_trans (le_of_eq ?_) dx, le_trans (le_of_eq ?_) dy, le_trans (le_of_eq ?_) dz⟩
  · congr 1
    show _ = (Q t).1 - s.1 - 2 * earthOmega * a.2.1 * t ^ 3 / 6
    ring
  · congr 1
    show _ = (Q t).2.1 - s.2.1 - -2 * earthOmega * a.1 * t ^ 3 / 6
    ring
  · congr 1
    show _ = (Q t).2.2 - s.2.2 - 0 * _ * t ^ 3 / 6
    ring

/-- C99: for a GLONASS satellite and a time within 15 minutes of its message, what the computed position misses of the motion of the ICD is the third-order effect of the rotation of the earth,
up to 2.5 km at 15 minutes and less, like the cube of the time, before. -/
theorem C99_bound (p v w : Vec) (health freq : ℝ) (rest : List ℝ) (Q V : ℝ → Vec) (h : GlonassMotion (scale 1000 w) Q V) (hQ : Q 0 = scale 1000 p) (hV : V 0 = scale 1000 v) (dt : ℝ)
    (ht : |dt| ≤ 900) :
    ∃ s, glonassSatXyz (broadcastLayout p v w health freq ++ rest) dt = .ok s ∧
      let a := acceleration earthMu iccRadius iccJ2 earthOmega (Q 0) (V 0) (scale 1000 w)
      |(Q dt).1 - s.1 - earthOmega * a.2.1 * dt ^ 3 / 3| ≤ 2500 * (|dt| / 900) ^ 3 ∧ |(Q dt).2.1 - s.2.1 + earthOmega * a.1 * dt ^ 3 / 3| ≤ 2500 * (|dt| / 900) ^ 3 ∧
        |(Q dt).2.2 - s.2.2| ≤ 2500 * (|dt| / 900) ^ 3 := by
  have hp : p ≠ (0, 0, 0) := by
    rintro rfl
    have := (h.distance 0 (by norm_num)).1
    rw [hQ] at this
    simp [scale, len, dot] at this
    norm_num at this
  refine ⟨_, C69_step p v w health freq rest hp dt, ?_⟩
  have := drift_step h ht
  rw [hQ, hV] at this
  rw [hQ, hV]
  exact this

/-- C99: so every coordinate is within 17 km of that motion, the third within 2.5 km. -/
theorem C99_within (p v w : Vec) (health freq : ℝ) (rest : List ℝ) (Q V : ℝ → Vec) (h : GlonassMotion (scale 1000 w) Q V) (hQ : Q 0 = scale 1000 p) (hV : V 0 = scale 1000 v) (dt : ℝ)
    (ht : |dt| ≤ 900) :
    ∃ s, glonassSatXyz (broadcastLayout p v w health freq ++ rest) dt = .ok s ∧ |(Q dt).1 - s.1| ≤ 17000 * (|dt| / 900) ^ 3 ∧ |(Q dt).2.1 - s.2.1| ≤ 17000 * (|dt| / 900) ^ 3 ∧
      |(Q dt).2.2 - s.2.2| ≤ 2500 * (|dt| / 900) ^ 3 := by
  obtain ⟨s, hs, h1, h2, h3⟩ := C99_bound p v w health freq rest Q V h hQ hV dt ht
  obtain ⟨b1, b2, -⟩ := h.strength 0 (by norm_num)
  refine ⟨s, hs, ?_, ?_, h3⟩
  all_goals
    have key : ∀ b : ℝ, |b| ≤ 0.8 → |earthOmega * b * dt ^ 3 / 3| ≤ 14200 * (|dt| / 900) ^ 3 := by
      intro b hb
      rw [abs_div, abs_mul, abs_mul, abs_pow, abs_of_pos (by norm_num : (0:ℝ) < 3), div_pow]
      have t3 : 0 ≤ |dt| ^ 3 := by positivity
      have ho : |earthOmega| ≤ 7.2922e-5 := by unfold earthOmega; norm_num
      have h1 := mul_le_mul_of_nonneg_right (mul_le_mul ho hb (abs_nonneg _) (by norm_num)) t3
      norm_num only at h1 ⊢
      linarith
  · have k := key _ b2
    rw [abs_le] at h1 k ⊢
    constructor <;> linarith [h1.1, h1.2, k.1, k.2]
  · have k := key _ b1
    rw [abs_le] at h2 k ⊢
    constructor <;> linarith [h2.1, h2.2, k.1, k.2]

/-- C99: and the error is not smaller than that effect: 15 minutes from the message, a satellite accelerated along the first axis by `b` m/s² is `17.7 * b - 2.5` km from the computed position
along the second (6 km for one that crosses the equator on the first axis). -/
theorem C99_far (p v w : Vec) (health freq : ℝ) (rest : List ℝ) (Q V : ℝ → Vec) (h : GlonassMotion (scale 1000 w) Q V) (hQ : Q 0 = scale 1000 p) (hV : V 0 = scale 1000 v) (dt : ℝ)
    (ht : |dt| ≤ 900) :
    ∃ s, glonassSatXyz (broadcastLayout p v w health freq ++ rest) dt = .ok s ∧
      (17700 * |(acceleration earthMu iccRadius iccJ2 earthOmega (Q 0) (V 0) (scale 1000 w)).1| - 2500) * (|dt| / 900) ^ 3 ≤ |(Q dt).2.1 - s.2.1| ∧
      (17700 * |(acceleration earthMu iccRadius iccJ2 earthOmega (Q 0) (V 0) (scale 1000 w)).2.1| - 2500) * (|dt| / 900) ^ 3 ≤ |(Q dt).1 - s.1| := by
  obtain ⟨s, hs, h1, h2, -⟩ := C99_bound p v w health freq rest Q V h hQ hV dt ht
  have key : ∀ b : ℝ, 17700 * |b| * (|dt| / 900) ^ 3 ≤ |earthOmega * b * dt ^ 3 / 3| := by
    intro b
    rw [abs_div, abs_mul, abs_mul, abs_pow, abs_of_pos (by norm_num : (0:ℝ) < 3), div_pow]
    have ho : 7.292e-5 ≤ |earthOmega| := by unfold earthOmega; norm_num
    have hb : 0 ≤ |b| * |dt| ^ 3 := by positivity
    have := mul_le_mul_of_nonneg_right ho hb
    norm_num only at this ⊢
    linarith
  refine ⟨s, hs, ?_, ?_⟩
  · generalize (acceleration earthMu iccRadius iccJ2 earthOmega (Q 0) (V 0) (scale 1000 w)).1 = b at h2 ⊢
    have k := key b
    have := abs_sub_abs_le_abs_sub (earthOmega * b * dt ^ 3 / 3) (-((Q dt).2.1 - s.2.1))
    rw [abs_neg, show earthOmega * b * dt ^ 3 / 3 - -((Q dt).2.1 - s.2.1) = (Q dt).2.1 - s.2.1 + earthOmega * b * dt ^ 3 / 3 by ring] at this
    linarith
  · generalize (acceleration earthMu iccRadius iccJ2 earthOmega (Q 0) (V 0) (scale 1000 w)).2.1 = b at h1 ⊢
    have k := key b
    have := abs_sub_abs_le_abs_sub (earthOmega * b * dt ^ 3 / 3) ((Q dt).1 - s.1)
    rw [abs_sub_comm (earthOmega * b * dt ^ 3 / 3)] at this
    linarith

/-- C99: the same in floating point. -/
theorem C99_double (F : Flt) (hF : Accurate F) (p v w : Vec) (health freq : ℝ) (rest : List ℝ) (Q V : ℝ → Vec) (h : GlonassMotion (scale 1000 w) Q V) (hQ : Q 0 = scale 1000 p)
    (hV : V 0 = scale 1000 v) (dt : ℝ) (ht : |dt| ≤ 900) (hw : |w.1| ≤ 1e-3 ∧ |w.2.1| ≤ 1e-3 ∧ |w.2.2| ≤ 1e-3) :
    ∃ s, glonassSatXyzF F (broadcastLayout p v w health freq ++ rest) dt = .ok s ∧ |(Q dt).1 - s.1| ≤ 17000 * (|dt| / 900) ^ 3 + 2e-6 ∧
      |(Q dt).2.1 - s.2.1| ≤ 17000 * (|dt| / 900) ^ 3 + 2e-6 ∧ |(Q dt).2.2 - s.2.2| ≤ 2500 * (|dt| / 900) ^ 3 + 2e-6 := by
  have z0 : |(0:ℝ)| ≤ 900 := by norm_num
  have hlen : len (Q 0) = 1000 * len p := by
    rw [hQ]
    unfold len dot scale
    simp only
    rw [show 1000 * p.1 * (1000 * p.1) + 1000 * p.2.1 * (1000 * p.2.1) + 1000 * p.2.2 * (1000 * p.2.2) = 1000 ^ 2 * (p.1 * p.1 + p.2.1 * p.2.1 + p.2.2 * p.2.2) by ring,
      Real.sqrt_mul (by norm_num), Real.sqrt_sq (by norm_num)]
  have hp : p ≠ (0, 0, 0) := by
    rintro rfl
    have := (h.distance 0 z0).1
    rw [hQ] at this
    simp [scale, len, dot] at this
    norm_num at this
  have hvel : ∀ b : ℝ, |1000 * b| ≤ 4000 → |b| ≤ 10 := by
    intro b hb
    rw [abs_mul, show |(1000:ℝ)| = 1000 by norm_num] at hb
    linarith
  have hd := h.distance 0 z0
  rw [hlen] at hd
  have hv := h.velocity
  rw [hV] at hv
  have hr : RealisticMessage p v w dt := by
    refine ⟨⟨?_, ?_⟩, ⟨hvel _ hv.1, hvel _ hv.2.1, hvel _ hv.2.2⟩, hw, ht.trans (by norm_num)⟩
    · have := hd.1; norm_num at this; linarith
    · have := hd.2; norm_num at this; linarith
  obtain ⟨q, hq, c1, c2, c3⟩ := C97_position F hF p v w health freq rest dt hr
  obtain ⟨s, hs, d1, d2, d3⟩ := C99_within p v w health freq rest Q V h hQ hV dt ht
  rw [C69_step p v w health freq rest hp dt] at hs
  cases hs
  refine ⟨q, hq, ?_, ?_, ?_⟩
  · refine (abs_sub_le (Q dt).1 _ q.1).trans (add_le_add d1 ?_)
    rw [abs_sub_comm]
    exact c1
  · refine (abs_sub_le (Q dt).2.1 _ q.2.1).trans (add_le_add d2 ?_)
    rw [abs_sub_comm]
    exact c2
  · refine (abs_sub_le (Q dt).2.2 _ q.2.2).trans (add_le_add d3 ?_)
    rw [abs_sub_comm]
    exact c3

/-! ## A motion -/

/-- the angular velocity, relative to the earth, of a satellite on a circle of the radius `r` above the equator -/
noncomputable def circleRate (r : ℝ) : ℝ := √(earthMu / r ^ 3 + zonal / r ^ 5) - earthOmega
noncomputable def circlePos (r t : ℝ) : Vec := (r * cos (circleRate r * t), r * sin (circleRate r * t), 0)
noncomputable def circleVel (r t : ℝ) : Vec := (-(r * circleRate r) * sin (circleRate r * t), r * circleRate r * cos (circleRate r * t), 0)

theorem circle_len {r : ℝ} (hr : 0 < r) (t : ℝ) : len (circlePos r t) = r := by
  unfold len dot circlePos
  simp only
  rw [show r * cos (circleRate r * t) * (r * cos (circleRate r * t)) + r * sin (circleRate r * t) * (r * sin (circleRate r * t)) + 0 * 0 =
    r ^ 2 * (cos (circleRate r * t) ^ 2 + sin (circleRate r * t) ^ 2) by ring, Real.cos_sq_add_sin_sq, mul_one, Real.sqrt_sq hr.le]

theorem circle_acc {r : ℝ} (hr : 0 < r) (t : ℝ) : acceleration earthMu iccRadius iccJ2 earthOmega (circlePos r t) (circleVel r t) (0, 0, 0) =
    (-(r * circleRate r ^ 2) * cos (circleRate r * t), -(r * circleRate r ^ 2) * sin (circleRate r * t), 0) := by
  rw [acceleration_frozen, circle_len hr]
  have hz : 0 ≤ earthMu / r ^ 3 + zonal / r ^ 5 := by
    have := zonal_bound.1
    have : 0 ≤ earthMu := by unfold earthMu; norm_num
    positivity
  have hsq : (circleRate r + earthOmega) ^ 2 = earthMu / r ^ 3 + zonal / r ^ 5 := by
    unfold circleRate
    rw [sub_add_cancel, Real.sq_sqrt hz]
  unfold frozenAcc circlePos circleVel
  simp only
  refine Prod.ext ?_ (Prod.ext ?_ ?_)
  · simp only
    linear_combination (r * cos (circleRate r * t)) * hsq
  · simp only
    linear_combination (r * sin (circleRate r * t)) * hsq
  · simp

theorem circle_moves {r : ℝ} (hr : 0 < r) (t : ℝ) : HasDerivAt (circlePos r) (circleVel r t) t ∧
    HasDerivAt (circleVel r) (acceleration earthMu iccRadius iccJ2 earthOmega (circlePos r t) (circleVel r t) (0, 0, 0)) t := by
  rw [circle_acc hr]
  have hl : HasDerivAt (fun s => circleRate r * s) (circleRate r) t := by simpa using (hasDerivAt_id t).const_mul (circleRate r)
  constructor
  · refine HasDerivAt.prodMk ?_ (HasDerivAt.prodMk ?_ (hasDerivAt_const t 0))
    · exact (hl.cos.const_mul r).congr_deriv (by ring)
    · exact (hl.sin.const_mul r).congr_deriv (by ring)
  · refine HasDerivAt.prodMk ?_ (HasDerivAt.prodMk ?_ (hasDerivAt_const t 0))
    · exact (hl.sin.const_mul _).congr_deriv (by ring)
    · exact (hl.cos.const_mul _).congr_deriv (by ring)

theorem circle_rate : 8.2e-5 ≤ circleRate 2.55e7 ∧ circleRate 2.55e7 ≤ 8.3e-5 := by
  unfold circleRate
  have h1 : (1.55e-4 : ℝ) ≤ √(earthMu / 2.55e7 ^ 3 + zonal / 2.55e7 ^ 5) := by
    apply Real.le_sqrt_of_sq_le
    unfold zonal earthMu iccJ2 iccRadius
    norm_num
  have h2 : √(earthMu / 2.55e7 ^ 3 + zonal / 2.55e7 ^ 5) ≤ (1.558e-4 : ℝ) := by
    apply Real.sqrt_le_iff.2
    unfold zonal earthMu iccJ2 iccRadius
    norm_num
  constructor
  · unfold earthOmega; norm_num at h1 ⊢; linarith
  · unfold earthOmega; norm_num at h2 ⊢; linarith

theorem circle_motion : GlonassMotion (0, 0, 0) (circlePos 2.55e7) (circleVel 2.55e7) := by
  have r0 : (0:ℝ) < 2.55e7 := by norm_num
  obtain ⟨c1, c2⟩ := circle_rate
  refine ⟨fun t _ => circle_moves r0 t, fun t _ => ?_, fun t _ => ?_, ?_, fun t _ => ?_⟩
  · rw [circle_len r0]; norm_num
  · rw [circle_len r0, circle_len r0]; simp
  · simp only [circleVel, mul_zero, sin_zero, cos_zero, mul_one, abs_zero]
    refine ⟨by norm_num, ?_, by norm_num⟩
    rw [abs_of_nonneg (by positivity)]
    norm_num at c2 ⊢
    linarith
  · rw [circle_acc r0]
    have hb : ∀ s : ℝ, |s| ≤ 1 → |-(2.55e7 * circleRate 2.55e7 ^ 2) * s| ≤ 0.8 := by
      intro s hs
      rw [abs_mul, abs_neg, abs_of_nonneg (by positivity)]
      have h2 : circleRate 2.55e7 ^ 2 ≤ (8.3e-5) ^ 2 := pow_le_pow_left₀ (by linarith [show (0:ℝ) ≤ 8.2e-5 by norm_num]) c2 2
      have := mul_le_mul (mul_le_mul_of_nonneg_left h2 r0.le) hs (abs_nonneg _) (by positivity)
      refine this.trans (by norm_num)
    refine ⟨hb _ (Real.abs_cos_le_one _), hb _ (Real.abs_sin_le_one _), by norm_num⟩

/-- such a satellite is half a kilometre from its computed position after 15 minutes, and not more than 17 km -/
theorem C99_example : ∃ s, glonassSatXyz (broadcastLayout (25500, 0, 0) (0, 25500 * circleRate 2.55e7, 0) (0, 0, 0) 0 1) 900 = .ok s ∧
    500 ≤ |(circlePos 2.55e7 900).2.1 - s.2.1| ∧ |(circlePos 2.55e7 900).2.1 - s.2.1| ≤ 17000 := by
  have hm : GlonassMotion (scale 1000 (0, 0, 0)) (circlePos 2.55e7) (circleVel 2.55e7) := by
    have := circle_motion
    simpa [scale] using this
  have hQ : circlePos 2.55e7 0 = scale 1000 (25500, 0, 0) := by
    simp only [circlePos, scale, mul_zero, cos_zero, sin_zero]; norm_num
  have hV : circleVel 2.55e7 0 = scale 1000 (0, 25500 * circleRate 2.55e7, 0) := by
    simp only [circleVel, scale, mul_zero, cos_zero, sin_zero]
    refine Prod.ext (by norm_num) (Prod.ext ?_ rfl)
    simp only
    norm_num
    ring
  obtain ⟨s, hs, -, h2, -⟩ := C99_bound _ _ _ 0 1 [] _ _ hm hQ hV 900 (by norm_num)
  obtain ⟨s', hs', -, k2, -⟩ := C99_within _ _ _ 0 1 [] _ _ hm hQ hV 900 (by norm_num)
  rw [hs] at hs'
  cases hs'
  rw [List.append_nil] at hs
  refine ⟨s, hs, ?_, ?_⟩
  · have hsc : scale 1000 ((0, 0, 0) : Vec) = (0, 0, 0) := by simp [scale]
    rw [hsc, circle_acc (by norm_num)] at h2
    simp only [mul_zero, cos_zero, mul_one] at h2
    obtain ⟨c1, c2⟩ := circle_rate
    have h3 : (8.2e-5) ^ 2 ≤ circleRate 2.55e7 ^ 2 := pow_le_pow_left₀ (by norm_num) c1 2
    rw [abs_le] at h2
    have ho : earthOmega = 7.2921151467e-5 := rfl
    rw [ho] at h2
    refine le_trans ?_ (le_abs_self _)
    norm_num at h2 h3 ⊢
    linarith [h2.1]
  · refine k2.trans (by norm_num)

end Verif.Props
