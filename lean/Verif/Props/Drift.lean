import Verif.Props.Nystrom
import Mathlib.Analysis.Calculus.FDeriv.Prod
/-!
# C99: what the frozen terms of the integration cost
-/
namespace Verif.Props
open Verif.Py Verif.Model.Geo Verif.Spec.Geo Verif.Proofs.Geo Real Filter Topology Asymptotics

/-- a function whose derivative is of smaller order than `h ^ n` and that vanishes at zero is of smaller order than `h ^ (n + 1)` -/
theorem integrate_o {E : Type*} [NormedAddCommGroup E] [NormedSpace ℝ E] (n : ℕ) (e e' : ℝ → E) (hd : ∀ᶠ t in 𝓝 0, HasDerivAt e (e' t) t) (h0 : e 0 = 0)
    (hb : e' =o[𝓝 0] fun h => h ^ n) : e =o[𝓝 0] fun h => h ^ (n + 1) := by
  rw [isLittleO_iff] at hb ⊢
  intro C hC
  obtain ⟨δ, hδ, hall⟩ := Metric.eventually_nhds_iff.1 (hd.and (hb hC))
  refine Metric.eventually_nhds_iff.2 ⟨δ, hδ, fun h hh => ?_⟩
  have hmem : ∀ t ∈ segment ℝ (0 : ℝ) h, |t| ≤ |h| := by
    intro t ht
    obtain ⟨a, b, ha, hb, hab, rfl⟩ := ht
    simp only [smul_eq_mul, mul_zero, zero_add, abs_mul, abs_of_nonneg hb]
    nlinarith [abs_nonneg h]
  have hd' : ∀ t ∈ segment ℝ (0 : ℝ) h, HasDerivWithinAt e (e' t) (segment ℝ 0 h) t := by
    intro t ht
    refine (hall (y := t) ?_).1.hasDerivWithinAt
    have := hmem t ht
    simp only [dist_zero_right, Real.norm_eq_abs] at hh ⊢
    linarith
  have hbd : ∀ t ∈ segment ℝ (0 : ℝ) h, ‖e' t‖ ≤ C * |h| ^ n := by
    intro t ht
    have h1 := hmem t ht
    have := (hall (y := t) (by simp only [dist_zero_right, Real.norm_eq_abs] at hh ⊢; linarith)).2
    refine this.trans ?_
    rw [norm_pow, Real.norm_eq_abs]
    exact mul_le_mul_of_nonneg_left (pow_le_pow_left₀ (abs_nonneg _) h1 n) hC.le
  have := (convex_segment (𝕜 := ℝ) (0 : ℝ) h).norm_image_sub_le_of_norm_hasDerivWithin_le hd' hbd (left_mem_segment ℝ 0 h) (right_mem_segment ℝ 0 h)
  rw [h0, sub_zero, sub_zero] at this
  rw [norm_pow, pow_succ, Real.norm_eq_abs h]
  rw [Real.norm_eq_abs h] at this
  linarith

/-- two motions that start together and whose accelerations separate at the rate `D` -/
theorem separate {E : Type*} [NormedAddCommGroup E] [NormedSpace ℝ E] (e u g : ℝ → E) (D : E) (h1 : ∀ᶠ t in 𝓝 0, HasDerivAt e (u t) t)
    (h2 : ∀ᶠ t in 𝓝 0, HasDerivAt u (g t) t) (e0 : e 0 = 0) (u0 : u 0 = 0) (g0 : g 0 = 0) (hg : HasDerivAt g D 0) :
    (fun t => e t - (t ^ 3 / 6) • D) =o[𝓝 0] fun t => t ^ 3 := by
  have o1 : (fun t => g t - t • D) =o[𝓝 0] fun t => t ^ 1 := by
    have := hasDerivAt_iff_isLittleO.1 hg
    simpa [g0] using this
  have o2 : (fun t => u t - (t ^ 2 / 2) • D) =o[𝓝 0] fun t => t ^ 2 := by
    refine integrate_o 1 _ (fun t => g t - t • D) ?_ (by simp [u0]) o1
    filter_upwards [h2] with t ht
    have := ht.sub (((hasDerivAt_pow 2 t).div_const 2).smul_const D)
    refine this.congr_deriv ?_
    congr 2
    norm_num
  refine integrate_o 2 _ (fun t => u t - (t ^ 2 / 2) • D) ?_ (by simp [e0]) o2
  filter_upwards [h1] with t ht
  have := ht.sub (((hasDerivAt_pow 3 t).div_const 6).smul_const D)
  refine this.congr_deriv ?_
  congr 2
  norm_num
  ring

theorem frozen_differentiable (mu ae j2 om r : ℝ) (hr : r ≠ 0) (v w p : Vec) :
    DifferentiableAt ℝ (fun x : ℝ × Vec × Vec => frozenAcc mu ae j2 om x.1 x.2.1 w x.2.2) (r, v, p) := by
  unfold frozenAcc
  have h3 : (r : ℝ) ^ 3 ≠ 0 := pow_ne_zero 3 hr
  have h5 : (r : ℝ) ^ 5 ≠ 0 := pow_ne_zero 5 hr
  have h2 : (r : ℝ) ^ 2 ≠ 0 := pow_ne_zero 2 hr
  fun_prop (disch := assumption)

theorem len_hasDeriv {Q V : ℝ → Vec} {t : ℝ} (h : HasDerivAt Q (V t) t) (h0 : len (Q t) ≠ 0) : HasDerivAt (fun s => len (Q s)) (dot (Q t) (V t) / len (Q t)) t := by
  unfold len at h0 ⊢
  have hd : HasDerivAt (fun s => dot (Q s) (Q s)) (2 * dot (Q t) (V t)) t := by
    have a1 : HasDerivAt (fun s => (Q s).1) (V t).1 t := h.fst
    have a2 : HasDerivAt (fun s => (Q s).2.1) (V t).2.1 t := h.snd.fst
    have a3 : HasDerivAt (fun s => (Q s).2.2) (V t).2.2 t := h.snd.snd
    refine (((a1.mul a1).add (a2.mul a2)).add (a3.mul a3)).congr_deriv ?_
    unfold dot
    ring
  refine (hd.sqrt (fun hc => h0 (by rw [hc, Real.sqrt_zero]))).congr_deriv ?_
  field_simp

/-- C99: `missedRate` is the rate at which the acceleration changes when only the distance and the velocity change -/
theorem C99_missed (mu ae j2 om : ℝ) (p w a : Vec) (rd : ℝ) (R : ℝ → ℝ) (U : ℝ → Vec) (hp : len p ≠ 0) (h0 : R 0 = len p) (hR : HasDerivAt R rd 0) (hU : HasDerivAt U a 0) :
    HasDerivAt (fun t => frozenAcc mu ae j2 om (R t) (U t) w p) (missedRate mu ae j2 om p a rd) 0 := by
  have n3 : R 0 ^ 3 ≠ 0 := pow_ne_zero 3 (by rw [h0]; exact hp)
  have n5 : R 0 ^ 5 ≠ 0 := pow_ne_zero 5 (by rw [h0]; exact hp)
  have n2 : R 0 ^ 2 ≠ 0 := pow_ne_zero 2 (by rw [h0]; exact hp)
  have n1 : R 0 ≠ 0 := by rw [h0]; exact hp
  have q3 : HasDerivAt (fun t => -mu / R t ^ 3) (3 * mu / len p ^ 4 * rd) 0 := by
    refine ((hasDerivAt_const (0:ℝ) (-mu)).div (hR.pow 3) n3).congr_deriv ?_
    simp only [Pi.pow_apply, h0] at n1 ⊢; field_simp; norm_num; try ring
  have q5 : HasDerivAt (fun t => 3 / 2 * j2 * mu * ae ^ 2 / R t ^ 5) (-5 * (3 / 2 * j2 * mu * ae ^ 2) / len p ^ 6 * rd) 0 := by
    refine ((hasDerivAt_const (0:ℝ) (3 / 2 * j2 * mu * ae ^ 2)).div (hR.pow 5) n5).congr_deriv ?_
    simp only [Pi.pow_apply, h0] at n1 ⊢; field_simp; norm_num; try ring
  have q2 : ∀ k : ℝ, HasDerivAt (fun t => k - 5 * p.2.2 ^ 2 / R t ^ 2) (10 * p.2.2 ^ 2 / len p ^ 3 * rd) 0 := by
    intro k
    refine (((hasDerivAt_const (0:ℝ) (5 * p.2.2 ^ 2)).div (hR.pow 2) n2).const_sub k).congr_deriv ?_
    simp only [Pi.pow_apply, h0] at n1 ⊢; field_simp; norm_num; try ring
  have b1 : HasDerivAt (fun s => (U s).1) a.1 0 := hU.fst
  have b2 : HasDerivAt (fun s => (U s).2.1) a.2.1 0 := hU.snd.fst
  unfold frozenAcc missedRate
  refine HasDerivAt.prodMk ?_ (HasDerivAt.prodMk ?_ ?_)
  · refine ((((q3.mul_const p.1).sub ((q5.mul_const p.1).mul (q2 1))).add_const (om ^ 2 * p.1)).add (b2.const_mul (2 * om)) |>.add_const w.1).congr_deriv ?_
    simp only [h0]
    field_simp
    ring
  · refine ((((q3.mul_const p.2.1).sub ((q5.mul_const p.2.1).mul (q2 1))).add_const (om ^ 2 * p.2.1)).sub (b1.const_mul (2 * om)) |>.add_const w.2.1).congr_deriv ?_
    simp only [h0]
    field_simp
    ring
  · refine (((q3.mul_const p.2.2).sub ((q5.mul_const p.2.2).mul (q2 3))).add_const w.2.2).congr_deriv ?_
    simp only [h0]
    field_simp
    ring

theorem norm_le_len (u : Vec) : ‖u‖ ≤ len u := by
  have key : ∀ x : ℝ, x ^ 2 ≤ dot u u → |x| ≤ len u := fun x hx => Real.abs_le_sqrt hx
  rw [Prod.norm_def, Prod.norm_def]
  simp only [Real.norm_eq_abs]
  refine max_le (key _ ?_) (max_le (key _ ?_) (key _ ?_))
  all_goals (unfold dot; nlinarith [sq_nonneg u.1, sq_nonneg u.2.1, sq_nonneg u.2.2])

theorem len_pos {p : Vec} (hp : p ≠ (0, 0, 0)) : 0 < len (scale 1000 p) := by
  obtain ⟨px, py, pz⟩ := p
  unfold len dot scale
  apply Real.sqrt_pos.2
  by_contra hn
  apply hp
  simp only at hn
  have hx : px ^ 2 = 0 := by nlinarith [sq_nonneg px, sq_nonneg py, sq_nonneg pz]
  have hy : py ^ 2 = 0 := by nlinarith [sq_nonneg px, sq_nonneg py, sq_nonneg pz]
  have hz : pz ^ 2 = 0 := by nlinarith [sq_nonneg px, sq_nonneg py, sq_nonneg pz]
  simp only [ne_eq, OfNat.ofNat_ne_zero, not_false_eq_true, pow_eq_zero_iff] at hx hy hz
  rw [hx, hy, hz]

/-- the accelerations of the motion of the ICD and of the motion with distance and velocity kept separate at the rate `missedRate` -/
theorem separation_rate (mu ae j2 om : ℝ) (w : Vec) (Q V Qf Vf : ℝ → Vec) (hr : len (Q 0) ≠ 0) (h : IcdMotion mu ae j2 om w Q V)
    (hf : Motion (frozenAcc mu ae j2 om (len (Q 0)) (V 0) w) Qf Vf) (q0 : Qf 0 = Q 0) (v0 : Vf 0 = V 0) :
    (fun t => (Q t - Qf t) - (t ^ 3 / 6) • missedRate mu ae j2 om (Q 0) (acceleration mu ae j2 om (Q 0) (V 0) w) (dot (Q 0) (V 0) / len (Q 0))) =o[𝓝 0] fun t => t ^ 3 := by
  have dQ := h.self_of_nhds.1
  have dV := h.self_of_nhds.2
  have dF := hf.self_of_nhds.1
  rw [v0] at dF
  have hlen := len_hasDeriv dQ hr
  have hΦ := (frozen_differentiable mu ae j2 om _ hr (V 0) w (Q 0)).hasFDerivAt
  set Φ := fun x : ℝ × Vec × Vec => frozenAcc mu ae j2 om x.1 x.2.1 w x.2.2 with hΦdef
  set L := fderiv ℝ Φ (len (Q 0), V 0, Q 0) with hL
  have c1 : HasDerivAt (fun t => Φ (len (Q t), V t, Q t)) _ 0 := HasFDerivAt.comp_hasDerivAt (0:ℝ) (f := fun t => (len (Q t), V t, Q t)) hΦ (hlen.prodMk (dV.prodMk dQ))
  have hΦ' : HasFDerivAt Φ L (len (Q 0), V 0, Qf 0) := by rw [q0]; exact hΦ
  have c2 : HasDerivAt (fun t => Φ (len (Q 0), V 0, Qf t)) _ 0 :=
    HasFDerivAt.comp_hasDerivAt (0:ℝ) (f := fun t => (len (Q 0), V 0, Qf t)) hΦ' ((hasDerivAt_const (0:ℝ) _).prodMk ((hasDerivAt_const (0:ℝ) _).prodMk dF))
  set a := acceleration mu ae j2 om (Q 0) (V 0) w with ha
  have c3 := C99_missed mu ae j2 om (Q 0) w a (dot (Q 0) (V 0) / len (Q 0)) (fun t => len (Q t)) V hr rfl hlen dV
  have c4 : HasDerivAt (fun t => Φ (len (Q t), V t, Q 0)) _ 0 := HasFDerivAt.comp_hasDerivAt (0:ℝ) (f := fun t => (len (Q t), V t, Q 0)) hΦ (hlen.prodMk (dV.prodMk (hasDerivAt_const (0:ℝ) _)))
  have e4 := c3.unique c4
  refine separate (fun t => Q t - Qf t) (fun t => V t - Vf t) (fun t => acceleration mu ae j2 om (Q t) (V t) w - frozenAcc mu ae j2 om (len (Q 0)) (V 0) w (Qf t)) _ ?_ ?_ ?_ ?_ ?_ ?_
  · filter_upwards [h, hf] with t h1 h2 using h1.1.sub h2.1
  · filter_upwards [h, hf] with t h1 h2 using h1.2.sub h2.2
  · simp only [q0, sub_self]
  · simp only [v0, sub_self]
  · simp only [q0, acceleration_frozen, sub_self]
  · refine (c1.sub c2).congr_deriv ?_
    rw [e4, ← map_sub]
    simp

/-- C99: the position computed for a GLONASS or SBAS satellite leaves the motion of the ICD like the cube of the time: the difference, divided by one sixth of that cube, tends to the opposite of the
rate at which the acceleration changes through the distance from the centre and the velocity, which the program keeps at their broadcast values. -/
theorem C99_rate (p v w : Vec) (health freq : ℝ) (rest : List ℝ) (hp : p ≠ (0, 0, 0)) (Q V : ℝ → Vec) (hm : IcdMotion earthMu iccRadius iccJ2 earthOmega (scale 1000 w) Q V)
    (hQ : Q 0 = scale 1000 p) (hV : V 0 = scale 1000 v) :
    ∃ P : ℝ → Vec, (∀ dt, glonassSatXyz (broadcastLayout p v w health freq ++ rest) dt = .ok (P dt)) ∧
      Tendsto (fun dt => scale (6 / dt ^ 3) (sub (Q dt) (P dt))) (𝓝[≠] 0)
        (𝓝 (missedRate earthMu iccRadius iccJ2 earthOmega (Q 0) (acceleration earthMu iccRadius iccJ2 earthOmega (Q 0) (V 0) (scale 1000 w)) (dot (Q 0) (V 0) / len (Q 0)))) := by
  obtain ⟨P, hP, -⟩ := C69_motion p v w health freq rest hp
  refine ⟨P, hP, ?_⟩
  have hr : len (Q 0) ≠ 0 := by rw [hQ]; exact (len_pos hp).ne'
  obtain ⟨Qf, Vf, hf, q0, v0⟩ := C69_motion_exists earthMu iccRadius iccJ2 earthOmega (len (Q 0)) (Q 0) (V 0) (scale 1000 w) (V 0)
  obtain ⟨C, hC⟩ := C69_order p v w health freq rest hp Qf Vf (by rw [← hQ, ← hV]; exact hf) (by rw [q0, hQ]) (by rw [v0, hV])
  have hsep := separation_rate _ _ _ _ _ Q V Qf Vf hr hm hf q0 v0
  generalize missedRate earthMu iccRadius iccJ2 earthOmega (Q 0) (acceleration earthMu iccRadius iccJ2 earthOmega (Q 0) (V 0) (scale 1000 w)) (dot (Q 0) (V 0) / len (Q 0)) = D at hsep ⊢
  have ho : (fun t => P t - Qf t) =o[𝓝 0] fun t : ℝ => t ^ 3 := by
    have hO : (fun t => P t - Qf t) =O[𝓝 0] fun t : ℝ => t ^ 5 := by
      refine IsBigO.of_bound C ?_
      filter_upwards [hC] with t ⟨s, h1, h2⟩
      rw [hP t] at h1
      cases h1
      rw [norm_pow, Real.norm_eq_abs]
      exact (norm_le_len (sub (P t) (Qf t))).trans h2
    exact hO.trans_isLittleO (isLittleO_pow_pow (by norm_num))
  have hall : (fun t => (Q t - P t) - (t ^ 3 / 6) • D) =o[𝓝 0] fun t => t ^ 3 := by
    refine (hsep.sub ho).congr_left fun t => ?_
    abel
  have h6 := ((hall.mono nhdsWithin_le_nhds).tendsto_inv_smul_nhds_zero (l := 𝓝[≠] (0:ℝ))).const_smul (6 : ℝ) |>.add_const D
  simp only [smul_zero, zero_add] at h6
  refine h6.congr' ?_
  filter_upwards [self_mem_nhdsWithin] with t ht
  have ht' : t ≠ 0 := ht
  show _ = (6 / t ^ 3) • (Q t - P t)
  rw [smul_sub, smul_sub, smul_smul, smul_smul, smul_smul]
  rw [show 6 * (t ^ 3)⁻¹ * (t ^ 3 / 6) = 1 by field_simp, one_smul, sub_add_cancel]
  congr 1

/-- C99: there is such a motion, for every message but that with the position at the centre. -/
theorem C99_motion_exists (mu ae j2 om : ℝ) (p v w : Vec) (hp : len p ≠ 0) : ∃ Q V, IcdMotion mu ae j2 om w Q V ∧ Q 0 = p ∧ V 0 = v := by
  have hd : dot p p ≠ 0 := fun hc => hp (by unfold len; rw [hc, Real.sqrt_zero])
  have hlen : ContDiffAt ℝ 1 (fun x : Vec × Vec => len x.1) (p, v) := by
    unfold len
    refine ContDiffAt.sqrt ?_ hd
    unfold dot
    fun_prop
  have h3 : len p ^ 3 ≠ 0 := pow_ne_zero 3 hp
  have h5 : len p ^ 5 ≠ 0 := pow_ne_zero 5 hp
  have h2 : len p ^ 2 ≠ 0 := pow_ne_zero 2 hp
  have hf : ContDiffAt ℝ 1 (fun x : Vec × Vec => (x.2, acceleration mu ae j2 om x.1 x.2 w)) (p, v) := by
    unfold acceleration
    fun_prop (disch := assumption)
  obtain ⟨α, h0, ε, hε, hα⟩ := hf.exists_forall_mem_closedBall_exists_eq_forall_mem_Ioo_hasDerivAt₀ 0
  refine ⟨fun t => (α t).1, fun t => (α t).2, ?_, by simp [h0], by simp [h0]⟩
  filter_upwards [Ioo_mem_nhds (show 0 - ε < 0 by linarith) (show (0:ℝ) < 0 + ε by linarith)] with t ht
  exact ⟨(hα t ht).fst, (hα t ht).snd⟩

end Verif.Props
