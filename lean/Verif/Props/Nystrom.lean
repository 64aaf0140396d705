import Verif.Proofs.Nystrom
import Verif.Spec.Motion
import Verif.Props.Orbit
import Mathlib.Analysis.ODE.ExistUnique
/-!
# C69: accuracy of the integration
-/
namespace Verif.Props
open Verif.Py Verif.Model.Geo Verif.Spec.Geo Verif.Proofs.Geo Real Filter Topology Asymptotics

theorem frozen_force (mu ae j2 om r : ℝ) (v w p : Vec) :
    (frozenAcc mu ae j2 om r v w p).1 = force (-mu / r ^ 3 - 3 / 2 * j2 * mu * ae ^ 2 / r ^ 5 + om ^ 2) (3 / 2 * j2 * mu * ae ^ 2 / r ^ 5 * 5 / r ^ 2) (2 * om * v.2.1 + w.1) p.1 p.2.2 ∧
    (frozenAcc mu ae j2 om r v w p).2.1 = force (-mu / r ^ 3 - 3 / 2 * j2 * mu * ae ^ 2 / r ^ 5 + om ^ 2) (3 / 2 * j2 * mu * ae ^ 2 / r ^ 5 * 5 / r ^ 2) (-2 * om * v.1 + w.2.1) p.2.1 p.2.2 ∧
    (frozenAcc mu ae j2 om r v w p).2.2 = force (-mu / r ^ 3 - 3 / 2 * j2 * mu * ae ^ 2 / r ^ 5 * 3) (3 / 2 * j2 * mu * ae ^ 2 / r ^ 5 * 5 / r ^ 2) w.2.2 p.2.2 p.2.2 := by
  unfold frozenAcc force
  refine ⟨?_, ?_, ?_⟩ <;> (simp only; ring)

theorem motion_coords {F : Vec → Vec} {Q V : ℝ → Vec} (h : Motion F Q V) :
    (∀ᶠ t in 𝓝 0, HasDerivAt (fun t => (Q t).1) (V t).1 t ∧ HasDerivAt (fun t => (V t).1) (F (Q t)).1 t) ∧
    (∀ᶠ t in 𝓝 0, HasDerivAt (fun t => (Q t).2.1) (V t).2.1 t ∧ HasDerivAt (fun t => (V t).2.1) (F (Q t)).2.1 t) ∧
    (∀ᶠ t in 𝓝 0, HasDerivAt (fun t => (Q t).2.2) (V t).2.2 t ∧ HasDerivAt (fun t => (V t).2.2) (F (Q t)).2.2 t) := by
  refine ⟨?_, ?_, ?_⟩
  all_goals filter_upwards [h] with t ht
  · exact ⟨ht.1.fst, ht.2.fst⟩
  · exact ⟨ht.1.snd.fst, ht.2.snd.fst⟩
  · exact ⟨ht.1.snd.snd, ht.2.snd.snd⟩

/-- the length of a vector with small coordinates -/
theorem len_bound {a b c C D E' h : ℝ} (ha : |a| ≤ C * h) (hb : |b| ≤ D * h) (hc : |c| ≤ E' * h) : len (a, b, c) ≤ (C + D + E') * h := by
  have hsum : len (a, b, c) ≤ |a| + |b| + |c| := by
    unfold len dot
    apply Real.sqrt_le_iff.2
    refine ⟨by positivity, ?_⟩
    have := abs_mul_abs_self a
    have := abs_mul_abs_self b
    have := abs_mul_abs_self c
    nlinarith [mul_nonneg (abs_nonneg a) (abs_nonneg b), mul_nonneg (abs_nonneg a) (abs_nonneg c), mul_nonneg (abs_nonneg b) (abs_nonneg c)]
  linarith

set_option maxHeartbeats 1000000 in
/-- C69: the integration is of the fourth order: for short times the computed position differs from that of the motion which starts with the broadcast position and velocity, under the acceleration
of the ICD with distance and velocity kept at their broadcast values, by at most a constant times the fifth power of the time. -/
theorem C69_order (p v w : Vec) (health freq : ℝ) (rest : List ℝ) (hp : p ≠ (0, 0, 0)) (Q V : ℝ → Vec)
    (hm : Motion (frozenAcc earthMu iccRadius iccJ2 earthOmega (len (scale 1000 p)) (scale 1000 v) (scale 1000 w)) Q V) (hQ : Q 0 = scale 1000 p) (hV : V 0 = scale 1000 v) :
    ∃ C, ∀ᶠ dt in 𝓝 0, ∃ s, glonassSatXyz (broadcastLayout p v w health freq ++ rest) dt = .ok s ∧ len (sub s (Q dt)) ≤ C * |dt| ^ 5 := by
  obtain ⟨px, py, pz⟩ := p
  obtain ⟨vx, vy, vz⟩ := v
  obtain ⟨wx, wy, wz⟩ := w
  have hlen : √((px * 1000) ^ 2 + (py * 1000) ^ 2 + (pz * 1000) ^ 2) = len (scale 1000 (px, py, pz)) := by
    unfold len dot scale; simp only; congr 1; ring
  have hr : 0 < len (scale 1000 (px, py, pz)) := by
    rw [← hlen]
    apply Real.sqrt_pos.2
    by_contra hn
    apply hp
    have hx : px ^ 2 = 0 := by nlinarith [sq_nonneg px, sq_nonneg py, sq_nonneg pz]
    have hy : py ^ 2 = 0 := by nlinarith [sq_nonneg px, sq_nonneg py, sq_nonneg pz]
    have hz : pz ^ 2 = 0 := by nlinarith [sq_nonneg px, sq_nonneg py, sq_nonneg pz]
    simp only [ne_eq, OfNat.ofNat_ne_zero, not_false_eq_true, pow_eq_zero_iff] at hx hy hz
    rw [hx, hy, hz]
  have m1 : earthMu = datumMu := by unfold datumMu earthMu; norm_num
  have m2 : iccRadius = datumAe := rfl
  have m3 : iccJ2 = datumJ0sqd := by unfold iccJ2 datumJ0sqd; norm_num
  have m4 : earthOmega = datumOmega := rfl
  rw [m1, m2, m3, m4] at hm
  have ep : scale 1000 (px, py, pz) = (px * 1000, py * 1000, pz * 1000) := by unfold scale; simp only [mul_comm]
  have ev : scale 1000 (vx, vy, vz) = (vx * 1000, vy * 1000, vz * 1000) := by unfold scale; simp only [mul_comm]
  have ew : scale 1000 (wx, wy, wz) = (wx * 1000, wy * 1000, wz * 1000) := by unfold scale; simp only [mul_comm]
  generalize hrdef : len (scale 1000 (px, py, pz)) = r at *
  rw [ep] at hQ
  rw [ev] at hV hm
  rw [ew] at hm
  set q := datumMu / r ^ 3 with hq
  set s := 3 / 2 * datumJ0sqd * datumMu * datumAe ^ 2 / r ^ 5 with hs
  set αx := -q - s + datumOmega ^ 2 with hαx
  set αz := -q - s * 3 with hαz
  set β := s * 5 / r ^ 2 with hβ
  set γx := 2 * datumOmega * (vy * 1000) + wx * 1000 with hγx
  set γy := -2 * datumOmega * (vx * 1000) + wy * 1000 with hγy
  set γz := wz * 1000 with hγz
  obtain ⟨cx, cy, cz⟩ := motion_coords hm
  have fF := fun t => frozen_force datumMu datumAe datumJ0sqd datumOmega r (vx * 1000, vy * 1000, vz * 1000) (wx * 1000, wy * 1000, wz * 1000) (Q t)
  have eq1 : -datumMu / r ^ 3 = -q := by rw [hq]; ring
  have CX : Coord αx β γx (fun t => (Q t).1) (fun t => (V t).1) (fun t => (Q t).2.2) := by
    refine ⟨cx.mono fun t h => h.1, cx.mono fun t h => h.2.congr_deriv ?_⟩
    rw [(fF t).1, eq1]
  have CY : Coord αx β γy (fun t => (Q t).2.1) (fun t => (V t).2.1) (fun t => (Q t).2.2) := by
    refine ⟨cy.mono fun t h => h.1, cy.mono fun t h => h.2.congr_deriv ?_⟩
    rw [(fF t).2.1, eq1]
  have CZ : Coord αz β γz (fun t => (Q t).2.2) (fun t => (V t).2.2) (fun t => (Q t).2.2) := by
    refine ⟨cz.mono fun t h => h.1, cz.mono fun t h => h.2.congr_deriv ?_⟩
    rw [(fF t).2.2, eq1]
  have hzd : ∃ w, HasDerivAt (fun t => (Q t).2.2) w 0 := ⟨_, cz.self_of_nhds.1⟩
  have eqx : (Q 0).1 = px * 1000 := by rw [hQ]
  have eqy : (Q 0).2.1 = py * 1000 := by rw [hQ]
  have eqz : (Q 0).2.2 = pz * 1000 := by rw [hQ]
  have evx : (V 0).1 = vx * 1000 := by rw [hV]
  have evy : (V 0).2.1 = vy * 1000 := by rw [hV]
  have evz : (V 0).2.2 = vz * 1000 := by rw [hV]
  have EZ := coord_exp CZ hzd
  simp only [eqz, evz] at EZ
  set kx := force αx β γx (px * 1000) (pz * 1000) with hkx
  set ky := force αx β γy (py * 1000) (pz * 1000) with hky
  set kz := force αz β γz (pz * 1000) (pz * 1000) with hkz
  let x1 : ℝ → ℝ := fun t => px * 1000 + vx * 1000 * t / 2 + kx * t * t / 8
  let y1 : ℝ → ℝ := fun t => py * 1000 + vy * 1000 * t / 2 + ky * t * t / 8
  let z1 : ℝ → ℝ := fun t => pz * 1000 + vz * 1000 * t / 2 + kz * t * t / 8
  let x2 : ℝ → ℝ := fun t => px * 1000 + vx * 1000 * t / 2 + force αx β γx (x1 t) (z1 t) * t * t / 8
  let y2 : ℝ → ℝ := fun t => py * 1000 + vy * 1000 * t / 2 + force αx β γy (y1 t) (z1 t) * t * t / 8
  let z2 : ℝ → ℝ := fun t => pz * 1000 + vz * 1000 * t / 2 + force αz β γz (z1 t) (z1 t) * t * t / 8
  have e1 : ∀ c v k : ℝ, Exp2 (fun t => c + v * t / 2 + k * t * t / 8) c (v / 2) (k / 8) := fun c v k => (exp2_poly c (v / 2) (k / 8)).congr (fun t => by ring) rfl rfl rfl
  have e2 : ∀ (c v k b d : ℝ) (f : ℝ → ℝ), Exp2 f k b d → Exp2 (fun t => c + v * t / 2 + f t * t * t / 8) c (v / 2) (k / 8) := by
    intro c v k b d f hf
    refine ((exp2_poly c (v / 2) 0).add (hf.mul (exp2_poly 0 0 (1 / 8)))).congr (fun t => by ring) (by ring) (by ring) (by ring)
  have X1 : Exp2 x1 (px * 1000) (vx * 1000 / 2) (kx / 8) := e1 _ _ _
  have Y1 : Exp2 y1 (py * 1000) (vy * 1000 / 2) (ky / 8) := e1 _ _ _
  have Z1 : Exp2 z1 (pz * 1000) (vz * 1000 / 2) (kz / 8) := e1 _ _ _
  have X2 : Exp2 x2 (px * 1000) (vx * 1000 / 2) (kx / 8) := e2 _ _ _ _ _ _ (force_exp X1 Z1)
  have Y2 : Exp2 y2 (py * 1000) (vy * 1000 / 2) (ky / 8) := e2 _ _ _ _ _ _ (force_exp Y1 Z1)
  have Z2 : Exp2 z2 (pz * 1000) (vz * 1000 / 2) (kz / 8) := e2 _ _ _ _ _ _ (force_exp Z1 Z1)
  have SX := coord_step (vz := vz * 1000) (az := kz) CX hzd (by simp only [eqz]; exact EZ) (by simp only [eqx, evx, eqz]; exact X1) (by simp only [eqz]; exact Z1)
    (by simp only [eqx, evx, eqz]; exact X2) (by simp only [eqz]; exact Z2)
  have SY := coord_step (vz := vz * 1000) (az := kz) CY hzd (by simp only [eqz]; exact EZ) (by simp only [eqy, evy, eqz]; exact Y1) (by simp only [eqz]; exact Z1)
    (by simp only [eqy, evy, eqz]; exact Y2) (by simp only [eqz]; exact Z2)
  have SZ := coord_step (vz := vz * 1000) (az := kz) CZ hzd (by simp only [eqz]; exact EZ) (by simp only [evz, eqz]; exact Z1) (by simp only [eqz]; exact Z1)
    (by simp only [evz, eqz]; exact Z2) (by simp only [eqz]; exact Z2)
  simp only [eqx, eqy, eqz, evx, evy, evz, ← hkx, ← hky, ← hkz] at SX SY SZ
  obtain ⟨A, hA⟩ := SX.bound
  obtain ⟨B, hB⟩ := SY.bound
  obtain ⟨D, hD⟩ := SZ.bound
  refine ⟨A + B + D, ?_⟩
  filter_upwards [hA, hB, hD] with t ha hb hc
  rw [norm_pow, Real.norm_eq_abs, Real.norm_eq_abs] at ha hb hc
  refine ⟨(px * 1000 + vx * 1000 * t + (kx * t + force αx β γx (x1 t) (z1 t) * t + force αx β γx (x2 t) (z2 t) * t) * t / 6,
    py * 1000 + vy * 1000 * t + (ky * t + force αx β γy (y1 t) (z1 t) * t + force αx β γy (y2 t) (z2 t) * t) * t / 6,
    pz * 1000 + vz * 1000 * t + (kz * t + force αz β γz (z1 t) (z1 t) * t + force αz β γz (z2 t) (z2 t) * t) * t / 6), ?_, ?_⟩
  · simp only [broadcastLayout, List.cons_append, List.nil_append, glonassSatXyz]
    by_cases hdt : t = 0
    · rw [if_pos hdt, hdt]
      simp
    · rw [if_neg hdt, pySqrt_ok _ (by positivity), hlen]
      simp only
      rw [pyDiv_ok _ _ (by positivity)]
      simp only
      rw [pyDiv_ok _ _ (by positivity)]
      simp only
      rw [← hq, ← hs]
      have fx : ∀ x z : ℝ, -q * x - s * x * (1 - 5 * z ^ 2 / r ^ 2) + datumOmega ^ 2 * x + 2 * datumOmega * (vy * 1000) + wx * 1000 = force αx β γx x z := by
        intro x z; unfold force; rw [hαx, hβ, hγx]; ring
      have fy : ∀ x z : ℝ, -q * x - s * x * (1 - 5 * z ^ 2 / r ^ 2) + datumOmega ^ 2 * x - 2 * datumOmega * (vx * 1000) + wy * 1000 = force αx β γy x z := by
        intro x z; unfold force; rw [hαx, hβ, hγy]; ring
      have fz : ∀ z : ℝ, -q * z - s * z * (3 - 5 * z ^ 2 / r ^ 2) + wz * 1000 = force αz β γz z z := by
        intro z; unfold force; rw [hαz, hβ, hγz]; ring
      simp only [fx, fy, fz]
      rfl
  · exact len_bound ha hb hc

/-- C69: there is such a motion, whatever is broadcast. -/
theorem C69_motion_exists (mu ae j2 om r : ℝ) (p v w u : Vec) : ∃ Q V, Motion (frozenAcc mu ae j2 om r v w) Q V ∧ Q 0 = p ∧ V 0 = u := by
  have hf : ContDiff ℝ 1 fun x : Vec × Vec => (x.2, frozenAcc mu ae j2 om r v w x.1) := by
    unfold frozenAcc
    fun_prop
  obtain ⟨α, h0, ε, hε, hα⟩ := (hf.contDiffAt (x := (p, u))).exists_forall_mem_closedBall_exists_eq_forall_mem_Ioo_hasDerivAt₀ 0
  refine ⟨fun t => (α t).1, fun t => (α t).2, ?_, by simp [h0], by simp [h0]⟩
  filter_upwards [Ioo_mem_nhds (show 0 - ε < 0 by linarith) (show (0:ℝ) < 0 + ε by linarith)] with t ht
  exact ⟨(hα t ht).fst, (hα t ht).snd⟩

/-! ## The function of each system -/

/-- C68: GPS, BeiDou and Galileo satellites get the position computed from the orbital elements -/
theorem C68_systems (fuel : ℕ) (c : Char) (hc : c ∈ ['G', 'C', 'E']) (o : Elements) (iode : ℝ) (rest : List ℝ) (sec : ℝ) (p : ℝ × ℝ × ℝ) (h0 : 0 ≤ o.e) (h1 : o.e < 1 / 2)
    (h : satXyz fuel c (iode :: o.layout ++ rest) sec = .ok (some p)) :
    ∃ tk E v, ToWeek (sec - o.toe) tk ∧ Kepler o.e (meanAnomaly o tk) E ∧ TrueAnomaly o.e E v ∧
      p = orbitPoint (radius o E v + 2 * o.sqrtA ^ 2 * o.e * cos E) (argLat o v) (inclination o v tk) (nodeLon o tk) ∧
      len p = |radius o E v + 2 * o.sqrtA ^ 2 * o.e * cos E| := by
  apply C68_position fuel o iode rest sec p h0 h1
  simp only [List.mem_cons, List.not_mem_nil, or_false] at hc
  rcases hc with rfl | rfl | rfl <;> simpa [satXyz] using h

/-- C69: GLONASS and SBAS satellites get the position computed from the broadcast motion -/
theorem C69_systems (fuel : ℕ) (c : Char) (hc : c ∈ ['R', 'S']) (p v w : Vec) (health freq : ℝ) (rest : List ℝ) (hp : p ≠ (0, 0, 0)) (Q V : ℝ → Vec)
    (hm : Motion (frozenAcc earthMu iccRadius iccJ2 earthOmega (len (scale 1000 p)) (scale 1000 v) (scale 1000 w)) Q V) (hQ : Q 0 = scale 1000 p) (hV : V 0 = scale 1000 v) :
    ∃ C, ∀ᶠ dt in 𝓝 0, ∃ s, satXyz fuel c (broadcastLayout p v w health freq ++ rest) dt = .ok (some s) ∧ len (sub s (Q dt)) ≤ C * |dt| ^ 5 := by
  obtain ⟨C, h⟩ := C69_order p v w health freq rest hp Q V hm hQ hV
  refine ⟨C, h.mono fun dt ⟨s, h1, h2⟩ => ⟨s, ?_, h2⟩⟩
  simp only [List.mem_cons, List.not_mem_nil, or_false] at hc
  rcases hc with rfl | rfl <;> simp [satXyz, h1, Except.map]

/-- C69: there is no function for other systems -/
theorem C69_others (fuel : ℕ) (c : Char) (hc : c ∉ ['G', 'C', 'E', 'R', 'S']) (eph : List ℝ) (sec : ℝ) : satXyz fuel c eph sec = .error .key := by
  simp only [List.mem_cons, List.not_mem_nil, or_false, not_or] at hc
  simp [satXyz, hc]

end Verif.Props
