import Verif.Proofs.DoubleErr
import Verif.Model.Double
import Verif.Props.Tec
/-!
# C83: rounding errors of TEC
-/
namespace Verif.Props
open Verif.Py Verif.Model Verif.Spec Verif.Proofs

/-- Python's `** 2` on floats is within one unit in the last place -/
def SquareOk (sq : Rat → Rat) : Prop := ∀ f, |sq f - f ^ 2| ≤ f ^ 2 / 2 ^ 52

theorem squareOk_near {sq : Rat → Rat} (h : SquareOk sq) (f : Rat) : Near 2 (sq f) (f ^ 2) := by
  have := h f
  unfold Near
  rw [abs_of_nonneg (sq_nonneg f)]
  refine this.trans (le_of_eq ?_)
  norm_num
  ring

/-- rounded once: exact rounding of the exact result satisfies the requirement -/
theorem squareOk_double : SquareOk (fun f => double (f ^ 2)) := by
  intro f
  have := double_err (f ^ 2)
  rw [abs_of_nonneg (sq_nonneg f)] at this
  refine this.trans ?_
  apply div_le_div_of_nonneg_left (sq_nonneg f) (by norm_num) (by norm_num)

/-- the two carriers are not too close -/
def Separated (f1 f2 : Rat) : Prop := f1 ^ 2 + f2 ^ 2 ≤ 100 * |f1 ^ 2 - f2 ^ 2|

theorem factor_near {sq : Rat → Rat} (h : SquareOk sq) {f1 f2 K : Rat} (hsep : Separated f1 f2) (hK : tecFactor f1 f2 = .ok K) : Near 227 (tecFactorDouble sq f1 f2) K := by
  unfold tecFactor at hK
  split at hK
  · cases hK
  · rename_i hne
    obtain rfl := Except.ok.inj hK
    have s1 := squareOk_near h f1
    have s2 := squareOk_near h f2
    have hA := near_double (near_mul s1 s2 (by norm_num) (by norm_num)) (by norm_num)
    have hC := near_double (near_div (near_refl 1) (near_double (near_refl (40308 / 1000)) (by norm_num)) (by norm_num) (by norm_num) (by norm_num)) (by norm_num)
    have hCA := near_double (near_mul hC hA (by norm_num) (by norm_num)) (by norm_num)
    have hB0 : Near 200 (sq f1 - sq f2) (f1 ^ 2 - f2 ^ 2) := by
      unfold Near at *
      unfold Separated at hsep
      have e : sq f1 - sq f2 - (f1 ^ 2 - f2 ^ 2) = (sq f1 - f1 ^ 2) - (sq f2 - f2 ^ 2) := by ring
      rw [e]
      rw [abs_of_nonneg (sq_nonneg f1)] at s1
      rw [abs_of_nonneg (sq_nonneg f2)] at s2
      have := abs_sub (sq f1 - f1 ^ 2) (sq f2 - f2 ^ 2)
      norm_num at s1 s2 ⊢
      linarith
    have hB := near_double hB0 (by norm_num)
    have hQ := near_double (near_div hCA hB hne (by norm_num) (by norm_num)) (by norm_num)
    have hT := near_double (near_mul hQ (near_double (near_refl (1 / 10 ^ 16)) (by norm_num)) (by norm_num) (by norm_num)) (by norm_num)
    exact hT

/-- C83: TEC of two pseudoranges in floating point: `K` TECU per metre of difference, the error is bounded by the pseudoranges and their difference -/
theorem C83_code {sq : Rat → Rat} (h : SquareOk sq) (p1 p2 f1 f2 K T : Rat) (hsep : Separated f1 f2) (hK : tecFactor f1 f2 = .ok K)
    (hT : viaP (some p1) (some p2) (some f1) (some f2) = .ok (some T)) :
    |viaPDouble sq p1 p2 f1 f2 - T| ≤ |K| * (229 * |p2 - p1| + 5 * (|p2| + |p1|)) / 2 ^ 53 := by
  have hTK : T = K * (p2 - p1) := by
    simp only [viaP] at hT
    split_ifs at hT
    · simp at hT
    · simp at hT
    · simp at hT
    · simp at hT
    · rw [hK] at hT
      simpa using hT.symm
  have hd := sub_double (near_double (near_refl p2) (by norm_num)) (near_double (near_refl p1) (by norm_num)) (by norm_num)
  have := scale_double (factor_near h hsep hK) (by norm_num) (by norm_num) (by positivity) hd
  rw [hTK]
  exact_mod_cast this

theorem viaL_value {F : Type} [Field F] [DecidableEq F] {l1 l2 f1 f2 k T : F} (hK : tecFactor f1 f2 = .ok k) (hT : viaL (some l1) (some l2) (some f1) (some f2) 0 = .ok (some T)) :
    T = k * (wavelength f1 * l1 - wavelength f2 * l2) := by
  unfold viaL at hT
  simp only [hK] at hT
  split_ifs at hT
  all_goals simp only [Except.ok.injEq, Option.some.injEq, reduceCtorEq] at hT
  rw [← hT, sub_zero]
  unfold wavelength lightSpeed
  rfl

theorem near_double0 (w : Rat) : Near 2 (double w) w := near_double (a := 0) (near_refl w) (by norm_num)

theorem near_prod (w l : Rat) : Near 7 (double (double w * double l)) (w * l) :=
  near_double (a := 5) (near_mul (a := 2) (b := 2) (near_double0 w) (near_double0 l) (by norm_num) (by norm_num)) (by norm_num)

/-- C83: the same for two carrier phases; `x1`, `x2` are the phases in metres -/
theorem C83_phase {sq : Rat → Rat} (h : SquareOk sq) (l1 l2 f1 f2 K T : Rat) (hsep : Separated f1 f2) (hK : tecFactor f1 f2 = .ok K)
    (hT : viaL (some l1) (some l2) (some f1) (some f2) 0 = .ok (some T)) (x1 x2 : Rat) (hx1 : x1 = wavelength f1 * l1) (hx2 : x2 = wavelength f2 * l2) :
    |viaLDouble sq l1 l2 f1 f2 - T| ≤ |K| * (229 * |x1 - x2| + 10 * (|x1| + |x2|)) / 2 ^ 53 := by
  rw [viaL_value hK hT]
  have hw : ∀ f : Rat, (lightSpeed / f : Rat) = wavelength f := fun f => by simp only [wavelength, lightSpeed]
  unfold viaLDouble
  rw [hw f1, hw f2]
  have n1 := near_prod (wavelength f1) l1
  have n2 := near_prod (wavelength f2) l2
  rw [← hx1] at n1 ⊢
  rw [← hx2] at n2 ⊢
  have hd := sub_double n1 n2 (by norm_num)
  have := scale_double (factor_near h hsep hK) (by norm_num) (by norm_num) (by positivity) hd
  exact_mod_cast this

/-- C83: the same for a pseudorange and a phase on one frequency; `x` is the phase in metres -/
theorem C83_single {sq : Rat → Rat} (h : SquareOk sq) (l c f T : Rat) (hT : viaLC (some l) (some c) (some f) = some T) :
    let x := wavelength f * l
    let K := f ^ 2 / (2 * (40308 / 1000) * 10 ^ 16)
    |viaLCDouble sq l c f - T| ≤ |K| * (30 * |c - x| + 24 * (|c| + |x|)) / 2 ^ 53 := by
  intro x K
  have hTK : T = K * (c - x) ∧ f ≠ 0 := by
    simp only [viaLC] at hT
    split_ifs at hT with a
    refine ⟨?_, a⟩
    rw [← Option.some.inj hT]
    simp only [K, x, wavelength, lightSpeed]
    field_simp
  obtain ⟨hTK, hf⟩ := hTK
  have hs := near_double (near_mul (near_refl (1 / 2)) (squareOk_near h f) (by norm_num) (by norm_num)) (by norm_num)
  have hk := near_double (near_div hs (near_double (near_refl (40308 / 1000)) (by norm_num)) (by norm_num) (by norm_num) (by norm_num)) (by norm_num)
  have hx : Near 9 (double (double (double l * lightSpeed) / f)) x := by
    have := near_double (near_div (near_double (near_mul (near_double (near_refl l) (by norm_num)) (near_refl lightSpeed) (by norm_num) (by norm_num)) (by norm_num)) (near_refl f) hf
      (by norm_num) (by norm_num)) (by norm_num)
    have e : l * lightSpeed / f = x := by simp only [x, wavelength, lightSpeed]; ring
    rw [e] at this
    exact this
  have hc : Near 9 (double c) c := by
    have := near_double (near_refl c) (by norm_num)
    unfold Near at *
    refine this.trans ?_
    gcongr
    norm_num
  have hd := sub_double hc hx (by norm_num)
  have h1 := scale_double hk (by norm_num) (by norm_num) (by positivity) hd
  have h1' : |double (double (double (1 / 2 * sq f) / double (40308 / 1000)) * double (double c - double (double (double l * lightSpeed) / f))) - 1 / 2 * f ^ 2 / (40308 / 1000) * (c - x)| ≤
      ((1 : Nat) : Rat) / 2 ^ 53 * (|1 / 2 * f ^ 2 / (40308 / 1000)| * (13 * |c - x| + 12 * (|c| + |x|))) := by
    refine h1.trans (le_of_eq ?_)
    push_cast
    ring
  have h2 := scale_double (near_double (near_refl (1 / 10 ^ 16)) (by norm_num)) (by norm_num) (by norm_num) (by positivity) h1'
  have e1 : K * (c - x) = 1 / 10 ^ 16 * (1 / 2 * f ^ 2 / (40308 / 1000) * (c - x)) := by simp only [K]; field_simp
  have e2 : |K| = 1 / 10 ^ 16 * |1 / 2 * f ^ 2 / (40308 / 1000)| := by
    have : K = 1 / 10 ^ 16 * (1 / 2 * f ^ 2 / (40308 / 1000)) := by simp only [K]; field_simp
    rw [this, abs_mul, abs_of_pos (show (0 : Rat) < 1 / 10 ^ 16 by norm_num)]
  rw [hTK, e1, e2]
  unfold viaLCDouble
  rw [mul_comm (double (double (double (1 / 2 * sq f) / double (40308 / 1000)) * _))]
  refine h2.trans (le_of_eq ?_)
  rw [abs_mul (1 / 2 * f ^ 2 / (40308 / 1000)), abs_of_pos (show (0 : Rat) < 1 / 10 ^ 16 by norm_num)]
  push_cast
  ring

/-- C83: the carrier frequencies are computed without error -/
theorem C83_frequencies (system : Char) (k : Int) (hk : |k| ≤ 1000) : freqsDouble system (gloF1Double k, gloF2Double k) = freqsOf system (gloF1 (k : Rat), gloF2 (k : Rat)) := by
  have a1 : mhzDouble (157542 / 100) = 157542 / 100 * 10 ^ 6 := by decide +kernel
  have a2 : mhzDouble (122760 / 100) = 122760 / 100 * 10 ^ 6 := by decide +kernel
  have a3 : mhzDouble (117645 / 100) = 117645 / 100 * 10 ^ 6 := by decide +kernel
  have a4 : mhzDouble (1561098 / 1000) = 1561098 / 1000 * 10 ^ 6 := by decide +kernel
  have a5 : mhzDouble (126852 / 100) = 126852 / 100 * 10 ^ 6 := by decide +kernel
  have a6 : mhzDouble (120714 / 100) = 120714 / 100 * 10 ^ 6 := by decide +kernel
  have a7 : mhzDouble (127875 / 100) = 127875 / 100 * 10 ^ 6 := by decide +kernel
  have a8 : mhzDouble (1191795 / 1000) = 1191795 / 1000 * 10 ^ 6 := by decide +kernel
  obtain ⟨k1, k2⟩ := abs_le.1 hk
  have g1 : gloF1Double k = gloF1 (k : Rat) := by
    have b1 : double (double (1602 / 1000) * 10 ^ 9) = 1602000000 := by decide +kernel
    have b2 : double (5625 / 10) = 5625 / 10 := by decide +kernel
    unfold gloF1Double gloF1
    rw [b1, b2]
    have e1 : (k : Rat) * (5625 / 10) = ((1125 * k : Int) : Rat) / 2 := by push_cast; ring
    rw [e1, double_half _ (by rw [abs_lt]; constructor <;> omega)]
    have e2 : ((1125 * k : Int) : Rat) / 2 * 1000 = ((562500 * k : Int) : Rat) := by push_cast; ring
    rw [e2, double_int _ (by rw [abs_lt]; constructor <;> omega)]
    have e3 : (1602000000 : Rat) + ((562500 * k : Int) : Rat) = ((1602000000 + 562500 * k : Int) : Rat) := by push_cast; ring
    rw [e3, double_int _ (by rw [abs_lt]; constructor <;> omega)]
    push_cast
    ring
  have g2 : gloF2Double k = gloF2 (k : Rat) := by
    have b1 : double (double (1246 / 1000) * 10 ^ 9) = 1246000000 := by decide +kernel
    have b2 : double (4375 / 10) = 4375 / 10 := by decide +kernel
    unfold gloF2Double gloF2
    rw [b1, b2]
    have e1 : (k : Rat) * (4375 / 10) = ((875 * k : Int) : Rat) / 2 := by push_cast; ring
    rw [e1, double_half _ (by rw [abs_lt]; constructor <;> omega)]
    have e2 : ((875 * k : Int) : Rat) / 2 * 1000 = ((437500 * k : Int) : Rat) := by push_cast; ring
    rw [e2, double_int _ (by rw [abs_lt]; constructor <;> omega)]
    have e3 : (1246000000 : Rat) + ((437500 * k : Int) : Rat) = ((1246000000 + 437500 * k : Int) : Rat) := by push_cast; ring
    rw [e3, double_int _ (by rw [abs_lt]; constructor <;> omega)]
    push_cast
    ring
  unfold freqsDouble freqsOf
  rw [a1, a2, a3, a4, a5, a6, a7, a8, g1, g2]

/-- the carriers of two bands of a system are separated, and a metre is worth at most 150 TECU -/
theorem carriers_separated (system b1 b2 : Char) (hb : b1 ≠ b2) (k : Rat) (hk : |k| ≤ 100) (f1 f2 : Rat) (h1 : carrier system b1 k = some f1) (h2 : carrier system b2 k = some f2) :
    Separated f1 f2 ∧ ∃ K, tecFactor f1 f2 = .ok K ∧ |K| ≤ 150 := by
  obtain ⟨k1, k2⟩ := abs_le.1 hk
  have key : ∀ f1 f2 : Rat, f1 ^ 2 - f2 ^ 2 ≠ 0 → f1 ^ 2 + f2 ^ 2 ≤ 100 * |f1 ^ 2 - f2 ^ 2| → f1 ^ 2 * f2 ^ 2 ≤ 6 * 10 ^ 19 * |f1 ^ 2 - f2 ^ 2| →
      Separated f1 f2 ∧ ∃ K, tecFactor f1 f2 = .ok K ∧ |K| ≤ 150 := by
    intro f1 f2 ha hb hc
    refine ⟨hb, _, by unfold tecFactor; rw [if_neg ha], ?_⟩
    have hD : 0 < |f1 ^ 2 - f2 ^ 2| := abs_pos.2 ha
    rw [abs_mul, abs_div, abs_mul, abs_of_nonneg (show 0 ≤ f1 ^ 2 * f2 ^ 2 by positivity), abs_of_pos (show (0 : Rat) < 1 / (40308 / 1000) by norm_num),
      abs_of_pos (show (0 : Rat) < 1 / 10 ^ 16 by norm_num), div_mul_eq_mul_div, div_le_iff₀ hD]
    norm_num at hc ⊢
    linarith
  unfold carrier at h1 h2
  split at h1 <;> split at h2 <;> (try (exact absurd rfl hb)) <;> (try contradiction) <;>
    (injection h1 with h1; injection h2 with h2; subst h1 h2) <;> (try (apply key <;> norm_num [abs_of_pos, abs_of_neg] <;> done))
  all_goals
    obtain ⟨g, hg⟩ : ∃ g, g = (2848 + k) * 62500 := ⟨_, rfl⟩
    have hg0 : 0 < g := by rw [hg]; linarith
    have hg1 : g ≤ 2 * 10 ^ 8 := by rw [hg]; linarith
    have hf1 : 1602000000 + k * 562500 = 9 * g := by rw [hg]; ring
    have hf2 : 1246000000 + k * 437500 = 7 * g := by rw [hg]; ring
    have hgg : 0 < g ^ 2 := by positivity
    have hgs : g ^ 2 ≤ (2 * 10 ^ 8) ^ 2 := pow_le_pow_left₀ hg0.le hg1 2
    have hgs' : g ^ 2 * g ^ 2 ≤ g ^ 2 * (2 * 10 ^ 8) ^ 2 := mul_le_mul_of_nonneg_left hgs hgg.le
    rw [hf1, hf2]
  · have e : (9 * g) ^ 2 - (7 * g) ^ 2 = 32 * g ^ 2 := by ring
    apply key <;> rw [e]
    · positivity
    · rw [abs_of_pos (by positivity)]; linarith
    · rw [abs_of_pos (by positivity)]; norm_num at hgs' ⊢; linarith
  · have e : (7 * g) ^ 2 - (9 * g) ^ 2 = -(32 * g ^ 2) := by ring
    apply key <;> rw [e]
    · exact neg_ne_zero.2 (by positivity)
    · rw [abs_neg, abs_of_pos (by positivity)]; linarith
    · rw [abs_neg, abs_of_pos (by positivity)]; norm_num at hgs' ⊢; linarith

/-- C83: for the carriers of a system and pseudoranges up to 50000 km that differ by up to 1000 km, the error is below 1/10000 TECU, a tenth of the last decimal printed -/
theorem C83_code_tecu {sq : Rat → Rat} (h : SquareOk sq) (system b1 b2 : Char) (hb : b1 ≠ b2) (k : Rat) (hk : |k| ≤ 100) (f1 f2 : Rat)
    (h1 : carrier system b1 k = some f1) (h2 : carrier system b2 k = some f2) (p1 p2 T : Rat) (hp1 : |p1| ≤ 50000000) (hp2 : |p2| ≤ 50000000) (hd : |p2 - p1| ≤ 1000000)
    (hT : viaP (some p1) (some p2) (some f1) (some f2) = .ok (some T)) : |viaPDouble sq p1 p2 f1 f2 - T| < 1 / 10000 := by
  obtain ⟨hsep, K, hK, hK2⟩ := carriers_separated system b1 b2 hb k hk f1 f2 h1 h2
  refine lt_of_le_of_lt (C83_code h p1 p2 f1 f2 K T hsep hK hT) ?_
  calc |K| * (229 * |p2 - p1| + 5 * (|p2| + |p1|)) / 2 ^ 53 ≤ 150 * (229 * 1000000 + 5 * (50000000 + 50000000)) / 2 ^ 53 := by gcongr
    _ < 1 / 10000 := by norm_num

/-- C83: and for phases -/
theorem C83_phase_tecu {sq : Rat → Rat} (h : SquareOk sq) (system b1 b2 : Char) (hb : b1 ≠ b2) (k : Rat) (hk : |k| ≤ 100) (f1 f2 : Rat)
    (h1 : carrier system b1 k = some f1) (h2 : carrier system b2 k = some f2) (l1 l2 T : Rat) (hp1 : |wavelength f1 * l1| ≤ 50000000) (hp2 : |wavelength f2 * l2| ≤ 50000000)
    (hd : |wavelength f1 * l1 - wavelength f2 * l2| ≤ 1000000)
    (hT : viaL (some l1) (some l2) (some f1) (some f2) 0 = .ok (some T)) : |viaLDouble sq l1 l2 f1 f2 - T| < 1 / 10000 := by
  obtain ⟨hsep, K, hK, hK2⟩ := carriers_separated system b1 b2 hb k hk f1 f2 h1 h2
  refine lt_of_le_of_lt (C83_phase h l1 l2 f1 f2 K T hsep hK hT _ _ rfl rfl) ?_
  generalize wavelength f1 * l1 = x1 at *
  generalize wavelength f2 * l2 = x2 at *
  calc |K| * (229 * |x1 - x2| + 10 * (|x1| + |x2|)) / 2 ^ 53 ≤ 150 * (229 * 1000000 + 10 * (50000000 + 50000000)) / 2 ^ 53 := by gcongr
    _ < 1 / 10000 := by norm_num

/-- C83: and for a pseudorange and a phase on one frequency -/
theorem C83_single_tecu {sq : Rat → Rat} (h : SquareOk sq) (system b : Char) (k : Rat) (hk : |k| ≤ 100) (f : Rat) (h1 : carrier system b k = some f) (l c T : Rat)
    (hl : |wavelength f * l| ≤ 50000000) (hc : |c| ≤ 50000000) (hT : viaLC (some l) (some c) (some f) = some T) : |viaLCDouble sq l c f - T| < 1 / 10000 := by
  have hf : 0 ≤ f ∧ f ≤ 1700000000 := by
    obtain ⟨k1, k2⟩ := abs_le.1 hk
    unfold carrier at h1
    split at h1 <;> (try contradiction) <;> (injection h1 with h1; subst h1) <;> constructor <;> linarith
  have hf2 : f ^ 2 ≤ 1700000000 ^ 2 := pow_le_pow_left₀ hf.1 hf.2 2
  refine lt_of_le_of_lt (C83_single h l c f T hT) ?_
  generalize wavelength f * l = x at *
  have hcx : |c - x| ≤ 100000000 := (abs_sub c x).trans (by linarith)
  have hK : |f ^ 2 / (2 * (40308 / 1000) * 10 ^ 16)| ≤ 4 := by
    rw [abs_of_nonneg (by positivity), div_le_iff₀ (by norm_num)]
    norm_num at hf2 ⊢
    linarith
  calc |f ^ 2 / (2 * (40308 / 1000) * 10 ^ 16)| * (30 * |c - x| + 24 * (|c| + |x|)) / 2 ^ 53 ≤ 4 * (30 * 100000000 + 24 * (50000000 + 50000000)) / 2 ^ 53 := by gcongr
    _ < 1 / 10000 := by norm_num

/-- GPS P1 and P2 as they appear in a file: the hypotheses hold, and the floating point value follows -/
theorem C83_example : ∃ T : Rat, viaP (some (23629347915 / 1000)) (some (23629351130 / 1000)) (some 1575420000) (some 1227600000) = .ok (some T) ∧ 30599 / 1000 < T ∧ T < 30601 / 1000 ∧
    SquareOk (fun f => double (f ^ 2)) ∧
    |viaPDouble (fun f => double (f ^ 2)) (23629347915 / 1000) (23629351130 / 1000) 1575420000 1227600000 - T| < 1 / 10000 := by
  have hT : viaP (some (23629347915 / 1000 : Rat)) (some (23629351130 / 1000)) (some 1575420000) (some 1227600000) =
      .ok (some (1 / (40308 / 1000) * (1575420000 ^ 2 * 1227600000 ^ 2) / (1575420000 ^ 2 - 1227600000 ^ 2) * (1 / 10 ^ 16) * (23629351130 / 1000 - 23629347915 / 1000))) := by
    unfold viaP tecFactor
    norm_num
  refine ⟨_, hT, by norm_num, by norm_num, squareOk_double, ?_⟩
  exact C83_code_tecu squareOk_double 'G' '1' '2' (by decide) 0 (by norm_num) _ _ rfl rfl _ _ _ (by rw [abs_le]; norm_num) (by rw [abs_le]; norm_num) (by rw [abs_le]; norm_num) hT

end Verif.Props
