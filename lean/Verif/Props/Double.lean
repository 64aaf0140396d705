import Verif.Proofs.Double
import Verif.Model.Double
import Verif.Props.Writer
/-!
# C82: floating point rounding

Times, slots and observed values are computed in exact arithmetic everywhere else in the model; here the same computations with binary floating point give the same results.
-/
namespace Verif.Props
open Verif.Py Verif.Model Verif.Spec Verif.Proofs

theorem double_bounds {q : Rat} (h : 0 ≤ q) : q - q / 2 ^ 53 ≤ double q ∧ double q ≤ q + q / 2 ^ 53 := by
  have := abs_le.1 (double_err q)
  rw [abs_of_nonneg h] at this
  constructor <;> linarith

theorem double_nonneg {q : Rat} (h : 0 ≤ q) : 0 ≤ double q := by
  have := (double_bounds h).1
  have : q / 2 ^ 53 ≤ q / 1 := div_le_div_of_nonneg_left h (by norm_num) (by norm_num)
  linarith

/-- C82: seconds written with up to seven decimals: reading them as a binary number and splitting them in floating point gives the seconds and microseconds of the exact computation, with the
one decimal of `sec2sec_ms` and with the five of the epoch lines of RINEX 2. -/
theorem C82_seconds (k : Nat) (hk : 1 ≤ k) (hk5 : k ≤ 5) (n : Nat) (hn : n < 10 ^ 10) :
    secSplitWith (· * 1000000) k (.fin (n / 10 ^ 7)) = .ok (secSplitDouble k (n / 10 ^ 7)) := by
  obtain ⟨s, j, hj, hnj⟩ : ∃ s j : Nat, j < 10 ^ 7 ∧ n = s * 10 ^ 7 + j := ⟨n / 10 ^ 7, n % 10 ^ 7, Nat.mod_lt _ (by norm_num), by omega⟩
  have hs : s < 1000 := by omega
  have hjq : (j : Rat) ≤ 9999999 := by have : j ≤ 9999999 := by omega
                                       exact_mod_cast this
  have hsq : (s : Rat) ≤ 999 := by have : s ≤ 999 := by omega
                                   exact_mod_cast this
  have hj0 : (0 : Rat) ≤ j := Nat.cast_nonneg j
  have hs0 : (0 : Rat) ≤ s := Nat.cast_nonneg s
  have hq : ((n : Nat) : Rat) / 10 ^ 7 = s + j / 10 ^ 7 := by
    rw [hnj]; push_cast; field_simp; norm_num
  rw [hq]
  -- the exact computation
  have hround : ∀ m : Rat, (j : Rat) / 10 - 1 / 10 ^ 6 < m → m < (j : Rat) / 10 + 1 / 10 ^ 6 → roundDec k m = (j : Rat) / 10 := by
    intro m h1 h2
    obtain ⟨k', rfl⟩ : ∃ k', k = k' + 1 := ⟨k - 1, by omega⟩
    have hp : (0 : Rat) < 10 ^ (k' + 1) := by positivity
    have hp5 : (10 : Rat) ^ (k' + 1) ≤ 10 ^ 5 := pow_le_pow_right₀ (by norm_num) hk5
    have e1 : ((j * 10 ^ k' : Nat) : Rat) = (j : Rat) / 10 * 10 ^ (k' + 1) := by push_cast; rw [pow_succ]; ring
    have hr : roundHalfEven (m * 10 ^ (k' + 1)) = ((j * 10 ^ k' : Nat) : Int) := by
      apply roundHalfEven_near
      · push_cast; push_cast at e1; rw [e1]
        have : (j : Rat) / 10 * 10 ^ (k' + 1) - m * 10 ^ (k' + 1) ≤ 1 / 10 ^ 6 * 10 ^ 5 := by
          rw [← sub_mul]
          by_cases hneg : (j : Rat) / 10 - m ≤ 0
          · have := mul_nonpos_of_nonpos_of_nonneg hneg hp.le
            have : (0 : Rat) ≤ 1 / 10 ^ 6 * 10 ^ 5 := by norm_num
            linarith
          · exact mul_le_mul (by linarith) hp5 hp.le (by norm_num)
        norm_num at this ⊢
        linarith
      · push_cast; push_cast at e1; rw [e1]
        have : m * 10 ^ (k' + 1) - (j : Rat) / 10 * 10 ^ (k' + 1) ≤ 1 / 10 ^ 6 * 10 ^ 5 := by
          rw [← sub_mul]
          by_cases hneg : m - (j : Rat) / 10 ≤ 0
          · have := mul_nonpos_of_nonpos_of_nonneg hneg hp.le
            have : (0 : Rat) ≤ 1 / 10 ^ 6 * 10 ^ 5 := by norm_num
            linarith
          · exact mul_le_mul (by linarith) hp5 hp.le (by norm_num)
        norm_num at this ⊢
        linarith
    unfold roundDec
    rw [hr]
    push_cast
    rw [pow_succ]
    field_simp
  have ht : truncRat ((s : Rat) + j / 10 ^ 7) = (s : Int) := by
    apply truncRat_eq _ _ (by omega)
    · push_cast; have : (0 : Rat) ≤ j / 10 ^ 7 := by positivity
      linarith
    · push_cast; norm_num; linarith
  have hex : secSplitWith (· * 1000000) k (.fin (s + j / 10 ^ 7)) = .ok ((s : Int), truncRat ((j : Rat) / 10)) := by
    unfold secSplitWith
    simp only [ht]
    have e : ((s : Rat) + j / 10 ^ 7 - ((s : Int) : Rat)) * 1000000 = (j : Rat) / 10 := by push_cast; ring
    rw [e, hround _ (by linarith) (by linarith)]
  rw [hex]
  -- the floating point computation
  have hlast : truncRat (double ((j : Rat) / 10)) = truncRat ((j : Rat) / 10) := by
    obtain ⟨a, b, hb, hab⟩ : ∃ a b : Nat, b < 10 ∧ j = a * 10 + b := ⟨j / 10, j % 10, Nat.mod_lt _ (by norm_num), by omega⟩
    have ha : (a : Rat) ≤ 999999 := by have : a ≤ 999999 := by omega
                                       exact_mod_cast this
    have ha0 : (0 : Rat) ≤ a := Nat.cast_nonneg a
    have e : (j : Rat) / 10 = a + b / 10 := by rw [hab]; push_cast; field_simp
    by_cases hb0 : b = 0
    · have e2 : (j : Rat) / 10 = ((a : Int) : Rat) := by rw [e, hb0]; simp
      rw [e2, double_int _ (by rw [abs_of_nonneg (by omega)]; omega)]
    · have hb1 : (1 : Rat) ≤ b := by have : 1 ≤ b := by omega
                                     exact_mod_cast this
      have hb9 : (b : Rat) ≤ 9 := by have : b ≤ 9 := by omega
                                     exact_mod_cast this
      obtain ⟨d1, d2⟩ := double_bounds (show (0 : Rat) ≤ (j : Rat) / 10 by positivity)
      rw [e] at d1 d2 ⊢
      norm_num at d1 d2
      rw [truncRat_eq (n := (a : Int)) (by push_cast; linarith) (by push_cast; linarith) (by omega),
        truncRat_eq (n := (a : Int)) (by push_cast; linarith) (by push_cast; linarith) (by omega)]
  unfold secSplitDouble
  simp only
  by_cases hj00 : j = 0
  · subst hj00
    have e : ((s : Rat) + ((0 : Nat) : Rat) / 10 ^ 7) = ((s : Int) : Rat) := by push_cast; simp
    rw [e, double_int _ (by rw [abs_of_nonneg (by omega)]; omega), truncRat_int]
    simp only [sub_self, double_zero, zero_mul]
    rw [hround 0 (by norm_num) (by norm_num), hlast]
  · have hj1 : (1 : Rat) ≤ j := by have : 1 ≤ j := by omega
                                   exact_mod_cast this
    obtain ⟨d1, d2⟩ := double_bounds (show (0 : Rat) ≤ (s : Rat) + j / 10 ^ 7 by positivity)
    norm_num at d1 d2
    have htd : truncRat (double ((s : Rat) + j / 10 ^ 7)) = (s : Int) := by
      norm_num
      apply truncRat_eq _ _ (by omega)
      · push_cast; linarith
      · push_cast; linarith
    rw [htd]
    norm_num
    set x := double ((s : Rat) + j / 10000000) with hx
    obtain ⟨f1, f2⟩ := double_bounds (show (0 : Rat) ≤ x - s by linarith)
    norm_num at f1 f2
    set y := double (x - s) with hy
    have hy0 : 0 ≤ y := by linarith
    obtain ⟨g1, g2⟩ := double_bounds (show (0 : Rat) ≤ y * 1000000 by positivity)
    norm_num at g1 g2
    rw [hround _ (by norm_num; linarith) (by norm_num; linarith), hlast]

/-- C82: a value that has at most as many decimals as the column is printed the same after rounding to binary -/
theorem fixed_double (sp : Bool) (p : Nat) (n : Int) (hn : |n| < 2 ^ 52) : fixedStr sp p (.fin (double (n / 10 ^ p))) = fixedStr sp p (.fin (n / 10 ^ p)) := by
  have hp : (0 : Rat) < 10 ^ p := by positivity
  have hnq : |(n : Rat)| < 2 ^ 52 := by
    have : ((|n| : Int) : Rat) < ((2 ^ 52 : Int) : Rat) := by exact_mod_cast hn
    push_cast at this
    exact this
  have hsign := double_neg_iff ((n : Rat) / 10 ^ p)
  have herr : |double ((n : Rat) / 10 ^ p) * 10 ^ p - n| < 1 / 2 := by
    have h1 := double_err ((n : Rat) / 10 ^ p)
    have h2 : double ((n : Rat) / 10 ^ p) * 10 ^ p - n = (double ((n : Rat) / 10 ^ p) - n / 10 ^ p) * 10 ^ p := by
      rw [sub_mul, div_mul_cancel₀ _ hp.ne']
    rw [h2, abs_mul, abs_of_pos hp]
    calc |double ((n : Rat) / 10 ^ p) - n / 10 ^ p| * 10 ^ p ≤ |(n : Rat) / 10 ^ p| / 2 ^ 53 * 10 ^ p := mul_le_mul_of_nonneg_right h1 hp.le
      _ = |(n : Rat)| / 2 ^ 53 := by rw [abs_div, abs_of_pos hp]; field_simp
      _ < 2 ^ 52 / 2 ^ 53 := by gcongr
      _ = 1 / 2 := by norm_num
  obtain ⟨e1, e2⟩ := abs_lt.1 herr
  have hpos : roundHalfEven (double ((n : Rat) / 10 ^ p) * 10 ^ p) = n := roundHalfEven_near (by linarith) (by linarith)
  have hneg : roundHalfEven (-double ((n : Rat) / 10 ^ p) * 10 ^ p) = -n := roundHalfEven_near (by push_cast; linarith) (by push_cast; linarith)
  have hpos' : roundHalfEven ((n : Rat) / 10 ^ p * 10 ^ p) = n := by rw [div_mul_cancel₀ _ hp.ne', roundHalfEven_int]
  have hneg' : roundHalfEven (-((n : Rat) / 10 ^ p) * 10 ^ p) = -n := by
    rw [neg_mul, div_mul_cancel₀ _ hp.ne']
    have : (-(n : Rat)) = ((-n : Int) : Rat) := by push_cast; rfl
    rw [this, roundHalfEven_int]
  unfold fixedStr fixedAbs
  simp only [hsign, hpos, hneg, hpos', hneg']

/-- the columns with observed values -/
def observedColumns : List Str :=
  [c% "p1", c% "p2", c% "l1", c% "l2", c% "s1", c% "s2", c% "s5", c% "c1", c% "c2", c% "l5", c% "c5"]

/-- C82: in every column for an observed value, a value with three decimals (as in RINEX files) below 4·10¹² is printed the same after rounding to binary. -/
theorem C82_observed (dtLen : Nat) : ∀ name ∈ observedColumns, ∃ i spec fortran, (formatDef dtLen).get? name = some ⟨'{' :: natStr i ++ ':' :: spec ++ ['}'], fortran⟩ ∧
    ∀ n : Int, |n| < 2 ^ 52 → formatVal spec (.flt (.fin (double (n / 1000)))) = formatVal spec (.flt (.fin (n / 1000))) := by
  have hspec : ∀ n : Int, |n| < 2 ^ 52 → formatVal (c% " 16.3f") (.flt (.fin (double (n / 1000)))) = formatVal (c% " 16.3f") (.flt (.fin (n / 1000))) := by
    intro n hn
    have h1 : parseSpec (c% " 16.3f") = some ⟨true, 16, 3, 'f'⟩ := by decide
    have h2 := fixed_double true 3 n hn
    norm_num at h2
    unfold formatVal
    rw [h1]
    simp only [reduceCtorEq, if_false, show ¬ ('f' = 'd') by decide]
    rw [h2]
  intro name hname
  have hcol : ∃ i, i < 54 ∧ (formatDef dtLen).get? name = some ⟨'{' :: natStr i ++ ':' :: (c% " 16.3f") ++ ['}'], c% "F16.3"⟩ := by
    revert name
    have : ∀ name ∈ observedColumns, ∃ i < 54, ((formatDef 0).get? name = some ⟨'{' :: natStr i ++ ':' :: (c% " 16.3f") ++ ['}'], c% "F16.3"⟩) := by decide +kernel
    intro name hname
    obtain ⟨i, hi, h⟩ := this name hname
    refine ⟨i, hi, ?_⟩
    rw [← h]
    have hne : name ≠ c% "datetime" := by rintro rfl; revert hname; decide
    simp only [observedColumns, List.mem_cons, List.not_mem_nil, or_false] at hname
    rcases hname with rfl | rfl | rfl | rfl | rfl | rfl | rfl | rfl | rfl | rfl | rfl <;> rfl
  obtain ⟨i, -, h⟩ := hcol
  exact ⟨i, _, _, h, hspec⟩

/-! ## time slots -/

/-- the branches of the slot computation on a value near `q` -/
theorem slot_near (q t δ : Rat) (n : Int) (hn : IsSlot q n) (h0 : 0 ≤ t) (hδ : 1 / 2 ^ 50 ≤ δ) (hδ2 : δ < 1 / 4) (ht : |t - q| ≤ δ) (hh : ∀ m : Int, 2 * δ ≤ |q - (m + 1 / 2)|) :
    (if double (t - truncRat t) ≠ 0 then (if double (t - truncRat t) > 1 / 2 then t.ceil else t.floor) else truncRat t) = n := by
  obtain ⟨a, b⟩ := hn
  obtain ⟨t1, t2⟩ := abs_le.1 ht
  have hb := hh n
  have ha := hh (n - 1)
  rw [abs_of_nonpos (by linarith)] at hb
  rw [abs_of_pos (by push_cast; linarith)] at ha
  push_cast at ha
  have lo : (n : Rat) - 1 / 2 + δ ≤ t := by linarith
  have hi : t ≤ (n : Rat) + 1 / 2 - δ := by linarith
  by_cases hc : (n : Rat) ≤ t
  · have hn0 : 0 ≤ n := by
      by_contra hneg
      have : (n : Rat) ≤ -1 := by have : n ≤ -1 := by omega
                                  exact_mod_cast this
      linarith
    have htr : truncRat t = n := truncRat_eq hc (by linarith) hn0
    have hfl : t.floor = n := ratFloor_eq hc (by linarith)
    rw [htr, hfl]
    obtain ⟨-, d2⟩ := double_bounds (show (0 : Rat) ≤ t - n by linarith)
    have hle : double (t - n) ≤ 1 / 2 := by
      norm_num at d2 hδ
      linarith
    rw [if_neg (not_lt.2 hle)]
    split <;> rfl
  · have hc := not_le.1 hc
    have hn1 : 1 ≤ n := by
      by_contra hneg
      have : (n : Rat) ≤ 0 := by have : n ≤ 0 := by omega
                                 exact_mod_cast this
      linarith
    have htr : truncRat t = n - 1 := truncRat_eq (by push_cast; linarith) (by push_cast; linarith) (by omega)
    have hce : t.ceil = n := by
      rw [Rat.ceil_eq_neg_floor_neg, ratFloor_eq (n := -n) (by push_cast; linarith) (by push_cast; linarith)]
      simp
    rw [htr, hce]
    push_cast
    obtain ⟨d1, -⟩ := double_bounds (show (0 : Rat) ≤ t - (n - 1) by linarith)
    have hgt : 1 / 2 < double (t - (n - 1)) := by
      norm_num at d1 hδ
      linarith
    have hne : double (t - (n - 1)) ≠ 0 := by
      intro e; rw [e] at hgt; norm_num at hgt
    rw [if_pos hne, if_pos hgt]

/-- seconds of the day and their quotient by the interval, in floating point: relative error below 2⁻⁵⁰ -/
theorem slot_err (e : DateTime) (I : Rat) (hI : 0 < I) :
    let sec := double (((e.hour * 3600 + e.minute * 60 + e.second : Nat) : Rat) + double ((e.micro : Rat) * double (1 / 1000000)))
    0 ≤ double (sec / double I) ∧ |double (sec / double I) - secOfDay e / I| ≤ secOfDay e / I / 2 ^ 50 := by
  intro sec
  set W : Rat := ((e.hour * 3600 + e.minute * 60 + e.second : Nat) : Rat) with hW
  have hW0 : 0 ≤ W := Nat.cast_nonneg _
  set M : Rat := (e.micro : Rat) with hM
  have hM0 : 0 ≤ M := Nat.cast_nonneg _
  have hS : secOfDay e = W + M / 1000000 := rfl
  set S := secOfDay e with hSd
  have hS0 : 0 ≤ S := by rw [hS]; positivity
  obtain ⟨c1, c2⟩ := double_bounds (show (0 : Rat) ≤ 1 / 1000000 by norm_num)
  have hc0 := double_nonneg (show (0 : Rat) ≤ 1 / 1000000 by norm_num)
  set c := double (1 / 1000000) with hc
  have mc1 : M * (1 / 1000000 - 1 / 1000000 / 2 ^ 53) ≤ M * c := mul_le_mul_of_nonneg_left c1 hM0
  have mc2 : M * c ≤ M * (1 / 1000000 + 1 / 1000000 / 2 ^ 53) := mul_le_mul_of_nonneg_left c2 hM0
  have hMc0 : 0 ≤ M * c := by positivity
  obtain ⟨m1, m2⟩ := double_bounds hMc0
  have hm0 := double_nonneg hMc0
  set m := double (M * c) with hm
  obtain ⟨s1, s2⟩ := double_bounds (show (0 : Rat) ≤ W + m by linarith)
  have hs0 := double_nonneg (show (0 : Rat) ≤ W + m by linarith)
  have hsec : sec = double (W + m) := rfl
  rw [← hsec] at s1 s2 hs0
  norm_num at mc1 mc2 m1 m2 s1 s2
  have S1 : S * (1 - 4 / 2 ^ 53) ≤ sec := by rw [hS]; norm_num; linarith
  have S2 : sec ≤ S * (1 + 4 / 2 ^ 53) := by rw [hS]; norm_num; linarith
  obtain ⟨i1, i2⟩ := double_bounds hI.le
  have hi0 : 0 < double I := by norm_num at i1; linarith
  set J := double I with hJ
  have hqSI : S = S / I * I := by field_simp
  set q := S / I with hq
  have hq0 : 0 ≤ q := by positivity
  have q1 : q * (1 - 6 / 2 ^ 53) ≤ sec / J := by
    rw [le_div_iff₀ hi0]
    calc q * (1 - 6 / 2 ^ 53) * J ≤ q * (1 - 6 / 2 ^ 53) * (I + I / 2 ^ 53) := by
          apply mul_le_mul_of_nonneg_left i2
          apply mul_nonneg hq0; norm_num
      _ = q * I * ((1 - 6 / 2 ^ 53) * (1 + 1 / 2 ^ 53)) := by ring
      _ = S * ((1 - 6 / 2 ^ 53) * (1 + 1 / 2 ^ 53)) := by rw [← hqSI]
      _ ≤ S * (1 - 4 / 2 ^ 53) := by apply mul_le_mul_of_nonneg_left _ hS0; norm_num
      _ ≤ sec := S1
  have q2 : sec / J ≤ q * (1 + 6 / 2 ^ 53) := by
    rw [div_le_iff₀ hi0]
    calc sec ≤ S * (1 + 4 / 2 ^ 53) := S2
      _ ≤ S * ((1 + 6 / 2 ^ 53) * (1 - 1 / 2 ^ 53)) := by apply mul_le_mul_of_nonneg_left _ hS0; norm_num
      _ = q * I * ((1 + 6 / 2 ^ 53) * (1 - 1 / 2 ^ 53)) := by rw [← hqSI]
      _ = q * (1 + 6 / 2 ^ 53) * (I - I / 2 ^ 53) := by ring
      _ ≤ q * (1 + 6 / 2 ^ 53) * J := by
          apply mul_le_mul_of_nonneg_left i1
          positivity
  have hr0 : 0 ≤ sec / J := by positivity
  obtain ⟨r1, r2⟩ := double_bounds hr0
  refine ⟨double_nonneg hr0, abs_le.2 ?_⟩
  norm_num at q1 q2 r1 r2 ⊢
  constructor <;> linarith

/-- the time of day in microseconds -/
def microOfDay (t : DateTime) : Nat := (t.hour * 3600 + t.minute * 60 + t.second) * 1000000 + t.micro

theorem secOfDay_micro (t : DateTime) : secOfDay t = microOfDay t / 1000000 := by
  unfold secOfDay microOfDay
  push_cast
  ring

theorem microOfDay_lt {t : DateTime} (h : Legal t) : microOfDay t < 86400000000 := by
  obtain ⟨-, h1, h2, h3, h4⟩ := h
  unfold microOfDay
  omega

/-- C82: an interval of a whole number of microseconds (up to a day), rounded to binary: in floating point every time of the day gets the slot of the exact computation, unless it lies exactly half way
between two slots. -/
theorem C82_slot (e : DateTime) (he : Legal e) (i : Nat) (hi : 0 < i) (hi2 : i ≤ 86400000000) (hh : ∀ m : Nat, secOfDay e ≠ (m + 1 / 2) * (i / 1000000)) :
    tsnOf e (i / 1000000) = .ok (tsnDouble e (double (i / 1000000))) := by
  have hiq : (0 : Rat) < i := by exact_mod_cast hi
  have hI : (0 : Rat) < (i : Rat) / 1000000 := by positivity
  obtain ⟨n, h1, h2⟩ := C54_slot e _ hI
  obtain ⟨g0, g1⟩ := slot_err e _ hI
  rw [h1]
  congr 1
  symm
  have hq : secOfDay e / (i / 1000000) = microOfDay e / i := by
    rw [secOfDay_micro]; field_simp
  have hmic : (microOfDay e : Rat) ≤ 86400000000 := by exact_mod_cast (microOfDay_lt he).le
  have hi2q : (i : Rat) ≤ 86400000000 := by exact_mod_cast hi2
  have hi1q : (1 : Rat) ≤ i := by exact_mod_cast hi
  refine slot_near _ _ (1 / (8 * i)) n h2 g0 ?_ ?_ (g1.trans ?_) ?_
  · apply one_div_le_one_div_of_le (by positivity)
    norm_num; linarith
  · rw [div_lt_div_iff₀ (by positivity) (by norm_num)]
    linarith
  · rw [hq, div_div, div_le_div_iff₀ (by positivity) (by positivity)]
    norm_num
    nlinarith
  · intro m
    rw [hq]
    have e1 : (microOfDay e : Rat) / i - (m + 1 / 2) = ((2 * (microOfDay e : Int) - (2 * m + 1) * i : Int) : Rat) / (2 * i) := by
      push_cast; field_simp
    have hne : 2 * (microOfDay e : Int) - (2 * m + 1) * i ≠ 0 := by
      intro h0
      have hm : 0 ≤ m := by
        by_contra hneg
        have : (2 * m + 1) * (i : Int) ≤ -1 * i := by apply mul_le_mul_of_nonneg_right <;> omega
        omega
      obtain ⟨m', rfl⟩ := Int.eq_ofNat_of_zero_le hm
      apply hh m'
      rw [secOfDay_micro]
      have h0' : ((2 * (microOfDay e : Int) - (2 * ((m' : Nat) : Int) + 1) * i : Int) : Rat) = 0 := by rw [h0]; rfl
      push_cast at h0'
      linarith
    rw [e1, abs_div, abs_of_pos (show (0 : Rat) < 2 * i by positivity)]
    have : (1 : Rat) ≤ |((2 * (microOfDay e : Int) - (2 * m + 1) * i : Int) : Rat)| := by
      have := Int.one_le_abs hne
      exact_mod_cast this
    rw [le_div_iff₀ (by positivity)]
    calc 2 * (1 / (8 * (i : Rat))) * (2 * i) = 1 / 2 := by field_simp; norm_num
      _ ≤ _ := by linarith

/-- C82: epochs on the grid of the interval get their number -/
theorem C82_slot_grid (e : DateTime) (he : Legal e) (i : Nat) (hi : 0 < i) (hi2 : i ≤ 86400000000) (k : Nat) (hk : secOfDay e = k * (i / 1000000)) :
    tsnDouble e (double (i / 1000000)) = k := by
  have hI : (0 : Rat) < (i : Rat) / 1000000 := by
    have : (0 : Rat) < i := by exact_mod_cast hi
    positivity
  have h := C82_slot e he i hi hi2 (by
    intro m hm
    rw [hk] at hm
    have := mul_right_cancel₀ hI.ne' hm
    have h2 : (2 * (k : Rat)) = 2 * m + 1 := by linarith
    have h3 : 2 * k = 2 * m + 1 := by exact_mod_cast h2
    omega)
  rw [C54_exact e _ hI k hk] at h
  exact (Except.ok.inj h).symm

/-- C82: with whole seconds (times and interval) floating point changes no slot at all, ties included -/
theorem C82_slot_whole (e : DateTime) (he : Legal e) (hm : e.micro = 0) (i : Nat) (hi : 0 < i) (hi2 : i ≤ 86400) : tsnOf e i = .ok (tsnDouble e i) := by
  have hiq : (0 : Rat) < i := by exact_mod_cast hi
  have hdi : double ((i * 1000000 : Nat) / 1000000 : Rat) = i := by
    have : ((i * 1000000 : Nat) / 1000000 : Rat) = ((i : Int) : Rat) := by push_cast; field_simp
    rw [this, double_int _ (by rw [abs_of_nonneg (by omega)]; omega)]
    push_cast; rfl
  have hii : ((i * 1000000 : Nat) / 1000000 : Rat) = i := by push_cast; field_simp
  by_cases hh : ∀ m : Nat, secOfDay e ≠ (m + 1 / 2) * ((i * 1000000 : Nat) / 1000000)
  · have := C82_slot e he (i * 1000000) (by omega) (by omega) hh
    rw [hdi, hii] at this
    exact this
  · push Not at hh
    obtain ⟨m, hm2⟩ := hh
    rw [hii] at hm2
    obtain ⟨n, h1, h2⟩ := C54_slot e _ hiq
    obtain ⟨-, w1, w2, w3, -⟩ := he
    have hsecEq : secOfDay e = ((e.hour * 3600 + e.minute * 60 + e.second : Nat) : Rat) := by unfold secOfDay; rw [hm]; simp
    have hsd : double (((e.hour * 3600 + e.minute * 60 + e.second : Nat) : Rat) + double ((e.micro : Rat) * double (1 / 1000000))) = secOfDay e := by
      rw [hm, hsecEq]
      simp only [Nat.cast_zero, zero_mul, double_zero, add_zero]
      exact_mod_cast double_int ((e.hour * 3600 + e.minute * 60 + e.second : Nat) : Int) (by rw [abs_of_nonneg (by omega)]; omega)
    have hq : secOfDay e / i = ((2 * m + 1 : Int) : Rat) / 2 := by rw [hm2]; push_cast; field_simp
    have hmb : (m : Rat) ≤ 86400 := by
      have h3 : secOfDay e ≤ 86400 := by rw [hsecEq]; exact_mod_cast (show e.hour * 3600 + e.minute * 60 + e.second ≤ 86400 by omega)
      have hi1 : (1 : Rat) ≤ i := by exact_mod_cast hi
      rw [hm2] at h3
      nlinarith
    have hmb' : m ≤ 86400 := by exact_mod_cast hmb
    have hd : double (((2 * m + 1 : Int) : Rat) / 2) = ((2 * m + 1 : Int) : Rat) / 2 := double_half _ (by rw [abs_of_nonneg (by omega)]; omega)
    have htr : truncRat (((2 * m + 1 : Int) : Rat) / 2) = (m : Int) := truncRat_eq (by push_cast; linarith) (by push_cast; linarith) (by omega)
    have hfl : (((2 * m + 1 : Int) : Rat) / 2).floor = (m : Int) := ratFloor_eq (by push_cast; linarith) (by push_cast; linarith)
    have hfr : ((2 * m + 1 : Int) : Rat) / 2 - ((m : Int) : Rat) = ((1 : Int) : Rat) / 2 := by push_cast; ring
    have hd2 : double (((1 : Int) : Rat) / 2) = ((1 : Int) : Rat) / 2 := double_half _ (by norm_num)
    have hn : n = m := C54_unique (secOfDay e / i) n m h2 (by rw [hq]; unfold IsSlot; push_cast; constructor <;> linarith)
    rw [h1, hn]
    unfold tsnDouble
    simp only
    rw [hsd, hq, hd, htr, hfr, hd2, hfl]
    norm_num

/-- the hypotheses hold for 30 s files, for a 10 Hz file and for the seconds `12.3456789`; half way between two slots floating point can go the other way (25 Hz, 00:18:08.38) -/
theorem C82_example :
    secSplitDouble 1 (123456789 / 10 ^ 7) = (12, 345678) ∧ secSplitWith (· * 1000000) 1 (.fin (123456789 / 10 ^ 7)) = .ok (12, 345678) ∧
    tsnDouble ⟨2015, 1, 2, 23, 59, 59, 900000⟩ (double (1 / 10)) = 863999 ∧ secOfDay ⟨2015, 1, 2, 23, 59, 59, 900000⟩ = 863999 * ((100000 : Nat) / 1000000) ∧
    tsnDouble ⟨2015, 1, 2, 1, 0, 15, 0⟩ 30 = 120 ∧ tsnDouble ⟨2015, 1, 2, 1, 0, 16, 0⟩ 30 = 121 ∧
    tsnDouble ⟨2015, 1, 2, 0, 18, 8, 380000⟩ (double (1 / 25)) = 27210 ∧ tsnOf ⟨2015, 1, 2, 0, 18, 8, 380000⟩ (1 / 25) = .ok 27209 ∧
    double (1 / 10) = 3602879701896397 / 36028797018963968 ∧
    fixedStr true 3 (.fin (double (23629347915300 / 10 ^ 6))) = fixedStr true 3 (.fin (23629347915300 / 10 ^ 6)) := by
  refine ⟨?_, ?_, ?_, ?_, ?_, ?_, ?_, ?_, ?_, ?_⟩ <;> decide +kernel

end Verif.Props
