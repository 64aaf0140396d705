import Verif.Model.Common
import Verif.Proofs.Calendar
import Verif.Proofs.Rat
/-!
# Properties C01, C03: time
-/
namespace Verif.Props
open Verif.Py Verif.Model Verif.Spec

/-! ## C01 -/

/-- the year meant by the year column of a RINEX file -/
def YearMeans (y Y : Int) : Prop :=
  (y < 89 → Y = 2000 + y) ∧ (89 ≤ y ∧ y < 100 → Y = 1900 + y) ∧ (100 ≤ y → Y = y)

/-- acceptable components: legal date and hour, minutes and seconds up to 120 -/
def Acceptable (Y mo d h mi s us : Int) : Prop :=
  0 ≤ Y ∧ 0 ≤ mo ∧ 0 ≤ d ∧ LegalDate Y.toNat mo.toNat d.toNat ∧ 0 ≤ h ∧ h < 24 ∧
  0 ≤ mi ∧ mi ≤ 120 ∧ 0 ≤ s ∧ s ≤ 120 ∧ 0 ≤ us ∧ us < 1000000

/-- the instant meant by the components -/
def meant (Y mo d h mi s us : Int) : Int := instantOf (dayNumber Y.toNat mo.toNat d.toNat) h mi s us

/-- the last instant of year 9999 -/
def lastInstant : Int := instant ⟨9999, 12, 31, 23, 59, 59, 999999⟩

/-- all components are C integers -/
def FitsC (l : List Int) : Prop := ∀ x ∈ l, -2147483648 ≤ x ∧ x ≤ 2147483647

theorem lastInstant_eq : lastInstant = maxMicros := by
  unfold lastInstant
  rw [instant_eq ((legal_iff _).2 (by decide))]
  decide

theorem yearMeans_full (y : Int) : YearMeans y (fullYear y) := by
  unfold YearMeans fullYear
  refine ⟨?_, ?_, ?_⟩ <;> intro h <;> (repeat' split) <;> omega

theorem yearMeans_unique {y Y Y' : Int} (h : YearMeans y Y) (h' : YearMeans y Y') : Y = Y' := by
  unfold YearMeans at h h'
  omega

/-- explicit form of the model -/
theorem validateEpoch_seven (y mo d h mi s us : Int) :
    validateEpoch [y, mo, d, h, mi, s, us] =
      (mkDateTime7 (fullYear y) mo d h (if 60 ≤ mi ∧ mi ≤ 120 then 59 else mi)
        (if 60 ≤ s ∧ s ≤ 120 then 59 else s) us).bind fun t =>
      t.add (((if 60 ≤ s ∧ s ≤ 120 then s - 59 else 0) + (if 60 ≤ mi ∧ mi ≤ 120 then (mi - 59) * 60 else 0))
        * 1000000) := by
  unfold validateEpoch
  simp only [fixComponent, List.length_cons, List.length_nil, List.set, List.getD_cons_zero]
  by_cases h1 : 60 ≤ s ∧ s ≤ 120 <;> by_cases h2 : 60 ≤ mi ∧ mi ≤ 120 <;>
    simp [h1, h2, mkDateTime] <;> rfl

/-- C01, lists of another length: fewer than three components raise an exception; a date alone (year after 120) is read as its midnight. -/
theorem C01_short (l : List Int) (y mo d Y : Int) (hY : YearMeans y Y) :
    (l.length < 3 → validateEpoch l = .error .index) ∧
    (120 < Y → mo < 60 → validateEpoch [y, mo, d] = validateEpoch [y, mo, d, 0, 0, 0, 0]) := by
  refine ⟨fun h => by unfold validateEpoch; rw [if_pos h], fun h120 hmo => ?_⟩
  have hfull := yearMeans_unique hY (yearMeans_full y)
  rw [validateEpoch_seven, ← hfull]
  unfold validateEpoch
  simp only [fixComponent, List.length_cons, List.length_nil, List.set, List.getD_cons_zero, ← hfull]
  have n1 : ¬ ((60 : Int) ≤ mo ∧ mo ≤ 120) := by omega
  have n2 : ¬ ((60 : Int) ≤ Y ∧ Y ≤ 120) := by omega
  simp [n1, n2, mkDateTime]
  rfl

/-- C01, acceptance: the components are accepted exactly when they are acceptable (and stay inside year 9999), and then
the result is *the* legal date/time whose instant is the meant one. -/
theorem C01_accepted_iff (y mo d h mi s us Y : Int) (t : DateTime) (hY : YearMeans y Y) :
    validateEpoch [y, mo, d, h, mi, s, us] = .ok t ↔
      Acceptable Y mo d h mi s us ∧ Legal t ∧ instant t = meant Y mo d h mi s us := by
  have hfull := yearMeans_unique hY (yearMeans_full y)
  subst hfull
  rw [validateEpoch_seven]
  constructor
  · intro hok
    cases hm : mkDateTime7 (fullYear y) mo d h (if 60 ≤ mi ∧ mi ≤ 120 then 59 else mi)
        (if 60 ≤ s ∧ s ≤ 120 then 59 else s) us with
    | error e => rw [hm] at hok; simp [Except.bind] at hok
    | ok t0 =>
      rw [hm] at hok
      simp only [Except.bind] at hok
      obtain ⟨hv, e1, e2, e3, e4, e5, e6, e7⟩ := mkDateTime7_valid hm
      generalize hD : ((if 60 ≤ s ∧ s ≤ 120 then s - 59 else 0) +
        (if 60 ≤ mi ∧ mi ≤ 120 then (mi - 59) * 60 else 0)) * 1000000 = D at hok
      unfold DateTime.add at hok
      simp only at hok
      split at hok
      · rename_i hr
        simp only [Except.ok.injEq] at hok
        have hlegal0 := (legal_iff t0).2 hv
        obtain ⟨hvd, hh, hmi, hs, hus⟩ := hv
        have hld : LegalDate (fullYear y).toNat mo.toNat d.toNat := by
          rw [legalDate_iff, ← e1, ← e2, ← e3]; simpa using hvd
        have hvt : (t.Valid) := by
          rw [← hok]; apply DateTime.ofMicros_valid <;> omega
        refine ⟨⟨by omega, by omega, by omega, hld, by omega, by omega, ?_, ?_, ?_, ?_, by omega, by omega⟩,
          (legal_iff t).2 hvt, ?_⟩
        · split at e5 <;> omega
        · split at e5 <;> omega
        · split at e6 <;> omega
        · split at e6 <;> omega
        · rw [instant_eq ((legal_iff t).2 hvt), ← hok, DateTime.toMicros_ofMicros (by omega) (by omega)]
          have hi := instant_eq hlegal0
          unfold instant at hi
          unfold meant
          have ed : dayNumber (fullYear y).toNat mo.toNat d.toNat = dayNumber t0.year t0.month t0.day := by
            rw [← e1, ← e2, ← e3]; simp
          rw [ed]
          generalize dayNumber t0.year t0.month t0.day = n at hi ⊢
          unfold instantOf at hi ⊢
          by_cases c1 : 60 ≤ s ∧ s ≤ 120 <;> by_cases c2 : 60 ≤ mi ∧ mi ≤ 120 <;>
            simp only [c1, c2, and_self, if_true, if_false] at hD e5 e6 <;> omega
      · simp at hok
  · rintro ⟨⟨hy0, hm0, hd0, hld, hh0, hh1, hmi0, hmi1, hs0, hs1, hus0, hus1⟩, hl, hi⟩
    have hvd := (legalDate_iff _ _ _).1 hld
    obtain ⟨a1, a2, a3, a4, a5, a6⟩ := hvd
    have hdim := daysInMonth_le (fullYear y).toNat mo.toNat
    have hmk : mkDateTime7 (fullYear y) mo d h (if 60 ≤ mi ∧ mi ≤ 120 then 59 else mi)
        (if 60 ≤ s ∧ s ≤ 120 then 59 else s) us = .ok ⟨(fullYear y).toNat, mo.toNat, d.toNat, h.toNat,
          (if 60 ≤ mi ∧ mi ≤ 120 then 59 else mi).toNat, (if 60 ≤ s ∧ s ≤ 120 then 59 else s).toNat, us.toNat⟩ := by
      unfold mkDateTime7
      rw [if_neg, if_pos]
      · refine ⟨by omega, by omega, by omega, by omega, by omega, by omega, by omega, by omega, ?_, ?_, ?_, ?_,
          by omega, by omega⟩ <;> split <;> omega
      · simp only [fitsCInt, Bool.not_eq_true, Bool.not_eq_false', Bool.and_eq_true, decide_eq_true_eq]
        refine ⟨⟨⟨⟨⟨⟨⟨?_, ?_⟩, ?_, ?_⟩, ?_, ?_⟩, ?_, ?_⟩, ?_, ?_⟩, ?_, ?_⟩, ?_, ?_⟩ <;>
          omega
    rw [hmk]
    simp only [Except.bind]
    generalize ht0 : (⟨(fullYear y).toNat, mo.toNat, d.toNat, h.toNat,
          (if 60 ≤ mi ∧ mi ≤ 120 then 59 else mi).toNat, (if 60 ≤ s ∧ s ≤ 120 then 59 else s).toNat, us.toNat⟩ :
          DateTime) = t0
    have hv0 : t0.Valid := (mkDateTime7_valid (by rw [← ht0]; exact hmk)).1
    have hi0 := instant_eq ((legal_iff t0).2 hv0)
    rw [instant_eq hl] at hi
    have hb := DateTime.toMicros_bounds ((legal_iff t).1 hl)
    unfold DateTime.add
    have key : (t0.toMicros : Int) + ((if 60 ≤ s ∧ s ≤ 120 then s - 59 else 0) +
        (if 60 ≤ mi ∧ mi ≤ 120 then (mi - 59) * 60 else 0)) * 1000000 = t.toMicros := by
      rw [hi, ← hi0]
      unfold instant meant
      rw [← ht0]
      simp only
      generalize dayNumber (fullYear y).toNat mo.toNat d.toNat = n
      unfold instantOf
      by_cases c1 : 60 ≤ s ∧ s ≤ 120 <;> by_cases c2 : 60 ≤ mi ∧ mi ≤ 120 <;> simp [c1, c2] <;> omega
    simp only
    rw [key, if_pos (by omega)]
    simp [DateTime.ofMicros_toMicros ((legal_iff t).1 hl)]

/-- C01, existence: acceptable components are accepted as long as the meant instant does not pass year 9999. -/
theorem C01_accepted (y mo d h mi s us Y : Int) (hY : YearMeans y Y) (ha : Acceptable Y mo d h mi s us)
    (hlast : meant Y mo d h mi s us ≤ lastInstant) :
    ∃ t, validateEpoch [y, mo, d, h, mi, s, us] = .ok t ∧ Legal t ∧ instant t = meant Y mo d h mi s us := by
  rw [lastInstant_eq] at hlast
  have hmin : (minMicros : Int) ≤ meant Y mo d h mi s us := by
    obtain ⟨hy0, hm0, hd0, hld, hh0, hh1, hmi0, hmi1, hs0, hs1, hus0, hus1⟩ := ha
    have := (ymd2ord_bounds ((legalDate_iff _ _ _).1 hld)).1
    unfold meant instantOf minMicros dayMicros
    rw [dayNumber_eq hld]
    omega
  refine ⟨DateTime.ofMicros (meant Y mo d h mi s us).toNat, ?_⟩
  have hl := (legal_iff _).2 (DateTime.ofMicros_valid (u := (meant Y mo d h mi s us).toNat) (by omega) (by omega))
  have hi : instant (DateTime.ofMicros (meant Y mo d h mi s us).toNat) = meant Y mo d h mi s us := by
    rw [instant_eq hl, DateTime.toMicros_ofMicros (by omega) (by omega)]; omega
  exact ⟨(C01_accepted_iff y mo d h mi s us Y _ hY).2 ⟨ha, hl, hi⟩, hl, hi⟩

/-- C01, rejection: components that are not acceptable raise ValueError, or OverflowError when one of them is not a C
integer; acceptable components past year 9999 raise OverflowError. -/
theorem C01_rejected (y mo d h mi s us Y : Int) (hY : YearMeans y Y) :
    (¬ Acceptable Y mo d h mi s us → FitsC [Y, mo, d, h, mi, s, us] →
      validateEpoch [y, mo, d, h, mi, s, us] = .error .value) ∧
    (¬ FitsC [Y, mo, d, h, mi, s, us] → validateEpoch [y, mo, d, h, mi, s, us] = .error .overflow) ∧
    (Acceptable Y mo d h mi s us → lastInstant < meant Y mo d h mi s us →
      validateEpoch [y, mo, d, h, mi, s, us] = .error .overflow) := by
  have hfull := yearMeans_unique hY (yearMeans_full y)
  subst hfull
  have fits : (!(fitsCInt (fullYear y) && fitsCInt mo && fitsCInt d && fitsCInt h &&
      fitsCInt (if 60 ≤ mi ∧ mi ≤ 120 then 59 else mi) &&
      fitsCInt (if 60 ≤ s ∧ s ≤ 120 then 59 else s) && fitsCInt us)) = true ↔
      ¬ FitsC [fullYear y, mo, d, h, mi, s, us] := by
    rw [Bool.not_eq_true', ← Bool.not_eq_true]
    apply not_congr
    simp only [fitsCInt, Bool.and_eq_true, decide_eq_true_eq, FitsC, List.mem_cons, forall_eq_or_imp,
      List.not_mem_nil, false_imp_iff, implies_true, and_true]
    constructor
    · rintro ⟨⟨⟨⟨⟨⟨a, b⟩, c⟩, e⟩, f⟩, g⟩, i⟩
      refine ⟨a, b, c, e, ?_, ?_, i⟩
      · split at f <;> omega
      · split at g <;> omega
    · rintro ⟨a, b, c, e, f, g, i⟩
      refine ⟨⟨⟨⟨⟨⟨a, b⟩, c⟩, e⟩, ?_⟩, ?_⟩, i⟩ <;> split <;> omega
  refine ⟨?_, ?_, ?_⟩
  · intro hna hfit
    rw [validateEpoch_seven]
    have : mkDateTime7 (fullYear y) mo d h (if 60 ≤ mi ∧ mi ≤ 120 then 59 else mi)
        (if 60 ≤ s ∧ s ≤ 120 then 59 else s) us = .error .value := by
      unfold mkDateTime7
      rw [if_neg (by rw [fits]; simpa using hfit), if_neg]
      rintro ⟨a1, a2, a3, a4, a5, a6, a7, a8, a9, a10, a11, a12, a13, a14⟩
      apply hna
      refine ⟨by omega, by omega, by omega, ?_, by omega, by omega, ?_, ?_, ?_, ?_, by omega, by omega⟩
      · rw [legalDate_iff]; exact ⟨by omega, by omega, by omega, by omega, by omega, by omega⟩
      · split at a9 <;> omega
      · split at a10 <;> omega
      · split at a11 <;> omega
      · split at a12 <;> omega
    rw [this]; rfl
  · intro hnf
    rw [validateEpoch_seven]
    have : mkDateTime7 (fullYear y) mo d h (if 60 ≤ mi ∧ mi ≤ 120 then 59 else mi)
        (if 60 ≤ s ∧ s ≤ 120 then 59 else s) us = .error .overflow := by
      unfold mkDateTime7
      rw [if_pos (by rw [fits]; exact hnf)]
    rw [this]; rfl
  · intro ha hlate
    cases hv : validateEpoch [y, mo, d, h, mi, s, us] with
    | ok t =>
      obtain ⟨_, hl, hi⟩ := (C01_accepted_iff y mo d h mi s us _ t (yearMeans_full y)).1 hv
      have := DateTime.toMicros_bounds ((legal_iff t).1 hl)
      rw [← hi, instant_eq hl, lastInstant_eq] at hlate
      omega
    | error e =>
      rw [validateEpoch_seven] at hv
      obtain ⟨hy0, hm0, hd0, hld, hh0, hh1, hmi0, hmi1, hs0, hs1, hus0, hus1⟩ := ha
      obtain ⟨a1, a2, a3, a4, a5, a6⟩ := (legalDate_iff _ _ _).1 hld
      have hdim := daysInMonth_le (fullYear y).toNat mo.toNat
      have hmk : ∃ t0, mkDateTime7 (fullYear y) mo d h (if 60 ≤ mi ∧ mi ≤ 120 then 59 else mi)
        (if 60 ≤ s ∧ s ≤ 120 then 59 else s) us = .ok t0 := by
        unfold mkDateTime7
        rw [if_neg, if_pos]
        · exact ⟨_, rfl⟩
        · refine ⟨by omega, by omega, by omega, by omega, by omega, by omega, by omega, by omega, ?_, ?_, ?_, ?_,
            by omega, by omega⟩ <;> split <;> omega
        · rw [fits]
          simp only [not_not, FitsC, List.mem_cons, forall_eq_or_imp, List.not_mem_nil, false_imp_iff, implies_true,
            and_true]
          refine ⟨?_, ?_, ?_, ?_, ?_, ?_, ?_⟩ <;> omega
      obtain ⟨t0, ht0⟩ := hmk
      rw [ht0] at hv
      simp only [Except.bind] at hv
      generalize ((if 60 ≤ s ∧ s ≤ 120 then s - 59 else 0) +
        (if 60 ≤ mi ∧ mi ≤ 120 then (mi - 59) * 60 else 0)) * 1000000 = D at hv
      simp only [DateTime.add] at hv
      split at hv
      · simp at hv
      · rw [hv]

/-- non-vacuity: 2017-12-31 23:59:60 (a leap second) is accepted and is 2018-01-01 00:00:00 -/
example : validateEpoch [17, 12, 31, 23, 59, 60, 0] = .ok ⟨2018, 1, 1, 0, 0, 0, 0⟩ := by decide +kernel
example : Acceptable 2017 12 31 23 59 60 0 ∧ YearMeans 17 2017 := by
  refine ⟨?_, by unfold YearMeans; omega⟩
  unfold Acceptable
  rw [legalDate_iff]
  refine ⟨by omega, by omega, by omega, ?_, by omega, by omega, by omega, by omega, by omega, by omega, by omega, by omega⟩
  decide
example : validateEpoch [99, 2, 29, 0, 0, 0, 0] = .error .value := by decide +kernel
example : validateEpoch [9999, 12, 31, 23, 59, 60, 0] = .error .overflow := by decide +kernel

/-! ## C03 -/

/-- C03: for every non-negative number of seconds the split gives the whole seconds, and microseconds that differ from the
exact ones by at most one microsecond plus half a tenth; they never exceed one million. -/
theorem C03_split (q : Rat) (h : 0 ≤ q) :
    ∃ s us : Int, sec2secMs (.fin q) = .ok (s, us) ∧ (s : Rat) ≤ q ∧ q < s + 1 ∧ 0 ≤ us ∧ us ≤ 1000000 ∧
      (us : Rat) ≤ (q - s) * 1000000 + 1 / 20 ∧ (q - s) * 1000000 - 1 / 20 < us + 1 := by
  have h1 := ratFloor_le q
  have h2 := ratFloor_lt q
  refine ⟨q.floor, truncRat (roundDec 1 ((q - q.floor) * 1000000)), ?_, h1, h2, ?_⟩
  · simp [sec2secMs, secSplitWith, truncRat_nonneg h]
  · obtain ⟨b1, b2⟩ := roundDec_bounds 1 ((q - q.floor) * 1000000)
    have hnn : 0 ≤ roundDec 1 ((q - q.floor) * 1000000) := by
      unfold roundDec
      apply div_nonneg _ (by positivity)
      have : (0 : Int) ≤ roundHalfEven ((q - q.floor) * 1000000 * 10 ^ 1) :=
        roundHalfEven_mono_int (by push_cast; nlinarith)
      exact_mod_cast this
    have hle : roundDec 1 ((q - q.floor) * 1000000) ≤ 1000000 := by
      unfold roundDec
      rw [div_le_iff₀ (by positivity)]
      have : roundHalfEven ((q - q.floor) * 1000000 * 10 ^ 1) ≤ 10000000 :=
        roundHalfEven_le_int (by push_cast; nlinarith)
      have : ((roundHalfEven ((q - q.floor) * 1000000 * 10 ^ 1) : Int) : Rat) ≤ ((10000000 : Int) : Rat) := by
        exact_mod_cast this
      push_cast at this
      linarith
    rw [truncRat_nonneg hnn]
    have f1 := ratFloor_le (roundDec 1 ((q - q.floor) * 1000000))
    have f2 := ratFloor_lt (roundDec 1 ((q - q.floor) * 1000000))
    refine ⟨ratFloor_nonneg hnn, ?_, ?_, ?_⟩
    · have : ((roundDec 1 ((q - q.floor) * 1000000)).floor : Rat) ≤ ((1000000 : Int) : Rat) := by
        push_cast; linarith
      exact_mod_cast this
    · norm_num at b2; linarith
    · norm_num at b1; linarith

/-- C03: values with at most seven decimals are never rounded up: the microseconds are the exact ones truncated. -/
theorem C03_seven_decimals (q : Rat) (h : 0 ≤ q) (n : Int) (hn : q * 10000000 = n) :
    ∃ s us : Int, sec2secMs (.fin q) = .ok (s, us) ∧ (s : Rat) ≤ q ∧ q < s + 1 ∧ 0 ≤ us ∧ us < 1000000 ∧
      (us : Rat) ≤ (q - s) * 1000000 ∧ (q - s) * 1000000 < us + 1 := by
  have h1 := ratFloor_le q
  have h2 := ratFloor_lt q
  have hr : roundDec 1 ((q - q.floor) * 1000000) = (q - q.floor) * 1000000 := by
    have e : (q - q.floor) * 1000000 * 10 ^ 1 = ((n - q.floor * 10000000 : Int) : Rat) := by
      push_cast; rw [← hn]; ring
    unfold roundDec
    rw [e, roundHalfEven_int, ← e]; field_simp
  have hnn : 0 ≤ (q - q.floor) * 1000000 := by nlinarith
  have f1 := ratFloor_le ((q - q.floor) * 1000000)
  have f2 := ratFloor_lt ((q - q.floor) * 1000000)
  refine ⟨q.floor, truncRat (roundDec 1 ((q - q.floor) * 1000000)), ?_, h1, h2, ?_⟩
  · simp [sec2secMs, secSplitWith, truncRat_nonneg h]
  · rw [hr, truncRat_nonneg hnn]
    refine ⟨ratFloor_nonneg hnn, ?_, f1, f2⟩
    rw [Rat.floor_lt_iff]; push_cast; nlinarith

/-- C03, robust against floating point: whatever the rounding error of the product (below half a unit of the printed
decimals), a value of whole microseconds is split exactly.  `k = 1` is `sec2sec_ms`, `k = 5` the RINEX 2 epoch line. -/
theorem C03_microseconds_exact (mul : Rat → Rat) (k : Nat) (s us : Nat) (hus : us < 1000000)
    (hmul : (us : Rat) - 1 / (2 * 10 ^ k) < mul (us / 1000000) ∧ mul (us / 1000000) < (us : Rat) + 1 / (2 * 10 ^ k)) :
    secSplitWith mul k (.fin (s + us / 1000000)) = .ok ((s : Int), (us : Int)) := by
  have hus' : (us : Rat) < 1000000 := by exact_mod_cast hus
  have hus0 : (0 : Rat) ≤ us := by positivity
  have ht : truncRat ((s : Rat) + us / 1000000) = (s : Int) := by
    apply truncRat_eq _ _ (by omega)
    · push_cast; have : (0 : Rat) ≤ us / 1000000 := by positivity
      linarith
    · push_cast
      have : (us : Rat) / 1000000 < 1 := by rw [div_lt_one (by norm_num)]; exact hus'
      linarith
  unfold secSplitWith
  simp only [ht]
  have e : (s : Rat) + us / 1000000 - ((s : Int) : Rat) = us / 1000000 := by push_cast; ring
  rw [e, roundDec_near (n := (us : Int)) (by push_cast; exact hmul.1) (by push_cast; exact hmul.2), truncRat_int]

/-- C03, the carry that does happen: 59.99999999 s is split into 59 s and one million microseconds … -/
theorem C03_carry_witness : sec2secMs (.fin (5999999999 / 100000000)) = .ok (59, 1000000) := by decide +kernel

/-- … which the date constructor rejects, whatever the rest of the date. -/
theorem C03_carry_rejected (y mo d h mi s : Int) : ∀ t, validateEpoch [y, mo, d, h, mi, s, 1000000] ≠ .ok t := by
  intro t ht
  have := (C01_accepted_iff y mo d h mi s 1000000 _ t (yearMeans_full y)).1 ht
  have := this.1.2.2.2.2.2.2.2.2.2.2.2
  omega

example : sec2secMs (.fin (123456789 / 10000000)) = .ok (12, 345678) := by decide +kernel
example : (0 : Rat) ≤ 123456789 / 10000000 ∧ (123456789 / 10000000 : Rat) * 10000000 = (123456789 : Int) := by
  decide +kernel

end Verif.Props
