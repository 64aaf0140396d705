import Verif.Proofs.Obs2Append
/-! # RINEX 2: which errors can surface -/
namespace Verif.Proofs
open Verif.Py Verif.Model Verif.Spec Verif.Props

theorem digitVal_le {c : Char} (h : isDigit c = true) : digitVal c ≤ 9 := by
  unfold isDigit at h; unfold digitVal
  simp at h; omega

theorem digitsGo_bound (s : Str) (prev : Bool) (acc n : Nat) (h : digitsGo s prev acc = some n) :
    n < (acc + 1) * 10 ^ s.length := by
  induction s generalizing prev acc with
  | nil =>
    simp only [digitsGo] at h
    split at h
    · simp only [Option.some.injEq] at h; subst h; simp
    · simp at h
  | cons c cs ih =>
    simp only [digitsGo] at h
    split at h
    · rename_i hd
      have h1 := ih _ _ h
      have h2 := digitVal_le hd
      have h3 : (acc * 10 + digitVal c + 1) * 10 ^ cs.length ≤ ((acc + 1) * 10) * 10 ^ cs.length :=
        Nat.mul_le_mul_right _ (by omega)
      rw [List.length_cons, pow_succ]
      calc n < _ := h1
        _ ≤ _ := h3
        _ = _ := by ring
    · split at h
      · have h1 := ih _ _ h
        have h3 : (acc + 1) * 10 ^ cs.length ≤ ((acc + 1) * 10) * 10 ^ cs.length :=
          Nat.mul_le_mul_right _ (by omega)
        rw [List.length_cons, pow_succ]
        calc n < _ := h1
          _ ≤ _ := h3
          _ = _ := by ring
      · simp at h

theorem lstrip_length_le (s : Str) : (lstrip s).length ≤ s.length := by
  unfold lstrip; exact (List.dropWhile_sublist _).length_le

theorem strip_length_le (s : Str) : (strip s).length ≤ s.length :=
  le_trans (lstrip_length_le _) (rstrip_length_le s)

theorem parseSign_length_le (s : Str) : (parseSign s).2.length ≤ s.length := by
  cases s with
  | nil => simp [parseSign]
  | cons c cs =>
    simp only [parseSign]
    split
    · simp
    · split <;> simp

theorem parseInt_bound {s : Str} {v : Int} {k : Nat} (h : parseInt s = some v) (hk : s.length ≤ k) :
    v.natAbs < 10 ^ k := by
  unfold parseInt at h
  simp only [Option.map_eq_some_iff] at h
  obtain ⟨n, hn, rfl⟩ := h
  have h1 := digitsGo_bound _ _ _ _ hn
  have h2 : (parseSign (strip s)).2.length ≤ k :=
    le_trans (parseSign_length_le _) (le_trans (strip_length_le _) hk)
  have h3 : 10 ^ (parseSign (strip s)).2.length ≤ 10 ^ k := Nat.pow_le_pow_right (by omega) h2
  simp only [zero_add, one_mul] at h1
  split <;> simp <;> omega

theorem mapInt_ok {l : List Str} {v : List Int} (h : mapInt l = .ok v) :
    v.length = l.length ∧ ∀ k, (∀ s ∈ l, s.length ≤ k) → ∀ x ∈ v, x.natAbs < 10 ^ k := by
  induction l generalizing v with
  | nil => simp [mapInt] at h; simp [h]
  | cons s l ih =>
    simp only [mapInt, bind_eq_ok, pure_eq_ok] at h
    obtain ⟨a, ha, b, hb, rfl⟩ := h
    obtain ⟨h1, h2⟩ := ih hb
    refine ⟨by simp [h1], ?_⟩
    intro k hk x hx
    rcases List.mem_cons.1 hx with rfl | hx
    · unfold pyInt at ha
      split at ha
      · rename_i v hv
        simp only [Except.ok.injEq] at ha
        subst ha
        exact parseInt_bound hv (hk s (by simp))
      · simp at ha
    · exact h2 k (fun s hs => hk s (by simp [hs])) x hx

theorem mapInt_error {l : List Str} {e : PyErr} (h : mapInt l = .error e) : e = .value := by
  induction l with
  | nil => simp [mapInt] at h
  | cons s l ih =>
    simp only [mapInt, bind_eq_error, pure, Except.pure, reduceCtorEq, and_false, exists_false, or_false] at h
    rcases h with h | ⟨a, _, h⟩
    · unfold pyInt at h
      split at h
      · simp at h
      · simpa using h.symm
    · exact ih h

theorem pyFloat_error {s : Str} {e : PyErr} (h : pyFloat s = .error e) : e = .value := by
  unfold pyFloat at h
  split at h
  · simp at h
  · simpa using h.symm

theorem mapFloat_error {l : List Str} {e : PyErr} (h : mapFloat l = .error e) : e = .value := by
  induction l with
  | nil => simp [mapFloat] at h
  | cons s l ih =>
    simp only [mapFloat, bind_eq_error, pure, Except.pure, reduceCtorEq, and_false, exists_false, or_false] at h
    rcases h with h | ⟨a, _, h⟩
    · exact pyFloat_error h
    · exact ih h

/-- a number of seconds too large for a date: infinite or at least 2^31 in magnitude -/
def Huge : PyFloat → Prop
  | .fin q => q ≤ -2147483648 ∨ 2147483648 ≤ q
  | .inf _ => True
  | .nan => False

theorem secSplit_us_bounds (k : Nat) (q : Rat) (s us : Int)
    (h : secSplitWith (· * 1000000) k (.fin q) = .ok (s, us)) :
    s = truncRat q ∧ -1000000 ≤ us ∧ us ≤ 1000000 := by
  unfold secSplitWith at h
  simp only [Except.ok.injEq, Prod.mk.injEq] at h
  obtain ⟨rfl, rfl⟩ := h
  refine ⟨rfl, ?_⟩
  have hfrac : -1 ≤ q - truncRat q ∧ q - truncRat q ≤ 1 := by
    unfold truncRat
    split
    · have := ratFloor_le q; have := ratFloor_lt q; constructor <;> linarith
    · have := ratFloor_le (-q); have := ratFloor_lt (-q); push_cast; constructor <;> linarith
  have hp : (0 : Rat) < 10 ^ k := by positivity
  generalize hx : (q - truncRat q) * 1000000 = x
  have hx1 : -1000000 ≤ x := by rw [← hx]; linarith [hfrac.1]
  have hx2 : x ≤ 1000000 := by rw [← hx]; linarith [hfrac.2]
  have r1 : (-1000000 : Rat) ≤ roundDec k x := by
    unfold roundDec
    rw [le_div_iff₀ hp]
    have : ((-1000000 * 10 ^ k : Int)) ≤ roundHalfEven (x * 10 ^ k) :=
      roundHalfEven_mono_int (by push_cast; nlinarith)
    have : ((-1000000 * 10 ^ k : Int) : Rat) ≤ (roundHalfEven (x * 10 ^ k) : Rat) := by exact_mod_cast this
    push_cast at this; exact this
  have r2 : roundDec k x ≤ 1000000 := by
    unfold roundDec
    rw [div_le_iff₀ hp]
    have : roundHalfEven (x * 10 ^ k) ≤ (1000000 * 10 ^ k : Int) :=
      roundHalfEven_le_int (by push_cast; nlinarith)
    have : (roundHalfEven (x * 10 ^ k) : Rat) ≤ ((1000000 * 10 ^ k : Int) : Rat) := by exact_mod_cast this
    push_cast at this; exact this
  generalize roundDec k x = y at r1 r2
  unfold truncRat
  split
  · have a := ratFloor_le y
    have b : 0 ≤ y.floor := ratFloor_nonneg (by assumption)
    refine ⟨by omega, ?_⟩
    have : (y.floor : Rat) ≤ ((1000000 : Int) : Rat) := by push_cast; linarith
    exact_mod_cast this
  · rename_i hneg
    have a := ratFloor_le (-y)
    have b : 0 ≤ (-y).floor := ratFloor_nonneg (by linarith)
    refine ⟨?_, by omega⟩
    have : ((-y).floor : Rat) ≤ ((1000000 : Int) : Rat) := by push_cast; linarith
    have : (-y).floor ≤ 1000000 := by exact_mod_cast this
    omega

theorem truncRat_bound {q : Rat} {n : Int} (hn : 0 < n) (h1 : -(n : Rat) < q) (h2 : q < n) :
    -n < truncRat q ∧ truncRat q < n := by
  unfold truncRat
  split
  · rename_i h
    have := ratFloor_nonneg h
    refine ⟨by omega, ?_⟩
    rw [Rat.floor_lt_iff]; exact h2
  · rename_i h
    have := ratFloor_nonneg (q := -q) (by linarith)
    have h3 : (-q).floor < n := by rw [Rat.floor_lt_iff]; linarith
    omega

theorem ymd2ord_small {y m d : Nat} (h : validDate y m d) : ymd2ord y m d ≤ y * 366 := by
  have := doy_le y m d h
  obtain ⟨h1, _⟩ := h
  unfold ymd2ord daysBeforeYear
  have h2 : (if isLeap y = true then 366 else 365) ≤ 366 := by split <;> omega
  omega

/-- components in sensible ranges never overflow -/
theorem validateEpoch_no_overflow {y mo d h mi s us : Int} (hy : y.natAbs < 5000) (hmo : mo.natAbs < 1000)
    (hd : d.natAbs < 1000) (hh : h.natAbs < 1000) (hmi : mi.natAbs < 1000)
    (hs : -2147483648 ≤ s ∧ s ≤ 2147483647) (hus : -1000000 ≤ us ∧ us ≤ 1000000) :
    ∀ e, validateEpoch [y, mo, d, h, mi, s, us] = .error e → e = .value := by
  intro e he
  obtain ⟨Y, hY⟩ : ∃ Y, Y = fullYear y := ⟨_, rfl⟩
  have hYb : Y.natAbs < 8000 := by rw [hY]; unfold fullYear; split <;> (try split) <;> omega
  have hmean : YearMeans y Y := by rw [hY]; exact yearMeans_full y
  obtain ⟨r1, r2, r3⟩ := C01_rejected y mo d h mi s us Y hmean
  have hfit : FitsC [Y, mo, d, h, mi, s, us] := by
    simp only [FitsC, List.mem_cons, forall_eq_or_imp, List.not_mem_nil, false_imp_iff, implies_true, and_true]
    refine ⟨?_, ?_, ?_, ?_, ?_, ?_, ?_⟩ <;> omega
  by_cases ha : Acceptable Y mo d h mi s us
  · have hlast : meant Y mo d h mi s us ≤ lastInstant := by
      obtain ⟨hy0, hm0, hd0, hld, hh0, hh1, hmi0, hmi1, hs0, hs1, hus0, hus1⟩ := ha
      have := ymd2ord_small ((legalDate_iff _ _ _).1 hld)
      rw [lastInstant_eq]
      unfold meant instantOf maxMicros dayMicros
      rw [dayNumber_eq hld]
      omega
    obtain ⟨t, ht, _⟩ := C01_accepted y mo d h mi s us Y hmean ha hlast
    rw [ht] at he; simp at he
  · rw [r1 ha hfit] at he
    simpa using he.symm

theorem validateEpoch_errors (y mo d h mi s us : Int) (e : PyErr)
    (he : validateEpoch [y, mo, d, h, mi, s, us] = .error e) : e = .value ∨ e = .overflow := by
  obtain ⟨r1, r2, r3⟩ := C01_rejected y mo d h mi s us _ (yearMeans_full y)
  by_cases hf : FitsC [fullYear y, mo, d, h, mi, s, us]
  · by_cases ha : Acceptable (fullYear y) mo d h mi s us
    · by_cases hl : meant (fullYear y) mo d h mi s us ≤ lastInstant
      · obtain ⟨t, ht, _⟩ := C01_accepted y mo d h mi s us _ (yearMeans_full y) ha hl
        rw [ht] at he; simp at he
      · rw [r3 ha (by omega)] at he; right; simpa using he.symm
    · rw [r1 ha hf] at he; left; simpa using he.symm
  · rw [r2 hf] at he; right; simpa using he.symm

/-- `epochDate` fails with RinexError, or with OverflowError when the seconds are out of range -/
theorem epochDate_error {ep : Str} {e : PyErr} (h : epochDate ep = .error e) :
    e = .rinex ∨ (e = .overflow ∧ ∃ v, parseFloat (slice ep 15 26) = some v ∧ Huge v) := by
  unfold epochDate at h
  generalize hx : (do
    let d ← mapInt ((pyRange 0 13 3).map fun i => slice ep i (i + 3))
    let sec ← pyFloat (slice ep 15 26)
    let (s, us) ← secSplitWith (· * 1000000) 5 sec
    validateEpoch (d ++ [s, us]) : Except PyErr DateTime) = x at h
  cases x with
  | ok t => simp at h
  | error e' =>
    simp only [catching_error] at h
    split at h
    · left; simpa using h.symm
    · rename_i hne
      simp only [Except.error.injEq] at h
      subst h
      simp only [bind_eq_error, Prod.exists] at hx
      have hne' : e' ≠ .value := by intro hv; apply hne; simp [hv]
      rcases hx with hx | ⟨d, hd, hx | ⟨v, hv, hx | ⟨s, us, hs, hx⟩⟩⟩
      · exact absurd (mapInt_error hx) hne'
      · exact absurd (pyFloat_error hx) hne'
      · right
        have hp : parseFloat (slice ep 15 26) = some v := by
          unfold pyFloat at hv; split at hv
          · rename_i hpf; simp at hv; rw [hpf, hv]
          · simp at hv
        cases v with
        | fin q => simp [secSplitWith] at hx
        | inf n =>
          simp only [secSplitWith, Except.error.injEq] at hx
          exact ⟨hx.symm, _, hp, trivial⟩
        | nan =>
          simp only [secSplitWith, Except.error.injEq] at hx
          exact absurd hx.symm hne'
      · right
        have hp : parseFloat (slice ep 15 26) = some v := by
          unfold pyFloat at hv; split at hv
          · rename_i hpf; simp at hv; rw [hpf, hv]
          · simp at hv
        cases v with
        | inf n => simp [secSplitWith] at hs
        | nan => simp [secSplitWith] at hs
        | fin q =>
          obtain ⟨rfl, hus⟩ := secSplit_us_bounds 5 q s us hs
          obtain ⟨hlen, hb⟩ := mapInt_ok hd
          rw [show pyRange 0 13 3 = [0, 3, 6, 9, 12] from rfl] at hlen hb
          have hb3 := hb 3 (by
            intro s hs
            obtain ⟨i, _, rfl⟩ := List.mem_map.1 hs
            have := slice_length_le ep i (i + 3); omega)
          match d, hlen, hb3 with
          | [y, mo, dd, hh, mi], _, hb3 =>
            by_cases hq : Huge (.fin q)
            · refine ⟨?_, _, hp, hq⟩
              rcases validateEpoch_errors _ _ _ _ _ _ _ _ hx with h | h
              · exact absurd h hne'
              · exact h
            · exfalso
              apply hne'
              simp only [Huge, not_or, not_le] at hq
              have ht := truncRat_bound (n := 2147483648) (by omega) (by push_cast; exact hq.1) (by push_cast; exact hq.2)
              have g := fun x hx => hb3 x hx
              have := validateEpoch_no_overflow (y := y) (mo := mo) (d := dd) (h := hh) (mi := mi) (s := truncRat q)
                (us := us) (by have := g y (by simp); omega) (by have := g mo (by simp); omega)
                (by have := g dd (by simp); omega) (by have := g hh (by simp); omega)
                (by have := g mi (by simp); omega) (by omega) hus e' (by simpa using hx)
              exact this

/-- the line announces a header event (flag 3 or 4), or an epoch whose seconds are out of range -/
def Suspicious (l : Str) : Prop :=
  (∃ f, parseInt (slice (rstrip l) 26 29) = some f ∧ (f = 3 ∨ f = 4)) ∨
  (∃ v, parseFloat (slice (rstrip l) 15 26) = some v ∧ Huge v)

theorem readEpoch_error {ep : Str} {ls : List Str} {e : PyErr} (h : readEpoch ep ls = .error e) :
    e = .rinex ∨ (e = .overflow ∧ ∃ v, parseFloat (slice ep 15 26) = some v ∧ Huge v) := by
  unfold readEpoch at h
  split at h
  · left; simpa using h.symm
  · split at h
    · split at h
      · left; simpa using h.symm
      · simp at h
    · simp only [bind_eq_error] at h
      rcases h with h | ⟨t, _, h⟩
      · exact epochDate_error h
      · split at h
        · left; simpa using h.symm
        · simp only [bind_eq_error] at h
          rcases h with h | ⟨p, _, h⟩
          · left; exact readPrns_error h
          · split at h
            · left; simpa using h.symm
            · simp at h

theorem readEpoch_flag {ep : Str} {ls ls' : List Str} {x : Epoch2} (h : readEpoch ep ls = .ok (x, ls')) :
    parseInt (slice ep 26 29) = some x.flag ∧ (x.flag ≤ 1 → ∃ t, x.epoch = some t) := by
  unfold readEpoch at h
  split at h
  · simp at h
  · rename_i flag hf
    split at h
    · split at h
      · simp at h
      · simp only [Except.ok.injEq, Prod.mk.injEq] at h
        rw [← h.1]; refine ⟨hf, ?_⟩
        intro hle; simp at hle; omega
    · simp only [bind_eq_ok] at h
      obtain ⟨t, _, h⟩ := h
      split at h
      · simp at h
      · simp only [bind_eq_ok] at h
        obtain ⟨p, _, h⟩ := h
        split at h
        · simp at h
        · simp only [Except.ok.injEq, Prod.mk.injEq] at h
          rw [← h.1]; exact ⟨hf, fun _ => ⟨t, rfl⟩⟩

theorem readBlock_error {c : Cfg2} (hc : c.lines = linesPerRec c.types.length) {st : St2} {l : Str} {ls : List Str}
    {ys : List (Rec2 × St2)} {e : PyErr} (h : readBlock c st l ls = (ys, .error e)) :
    e = .rinex ∨ Suspicious l := by
  unfold readBlock at h
  split at h
  · rename_i e' he
    simp only [Prod.mk.injEq, Except.error.injEq] at h
    rw [← h.2]
    rcases readEpoch_error he with h1 | ⟨_, h2⟩
    · exact Or.inl h1
    · exact Or.inr (Or.inr h2)
  · rename_i ep l1 he
    obtain ⟨hf, ht⟩ := readEpoch_flag he
    split at h
    · rename_i h34
      exact Or.inr (Or.inl ⟨_, hf, h34⟩)
    · split at h
      · split at h
        · rename_i e' he'
          simp only [Prod.mk.injEq, Except.error.injEq] at h
          left; rw [← h.2]; exact takeLines_error he'
        · simp at h
      · split at h
        · rename_i hnone
          obtain ⟨t, ht⟩ := ht (by omega)
          rw [ht] at hnone; simp at hnone
        · split at h
          · rename_i hs
            simp only [Prod.mk.injEq, Except.error.injEq] at h
            left; rw [← h.2]; exact readSats_error hc hs
          · simp at h

theorem readBlock_mem {c : Cfg2} {st st' : St2} {l : Str} {ls ls' : List Str} {ys : List (Rec2 × St2)}
    (h : readBlock c st l ls = (ys, .ok (st', ls'))) : ∀ x ∈ ls', x ∈ ls := by
  suffices hs : ls' <:+ ls from fun x hx => hs.subset hx
  -- the remaining lines are a suffix: appending a marker shows it
  unfold readBlock at h
  have tl : ∀ {k : Nat} {a r b : List Str}, takeLines k a = .ok (r, b) → b <:+ a := by
    intro k a r b hk
    exact ⟨a.take k, (takeLines_len hk).1.symm⟩
  have nr : ∀ {a b : List Str} {x : Str}, nextRec a = .ok (x, b) → b <:+ a := by
    intro a b x hx
    cases a with
    | nil => simp [nextRec] at hx
    | cons y a => simp only [nextRec, Except.ok.injEq, Prod.mk.injEq] at hx; rw [← hx.2]; exact List.suffix_cons _ _
  have fp : ∀ {k : Nat} {a r b : List Str}, fullPrnLines k a = .ok (r, b) → b <:+ a := by
    intro k
    induction k with
    | zero =>
      intro a r b hk
      simp only [fullPrnLines, Except.ok.injEq, Prod.mk.injEq] at hk; rw [hk.2]
    | succ k ih =>
      intro a r b hk
      simp only [fullPrnLines, bind_eq_ok, Prod.exists, pure_eq_ok, Prod.mk.injEq] at hk
      obtain ⟨_, _, h1, _, _, _, _, h2, _, rfl⟩ := hk
      exact (ih h2).trans (nr h1)
  have rp : ∀ {ep : Str} {n : Int} {a r b : List Str}, readPrns ep n a = .ok (r, b) → b <:+ a := by
    intro ep n a r b hk
    unfold readPrns at hk
    split at hk
    · simp only [bind_eq_ok, Prod.exists] at hk
      obtain ⟨_, _, _, _, h1, h2⟩ := hk
      split at h2
      · simp only [bind_eq_ok, Prod.exists, pure_eq_ok, Prod.mk.injEq] at h2
        obtain ⟨_, _, h3, _, _, _, rfl⟩ := h2
        exact (nr h3).trans (fp h1)
      · simp only [pure_eq_ok, Prod.mk.injEq] at h2
        rw [← h2.2]; exact fp h1
    · simp only [bind_eq_ok, pure_eq_ok, Prod.mk.injEq] at hk
      obtain ⟨_, _, _, rfl⟩ := hk; exact List.suffix_rfl
  have re : ∀ {ep : Str} {a b : List Str} {x : Epoch2}, readEpoch ep a = .ok (x, b) → b <:+ a := by
    intro ep a b x hk
    unfold readEpoch at hk
    split at hk
    · simp at hk
    · split at hk
      · split at hk
        · simp at hk
        · simp only [Except.ok.injEq, Prod.mk.injEq] at hk; rw [hk.2]
      · simp only [bind_eq_ok] at hk
        obtain ⟨_, _, hk⟩ := hk
        split at hk
        · simp at hk
        · simp only [bind_eq_ok, Prod.exists] at hk
          obtain ⟨_, _, h1, hk⟩ := hk
          split at hk
          · simp at hk
          · simp only [Except.ok.injEq, Prod.mk.injEq] at hk; rw [← hk.2]; exact rp h1
  have rl : ∀ {ns : List Nat} {a b : List Str} {v : List ObsVal}, readSatLines ns a = .ok (v, b) → b <:+ a := by
    intro ns
    induction ns with
    | nil =>
      intro a b v hk
      simp only [readSatLines, Except.ok.injEq, Prod.mk.injEq] at hk; rw [hk.2]
    | cons n ns ih =>
      intro a b v hk
      simp only [readSatLines, bind_eq_ok, Prod.exists, pure_eq_ok, Prod.mk.injEq] at hk
      obtain ⟨_, _, h1, _, _, _, _, h2, _, rfl⟩ := hk
      exact (ih h2).trans (nr h1)
  have rs : ∀ {t : DateTime} {prns a b : List Str} {ys : List (Rec2 × St2)},
      readSats c st t prns a = (ys, .ok b) → b <:+ a := by
    intro t prns
    induction prns with
    | nil => intro a b ys hk; simp only [readSats, Prod.mk.injEq, Except.ok.injEq] at hk; rw [hk.2]
    | cons p prns ih =>
      intro a b ys hk
      simp only [readSats] at hk
      split at hk
      · simp at hk
      · rename_i data l1 h1
        split at hk
        · simp at hk
        · cases hr : readSats c st t prns l1 with
          | mk y r =>
            rw [hr] at hk
            simp only at hk
            have hrr : r = .ok b := by split at hk <;> simp_all
            rw [hrr] at hr
            exact (ih hr).trans (rl h1)
  split at h
  · simp at h
  · rename_i ep l1 he
    split at h
    · split at h
      · simp at h
      · rename_i ht
        split at h
        · simp at h
        · simp only [Prod.mk.injEq, Except.ok.injEq] at h
          rw [← h.2.2]; exact (tl ht).trans (re he)
    · split at h
      · split at h
        · simp at h
        · rename_i ht
          simp only [Prod.mk.injEq, Except.ok.injEq] at h
          rw [← h.2.2]; exact (tl ht).trans (re he)
      · split at h
        · simp at h
        · split at h
          · simp at h
          · rename_i hs
            simp only [Prod.mk.injEq, Except.ok.injEq] at h
            rw [← h.2.2]; exact (rs hs).trans (re he)

theorem readRecords2_error {c : Cfg2} (hc : c.lines = linesPerRec c.types.length) (n : Nat) (st : St2)
    (ls : List Str) (hn : ls.length ≤ n) {e : PyErr} (h : (readRecords2 c st ls).stop = .error e) :
    e = .rinex ∨ ∃ l ∈ ls, Suspicious l := by
  induction n generalizing st ls with
  | zero =>
    have : ls = [] := List.length_eq_zero_iff.1 (by omega)
    subst this; simp [readRecords2, readLoop] at h
  | succ n ih =>
    cases ls with
    | nil => simp [readRecords2, readLoop] at h
    | cons l ls =>
      rw [readRecords2_cons] at h
      cases hr : readBlock c st l ls with
      | mk ys r =>
        rw [hr] at h
        cases r with
        | error e' =>
          simp only [Except.error.injEq] at h
          subst h
          rcases readBlock_error hc hr with h1 | h1
          · exact Or.inl h1
          · exact Or.inr ⟨l, by simp, h1⟩
        | ok x =>
          obtain ⟨st', l'⟩ := x
          simp only at h
          have hlen := readBlock_len hr
          rcases ih st' l' (by simp at hn; omega) h with h1 | ⟨x, hx, hs⟩
          · exact Or.inl h1
          · exact Or.inr ⟨x, by simp [readBlock_mem hr x hx], hs⟩

end Verif.Proofs
