import Verif.Props.Nav
import Verif.Proofs.Obs2Err
import Verif.Props.Rinex3
import Verif.Proofs.Xyz
/-! # Navigation files: epoch lines and the reading loop -/
namespace Verif.Proofs
open Verif.Py Verif.Model Verif.Spec Verif.Props

theorem nav2_cols {A0 A1 A2 A3 A4 A5 A6 C1 C2 C3 w L : Str} (h0 : A0.length = 2) (h1 : A1.length = 3) (h2 : A2.length = 3)
    (h3 : A3.length = 3) (h4 : A4.length = 3) (h5 : A5.length = 3) (h6 : A6.length = 5) (c1 : C1.length = 19)
    (c2 : C2.length = 19) (c3 : C3.length = 19)
    (hL : L = A0 ++ A1 ++ A2 ++ A3 ++ A4 ++ A5 ++ A6 ++ C1 ++ C2 ++ C3 ++ w) :
    slice L 0 2 = A0 ∧ slice L 2 5 = A1 ∧ slice L 5 8 = A2 ∧ slice L 8 11 = A3 ∧ slice L 11 14 = A4 ∧ slice L 14 17 = A5 ∧
    slice L 17 22 = A6 ∧ slice L 22 41 = C1 ∧ slice L 41 60 = C2 ∧ slice L 60 79 = C3 := by
  refine ⟨?_, ?_, ?_, ?_, ?_, ?_, ?_, ?_, ?_, ?_⟩
  · rw [hL, show A0 ++ A1 ++ A2 ++ A3 ++ A4 ++ A5 ++ A6 ++ C1 ++ C2 ++ C3 ++ w =
      [] ++ A0 ++ (A1 ++ A2 ++ A3 ++ A4 ++ A5 ++ A6 ++ C1 ++ C2 ++ C3 ++ w) by simp]
    exact slice_exact (by simp) (by simp [*])
  · rw [hL, show A0 ++ A1 ++ A2 ++ A3 ++ A4 ++ A5 ++ A6 ++ C1 ++ C2 ++ C3 ++ w =
      A0 ++ A1 ++ (A2 ++ A3 ++ A4 ++ A5 ++ A6 ++ C1 ++ C2 ++ C3 ++ w) by simp]
    exact slice_exact (by simp [*]) (by simp [*])
  · rw [hL, show A0 ++ A1 ++ A2 ++ A3 ++ A4 ++ A5 ++ A6 ++ C1 ++ C2 ++ C3 ++ w =
      (A0 ++ A1) ++ A2 ++ (A3 ++ A4 ++ A5 ++ A6 ++ C1 ++ C2 ++ C3 ++ w) by simp]
    exact slice_exact (by simp [*]) (by simp [*])
  · rw [hL, show A0 ++ A1 ++ A2 ++ A3 ++ A4 ++ A5 ++ A6 ++ C1 ++ C2 ++ C3 ++ w =
      (A0 ++ A1 ++ A2) ++ A3 ++ (A4 ++ A5 ++ A6 ++ C1 ++ C2 ++ C3 ++ w) by simp]
    exact slice_exact (by simp [*]) (by simp [*])
  · rw [hL, show A0 ++ A1 ++ A2 ++ A3 ++ A4 ++ A5 ++ A6 ++ C1 ++ C2 ++ C3 ++ w =
      (A0 ++ A1 ++ A2 ++ A3) ++ A4 ++ (A5 ++ A6 ++ C1 ++ C2 ++ C3 ++ w) by simp]
    exact slice_exact (by simp [*]) (by simp [*])
  · rw [hL, show A0 ++ A1 ++ A2 ++ A3 ++ A4 ++ A5 ++ A6 ++ C1 ++ C2 ++ C3 ++ w =
      (A0 ++ A1 ++ A2 ++ A3 ++ A4) ++ A5 ++ (A6 ++ C1 ++ C2 ++ C3 ++ w) by simp]
    exact slice_exact (by simp [*]) (by simp [*])
  · rw [hL, show A0 ++ A1 ++ A2 ++ A3 ++ A4 ++ A5 ++ A6 ++ C1 ++ C2 ++ C3 ++ w =
      (A0 ++ A1 ++ A2 ++ A3 ++ A4 ++ A5) ++ A6 ++ (C1 ++ C2 ++ C3 ++ w) by simp]
    exact slice_exact (by simp [*]) (by simp [*])
  · rw [hL, show A0 ++ A1 ++ A2 ++ A3 ++ A4 ++ A5 ++ A6 ++ C1 ++ C2 ++ C3 ++ w =
      (A0 ++ A1 ++ A2 ++ A3 ++ A4 ++ A5 ++ A6) ++ C1 ++ (C2 ++ C3 ++ w) by simp]
    exact slice_exact (by simp [*]) (by simp [*])
  · rw [hL, show A0 ++ A1 ++ A2 ++ A3 ++ A4 ++ A5 ++ A6 ++ C1 ++ C2 ++ C3 ++ w =
      (A0 ++ A1 ++ A2 ++ A3 ++ A4 ++ A5 ++ A6 ++ C1) ++ C2 ++ (C3 ++ w) by simp]
    exact slice_exact (by simp [*]) (by simp [*])
  · rw [hL, show A0 ++ A1 ++ A2 ++ A3 ++ A4 ++ A5 ++ A6 ++ C1 ++ C2 ++ C3 ++ w =
      (A0 ++ A1 ++ A2 ++ A3 ++ A4 ++ A5 ++ A6 ++ C1 ++ C2) ++ C3 ++ w by simp]
    exact slice_exact (by simp [*]) (by simp [*])

/-- a physical line is the written one plus white space, if that one does not end in white space -/
theorem sameLine_ext {l p : Str} {c : Char} (h : SameLine l (p ++ [c])) (hc : isSpace c = false) :
    ∃ w, l = p ++ [c] ++ w ∧ ∀ x ∈ w, isSpace x = true := by
  unfold SameLine at h
  rw [rstrip_of_last _ _ hc] at h
  obtain ⟨t, ht, hs⟩ := rstrip_decomp l
  exact ⟨t, by rw [← h]; exact ht, hs⟩

theorem clock_three {ds : List DNum} (h : ds.length = 3) : ∃ a b c, ds = [a, b, c] := by
  match ds, h with
  | [a, b, c], _ => exact ⟨a, b, c, rfl⟩

theorem parseInt_sp {s : Str} {v : Int} (h : parseInt s = some v) : parseInt ([' '] ++ s) = some v := by
  rw [parseInt_prepend_space _ _ (by simp)]; exact h

theorem clock_ok {a b c : DNum} (ha : a.Ok) (hb : b.Ok) (hc : c.Ok) {L : Str} {i j k : Nat}
    (e1 : slice L i (i + 19) = padLeft 19 a.text) (e2 : slice L j (j + 19) = padLeft 19 b.text)
    (e3 : slice L k (k + 19) = padLeft 19 c.text) :
    mapFloat ([i, j, k].map fun i => fixExp (slice L i (i + 19))) = .ok [.fin a.value, .fin b.value, .fin c.value] := by
  have h : ∀ {d : DNum}, d.Ok → parseFloat (fixExp (padLeft 19 d.text)) = some (.fin d.value) := by
    intro d hd
    have := parseFloat_dpad hd (q := []) (by simp) 19
    rwa [List.append_nil] at this
  simp only [List.map_cons, List.map_nil, mapFloat, e1, e2, e3, pyFloat, h ha, h hb, h hc, ok_bind, pure, Except.pure]

theorem clock_flatten_last {pre : Str} {a b c : DNum} (hc : c.Ok) : ∃ p x,
    pre ++ (([a, b, c] : List DNum).map fun d => padLeft 19 d.text).flatten = p ++ [x] ∧ isSpace x = false := by
  obtain ⟨p, x, hp, hx⟩ := dnum_last hc
  refine ⟨pre ++ padLeft 19 a.text ++ padLeft 19 b.text ++ List.replicate (19 - c.text.length) ' ' ++ p, x, ?_, hx⟩
  simp only [List.map_cons, List.map_nil, List.flatten_cons, List.flatten_nil, List.append_nil]
  rw [show padLeft 19 c.text = List.replicate (19 - c.text.length) ' ' ++ c.text from rfl]
  conv => lhs; rw [hp]
  rw [hp]; simp

/-- the epoch line of a RINEX 2 message -/
theorem parseNavEpoch2_written (version : Nat) (f : Char) (system : Char) (hf : fileTypes version f = some system) (m : NavMsg)
    (h : m.Ok2 system) (l : Str) (z : Bool) (hl : SameLine l (m.epochLine2 z)) :
    parseNavEpoch2 version (some f) l = .ok (system, (m.number : Int), m.epoch) ∧ isSpaceStr (slice l 0 3) = false := by
  obtain ⟨⟨hn, hleg, hc3, hcok, _⟩, _, hy, hmu⟩ := h
  obtain ⟨a, b, c, habc⟩ := clock_three hc3
  have ha := hcok a (by simp [habc]); have hb := hcok b (by simp [habc]); have hc := hcok c (by simp [habc])
  have flds := legal_fields hleg
  have hmic := hleg.2.2.2.2
  unfold NavMsg.epochLine2 at hl
  rw [habc] at hl
  obtain ⟨k, hk⟩ : ∃ k, k = m.epoch.second * 10 + m.epoch.micro / 100000 := ⟨_, rfl⟩
  rw [← hk] at hl
  obtain ⟨p, x, hpx, hx⟩ := clock_flatten_last (pre := padLeft 2 (natStr m.number) ++ [' '] ++ zfill 2 (natStr (m.epoch.year % 100)) ++
    Spec.cols3 z m.epoch.month ++ Spec.cols3 z m.epoch.day ++ Spec.cols3 z m.epoch.hour ++ Spec.cols3 z m.epoch.minute ++
    padLeft 5 (fixedDec 1 (k : Nat))) (a := a) (b := b) hc
  rw [hpx] at hl
  obtain ⟨w, hw, hws⟩ := sameLine_ext hl hx
  rw [← hpx] at hw
  have p2 : ∀ n, n < 100 → (Spec.cols3 z n).length = 3 := fun n hn => cols3_length z hn
  have z2 : ([' '] ++ zfill 2 (natStr (m.epoch.year % 100))).length = 3 := by
    have := zfill_natStr_length (w := 2) (n := m.epoch.year % 100) (by omega) (by omega)
    simp [this]
  have hk600 : k < 600 := by omega
  have s5 : (padLeft 5 (fixedDec 1 (k : Nat))).length = 5 := by
    apply padLeft_length
    unfold fixedDec
    have h1 : (natStr (k / 10)).length ≤ 2 := natStr_length_le (by omega) (by omega)
    have h2 : (zfill 1 (natStr (k % 10))).length = 1 := zfill_natStr_length (by omega) (by omega)
    rw [if_neg (by omega)]
    simp only [Int.natAbs_natCast, pow_one, List.length_append, h2, List.length_singleton, List.length_nil]; omega
  obtain ⟨e0, e1, e2, e3, e4, e5, e6, e7, e8, e9⟩ := nav2_cols (L := l) (w := w)
    (padLeft_length (w := 2) (natStr_length_le (n := m.number) (k := 2) (by omega) (by omega))) z2
    (p2 m.epoch.month (by omega)) (p2 m.epoch.day (by omega)) (p2 m.epoch.hour (by omega)) (p2 m.epoch.minute (by omega)) s5
    (padLeft_length ha.2.2.2.2) (padLeft_length hb.2.2.2.2) (padLeft_length hc.2.2.2.2) (by rw [hw]; simp)
  have hsec : pyFloat (slice l 17 22) = .ok (.fin ((m.epoch.second : Rat) + ((m.epoch.micro * 10 : Nat) : Rat) / 10000000)) := by
    rw [e6]
    unfold pyFloat
    rw [parseFloat_padFixed 1 (by omega)]
    simp only [Except.ok.injEq, PyFloat.fin.injEq]
    have : m.epoch.micro = 100000 * (m.epoch.micro / 100000) := by omega
    rw [hk]
    generalize m.epoch.micro / 100000 = t at this
    rw [this]; push_cast; ring
  have hss := secSplit_seven 1 m.epoch.second (m.epoch.micro * 10) (by omega) (by omega)
  rw [Nat.mul_div_cancel _ (by omega)] at hss
  have hmap : mapInt ((pyRange 2 17 3).map fun i => slice l i (i + 3)) =
      .ok [((m.epoch.year % 100 : Nat) : Int), m.epoch.month, m.epoch.day, m.epoch.hour, m.epoch.minute] := by
    rw [show pyRange 2 17 3 = [2, 5, 8, 11, 14] by decide]
    apply mapInt_some
    simp only [List.map_cons, List.map_nil, e1, e2, e3, e4, e5]
    rw [parseInt_sp (parseInt_zfill_natStr 2 _), parseInt_cols3, parseInt_cols3, parseInt_cols3, parseInt_cols3]
  have hval := validateEpoch_legal ((m.epoch.year % 100 : Nat) : Int) m.epoch hleg (yearMeans_year2 hy)
  refine ⟨?_, ?_⟩
  · unfold parseNavEpoch2
    simp only [hf, e0, hsec, sec2secMs, hss, hmap, pyInt, parseInt_padLeft_natStr, ok_bind, pure, Except.pure, List.cons_append,
      List.nil_append, hval, clock_ok ha hb hc e7 e8 e9, catching]
  · have hd : ∃ x ∈ slice l 0 3, isSpace x = false := by
      obtain ⟨d, ds, hds⟩ := List.exists_cons_of_ne_nil (natStr_ne_nil m.number)
      have hdig := natStr_digits m.number d (by simp [hds])
      refine ⟨d, ?_, isDigit_not_space hdig⟩
      have : d ∈ slice l 0 2 := by rw [e0]; unfold padLeft; simp [hds]
      rw [slice_zero] at this ⊢
      exact List.take_subset_take_left l (by omega) this
    obtain ⟨x, hx1, hx2⟩ := hd
    unfold isSpaceStr
    rw [Bool.and_eq_false_iff]
    right
    rw [List.all_eq_false]
    exact ⟨x, hx1, by simp [hx2]⟩

theorem nav3_cols {s : Char} {N Y M' D H I S C1 C2 C3 w L : Str} (hn : N.length = 2) (hy : Y.length = 4) (hM : M'.length = 2)
    (hD : D.length = 3) (hH : H.length = 3) (hI : I.length = 3) (hS : S.length = 3) (c1 : C1.length = 19)
    (c2 : C2.length = 19) (c3 : C3.length = 19)
    (hL : L = [s] ++ N ++ [' '] ++ Y ++ [' '] ++ M' ++ D ++ H ++ I ++ S ++ C1 ++ C2 ++ C3 ++ w) :
    L[0]? = some s ∧ slice L 0 1 = [s] ∧ slice L 1 3 = N ∧ slice L 4 9 = Y ++ [' '] ∧ slice L 8 11 = [' '] ++ M' ∧
    slice L 11 14 = D ∧ slice L 14 17 = H ∧ slice L 17 20 = I ∧ slice L 20 23 = S ∧ slice L 23 42 = C1 ∧ slice L 42 61 = C2 ∧
    slice L 61 80 = C3 := by
  refine ⟨?_, ?_, ?_, ?_, ?_, ?_, ?_, ?_, ?_, ?_, ?_, ?_⟩
  · rw [hL]; simp
  · rw [hL]; simp [slice]
  · rw [hL, show [s] ++ N ++ [' '] ++ Y ++ [' '] ++ M' ++ D ++ H ++ I ++ S ++ C1 ++ C2 ++ C3 ++ w =
      [s] ++ N ++ ([' '] ++ Y ++ [' '] ++ M' ++ D ++ H ++ I ++ S ++ C1 ++ C2 ++ C3 ++ w) by simp]
    exact slice_exact (by simp) (by simp [*])
  · rw [hL, show [s] ++ N ++ [' '] ++ Y ++ [' '] ++ M' ++ D ++ H ++ I ++ S ++ C1 ++ C2 ++ C3 ++ w =
      ([s] ++ N ++ [' ']) ++ (Y ++ [' ']) ++ (M' ++ D ++ H ++ I ++ S ++ C1 ++ C2 ++ C3 ++ w) by simp]
    exact slice_exact (by simp [*]) (by simp [*])
  · rw [hL, show [s] ++ N ++ [' '] ++ Y ++ [' '] ++ M' ++ D ++ H ++ I ++ S ++ C1 ++ C2 ++ C3 ++ w =
      ([s] ++ N ++ [' '] ++ Y) ++ ([' '] ++ M') ++ (D ++ H ++ I ++ S ++ C1 ++ C2 ++ C3 ++ w) by simp]
    exact slice_exact (by simp [*]) (by simp [*])
  · rw [hL, show [s] ++ N ++ [' '] ++ Y ++ [' '] ++ M' ++ D ++ H ++ I ++ S ++ C1 ++ C2 ++ C3 ++ w =
      ([s] ++ N ++ [' '] ++ Y ++ [' '] ++ M') ++ D ++ (H ++ I ++ S ++ C1 ++ C2 ++ C3 ++ w) by simp]
    exact slice_exact (by simp [*]) (by simp [*])
  · rw [hL, show [s] ++ N ++ [' '] ++ Y ++ [' '] ++ M' ++ D ++ H ++ I ++ S ++ C1 ++ C2 ++ C3 ++ w =
      ([s] ++ N ++ [' '] ++ Y ++ [' '] ++ M' ++ D) ++ H ++ (I ++ S ++ C1 ++ C2 ++ C3 ++ w) by simp]
    exact slice_exact (by simp [*]) (by simp [*])
  · rw [hL, show [s] ++ N ++ [' '] ++ Y ++ [' '] ++ M' ++ D ++ H ++ I ++ S ++ C1 ++ C2 ++ C3 ++ w =
      ([s] ++ N ++ [' '] ++ Y ++ [' '] ++ M' ++ D ++ H) ++ I ++ (S ++ C1 ++ C2 ++ C3 ++ w) by simp]
    exact slice_exact (by simp [*]) (by simp [*])
  · rw [hL, show [s] ++ N ++ [' '] ++ Y ++ [' '] ++ M' ++ D ++ H ++ I ++ S ++ C1 ++ C2 ++ C3 ++ w =
      ([s] ++ N ++ [' '] ++ Y ++ [' '] ++ M' ++ D ++ H ++ I) ++ S ++ (C1 ++ C2 ++ C3 ++ w) by simp]
    exact slice_exact (by simp [*]) (by simp [*])
  · rw [hL, show [s] ++ N ++ [' '] ++ Y ++ [' '] ++ M' ++ D ++ H ++ I ++ S ++ C1 ++ C2 ++ C3 ++ w =
      ([s] ++ N ++ [' '] ++ Y ++ [' '] ++ M' ++ D ++ H ++ I ++ S) ++ C1 ++ (C2 ++ C3 ++ w) by simp]
    exact slice_exact (by simp [*]) (by simp [*])
  · rw [hL, show [s] ++ N ++ [' '] ++ Y ++ [' '] ++ M' ++ D ++ H ++ I ++ S ++ C1 ++ C2 ++ C3 ++ w =
      ([s] ++ N ++ [' '] ++ Y ++ [' '] ++ M' ++ D ++ H ++ I ++ S ++ C1) ++ C2 ++ (C3 ++ w) by simp]
    exact slice_exact (by simp [*]) (by simp [*])
  · rw [hL, show [s] ++ N ++ [' '] ++ Y ++ [' '] ++ M' ++ D ++ H ++ I ++ S ++ C1 ++ C2 ++ C3 ++ w =
      ([s] ++ N ++ [' '] ++ Y ++ [' '] ++ M' ++ D ++ H ++ I ++ S ++ C1 ++ C2) ++ C3 ++ w by simp]
    exact slice_exact (by simp [*]) (by simp [*])

/-- the epoch line of a RINEX 3 message -/
theorem parseNavEpoch3_written (m : NavMsg) (h : m.Ok3) (l : Str) (hl : SameLine l m.epochLine3) :
    parseNavEpoch3 l = .ok (m.system, (m.number : Int), m.epoch) ∧ isSpaceStr (slice l 0 1) = false := by
  obtain ⟨⟨hn, hleg, hc3, hcok, _⟩, hsys, hy, hmu⟩ := h
  obtain ⟨a, b, c, habc⟩ := clock_three hc3
  have ha := hcok a (by simp [habc]); have hb := hcok b (by simp [habc]); have hc := hcok c (by simp [habc])
  have flds := legal_fields hleg
  have hy9 : m.epoch.year ≤ 9999 := hleg.1.2.1
  unfold NavMsg.epochLine3 at hl
  rw [habc] at hl
  obtain ⟨p, x, hpx, hx⟩ := clock_flatten_last (pre := [m.system] ++ zfill 2 (natStr m.number) ++ [' '] ++ padLeft 4 (natStr m.epoch.year) ++
    [' '] ++ zfill 2 (natStr m.epoch.month) ++ [' '] ++ zfill 2 (natStr m.epoch.day) ++
    [' '] ++ zfill 2 (natStr m.epoch.hour) ++ [' '] ++ zfill 2 (natStr m.epoch.minute) ++
    [' '] ++ zfill 2 (natStr m.epoch.second)) (a := a) (b := b) hc
  rw [hpx] at hl
  obtain ⟨w, hw, hws⟩ := sameLine_ext hl hx
  rw [← hpx] at hw
  have z2 : ∀ n, n < 100 → (zfill 2 (natStr n)).length = 2 := fun n hn => zfill_natStr_length (by omega) (by omega)
  have z3 : ∀ n, n < 100 → ([' '] ++ zfill 2 (natStr n)).length = 3 := fun n hn => by simp [z2 n hn]
  obtain ⟨e, e0, e1, e2, e3, e4, e5, e6, e7, e8, e9, e10⟩ := nav3_cols (L := l) (w := w) (s := m.system) (z2 m.number hn)
    (padLeft_length (w := 4) (natStr_length_le (n := m.epoch.year) (k := 4) (by omega) (by omega)))
    (z2 m.epoch.month (by omega)) (z3 m.epoch.day (by omega)) (z3 m.epoch.hour (by omega)) (z3 m.epoch.minute (by omega))
    (z3 m.epoch.second (by omega))
    (padLeft_length ha.2.2.2.2) (padLeft_length hb.2.2.2.2) (padLeft_length hc.2.2.2.2) (by rw [hw]; simp)
  have hmap : mapInt (slice l 4 9 :: (pyRange 8 23 3).map fun i => slice l i (i + 3)) =
      .ok [(m.epoch.year : Int), m.epoch.month, m.epoch.day, m.epoch.hour, m.epoch.minute, m.epoch.second] := by
    rw [show pyRange 8 23 3 = [8, 11, 14, 17, 20] by decide]
    apply mapInt_some
    simp only [List.map_cons, List.map_nil, e2, e3, e4, e5, e6, e7]
    rw [parseInt_append_space _ _ (by simp), parseInt_padLeft_natStr,
      parseInt_sp (parseInt_zfill_natStr 2 _), parseInt_sp (parseInt_zfill_natStr 2 _), parseInt_sp (parseInt_zfill_natStr 2 _),
      parseInt_sp (parseInt_zfill_natStr 2 _), parseInt_sp (parseInt_zfill_natStr 2 _)]
  have hval : validateEpoch [(m.epoch.year : Int), m.epoch.month, m.epoch.day, m.epoch.hour, m.epoch.minute, m.epoch.second] =
      .ok m.epoch := by
    rw [C28_accepted _ _ _ _ _ _ (m.epoch.year : Int) (by unfold YearMeans; omega)]
    refine ⟨⟨by omega, by omega, by omega, by simpa using hleg.1, by omega, by omega, by omega, by omega, by omega, by omega, by omega,
      by omega⟩, by omega, hleg, ?_⟩
    rw [if_pos (by omega)]
    unfold instant meant
    simp [hmu]
  refine ⟨?_, ?_⟩
  · unfold parseNavEpoch3
    simp only [charAt, e, e1, hmap, pyInt, parseInt_zfill_natStr, ok_bind, pure, Except.pure, hval, clock_ok ha hb hc e8 e9 e10, catching]
  · rw [e0]
    simp only [List.mem_cons, List.not_mem_nil, or_false] at hsys
    rcases hsys with h | h | h | h | h | h | h <;> rw [h] <;> decide

/-! ## the loop -/

/-- an epoch line for the reader: its first columns are not all blank -/
def IsEpochLine (c : NavCfg) (l : Str) : Prop := isSpaceStr (slice l 0 c.spaces) = false

/-- what the reader sees in an epoch line -/
def epochOf (c : NavCfg) (ft : Option Char) (l : Str) : Except PyErr (Char × Int × DateTime) :=
  if c.v3 then parseNavEpoch3 l else parseNavEpoch2 c.version ft l

theorem navStep_epoch {c : NavCfg} {ft : Option Char} {date : Option Date} {E : Str} {s : Char} {n : Int} {t : DateTime}
    {vals : List Nat} (hE : IsEpochLine c E) (hp : epochOf c ft E = .ok (s, n, t)) (hv : msgVals c s = some vals) (l : NavLoc) (m : NavTable) :
    navStep c ft date E l m = .ok (⟨l.orbits, vals.length, some ⟨s, n, t, vals⟩, true⟩, m) := by
  unfold navStep
  unfold IsEpochLine at hE
  unfold epochOf at hp
  rw [hE]
  simp only [Bool.not_false, if_true]
  by_cases hc : c.v3 = true
  · rw [if_pos hc] at hp ⊢
    simp only [hp, ok_bind, hv, pure, Except.pure]
  · rw [if_neg hc] at hp ⊢
    simp only [hp, ok_bind, hv, pure, Except.pure]

/-- what happens when the last orbit line of a message has been read -/
def finish (c : NavCfg) (date : Option Date) (k : NavCur) (os : List Str) (m : NavTable) : Except PyErr NavTable :=
  if date ≠ some k.epoch.date then .ok m
  else (readOrbits c os k.vals).map fun v => navStore m k v

theorem navStep_orbit_more {c : NavCfg} {ft : Option Char} {date : Option Date} {o : Str} (ho : ¬ IsEpochLine c o) {l : NavLoc} (m : NavTable)
    (hl : 2 ≤ l.left) : navStep c ft date o l m = .ok (⟨l.orbits ++ [o], l.left - 1, l.last, l.reader⟩, m) := by
  unfold navStep
  unfold IsEpochLine at ho
  simp only [Bool.not_eq_false] at ho
  rw [ho]
  have h1 : l.left ≠ 0 := by omega
  have h2 : l.left - 1 ≠ 0 := by omega
  simp [h1, h2, pure, Except.pure]

theorem navStep_orbit_last {c : NavCfg} {ft : Option Char} {date : Option Date} {o : Str} (ho : ¬ IsEpochLine c o) {os : List Str}
    {k : NavCur} (m : NavTable) :
    navStep c ft date o ⟨os, 1, some k, true⟩ m =
      (finish c date k (os ++ [o]) m).map fun m' => (⟨[], 0, some k, false⟩, m') := by
  unfold navStep finish
  unfold IsEpochLine at ho
  simp only [Bool.not_eq_false] at ho
  rw [ho]
  simp only [Bool.not_true, Bool.false_eq_true, if_false, ne_eq, one_ne_zero, not_false_eq_true, if_true, Nat.sub_self, not_true,
    decide_false]
  split
  · rfl
  · cases readOrbits c (os ++ [o]) k.vals <;> rfl

theorem navStep_stray {c : NavCfg} {ft : Option Char} {date : Option Date} {o : Str} (ho : ¬ IsEpochLine c o) {os : List Str}
    {k : Option NavCur} (m : NavTable) : navStep c ft date o ⟨os, 0, k, false⟩ m = .error .rinex := by
  unfold navStep
  unfold IsEpochLine at ho
  simp only [Bool.not_eq_false] at ho
  rw [ho]
  simp [throw, throwThe, MonadExceptOf.throw]

theorem navLoop_cons (c : NavCfg) (ft : Option Char) (date : Option Date) (line : Str) (ls : List Str) (l : NavLoc) (m : NavTable) :
    navLoop c ft date (line :: ls) l m = (navStep c ft date line l m >>= fun p => navLoop c ft date ls p.1 p.2) := rfl

theorem navLoop_orbits {c : NavCfg} {ft : Option Char} {date : Option Date} (os : List Str) (ho : ∀ o ∈ os, ¬ IsEpochLine c o)
    (hne : os ≠ []) (acc : List Str) (k : NavCur) (m : NavTable) (rest : List Str) :
    navLoop c ft date (os ++ rest) ⟨acc, os.length, some k, true⟩ m =
      (finish c date k (acc ++ os) m >>= fun m' => navLoop c ft date rest ⟨[], 0, some k, false⟩ m') := by
  induction os generalizing acc with
  | nil => exact absurd rfl hne
  | cons o os ih =>
    rw [List.cons_append, navLoop_cons]
    cases os with
    | nil =>
      rw [show [o].length = 1 from rfl, navStep_orbit_last (ho o (by simp))]
      cases finish c date k (acc ++ [o]) m <;> rfl
    | cons o' os =>
      rw [navStep_orbit_more (ho o (by simp)) m (by simp)]
      simp only [ok_bind]
      have := ih (fun x hx => ho x (by simp [hx])) (by simp) (acc ++ [o])
      simp only [List.length_cons, Nat.add_sub_cancel] at this ⊢
      rw [this]
      simp

/-- a complete message -/
theorem navLoop_message {c : NavCfg} {ft : Option Char} {date : Option Date} {E : Str} {s : Char} {n : Int} {t : DateTime}
    {vals : List Nat} (hE : IsEpochLine c E) (hp : epochOf c ft E = .ok (s, n, t)) (hv : msgVals c s = some vals)
    (os : List Str) (ho : ∀ o ∈ os, ¬ IsEpochLine c o) (hlen : os.length = vals.length) (hne : os ≠ []) (l : NavLoc) (m : NavTable)
    (rest : List Str) :
    navLoop c ft date (E :: (os ++ rest)) l m =
      (finish c date ⟨s, n, t, vals⟩ (l.orbits ++ os) m >>= fun m' =>
        navLoop c ft date rest ⟨[], 0, some ⟨s, n, t, vals⟩, false⟩ m') := by
  rw [navLoop_cons, navStep_epoch hE hp hv]
  simp only [ok_bind]
  rw [← hlen]
  exact navLoop_orbits os ho hne l.orbits _ m rest

/-! ## written messages -/

theorem msgVals_rowSizes {c : NavCfg} {s : Char} {vals : List Nat} (h : msgVals c s = some vals) : vals = rowSizes s := by
  unfold msgVals at h
  unfold rowSizes
  split at h
  · split at h
    · rename_i hs
      cases h
      rw [if_neg (by rcases hs with rfl | rfl | rfl | rfl | rfl <;> decide)]; rfl
    · split at h
      · rename_i hs; cases h; rw [if_pos hs]; rfl
      · cases h
  · split at h
    · rename_i hs; cases h; rw [if_neg (by rw [hs]; decide)]; rfl
    · split at h
      · rename_i hs; cases h; rw [if_pos (Or.inl hs)]; rfl
      · split at h
        · rename_i hs; cases h; rw [if_pos (Or.inr hs.1)]; rfl
        · cases h

theorem rowSizes_mem {s : Char} {n : Nat} (h : n ∈ rowSizes s) : n ≤ 4 := by
  unfold rowSizes at h
  split at h <;> simp at h <;> omega

theorem row_not_epoch (v3 : Bool) (version : Nat) {r : ORow} {l : Str} (hne : l ≠ []) (h : SameLine l (r.render (indentOf v3))) :
    ¬ IsEpochLine (layout v3 version) l := by
  have hsp : (layout v3 version).spaces ≤ indentOf v3 ∧ 1 ≤ (layout v3 version).spaces := by
    cases v3 <;> simp [layout, navCfg2, navCfg3, indentOf]
  unfold IsEpochLine
  generalize (layout v3 version).spaces = sp at hsp
  have hr : rstrip (slice l 0 sp) = [] := by
    rw [rstrip_slice_same h, rstrip_eq_nil_iff]
    intro c hc
    rw [slice_zero] at hc
    unfold ORow.render at hc
    rw [List.append_assoc, List.take_append_of_le_length (by simpa using hsp.1)] at hc
    exact mem_blanks c (List.mem_of_mem_take hc)
  rw [rstrip_eq_nil_iff] at hr
  rw [Bool.not_eq_false]
  unfold isSpaceStr
  rw [Bool.and_eq_true, List.all_eq_true]
  refine ⟨?_, hr⟩
  obtain ⟨x, xs, rfl⟩ := List.exists_cons_of_ne_nil hne
  obtain ⟨j, rfl⟩ : ∃ j, sp = j + 1 := ⟨sp - 1, by omega⟩
  simp [slice]

theorem written_rows (v3 : Bool) (version : Nat) (rows : List ORow) (os : List Str)
    (hr : ∀ r ∈ rows, ∀ f ∈ r.fields, OField.Ok f) (h4 : ∀ r ∈ rows, r.fields.length ≤ 4)
    (hw : Written os (rows.map (ORow.render (indentOf v3)))) :
    readOrbits (layout v3 version) os (rows.map fun r => r.fields.length) =
      .ok (rows.flatMap fun r => r.fields.map fun f => .fin f.value) := by
  induction rows generalizing os with
  | nil =>
    cases os with
    | nil => rfl
    | cons => simp [Written] at hw
  | cons r rows ih =>
    cases os with
    | nil => simp [Written] at hw
    | cons o os =>
      simp only [List.map_cons, Written] at hw
      simp only [List.map_cons, readOrbits]
      rw [C25_written v3 version r (hr r (by simp)) (h4 r (by simp)) o hw.1]
      rw [ih os (fun x hx => hr x (by simp [hx])) (fun x hx => h4 x (by simp [hx])) hw.2]
      simp [ok_bind, pure, Except.pure]

theorem written_rows_len {os cs : List Str} (h : Written os cs) : os.length = cs.length := by
  induction os generalizing cs with
  | nil => cases cs <;> simp [Written] at h ⊢
  | cons o os ih =>
    cases cs with
    | nil => simp [Written] at h
    | cons c cs => simp [ih h.2]

theorem written_not_epoch (v3 : Bool) (version : Nat) (rows : List ORow) (os : List Str) (hne : [] ∉ os)
    (hw : Written os (rows.map (ORow.render (indentOf v3)))) : ∀ o ∈ os, ¬ IsEpochLine (layout v3 version) o := by
  induction os generalizing rows with
  | nil => simp
  | cons o os ih =>
    cases rows with
    | nil => simp [Written] at hw
    | cons r rows =>
      simp only [List.map_cons, Written] at hw
      intro x hx
      rcases List.mem_cons.1 hx with rfl | hx
      · exact row_not_epoch v3 version (by rintro rfl; simp at hne) hw.1
      · exact ih rows (by simp at hne; exact hne.2) hw.2 x hx

/-- the message is readable by the class: RINEX 2 files hold messages of the system of the file -/
def MsgFor (v3 : Bool) (version : Nat) (ft : Option Char) (m : NavMsg) : Prop :=
  if v3 then m.Ok3 else ∃ f s, ft = some f ∧ fileTypes version f = some s ∧ m.Ok2 s

theorem date_eq_iff {t : DateTime} {day : DateTime} : t.date = day.date ↔ OnDay t day := by
  show (⟨t.year, t.month, t.day⟩ : Date) = ⟨day.year, day.month, day.day⟩ ↔ _
  simp [OnDay]

instance (t d : DateTime) : Decidable (OnDay t d) := by unfold OnDay; infer_instance

theorem msgVals_for {v3 : Bool} {version : Nat} {ft : Option Char} {m : NavMsg} (h : MsgFor v3 version ft m) :
    msgVals (layout v3 version) m.system = some (rowSizes m.system) := by
  unfold MsgFor at h
  cases v3 with
  | true =>
    have hs := h.2.1
    simp only [List.mem_cons, List.not_mem_nil, or_false] at hs
    rcases hs with h | h | h | h | h | h | h <;> rw [h] <;> rfl
  | false =>
    obtain ⟨f, s, _, hf, hok⟩ := h
    rw [hok.2.1]
    unfold fileTypes at hf
    split at hf
    · cases hf; rfl
    · split at hf
      · cases hf; rfl
      · split at hf
        · split at hf
          · cases hf
          · rename_i hv
            cases hf
            simp [msgVals, layout, navCfg2, hv, rowSizes, valsGlo]
        · cases hf

end Verif.Proofs
