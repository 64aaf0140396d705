import Verif.Spec.Header
import Verif.Proofs.Header
import Verif.Proofs.Obs2Epoch
import Verif.Proofs.Obs2File
/-! # Written header lines decode to what they say -/
namespace Verif.Proofs
open Verif.Py Verif.Model Verif.Spec Verif.Props

theorem fixedDec_eq (k : Nat) (n : Int) : fixedDec k n = (if decide (n < 0) = true then ['-'] else []) ++
    natStr (n.natAbs / 10 ^ k) ++ ['.'] ++ zfill k (natStr (n.natAbs % 10 ^ k)) := by
  simp [fixedDec]

theorem parseFloat_fixedDec (k : Nat) (hk : 1 ≤ k) (p q : Str) (n : Int) (hp : ∀ c ∈ p, isSpace c = true)
    (hq : ∀ c ∈ q, isSpace c = true) : parseFloat (p ++ fixedDec k n ++ q) = some (.fin ((n : Rat) / 10 ^ k)) := by
  rw [fixedDec_eq, parseFloat_fixed p q _ _ _ hp hq (natStr_digits _) (zfill_digits (natStr_digits _)) (natStr_ne_nil _)]
  have hlen : (zfill k (natStr (n.natAbs % 10 ^ k))).length = k :=
    zfill_natStr_length hk (Nat.mod_lt _ (by positivity))
  rw [hlen, decVal_natStr, decVal_zfill, decVal_natStr]
  have hpos : (10 : Rat) ^ k ≠ 0 := by positivity
  have key : ((n.natAbs / 10 ^ k : Nat) : Rat) + ((n.natAbs % 10 ^ k : Nat) : Rat) / 10 ^ k = (n.natAbs : Rat) / 10 ^ k := by
    have := Nat.div_add_mod n.natAbs (10 ^ k)
    have h2 : (n.natAbs : Rat) = 10 ^ k * ((n.natAbs / 10 ^ k : Nat) : Rat) + ((n.natAbs % 10 ^ k : Nat) : Rat) := by
      exact_mod_cast this.symm
    rw [h2]; field_simp
  simp only [key]
  by_cases hn : n < 0
  · simp only [hn, decide_true, if_true]
    have : ((n.natAbs : Nat) : Rat) = -(n : Rat) := by
      have : ((n.natAbs : Nat) : Int) = -n := by omega
      have h2 := congrArg (Int.cast (R := Rat)) this
      rw [Int.cast_natCast, Int.cast_neg] at h2; exact h2
    rw [this]; congr 2; ring
  · simp only [hn, decide_false]
    have : ((n.natAbs : Nat) : Rat) = (n : Rat) := by
      have : ((n.natAbs : Nat) : Int) = n := by omega
      have h2 := congrArg (Int.cast (R := Rat)) this
      rw [Int.cast_natCast] at h2; exact h2
    rw [this]; rfl

theorem parseFloat_padFixed (k : Nat) (hk : 1 ≤ k) (w : Nat) (n : Int) :
    parseFloat (padLeft w (fixedDec k n)) = some (.fin ((n : Rat) / 10 ^ k)) := by
  have := parseFloat_fixedDec k hk (List.replicate (w - (fixedDec k n).length) ' ') [] n mem_blanks (by simp)
  rw [List.append_nil] at this
  exact this

theorem headerLabel_hline {c lbl w : Str} (hc : c.length ≤ 60) (hl : rstrip lbl = lbl) (hw : ∀ x ∈ w, isSpace x = true) :
    headerLabel (hline c lbl ++ w) = lbl := by
  unfold headerLabel hline
  have : (padRight 60 c).length = 60 := padRight_length hc
  rw [List.append_assoc, List.drop_append_of_le_length (by omega), List.drop_of_length_le (by omega), List.nil_append,
    rstrip_append_space _ _ hw, hl]

/-- contents of a header line, seen through its columns -/
theorem slice_hline {a m b lbl w : Str} {i j : Nat} (hi : a.length = i) (hj : a.length + m.length = j) :
    slice (hline (a ++ m ++ b) lbl ++ w) i j = m := by
  unfold hline padRight
  rw [show (a ++ m ++ b ++ List.replicate (60 - (a ++ m ++ b).length) ' ' ++ lbl ++ w) =
    a ++ m ++ (b ++ List.replicate (60 - (a ++ m ++ b).length) ' ' ++ lbl ++ w) by simp]
  exact slice_exact hi hj

theorem fixedDec2_length {n : Nat} (h : n < 1000) : (fixedDec 2 (n : Int)).length ≤ 9 := by
  unfold fixedDec
  have h1 : (natStr (n / 100)).length ≤ 2 := natStr_length_le (by omega) (by omega)
  have h2 : (zfill 2 (natStr (n % 100))).length = 2 := zfill_natStr_length (by omega) (by omega)
  simp only [Int.natAbs_natCast, show (10 : Nat) ^ 2 = 100 from rfl, List.length_append, h2]
  split
  · omega
  · simp; omega

theorem parseVerType_render (v n : Nat) (f s : Char) (d : Str × Str) (h : (HLine.version n f s d).Ok) (w : Str) :
    parseVerType v ((HLine.version n f s d).render v ++ w) =
      .ok (.fin ((n : Rat) / 100), f, if v < 300 ∧ s = ' ' then 'G' else s) := by
  obtain ⟨h, hd1, hd2, -⟩ := h
  have hp := padLeft_length (fixedDec2_length h)
  have hq : (padRight 19 d.1).length = 19 := by simp [padRight]; omega
  have e1 : ((HLine.version n f s d).render v ++ w).take 9 = padLeft 9 (fixedDec 2 (n : Int)) := by
    rw [← slice_zero]
    simp only [HLine.render]
    rw [show padLeft 9 (fixedDec 2 (n : Int)) ++ List.replicate 11 ' ' ++ [f] ++ padRight 19 d.1 ++ [s] ++ d.2 =
      [] ++ padLeft 9 (fixedDec 2 (n : Int)) ++ (List.replicate 11 ' ' ++ [f] ++ padRight 19 d.1 ++ [s] ++ d.2) by simp]
    exact slice_hline rfl (by simp [hp])
  have hget : ∀ (a b : Str) (c : Char) (i : Nat), a.length = i → (hline (a ++ [c] ++ b) lbl1 ++ w)[i]? = some c := by
    intro a b c i hi
    unfold hline padRight
    simp only [List.append_assoc]
    rw [List.getElem?_append_right (by omega)]
    simp [hi]
  have e2 : ((HLine.version n f s d).render v ++ w)[20]? = some f := by
    simp only [HLine.render]
    rw [List.append_assoc _ [s] d.2, List.append_assoc _ (padRight 19 d.1) _]
    exact hget _ _ f 20 (by simp [hp])
  have e3 : ((HLine.version n f s d).render v ++ w)[40]? = some s := by
    simp only [HLine.render]
    exact hget _ _ s 40 (by simp [hp, hq])
  unfold parseVerType charAt
  rw [e1, e2, e3]
  unfold pyFloat
  rw [parseFloat_padFixed 2 (by omega)]
  simp only [ok_bind, pure, Except.pure]
  by_cases hv : v < 300 <;> by_cases hs : s = ' ' <;> simp [hv, hs] <;> norm_num

theorem parseXyz_render (v : Nat) (x y z : Int) (h : (HLine.position x y z).Ok) (w : Str) :
    parseXyz ((HLine.position x y z).render v ++ w) =
      .ok [.fin ((x : Rat) / 10000), .fin ((y : Rat) / 10000), .fin ((z : Rat) / 10000)] := by
  simp only [HLine.Ok, List.mem_cons, List.not_mem_nil, or_false, forall_eq_or_imp, forall_eq] at h
  obtain ⟨h1, h2, h3⟩ := h
  have p1 := padLeft_length h1
  have p2 := padLeft_length h2
  have p3 := padLeft_length h3
  unfold parseXyz
  rw [show pyRange 0 42 14 = [0, 14, 28] by decide]
  simp only [HLine.render]
  have e1 : slice (hline (padLeft 14 (fixedDec 4 x) ++ padLeft 14 (fixedDec 4 y) ++ padLeft 14 (fixedDec 4 z)) lbl3 ++ w)
      0 14 = padLeft 14 (fixedDec 4 x) := by
    rw [show padLeft 14 (fixedDec 4 x) ++ padLeft 14 (fixedDec 4 y) ++ padLeft 14 (fixedDec 4 z) =
      [] ++ padLeft 14 (fixedDec 4 x) ++ (padLeft 14 (fixedDec 4 y) ++ padLeft 14 (fixedDec 4 z)) by simp]
    exact slice_hline rfl (by simp [p1])
  have e2 : slice (hline (padLeft 14 (fixedDec 4 x) ++ padLeft 14 (fixedDec 4 y) ++ padLeft 14 (fixedDec 4 z)) lbl3 ++ w)
      14 28 = padLeft 14 (fixedDec 4 y) := slice_hline p1 (by omega)
  have e3 : slice (hline (padLeft 14 (fixedDec 4 x) ++ padLeft 14 (fixedDec 4 y) ++ padLeft 14 (fixedDec 4 z)) lbl3 ++ w)
      28 42 = padLeft 14 (fixedDec 4 z) := by
    rw [← List.append_nil (padLeft 14 (fixedDec 4 x) ++ padLeft 14 (fixedDec 4 y) ++ padLeft 14 (fixedDec 4 z))]
    exact slice_hline (by simp [p1, p2]) (by simp [p1, p2, p3])
  simp only [List.map_cons, List.map_nil, mapFloat, e1, e2, e3, pyFloat, parseFloat_padFixed 4 (by omega), ok_bind, pure,
    Except.pure]
  norm_num

theorem parseInterval_render (v ms : Nat) (r : Str) (h : (HLine.interval ms r).Ok) (w : Str) :
    parseInterval v ((HLine.interval ms r).render v ++ w) =
      .ok (.fin (if v = 200 then ((ms / 1000 : Nat) : Rat) else (ms : Rat) / 1000)) := by
  obtain ⟨h1, h2, -, -⟩ := h
  simp only [parseInterval, HLine.render]
  by_cases hv : v = 200
  · simp only [hv, if_true]
    have hl : (padLeft 6 (natStr (ms / 1000))).length = 6 :=
      padLeft_length (natStr_length_le (by omega) (by omega))
    have e : (hline (padLeft 6 (natStr (ms / 1000)) ++ r) lbl4 ++ w).take 6 = padLeft 6 (natStr (ms / 1000)) := by
      have := slice_hline (a := []) (m := padLeft 6 (natStr (ms / 1000))) (b := r) (lbl := lbl4) (w := w) (i := 0) (j := 6) rfl
        (by rw [hl]; rfl)
      rw [← slice_zero]; simpa using this
    rw [e]
    unfold pyInt
    rw [parseInt_padLeft_natStr]
    simp only [ok_bind, pure, Except.pure]
    norm_cast
  · simp only [hv, if_false]
    have hl := padLeft_length h1
    have e : (hline (padLeft 10 (fixedDec 3 (ms : Int)) ++ r) lbl4 ++ w).take 10 = padLeft 10 (fixedDec 3 (ms : Int)) := by
      have := slice_hline (a := []) (m := padLeft 10 (fixedDec 3 (ms : Int))) (b := r) (lbl := lbl4) (w := w) (i := 0)
        (j := 10) rfl (by rw [hl]; rfl)
      rw [← slice_zero]; simpa using this
    rw [e]
    unfold pyFloat
    rw [parseFloat_padFixed 3 (by omega)]
    norm_num

theorem parseFloat_secs' (w s m : Nat) (t : Str) (ht : ∀ c ∈ t, isSpace c = true) (hm : m < 10000000) :
    parseFloat (padLeft w (natStr s ++ ['.'] ++ zfill 7 (natStr m)) ++ t) =
      some (.fin ((s : Rat) + (m : Rat) / 10000000)) := by
  have h := parseFloat_secs s m hm
  rw [parseFloat_append_space _ _ ht]
  unfold padLeft at h ⊢
  rw [parseFloat_prepend_space _ _ mem_blanks] at h ⊢
  exact h

/-- the digits of the seconds that count -/
def secDigits (v : Nat) (t : DateTime) (sub : Nat) : Nat := t.micro * 10 + if v = 200 then 0 else sub

theorem secCols_length (v : Nat) (t : DateTime) (sub : Nat) (hs : t.second < 100) (hm : t.micro < 1000000) (hsub : sub < 10) : (secCols v t sub).length = 13 := by
  have h1 : (natStr t.second).length ≤ 2 := natStr_length_le (by omega) (by omega)
  unfold secCols
  split
  · have h2 : (zfill 6 (natStr t.micro)).length = 6 := zfill_natStr_length (by omega) (by omega)
    rw [List.length_append, padLeft_length (by simp only [List.length_append, h2, List.length_singleton]; omega)]
    rfl
  · have h2 : (zfill 7 (natStr (t.micro * 10 + sub))).length = 7 := zfill_natStr_length (by omega) (by omega)
    exact padLeft_length (by simp only [List.length_append, h2, List.length_singleton]; omega)

theorem parseFloat_secCols (v : Nat) (t : DateTime) (sub : Nat) (hm : t.micro < 1000000) (hsub : sub < 10) (w : Str) (hw : ∀ c ∈ w, isSpace c = true) :
    parseFloat (secCols v t sub ++ w) = some (.fin ((t.second : Rat) + (secDigits v t sub : Rat) / 10000000)) := by
  unfold secCols secDigits
  split
  · rw [List.append_assoc, parseFloat_append_space _ _ (by intro c hc; rcases List.mem_append.1 hc with h | h; · rw [List.mem_singleton.1 h]; rfl
                                                           · exact hw c h)]
    have e : natStr t.second ++ ['.'] ++ zfill 6 (natStr t.micro) = fixedDec 6 ((t.second * 1000000 + t.micro : Nat) : Int) := by
      unfold fixedDec
      rw [if_neg (by omega), Int.natAbs_natCast, show (10 : Nat) ^ 6 = 1000000 from rfl, show (t.second * 1000000 + t.micro) / 1000000 = t.second by omega,
        show (t.second * 1000000 + t.micro) % 1000000 = t.micro by omega]
      rfl
    rw [e, parseFloat_padFixed 6 (by omega)]
    congr 2
    push_cast
    ring
  · exact parseFloat_secs' 13 _ _ w hw (by omega)

/-- the columns of the time line -/
theorem tofo_cols {A1 A2 A3 A4 A5 A6 sys : Str} (w : Str) (p1 : A1.length = 6) (p2 : A2.length = 6) (p3 : A3.length = 6)
    (p4 : A4.length = 6) (p5 : A5.length = 6) (p6 : A6.length = 13) (hsys : sys.length = 3) {L : Str}
    (hL : L = hline (A1 ++ A2 ++ A3 ++ A4 ++ A5 ++ A6 ++ List.replicate 5 ' ' ++ sys) lbl2 ++ w) :
    slice L 0 6 = A1 ∧ slice L 6 12 = A2 ∧ slice L 12 18 = A3 ∧ slice L 18 24 = A4 ∧ slice L 24 30 = A5 ∧
    slice L 30 43 = A6 ∧ slice L 30 44 = A6 ++ [' '] ∧ slice L 48 51 = sys := by
  refine ⟨?_, ?_, ?_, ?_, ?_, ?_, ?_, ?_⟩
  · rw [hL, show A1 ++ A2 ++ A3 ++ A4 ++ A5 ++ A6 ++ List.replicate 5 ' ' ++ sys =
      [] ++ A1 ++ (A2 ++ A3 ++ A4 ++ A5 ++ A6 ++ List.replicate 5 ' ' ++ sys) by simp]
    exact slice_hline rfl (by simp [p1])
  · rw [hL, show A1 ++ A2 ++ A3 ++ A4 ++ A5 ++ A6 ++ List.replicate 5 ' ' ++ sys =
      A1 ++ A2 ++ (A3 ++ A4 ++ A5 ++ A6 ++ List.replicate 5 ' ' ++ sys) by simp]
    exact slice_hline p1 (by omega)
  · rw [hL, show A1 ++ A2 ++ A3 ++ A4 ++ A5 ++ A6 ++ List.replicate 5 ' ' ++ sys =
      (A1 ++ A2) ++ A3 ++ (A4 ++ A5 ++ A6 ++ List.replicate 5 ' ' ++ sys) by simp]
    exact slice_hline (by simp [*]) (by simp [*])
  · rw [hL, show A1 ++ A2 ++ A3 ++ A4 ++ A5 ++ A6 ++ List.replicate 5 ' ' ++ sys =
      (A1 ++ A2 ++ A3) ++ A4 ++ (A5 ++ A6 ++ List.replicate 5 ' ' ++ sys) by simp]
    exact slice_hline (by simp [*]) (by simp [*])
  · rw [hL, show A1 ++ A2 ++ A3 ++ A4 ++ A5 ++ A6 ++ List.replicate 5 ' ' ++ sys =
      (A1 ++ A2 ++ A3 ++ A4) ++ A5 ++ (A6 ++ List.replicate 5 ' ' ++ sys) by simp]
    exact slice_hline (by simp [*]) (by simp [*])
  · rw [hL, show A1 ++ A2 ++ A3 ++ A4 ++ A5 ++ A6 ++ List.replicate 5 ' ' ++ sys =
      (A1 ++ A2 ++ A3 ++ A4 ++ A5) ++ A6 ++ (List.replicate 5 ' ' ++ sys) by simp]
    exact slice_hline (by simp [*]) (by simp [*])
  · rw [hL, show A1 ++ A2 ++ A3 ++ A4 ++ A5 ++ A6 ++ List.replicate 5 ' ' ++ sys =
      (A1 ++ A2 ++ A3 ++ A4 ++ A5) ++ (A6 ++ [' ']) ++ (List.replicate 4 ' ' ++ sys) by
        simp [show List.replicate 5 ' ' = ' ' :: List.replicate 4 ' ' from rfl]]
    exact slice_hline (by simp [*]) (by simp [*])
  · rw [hL, ← List.append_nil (A1 ++ A2 ++ A3 ++ A4 ++ A5 ++ A6 ++ List.replicate 5 ' ' ++ sys)]
    exact slice_hline (by simp [*]) (by simp [*])

theorem parseTofo_render (v : Nat) (t : DateTime) (sub : Nat) (sys : Str) (h : (HLine.firstObs t sub sys).Ok) (w : Str) :
    parseTofo v ((HLine.firstObs t sub sys).render v ++ w) =
      .ok (t, if sys = c% "   " then c% "GPS" else sys) := by
  obtain ⟨hl, hy, hsub, hsys⟩ := h
  obtain ⟨f1, f2, f3, f4, f5, f6⟩ := fields_of_legal hl
  have hy9 : t.year ≤ 9999 := hl.1.2.1
  have d6 : ∀ n, n < 1000000 → (padLeft 6 (natStr n)).length = 6 := fun n hn =>
    padLeft_length (natStr_length_le (by omega) (by omega))
  have hmic : secDigits v t sub < 10000000 := by unfold secDigits; split <;> omega
  have p6 := secCols_length v t sub (by omega) (by omega) hsub
  obtain ⟨L, hL⟩ : ∃ L, L = (HLine.firstObs t sub sys).render v ++ w := ⟨_, rfl⟩
  obtain ⟨e1, e2, e3, e4, e5, e6, e7, e8⟩ := tofo_cols w (d6 t.year (by omega)) (d6 t.month (by omega)) (d6 t.day (by omega))
    (d6 t.hour (by omega)) (d6 t.minute (by omega)) p6 hsys hL
  rw [← hL]
  have hpf1 := parseFloat_secCols v t sub (by omega) hsub [] (by simp)
  rw [List.append_nil] at hpf1
  have hpf2 := parseFloat_secCols v t sub (by omega) hsub [' '] (by simp)
  have hmi : mapInt (([0, 6, 12, 18, 24] : List Nat).map fun i => slice L i (i + 6)) =
      .ok [(t.year : Int), t.month, t.day, t.hour, t.minute] := by
    simp only [List.map_cons, List.map_nil, Nat.zero_add, e1, e2, e3, e4, e5, mapInt, pyInt, parseInt_padLeft_natStr, ok_bind,
      pure, Except.pure]
  have hsec : pyFloat (slice L 30 (if v = 200 then 43 else 44)) =
      .ok (.fin ((t.second : Rat) + (secDigits v t sub : Rat) / 10000000)) := by
    split
    · rw [e6]; unfold pyFloat; rw [hpf1]
    · rw [e7]; unfold pyFloat; rw [hpf2]
  have hs2 := secSplit_seven 1 t.second (secDigits v t sub) (by omega) hmic
  have hmicro : secDigits v t sub / 10 = t.micro := by unfold secDigits; split <;> omega
  rw [hmicro] at hs2
  have hv : validateEpoch [(t.year : Int), t.month, t.day, t.hour, t.minute, t.second, t.micro] = .ok t :=
    validateEpoch_legal t.year t hl (by unfold YearMeans; omega)
  unfold parseTofo
  rw [show pyRange 0 30 6 = [0, 6, 12, 18, 24] by decide, hmi, hsec, e8]
  simp only [ok_bind, sec2secMs, hs2, List.cons_append, List.nil_append, hv, pure, Except.pure]

end Verif.Proofs
