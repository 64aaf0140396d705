import Verif.Proofs.Obs2
import Verif.Props.Time
/-! # RINEX 2: the epoch line -/
namespace Verif.Proofs
open Verif.Py Verif.Model Verif.Spec Verif.Props

/-- seconds with seven decimals are split exactly, whatever the number (≥ 1) of decimals printed -/
theorem secSplit_seven (k s m : Nat) (hk : 1 ≤ k) (hm : m < 10000000) :
    secSplitWith (· * 1000000) k (.fin ((s : Rat) + (m : Rat) / 10000000)) = .ok ((s : Int), ((m / 10 : Nat) : Int)) := by
  have hm' : (m : Rat) < 10000000 := by exact_mod_cast hm
  have hm0 : (0 : Rat) ≤ m := by positivity
  have ht : truncRat ((s : Rat) + m / 10000000) = (s : Int) := by
    apply truncRat_eq _ _ (by omega)
    · push_cast; have : (0 : Rat) ≤ m / 10000000 := by positivity
      linarith
    · push_cast
      have : (m : Rat) / 10000000 < 1 := by rw [div_lt_one (by norm_num)]; exact hm'
      linarith
  unfold secSplitWith
  simp only [ht]
  have e : ((s : Rat) + m / 10000000 - ((s : Int) : Rat)) * 1000000 = (m : Rat) / 10 := by push_cast; ring
  rw [e]
  obtain ⟨k, rfl⟩ : ∃ j, k = j + 1 := ⟨k - 1, by omega⟩
  have hr : roundDec (k + 1) ((m : Rat) / 10) = (m : Rat) / 10 := by
    unfold roundDec
    have e2 : (m : Rat) / 10 * 10 ^ (k + 1) = ((m * 10 ^ k : Int) : Rat) := by
      push_cast; rw [pow_succ]; ring
    rw [e2, roundHalfEven_int, ← e2]; field_simp
  rw [hr]
  congr 2
  generalize hd : m / 10 = d
  apply truncRat_eq
  · have : (d : Rat) * 10 ≤ m := by exact_mod_cast (by omega : d * 10 ≤ m)
    push_cast at this ⊢; linarith
  · have : (m : Rat) < (d : Rat) * 10 + 10 := by exact_mod_cast (by omega : m < d * 10 + 10)
    push_cast at this ⊢; linarith
  · omega

/-- the components of a legal date/time, with the year in two digits or in full, are that date/time -/
theorem validateEpoch_legal (y : Int) (t : DateTime) (hl : Legal t) (hy : YearMeans y t.year) :
    validateEpoch [y, t.month, t.day, t.hour, t.minute, t.second, t.micro] = .ok t := by
  refine (C01_accepted_iff y t.month t.day t.hour t.minute t.second t.micro t.year t hy).2 ⟨?_, hl, ?_⟩
  · obtain ⟨h1, h2, h3, h4, h5⟩ := hl
    refine ⟨by omega, by omega, by omega, by simpa using h1, ?_⟩
    omega
  · unfold instant meant; simp

theorem yearMeans_year2 {y : Nat} (h : Year2 y) : YearMeans ((y % 100 : Nat) : Int) (y : Int) := by
  unfold Year2 at h; unfold YearMeans; omega

theorem pad3_length {n : Nat} (h : n < 1000) : (padLeft 3 (natStr n)).length = 3 :=
  padLeft_length (natStr_length_le (by omega) (by omega))

theorem secs_text_length {s m : Nat} (hs : s < 100) (hm : m < 10000000) :
    (padLeft 11 (natStr s ++ ['.'] ++ zfill 7 (natStr m))).length = 11 := by
  apply padLeft_length
  have h1 : (natStr s).length ≤ 2 := natStr_length_le (by omega) (by omega)
  have h2 : (zfill 7 (natStr m)).length = 7 := zfill_natStr_length (by omega) (by omega)
  simp [h2]; omega

theorem parseFloat_secs (s m : Nat) (hm : m < 10000000) :
    parseFloat (padLeft 11 (natStr s ++ ['.'] ++ zfill 7 (natStr m))) =
      some (.fin ((s : Rat) + (m : Rat) / 10000000)) := by
  have h := parseFloat_fixed (List.replicate (11 - (natStr s ++ ['.'] ++ zfill 7 (natStr m)).length) ' ') [] false
    (natStr s) (zfill 7 (natStr m)) mem_blanks (by simp) (natStr_digits _) (zfill_digits (natStr_digits _))
    (natStr_ne_nil _)
  have h2 : (zfill 7 (natStr m)).length = 7 := zfill_natStr_length (by omega) (by omega)
  rw [h2, decVal_natStr, decVal_zfill, decVal_natStr] at h
  norm_num at h
  simpa [padLeft] using h

theorem fields_of_legal {t : DateTime} (hl : Legal t) :
    t.month < 1000 ∧ t.day < 1000 ∧ t.hour < 1000 ∧ t.minute < 1000 ∧ t.second < 100 ∧ t.micro < 1000000 := by
  obtain ⟨h1, h2, h3, h4, h5⟩ := hl
  obtain ⟨a1, a2, a3, a4, a5, a6⟩ := (legalDate_iff _ _ _).1 h1
  have := daysInMonth_le t.year t.month
  omega

theorem cols3_length (z : Bool) {n : Nat} (h : n < 100) : (cols3 z n).length = 3 := by
  unfold cols3
  split
  · simp [zfill_natStr_length (w := 2) (n := n) (by omega) (by omega)]
  · exact pad3_length (by omega)

theorem parseInt_cols3 (z : Bool) (n : Nat) : parseInt (cols3 z n) = some (n : Int) := by
  unfold cols3
  split
  · rw [show ' ' :: zfill 2 (natStr n) = [' '] ++ zfill 2 (natStr n) from rfl, parseInt_prepend_space _ _ (by simp)]; exact parseInt_zfill_natStr _ _
  · exact parseInt_padLeft_natStr _ _

theorem secs11_length (z : Bool) {s m : Nat} (hs : s < 100) (hm : m < 10000000) : (secs11 z s m).length = 11 := by
  unfold secs11
  split
  · apply padLeft_length
    have h1 : (zfill 2 (natStr s)).length = 2 := zfill_natStr_length (by omega) (by omega)
    have h2 : (zfill 7 (natStr m)).length = 7 := zfill_natStr_length (by omega) (by omega)
    simp [h1, h2]
  · exact secs_text_length hs hm

theorem parseFloat_secs11 (z : Bool) (s m : Nat) (hm : m < 10000000) : parseFloat (secs11 z s m) = some (.fin ((s : Rat) + (m : Rat) / 10000000)) := by
  unfold secs11
  split
  · have h := parseFloat_fixed (List.replicate (11 - (zfill 2 (natStr s) ++ ['.'] ++ zfill 7 (natStr m)).length) ' ') [] false
      (zfill 2 (natStr s)) (zfill 7 (natStr m)) mem_blanks (by simp) (zfill_digits (natStr_digits _)) (zfill_digits (natStr_digits _))
      (by intro h; have := congrArg List.length h; simp [zfill] at this; exact natStr_ne_nil _ this.2)
    have h2 : (zfill 7 (natStr m)).length = 7 := zfill_natStr_length (by omega) (by omega)
    rw [h2, decVal_zfill, decVal_natStr, decVal_zfill, decVal_natStr] at h
    norm_num at h
    simpa [padLeft] using h
  · exact parseFloat_secs s m hm

theorem fields_small {t : DateTime} (hl : Legal t) : t.month < 100 ∧ t.day < 100 ∧ t.hour < 100 ∧ t.minute < 100 := by
  obtain ⟨h1, h2, h3, h4, h5⟩ := hl
  obtain ⟨a1, a2, a3, a4, a5, a6⟩ := (legalDate_iff _ _ _).1 h1
  have := daysInMonth_le t.year t.month
  omega

/-- what `read_epoch` finds in the columns of an epoch line -/
theorem epochHead_cols {z : Bool × Bool} {t : DateTime} {sub flag num : Nat} (hl : Legal t) (hsub : sub < 10) (hf : flag < 1000)
    (hn : num < 1000) (q : Str) :
    (epochHead z t sub flag num).length = 32 ∧
    slice (epochHead z t sub flag num ++ q) 0 3 = [' '] ++ zfill 2 (natStr (t.year % 100)) ∧
    slice (epochHead z t sub flag num ++ q) 3 6 = cols3 z.1 t.month ∧
    slice (epochHead z t sub flag num ++ q) 6 9 = cols3 z.1 t.day ∧
    slice (epochHead z t sub flag num ++ q) 9 12 = cols3 z.1 t.hour ∧
    slice (epochHead z t sub flag num ++ q) 12 15 = cols3 z.1 t.minute ∧
    slice (epochHead z t sub flag num ++ q) 15 26 =
      secs11 z.2 t.second (t.micro * 10 + sub) ∧
    slice (epochHead z t sub flag num ++ q) 26 29 = padLeft 3 (natStr flag) ∧
    slice (epochHead z t sub flag num ++ q) 29 32 = padLeft 3 (natStr num) := by
  obtain ⟨h1, h2, h3, h4, h5, h6⟩ := fields_of_legal hl
  have l0 : ([' '] ++ zfill 2 (natStr (t.year % 100))).length = 3 := by
    simp [zfill_natStr_length (w := 2) (n := t.year % 100) (by omega) (by omega)]
  obtain ⟨k1, k2, k3, k4⟩ := fields_small hl
  have l1 := cols3_length z.1 k1
  have l2 := cols3_length z.1 k2
  have l3 := cols3_length z.1 k3
  have l4 := cols3_length z.1 k4
  have l5 := secs11_length z.2 h5 (m := t.micro * 10 + sub) (by omega)
  have l6 := pad3_length hf
  have l7 := pad3_length hn
  unfold epochHead
  generalize [' '] ++ zfill 2 (natStr (t.year % 100)) = c0 at *
  generalize cols3 z.1 t.month = c1 at *
  generalize cols3 z.1 t.day = c2 at *
  generalize cols3 z.1 t.hour = c3 at *
  generalize cols3 z.1 t.minute = c4 at *
  generalize secs11 z.2 t.second (t.micro * 10 + sub) = c5 at *
  generalize padLeft 3 (natStr flag) = c6 at *
  generalize padLeft 3 (natStr num) = c7 at *
  refine ⟨by simp [l0, l1, l2, l3, l4, l5, l6, l7], ?_, ?_, ?_, ?_, ?_, ?_, ?_, ?_⟩
  · have := slice_exact (p := []) (m := c0) (q := c1 ++ c2 ++ c3 ++ c4 ++ c5 ++ c6 ++ c7 ++ q) (a := 0) (b := 3)
      rfl (by simp [l0])
    simpa using this
  · have := slice_exact (p := c0) (m := c1) (q := c2 ++ c3 ++ c4 ++ c5 ++ c6 ++ c7 ++ q) (a := 3) (b := 6)
      (by simp [l0]) (by simp [l0, l1])
    simpa using this
  · have := slice_exact (p := c0 ++ c1) (m := c2) (q := c3 ++ c4 ++ c5 ++ c6 ++ c7 ++ q) (a := 6) (b := 9)
      (by simp [l0, l1]) (by simp [l0, l1, l2])
    simpa using this
  · have := slice_exact (p := c0 ++ c1 ++ c2) (m := c3) (q := c4 ++ c5 ++ c6 ++ c7 ++ q) (a := 9) (b := 12)
      (by simp [l0, l1, l2]) (by simp [l0, l1, l2, l3])
    simpa using this
  · have := slice_exact (p := c0 ++ c1 ++ c2 ++ c3) (m := c4) (q := c5 ++ c6 ++ c7 ++ q) (a := 12) (b := 15)
      (by simp [l0, l1, l2, l3]) (by simp [l0, l1, l2, l3, l4])
    simpa using this
  · have := slice_exact (p := c0 ++ c1 ++ c2 ++ c3 ++ c4) (m := c5) (q := c6 ++ c7 ++ q) (a := 15) (b := 26)
      (by simp [l0, l1, l2, l3, l4]) (by simp [l0, l1, l2, l3, l4, l5])
    simpa using this
  · have := slice_exact (p := c0 ++ c1 ++ c2 ++ c3 ++ c4 ++ c5) (m := c6) (q := c7 ++ q) (a := 26) (b := 29)
      (by simp [l0, l1, l2, l3, l4, l5]) (by simp [l0, l1, l2, l3, l4, l5, l6])
    simpa using this
  · have := slice_exact (p := c0 ++ c1 ++ c2 ++ c3 ++ c4 ++ c5 ++ c6) (m := c7) (q := q) (a := 29) (b := 32)
      (by simp [l0, l1, l2, l3, l4, l5, l6]) (by simp [l0, l1, l2, l3, l4, l5, l6, l7])
    simpa using this

theorem epochDate_head {z : Bool × Bool} {t : DateTime} {sub flag num : Nat} (hl : Legal t) (hy : Year2 t.year) (hsub : sub < 10)
    (hf : flag < 1000) (hn : num < 1000) (q : Str) : epochDate (epochHead z t sub flag num ++ q) = .ok t := by
  obtain ⟨_, c0, c1, c2, c3, c4, c5, _, _⟩ := epochHead_cols (z := z) hl hsub hf hn q
  obtain ⟨h1, h2, h3, h4, h5, h6⟩ := fields_of_legal hl
  have p0 : parseInt ([' '] ++ zfill 2 (natStr (t.year % 100))) = some ((t.year % 100 : Nat) : Int) := by
    rw [parseInt_prepend_space _ _ (by simp)]; exact parseInt_zfill_natStr _ _
  have hr : (pyRange 0 13 3).map (fun i => slice (epochHead z t sub flag num ++ q) i (i + 3)) =
      [[' '] ++ zfill 2 (natStr (t.year % 100)), cols3 z.1 t.month, cols3 z.1 t.day,
       cols3 z.1 t.hour, cols3 z.1 t.minute] := by
    rw [show pyRange 0 13 3 = [0, 3, 6, 9, 12] from rfl]
    simp only [List.map_cons, List.map_nil, c0, c1, c2, c3, c4]
  unfold epochDate
  rw [hr, c5]
  simp only [mapInt, pyInt, p0, parseInt_cols3, pyFloat, parseFloat_secs11 z.2 t.second (t.micro * 10 + sub) (by omega),
    bind, Except.bind, pure, Except.pure]
  rw [secSplit_seven 5 t.second (t.micro * 10 + sub) (by omega) (by omega)]
  simp only [List.cons_append, List.nil_append]
  have e : (t.micro * 10 + sub) / 10 = t.micro := by omega
  rw [e, validateEpoch_legal _ t hl (yearMeans_year2 hy)]
  rfl

theorem epochHead_last (z : Bool × Bool) (t : DateTime) (sub flag num : Nat) :
    ∃ p c, epochHead z t sub flag num = p ++ [c] ∧ isSpace c = false := by
  obtain ⟨r, c, hc⟩ := List.eq_nil_or_concat (natStr num) |>.resolve_left (natStr_ne_nil _)
  have hd : isSpace c = false := isDigit_not_space (natStr_digits num c (by simp [hc]))
  refine ⟨[' '] ++ zfill 2 (natStr (t.year % 100)) ++ cols3 z.1 t.month ++ cols3 z.1 t.day ++
    cols3 z.1 t.hour ++ cols3 z.1 t.minute ++
    secs11 z.2 t.second (t.micro * 10 + sub) ++
    padLeft 3 (natStr flag) ++ (List.replicate (3 - (natStr num).length) ' ' ++ r), c, ?_, hd⟩
  unfold epochHead
  conv => lhs; rw [show padLeft 3 (natStr num) = List.replicate (3 - (natStr num).length) ' ' ++ natStr num from rfl]
  generalize 3 - (natStr num).length = k
  rw [hc]; simp

/-- the epoch line and its continuation lines are read back -/
theorem readEpoch_render {n : Nat} {e : Epoch} (hok : e.Ok n) (l : Str) (ls rest : List Str)
    (hw : Written (l :: ls) e.headLines) :
    readEpoch (rstrip l) (ls ++ rest) =
      .ok (⟨some e.time, (e.flag : Int), (e.sats.length : Int), e.sats.map fun s => s.1.name⟩, rest) := by
  obtain ⟨hl, hy, hsub, hf, hns, hsats⟩ := hok
  simp only [Epoch.headLines, Written] at hw
  obtain ⟨h1, h2⟩ := hw
  generalize hids : e.sats.map (·.1) = ids at h1 h2
  have hlen : ids.length = e.sats.length := by rw [← hids]; simp
  have hidok : ∀ s ∈ ids, s.Ok := by
    intro s hs
    rw [← hids] at hs
    obtain ⟨x, hx, rfl⟩ := List.mem_map.1 hs
    exact (hsats x hx).1
  obtain ⟨p, c, hp, hc⟩ := epochHead_last e.zeros e.time e.sub e.flag ids.length
  obtain ⟨q, hq⟩ := rstrip_satCols p (List.replicate (68 - (epochHead e.zeros e.time e.sub e.flag ids.length ++
    satCols (ids.take 12)).length) ' ' ++ e.tail) c hc (ids := ids.take 12)
    (fun s hs => hidok s (List.mem_of_mem_take hs))
  have hrl : rstrip l = epochHead e.zeros e.time e.sub e.flag ids.length ++ (satCols (ids.take 12) ++ q) := by
    rw [show rstrip l = _ from h1]
    unfold padRight
    rw [hp] at hq ⊢
    rw [← List.append_assoc, ← hq]
    simp
  obtain ⟨hl32, _, _, _, _, _, _, c6, c7⟩ := epochHead_cols (z := e.zeros) hl hsub (flag := e.flag) (num := ids.length) (by omega)
    (by omega) (satCols (ids.take 12) ++ q)
  unfold readEpoch
  rw [hrl, c6, c7]
  simp only [parseInt_padLeft_natStr]
  rw [if_neg (by omega), epochDate_head hl hy hsub (by omega) (by omega)]
  have hr := readPrns_render (epochHead e.zeros e.time e.sub e.flag ids.length) q ids hidok hl32 ls rest h2
  rw [List.append_assoc] at hr
  simp only [bind, Except.bind, hr]
  rw [if_neg (by simp), hlen, ← hids, List.map_map]
  rfl

end Verif.Proofs
