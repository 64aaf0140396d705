import Verif.Proofs.Nav
/-!
# Navigation files: orbit lines (C25) and epochs (C28)
-/
namespace Verif.Props
open Verif.Py Verif.Spec Verif.Model Verif.Proofs

/-- layout of the reader: RINEX 2 or 3 -/
def layout (v3 : Bool) (version : Nat) : NavCfg := if v3 then navCfg3 version else navCfg2 version

/-- blanks before the first field -/
def indentOf (v3 : Bool) : Nat := if v3 then 4 else 3

theorem orbitCols_layout (v3 : Bool) (version : Nat) (line : Str) :
    orbitCols (layout v3 version) line =
      (List.range 4).map fun k => slice line (indentOf v3 + 19 * k) (indentOf v3 + 19 * k + 19) := by
  cases v3 with
  | false => exact cols2 version line
  | true => exact cols3 version line

theorem fieldValue_same {a b : Str} (h : rstrip a = rstrip b) (v : PyFloat) : FieldValue a v ↔ FieldValue b v := by
  rw [← orbitValue_ok, ← orbitValue_ok, h]

theorem rstrip_slice_same {a b : Str} (h : SameLine a b) (i j : Nat) : rstrip (slice a i j) = rstrip (slice b i j) := by
  rw [← rstrip_slice_rstrip a, ← rstrip_slice_rstrip b, h]

theorem fieldValue_render {f : OField} (h : f.Ok) : FieldValue f.render (.fin f.value) := by
  cases f with
  | none => exact Or.inl ⟨mem_blanks, rfl⟩
  | some d =>
    refine Or.inr ⟨?_, ?_⟩
    · obtain ⟨p, c, hp, hc⟩ := dnum_last h
      intro hall
      have := hall c (by show c ∈ padLeft 19 d.text; unfold padLeft; rw [hp]; simp)
      rw [hc] at this; cases this
    · have := parseFloat_dpad h (q := []) (by simp) 19
      rwa [List.append_nil] at this

theorem forall₂_values {fs : List OField} (h : ∀ f ∈ fs, OField.Ok f) :
    List.Forall₂ FieldValue (fs.map OField.render) (fs.map fun f => .fin f.value) := by
  induction fs with
  | nil => exact .nil
  | cons f fs ih => exact .cons (fieldValue_render (h f (by simp))) (ih fun g hg => h g (by simp [hg]))

theorem cols_render {fs : List OField} (h : ∀ f ∈ fs, OField.Ok f) (hn : fs.length ≤ 4) (v3 : Bool) (version : Nat) (spare : Str) :
    (orbitCols (layout v3 version) ((ORow.mk fs spare).render (indentOf v3))).take fs.length = fs.map OField.render := by
  rw [orbitCols_layout]
  apply List.ext_getElem
  · simp; omega
  · intro k h1 h2
    have hk : k < fs.length := by simp at h1; omega
    simp only [List.getElem_take, List.getElem_map, List.getElem_range]
    unfold ORow.render
    have := slice_flatten (fs := fs.map OField.render) (by
      intro s hs; obtain ⟨f, hf, rfl⟩ := List.mem_map.1 hs; exact ofield_length (h f hf))
      (List.replicate (indentOf v3) ' ') spare k (by simpa using hk)
    simpa using this

/-- C25: an orbit line written with up to four fields — numbers with any exponent letter, or blanks — is read as the numbers
written, in order, blank fields as 0, whatever follows the fields and whatever white space ends the line (a line may stop
after its last number). -/
theorem C25_written (v3 : Bool) (version : Nat) (r : ORow) (hr : ∀ f ∈ r.fields, OField.Ok f) (hn : r.fields.length ≤ 4)
    (line : Str) (hl : SameLine line (r.render (indentOf v3))) :
    orbitLine (layout v3 version) line r.fields.length = .ok (r.fields.map fun f => .fin f.value) := by
  rw [orbitLine_ok]
  have h := forall₂_values hr
  rw [← cols_render hr hn v3 version r.spare] at h
  rw [orbitCols_layout] at h ⊢
  rw [← List.map_take] at h ⊢
  rw [List.forall₂_map_left_iff] at h ⊢
  refine List.Forall₂.imp ?_ h
  intro k v hv
  exact (fieldValue_same (rstrip_slice_same hl _ _) v).2 hv

/-- C25: for every text of the line, exactly `n` values are delivered (`n` = 2 or 4, at most four), the value of each
field being 0 if it is blank or missing and `float()` of the field with `D` or `d` replaced by `e` otherwise. -/
theorem C25_any (v3 : Bool) (version : Nat) (line : Str) (n : Nat) (hn : n ≤ 4) (vs : List PyFloat) :
    orbitLine (layout v3 version) line n = .ok vs ↔
      vs.length = n ∧ ∀ k v, vs[k]? = some v →
        let field := slice line (indentOf v3 + 19 * k) (indentOf v3 + 19 * k + 19)
        if ∀ c ∈ field, isSpace c = true then v = .fin 0
        else parseFloat ((lower field).map fun c => if c = 'd' then 'e' else c) = some v := by
  rw [orbitLine_ok, orbitCols_layout, ← List.map_take, List.forall₂_map_left_iff, List.forall₂_iff_get]
  have hlen : ((List.range 4).take n).length = n := by simp; omega
  constructor
  · rintro ⟨h1, h2⟩
    refine ⟨by omega, ?_⟩
    intro k v hk
    obtain ⟨hk1, hk2⟩ := List.getElem?_eq_some_iff.1 hk
    have := h2 k (by omega) hk1
    simp only [List.get_eq_getElem, List.getElem_take, List.getElem_range, hk2] at this
    rcases this with ⟨ha, hb⟩ | ⟨ha, hb⟩
    · simp only [if_pos ha, hb]
    · simp only [if_neg ha]; exact hb
  · rintro ⟨h1, h2⟩
    refine ⟨by omega, ?_⟩
    intro k hk1 hk2
    simp only [List.get_eq_getElem, List.getElem_take, List.getElem_range]
    have := h2 k vs[k] (List.getElem?_eq_getElem hk2)
    simp only at this
    split at this
    · rename_i ha; exact Or.inl ⟨ha, this⟩
    · rename_i ha; exact Or.inr ⟨ha, this⟩

/-- C25: anything else — a field neither blank nor a number — is a RinexError. -/
theorem C25_error (v3 : Bool) (version : Nat) (line : Str) (n : Nat) (h : ∀ vs, orbitLine (layout v3 version) line n ≠ .ok vs) :
    orbitLine (layout v3 version) line n = .error .rinex := by
  cases hr : orbitLine (layout v3 version) line n with
  | ok v => exact absurd hr (h v)
  | error e => rw [orbitLine_error _ _ _ _ hr]

/-- the hypotheses are met: `-1.25D-03`, a blank field, `.5e+2` -/
theorem C25_example : let d1 : DNum := ⟨true, [1], [2, 5], 'D', true, [0, 3]⟩
    let d2 : DNum := ⟨false, [], [5], 'e', false, [2]⟩
    d1.Ok ∧ d2.Ok ∧ orbitLine (navCfg2 211) (c% "             -1.25D-03                                 .5e+2\n") 3 =
      .ok [.fin (-1/800), .fin 0, .fin 50] := by
  have h1 : DNum.Ok ⟨true, [1], [2, 5], 'D', true, [0, 3]⟩ := by unfold DNum.Ok DNum.text; decide
  have h2 : DNum.Ok ⟨false, [], [5], 'e', false, [2]⟩ := by unfold DNum.Ok DNum.text; decide
  refine ⟨h1, h2, ?_⟩
  have := C25_written false 211 ⟨[some ⟨true, [1], [2, 5], 'D', true, [0, 3]⟩, none, some ⟨false, [], [5], 'e', false, [2]⟩], []⟩
    (by
      intro f hf
      simp only [List.mem_cons, List.not_mem_nil, or_false] at hf
      rcases hf with rfl | rfl | rfl
      · exact h1
      · trivial
      · exact h2) (by decide) (c% "             -1.25D-03                                 .5e+2\n") (by unfold SameLine; decide +kernel)
  rw [show layout false 211 = navCfg2 211 from rfl] at this
  rw [show (3 : Nat) = ([some ⟨true, [1], [2, 5], 'D', true, [0, 3]⟩, none, some ⟨false, [], [5], 'e', false, [2]⟩] : List OField).length from rfl, this]
  simp only [List.map_cons, List.map_nil, OField.value, DNum.value, numeral]
  norm_num

/-! ## epochs of RINEX 3 (six components) -/

/-- the six components of the epoch of a RINEX 3 navigation message -/
theorem validateEpoch_six (y m d h mi s : Int) :
    validateEpoch [y, m, d, h, mi, s] =
      (do
        let t ← mkDateTime [fullYear y, m, d, if 60 ≤ h ∧ h ≤ 120 then 59 else h, if 60 ≤ mi ∧ mi ≤ 120 then 59 else mi, s]
        t.add (((if 60 ≤ mi ∧ mi ≤ 120 then mi - 59 else 0) + (if 60 ≤ h ∧ h ≤ 120 then (h - 59) * 60 else 0)) * 1000000)) := by
  unfold validateEpoch
  rw [if_neg (by simp)]
  simp only [fixComponent]
  by_cases h1 : 60 ≤ mi ∧ mi ≤ 120 <;> by_cases h2 : 60 ≤ h ∧ h ≤ 120 <;> simp [h1, h2]

theorem DateTime.add_zero' {t : DateTime} (h : t.Valid) : t.add 0 = .ok t := by
  have hb := DateTime.toMicros_bounds h
  unfold DateTime.add
  simp only [_root_.add_zero]
  rw [if_pos (by omega), Int.toNat_natCast, DateTime.ofMicros_toMicros h]

theorem mk7_seven {y mo d h mi s us : Int} (h1 : ¬ (60 ≤ mi ∧ mi ≤ 120)) (h2 : ¬ (60 ≤ s ∧ s ≤ 120)) :
    mkDateTime7 (fullYear y) mo d h mi s us = validateEpoch [y, mo, d, h, mi, s, us] := by
  rw [validateEpoch_seven, if_neg h1, if_neg h2, if_neg h2, if_neg h1]
  cases hm : mkDateTime7 (fullYear y) mo d h mi s us with
  | error e => rfl
  | ok t =>
    rw [show ((0 + 0) * 1000000 : Int) = 0 by norm_num, Except.bind]
    exact (DateTime.add_zero' (mkDateTime7_valid hm).1).symm

/-- C28: the epoch of a RINEX 3 navigation message (year, month, day, hour, minute, second) is accepted exactly when the
date and hour are legal, the minute is at most 120, the second at most 59 and the result stays inside year 9999.  In-range
components give the epoch they say; a minute of 60 or more gives `hh:59` plus that many *seconds* as the minute exceeds 59. -/
theorem C28_accepted (y mo d h mi s Y : Int) (hY : YearMeans y Y) (t : DateTime) :
    validateEpoch [y, mo, d, h, mi, s] = .ok t ↔
      Acceptable Y mo d h mi s 0 ∧ s < 60 ∧ Legal t ∧
      instant t = if mi < 60 then meant Y mo d h mi s 0 else meant Y mo d h 59 (s + (mi - 59)) 0 := by
  have hfull := yearMeans_unique hY (yearMeans_full y)
  subst hfull
  rw [validateEpoch_six]
  by_cases hh : 60 ≤ h ∧ h ≤ 120
  · simp only [hh, and_self, if_true]
    constructor
    · intro hc
      rw [bind_eq_ok] at hc
      obtain ⟨t0, h0, _⟩ := hc
      have := mkDateTime7_valid (show mkDateTime7 _ _ _ _ _ _ _ = _ from h0)
      have hb := this.1.2.1
      omega
    · rintro ⟨⟨_, _, _, _, _, h24, _⟩, _⟩; omega
  · simp only [hh, if_false, _root_.add_zero]
    by_cases hs : 60 ≤ s ∧ s ≤ 120
    · constructor
      · intro hc
        rw [bind_eq_ok] at hc
        obtain ⟨t0, h0, _⟩ := hc
        have := mkDateTime7_valid (show mkDateTime7 _ _ _ _ _ _ _ = _ from h0)
        have hb := this.1.2.2.2.1
        omega
      · rintro ⟨_, h60, _⟩; omega
    · by_cases hmi : 60 ≤ mi ∧ mi ≤ 120
      · simp only [hmi, and_self, if_true]
        have key := mk7_seven (y := y) (mo := mo) (d := d) (h := h) (mi := 59) (s := s) (us := 0) (by omega) hs
        constructor
        · intro hc
          rw [bind_eq_ok] at hc
          obtain ⟨t0, h0, h1⟩ := hc
          rw [show mkDateTime [fullYear y, mo, d, h, 59, s] = mkDateTime7 (fullYear y) mo d h 59 s 0 from rfl, key] at h0
          obtain ⟨ha, hl, hi⟩ := (C01_accepted_iff y mo d h 59 s 0 _ t0 (yearMeans_full y)).1 h0
          unfold DateTime.add at h1
          simp only at h1
          split at h1
          · rename_i hr
            cases h1
            have hv := DateTime.ofMicros_valid (u := ((t0.toMicros : Int) + (mi - 59) * 1000000).toNat) (by omega) (by omega)
            have hl' := (legal_iff _).2 hv
            refine ⟨?_, by unfold Acceptable at ha; omega, hl', ?_⟩
            · unfold Acceptable at ha ⊢; exact ⟨ha.1, ha.2.1, ha.2.2.1, ha.2.2.2.1, by omega⟩
            · rw [instant_eq hl', DateTime.toMicros_ofMicros (by omega) (by omega), if_neg (by omega)]
              rw [instant_eq hl] at hi
              rw [Int.toNat_of_nonneg (by omega), hi]
              unfold meant instantOf; ring
          · cases h1
        · rintro ⟨ha, h60, hl, hi⟩
          have ha' : Acceptable (fullYear y) mo d h 59 s 0 := by
            unfold Acceptable at ha ⊢; exact ⟨ha.1, ha.2.1, ha.2.2.1, ha.2.2.2.1, by omega⟩
          have hv := (legal_iff _).1 hl
          have hb := DateTime.toMicros_bounds hv
          rw [if_neg (by omega), instant_eq hl] at hi
          have hmeant : meant (fullYear y) mo d h 59 (s + (mi - 59)) 0 = meant (fullYear y) mo d h 59 s 0 + (mi - 59) * 1000000 := by
            unfold meant instantOf; ring
          obtain ⟨t0, h0, hl0, hi0⟩ := C01_accepted y mo d h 59 s 0 _ (yearMeans_full y) ha' (by
            rw [lastInstant_eq]; omega)
          rw [bind_eq_ok]
          refine ⟨t0, ?_, ?_⟩
          · rw [show mkDateTime [fullYear y, mo, d, h, 59, s] = mkDateTime7 (fullYear y) mo d h 59 s 0 from rfl, key]; exact h0
          · rw [instant_eq hl0] at hi0
            unfold DateTime.add
            simp only
            rw [hi0, ← hmeant, ← hi, if_pos (by omega), Int.toNat_natCast, DateTime.ofMicros_toMicros hv]
      · simp only [hmi, if_false]
        have key := mk7_seven (y := y) (mo := mo) (d := d) (h := h) (mi := mi) (s := s) (us := 0) hmi hs
        have hz : ∀ e : Except PyErr DateTime, e = mkDateTime7 (fullYear y) mo d h mi s 0 →
            (e >>= fun t => t.add (0 * 1000000)) = e := by
          intro e he
          cases e with
          | error e => rfl
          | ok t0 =>
            rw [ok_bind, Int.zero_mul]
            exact DateTime.add_zero' (mkDateTime7_valid he.symm).1
        rw [show mkDateTime [fullYear y, mo, d, h, mi, s] = mkDateTime7 (fullYear y) mo d h mi s 0 from rfl, hz _ rfl, key,
          C01_accepted_iff y mo d h mi s 0 _ t (yearMeans_full y)]
        constructor
        · rintro ⟨a, b, c⟩
          have : mi < 60 := by unfold Acceptable at a; omega
          exact ⟨a, by unfold Acceptable at a; omega, b, by rw [if_pos this]; exact c⟩
        · rintro ⟨a, _, b, c⟩
          have : mi < 60 := by unfold Acceptable at a; omega
          rw [if_pos this] at c
          exact ⟨a, b, c⟩

/-- C28, the defect: minute 60 of hour 11 (that is 12:00:00) becomes 11:59:01; the seven-component epochs of observation
files and RINEX 2 give 12:00:00. -/
theorem C28_witness : validateEpoch [2015, 12, 19, 11, 60, 0] = .ok ⟨2015, 12, 19, 11, 59, 1, 0⟩ ∧
    validateEpoch [2015, 12, 19, 11, 60, 0, 0] = .ok ⟨2015, 12, 19, 12, 0, 0, 0⟩ := by
  constructor
  · exact (C28_accepted _ _ _ _ _ _ 2015 (by unfold YearMeans; omega) _).2
      ⟨by unfold Acceptable LegalDate; decide, by decide, by unfold Legal LegalDate; decide, by decide +kernel⟩
  · exact (C01_accepted_iff _ _ _ _ _ _ _ 2015 _ (by unfold YearMeans; omega)).2
      ⟨by unfold Acceptable LegalDate; decide, by unfold Legal LegalDate; decide, by decide +kernel⟩

/-- C28: a second of 60 is rejected (the record is unreadable), although 60..120 is accepted elsewhere. -/
theorem C28_second (y mo d h mi s : Int) (hs : 60 ≤ s) (t : DateTime) : validateEpoch [y, mo, d, h, mi, s] ≠ .ok t := by
  intro hc
  obtain ⟨_, h60, _⟩ := (C28_accepted y mo d h mi s _ (yearMeans_full y) t).1 hc
  omega

end Verif.Props
