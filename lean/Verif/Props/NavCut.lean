import Verif.Spec.NavCut
import Verif.Props.NavFile
import Verif.Proofs.Cut
import Verif.Proofs.Ends
import Verif.Model.DoubleGeo
import Verif.Model.Geo
/-!
# Navigation files cut short (C111)
-/
namespace Verif.Props
open Verif.Py Verif.Spec Verif.Model Verif.Proofs

/-! ## The epoch line -/

theorem nav2_same {version : Nat} {f : Char} {E E' : Str} {r : Char × Int × DateTime} (h0 : slice E' 0 2 = slice E 0 2)
    (h1 : (pyRange 2 17 3).map (fun i => slice E' i (i + 3)) = (pyRange 2 17 3).map fun i => slice E i (i + 3))
    (h2 : pyFloat (slice E' 17 22) = pyFloat (slice E 17 22)) (h : parseNavEpoch2 version (some f) E = .ok r) :
    parseNavEpoch2 version (some f) E' = .ok r ∨ parseNavEpoch2 version (some f) E' = .error .rinex := by
  unfold parseNavEpoch2 at h ⊢
  simp only at h ⊢
  rw [h0, h1, h2]
  cases hf : fileTypes version f with
  | none => simp [hf, bind, Except.bind, throw, throwThe, MonadExceptOf.throw] at h
  | some s =>
    cases hn : pyInt (slice E 0 2) with
    | error e => simp [hf, hn, bind, Except.bind, pure, Except.pure, catching] at h; split at h <;> cases h
    | ok n =>
      cases hs : pyFloat (slice E 17 22) with
      | error e => simp [hf, hn, hs, bind, Except.bind, pure, Except.pure, catching] at h; split at h <;> cases h
      | ok q =>
        cases hq : sec2secMs q with
        | error e => simp [hf, hn, hs, hq, bind, Except.bind, pure, Except.pure, catching] at h; split at h <;> cases h
        | ok su =>
          obtain ⟨s1, us⟩ := su
          cases hi : mapInt ((pyRange 2 17 3).map fun i => slice E i (i + 3)) with
          | error e => simp [hf, hn, hs, hq, hi, bind, Except.bind, pure, Except.pure, catching] at h; split at h <;> cases h
          | ok ep =>
            cases hv : validateEpoch (ep ++ [s1, us]) with
            | error e => simp [hf, hn, hs, hq, hi, hv, bind, Except.bind, pure, Except.pure, catching] at h; split at h <;> cases h
            | ok t =>
              cases hc : mapFloat ([22, 41, 60].map fun i => fixExp (slice E i (i + 19))) with
              | error e => simp only [hf, hn, hs, hq, hi, hv, hc, bind, Except.bind, pure, Except.pure, catching] at h; split at h <;> cases h
              | ok cs =>
                simp only [hf, hn, hs, hq, hi, hv, hc, bind, Except.bind, pure, Except.pure, catching] at h
                cases hc' : mapFloat ([22, 41, 60].map fun i => fixExp (slice E' i (i + 19))) with
                | error e =>
                  right
                  obtain rfl := mapFloat_error hc'
                  simp only [hn, hs, hq, hi, hv, hc', bind, Except.bind, pure, Except.pure, catching]
                  simp
                | ok cs' =>
                  left
                  simp only [hn, hs, hq, hi, hv, hc', bind, Except.bind, pure, Except.pure, catching]
                  exact h

theorem nav2_nosec {version : Nat} {f : Char} {E' : Str} {s : Char} (hf : fileTypes version f = some s) (h : pyFloat (slice E' 17 22) = .error .value) :
    parseNavEpoch2 version (some f) E' = .error .rinex := by
  unfold parseNavEpoch2
  simp only
  cases hn : pyInt (slice E' 0 2) with
  | error e =>
    have : e = .value := by unfold pyInt at hn; split at hn <;> cases hn; rfl
    subst this
    simp [hf, bind, Except.bind, pure, Except.pure, catching]
  | ok n => simp [hf, h, bind, Except.bind, pure, Except.pure, catching]

theorem nav2_noclock {version : Nat} {f : Char} {E' : Str} {s : Char} (hf : fileTypes version f = some s) {r : Char × Int × DateTime}
    (h : mapFloat ([22, 41, 60].map fun i => fixExp (slice E' i (i + 19))) = .error .value) : parseNavEpoch2 version (some f) E' ≠ .ok r := by
  intro h'
  unfold parseNavEpoch2 at h'
  simp only at h'
  cases hn : pyInt (slice E' 0 2) with
  | error e => simp [hf, hn, bind, Except.bind, pure, Except.pure, catching] at h'; split at h' <;> cases h'
  | ok n =>
    cases hs : pyFloat (slice E' 17 22) with
    | error e => simp [hf, hn, hs, bind, Except.bind, pure, Except.pure, catching] at h'; split at h' <;> cases h'
    | ok q =>
      cases hq : sec2secMs q with
      | error e => simp [hf, hn, hs, hq, bind, Except.bind, pure, Except.pure, catching] at h'; split at h' <;> cases h'
      | ok su =>
        obtain ⟨s1, us⟩ := su
        cases hi : mapInt ((pyRange 2 17 3).map fun i => slice E' i (i + 3)) with
        | error e => simp [hf, hn, hs, hq, hi, bind, Except.bind, pure, Except.pure, catching] at h'; split at h' <;> cases h'
        | ok ep =>
          cases hv : validateEpoch (ep ++ [s1, us]) with
          | error e => simp [hf, hn, hs, hq, hi, hv, bind, Except.bind, pure, Except.pure, catching] at h'; split at h' <;> cases h'
          | ok t => simp only [hf, hn, hs, hq, hi, hv, h, bind, Except.bind, pure, Except.pure, catching] at h'; split at h' <;> cases h'

theorem nav3_same {E E' : Str} {r : Char × Int × DateTime} (h0 : charAt E' 0 = charAt E 0) (h1 : slice E' 1 3 = slice E 1 3)
    (h2 : mapInt (slice E' 4 9 :: (pyRange 8 23 3).map fun i => slice E' i (i + 3)) = mapInt (slice E 4 9 :: (pyRange 8 23 3).map fun i => slice E i (i + 3)))
    (h : parseNavEpoch3 E = .ok r) : parseNavEpoch3 E' = .ok r ∨ parseNavEpoch3 E' = .error .rinex := by
  unfold parseNavEpoch3 at h ⊢
  rw [h0, h1, h2]
  cases hf : charAt E 0 with
  | error e => simp [hf, bind, Except.bind] at h
  | ok s =>
    cases hn : pyInt (slice E 1 3) with
    | error e => simp [hf, hn, bind, Except.bind, catching] at h; split at h <;> cases h
    | ok n =>
      cases hi : mapInt (slice E 4 9 :: (pyRange 8 23 3).map fun i => slice E i (i + 3)) with
      | error e => simp only [hf, hn, hi, bind, Except.bind, catching] at h; split at h <;> cases h
      | ok ep =>
        cases hv : validateEpoch ep with
        | error e => simp only [hf, hn, hi, hv, bind, Except.bind, catching] at h; split at h <;> cases h
        | ok t =>
          cases hc : mapFloat ([23, 42, 61].map fun i => fixExp (slice E i (i + 19))) with
          | error e => simp only [hf, hn, hi, hv, hc, bind, Except.bind, catching] at h; split at h <;> cases h
          | ok cs =>
            simp only [hf, hn, hi, hv, hc, bind, Except.bind, pure, Except.pure, catching] at h
            cases hc' : mapFloat ([23, 42, 61].map fun i => fixExp (slice E' i (i + 19))) with
            | error e =>
              right
              obtain rfl := mapFloat_error hc'
              simp only [hn, hi, hv, hc', bind, Except.bind, pure, Except.pure, catching]
              simp
            | ok cs' =>
              left
              simp only [hn, hi, hv, hc', bind, Except.bind, pure, Except.pure, catching]
              exact h

theorem nav3_noints {E' : Str} {s : Char} (hs : charAt E' 0 = .ok s)
    (h : mapInt (slice E' 4 9 :: (pyRange 8 23 3).map fun i => slice E' i (i + 3)) = .error .value) : parseNavEpoch3 E' = .error .rinex := by
  unfold parseNavEpoch3
  cases hn : pyInt (slice E' 1 3) with
  | error e =>
    have : e = .value := by unfold pyInt at hn; split at hn <;> cases hn; rfl
    subst this
    simp [hs, bind, Except.bind, catching]
  | ok n => simp only [hs, h, bind, Except.bind, catching]; simp

theorem slices_of_take {E E' : Str} {n : Nat} (h : E'.take n = E.take n) {a b : Nat} (hb : b ≤ n) : slice E' a b = slice E a b := by
  rw [← slice_take_of_le (s := E') hb, h, slice_take_of_le hb]

/-- the seconds of a RINEX 2 epoch line, cut: not a number, or the seconds of another epoch line -/
theorem cut_seconds : ∀ k < 600, ∀ p < 5,
    (parseFloat ((padLeft 5 (fixedDec 1 ((k : Nat) : Int))).take p) = none) ∨
      ∃ k' < 600, parseFloat ((padLeft 5 (fixedDec 1 ((k : Nat) : Int))).take p) = parseFloat (padLeft 5 (fixedDec 1 ((k' : Nat) : Int))) := by
  have h : ∀ k < 600, ∀ p < 5,
    (parseFloat ((padLeft 5 (fixedDec 1 ((k : Nat) : Int))).take p) = none) ∨
      ∃ k' ∈ [k / 10 * 10, k / 100 * 10], parseFloat ((padLeft 5 (fixedDec 1 ((k : Nat) : Int))).take p) = parseFloat (padLeft 5 (fixedDec 1 ((k' : Nat) : Int))) := by
    decide +kernel
  intro k hk p hp
  rcases h k hk p hp with h | ⟨k', hm, h⟩
  · exact .inl h
  · refine .inr ⟨k', ?_, h⟩
    simp only [List.mem_cons, List.not_mem_nil, or_false] at hm
    omega

theorem epoch2_front (z : Bool) (m : NavMsg) {system : Char} (h : m.Ok2 system) : ∃ A B : Str, A.length = 17 ∧
    (∀ t : DateTime, t.year = m.epoch.year → t.month = m.epoch.month → t.day = m.epoch.day → t.hour = m.epoch.hour → t.minute = m.epoch.minute →
      ({ m with epoch := t } : NavMsg).epochLine2 z = A ++ padLeft 5 (fixedDec 1 (t.second * 10 + t.micro / 100000 : Nat)) ++ B) ∧
    ∀ E, SameLine E (m.epochLine2 z) → ∃ w, E = m.epochLine2 z ++ w := by
  obtain ⟨⟨hn, hleg, hc3, hcok, _⟩, _, hy, hmu⟩ := h
  have flds := legal_fields hleg
  refine ⟨padLeft 2 (natStr m.number) ++ [' '] ++ zfill 2 (natStr (m.epoch.year % 100)) ++
    Spec.cols3 z m.epoch.month ++ Spec.cols3 z m.epoch.day ++ Spec.cols3 z m.epoch.hour ++ Spec.cols3 z m.epoch.minute, (m.clock.map fun d => padLeft 19 d.text).flatten, ?_, ?_, ?_⟩
  · have p2 : ∀ n, n < 100 → (Spec.cols3 z n).length = 3 := fun n hn => cols3_length z hn
    have z2 := zfill_natStr_length (w := 2) (n := m.epoch.year % 100) (by omega) (by omega)
    have n2 := padLeft_length (w := 2) (natStr_length_le (n := m.number) (k := 2) (by omega) (by omega))
    simp only [List.length_append, n2, z2, p2 m.epoch.month (by omega), p2 m.epoch.day (by omega), p2 m.epoch.hour (by omega), p2 m.epoch.minute (by omega),
      List.length_singleton]
  · intro t h1 h2 h3 h4 h5
    unfold NavMsg.epochLine2
    simp only [h1, h2, h3, h4, h5]
  · intro E hE
    obtain ⟨a, b, c, habc⟩ := clock_three hc3
    obtain ⟨p, x, hpx, hx⟩ := clock_flatten_last (pre := padLeft 2 (natStr m.number) ++ [' '] ++ zfill 2 (natStr (m.epoch.year % 100)) ++
      Spec.cols3 z m.epoch.month ++ Spec.cols3 z m.epoch.day ++ Spec.cols3 z m.epoch.hour ++ Spec.cols3 z m.epoch.minute ++
      padLeft 5 (fixedDec 1 (m.epoch.second * 10 + m.epoch.micro / 100000 : Nat))) (a := a) (b := b) (hcok c (by simp [habc]))
    have he : m.epochLine2 z = p ++ [x] := by
      unfold NavMsg.epochLine2
      rw [habc, hpx]
    rw [he] at hE ⊢
    obtain ⟨w, hw, -⟩ := sameLine_ext hE hx
    exact ⟨w, hw⟩

theorem sec5_length {k : Nat} (hk : k < 600) : (padLeft 5 (fixedDec 1 (k : Nat))).length = 5 := by
  apply padLeft_length
  unfold fixedDec
  have h1 : (natStr (k / 10)).length ≤ 2 := natStr_length_le (by omega) (by omega)
  have h2 : (zfill 1 (natStr (k % 10))).length = 1 := zfill_natStr_length (by omega) (by omega)
  rw [if_neg (by omega)]
  simp only [Int.natAbs_natCast, pow_one, List.length_append, h2, List.length_singleton, List.length_nil]; omega

/-- RINEX 2: what the beginning of an epoch line is read as -/
theorem epoch2_cut (version : Nat) (f system : Char) (hf : fileTypes version f = some system) (m : NavMsg) (h : m.Ok2 system) (E : Str) (z : Bool)
    (hE : SameLine E (m.epochLine2 z)) (j : Nat) :
    parseNavEpoch2 version (some f) (E.take j) = .error .rinex ∨ parseNavEpoch2 version (some f) (E.take j) = .ok (system, (m.number : Int), m.epoch) := by
  have hfull := (parseNavEpoch2_written version f system hf m h E z hE).1
  by_cases h1 : j ≤ 17
  · left
    apply nav2_nosec hf
    rw [slice_take_nil h1]; rfl
  by_cases h2 : 22 ≤ j
  · rcases nav2_same (E := E) (E' := E.take j) (slice_take_of_le (by omega)) (by
      apply List.map_congr_left
      intro i hi
      rw [show pyRange 2 17 3 = [2, 5, 8, 11, 14] by decide] at hi
      simp only [List.mem_cons, List.not_mem_nil, or_false] at hi
      exact slice_take_of_le (by omega)) (by rw [slice_take_of_le (by omega)]) hfull with h | h
    · exact .inr h
    · exact .inl h
  · left
    obtain ⟨A, B, hA, hline, hext⟩ := epoch2_front z m h
    obtain ⟨w, hw⟩ := hext E hE
    have hleg := h.1.2.1
    have flds := legal_fields hleg
    have hmic := hleg.2.2.2.2
    obtain ⟨k, hk⟩ : ∃ k, k = m.epoch.second * 10 + m.epoch.micro / 100000 := ⟨_, rfl⟩
    have hk6 : k < 600 := by omega
    have hE2 : E = A ++ padLeft 5 (fixedDec 1 (k : Nat)) ++ (B ++ w) := by
      rw [hw, show m.epochLine2 z = ({ m with epoch := m.epoch } : NavMsg).epochLine2 z from rfl, hline m.epoch rfl rfl rfl rfl rfl, hk]; simp
    have hsl : slice (E.take j) 17 22 = (padLeft 5 (fixedDec 1 (k : Nat))).take (j - 17) := by
      rw [slice_eq_take_drop, List.take_take, show min 22 j = j by omega, hE2, List.append_assoc, List.take_append, List.drop_append, hA,
        List.drop_eq_nil_of_le (by rw [List.length_take]; omega), List.nil_append, List.take_append_of_le_length (by rw [sec5_length hk6]; omega)]
      rw [show 17 - (List.take j A).length = 0 by rw [List.length_take]; omega]; rfl
    rcases cut_seconds k hk6 (j - 17) (by omega) with hp | ⟨k', hk', hp⟩
    · apply nav2_nosec hf
      unfold pyFloat
      rw [hsl, hp]
    · have hj : (E.take j).take 17 = A := by
        rw [List.take_take, show min 17 j = 17 by omega, hE2, List.append_assoc, ← hA, List.take_left]
      obtain ⟨t, ht⟩ : ∃ t : DateTime, t = { m.epoch with second := k' / 10, micro := k' % 10 * 100000 } := ⟨_, rfl⟩
      have hm' : ({ m with epoch := t } : NavMsg).Ok2 system := by
        obtain ⟨⟨a1, a2, a3, a4, a5⟩, a6, a7, a8⟩ := h
        refine ⟨⟨a1, ?_, a3, a4, a5⟩, a6, by rw [ht]; exact a7, by rw [ht]; show k' % 10 * 100000 % 100000 = 0; omega⟩
        obtain ⟨b1, b2, b3, b4, b5⟩ := a2
        rw [ht]
        exact ⟨b1, b2, b3, by show k' / 10 < 60; omega, by show k' % 10 * 100000 < 1000000; omega⟩
      have hl' := hline t (by rw [ht]) (by rw [ht]) (by rw [ht]) (by rw [ht]) (by rw [ht])
      have htk : t.second * 10 + t.micro / 100000 = k' := by rw [ht]; show k' / 10 * 10 + k' % 10 * 100000 / 100000 = k'; omega
      rw [htk] at hl'
      have hother := (parseNavEpoch2_written version f system hf _ hm' _ z (show SameLine (({ m with epoch := t } : NavMsg).epochLine2 z) _ from rfl)).1
      have htake : (E.take j).take 17 = (({ m with epoch := t } : NavMsg).epochLine2 z).take 17 := by
        rw [hj, hl', List.append_assoc, ← hA, List.take_left]
      have hs' : slice (({ m with epoch := t } : NavMsg).epochLine2 z) 17 22 = padLeft 5 (fixedDec 1 (k' : Nat)) := by
        rw [hl']
        exact slice_exact hA (by rw [hA, sec5_length hk'])
      rcases nav2_same (E' := E.take j) (slices_of_take htake (by omega)) (by
        apply List.map_congr_left
        intro i hi
        rw [show pyRange 2 17 3 = [2, 5, 8, 11, 14] by decide] at hi
        simp only [List.mem_cons, List.not_mem_nil, or_false] at hi
        exact slices_of_take htake (by omega)) (by unfold pyFloat; rw [hsl, hs', hp]) hother with h | h
      · -- the clock values are missing
        exact absurd h (nav2_noclock hf (by
          simp only [List.map_cons, mapFloat, slice_take_nil (s := E) (show j ≤ 22 by omega)]
          rfl))
      · exact h

theorem nav3_noclock {E' : Str} {r : Char × Int × DateTime} (h : mapFloat ([23, 42, 61].map fun i => fixExp (slice E' i (i + 19))) = .error .value) :
    parseNavEpoch3 E' ≠ .ok r := by
  intro h'
  unfold parseNavEpoch3 at h'
  cases hs : charAt E' 0 with
  | error e => simp [hs, bind, Except.bind] at h'
  | ok s =>
    cases hn : pyInt (slice E' 1 3) with
    | error e => simp [hs, hn, bind, Except.bind, catching] at h'; split at h' <;> cases h'
    | ok n =>
      cases hi : mapInt (slice E' 4 9 :: (pyRange 8 23 3).map fun i => slice E' i (i + 3)) with
      | error e => simp only [hs, hn, hi, bind, Except.bind, catching] at h'; split at h' <;> cases h'
      | ok ep =>
        cases hv : validateEpoch ep with
        | error e => simp only [hs, hn, hi, hv, bind, Except.bind, catching] at h'; split at h' <;> cases h'
        | ok t => simp only [hs, hn, hi, hv, h, bind, Except.bind, pure, Except.pure, catching] at h'; split at h' <;> cases h'

/-- the seconds of a RINEX 3 epoch line, cut: nothing, or other seconds -/
theorem cut_seconds3 : ∀ k < 60, ∀ p < 3,
    (parseInt ((' ' :: zfill 2 (natStr k)).take p) = none) ∨ ∃ k' < 60, parseInt ((' ' :: zfill 2 (natStr k)).take p) = parseInt (' ' :: zfill 2 (natStr k')) := by
  decide +kernel

theorem epoch3_front (m : NavMsg) (h : m.Ok3) : ∃ A B : Str, A.length = 20 ∧
    (∀ t : DateTime, t.year = m.epoch.year → t.month = m.epoch.month → t.day = m.epoch.day → t.hour = m.epoch.hour → t.minute = m.epoch.minute →
      ({ m with epoch := t } : NavMsg).epochLine3 = A ++ (' ' :: zfill 2 (natStr t.second)) ++ B) ∧
    ∀ E, SameLine E m.epochLine3 → ∃ w, E = m.epochLine3 ++ w := by
  obtain ⟨⟨hn, hleg, hc3, hcok, _⟩, _, hy, hmu⟩ := h
  have flds := legal_fields hleg
  have hy9 : m.epoch.year ≤ 9999 := hleg.1.2.1
  refine ⟨[m.system] ++ zfill 2 (natStr m.number) ++ [' '] ++ padLeft 4 (natStr m.epoch.year) ++
    [' '] ++ zfill 2 (natStr m.epoch.month) ++ [' '] ++ zfill 2 (natStr m.epoch.day) ++
    [' '] ++ zfill 2 (natStr m.epoch.hour) ++ [' '] ++ zfill 2 (natStr m.epoch.minute), (m.clock.map fun d => padLeft 19 d.text).flatten, ?_, ?_, ?_⟩
  · have z2 : ∀ n, n < 100 → (zfill 2 (natStr n)).length = 2 := fun n hn => zfill_natStr_length (by omega) (by omega)
    have y4 := padLeft_length (w := 4) (natStr_length_le (n := m.epoch.year) (k := 4) (by omega) (by omega))
    simp only [List.length_append, y4, z2 m.number hn, z2 m.epoch.month (by omega), z2 m.epoch.day (by omega), z2 m.epoch.hour (by omega), z2 m.epoch.minute (by omega),
      List.length_singleton]
  · intro t h1 h2 h3 h4 h5
    unfold NavMsg.epochLine3
    simp only [h1, h2, h3, h4, h5]
    simp
  · intro E hE
    obtain ⟨a, b, c, habc⟩ := clock_three hc3
    obtain ⟨p, x, hpx, hx⟩ := clock_flatten_last (pre := [m.system] ++ zfill 2 (natStr m.number) ++ [' '] ++ padLeft 4 (natStr m.epoch.year) ++
      [' '] ++ zfill 2 (natStr m.epoch.month) ++ [' '] ++ zfill 2 (natStr m.epoch.day) ++
      [' '] ++ zfill 2 (natStr m.epoch.hour) ++ [' '] ++ zfill 2 (natStr m.epoch.minute) ++
      [' '] ++ zfill 2 (natStr m.epoch.second)) (a := a) (b := b) (hcok c (by simp [habc]))
    have he : m.epochLine3 = p ++ [x] := by
      unfold NavMsg.epochLine3
      rw [habc, hpx]
    rw [he] at hE ⊢
    obtain ⟨w, hw, -⟩ := sameLine_ext hE hx
    exact ⟨w, hw⟩

theorem mapInt_last_error {l : List Str} {s : Str} (h : parseInt s = none) : mapInt (l ++ [s]) = .error .value := by
  cases hm : mapInt (l ++ [s]) with
  | error e => rw [mapInt_error hm]
  | ok v =>
    exfalso
    induction l generalizing v with
    | nil => simp [mapInt, pyInt, h, bind, Except.bind] at hm
    | cons a l ih =>
      simp only [List.cons_append, mapInt, bind_eq_ok] at hm
      obtain ⟨_, _, t, ht, _⟩ := hm
      exact ih t ht

theorem mapInt_last_congr {l : List Str} {s s' : Str} (h : parseInt s = parseInt s') : mapInt (l ++ [s]) = mapInt (l ++ [s']) := by
  induction l with
  | nil => simp [mapInt, pyInt, h]
  | cons a l ih => simp only [List.cons_append, mapInt, ih]

/-- RINEX 3: what the beginning of an epoch line is read as -/
theorem epoch3_cut (m : NavMsg) (h : m.Ok3) (E : Str) (hE : SameLine E m.epochLine3) (j : Nat) (hj : 0 < j) :
    parseNavEpoch3 (E.take j) = .error .rinex ∨ parseNavEpoch3 (E.take j) = .ok (m.system, (m.number : Int), m.epoch) := by
  have hfull := (parseNavEpoch3_written m h E hE).1
  have hchar : charAt (E.take j) 0 = charAt E 0 := by
    unfold charAt
    rw [List.getElem?_take, if_pos hj]
  have hrange : pyRange 8 23 3 = [8, 11, 14, 17, 20] := by decide
  have hsys : ∃ s, charAt E 0 = .ok s := by
    unfold parseNavEpoch3 at hfull
    simp only [bind_eq_ok] at hfull
    obtain ⟨s, hs, _⟩ := hfull
    exact ⟨s, hs⟩
  obtain ⟨s, hs⟩ := hsys
  have hsplit : ∀ L : Str, (slice L 4 9 :: (pyRange 8 23 3).map fun i => slice L i (i + 3)) =
      [slice L 4 9, slice L 8 11, slice L 11 14, slice L 14 17, slice L 17 20] ++ [slice L 20 23] := by
    intro L; rw [hrange]; rfl
  by_cases h1 : j ≤ 20
  · left
    apply nav3_noints (hchar.trans hs)
    rw [hsplit]
    apply mapInt_last_error
    rw [slice_take_nil h1]; rfl
  by_cases h2 : 23 ≤ j
  · rcases nav3_same (E := E) (E' := E.take j) hchar (slice_take_of_le (by omega)) (by
      rw [hsplit, hsplit]
      simp only [slice_take_of_le (s := E) (show 9 ≤ j by omega), slice_take_of_le (s := E) (show 11 ≤ j by omega), slice_take_of_le (s := E) (show 14 ≤ j by omega),
        slice_take_of_le (s := E) (show 17 ≤ j by omega), slice_take_of_le (s := E) (show 20 ≤ j by omega), slice_take_of_le (s := E) (show 23 ≤ j by omega)]) hfull with h | h
    · exact .inr h
    · exact .inl h
  · left
    obtain ⟨A, B, hA, hline, hext⟩ := epoch3_front m h
    obtain ⟨w, hw⟩ := hext E hE
    have hleg := h.1.2.1
    have flds := legal_fields hleg
    have h3 : ∀ k, k < 60 → (' ' :: zfill 2 (natStr k)).length = 3 := fun k hk => by simp [zfill_natStr_length (w := 2) (n := k) (by omega) (by omega)]
    have hk6 : m.epoch.second < 60 := hleg.2.2.2.1
    have hE2 : E = A ++ (' ' :: zfill 2 (natStr m.epoch.second)) ++ (B ++ w) := by
      rw [hw, show m.epochLine3 = ({ m with epoch := m.epoch } : NavMsg).epochLine3 from rfl, hline m.epoch rfl rfl rfl rfl rfl]; simp
    have hsl : slice (E.take j) 20 23 = (' ' :: zfill 2 (natStr m.epoch.second)).take (j - 20) := by
      rw [slice_eq_take_drop, List.take_take, show min 23 j = j by omega, hE2, List.append_assoc, List.take_append, List.drop_append, hA,
        List.drop_eq_nil_of_le (by rw [List.length_take]; omega), List.nil_append, List.take_append_of_le_length (by rw [h3 _ hk6]; omega)]
      rw [show 20 - (List.take j A).length = 0 by rw [List.length_take]; omega]; rfl
    rcases cut_seconds3 m.epoch.second hk6 (j - 20) (by omega) with hp | ⟨k', hk', hp⟩
    · apply nav3_noints (hchar.trans hs)
      rw [hsplit]
      apply mapInt_last_error
      rw [hsl, hp]
    · have hj20 : (E.take j).take 20 = A := by
        rw [List.take_take, show min 20 j = 20 by omega, hE2, List.append_assoc, ← hA, List.take_left]
      obtain ⟨t, ht⟩ : ∃ t : DateTime, t = { m.epoch with second := k' } := ⟨_, rfl⟩
      have hm' : ({ m with epoch := t } : NavMsg).Ok3 := by
        obtain ⟨⟨a1, a2, a3, a4, a5⟩, a6, a7, a8⟩ := h
        refine ⟨⟨a1, ?_, a3, a4, a5⟩, a6, by rw [ht]; exact a7, by rw [ht]; exact a8⟩
        obtain ⟨b1, b2, b3, b4, b5⟩ := a2
        rw [ht]
        exact ⟨b1, b2, b3, hk', b5⟩
      have hl' := hline t (by rw [ht]) (by rw [ht]) (by rw [ht]) (by rw [ht]) (by rw [ht])
      rw [show t.second = k' by rw [ht]] at hl'
      have hother := (parseNavEpoch3_written _ hm' _ (show SameLine (({ m with epoch := t } : NavMsg).epochLine3) _ from rfl)).1
      have htake : (E.take j).take 20 = (({ m with epoch := t } : NavMsg).epochLine3).take 20 := by
        rw [hj20, hl', List.append_assoc, ← hA, List.take_left]
      have hs' : slice (({ m with epoch := t } : NavMsg).epochLine3) 20 23 = ' ' :: zfill 2 (natStr k') := by
        rw [hl']
        exact slice_exact hA (by rw [hA, h3 _ hk'])
      have hc' : charAt (E.take j) 0 = charAt (({ m with epoch := t } : NavMsg).epochLine3) 0 := by
        unfold charAt
        rw [show (E.take j)[0]? = ((E.take j).take 20)[0]? from (by rw [List.getElem?_take (l := E.take j), if_pos (by omega)]), htake, List.getElem?_take, if_pos (by omega)]
      rcases nav3_same (E' := E.take j) hc' (slices_of_take htake (by omega)) (by
        rw [hsplit, hsplit]
        rw [slices_of_take htake (show 9 ≤ 20 by omega), slices_of_take htake (show 11 ≤ 20 by omega), slices_of_take htake (show 14 ≤ 20 by omega),
          slices_of_take htake (show 17 ≤ 20 by omega), slices_of_take htake (show 20 ≤ 20 by omega)]
        exact mapInt_last_congr (by rw [hsl, hs', hp])) hother with h | h
      · exact absurd h (nav3_noclock (by
          simp only [List.map_cons, mapFloat, slice_take_nil (s := E) (show j ≤ 23 by omega)]
          rfl))
      · exact h

/-! ## The loop -/

/-- the beginning of an orbit line -/
theorem orbit_cut_not_epoch (v3 : Bool) (version : Nat) {o : Str} (h : ¬ IsEpochLine (layout v3 version) o) {j : Nat} (hj : 0 < j) :
    ¬ IsEpochLine (layout v3 version) (o.take j) := by
  have hsp : 1 ≤ (layout v3 version).spaces := by cases v3 <;> simp [layout, navCfg2, navCfg3]
  unfold IsEpochLine at h ⊢
  generalize (layout v3 version).spaces = sp at *
  rw [Bool.not_eq_false] at h ⊢
  unfold isSpaceStr at h ⊢
  rw [Bool.and_eq_true, List.all_eq_true] at h ⊢
  rw [slice_zero] at h ⊢
  obtain ⟨h1, h2⟩ := h
  refine ⟨?_, fun x hx => h2 x ?_⟩
  · cases o with
    | nil => simp at h1
    | cons a o =>
      obtain ⟨sp, rfl⟩ : ∃ k, sp = k + 1 := ⟨sp - 1, by omega⟩
      obtain ⟨j, rfl⟩ : ∃ k, j = k + 1 := ⟨j - 1, by omega⟩
      simp
  · rw [List.take_take, Nat.min_comm, ← List.take_take] at hx
    exact List.mem_of_mem_take hx

/-- a sequence of messages up to a line of one of them -/
theorem nav_split {v3 : Bool} (ms : List NavMsg) : ∀ (body : List Str) (k : Nat) (x : Str), NavBody v3 ms body → body[k]? = some x →
    ∃ done m rest a b q, ms = done ++ m :: rest ∧ NavBody v3 done a ∧ m.WrittenAs v3 b ∧ body.take k = a ++ b.take q ∧ b[q]? = some x ∧ k = lineCount done + q := by
  induction ms with
  | nil =>
    intro body k x hb hx
    simp only [NavBody] at hb
    subst hb
    simp at hx
  | cons m ms ih =>
    intro body k x hb hx
    obtain ⟨a, b, rfl, hw, hb⟩ := hb
    have hlen : a.length = 1 + m.rows.length := by
      obtain ⟨⟨z, hw⟩, -⟩ := hw
      have := written_rows_len hw
      simp only [List.length_cons, List.length_map] at this
      omega
    by_cases hk : k < a.length
    · refine ⟨[], m, ms, [], a, k, rfl, rfl, hw, ?_, ?_, by simp [lineCount]⟩
      · rw [List.take_append_of_le_length (by omega), List.nil_append]
      · rwa [List.getElem?_append_left hk] at hx
    · rw [List.getElem?_append_right (by omega)] at hx
      obtain ⟨done, m1, rest, a1, b1, q, h1, h2, h3, h4, h5, h6⟩ := ih b (k - a.length) x hb hx
      refine ⟨m :: done, m1, rest, a ++ a1, b1, q, by rw [h1]; rfl, ⟨a, a1, rfl, hw, h2⟩, h3, ?_, h5, ?_⟩
      · rw [List.take_append, List.take_of_length_le (by omega), h4, List.append_assoc]
      · simp only [lineCount, List.map_cons, List.sum_cons] at h6 ⊢
        omega

/-- the last line of a message, cut -/
theorem orbit_cut (v3 : Bool) (version : Nat) (r : ORow) (hr : ∀ f ∈ r.fields, OField.Ok f) (hn : r.fields.length ≤ 4)
    (line : Str) (hl : SameLine line (r.render (indentOf v3))) (j : Nat) (w : List PyFloat) (h : orbitLine (layout v3 version) (line.take j) r.fields.length = .ok w) :
    w.length = r.fields.length ∧ ∀ k f x, r.fields[k]? = some f → w[k]? = some x →
      (indentOf v3 + 19 * (k + 1) ≤ j → x = .fin f.value) ∧ (j ≤ indentOf v3 + 19 * k → x = .fin 0) := by
  obtain ⟨h1, h2⟩ := (C25_any v3 version _ _ hn w).1 h
  obtain ⟨g1, g2⟩ := (C25_any v3 version _ _ hn _).1 (C25_written v3 version r hr hn line hl)
  refine ⟨h1, fun k f x hf hx => ⟨fun hj => ?_, fun hj => ?_⟩⟩
  · have a := h2 k x hx
    have b := g2 k (.fin f.value) (by rw [List.getElem?_map, hf]; rfl)
    simp only at a b
    rw [slice_take_of_le (by omega)] at a
    split at a
    · next hsp => rw [if_pos hsp] at b; rw [a, b]
    · next hsp =>
      rw [if_neg hsp] at b
      rw [a] at b
      exact Option.some.inj b
  · have a := h2 k x hx
    simp only at a
    rw [slice_take_nil hj] at a
    simpa using a

theorem readOrbits_last (c : NavCfg) (os : List Str) (o : Str) (n : Nat) : ∀ (ns : List Nat) (a : List PyFloat), readOrbits c os ns = .ok a → os.length = ns.length →
    readOrbits c (os ++ [o]) (ns ++ [n]) = (orbitLine c o n).map fun w => a ++ w := by
  induction os with
  | nil =>
    intro ns a h hl
    cases ns with
    | nil =>
      simp only [readOrbits, Except.ok.injEq] at h
      subst h
      simp only [List.nil_append, readOrbits]
      cases orbitLine c o n <;> simp [bind, Except.bind, pure, Except.pure, Except.map]
    | cons => simp at hl
  | cons l os ih =>
    intro ns a h hl
    cases ns with
    | nil => simp at hl
    | cons k ns =>
      simp only [readOrbits, bind_eq_ok, pure_eq_ok] at h
      obtain ⟨v, hv, b, hb, rfl⟩ := h
      simp only [List.cons_append, readOrbits, hv, ok_bind, ih ns b hb (by simpa using hl)]
      cases orbitLine c o n <;> simp [bind, Except.bind, pure, Except.pure, Except.map]

/-- C111: keep `k` lines of the messages of a navigation file and the first `j` characters of the next line, which belongs to the message `m`. Either RinexError
is raised, which happens only if the cut lies in the first or in the last line of a message; or the table holds exactly the messages that have completely arrived; or,
if the cut lies in the last line of `m`, these and `m`, with its values as far as they have arrived. -/
theorem C111_cut (v3 : Bool) (version : Nat) (hs : List HLine) (hok : ∀ h ∈ hs, h.Ok) (hdr : List Str)
    (ht : HeaderText version hdr hs) (hh : ∀ l ∈ hdr, labelOf l ≠ lblEnd) (endl : Str) (hend : labelOf endl = lblEnd)
    (ms : List NavMsg) (hm : ∀ m ∈ ms, Readable v3 version hs m) (body : List Str) (hb : NavBody v3 ms body) (day : DateTime)
    (k : Nat) (x : Str) (hx : body[k]? = some x) (j : Nat) (hj : 0 < j) :
    let read := loadNav (layout v3 version) (some day.date) (hdr ++ endl :: (body.take k ++ [x.take j]))
    ∃ done m rest q, ms = done ++ m :: rest ∧ k = lineCount done + q ∧ q ≤ m.rows.length ∧
      (read = .error .rinex ∧ (q = 0 ∨ q = m.rows.length ∧ OnDay m.epoch day) ∨
       (∃ T, read = .ok T ∧ NoEmpty T ∧ ∀ s n τ v, Msg T s n τ v ↔ LastOf day done s n τ v) ∧ ¬ (q = m.rows.length ∧ OnDay m.epoch day) ∨
       (q = m.rows.length ∧ OnDay m.epoch day ∧ ∃ T w, read = .ok T ∧ NoEmpty T ∧ CutMessage (indentOf v3) j m w ∧
         ∀ s n τ v, Msg T s n τ v ↔ if m.system = s ∧ (m.number : Int) = n ∧ timeOfDay m.epoch = τ then v = w else LastOf day done s n τ v)) := by
  intro read
  have hread : read = loadNav (layout v3 version) (some day.date) (hdr ++ endl :: (body.take k ++ [x.take j])) := rfl
  rw [load_body v3 version _ hdr hh endl hend _ _ (parseNavHeader_written version hdr hs hok ht), typeLetter_eq] at hread
  obtain ⟨done, m, rest, a, b, q, h1, h2, h3, h4, h5, h6⟩ := nav_split ms body k x hb hx
  have hfor : ∀ y ∈ ms, MsgFor v3 version (typeLetter hs) y := fun y hy => msgFor_readable (hm y hy)
  have hford : ∀ y ∈ done, MsgFor v3 version (typeLetter hs) y := fun y hy => hfor y (by rw [h1]; simp [hy])
  have hmf : MsgFor v3 version (typeLetter hs) m := hfor m (by rw [h1]; simp)
  rw [h4, List.append_assoc] at hread
  unfold NavLoc.init at hread
  rw [navLoop_body_then day done hford a h2] at hread
  obtain ⟨E, os, rfl, hE, hp, ho, hlen, hreado⟩ := written_message hmf h3
  have hmok : m.Ok := by
    unfold MsgFor at hmf
    split at hmf
    · exact hmf.1
    · obtain ⟨_, _, _, _, h⟩ := hmf; exact h.1
  have hrows := hmok.2.2.2.2.1
  have hfields := hmok.2.2.2.2.2
  have hosl : os.length = m.rows.length := by rw [hlen, ← hrows, List.length_map]
  have hrl : 3 ≤ m.rows.length := by rw [← hosl, hlen]; unfold rowSizes; split <;> decide
  have hqlt : q < (E :: os).length := (List.getElem?_eq_some_iff.1 h5).1
  have hdoneT : NoEmpty (storeAll day done []) ∧ ∀ s n τ v, Msg (storeAll day done []) s n τ v ↔ LastOf day done s n τ v := by
    refine ⟨noEmpty_storeAll _ _ _ noEmpty_nil, fun s n τ v => ?_⟩
    rw [msg_storeAll]
    constructor
    · rintro (h | ⟨-, a, b, h, -⟩)
      · exact h
      · simp [Dict.get?] at h
    · exact .inl
  refine ⟨done, m, rest, q, h1, h6, by simp only [List.length_cons] at hqlt; omega, ?_⟩
  cases q with
  | zero =>
    -- the first line of the message
    simp only [List.take_zero, List.nil_append] at hread
    simp only [List.getElem?_cons_zero, Option.some.injEq] at h5
    subst h5
    have hcut : epochOf (layout v3 version) (typeLetter hs) (E.take j) = .error .rinex ∨
        epochOf (layout v3 version) (typeLetter hs) (E.take j) = .ok (m.system, (m.number : Int), m.epoch) := by
      obtain ⟨⟨z, hw⟩, -⟩ := h3
      unfold epochOf
      unfold MsgFor at hmf
      cases v3 with
      | true => exact epoch3_cut m hmf E hw.1 j hj
      | false =>
        obtain ⟨f, s, hft, hfs, h2⟩ := hmf
        rw [hft]
        exact epoch2_cut version f m.system (by rw [h2.2.1]; exact hfs) m (by rw [h2.2.1]; exact h2) E z hw.1 j
    by_cases hEj : IsEpochLine (layout v3 version) (E.take j)
    · rcases hcut with hc | hc
      · left
        refine ⟨?_, .inl rfl⟩
        rw [hread, navLoop_cons]
        have : navStep (layout v3 version) (typeLetter hs) (some day.date) (E.take j) ⟨[], 0, none, false⟩ (storeAll day done []) = .error .rinex := by
          unfold navStep
          unfold IsEpochLine at hEj
          unfold epochOf at hc
          rw [hEj]
          simp only [Bool.not_false, if_true]
          split at hc <;> rename_i hv3 <;> simp [hv3, hc, bind, Except.bind]
        rw [this]; rfl
      · right; left
        refine ⟨⟨_, ?_, hdoneT⟩, by omega⟩
        rw [hread, navLoop_cons, navStep_epoch hEj hc (msgVals_for hmf)]
        rfl
    · left
      refine ⟨?_, .inl rfl⟩
      rw [hread, navLoop_cons, navStep_stray hEj]
      rfl
  | succ q =>
    simp only [List.take_succ_cons, List.cons_append] at hread
    simp only [List.getElem?_cons_succ] at h5
    simp only [List.length_cons] at hqlt
    rw [navLoop_cons, navStep_epoch hE hp (msgVals_for hmf)] at hread
    simp only [ok_bind] at hread
    have hxo : x ∈ os := List.mem_of_getElem? h5
    have hall : ∀ o ∈ os.take q ++ [x.take j], ¬ IsEpochLine (layout v3 version) o := by
      intro o hmem
      rcases List.mem_append.1 hmem with h | h
      · exact ho o (List.mem_of_mem_take h)
      · rw [List.mem_singleton.1 h]; exact orbit_cut_not_epoch v3 version (ho x hxo) hj
    have hlen' : (os.take q ++ [x.take j]).length = q + 1 := by
      rw [List.length_append, List.length_take, List.length_singleton]; omega
    by_cases hlast : q + 1 = m.rows.length
    · have hiff : (some day.date ≠ some m.epoch.date) ↔ ¬ OnDay m.epoch day := by
        rw [← date_eq_iff, ne_eq, Option.some.injEq, not_iff_not]; exact eq_comm
      have hloop := navLoop_orbits (ft := typeLetter hs) (date := some day.date) (os.take q ++ [x.take j]) hall (by simp) [] ⟨m.system, (m.number : Int), m.epoch, rowSizes m.system⟩
        (storeAll day done []) []
      rw [List.append_nil, hlen', show q + 1 = (rowSizes m.system).length by omega] at hloop
      rw [hloop, List.nil_append] at hread
      unfold finish at hread
      by_cases hday : OnDay m.epoch day
      · rw [if_neg (by rw [hiff]; exact not_not.2 hday)] at hread
        -- the rows before, and the last one
        obtain ⟨rows, r, hrr⟩ : ∃ rows r, m.rows = rows ++ [r] := ⟨m.rows.dropLast, m.rows.getLast (by intro h; rw [h] at hrl; simp at hrl), (List.dropLast_append_getLast _).symm⟩
        have hql : q = rows.length := by rw [hrr] at hlast; simp at hlast; omega
        have hos' : Written os (m.rows.map (ORow.render (indentOf v3))) := by
          obtain ⟨⟨z, hw⟩, -⟩ := h3
          cases v3 <;> exact hw.2
        have h4' : ∀ r ∈ m.rows, r.fields.length ≤ 4 := by
          intro r hr
          apply rowSizes_mem (s := m.system)
          rw [← hrows]
          exact List.mem_map.2 ⟨r, hr, rfl⟩
        have hwt := written_take hos' q
        rw [hrr, List.map_append, hql, List.take_left' (by simp)] at hwt
        have hpre := written_rows v3 version rows _ (fun r hr => hfields r (by rw [hrr]; simp [hr])) (fun r hr => h4' r (by rw [hrr]; simp [hr])) hwt
        obtain ⟨y, hy, hsame⟩ := written_get hos' q x h5
        have hyr : y = r.render (indentOf v3) := by
          rw [hrr, List.map_append, List.getElem?_append_right (by simp; omega)] at hy
          simp [hql] at hy
          exact hy.symm
        rw [hyr] at hsame
        have hval := readOrbits_last (layout v3 version) (os.take q) (x.take j) r.fields.length _ _ (by rw [hql]; exact hpre)
          (by rw [List.length_take, List.length_map]; omega)
        have hsizes : rowSizes m.system = (rows.map fun r => r.fields.length) ++ [r.fields.length] := by rw [← hrows, hrr]; simp
        rw [← hsizes] at hval
        simp only [hval] at hread
        cases hol : orbitLine (layout v3 version) (x.take j) r.fields.length with
        | error e =>
          left
          have := orbitLine_error _ _ _ _ hol
          subst this
          rw [hol] at hread
          exact ⟨hread, .inr ⟨hlast, hday⟩⟩
        | ok w =>
          right; right
          rw [hol] at hread
          obtain ⟨c1, c2⟩ := orbit_cut v3 version r (hfields r (by rw [hrr]; simp)) (h4' r (by rw [hrr]; simp)) x hsame j w hol
          refine ⟨hlast, hday, _, _, hread, noEmpty_store _ _ _ hdoneT.1, ⟨rows, r, w, hrr, rfl, c1, c2⟩, fun s n τ v => ?_⟩
          rw [msg_store]
          simp only
          split
          · rfl
          · exact hdoneT.2 s n τ v
      · rw [if_pos (hiff.2 hday)] at hread
        right; left
        exact ⟨⟨_, hread, hdoneT⟩, fun h => hday h.2⟩
    · right; left
      refine ⟨⟨_, ?_, hdoneT⟩, fun h => hlast h.1⟩
      have := navLoop_unfinished (ft := typeLetter hs) (date := some day.date) (os.take q ++ [x.take j]) hall [] (rowSizes m.system).length
        (by rw [hlen']; omega) (some ⟨m.system, (m.number : Int), m.epoch, rowSizes m.system⟩) true (storeAll day done []) []
      rw [List.append_nil] at this
      rw [hread, this]
      rfl

/-- the elements used by the position of GPS, Galileo and BeiDou satellites are the first seventeen -/
theorem gps_prefix (fuel : ℕ) (a b : List ℝ) (sec : ℝ) (h : a.take 17 = b.take 17) (ha : 17 ≤ a.length) :
    Geo.gpsSatXyz fuel a sec = Geo.gpsSatXyz fuel b sec ∧ ∀ F, DoubleGeo.gpsSatXyzF F fuel a sec = DoubleGeo.gpsSatXyzF F fuel b sec := by
  have hsplit : ∀ l : List ℝ, 17 ≤ l.length → ∃ x0 x1 x2 x3 x4 x5 x6 x7 x8 x9 x10 x11 x12 x13 x14 x15 x16 r,
      l = x0 :: x1 :: x2 :: x3 :: x4 :: x5 :: x6 :: x7 :: x8 :: x9 :: x10 :: x11 :: x12 :: x13 :: x14 :: x15 :: x16 :: r := by
    intro l hl
    obtain _ | ⟨x0, l⟩ := l
    · simp at hl
    obtain _ | ⟨x1, l⟩ := l
    · simp at hl
    obtain _ | ⟨x2, l⟩ := l
    · simp at hl
    obtain _ | ⟨x3, l⟩ := l
    · simp at hl
    obtain _ | ⟨x4, l⟩ := l
    · simp at hl
    obtain _ | ⟨x5, l⟩ := l
    · simp at hl
    obtain _ | ⟨x6, l⟩ := l
    · simp at hl
    obtain _ | ⟨x7, l⟩ := l
    · simp at hl
    obtain _ | ⟨x8, l⟩ := l
    · simp at hl
    obtain _ | ⟨x9, l⟩ := l
    · simp at hl
    obtain _ | ⟨x10, l⟩ := l
    · simp at hl
    obtain _ | ⟨x11, l⟩ := l
    · simp at hl
    obtain _ | ⟨x12, l⟩ := l
    · simp at hl
    obtain _ | ⟨x13, l⟩ := l
    · simp at hl
    obtain _ | ⟨x14, l⟩ := l
    · simp at hl
    obtain _ | ⟨x15, l⟩ := l
    · simp at hl
    obtain _ | ⟨x16, l⟩ := l
    · simp at hl
    exact ⟨_, _, _, _, _, _, _, _, _, _, _, _, _, _, _, _, _, _, rfl⟩
  have hb : 17 ≤ b.length := by
    have := congrArg List.length h
    rw [List.length_take, List.length_take] at this
    omega
  obtain ⟨x0, x1, x2, x3, x4, x5, x6, x7, x8, x9, x10, x11, x12, x13, x14, x15, x16, r, rfl⟩ := hsplit a ha
  obtain ⟨y0, y1, y2, y3, y4, y5, y6, y7, y8, y9, y10, y11, y12, y13, y14, y15, y16, r', rfl⟩ := hsplit b hb
  simp only [List.take_succ_cons, List.take_zero, List.cons.injEq, and_true] at h
  obtain ⟨rfl, rfl, rfl, rfl, rfl, rfl, rfl, rfl, rfl, rfl, rfl, rfl, rfl, rfl, rfl, rfl, rfl⟩ := h
  exact ⟨rfl, fun _ => rfl⟩

/-- C111: a cut message of GPS, Galileo or BeiDou lacks at most the time of transmission and the fit interval: the position computed from it is the right one,
in exact and in floating point arithmetic. -/
theorem C111_gps (m : NavMsg) (hm : m.Ok) (hs : m.system ≠ 'R' ∧ m.system ≠ 'S') (indent j : Nat) (w : List PyFloat) (h : CutMessage indent j m w) :
    w.take 24 = m.values.take 24 ∧ w.length = m.values.length ∧
    ∀ (g : PyFloat → ℝ) (fuel : ℕ) (sec : ℝ), Geo.gpsSatXyz fuel (w.map g) sec = Geo.gpsSatXyz fuel (m.values.map g) sec ∧
      ∀ F, DoubleGeo.gpsSatXyzF F fuel (w.map g) sec = DoubleGeo.gpsSatXyzF F fuel (m.values.map g) sec := by
  obtain ⟨rows, r, w', hr, rfl, hl, -⟩ := h
  have hrows := hm.2.2.2.2.1
  have hsz : rowSizes m.system = [4, 4, 4, 4, 4, 4, 2] := by
    unfold rowSizes; rw [if_neg (by rintro (h | h); exacts [hs.1 h, hs.2 h])]
  rw [hsz, hr, List.map_append, show ([4, 4, 4, 4, 4, 4, 2] : List Nat) = [4, 4, 4, 4, 4, 4] ++ [2] from rfl] at hrows
  obtain ⟨h1, h2⟩ := List.append_inj' hrows (by simp)
  have hlen : (rows.flatMap fun r => r.fields.map fun f => PyFloat.fin f.value).length = 24 := by
    rw [List.length_flatMap]
    simp only [List.length_map]
    rw [h1]; rfl
  have hval : m.values = (rows.flatMap fun r => r.fields.map fun f => PyFloat.fin f.value) ++ r.fields.map fun f => .fin f.value := by
    unfold NavMsg.values; rw [hr]; simp
  have htake : ((rows.flatMap fun r => r.fields.map fun f => PyFloat.fin f.value) ++ w').take 24 = m.values.take 24 := by
    rw [hval, ← hlen, List.take_left, List.take_left]
  refine ⟨htake, by rw [hval]; simp [hl], fun g fuel sec => ?_⟩
  apply gps_prefix
  · rw [← List.map_take, ← List.map_take]
    congr 1
    have := congrArg (List.take 17) htake
    rwa [List.take_take, List.take_take] at this
  · rw [List.length_map, List.length_append, hlen]; omega

/-- a Galileo message, cut in its last line behind the first value -/
def galNav : NavMsg := ⟨'E', 3, ⟨2015, 12, 19, 0, 10, 0, 0⟩, [exNum 1, exNum 1, exNum 1],
  [exRow 1, exRow 2, exRow 3, exRow 4, exRow 5, exRow 6, ⟨[some (exNum 7), some (exNum 8)], []⟩]⟩

theorem C111_gps_example : galNav.Ok ∧ galNav.system ≠ 'R' ∧ galNav.system ≠ 'S' ∧ CutMessage 4 23 galNav (galNav.values.take 25 ++ [.fin 0]) := by
  refine ⟨?_, by decide, by decide, [exRow 1, exRow 2, exRow 3, exRow 4, exRow 5, exRow 6], ⟨[some (exNum 7), some (exNum 8)], []⟩, [.fin (exNum 7).value, .fin 0], rfl, rfl, rfl, ?_⟩
  · have hd : ∀ w, w < 10 → (exNum w).Ok := by
      intro w hw
      refine ⟨by simp [exNum]; omega, by simp [exNum], by simp [exNum], by simp [exNum], by simp [exNum, DNum.text]⟩
    have hr : ∀ w, w < 10 → ∀ f ∈ (exRow w).fields, OField.Ok f := by
      intro w hw f hf
      simp only [exRow, List.mem_cons, List.not_mem_nil, or_false] at hf
      rcases hf with rfl | rfl | rfl | rfl
      · exact hd w hw
      · trivial
      · exact hd 2 (by omega)
      · exact hd 3 (by omega)
    refine ⟨by decide, ?_, rfl, ?_, rfl, ?_⟩
    · simp only [galNav, Legal, LegalDate]; decide
    · intro d hdm
      simp only [galNav, List.mem_cons, List.not_mem_nil, or_false] at hdm
      rcases hdm with rfl | rfl | rfl <;> exact hd 1 (by omega)
    · intro r hrm
      simp only [galNav, List.mem_cons, List.not_mem_nil, or_false] at hrm
      rcases hrm with rfl | rfl | rfl | rfl | rfl | rfl | rfl
      iterate 6 exact hr _ (by omega)
      intro f hf
      simp only [List.mem_cons, List.not_mem_nil, or_false] at hf
      rcases hf with rfl | rfl <;> exact hd _ (by omega)
  · intro k f x hf hx
    match k with
    | 0 => simp at hf hx; subst hf hx; exact ⟨fun _ => rfl, fun h => by omega⟩
    | 1 => simp at hf hx; subst hf hx; exact ⟨fun h => by omega, fun _ => rfl⟩
    | k + 2 => simp at hf

/-- two GLONASS messages; of the second there are `k` lines and `j` characters of the next -/
def cutNavFile (k j : Nat) : List Str :=
  hline [] lblEnd :: (exLines (exNav 5 6) ++ (exLines (exNav 3 7)).take k ++ [((exLines (exNav 3 7))[k]?.getD []).take j])

/-- GLONASS: the last line holds the z coordinate. Cut after 19 characters its `0.5D+01` becomes 0.5, and velocity and acceleration become 0, without complaint; cut after 20
characters the whole file is refused; cut in the middle line, the message is ignored. -/
theorem C111_witness :
    (exNav 3 7).values[8]? = some (.fin 5) ∧
    ((loadNav (navCfg3 302) (some ⟨2015, 12, 19⟩) (cutNavFile 3 19)).toOption.bind fun T => (T.get? 'R').bind fun a => (a.get? 3).bind fun b => (b.get? 900000000).map (·.drop 8)) =
      some [.fin (1 / 2), .fin 0, .fin 0, .fin 0] ∧
    loadNav (navCfg3 302) (some ⟨2015, 12, 19⟩) (cutNavFile 3 20) = .error .rinex ∧
    loadNav (navCfg3 302) (some ⟨2015, 12, 19⟩) (cutNavFile 2 20) = loadNav (navCfg3 302) (some ⟨2015, 12, 19⟩) (hline [] lblEnd :: exLines (exNav 5 6)) ∧
    ((loadNav (navCfg3 302) (some ⟨2015, 12, 19⟩) (cutNavFile 2 20)).toOption.bind fun T => (T.get? 'R').map fun a => a.map (·.1)) = some [5] := by
  refine ⟨by decide +kernel, by decide +kernel, by rfl, by rfl, by decide +kernel⟩

/-- the hypotheses of `C111_cut` are met -/
example := C111_cut true 302 [] (by simp) [] trivial (by simp) (hline [] lblEnd) (by decide +kernel)
    [exNav 5 6, exNav 3 7] (by
      intro m hm
      simp only [List.mem_cons, List.not_mem_nil, or_false] at hm
      rcases hm with rfl | rfl <;> exact exNav_ok (by omega) (by omega)) (exLines (exNav 5 6) ++ (exLines (exNav 3 7) ++ []))
    (by
      have hw : ∀ num w, (exNav num w).WrittenAs true (exLines (exNav num w)) := by
        intro num w
        refine ⟨⟨false, written_self _⟩, ?_⟩
        simp [exLines, exNav, NavMsg.epochLine3, ORow.render]
      exact ⟨_, _, rfl, hw 5 6, _, _, rfl, hw 3 7, rfl⟩) ⟨2015, 12, 19, 0, 0, 0, 0⟩ 7 _ rfl 19 (by omega)

end Verif.Props
