import Verif.Spec.Select
import Verif.Model.NmUtils
import Verif.Proofs.Calendar
import Verif.Proofs.Rat
import Verif.Proofs.HeaderLines
/-!
# Choice of a navigation message (C29-C34)
-/
namespace Verif.Props
open Verif.Py Verif.Spec Verif.Model Verif.Proofs

theorem mem_insertNat (x y : Nat) (l : List Nat) : y ∈ insertNat x l ↔ y = x ∨ y ∈ l := by
  induction l with
  | nil => simp [insertNat]
  | cons z l ih =>
    unfold insertNat
    split
    · simp
    · simp only [List.mem_cons, ih]
      constructor
      · rintro (h | h | h) <;> simp [h]
      · rintro (h | h | h) <;> simp [h]

theorem mem_sortNat (y : Nat) (l : List Nat) : y ∈ sortNat l ↔ y ∈ l := by
  induction l with
  | nil => simp [sortNat]
  | cons x l ih => simp [sortNat, mem_insertNat, ih]

theorem insertNat_sorted (x : Nat) (l : List Nat) (h : l.Pairwise (· ≤ ·)) : (insertNat x l).Pairwise (· ≤ ·) := by
  induction l with
  | nil => simp [insertNat]
  | cons z l ih =>
    rw [List.pairwise_cons] at h
    unfold insertNat
    split
    · rename_i hxz
      rw [List.pairwise_cons]
      refine ⟨?_, List.pairwise_cons.2 h⟩
      intro w hw
      rcases List.mem_cons.1 hw with rfl | hw
      · exact hxz
      · exact Nat.le_trans hxz (h.1 w hw)
    · rename_i hxz
      rw [List.pairwise_cons]
      refine ⟨?_, ih h.2⟩
      intro w hw
      rw [mem_insertNat] at hw
      rcases hw with rfl | hw
      · omega
      · exact h.1 w hw

theorem sortNat_sorted (l : List Nat) : (sortNat l).Pairwise (· ≤ ·) := by
  induction l with
  | nil => simp [sortNat]
  | cons x l ih => exact insertNat_sorted x _ ih

theorem time_eq (t : DateTime) : t.time = timeOfDay t := by
  show ((t.hour * 60 + t.minute) * 60 + t.second) * 1000000 + t.micro = _
  unfold timeOfDay; omega

theorem scanTimes_some {obs : Nat} {dt : Int} {l : List Nat} (hs : l.Pairwise (· ≤ ·)) {τ : Nat} {d : Int} :
    scanTimes (daySeconds obs) dt l = some (τ, d) ↔
      τ ∈ l ∧ d = age obs τ ∧ (-dt ≤ age obs τ ∧ age obs τ ≤ dt) ∧ ∀ τ' ∈ l, -dt ≤ age obs τ' → age obs τ' ≤ dt → τ ≤ τ' := by
  induction l with
  | nil => simp [scanTimes]
  | cons x l ih =>
    rw [List.pairwise_cons] at hs
    rw [scanTimes]
    have hx : (if daySeconds obs > daySeconds x then (daySeconds obs - daySeconds x, (1 : Int)) else (daySeconds x - daySeconds obs, -1)) =
        (if age obs x > 0 then (age obs x, 1) else (-(age obs x), -1)) := by
      unfold age daySeconds
      split <;> split <;> first | rfl | omega | (congr 1; omega)
    simp only [hx]
    by_cases hin : -dt ≤ age obs x ∧ age obs x ≤ dt
    · have hcond : (if age obs x > 0 then (age obs x, (1 : Int)) else (-(age obs x), -1)).1 ≤ dt := by split <;> simp <;> omega
      rw [if_pos hcond]
      have hd : (if age obs x > 0 then (age obs x, (1 : Int)) else (-(age obs x), -1)).1 *
          (if age obs x > 0 then (age obs x, (1 : Int)) else (-(age obs x), -1)).2 = age obs x := by split <;> simp
      simp only [hd, Option.some.injEq, Prod.mk.injEq]
      constructor
      · rintro ⟨rfl, rfl⟩
        refine ⟨by simp, rfl, hin, ?_⟩
        intro τ' h _ _
        rcases List.mem_cons.1 h with rfl | h
        · omega
        · exact hs.1 τ' h
      · rintro ⟨h1, rfl, h2, h3⟩
        have := h3 x (by simp) hin.1 hin.2
        have : x = τ := by
          rcases List.mem_cons.1 h1 with h | h
          · exact h.symm
          · have := hs.1 τ h; omega
        exact ⟨this, by rw [this]⟩
    · have hcond : ¬ (if age obs x > 0 then (age obs x, (1 : Int)) else (-(age obs x), -1)).1 ≤ dt := by
        intro hc; apply hin; revert hc; split <;> simp <;> omega
      rw [if_neg hcond, ih hs.2]
      constructor
      · rintro ⟨h1, h2, h3, h4⟩
        refine ⟨by simp [h1], h2, h3, ?_⟩
        intro τ' h a b
        rcases List.mem_cons.1 h with rfl | h
        · exact absurd ⟨a, b⟩ hin
        · exact h4 τ' h a b
      · rintro ⟨h1, h2, h3, h4⟩
        refine ⟨?_, h2, h3, fun τ' h => h4 τ' (by simp [h])⟩
        rcases List.mem_cons.1 h1 with rfl | h
        · exact absurd h3 hin
        · exact h

theorem scanTimes_none {obs : Nat} {dt : Int} {l : List Nat} :
    scanTimes (daySeconds obs) dt l = none ↔ ∀ τ ∈ l, ¬ (-dt ≤ age obs τ ∧ age obs τ ≤ dt) := by
  induction l with
  | nil => simp [scanTimes]
  | cons x l ih =>
    rw [scanTimes]
    have hx : (if daySeconds obs > daySeconds x then (daySeconds obs - daySeconds x, (1 : Int)) else (daySeconds x - daySeconds obs, -1)) =
        (if age obs x > 0 then (age obs x, 1) else (-(age obs x), -1)) := by
      unfold age daySeconds
      split <;> split <;> first | rfl | omega | (congr 1; omega)
    simp only [hx]
    by_cases hin : -dt ≤ age obs x ∧ age obs x ≤ dt
    · have hcond : (if age obs x > 0 then (age obs x, (1 : Int)) else (-(age obs x), -1)).1 ≤ dt := by split <;> simp <;> omega
      rw [if_pos hcond]
      simp only [reduceCtorEq, false_iff]
      intro h; exact h x (by simp) hin
    · have hcond : ¬ (if age obs x > 0 then (age obs x, (1 : Int)) else (-(age obs x), -1)).1 ≤ dt := by
        intro hc; apply hin; revert hc; split <;> simp <;> omega
      rw [if_neg hcond, ih]
      simp only [List.mem_cons, forall_eq_or_imp]
      exact ⟨fun h => ⟨hin, h⟩, fun h => h.2⟩

theorem mem_keys_get {m : Dict Nat (List PyFloat)} {τ : Nat} : τ ∈ m.keys ↔ ∃ v, m.get? τ = some v := by
  rw [← Dict.get?_isSome_iff, Option.isSome_iff_exists]

/-- the part of the table for one satellite -/
theorem msg_iff {m : Messages} {system : Char} {number : Int} {a : Dict Int (Dict Nat (List PyFloat))} {b : Dict Nat (List PyFloat)}
    (h1 : m.get? system = some a) (h2 : a.get? number = some b) (τ : Nat) (v : List PyFloat) :
    Msg m system number τ v ↔ b.get? τ = some v := by
  unfold Msg
  constructor
  · rintro ⟨a', b', e1, e2, e3⟩
    rw [h1] at e1; cases e1
    rw [h2] at e2; cases e2
    exact e3
  · intro h; exact ⟨a, b, h1, h2, h⟩

theorem ne_nil_of_get {a : Dict Int (Dict Nat (List PyFloat))} {number : Int} {b} (h : a.get? number = some b) : a ≠ [] := by
  rintro rfl; cases h

/-- the table has the satellite -/
def HasSat (m : Messages) (system : Char) (number : Int) : Prop := ∃ a b, m.get? system = some a ∧ a.get? number = some b

/-- C29: without the system or without the satellite nothing is returned. -/
theorem C29_absent (t : DateTime) (system : Char) (number : Int) (m : Messages) (first : Bool) (h : ¬ HasSat m system number) :
    selectMessage t system number m first = .ok none := by
  unfold selectMessage
  cases h1 : m.get? system with
  | none => rfl
  | some a =>
    simp only
    split
    · rfl
    · cases h2 : a.get? number with
      | none => rfl
      | some b => exact absurd ⟨a, b, h1, h2⟩ h

/-- the search inside `select_navigation_message` -/
theorem search_ok {b : Dict Nat (List PyFloat)} {obs : Nat} {dt : Int} {w : Rat} {g : Bool} {r : Option (Rat × List PyFloat)}
    (h : (match scanTimes (daySeconds obs) dt (sortNat b.keys) with
      | none => (.ok none : Except PyErr (Option (Rat × List PyFloat)))
      | some (mt, diff) =>
        match b.get? mt with
        | none => .error .key
        | some v => .ok (some (if g then w else (diff : Rat), v))) = .ok r) :
    (r = none ∧ ∀ τ v, b.get? τ = some v → ¬ (-dt ≤ age obs τ ∧ age obs τ ≤ dt)) ∨
    ∃ τ v, b.get? τ = some v ∧ r = some (if g then w else (age obs τ : Rat), v) ∧ (-dt ≤ age obs τ ∧ age obs τ ≤ dt) ∧
      ∀ τ' v', b.get? τ' = some v' → -dt ≤ age obs τ' → age obs τ' ≤ dt → τ ≤ τ' := by
  cases hs : scanTimes (daySeconds obs) dt (sortNat b.keys) with
  | none =>
    rw [hs] at h
    simp only [Except.ok.injEq] at h
    refine Or.inl ⟨h.symm, ?_⟩
    intro τ v hv
    exact (scanTimes_none.1 hs) τ ((mem_sortNat _ _).2 (mem_keys_get.2 ⟨v, hv⟩))
  | some p =>
    obtain ⟨τ, d⟩ := p
    rw [hs] at h
    obtain ⟨h1, rfl, h3, h4⟩ := (scanTimes_some (sortNat_sorted _)).1 hs
    obtain ⟨v, hv⟩ := mem_keys_get.1 ((mem_sortNat _ _).1 h1)
    simp only [hv, Except.ok.injEq] at h
    refine Or.inr ⟨τ, v, hv, h.symm, h3, ?_⟩
    intro τ' v' hv'
    exact h4 τ' ((mem_sortNat _ _).2 (mem_keys_get.2 ⟨v', hv'⟩))

theorem search_total {b : Dict Nat (List PyFloat)} {obs : Nat} {dt : Int} {w : Rat} {g : Bool} :
    ∃ r, (match scanTimes (daySeconds obs) dt (sortNat b.keys) with
      | none => (.ok none : Except PyErr (Option (Rat × List PyFloat)))
      | some (mt, diff) =>
        match b.get? mt with
        | none => .error .key
        | some v => .ok (some (if g then w else (diff : Rat), v))) = .ok r := by
  cases hs : scanTimes (daySeconds obs) dt (sortNat b.keys) with
  | none => exact ⟨none, rfl⟩
  | some p =>
    obtain ⟨τ, d⟩ := p
    obtain ⟨h1, rfl, h3, h4⟩ := (scanTimes_some (sortNat_sorted _)).1 hs
    obtain ⟨v, hv⟩ := mem_keys_get.1 ((mem_sortNat _ _).1 h1)
    simp only [hv]
    exact ⟨_, rfl⟩

/-- C30: a message for exactly the time of the observation is returned, with the second of the week (GPS, BeiDou, Galileo) or 0. -/
theorem C30_exact (t : DateTime) (system : Char) (number : Int) (m : Messages) (first : Bool) (v : List PyFloat)
    (h : Msg m system number (timeOfDay t) v) :
    selectMessage t system number m first =
      .ok (some (if system = 'G' ∨ system = 'C' ∨ system = 'E' then weekSecond t system else 0, v)) := by
  obtain ⟨a, b, h1, h2, h3⟩ := h
  unfold selectMessage
  simp only [h1, h2, time_eq, h3, if_neg (ne_nil_of_get h2)]
  unfold gpsWay
  simp only [Bool.or_eq_true, decide_eq_true_eq, or_assoc]

/-- C31: without an exact match (and, for GPS and BeiDou, without the option `first_msg`): the earliest message within the age limit,
with the second of the week or the time of the observation minus the time of the message; nothing if there is none. -/
theorem C31_window (t : DateTime) (system : Char) (number : Int) (m : Messages) (first : Bool) (limit : Int)
    (hl : ageLimit system = some limit) (hf : (system = 'G' ∨ system = 'C') → first = false) (hs : HasSat m system number)
    (hno : ∀ v, ¬ Msg m system number (timeOfDay t) v) :
    ∃ r, selectMessage t system number m first = .ok r ∧
      (r = none ↔ ∀ τ v, Msg m system number τ v → ¬ (-limit ≤ age (timeOfDay t) τ ∧ age (timeOfDay t) τ ≤ limit)) ∧
      ∀ x v, r = some (x, v) → ∃ τ, Msg m system number τ v ∧ EarliestWithin m system number limit (timeOfDay t) τ ∧
        x = if system = 'G' ∨ system = 'C' ∨ system = 'E' then weekSecond t system else (age (timeOfDay t) τ : Rat) := by
  obtain ⟨a, b, h1, h2⟩ := hs
  have hm := fun τ v => msg_iff h1 h2 τ v
  have hno' : b.get? (timeOfDay t) = none := by
    cases hb : b.get? (timeOfDay t) with
    | none => rfl
    | some v => exact absurd ((hm _ _).2 hb) (hno v)
  obtain ⟨r, hr⟩ := search_total (b := b) (obs := timeOfDay t) (dt := limit) (w := weekSecond t system) (g := gpsWay system)
  have hsel : selectMessage t system number m first = .ok r := by
    unfold selectMessage
    simp only [h1, h2, time_eq, hno', if_neg (ne_nil_of_get h2)]
    unfold ageLimit at hl
    by_cases hG : system = 'G' ∨ system = 'C'
    · have e1 : system ≠ 'R' := by rcases hG with rfl | rfl <;> decide
      have e2 : system ≠ 'S' := by rcases hG with rfl | rfl <;> decide
      have e3 : system ≠ 'E' := by rcases hG with rfl | rfl <;> decide
      simp only [e1, e2, e3, if_false, hG, if_true, Option.some.injEq] at hl
      subst hl
      simp only [hG, if_true, hf hG]
      exact hr
    · rw [if_neg hG]
      by_cases hE : system = 'E'
      · subst hE
        simp at hl
        subst hl
        rw [if_pos rfl]; exact hr
      · rw [if_neg hE]
        by_cases hR : system = 'R'
        · subst hR
          simp at hl
          subst hl
          rw [if_pos rfl]; exact hr
        · rw [if_neg hR]
          by_cases hS : system = 'S'
          · subst hS
            simp at hl
            subst hl
            rw [if_pos rfl]; exact hr
          · simp [hR, hS, hE, hG] at hl
  refine ⟨r, hsel, ?_, ?_⟩
  · rcases search_ok hr with ⟨e, hn⟩ | ⟨τ, v, hv, e, hw, -⟩
    · refine ⟨fun _ τ v h => hn τ v ((hm _ _).1 h), fun _ => e⟩
    · constructor
      · intro hn; rw [e] at hn; cases hn
      · intro hn; exact absurd hw (hn τ v ((hm _ _).2 hv))
  · rintro x v rfl
    rcases search_ok hr with ⟨e, -⟩ | ⟨τ, v', hv, e, hw, hmin⟩
    · cases e
    · simp only [Option.some.injEq, Prod.mk.injEq] at e
      obtain ⟨rfl, rfl⟩ := e
      refine ⟨τ, (hm _ _).2 hv, ⟨hw, ?_⟩, ?_⟩
      · intro τ' w h a b; exact hmin τ' w ((hm _ _).1 h) a b
      · unfold gpsWay
        simp only [Bool.or_eq_true, decide_eq_true_eq, or_assoc]

/-- C32: with the option `first_msg` (the way the processing loop calls it) GPS and BeiDou observations without an exact match get
the earliest message of the satellite, whatever its age. -/
theorem C32_first (t : DateTime) (system : Char) (number : Int) (m : Messages) (hsys : system = 'G' ∨ system = 'C')
    (hno : ∀ v, ¬ Msg m system number (timeOfDay t) v) (τ : Nat) (v : List PyFloat) (h : Msg m system number τ v)
    (hmin : ∀ τ' w, Msg m system number τ' w → τ ≤ τ') :
    selectMessage t system number m true = .ok (some (weekSecond t system, v)) := by
  obtain ⟨a, b, h1, h2, h3⟩ := h
  have hm := fun τ v => msg_iff h1 h2 τ v
  have hno' : b.get? (timeOfDay t) = none := by
    cases hb : b.get? (timeOfDay t) with
    | none => rfl
    | some v => exact absurd ((hm _ _).2 hb) (hno v)
  unfold selectMessage
  simp only [h1, h2, time_eq, hno', if_neg (ne_nil_of_get h2), hsys, if_true]
  have hk : τ ∈ sortNat b.keys := (mem_sortNat _ _).2 (mem_keys_get.2 ⟨v, h3⟩)
  have hsorted := sortNat_sorted b.keys
  cases hl : sortNat b.keys with
  | nil => rw [hl] at hk; cases hk
  | cons x l =>
    simp only
    have hx : x ∈ sortNat b.keys := by rw [hl]; simp
    obtain ⟨w, hw⟩ := mem_keys_get.1 ((mem_sortNat _ _).1 hx)
    have : x = τ := by
      have a1 := hmin x w ((hm _ _).2 hw)
      rw [hl] at hk hsorted
      rw [List.pairwise_cons] at hsorted
      rcases List.mem_cons.1 hk with h | h
      · exact h.symm
      · have := hsorted.1 τ h; omega
    subst this
    rw [h3]

/-- C29: whatever is returned is a message of that satellite of that system. -/
theorem C29_own (t : DateTime) (system : Char) (number : Int) (m : Messages) (first : Bool) (x : Rat) (v : List PyFloat)
    (h : selectMessage t system number m first = .ok (some (x, v))) : ∃ τ, Msg m system number τ v := by
  unfold selectMessage at h
  cases h1 : m.get? system with
  | none => rw [h1] at h; cases h
  | some a =>
    simp only [h1] at h
    split at h
    · cases h
    cases h2 : a.get? number with
    | none => rw [h2] at h; cases h
    | some b =>
      have hm := fun τ v => msg_iff h1 h2 τ v
      simp only [h2, time_eq] at h
      cases h3 : b.get? (timeOfDay t) with
      | some w =>
        simp only [h3, Except.ok.injEq, Option.some.injEq, Prod.mk.injEq] at h
        obtain ⟨-, rfl⟩ := h
        exact ⟨_, (hm _ _).2 h3⟩
      | none =>
        have fin : ∀ (dt : Int) (w : Rat) (g : Bool) (r), (match scanTimes (daySeconds (timeOfDay t)) dt (sortNat b.keys) with
            | none => (.ok none : Except PyErr (Option (Rat × List PyFloat)))
            | some (mt, diff) =>
              match b.get? mt with
              | none => .error .key
              | some v => .ok (some (if g then w else (diff : Rat), v))) = .ok r → r = some (x, v) → ∃ τ, Msg m system number τ v := by
          rintro dt w g r hr rfl
          rcases search_ok hr with ⟨e, -⟩ | ⟨τ, v', hv, e, -⟩
          · cases e
          · simp only [Option.some.injEq, Prod.mk.injEq] at e
            obtain ⟨-, rfl⟩ := e
            exact ⟨τ, (hm _ _).2 hv⟩
        simp only [h3] at h
        split at h
        · split at h
          · split at h
            · cases h
            · rename_i mt _ _
              split at h
              · cases h
              · rename_i w hw
                simp only [Except.ok.injEq, Option.some.injEq, Prod.mk.injEq] at h
                obtain ⟨-, rfl⟩ := h
                exact ⟨mt, (hm _ _).2 hw⟩
          · exact fin _ _ _ _ h rfl
        · split at h
          · exact fin _ _ _ _ h rfl
          · split at h
            · exact fin _ _ _ _ h rfl
            · split at h
              · exact fin _ _ _ _ h rfl
              · cases h

/-- C29: other systems (QZSS, IRNSS) have no age limit defined: without an exact match a bare `Exception` is raised, which the
processing loop does not catch. -/
theorem C29_unsupported (t : DateTime) (system : Char) (number : Int) (m : Messages) (first : Bool)
    (hl : ageLimit system = none) (hs : HasSat m system number) (hno : ∀ v, ¬ Msg m system number (timeOfDay t) v) :
    selectMessage t system number m first = .error .exc := by
  obtain ⟨a, b, h1, h2⟩ := hs
  have hno' : b.get? (timeOfDay t) = none := by
    cases hb : b.get? (timeOfDay t) with
    | none => rfl
    | some v => exact absurd ((msg_iff h1 h2 _ _).2 hb) (hno v)
  unfold selectMessage
  simp only [h1, h2, time_eq, hno', if_neg (ne_nil_of_get h2)]
  unfold ageLimit at hl
  by_cases hR : system = 'R'
  · subst hR; simp at hl
  by_cases hS : system = 'S'
  · subst hS; simp at hl
  by_cases hE : system = 'E'
  · subst hE; simp at hl
  by_cases hG : system = 'G' ∨ system = 'C'
  · simp only [hR, hS, hE, hG] at hl; simp at hl
  simp [hR, hS, hE, hG]

/-- messages of GLONASS satellite 3 at 00:15 and 00:45 -/
def sampleMsgs : Messages := [('R', [(3, [(2700000000, [.fin 2]), (900000000, [.fin 1])])])]

/-- C31: the earliest message is not always the closest: at 00:29 the message of 00:15 (14 min old) is taken, and so it is at 00:30,
which is as close to 00:45; with messages at 00:15 and 00:25 the observation of 00:24 gets the one of 00:15. -/
theorem C31_witness_not_closest :
    selectMessage ⟨2014, 1, 1, 0, 24, 0, 0⟩ 'R' 3 [('R', [(3, [(900000000, [.fin 1]), (1500000000, [.fin 2])])])] true =
      .ok (some (540, [.fin 1])) := by decide +kernel

example : HasSat sampleMsgs 'R' 3 ∧ ageLimit 'R' = some 900 ∧
    selectMessage ⟨2014, 1, 1, 0, 31, 0, 0⟩ 'R' 3 sampleMsgs true = .ok (some (-840, [.fin 2])) ∧
    selectMessage ⟨2014, 1, 1, 1, 1, 0, 0⟩ 'R' 3 sampleMsgs true = .ok none ∧
    selectMessage ⟨2014, 1, 1, 0, 45, 0, 0⟩ 'R' 3 sampleMsgs true = .ok (some (0, [.fin 2])) :=
  ⟨⟨_, _, rfl, rfl⟩, by decide, by decide +kernel, by decide +kernel, by decide +kernel⟩

/-! ## Second of the week -/

theorem truncRat_div7 (n : Int) (h : 0 ≤ n) : truncRat ((n : Rat) / 7) = n / 7 := by
  have h7 : (0 : Rat) ≤ (n : Rat) / 7 := by
    have : (0 : Rat) ≤ (n : Rat) := by exact_mod_cast h
    grind
  rw [truncRat_nonneg h7]
  have e : n = n / 7 * 7 + n % 7 := by omega
  have l1 : (0 : Rat) ≤ ((n % 7 : Int) : Rat) := by exact_mod_cast (by omega : 0 ≤ n % 7)
  have l2 : ((n % 7 : Int) : Rat) < 7 := by exact_mod_cast (by omega : n % 7 < 7)
  have e' : (n : Rat) = ((n / 7 : Int) : Rat) * 7 + ((n % 7 : Int) : Rat) := by exact_mod_cast e
  refine ratFloor_eq ?_ ?_ <;> grind

/-- the computed second of the week, as an integer -/
theorem getWeekSec_eq (t start : DateTime) (h : 0 ≤ t.sub start) :
    getWeekSec t start = (((t.sub start / 1000000) % 604800 : Int) : Rat) := by
  unfold getWeekSec
  simp only
  generalize t.sub start = d at *
  rw [truncRat_div7 _ (by omega)]
  have e : (d / 1000000) % 604800 = (d / 86400000000 - d / 86400000000 / 7 * 7) * 86400 + (d - d / 86400000000 * 86400000000) / 1000000 := by omega
  rw [e]
  push_cast
  ring

/-- C33: the second of the week is the number of whole seconds since the start of the system time, modulo one week. -/
theorem C33_week (t start : DateTime) (ht : Legal t) (hs : Legal start) (h : instant start ≤ instant t) :
    ∃ s : Int, getWeekSec t start = (s : Rat) ∧ WeekSecond start t s := by
  have hd : t.sub start = instant t - instant start := by
    unfold DateTime.sub; rw [instant_eq ht, instant_eq hs]
  refine ⟨(t.sub start / 1000000) % 604800, getWeekSec_eq t start (by omega), by omega, by omega, ?_⟩
  rw [← hd]
  generalize t.sub start = d at *
  exact ⟨d / 1000000 / 604800, d % 1000000, by omega, by omega, by omega⟩

/-- C34: the Galileo second of the week is 13 s behind the GPS one, the BeiDou one equals it (modulo one week), for every epoch after
the start of the systems. -/
theorem C34_systems (t : DateTime) (ht : Legal t) :
    (instant galStart ≤ instant t → ∃ g e : Int, weekSecond t 'G' = g ∧ weekSecond t 'E' = e ∧ e = (g - 13) % 604800) ∧
    (instant bdsStart ≤ instant t → weekSecond t 'C' = weekSecond t 'G') := by
  have lG : Legal gpsStart := by unfold Legal LegalDate gpsStart; decide
  have lC : Legal bdsStart := by unfold Legal LegalDate bdsStart; decide
  have lE : Legal galStart := by unfold Legal LegalDate galStart; decide
  rw [instant_eq ht, instant_eq lC, instant_eq lE]
  have eG : gpsStart.toMicros = 62451648000000000 := by decide
  have eE : galStart.toMicros = 63070963213000000 := by decide
  have eC : bdsStart.toMicros = 63271756800000000 := by decide
  unfold weekSecond
  constructor
  · intro h
    refine ⟨_, _, getWeekSec_eq t gpsStart ?_, getWeekSec_eq t galStart ?_, ?_⟩
    · unfold DateTime.sub; rw [eG]; rw [eE] at h; omega
    · unfold DateTime.sub; omega
    · unfold DateTime.sub; rw [eG, eE]; omega
  · intro h
    have hG := getWeekSec_eq t gpsStart (by unfold DateTime.sub; rw [eG]; rw [eC] at h; omega)
    have hC := getWeekSec_eq t bdsStart (by unfold DateTime.sub; omega)
    show getWeekSec t bdsStart = getWeekSec t gpsStart
    rw [hG, hC]
    unfold DateTime.sub; rw [eG, eC]
    have : ((t.toMicros : Int) - (63271756800000000 : Nat)) / 1000000 % 604800 = ((t.toMicros : Int) - (62451648000000000 : Nat)) / 1000000 % 604800 := by omega
    rw [this]

/-- the first of March 2014 is a Saturday: second 518400 + 3600 -/
example : weekSecond ⟨2014, 3, 1, 1, 0, 0, 0⟩ 'G' = 522000 ∧ weekSecond ⟨2014, 3, 1, 1, 0, 0, 0⟩ 'E' = 521987 := by decide +kernel

end Verif.Props
