import Verif.Model.Label
import Verif.Spec.Label
import Verif.Proofs.HeaderLines
/-!
# C40 - C42: label families, choice of the observable, validity mask
-/
namespace Verif.Props
open Verif.Py Verif.Model Verif.Spec

/-- the families of the program with their names -/
def named : List (Str × Fam) := [
  (c% "C1", Lbl.C1), (c% "C2", Lbl.C2), (c% "C3", Lbl.C3), (c% "C5", Lbl.C5), (c% "C6", Lbl.C6), (c% "C7", Lbl.C7), (c% "C8", Lbl.C8),
  (c% "P1", Lbl.P1), (c% "P2", Lbl.P2), (c% "P5", Lbl.P5), (c% "P6", Lbl.P6), (c% "P7", Lbl.P7), (c% "P8", Lbl.P8),
  (c% "L1", Lbl.L1), (c% "L2", Lbl.L2), (c% "L3", Lbl.L3), (c% "L5", Lbl.L5), (c% "L6", Lbl.L6), (c% "L7", Lbl.L7), (c% "L8", Lbl.L8),
  (c% "S1", Lbl.S1), (c% "S2", Lbl.S2), (c% "S3", Lbl.S3), (c% "S5", Lbl.S5), (c% "S6", Lbl.S6), (c% "S7", Lbl.S7), (c% "S8", Lbl.S8),
  (c% "D1", Lbl.D1), (c% "D2", Lbl.D2), (c% "D3", Lbl.D3), (c% "D5", Lbl.D5), (c% "D6", Lbl.D6), (c% "D7", Lbl.D7), (c% "D8", Lbl.D8),
  (c% "LLI1", Lbl.LLI1), (c% "LLI2", Lbl.LLI2), (c% "LLI5", Lbl.LLI5)]

/-- all pairs of `Member` -/
private def pairs : List (Str × Str) :=
  ((c% "CLSD").flatMap fun k => (c% "125678").map fun b => ([k, b], [k, b])) ++
  (attributes.flatMap fun e => e.2.2.map fun a => ([e.1, e.2.1], [e.1, e.2.1, a])) ++
  ((c% "125678").map fun b => (['P', b], ['P', b])) ++
  ((c% "12").flatMap fun b => (c% "PW").map fun a => (['P', b], ['C', b, a])) ++
  ((c% "125").map fun b => (['L', 'L', 'I', b], ['L', 'L', 'I', b]))

private theorem member_iff (n s : Str) : Member n s ↔ (n, s) ∈ pairs := by
  constructor
  · intro h
    simp only [pairs, List.mem_append, List.mem_flatMap, List.mem_map]
    cases h with
    | plain k b hk hb => exact .inl (.inl (.inl (.inl ⟨k, hk, b, hb, rfl⟩)))
    | coded k b a l h ha => exact .inl (.inl (.inl (.inr ⟨(k, b, l), h, a, ha, rfl⟩)))
    | plainP b hb => exact .inl (.inl (.inr ⟨b, hb, rfl⟩))
    | precise b a hb ha => exact .inl (.inr ⟨b, hb, a, ha, rfl⟩)
    | lli b hb => exact .inr ⟨b, hb, rfl⟩
  · intro h
    simp only [pairs, List.mem_append, List.mem_flatMap, List.mem_map, Prod.mk.injEq] at h
    rcases h with (((⟨k, hk, b, hb, rfl, rfl⟩ | ⟨⟨k, b, l⟩, hl, a, ha, rfl, rfl⟩) | ⟨b, hb, rfl, rfl⟩) | ⟨b, hb, a, ha, rfl, rfl⟩) | ⟨b, hb, rfl, rfl⟩
    · exact .plain k b hk hb
    · exact .coded k b a l hl ha
    · exact .plainP b hb
    · exact .precise b a hb ha
    · exact .lli b hb

instance (n s : Str) : Decidable (Member n s) := decidable_of_iff _ (member_iff n s).symm

private theorem pairs_named : ∀ q ∈ pairs, ∃ p ∈ named, p.1 = q.1 ∧ q.2 ∈ p.2 := by decide +kernel
private theorem named_pairs : ∀ p ∈ named, ∀ s ∈ p.2, (p.1, s) ∈ pairs := by decide +kernel
private theorem pairs_unique : ∀ p ∈ pairs, ∀ q ∈ pairs, p.2 = q.2 → p.1 = q.1 := by decide +kernel
private theorem named_labels : named.map (·.2) = Lbl.LABELS := by decide
private theorem named_inj : ∀ p ∈ named, ∀ q ∈ named, p.1 = q.1 → p = q := by decide +kernel
private theorem named_inj2 : ∀ p ∈ named, ∀ q ∈ named, p.2 = q.2 → p = q := by decide +kernel

/-- no code belongs to two families -/
theorem C40_disjoint (n m s : Str) (h1 : Member n s) (h2 : Member m s) : n = m :=
  pairs_unique _ ((member_iff _ _).1 h1) _ ((member_iff _ _).1 h2) rfl

/-- The families used by the program have exactly the specified members. -/
theorem C40_members (n : Str) (F : Fam) (h : (n, F) ∈ named) (s : Str) : s ∈ F ↔ Member n s := by
  constructor
  · intro hs; exact (member_iff _ _).2 (named_pairs _ h _ hs)
  · intro hm
    obtain ⟨p, hp, h1, h2⟩ := pairs_named _ ((member_iff _ _).1 hm)
    have := named_inj _ hp _ h h1
    subst this; exact h2

private theorem getLabelIn_spec (s : Str) : ∀ L : List Fam,
    (∃ F ∈ L, s ∈ F ∧ getLabelIn s L = .ok F) ∨ ((∀ F ∈ L, s ∉ F) ∧ getLabelIn s L = .error .label) := by
  intro L
  induction L with
  | nil => right; simp [getLabelIn]
  | cons F L ih =>
    by_cases h : s ∈ F
    · left; exact ⟨F, by simp, h, by simp [getLabelIn, h]⟩
    · simp only [getLabelIn, h, if_false]
      rcases ih with ⟨G, hG, h1, h2⟩ | ⟨h1, h2⟩
      · left; exact ⟨G, List.mem_cons_of_mem _ hG, h1, h2⟩
      · right; exact ⟨by simpa [h] using h1, h2⟩

private theorem mem_labels (F : Fam) (h : F ∈ Lbl.LABELS) : ∃ n, (n, F) ∈ named := by
  rw [← named_labels] at h
  obtain ⟨⟨n, G⟩, h1, rfl⟩ := List.mem_map.1 h
  exact ⟨n, h1⟩

private theorem named_mem (n : Str) (F : Fam) (h : (n, F) ∈ named) : F ∈ Lbl.LABELS := by
  rw [← named_labels]; exact List.mem_map.2 ⟨_, h, rfl⟩

/-- Looking a code up succeeds exactly with the one family to which it belongs. -/
theorem C40_lookup (s : Str) (F : Fam) :
    getLabel s = .ok F ↔ ∃ n, (n, F) ∈ named ∧ Member n s := by
  unfold getLabel
  rcases getLabelIn_spec s Lbl.LABELS with ⟨G, hG, h1, h2⟩ | ⟨h1, h2⟩
  · obtain ⟨m, hm⟩ := mem_labels G hG
    have hms := (C40_members m G hm s).1 h1
    rw [h2]
    constructor
    · intro h; cases h; exact ⟨m, hm, hms⟩
    · rintro ⟨n, hn, hs⟩
      have := C40_disjoint n m s hs hms
      subst this
      have := named_inj _ hn _ hm rfl
      cases this; rfl
  · rw [h2]
    constructor
    · intro h; cases h
    · rintro ⟨n, hn, hs⟩
      exact absurd ((C40_members n F hn s).2 hs) (h1 F (named_mem n F hn))

/-- Looking a code up fails exactly for the codes outside all families, with LabelError. -/
theorem C40_unknown (s : Str) (e : PyErr) :
    getLabel s = .error e ↔ e = .label ∧ ¬ Known s := by
  have key : (∃ F, getLabel s = .ok F) ↔ Known s := by
    constructor
    · rintro ⟨F, h⟩; obtain ⟨n, _, h2⟩ := (C40_lookup s F).1 h; exact ⟨n, h2⟩
    · rintro ⟨n, h⟩
      obtain ⟨p, hp, h1, h2⟩ := pairs_named _ ((member_iff _ _).1 h)
      exact ⟨p.2, (C40_lookup s p.2).2 ⟨p.1, hp, by rw [h1]; exact h⟩⟩
  have hsp := getLabelIn_spec s Lbl.LABELS
  change (∃ F ∈ Lbl.LABELS, s ∈ F ∧ getLabel s = .ok F) ∨ ((∀ F ∈ Lbl.LABELS, s ∉ F) ∧ getLabel s = .error .label) at hsp
  rw [← key]
  rcases hsp with ⟨F, _, _, h⟩ | ⟨_, h⟩ <;> rw [h] <;> simp [eq_comm]

/-- examples: a RINEX 3 phase code, a RINEX 2 precise code and its RINEX 3 form, and the missing Galileo/BeiDou Doppler codes -/
theorem C40_example :
    getLabel (c% "L1C") = .ok Lbl.L1 ∧ getLabel (c% "P2") = .ok Lbl.P2 ∧ getLabel (c% "C2W") = .ok Lbl.P2 ∧
    getLabel (c% "D6I") = .error .label ∧ ¬ Known (c% "D6I") ∧ Known (c% "L6I") := by
  refine ⟨by decide, by decide, by decide, by decide, ?_, c% "L6", by decide +kernel⟩
  exact ((C40_unknown _ _).1 (show getLabel (c% "D6I") = .error .label by decide)).2

/-! ## C42: the validity mask -/

private theorem bit_table : ∀ p ∈ named, ∀ b, BIT_SET.get? p.2 = some b →
    ∃ k ∈ List.range 17, b = 2 ^ k ∧ bitFamily k = some p.1 := by
  have h : ∀ p ∈ named, (BIT_SET.get? p.2).all
      (fun b => (List.range 17).any fun k => decide (b = 2 ^ k) && decide (bitFamily k = some p.1)) = true := by decide +kernel
  intro p hp b hb
  have := h p hp
  rw [hb] at this
  simpa using this

private theorem bit_table2 : ∀ p ∈ named, ∀ k ∈ List.range 17, bitFamily k = some p.1 → BIT_SET.get? p.2 = some (2 ^ k) := by
  decide +kernel

private theorem bitFamily_lt (k : Nat) (n : Str) (h : bitFamily k = some n) : k ∈ List.range 17 := by
  by_contra hk
  have : 17 ≤ k := by simpa using hk
  obtain ⟨j, rfl⟩ := Nat.exists_eq_add_of_le this
  rw [Nat.add_comm] at h
  simp [bitFamily] at h

private theorem hasBit_cons (k : Nat) (o : Str) (os : List Str) :
    HasBit k (o :: os) ↔ (∃ n, bitFamily k = some n ∧ Member n o) ∨ HasBit k os := by
  simp [HasBit]

private theorem setBitsFrom_spec : ∀ (os : List Str) (v : Nat),
    ((∀ o ∈ os, Known o) → ∃ w, setBitsFrom v os = .ok w ∧ ∀ k, w.testBit k = true ↔ v.testBit k = true ∨ HasBit k os) ∧
    ((∃ o ∈ os, ¬ Known o) → setBitsFrom v os = .error .label) := by
  intro os
  induction os with
  | nil => intro v; simp [setBitsFrom, HasBit]
  | cons o os ih =>
    intro v
    cases hl : getLabel o with
    | error e =>
      obtain ⟨rfl, hk⟩ := (C40_unknown o e).1 hl
      refine ⟨fun h => absurd (h o (by simp)) hk, fun _ => by simp [setBitsFrom, hl]⟩
    | ok F =>
      obtain ⟨n, hn, hm⟩ := (C40_lookup o F).1 hl
      simp only [setBitsFrom, hl]
      have hko : Known o := ⟨n, hm⟩
      have fam (k : Nat) : (∃ m, bitFamily k = some m ∧ Member m o) ↔ bitFamily k = some n := by
        constructor
        · rintro ⟨m, h1, h2⟩; rw [C40_disjoint n m o hm h2]; exact h1
        · intro h; exact ⟨n, h, hm⟩
      cases hb : BIT_SET.get? F with
      | none =>
        dsimp only
        refine ⟨fun h => ?_, fun h => ?_⟩
        · obtain ⟨w, h1, h2⟩ := (ih v).1 (fun o' ho' => h o' (by simp [ho']))
          refine ⟨w, h1, fun k => ?_⟩
          rw [h2, hasBit_cons, fam]
          have : ¬ bitFamily k = some n := by
            intro hk
            have := bit_table2 _ hn k (bitFamily_lt k n hk) hk
            simp [hb] at this
          simp [this]
        · refine (ih v).2 ?_
          obtain ⟨o', ho', hk'⟩ := h
          rcases List.mem_cons.1 ho' with rfl | h'
          · exact absurd hko hk'
          · exact ⟨o', h', hk'⟩
      | some b =>
        dsimp only
        obtain ⟨j, hj, rfl, hjn⟩ := bit_table _ hn b hb
        refine ⟨fun h => ?_, fun h => ?_⟩
        · obtain ⟨w, h1, h2⟩ := (ih (v ||| 2 ^ j)).1 (fun o' ho' => h o' (by simp [ho']))
          refine ⟨w, h1, fun k => ?_⟩
          rw [h2, hasBit_cons, fam, Nat.testBit_or, Nat.testBit_two_pow]
          have : bitFamily k = some n ↔ j = k := by
            constructor
            · intro hk
              have := bit_table2 _ hn k (bitFamily_lt k n hk) hk
              have h3 := bit_table2 _ hn j hj hjn
              rw [h3] at this
              exact Nat.pow_right_injective (le_refl 2) (Option.some.inj this)
            · rintro rfl; exact hjn
          rw [this]
          simp [or_assoc]
        · refine (ih _).2 ?_
          obtain ⟨o', ho', hk'⟩ := h
          rcases List.mem_cons.1 ho' with rfl | h'
          · exact absurd hko hk'
          · exact ⟨o', h', hk'⟩

/-- With known codes only, bit `k` of the validity value is set iff exactly one of "some expected code is of the family of bit `k`" and "some
present code is of that family" holds. -/
theorem C42_bits (expected present : List Str) (he : ∀ o ∈ expected, Known o) (hp : ∀ o ∈ present, Known o) :
    ∃ v, evalValidity expected present = .ok v ∧
      ∀ k, v.testBit k = true ↔ ¬ (HasBit k expected ↔ HasBit k present) := by
  obtain ⟨a, ha, ha2⟩ := (setBitsFrom_spec expected 0).1 he
  obtain ⟨b, hb, hb2⟩ := (setBitsFrom_spec present 0).1 hp
  refine ⟨a ^^^ b, by simp only [evalValidity, setBits, ha, hb], fun k => ?_⟩
  have h1 := ha2 k
  have h2 := hb2 k
  simp only [Nat.zero_testBit, Bool.false_eq_true, false_or] at h1 h2
  rw [Nat.testBit_xor, ← h1, ← h2]
  cases a.testBit k <;> cases b.testBit k <;> simp

/-- A code outside all families, expected or present, is a LabelError (the record is then skipped by the caller). -/
theorem C42_unknown (expected present : List Str) :
    (∃ o ∈ expected ++ present, ¬ Known o) ↔ evalValidity expected present = .error .label := by
  constructor
  · rintro ⟨o, ho, hk⟩
    by_cases h : ∀ o ∈ expected, Known o
    · obtain ⟨a, ha, _⟩ := (setBitsFrom_spec expected 0).1 h
      have hp : ∃ o ∈ present, ¬ Known o := by
        rcases List.mem_append.1 ho with h1 | h1
        · exact absurd (h o h1) hk
        · exact ⟨o, h1, hk⟩
      simp only [evalValidity, setBits, ha, (setBitsFrom_spec present 0).2 hp]
    · have he : ∃ o ∈ expected, ¬ Known o := by simpa using h
      simp only [evalValidity, setBits, (setBitsFrom_spec expected 0).2 he]
  · intro h
    by_contra hc
    have h1 : ∀ o ∈ expected ++ present, Known o := by simpa using hc
    obtain ⟨v, hv, _⟩ := C42_bits expected present (fun o ho => h1 o (by simp [ho])) (fun o ho => h1 o (by simp [ho]))
    rw [hv] at h; cases h

/-- The value is zero iff the same families with a bit are expected and present. -/
theorem C42_zero (expected present : List Str) (he : ∀ o ∈ expected, Known o) (hp : ∀ o ∈ present, Known o) :
    evalValidity expected present = .ok 0 ↔ ∀ k, HasBit k expected ↔ HasBit k present := by
  obtain ⟨v, hv, hb⟩ := C42_bits expected present he hp
  rw [hv]
  constructor
  · intro h; cases h
    intro k
    have := hb k
    simpa using this
  · intro h
    have : v = 0 := by
      apply Nat.eq_of_testBit_eq
      intro k
      have h2 := hb k
      simp only [h k, not_true_eq_false, iff_false] at h2
      simpa using h2
    rw [this]

/-- Only the sets of codes matter, and among them only those whose family has a bit. -/
theorem C42_sets (e1 e2 p1 p2 : List Str)
    (h1 : ∀ o ∈ e1, Known o) (h2 : ∀ o ∈ e2, Known o) (h3 : ∀ o ∈ p1, Known o) (h4 : ∀ o ∈ p2, Known o)
    (he : ∀ o, (∃ k n, bitFamily k = some n ∧ Member n o) → (o ∈ e1 ↔ o ∈ e2))
    (hp : ∀ o, (∃ k n, bitFamily k = some n ∧ Member n o) → (o ∈ p1 ↔ o ∈ p2)) :
    evalValidity e1 p1 = evalValidity e2 p2 := by
  obtain ⟨v, hv, hb⟩ := C42_bits e1 p1 h1 h3
  obtain ⟨w, hw, hc⟩ := C42_bits e2 p2 h2 h4
  have t1 : ∀ k, HasBit k e1 ↔ HasBit k e2 := fun k =>
    ⟨fun ⟨o, ho, n, hn, hm⟩ => ⟨o, (he o ⟨k, n, hn, hm⟩).1 ho, n, hn, hm⟩,
     fun ⟨o, ho, n, hn, hm⟩ => ⟨o, (he o ⟨k, n, hn, hm⟩).2 ho, n, hn, hm⟩⟩
  have t2 : ∀ k, HasBit k p1 ↔ HasBit k p2 := fun k =>
    ⟨fun ⟨o, ho, n, hn, hm⟩ => ⟨o, (hp o ⟨k, n, hn, hm⟩).1 ho, n, hn, hm⟩,
     fun ⟨o, ho, n, hn, hm⟩ => ⟨o, (hp o ⟨k, n, hn, hm⟩).2 ho, n, hn, hm⟩⟩
  have : v = w := by
    apply Nat.eq_of_testBit_eq
    intro k
    have a := hb k
    have b := hc k
    rw [t1, t2] at a
    rw [Bool.eq_iff_iff, a, b]
  rw [hv, hw, this]

/-- example: L2 is missing (bit 4), C5 is unexpected (bit 13), C3X has no bit -/
theorem C42_example : evalValidity [c% "L1C", c% "L2W", c% "C1C"] [c% "C1C", c% "L1C", c% "C5Q", c% "C3X"] = .ok (2 ^ 4 + 2 ^ 13) := by
  decide

/-! ## C41: the observable chosen for a family -/

theorem strLe_total (a : Str) : ∀ b, strLe a b = true ∨ strLe b a = true := by
  induction a with
  | nil => intro b; left; rfl
  | cons x a ih =>
    intro b
    cases b with
    | nil => right; rfl
    | cons y b =>
      simp only [strLe]
      by_cases h1 : x.toNat < y.toNat
      · simp [h1]
      · by_cases h2 : y.toNat < x.toNat
        · simp [h2]
        · simp [h1, h2, ih b]

/-- the order of the sort is the specified one -/
theorem strLe_iff (a b : Str) : strLe a b = true ↔ a = b ∨ Before a b := by
  induction a generalizing b with
  | nil =>
    cases b with
    | nil => simp [strLe]
    | cons y b => simp only [strLe, true_iff]; exact .inr (.inl ⟨y, b, rfl⟩)
  | cons x a ih =>
    cases b with
    | nil =>
      simp only [strLe, Bool.false_eq_true, false_iff]
      rintro (h | ⟨c, s, h⟩ | ⟨p, u, v, s, t, h1, h2, h3⟩)
      · simp at h
      · simp at h
      · simp at h2
    | cons y b =>
      simp only [strLe]
      by_cases h1 : x.toNat < y.toNat
      · simp only [h1, if_true, true_iff]
        exact .inr (.inr ⟨[], x, y, a, b, rfl, rfl, h1⟩)
      · by_cases h2 : y.toNat < x.toNat
        · simp only [h1, h2, if_true, if_false, Bool.false_eq_true, false_iff]
          rintro (h | ⟨c, s, h⟩ | ⟨p, u, v, s, t, h3, h4, h5⟩)
          · cases h; omega
          · simp only [List.cons_append, List.cons.injEq] at h
            obtain ⟨rfl, _⟩ := h; omega
          · cases p with
            | nil => simp at h3 h4; obtain ⟨rfl, _⟩ := h3; obtain ⟨rfl, _⟩ := h4; omega
            | cons q p => simp at h3 h4; obtain ⟨rfl, _⟩ := h3; obtain ⟨rfl, _⟩ := h4; omega
        · have hxy : x = y := Char.ext (UInt32.toNat_inj.1 (by change x.toNat = y.toNat; omega))
          subst hxy
          simp only [h1, if_false]
          rw [ih]
          constructor
          · rintro (h | ⟨c, s, h⟩ | ⟨p, u, v, s, t, h3, h4, h5⟩)
            · exact .inl (by rw [h])
            · exact .inr (.inl ⟨c, s, by rw [h]; rfl⟩)
            · exact .inr (.inr ⟨x :: p, u, v, s, t, by rw [h3]; rfl, by rw [h4]; rfl, h5⟩)
          · rintro (h | ⟨c, s, h⟩ | ⟨p, u, v, s, t, h3, h4, h5⟩)
            · exact .inl (by simpa using h)
            · exact .inr (.inl ⟨c, s, by simpa using h⟩)
            · cases p with
              | nil => simp at h3 h4; obtain ⟨rfl, _⟩ := h3; obtain ⟨rfl, _⟩ := h4; omega
              | cons q p => simp at h3 h4; exact .inr (.inr ⟨p, u, v, s, t, h3.2, h4.2, h5⟩)

theorem strLe_trans (a b c : Str) (h1 : strLe a b = true) (h2 : strLe b c = true) : strLe a c = true := by
  induction a generalizing b c with
  | nil => rfl
  | cons x a ih =>
    cases b with
    | nil => simp [strLe] at h1
    | cons y b =>
      cases c with
      | nil => simp [strLe] at h2
      | cons z c =>
        simp only [strLe] at *
        split at h1
        · split at h2
          · simp [show x.toNat < z.toNat by omega]
          · split at h2
            · simp at h2
            · simp [show x.toNat < z.toNat by omega]
        · split at h1
          · simp at h1
          · split at h2
            · simp [show x.toNat < z.toNat by omega]
            · split at h2
              · simp at h2
              · rw [if_neg (by omega), if_neg (by omega)]
                exact ih b c h1 h2

theorem mem_insertStr (x y : Str) (l : List Str) : y ∈ insertStr x l ↔ y = x ∨ y ∈ l := by
  induction l with
  | nil => simp [insertStr]
  | cons z l ih =>
    simp only [insertStr]
    split
    · simp
    · simp only [List.mem_cons, ih]; tauto

theorem mem_sortStr (y : Str) (l : List Str) : y ∈ sortStr l ↔ y ∈ l := by
  induction l with
  | nil => simp [sortStr]
  | cons z l ih => simp [sortStr, mem_insertStr, ih]

theorem sorted_insertStr (x : Str) (l : List Str) (h : l.Pairwise (fun a b => strLe a b = true)) :
    (insertStr x l).Pairwise (fun a b => strLe a b = true) := by
  induction l with
  | nil => simp [insertStr]
  | cons z l ih =>
    simp only [insertStr]
    rw [List.pairwise_cons] at h
    split
    · rename_i hxz
      rw [List.pairwise_cons]
      refine ⟨fun b hb => ?_, List.pairwise_cons.2 h⟩
      rcases List.mem_cons.1 hb with rfl | hb
      · exact hxz
      · exact strLe_trans _ _ _ hxz (h.1 b hb)
    · rename_i hxz
      rw [List.pairwise_cons]
      refine ⟨fun b hb => ?_, ih h.2⟩
      rcases (mem_insertStr x b l).1 hb with rfl | hb
      · rcases strLe_total b z with h1 | h1
        · exact absurd h1 hxz
        · exact h1
      · exact h.1 b hb

theorem sorted_sortStr (l : List Str) : (sortStr l).Pairwise (fun a b => strLe a b = true) := by
  induction l with
  | nil => simp [sortStr]
  | cons z l ih => exact sorted_insertStr z _ ih

private theorem pickType_spec (F : Fam) : ∀ ots : List Str,
    ((∀ o ∈ ots, o ∉ F) ∧ pickType F ots = (none, ots)) ∨
    ∃ a c b, ots = a ++ c :: b ∧ (∀ o ∈ a, o ∉ F) ∧ c ∈ F ∧ pickType F ots = (some c, a ++ b) := by
  intro ots
  induction ots with
  | nil => left; simp [pickType]
  | cons o ots ih =>
    by_cases h : o ∈ F
    · right; exact ⟨[], o, ots, rfl, by simp, h, by simp [pickType, h]⟩
    · simp only [pickType, h, if_false]
      rcases ih with ⟨h1, h2⟩ | ⟨a, c, b, h1, h2, h3, h4⟩
      · left; rw [h2]; exact ⟨by simpa [h] using h1, rfl⟩
      · right; rw [h4]; exact ⟨o :: a, c, b, by simp [h1], by simpa [h] using h2, h3, rfl⟩

/-- what the loop leaves for a family not in the rest of the list is unchanged -/
private theorem loop_other {α : Type} (r : Dict Str α) (G : Fam) : ∀ (L : List Fam) (ots : List Str) (d : Dict Fam (Option α)),
    G ∉ L → (parseRecLoop r L ots d).get? G = d.get? G := by
  intro L
  induction L with
  | nil => intro ots d _; rfl
  | cons F L ih =>
    intro ots d h
    have hF : F ≠ G := fun h' => h (by simp [h'])
    have hL : G ∉ L := fun h' => h (by simp [h'])
    simp only [parseRecLoop]
    rcases pickType F ots with ⟨_ | c, os⟩
    · dsimp only; rw [ih _ _ hL, Dict.get?_set, if_neg hF]
    · dsimp only; rw [ih _ _ hL, Dict.get?_set, if_neg hF, Dict.get?_set, if_neg hF]

private theorem loop_spec {α : Type} (r : Dict Str α) (G : Fam) : ∀ (L : List Fam) (ots : List Str) (d : Dict Fam (Option α)),
    L.Nodup → (∀ F ∈ L, ∀ H ∈ L, ∀ s, s ∈ F → s ∈ H → F = H) →
    ots.Pairwise (fun a b => strLe a b = true) → G ∈ L →
    ((∀ o ∈ ots, o ∉ G) ∧ (parseRecLoop r L ots d).get? G = some none) ∨
    ∃ c ∈ ots, c ∈ G ∧ (∀ o ∈ ots, o ∈ G → strLe c o = true) ∧ (parseRecLoop r L ots d).get? G = some (r.get? c) := by
  intro L
  induction L with
  | nil => intro ots d _ _ _ h; simp at h
  | cons F L ih =>
    intro ots d hn hdis hs hG
    rw [List.nodup_cons] at hn
    have hdisL : ∀ F ∈ L, ∀ H ∈ L, ∀ s, s ∈ F → s ∈ H → F = H :=
      fun F hF H hH => hdis F (List.mem_cons_of_mem _ hF) H (List.mem_cons_of_mem _ hH)
    simp only [parseRecLoop]
    by_cases hFG : F = G
    · subst hFG
      rcases pickType_spec F ots with ⟨h1, h2⟩ | ⟨a, c, b, h1, h2, h3, h4⟩
      · left; refine ⟨h1, ?_⟩
        rw [h2]; dsimp only
        rw [loop_other r F L _ _ hn.1, Dict.get?_set, if_pos rfl]
      · right
        refine ⟨c, by simp [h1], h3, ?_, ?_⟩
        · intro o ho hoF
          rw [h1] at ho hs
          rcases List.mem_append.1 ho with ho | ho
          · exact absurd hoF (h2 o ho)
          · rcases List.mem_cons.1 ho with rfl | ho
            · exact (strLe_iff _ _).2 (.inl rfl)
            · exact (List.pairwise_cons.1 (List.pairwise_append.1 hs).2.1).1 o ho
        · rw [h4]; dsimp only
          rw [loop_other r F L _ _ hn.1, Dict.get?_set, if_pos rfl]
    · have hGL : G ∈ L := (List.mem_cons.1 hG).resolve_left (fun h => hFG h.symm)
      rcases pickType_spec F ots with ⟨h1, h2⟩ | ⟨a, c, b, h1, h2, h3, h4⟩
      · rw [h2]; dsimp only
        exact ih ots _ hn.2 hdisL hs hGL
      · rw [h4]; dsimp only
        have hcG : c ∉ G := fun h => hFG (hdis F (by simp) G (by simp [hGL]) c h3 h)
        have hs' : (a ++ b).Pairwise (fun a b => strLe a b = true) := by
          rw [h1] at hs
          refine hs.sublist ?_
          exact List.Sublist.append (List.Sublist.refl _) (List.sublist_cons_self _ _)
        have hmem : ∀ o, o ∈ G → (o ∈ ots ↔ o ∈ a ++ b) := by
          intro o ho
          rw [h1]
          simp only [List.mem_append, List.mem_cons]
          constructor
          · rintro (h | rfl | h)
            · exact .inl h
            · exact absurd ho hcG
            · exact .inr h
          · rintro (h | h)
            · exact .inl h
            · exact .inr (.inr h)
        rcases ih (a ++ b) ((d.set F none).set F (r.get? c)) hn.2 hdisL hs' hGL with ⟨h5, h6⟩ | ⟨e, h5, h6, h7, h8⟩
        · left; exact ⟨fun o ho hoG => h5 o ((hmem o hoG).1 ho) hoG, h6⟩
        · right; exact ⟨e, (hmem e h6).2 h5, h6, fun o ho hoG => h7 o ((hmem o hoG).1 ho) hoG, h8⟩

private theorem obs_nodup : Lbl.OBS_TYPE_LABELS.Nodup := by decide +kernel

private theorem obs_disjoint : ∀ F ∈ Lbl.OBS_TYPE_LABELS, ∀ H ∈ Lbl.OBS_TYPE_LABELS, ∀ s, s ∈ F → s ∈ H → F = H := by
  intro F hF H hH s h1 h2
  obtain ⟨n, hn⟩ := mem_labels F (List.mem_append_left _ hF)
  obtain ⟨m, hm⟩ := mem_labels H (List.mem_append_left _ hH)
  have := C40_disjoint n m s ((C40_members n F hn s).1 h1) ((C40_members m H hm s).1 h2)
  subst this
  have := named_inj _ hn _ hm rfl
  cases this; rfl

/-- The observation families are those of all names except the loss-of-lock ones. -/
theorem C41_families (n : Str) (F : Fam) (h : (n, F) ∈ named) :
    F ∈ Lbl.OBS_TYPE_LABELS ↔ n.length = 2 := by
  have : ∀ p ∈ named, p.2 ∈ Lbl.OBS_TYPE_LABELS ↔ p.1.length = 2 := by decide +kernel
  exact this _ h

/-- For every record (codes with their values) and every observation family: if no code of the family is in the record, the family has no
value; otherwise it has the value of the alphabetically first of its codes in the record. -/
theorem C41_choice {α : Type} (r : Dict Str α) (n : Str) (F : Fam)
    (hF : (n, F) ∈ named) (hobs : n.length = 2) :
    ((∀ c ∈ r.keys, ¬ Member n c) ∧ (parseRec r).get? F = some none) ∨
    ∃ c v, r.get? c = some v ∧ Member n c ∧ (∀ c' ∈ r.keys, Member n c' → c' = c ∨ Before c c') ∧
      (parseRec r).get? F = some (some v) := by
  have hFm := (C41_families n F hF).2 hobs
  have hm := C40_members n F hF
  rcases loop_spec r F Lbl.OBS_TYPE_LABELS (sortStr r.keys) [] obs_nodup obs_disjoint (sorted_sortStr _) hFm with
    ⟨h1, h2⟩ | ⟨c, h1, h2, h3, h4⟩
  · left
    exact ⟨fun c hc hmc => h1 c ((mem_sortStr _ _).2 hc) ((hm c).2 hmc), h2⟩
  · right
    have hck := (mem_sortStr _ _).1 h1
    obtain ⟨v, hv⟩ := Option.isSome_iff_exists.1 ((Dict.get?_isSome_iff r c).2 hck)
    refine ⟨c, v, hv, (hm c).1 h2, ?_, by rw [← hv]; exact h4⟩
    intro c' hc' hmc'
    rcases (strLe_iff _ _).1 (h3 c' ((mem_sortStr _ _).2 hc') ((hm c').2 hmc')) with h | h
    · exact .inl h.symm
    · exact .inr h

theorem strLe_antisymm (a b : Str) (h1 : strLe a b = true) (h2 : strLe b a = true) : a = b := by
  induction a generalizing b with
  | nil => cases b with
    | nil => rfl
    | cons => simp [strLe] at h2
  | cons x a ih =>
    cases b with
    | nil => simp [strLe] at h1
    | cons y b =>
      simp only [strLe] at h1 h2
      split at h1
      · rw [if_neg (by omega), if_pos (by assumption)] at h2; simp at h2
      · split at h1
        · simp at h1
        · rw [if_neg (by assumption), if_neg (by assumption)] at h2
          have hxy : x = y := Char.ext (UInt32.toNat_inj.1 (by change x.toNat = y.toNat; omega))
          rw [hxy, ih b h1 h2]

/-- The order of the codes in the record has no influence: two records with the same values give the same result for every family. -/
theorem C41_order {α : Type} (r1 r2 : Dict Str α) (h : ∀ c, r1.get? c = r2.get? c)
    (n : Str) (F : Fam) (hF : (n, F) ∈ named) (hobs : n.length = 2) :
    (parseRec r1).get? F = (parseRec r2).get? F := by
  have hk : ∀ c, c ∈ r1.keys ↔ c ∈ r2.keys := by
    intro c; rw [← Dict.get?_isSome_iff, ← Dict.get?_isSome_iff, h]
  rcases C41_choice r1 n F hF hobs with ⟨a1, a2⟩ | ⟨c, v, a1, a2, a3, a4⟩ <;>
  rcases C41_choice r2 n F hF hobs with ⟨b1, b2⟩ | ⟨d, w, b1, b2, b3, b4⟩
  · rw [a2, b2]
  · have : d ∈ r2.keys := (Dict.get?_isSome_iff _ _).1 (by rw [b1]; rfl)
    exact absurd b2 (a1 d ((hk d).2 this))
  · have : c ∈ r1.keys := (Dict.get?_isSome_iff _ _).1 (by rw [a1]; rfl)
    exact absurd a2 (b1 c ((hk c).1 this))
  · have hd : d ∈ r2.keys := (Dict.get?_isSome_iff _ _).1 (by rw [b1]; rfl)
    have hc : c ∈ r1.keys := (Dict.get?_isSome_iff _ _).1 (by rw [a1]; rfl)
    have h1 := (strLe_iff c d).2 ((a3 d ((hk d).2 hd) b2).imp Eq.symm id)
    have h2 := (strLe_iff d c).2 ((b3 c ((hk c).1 hc) a2).imp Eq.symm id)
    have := strLe_antisymm c d h1 h2
    subst this
    rw [h, b1] at a1
    cases a1
    rw [a4, b4]

/-- example: `C1C` is chosen for family C1 although `C1X` comes first in the record; P1 gets `C1W`; L1 has none -/
theorem C41_example :
    let r : Dict Str Nat := [(c% "C1X", 1), (c% "C1W", 2), (c% "C1C", 3)]
    (parseRec r).get? Lbl.C1 = some (some 3) ∧ (parseRec r).get? Lbl.P1 = some (some 2) ∧ (parseRec r).get? Lbl.L1 = some none := by
  decide

end Verif.Props
