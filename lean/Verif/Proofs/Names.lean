import Verif.Model.FUtils
import Verif.Spec.Names
import Verif.Proofs.Re
import Verif.Proofs.Num
/-!
# File names: the patterns
-/
namespace Verif.Proofs
open Verif.Py Verif.Spec Verif.Model

theorem lastComponent_basename (p : Str) : LastComponent p (basename p) := by
  induction p with
  | nil => exact ⟨by simp [basename], Or.inl rfl⟩
  | cons c cs ih =>
    unfold basename
    split
    · obtain ⟨h1, h2⟩ := ih
      refine ⟨h1, Or.inr ?_⟩
      rcases h2 with h2 | ⟨d, h2⟩
      · rename_i hm; rw [← h2] at h1; exact absurd hm h1
      · exact ⟨c :: d, by rw [List.cons_append, ← h2]⟩
    · rename_i hm
      split
      · rename_i hc; subst hc; exact ⟨hm, Or.inr ⟨[], rfl⟩⟩
      · rename_i hc
        refine ⟨?_, Or.inl rfl⟩
        simp only [List.mem_cons, not_or]
        exact ⟨fun h => hc h.symm, hm⟩

theorem basename_of_last {p n : Str} (h : LastComponent p n) : basename p = n := by
  obtain ⟨h1, rfl | ⟨d, rfl⟩⟩ := h
  · cases p with
    | nil => rfl
    | cons c cs =>
      simp only [List.mem_cons, not_or] at h1
      unfold basename
      rw [if_neg h1.2, if_neg (fun h => h1.1 h.symm)]
  · induction d with
    | nil => simp [basename, h1]
    | cons c d ih => 
      rw [List.cons_append, basename, if_pos (by simp), ih]


/-! ## numbers -/

theorem dig_isDigit (n : Nat) : isDigit (dig (n % 10)) = true := isDigit_ofNat (Nat.mod_lt _ (by decide))
theorem dig_val (n : Nat) : digitVal (dig (n % 10)) = n % 10 := digitVal_ofNat (Nat.mod_lt _ (by decide))

theorem digit_cases {c : Char} (h : isDigit c = true) : c = dig (digitVal c) ∧ digitVal c < 10 := by
  unfold isDigit at h
  simp only [Bool.and_eq_true, decide_eq_true_eq] at h
  unfold digitVal dig
  refine ⟨?_, by omega⟩
  rw [show 48 + (c.toNat - 48) = c.toNat by omega, Char.ofNat_toNat]

theorem dig2_digits (n : Nat) : Digits 2 (dig2 n) := by
  refine ⟨rfl, ?_⟩
  simp only [dig2, List.mem_cons, List.not_mem_nil, or_false]
  rintro c (rfl | rfl) <;> exact dig_isDigit _
theorem dig3_digits (n : Nat) : Digits 3 (dig3 n) := by
  refine ⟨rfl, ?_⟩
  simp only [dig3, List.mem_cons]
  rintro c (rfl | h)
  · exact dig_isDigit _
  · exact (dig2_digits n).2 c h
theorem dig4_digits (n : Nat) : Digits 4 (dig4 n) := by
  refine ⟨rfl, ?_⟩
  simp only [dig4, List.mem_cons]
  rintro c (rfl | h)
  · exact dig_isDigit _
  · exact (dig3_digits n).2 c h

theorem digitsVal_dig2 {n : Nat} (h : n < 100) : digitsVal (dig2 n) = n := by
  simp only [digitsVal, dig2, List.foldl_cons, List.foldl_nil, dig_val]; omega
theorem digitsVal_dig3 {n : Nat} (h : n < 1000) : digitsVal (dig3 n) = n := by
  simp only [digitsVal, dig3, dig2, List.foldl_cons, List.foldl_nil, dig_val]; omega
theorem digitsVal_dig4 {n : Nat} (h : n < 10000) : digitsVal (dig4 n) = n := by
  simp only [digitsVal, dig4, dig3, dig2, List.foldl_cons, List.foldl_nil, dig_val]; omega

theorem dig2_of {s : Str} (h : Digits 2 s) : ∃ n < 100, s = dig2 n := by
  obtain ⟨hl, hd⟩ := h
  match s, hl with
  | [a, b], _ =>
    obtain ⟨ea, la⟩ := digit_cases (hd a (by simp))
    obtain ⟨eb, lb⟩ := digit_cases (hd b (by simp))
    refine ⟨digitVal a * 10 + digitVal b, by omega, ?_⟩
    simp only [dig2]
    congr 1
    · rw [show (digitVal a * 10 + digitVal b) / 10 % 10 = digitVal a by omega]; exact ea
    congr 1
    · rw [show (digitVal a * 10 + digitVal b) % 10 = digitVal b by omega]; exact eb
theorem dig3_of {s : Str} (h : Digits 3 s) : ∃ n < 1000, s = dig3 n := by
  obtain ⟨hl, hd⟩ := h
  match s, hl with
  | a :: s, hl =>
    obtain ⟨ea, la⟩ := digit_cases (hd a (by simp))
    obtain ⟨n, hn, rfl⟩ := dig2_of (s := s) ⟨by simpa using hl, fun c hc => hd c (by simp [hc])⟩
    refine ⟨digitVal a * 100 + n, by omega, ?_⟩
    simp only [dig3, dig2]
    rw [show (digitVal a * 100 + n) / 100 % 10 = digitVal a by omega, ← ea,
      show (digitVal a * 100 + n) / 10 % 10 = n / 10 % 10 by omega, show (digitVal a * 100 + n) % 10 = n % 10 by omega]
theorem dig4_of {s : Str} (h : Digits 4 s) : ∃ n < 10000, s = dig4 n := by
  obtain ⟨hl, hd⟩ := h
  match s, hl with
  | a :: s, hl =>
    obtain ⟨ea, la⟩ := digit_cases (hd a (by simp))
    obtain ⟨n, hn, rfl⟩ := dig3_of (s := s) ⟨by simpa using hl, fun c hc => hd c (by simp [hc])⟩
    refine ⟨digitVal a * 1000 + n, by omega, ?_⟩
    simp only [dig4, dig3, dig2]
    rw [show (digitVal a * 1000 + n) / 1000 % 10 = digitVal a by omega, ← ea,
      show (digitVal a * 1000 + n) / 100 % 10 = n / 100 % 10 by omega,
      show (digitVal a * 1000 + n) / 10 % 10 = n / 10 % 10 by omega, show (digitVal a * 1000 + n) % 10 = n % 10 by omega]

/-! ## patterns -/

theorem ex_W13 (s : Str) (P : Hit → Prop) :
    reW13.Ex s P ↔ ∃ t u, s = t ++ u ∧ (Words 1 t ∨ Words 2 t ∨ Words 3 t) ∧ P ⟨t, u, []⟩ := by
  simp only [reW13, reSeq, Re.ex_seq, reW, Re.ex_chr, Re.ex_opt, Re.ex_eps, List.append_nil]
  constructor
  · rintro ⟨c, t, rfl, hc, ⟨c', t', rfl, hc', ⟨c'', t'', rfl, hc'', hP⟩ | hP⟩ | hP⟩
    · exact ⟨[c, c', c''], t'', rfl, Or.inr (Or.inr ⟨rfl, by simp [hc, hc', hc'']⟩), hP⟩
    · exact ⟨[c, c'], t', rfl, Or.inr (Or.inl ⟨rfl, by simp [hc, hc']⟩), hP⟩
    · exact ⟨[c], t, rfl, Or.inl ⟨rfl, by simp [hc]⟩, hP⟩
  · rintro ⟨t, u, rfl, ⟨hl, hw⟩ | ⟨hl, hw⟩ | ⟨hl, hw⟩, hP⟩
    · match t, hl with
      | [c], _ => exact ⟨c, u, rfl, hw c (by simp), Or.inr hP⟩
    · match t, hl with
      | [c, c'], _ => exact ⟨c, c' :: u, rfl, hw c (by simp), Or.inl ⟨c', u, rfl, hw c' (by simp), Or.inr hP⟩⟩
    · match t, hl with
      | [c, c', c''], _ =>
        exact ⟨c, c' :: c'' :: u, rfl, hw c (by simp), Or.inl ⟨c', c'' :: u, rfl, hw c' (by simp),
          Or.inl ⟨c'', u, rfl, hw c'' (by simp), hP⟩⟩⟩

theorem mem_classic (s : Str) (h : Hit) : h ∈ reClassic.run s ↔
    ∃ st d se y c t, s = st ++ (d ++ (se ++ '.' :: (y ++ c :: t))) ∧ Words 4 st ∧ Digits 3 d ∧
      (Words 1 se ∨ Words 2 se ∨ Words 3 se) ∧ Digits 2 y ∧ OneOf (c% "odnmglphbc") c ∧
      h = ⟨st ++ (d ++ (se ++ '.' :: (y ++ [c]))), t, [(1, st), (2, d), (3, y), (4, [c])]⟩ := by
  rw [Re.mem_run]
  simp only [reClassic, reSeq, Re.ex_seq, Re.ex_grp, ex_W13, reW, reD, Re.ex_rep, Re.ex_c, Re.ex_oneOf, Re.ex_eps,
    lowerC_dot, List.append_nil, List.nil_append, List.cons_append]
  constructor
  · rintro ⟨st, u, rfl, h1, h2, d, u, rfl, h3, h4, se, u, rfl, h5, c, u, rfl, rfl, y, u, rfl, h6, h7, c, u, rfl, h8, rfl⟩
    exact ⟨st, d, se, y, c, u, rfl, ⟨h1, h2⟩, ⟨h3, h4⟩, h5, ⟨h6, h7⟩, h8, rfl⟩
  · rintro ⟨st, d, se, y, c, u, rfl, ⟨h1, h2⟩, ⟨h3, h4⟩, h5, ⟨h6, h7⟩, h8, rfl⟩
    exact ⟨st, _, rfl, h1, h2, d, _, rfl, h3, h4, se, _, rfl, h5, _, _, rfl, rfl, y, _, rfl, h6, h7, c, u, rfl, h8, rfl⟩

theorem mem_modern (s : Str) (h : Hit) : h ∈ reModern.run s ↔
    ∃ st m c y d tm t, s = st ++ (m ++ '_' :: c :: '_' :: (y ++ (d ++ (tm ++ t)))) ∧ Words 4 st ∧ Words 5 m ∧
      OneOf (c% "RSU") c ∧ Digits 4 y ∧ Digits 3 d ∧ Digits 4 tm ∧
      h = ⟨st ++ (m ++ '_' :: c :: '_' :: (y ++ (d ++ tm))), t, [(1, st), (2, y), (3, d)]⟩ := by
  rw [Re.mem_run]
  simp only [reModern, reSeq, Re.ex_seq, Re.ex_grp, reW, reD, Re.ex_rep, Re.ex_c, Re.ex_oneOf, Re.ex_eps,
    lowerC_us, List.append_nil, List.nil_append, List.cons_append]
  constructor
  · rintro ⟨st, u, rfl, h1, h2, m, u, rfl, h3, h4, c, u, rfl, rfl, c, u, rfl, h5, c', u, rfl, rfl, y, u, rfl, h6, h7,
      d, u, rfl, h8, h9, tm, u, rfl, h10, h11, rfl⟩
    exact ⟨st, m, c, y, d, tm, u, rfl, ⟨h1, h2⟩, ⟨h3, h4⟩, h5, ⟨h6, h7⟩, ⟨h8, h9⟩, ⟨h10, h11⟩, rfl⟩
  · rintro ⟨st, m, c, y, d, tm, u, rfl, ⟨h1, h2⟩, ⟨h3, h4⟩, h5, ⟨h6, h7⟩, ⟨h8, h9⟩, ⟨h10, h11⟩, rfl⟩
    exact ⟨st, _, rfl, h1, h2, m, _, rfl, h3, h4, _, _, rfl, rfl, c, _, rfl, h5, _, _, rfl, rfl, y, _, rfl, h6, h7,
      d, _, rfl, h8, h9, tm, u, rfl, h10, h11, rfl⟩

/-- word characters up to the first dot are determined -/
theorem words_dot {a b u v : Str} (ha : ∀ c ∈ a, isWord c = true) (hb : ∀ c ∈ b, isWord c = true)
    (h : a ++ '.' :: u = b ++ '.' :: v) : a = b ∧ u = v := by
  induction a generalizing b with
  | nil =>
    cases b with
    | nil => simpa using h
    | cons c b =>
      simp only [List.nil_append, List.cons_append, List.cons.injEq] at h
      have := hb '.' (by rw [h.1]; simp)
      simp [isWord, isDigit] at this
  | cons c a ih =>
    cases b with
    | nil =>
      simp only [List.nil_append, List.cons_append, List.cons.injEq] at h
      have := ha '.' (by rw [← h.1]; simp)
      simp [isWord, isDigit] at this
    | cons d b =>
      simp only [List.cons_append, List.cons.injEq] at h
      obtain ⟨h1, h2⟩ := ih (fun c hc => ha c (by simp [hc])) (fun c hc => hb c (by simp [hc])) h.2
      exact ⟨by rw [h.1, h1], h2⟩

theorem words_all {s : Str} (h : Words 1 s ∨ Words 2 s ∨ Words 3 s) : ∀ c ∈ s, isWord c = true := by
  rcases h with h | h | h <;> exact h.2

theorem append_split {a b u v : Str} (hl : a.length = b.length) (h : a ++ u = b ++ v) : a = b ∧ u = v :=
  List.append_inj h hl

/-- the first hit of the classic pattern on a name of that shape -/
theorem classic_groups {name : Str} {h : Hit} (hm : h ∈ reClassic.run name) {st d se y c t}
    (hn : name = st ++ (d ++ (se ++ '.' :: (y ++ c :: t)))) (h1 : Words 4 st) (h2 : Digits 3 d)
    (h3 : Words 1 se ∨ Words 2 se ∨ Words 3 se) (h4 : Digits 2 y) :
    h.group 2 = d ∧ h.group 3 = y := by
  rw [mem_classic] at hm
  obtain ⟨st', d', se', y', c', t', e, g1, g2, g3, g4, g5, rfl⟩ := hm
  rw [hn] at e
  obtain ⟨rfl, e1⟩ := append_split (by rw [h1.1, g1.1]) e
  obtain ⟨rfl, e2⟩ := append_split (by rw [h2.1, g2.1]) e1
  obtain ⟨rfl, e3⟩ := words_dot (words_all h3) (words_all g3) e2
  obtain ⟨rfl, e4⟩ := append_split (by rw [h4.1, g4.1]) e3
  exact ⟨rfl, rfl⟩

theorem modern_groups {name : Str} {h : Hit} (hm : h ∈ reModern.run name) {st m c y d t}
    (hn : name = st ++ (m ++ '_' :: c :: '_' :: (y ++ (d ++ t)))) (h1 : Words 4 st) (h2 : Words 5 m)
    (h3 : Digits 4 y) (h4 : Digits 3 d) :
    h.group 2 = y ∧ h.group 3 = d := by
  rw [mem_modern] at hm
  obtain ⟨st', m', c', y', d', tm', t', e, g1, g2, g3, g4, g5, g6, rfl⟩ := hm
  rw [hn] at e
  obtain ⟨rfl, e1⟩ := append_split (by rw [h1.1, g1.1]) e
  obtain ⟨rfl, e2⟩ := append_split (by rw [h2.1, g2.1]) e1
  simp only [List.cons.injEq, true_and] at e2
  obtain ⟨rfl, e3⟩ := e2
  obtain ⟨rfl, e4⟩ := append_split (by rw [h3.1, g4.1]) e3
  obtain ⟨rfl, e5⟩ := append_split (by rw [h4.1, g5.1]) e4
  exact ⟨rfl, rfl⟩

theorem isWord_digit {c : Char} (h : isDigit c = true) : isWord c = true := by simp [isWord, h]

theorem notWord_dot : isWord '.' = false := by decide

/-- no name is both classic and long -/
theorem classic_not_modern {name : Str} (h : reClassic.accepts name = true) : reModern.accepts name = false := by
  rw [Bool.eq_false_iff]
  intro hc
  rw [Re.accepts_iff] at h hc
  obtain ⟨a, ha, -⟩ := h
  obtain ⟨b, hb, -⟩ := hc
  rw [mem_classic] at ha
  rw [mem_modern] at hb
  obtain ⟨st, d, se, y, c, t, e, g1, g2, g3, g4, g5, -⟩ := ha
  obtain ⟨st', m, c', y', d', tm, t', e', k1, k2, k3, -⟩ := hb
  rw [e] at e'
  obtain ⟨rfl, e1⟩ := append_split (by rw [g1.1, k1.1]) e'
  obtain ⟨gl, gd⟩ := g2
  obtain ⟨kl, kw⟩ := k2
  match d, gl, m, kl with
  | [d1, d2, d3], _, [m1, m2, m3, m4, m5], _ =>
    simp only [List.cons_append, List.nil_append, List.cons.injEq] at e1
    obtain ⟨-, -, -, e'⟩ := e1
    rcases g3 with ⟨sl, sw⟩ | ⟨sl, sw⟩ | ⟨sl, sw⟩
    · match se, sl with
      | [s1], _ =>
        simp only [List.cons_append, List.nil_append, List.cons.injEq] at e'
        have := kw m5 (by simp)
        rw [← e'.2.1] at this
        exact absurd this (by decide)
    · match se, sl with
      | [s1, s2], _ =>
        simp only [List.cons_append, List.nil_append, List.cons.injEq] at e'
        exact absurd e'.2.2.1 (by decide)
    · match se, sl with
      | [s1, s2, s3], _ =>
        simp only [List.cons_append, List.nil_append, List.cons.injEq] at e'
        obtain ⟨x, hx, hl⟩ := k3
        rw [← e'.2.2.2.1] at hl
        simp only [List.mem_cons, List.not_mem_nil, or_false] at hx
        rcases hx with rfl | rfl | rfl <;> exact absurd hl (by decide)

end Verif.Proofs
