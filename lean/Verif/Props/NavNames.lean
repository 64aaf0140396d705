import Verif.Spec.NavNames
import Verif.Model.NmUtils
import Verif.Props.ObsNames
import Verif.Props.FileDate
/-!
# Names of navigation files and search order (C35, C36)
-/
namespace Verif.Props
open Verif.Py Verif.Spec Verif.Model Verif.Proofs

theorem digitsVal_eq (s : Str) : digitsVal s = decVal s := rfl

theorem zfill3 {n : Nat} (h : n < 1000) : zfill 3 (natStr n) = dig3 n := by
  have hd : Digits 3 (zfill 3 (natStr n)) := by
    refine ⟨?_, zfill_digits (natStr_digits n)⟩
    have := natStr_length_le (k := 3) (by omega) (n := n) (by omega)
    simp [zfill]; omega
  obtain ⟨m, hm, e⟩ := dig3_of hd
  have := congrArg digitsVal e
  rw [digitsVal_dig3 hm, digitsVal_eq, decVal_zfill, decVal_natStr] at this
  rw [e, this]

theorem zfill2 {n : Nat} (h : n < 100) : zfill 2 (natStr n) = dig2 n := by
  have hd : Digits 2 (zfill 2 (natStr n)) := by
    refine ⟨?_, zfill_digits (natStr_digits n)⟩
    have := natStr_length_le (k := 2) (by omega) (n := n) (by omega)
    simp [zfill]; omega
  obtain ⟨m, hm, e⟩ := dig2_of hd
  have := congrArg digitsVal e
  rw [digitsVal_dig2 hm, digitsVal_eq, decVal_zfill, decVal_natStr] at this
  rw [e, this]

theorem natStr4 {n : Nat} (h0 : 1000 ≤ n) (h : n < 10000) : natStr n = dig4 n := by
  have hd : Digits 4 (natStr n) := by
    refine ⟨?_, natStr_digits n⟩
    rw [natStr_ge (by omega), natStr_ge (by omega), natStr_ge (by omega), natStr_lt (by omega)]; rfl
  obtain ⟨m, hm, e⟩ := dig4_of hd
  have := congrArg digitsVal e
  rw [digitsVal_dig4 hm, digitsVal_eq, decVal_natStr] at this
  rw [e, this]

theorem yday_eq {t : DateTime} (h : Legal t) : yday t = doy t ∧ 1 ≤ doy t ∧ doy t ≤ 366 := by
  obtain ⟨h1, h2, h3, h4, h5, h6⟩ := (legalDate_iff _ _ _).1 h.1
  have hs := monthDays_sum t.year t.month h3 h4
  have hd := doy_le t.year t.month t.day ⟨h1, h2, h3, h4, h5, h6⟩
  unfold yday ymd2ord doy
  rw [hs]
  refine ⟨by omega, by omega, ?_⟩
  revert hd; split <;> omega

theorem navId_iff (system l : Char) : navId system = some l ↔ NavLetter system l := by
  unfold navId
  constructor
  · intro h
    split at h
    · subst_vars; cases h; exact .gps
    split at h
    · subst_vars; cases h; exact .glonass
    split at h
    · subst_vars; cases h; exact .sbas
    split at h
    · subst_vars; cases h; exact .galileo
    split at h
    · subst_vars; cases h; exact .mixed
    cases h
  · rintro (_ | _ | _ | _ | _) <;> rfl

theorem words_append {j k : Nat} {a b : Str} (ha : Words j a) (hb : Words k b) : Words (j + k) (a ++ b) := by
  refine ⟨by simp [ha.1, hb.1], ?_⟩
  intro c hc
  rcases List.mem_append.1 hc with h | h
  · exact ha.2 c h
  · exact hb.2 c h

theorem words_split {j k : Nat} {a : Str} (h : Words (j + k) a) : ∃ b c, a = b ++ c ∧ Words j b ∧ Words k c := by
  refine ⟨a.take j, a.drop j, (List.take_append_drop j a).symm, ⟨?_, ?_⟩, ⟨?_, ?_⟩⟩
  · rw [List.length_take, h.1]; omega
  · exact fun c hc => h.2 c (List.mem_of_mem_take hc)
  · rw [List.length_drop, h.1]; omega
  · exact fun c hc => h.2 c (List.mem_of_mem_drop hc)

theorem sameCI_dig {a b : Str} (hb : ∀ c ∈ b, isDigit c = true) : lower a = lower b ↔ a = b := sameCI_digits hb

theorem classicNav_accepts (name : Str) (t : DateTime) (l : Char) (ht : Legal t) (hl : lowerC l = l) :
    (reClassicNav t l).accepts name = true ↔
      ∃ station session letter rest, name = station ++ dig3 (doy t) ++ session :: '.' :: dig2 (t.year % 100) ++ letter :: rest ∧
        Words 4 station ∧ isWord session = true ∧ lowerC letter = l := by
  obtain ⟨e1, e2, e3⟩ := yday_eq ht
  have hj : strfJ t = dig3 (doy t) := by unfold strfJ; rw [e1, zfill3 (by omega)]
  have hy : strfy t = dig2 (t.year % 100) := by unfold strfy; rw [zfill2 (by omega)]
  rw [Re.accepts_iff]
  simp only [reClassicNav, reSeq, Re.ex_seq, Re.ex_grp, reW, Re.ex_rep, Re.ex_lit, Re.ex_chr, Re.ex_c, Re.ex_eps, lowerC_dot, hj, hy,
    sameCI_dig (dig3_digits _).2, sameCI_dig (dig2_digits _).2, hl]
  constructor
  · rintro ⟨st, u, rfl, h1, h2, d, u, rfl, rfl, c, u, rfl, h3, c', u, rfl, rfl, y, u, rfl, rfl, l', u, rfl, h4, -⟩
    exact ⟨st, c, l', u, by simp, ⟨h1, h2⟩, h3, h4⟩
  · rintro ⟨st, c, l', u, rfl, ⟨h1, h2⟩, h3, h4⟩
    exact ⟨st, _, by simp only [List.append_assoc, List.cons_append], h1, h2, _, _, rfl, rfl, c, _, rfl, h3, '.', _, rfl, rfl, _, _, rfl, rfl, l', u, rfl, h4, trivial⟩

theorem modernNav_accepts (name : Str) (t : DateTime) (system : Char) (ht : Legal t) (h0 : 1000 ≤ t.year) :
    (reModernNav t system).accepts name = true ↔ LongNav name system t := by
  obtain ⟨e1, e2, e3⟩ := yday_eq ht
  obtain ⟨b1, b2, -⟩ := (legalDate_iff _ _ _).1 ht.1
  have hj : strfJ t = dig3 (doy t) := by unfold strfJ; rw [e1, zfill3 (by omega)]
  have hy : strfY t = dig4 t.year := by unfold strfY; rw [natStr4 h0 (by omega)]
  rw [Re.accepts_iff]
  simp only [reModernNav, reSeq, Re.ex_seq, Re.ex_grp, reW, reD, Re.ex_rep, Re.ex_lit, Re.ex_chr, Re.ex_c, Re.ex_opt, Re.ex_eps, lowerC_dot,
    lowerC_us, hj, hy, sameCI_dig (dig3_digits _).2, sameCI_dig (dig4_digits _).2, show lowerC 'N' = 'n' by decide,
    show lowerC 'r' = 'r' by decide, show lowerC 'n' = 'n' by decide, show lowerC 'x' = 'x' by decide]
  unfold LongNav
  constructor
  · rintro ⟨st, u, rfl, h1, h2, mo, u, rfl, h3, h4, c1, u, rfl, rfl, src, u, rfl, h5, c2, u, rfl, rfl, y, u, rfl, rfl, d, u, rfl, rfl,
      tm, u, rfl, h6, h7, c3, u, rfl, rfl, p, u, rfl, h8, h9, hf⟩
    have fin : ∀ (freq : Str), (freq = [] ∨ ∃ f, freq = '_' :: f ∧ Words 3 f) → ∀ (c : Char) (u : Str), c = '_' → ∀ s u', u = s :: u' → lowerC s = lowerC system →
        ∀ n u'', u' = n :: u'' → lowerC n = 'n' → ∀ dd u3, u'' = dd :: u3 → dd = '.' → ∀ r u4, u3 = r :: u4 → lowerC r = 'r' →
        ∀ n2 u5, u4 = n2 :: u5 → lowerC n2 = 'n' → ∀ x u6, u5 = x :: u6 → lowerC x = 'x' →
        ∃ site source time period freq' s n ext rest, st ++ (mo ++ '_' :: src :: '_' :: (dig4 t.year ++ (dig3 (doy t) ++ (tm ++ '_' :: (p ++ (freq ++ c :: u)))))) =
          site ++ '_' :: source :: '_' :: dig4 t.year ++ dig3 (doy t) ++ time ++ '_' :: period ++ freq' ++ '_' :: s :: n :: '.' :: ext ++ rest ∧
          Words 9 site ∧ isWord source = true ∧ Digits 4 time ∧ Words 3 period ∧ (freq' = [] ∨ ∃ f, freq' = '_' :: f ∧ Words 3 f) ∧
          lowerC s = lowerC system ∧ lowerC n = 'n' ∧ SameCI ext (c% "rnx") := by
      rintro freq hf c u rfl s u' rfl hs n u'' rfl hn dd u3 rfl rfl r u4 rfl hr n2 u5 rfl hn2 x u6 rfl hx
      refine ⟨st ++ mo, src, tm, p, freq, s, n, [r, n2, x], u6, by simp, words_append (j := 4) (k := 5) ⟨h1, h2⟩ ⟨h3, h4⟩, h5, ⟨h6, h7⟩, ⟨h8, h9⟩, hf, hs, hn, ?_⟩
      simp [SameCI, lower, hr, hn2, hx]; decide
    rcases hf with ⟨c, u, rfl, rfl, f, u, rfl, hf1, hf2, c5, u, rfl, e5, s, u', rfl, hs, n, u'', rfl, hn, dd, u3, rfl, e6, r, u4, rfl, hr, n2, u5, rfl, hn2, x, u6, rfl, hx, -⟩ |
      ⟨c5, u, rfl, e5, s, u', rfl, hs, n, u'', rfl, hn, dd, u3, rfl, e6, r, u4, rfl, hr, n2, u5, rfl, hn2, x, u6, rfl, hx, -⟩
    · have := fin ('_' :: f) (Or.inr ⟨f, rfl, hf1, hf2⟩) c5 _ e5 s _ rfl hs n _ rfl hn dd _ rfl e6 r _ rfl hr n2 _ rfl hn2 x u6 rfl hx
      simpa using this
    · have := fin [] (Or.inl rfl) c5 _ e5 s _ rfl hs n _ rfl hn dd _ rfl e6 r _ rfl hr n2 _ rfl hn2 x u6 rfl hx
      simpa using this
  · rintro ⟨site, src, tm, p, freq, s, n, ext, rest, rfl, h1, h2, h3, h4, hf, hs, hn, he⟩
    obtain ⟨st, mo, rfl, h5, h6⟩ := words_split (j := 4) (k := 5) h1
    have hl : ext.length = 3 := by have := congrArg List.length he; simpa [lower] using this
    match ext, hl with
    | [r, n2, x], _ =>
    simp only [SameCI, lower, List.map_cons, List.map_nil, List.cons.injEq, and_true] at he
    obtain ⟨hr, hn2, hx'⟩ := he
    refine ⟨st, _, by simp only [List.append_assoc, List.cons_append]; rfl, h5.1, h5.2, mo, _, rfl, h6.1, h6.2, '_', _, rfl, rfl, src, _, rfl, h2, '_', _, rfl, rfl, _, _, rfl, rfl, _, _, rfl, rfl,
      tm, _, rfl, h3.1, h3.2, '_', _, rfl, rfl, p, _, rfl, h4.1, h4.2, ?_⟩
    rcases hf with rfl | ⟨f, rfl, hf⟩
    · exact Or.inr ⟨'_', _, rfl, rfl, s, _, rfl, hs, n, _, rfl, hn, '.', _, rfl, rfl, r, _, rfl, by rw [hr]; decide, n2, _, rfl, by rw [hn2]; decide, x, rest, rfl, by rw [hx']; decide, trivial⟩
    · exact Or.inl ⟨'_', _, rfl, rfl, f, _, rfl, hf.1, hf.2, '_', _, rfl, rfl, s, _, rfl, hs, n, _, rfl, hn, '.', _, rfl, rfl, r, _, rfl, by rw [hr]; decide, n2, _, rfl, by rw [hn2]; decide, x, rest, rfl, by rw [hx']; decide, trivial⟩

theorem accepts_alt (a b : Re) (s : Str) : (Re.alt a b).accepts s = true ↔ a.accepts s = true ∨ b.accepts s = true := by
  rw [Re.accepts_iff, Re.accepts_iff, Re.accepts_iff, Re.ex_alt]

/-- C36: the pattern of a system and a day accepts exactly the classic and the long names of navigation files of that system and
that day (in any case, with any suffix). -/
theorem C36_names (name : Str) (system : Char) (t : DateTime) (ht : Legal t) (h0 : 1000 ≤ t.year) :
    (composeNavRe system t).accepts name = true ↔ NavName name system t := by
  unfold composeNavRe NavName
  cases hi : navId system with
  | none =>
    simp only
    rw [modernNav_accepts name t system ht h0]
    constructor
    · exact Or.inr
    · rintro (⟨_, _, _, _, l, -, -, -, hl, -⟩ | h)
      · rw [(navId_iff _ _).2 hl] at hi; cases hi
      · exact h
  | some l =>
    simp only
    have hl := (navId_iff _ _).1 hi
    have hll : lowerC l = l := by cases hl <;> decide
    rw [accepts_alt, modernNav_accepts name t system ht h0, classicNav_accepts name t l ht hll]
    unfold ClassicNav
    constructor
    · rintro (⟨st, se, le, re, h1, h2, h3, h4⟩ | h)
      · exact Or.inl ⟨st, se, le, re, l, h1, h2, h3, hl, h4⟩
      · exact Or.inr h
    · rintro (⟨st, se, le, re, l', h1, h2, h3, h4, h5⟩ | h)
      · rw [(navId_iff _ _).2 h4] at hi; cases hi
        exact Or.inl ⟨st, se, le, re, h1, h2, h3, h5⟩
      · exact Or.inr h

/-- C36: a file is never taken for another day or for another system. -/
theorem C36_exclusive (name : Str) (s1 s2 : Char) (t1 t2 : DateTime) (h1 : Legal t1) (h2 : Legal t2) (hy1 : 1000 ≤ t1.year)
    (hy2 : 1000 ≤ t2.year) (a1 : (composeNavRe s1 t1).accepts name = true) (a2 : (composeNavRe s2 t2).accepts name = true) :
    doy t1 = doy t2 ∧ t1.year % 100 = t2.year % 100 ∧ lowerC s1 = lowerC s2 := by
  rw [C36_names _ _ _ h1 hy1] at a1
  rw [C36_names _ _ _ h2 hy2] at a2
  obtain ⟨-, b1, b2⟩ := yday_eq h1
  obtain ⟨-, b3, b4⟩ := yday_eq h2
  obtain ⟨-, b5, -⟩ := (legalDate_iff _ _ _).1 h1.1
  obtain ⟨-, b6, -⟩ := (legalDate_iff _ _ _).1 h2.1
  have mix : ∀ {s1 s2 : Char} {t1 t2 : DateTime}, ClassicNav name s1 t1 → LongNav name s2 t2 → False := by
    rintro s1 s2 t1 t2 ⟨st, se, le, re, l, e1, ⟨c1, -⟩, -⟩ ⟨site, src, tm, p, fr, s, n, ext, rest, e2, ⟨c2, c3⟩, -⟩
    have g1 : name[8]? = some '.' := by
      rw [e1]
      have : (st ++ dig3 (doy t1) ++ [se]).length = 8 := by simp [c1, dig3, dig2]
      rw [show st ++ dig3 (doy t1) ++ se :: '.' :: dig2 (t1.year % 100) ++ le :: re = (st ++ dig3 (doy t1) ++ [se]) ++ ('.' :: dig2 (t1.year % 100) ++ le :: re) by simp,
        List.getElem?_append_right (by omega), this]; rfl
    have g2 : ∃ c, name[8]? = some c ∧ c ∈ site := by
      have : 8 < site.length := by omega
      refine ⟨site[8], ?_, List.getElem_mem this⟩
      rw [e2]
      simp only [List.append_assoc]
      rw [List.getElem?_append_left this, List.getElem?_eq_getElem this]
    obtain ⟨c, g3, g4⟩ := g2
    rw [g1] at g3; cases g3
    exact absurd (c3 _ g4) (by decide)
  rcases a1 with a1 | a1 <;> rcases a2 with a2 | a2
  · obtain ⟨st, se, le, re, l, e1, ⟨c1, -⟩, -, l1, l2⟩ := a1
    obtain ⟨st', se', le', re', l', e2, ⟨c2, -⟩, -, l3, l4⟩ := a2
    rw [e1] at e2
    simp only [List.append_assoc, List.cons_append] at e2
    obtain ⟨-, e3⟩ := append_split (by omega) e2
    obtain ⟨e4, e5⟩ := append_split (by simp [dig3, dig2]) e3
    simp only [List.cons.injEq, true_and] at e5
    obtain ⟨e6, e7⟩ := append_split (by simp [dig2]) e5.2
    simp only [List.cons.injEq] at e7
    refine ⟨dig3_inj (by omega) (by omega) e4, dig2_inj (by omega) (by omega) e6, ?_⟩
    have : l = l' := by rw [← l2, ← l4, e7.1]
    subst this
    cases l1 <;> cases l3 <;> rfl
  · exact absurd a2 (fun h => mix a1 h)
  · exact absurd a1 (fun h => mix a2 h)
  · obtain ⟨site, src, tm, p, fr, s, n, ext, rest, e1, ⟨c1, -⟩, -, ⟨c2, -⟩, ⟨c3, -⟩, hf, hs, hn, -⟩ := a1
    obtain ⟨site', src', tm', p', fr', s', n', ext', rest', e2, ⟨c1', -⟩, -, ⟨c2', -⟩, ⟨c3', -⟩, hf', hs', hn', -⟩ := a2
    rw [e1] at e2
    simp only [List.append_assoc, List.cons_append] at e2
    obtain ⟨-, e3⟩ := append_split (by omega) e2
    simp only [List.cons.injEq, true_and] at e3
    obtain ⟨e4, e5⟩ := append_split (by simp [dig4, dig3, dig2]) e3.2
    obtain ⟨e6, e7⟩ := append_split (by simp [dig3, dig2]) e5
    obtain ⟨-, e8⟩ := append_split (by omega) e7
    simp only [List.cons.injEq, true_and] at e8
    obtain ⟨-, e9⟩ := append_split (by omega) e8
    refine ⟨dig3_inj (by omega) (by omega) e6, by rw [dig4_inj (by omega) (by omega) e4], ?_⟩
    rw [← hs, ← hs']
    rcases hf with rfl | ⟨f, rfl, ⟨f1, f2⟩⟩ <;> rcases hf' with rfl | ⟨f', rfl, ⟨f1', f2'⟩⟩
    · simp at e9; rw [e9.1]
    · match f', f1' with
      | [x, y, z], _ =>
        simp at e9
        obtain ⟨-, -, rfl, -⟩ := e9
        exact absurd (f2' '.' (by simp)) (by decide)
    · match f, f1 with
      | [x, y, z], _ =>
        simp at e9
        obtain ⟨-, -, rfl, -⟩ := e9
        exact absurd (f2 '.' (by simp)) (by decide)
    · simp only [List.cons_append, List.cons.injEq, true_and] at e9
      obtain ⟨-, e10⟩ := append_split (by omega) e9
      simp at e10; rw [e10.1]

example : (composeNavRe 'G' ⟨2014, 3, 1, 0, 0, 0, 0⟩).accepts (c% "brdc0600.14n.Z") = true ∧
    (composeNavRe 'E' ⟨2014, 3, 1, 0, 0, 0, 0⟩).accepts (c% "BRDC00IGS_R_20140600000_01D_EN.rnx.gz") = true ∧
    (composeNavRe 'G' ⟨2014, 3, 2, 0, 0, 0, 0⟩).accepts (c% "brdc0600.14n.Z") = false := by decide +kernel

/-! ## Search order -/

theorem searchCI_iff (q f : Str) : searchCI q f = true ↔ Occurs q f := by
  unfold searchCI Occurs SameCI
  rw [contains_iff]
  constructor
  · rintro ⟨a, b, h⟩
    unfold lower at h
    obtain ⟨x, y, rfl, hx, hy⟩ := List.map_eq_append_iff.1 h
    obtain ⟨x1, x2, rfl, h1, h2⟩ := List.map_eq_append_iff.1 hx
    exact ⟨x1, x2, y, rfl, h2⟩
  · rintro ⟨a, m, b, rfl, h⟩
    refine ⟨lower a, lower b, ?_⟩
    rw [← h]; simp [lower]

theorem getPriorFile_iff (files priority : List Str) (f : Str) :
    getPriorFile files priority = some f ↔ Preferred files priority f := by
  cases files with
  | nil =>
    simp only [getPriorFile, Preferred, reduceCtorEq, false_iff]
    rintro (⟨_, _, _, -, -, a, b, h, -⟩ | ⟨-, b, h⟩) <;> simp at h
  | cons g gs =>
    induction priority with
    | nil => 
      simp only [getPriorFile, Preferred, Option.some.injEq]
      constructor
      · rintro rfl; exact Or.inr ⟨by simp, gs, rfl⟩
      · rintro (⟨_, _, _, h, -⟩ | ⟨-, b, h⟩)
        · simp at h
        · simp at h; exact h.1
    | cons q qs ih =>
      rw [getPriorFile]
      cases hf : (g :: gs).find? (searchCI q) with
      | some x =>
        simp only [Option.some.injEq]
        rw [List.find?_eq_some_iff_append] at hf
        obtain ⟨h1, as, bs, h2, h3⟩ := hf
        have h1' := (searchCI_iff _ _).1 h1
        have h3' : ∀ y ∈ as, ¬ Occurs q y := by
          intro y hy ho
          have := h3 y hy
          rw [(searchCI_iff _ _).2 ho] at this; simp at this
        constructor
        · rintro rfl
          exact Or.inl ⟨[], q, qs, rfl, by simp, as, bs, h2, h1', h3'⟩
        · rintro (⟨before, q', after, e, hb, a, b, e2, ho, hn⟩ | ⟨hn, b, e⟩)
          · cases before with
            | nil =>
              simp only [List.nil_append, List.cons.injEq] at e
              obtain ⟨rfl, rfl⟩ := e
              rw [e2] at h2
              rcases List.append_eq_append_iff.1 h2 with ⟨c, rfl, e4⟩ | ⟨c, rfl, e4⟩
              · cases c with
                | nil => simp at e4; exact e4.1.symm
                | cons d c =>
                  simp at e4
                  exact absurd (e4.1 ▸ ho) (h3' d (by simp))
              · cases c with
                | nil => simp at e4; exact e4.1
                | cons d c =>
                  simp at e4
                  exact absurd (e4.1 ▸ h1') (hn d (by simp))
            | cons p before =>
              simp only [List.cons_append, List.cons.injEq] at e
              exact absurd h1' (by rw [e.1]; exact hb p (by simp) x (by rw [h2]; simp))
          · exact absurd h1' (hn q (by simp) x (by rw [h2]; simp))
      | none =>
        simp only
        rw [ih]
        have hno : ∀ y ∈ g :: gs, ¬ Occurs q y := by
          intro y hy ho
          rw [List.find?_eq_none] at hf
          exact hf y hy ((searchCI_iff _ _).2 ho)
        unfold Preferred
        constructor
        · rintro (⟨before, q', after, rfl, hb, r⟩ | ⟨hn, r⟩)
          · refine Or.inl ⟨q :: before, q', after, rfl, ?_, r⟩
            intro p hp
            rcases List.mem_cons.1 hp with rfl | hp
            · exact hno
            · exact hb p hp
          · refine Or.inr ⟨?_, r⟩
            intro p hp
            rcases List.mem_cons.1 hp with rfl | hp
            · exact hno
            · exact hn p hp
        · rintro (⟨before, q', after, e, hb, r⟩ | ⟨hn, r⟩)
          · cases before with
            | nil =>
              simp only [List.nil_append, List.cons.injEq] at e
              obtain ⟨rfl, rfl⟩ := e
              obtain ⟨a, b, e2, ho, -⟩ := r
              exact absurd ho (hno f (by rw [e2]; simp))
            | cons p before =>
              simp only [List.cons_append, List.cons.injEq] at e
              obtain ⟨-, rfl⟩ := e
              exact Or.inl ⟨before, q', after, rfl, fun p hp => hb p (by simp [hp]), r⟩
          · exact Or.inr ⟨fun p hp => hn p (by simp [hp]), r⟩

theorem findNavFiles_eq (dirs : List (Str × List Str)) (t : DateTime) (system : Char) (ht : Legal t) (h0 : 1000 ≤ t.year)
    (hd : ∀ d ∈ dirs, d.1 ≠ [] ∧ d.1.getLast? ≠ some '/') :
    findNavFiles dirs t system = navFiles dirs system t := by
  unfold findNavFiles findFiles navFiles
  rw [← List.flatMap_def]
  refine List.flatMap_congr ?_
  intro d hdm
  obtain ⟨h1, h2⟩ := hd d hdm
  have hj : joinPath d.1 = fun n => d.1 ++ '/' :: n := by
    funext n; unfold joinPath; rw [if_neg h1, if_neg h2]
  rw [hj]
  congr 1
  refine List.filter_congr ?_
  intro n _
  have := C36_names n system t ht h0
  by_cases hn : NavName n system t
  · rw [this.2 hn]; simp [hn]
  · rw [Bool.eq_false_iff.2 (fun h => hn (this.1 h))]; simp [hn]

/-- C35: the file that is loaded: the preferred one of the files of the system and the day, or of the mixed files of the day if
there is no file of the system; an error (`NMError`) if there is neither. -/
theorem C35_choice (dirs : List (Str × List Str)) (t : DateTime) (system : Char) (priority : List Str) (ht : Legal t) (h0 : 1000 ≤ t.year)
    (hd : ∀ d ∈ dirs, d.1 ≠ [] ∧ d.1.getLast? ≠ some '/') (f : Str) :
    (chooseNavFile dirs t system priority = .ok f ↔ Preferred (navCandidates dirs system t) priority f) ∧
    (navCandidates dirs system t = [] → chooseNavFile dirs t system priority = .error .nm) ∧
    (navCandidates dirs system t ≠ [] → ∃ g, chooseNavFile dirs t system priority = .ok g) := by
  unfold chooseNavFile navCandidates
  simp only [findNavFiles_eq dirs t _ ht h0 hd]
  have e : (if navFiles dirs system t = [] then navFiles dirs 'M' t else navFiles dirs system t) =
    (@ite _ (navFiles dirs system t = []) (Classical.propDecidable _) (navFiles dirs 'M' t) (navFiles dirs system t)) := by
    by_cases h : navFiles dirs system t = [] <;> simp [h]
  rw [e]
  generalize (@ite _ (navFiles dirs system t = []) (Classical.propDecidable _) (navFiles dirs 'M' t) (navFiles dirs system t)) = files
  cases files with
  | nil =>
    refine ⟨?_, by simp, by simp⟩
    simp only [reduceCtorEq, false_iff]
    rw [← getPriorFile_iff]; simp [getPriorFile]
  | cons g gs =>
    by_cases hp : priority = []
    · subst hp
      refine ⟨?_, by simp, fun _ => ⟨g, by simp⟩⟩
      rw [← getPriorFile_iff]
      simp [getPriorFile]
    · have hs : ∃ x, getPriorFile (g :: gs) priority = some x := by
        clear hp
        induction priority with
        | nil => exact ⟨g, rfl⟩
        | cons q qs ih =>
          rw [getPriorFile]
          cases (g :: gs).find? (searchCI q) with
          | some x => exact ⟨x, rfl⟩
          | none => exact ih
      obtain ⟨x, hx⟩ := hs
      rw [← getPriorFile_iff]
      simp [hp, hx]

/-- C35: what is returned: the contents of the chosen file, provided it has messages of the system. -/
theorem C35_load (navFile : Str → Except PyErr NavTable) (dirs : List (Str × List Str)) (t : DateTime) (system : Char) (priority : List Str)
    (ht : Legal t) (h0 : 1000 ≤ t.year) (hd : ∀ d ∈ dirs, d.1 ≠ [] ∧ d.1.getLast? ≠ some '/') (m : NavTable) :
    loadNavigationMessage navFile dirs t system priority = .ok m ↔
      ∃ f, Preferred (navCandidates dirs system t) priority f ∧ navFile f = .ok m ∧ ∃ s, m.get? system = some s := by
  unfold loadNavigationMessage
  cases hc : chooseNavFile dirs t system priority with
  | error e =>
    simp only [reduceCtorEq, false_iff]
    rintro ⟨f, hf, -⟩
    rw [← (C35_choice dirs t system priority ht h0 hd f).1, hc] at hf; cases hf
  | ok g =>
    simp only
    have hu : ∀ f, Preferred (navCandidates dirs system t) priority f ↔ g = f := by
      intro f; rw [← (C35_choice dirs t system priority ht h0 hd f).1, hc]; simp
    simp only [hu, exists_eq_left']
    cases hn : navFile g with
    | error e => simp
    | ok x =>
      simp only
      by_cases hg : x.has system = true
      · rw [if_pos hg]
        simp only [Except.ok.injEq]
        constructor
        · rintro rfl; exact ⟨rfl, Option.isSome_iff_exists.1 hg⟩
        · exact fun h => h.1
      · rw [if_neg hg]
        simp only [reduceCtorEq, Except.ok.injEq, false_iff]
        rintro ⟨rfl, s, hs⟩
        exact hg (by unfold Dict.has; rw [hs]; rfl)

/-- C35: a chosen file without messages of the system raises `NMError` (no other file is tried); an unreadable one raises its own
error. -/
theorem C35_failures (navFile : Str → Except PyErr NavTable) (dirs : List (Str × List Str)) (t : DateTime) (system : Char) (priority : List Str)
    (ht : Legal t) (h0 : 1000 ≤ t.year) (hd : ∀ d ∈ dirs, d.1 ≠ [] ∧ d.1.getLast? ≠ some '/') (f : Str)
    (hf : Preferred (navCandidates dirs system t) priority f) :
    (∀ m, navFile f = .ok m → m.get? system = none → loadNavigationMessage navFile dirs t system priority = .error .nm) ∧
    (∀ e, navFile f = .error e → loadNavigationMessage navFile dirs t system priority = .error e) := by
  rw [← (C35_choice dirs t system priority ht h0 hd f).1] at hf
  unfold loadNavigationMessage
  rw [hf]
  constructor
  · intro m h1 h2
    simp [h1, h2, Dict.has]
  · intro e h1
    simp [h1]

example : chooseNavFile [(c% "nav", [c% "brdc0600.14p", c% "irkj0600.14n", c% "novm0600.14n"])] ⟨2014, 3, 1, 0, 0, 0, 0⟩ 'G' [c% "algo", c% "NOVM"] =
    .ok (c% "nav/novm0600.14n") ∧
    chooseNavFile [(c% "nav", [c% "brdc0600.14p", c% "irkj0600.14n"])] ⟨2014, 3, 1, 0, 0, 0, 0⟩ 'R' [] = .ok (c% "nav/brdc0600.14p") := by
  decide +kernel

end Verif.Props
