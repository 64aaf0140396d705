import Verif.Spec.Header
import Verif.Proofs.Obs2Err
/-! # RINEX 2: the list of observation types -/
namespace Verif.Proofs
open Verif.Py Verif.Model Verif.Spec Verif.Props

/-- one column block of types -/
def typeCols (ts : List Str) : Str := (ts.map (padLeft 6)).flatten

theorem typeCols_length {ts : List Str} (h : ∀ t ∈ ts, t.length = 2) : (typeCols ts).length = 6 * ts.length := by
  induction ts with
  | nil => rfl
  | cons t ts ih =>
    have := ih (fun x hx => h x (by simp [hx]))
    have h2 := h t (by simp)
    simp only [typeCols, List.map_cons, List.flatten_cons, List.length_append, List.length_cons] at this ⊢
    rw [padLeft_length (by omega), this]; omega

theorem getOTypes_go {ts : List Str} (h : ∀ t ∈ ts, t.length = 2) (pre post : Str) :
    (List.range' pre.length ts.length 6).map (fun i =>
      let t := slice (pre ++ typeCols ts ++ post) i (i + 6)
      t.drop (t.length - 2)) = ts := by
  induction ts generalizing pre with
  | nil => rfl
  | cons t ts ih =>
    have h2 := h t (by simp)
    have hl : (padLeft 6 t).length = 6 := padLeft_length (by omega)
    simp only [List.length_cons, List.range'_succ, List.map_cons]
    have hs : slice (pre ++ typeCols (t :: ts) ++ post) pre.length (pre.length + 6) = padLeft 6 t := by
      rw [show pre ++ typeCols (t :: ts) ++ post = pre ++ padLeft 6 t ++ (typeCols ts ++ post) by simp [typeCols]]
      exact slice_exact rfl (by omega)
    rw [hs]
    have hd : (padLeft 6 t).drop ((padLeft 6 t).length - 2) = t := by
      rw [hl]; unfold padLeft; rw [h2]; exact List.drop_left' (by simp)
    have := ih (fun x hx => h x (by simp [hx])) (pre ++ padLeft 6 t)
    rw [List.length_append, hl] at this
    rw [show pre ++ padLeft 6 t ++ typeCols ts ++ post = pre ++ typeCols (t :: ts) ++ post by simp [typeCols]] at this
    rw [this]
    congr 1

theorem getOTypes_cols {ts : List Str} (h : ∀ t ∈ ts, t.length = 2) (post : Str) :
    getOTypes (typeCols ts ++ post) ts.length 6 = ts := by
  unfold getOTypes
  have e : pyRange 0 (ts.length * 6) 6 = List.range' 0 ts.length 6 := by
    rw [pyRange_eq_range']; congr 1; omega
  rw [e]
  have := getOTypes_go h [] post
  simpa using this

/-- the slice of a header line that holds the types -/
theorem hline_slice {a : Str} {ts : List Str} (ha : a.length = 6) (h : ∀ t ∈ ts, t.length = 2) (hn : ts.length ≤ 9)
    (lbl : Str) {b : Nat} (hb1 : 6 + 6 * ts.length ≤ b) (hb : b ≤ 60) :
    ∃ post, slice (hline (a ++ typeCols ts) lbl) 6 b = typeCols ts ++ post := by
  have hl := typeCols_length h
  refine ⟨List.replicate (b - (6 + 6 * ts.length)) ' ', ?_⟩
  unfold hline padRight
  rw [slice_append_left (by simp [ha, hl]; omega), List.append_assoc, slice_append_right (by omega), ha]
  unfold slice
  rw [List.drop_zero, List.take_append, List.take_of_length_le (by omega), List.take_replicate]
  congr 2
  simp [hl, ha]
  omega

theorem fullTypeLines_spec (pre post : List Str) (k : Nat) (cur : Nat) (css : List (List Str)) (others : List Str)
    (hc : css.length = k) (hlen : ∀ c ∈ css, c.length = 9 ∧ ∀ t ∈ c, t.length = 2)
    (mk : List Str → Str) (hmk : ∀ c, c.length = 9 → (∀ t ∈ c, t.length = 2) →
      ∃ p, slice (mk c) 6 60 = typeCols c ++ p) (lines : List Str) (hcur : lines.length = cur) :
    fullTypeLines (pre ++ (lines ++ css.map mk ++ others) ++ post) pre.length cur k = .ok css.flatten := by
  induction css generalizing k cur lines with
  | nil => simp at hc; subst hc; rfl
  | cons c css ih =>
    cases k with
    | zero => simp at hc
    | succ k =>
      have hget : (pre ++ (lines ++ (c :: css).map mk ++ others) ++ post)[pre.length + cur]? = some (mk c) := by
        rw [List.append_assoc, List.getElem?_append_right (by omega), show pre.length + cur - pre.length = cur by omega]
        rw [List.append_assoc, List.append_assoc, List.getElem?_append_right (by omega),
          show cur - lines.length = 0 by omega]
        rfl
      obtain ⟨h9, h2⟩ := hlen c (by simp)
      obtain ⟨p, hp⟩ := hmk c h9 h2
      simp only [fullTypeLines, hget]
      have hrest := ih k (cur + 1) (by simpa using hc) (fun d hd => hlen d (by simp [hd])) (lines ++ [mk c])
        (by simp [hcur])
      have e : lines ++ (c :: css).map mk ++ others = lines ++ [mk c] ++ css.map mk ++ others := by simp
      rw [e, hrest, hp]
      have := getOTypes_cols h2 p
      rw [h9] at this
      rw [ok_bind, this]
      simp [pure, Except.pure]

theorem findTypesLine_spec (pre post : List Str) (l : Str) (i : Nat)
    (hpre : ∀ x ∈ pre, contains (c% "# / TYPES OF OBSERV") x = false)
    (hl : contains (c% "# / TYPES OF OBSERV") l = true) :
    findTypesLine (pre ++ l :: post) i = some (i + pre.length, l) := by
  induction pre generalizing i with
  | nil => simp [findTypesLine, hl]
  | cons x pre ih =>
    simp only [List.cons_append, findTypesLine, hpre x (by simp), Bool.false_eq_true, if_false]
    rw [ih (i + 1) (fun y hy => hpre y (by simp [hy]))]
    simp; omega

theorem hline_contains (a lbl : Str) : contains lbl (hline a lbl) = true := by
  have := contains_of_append (padRight 60 a) lbl []
  simpa [hline] using this

/-- the first header line starts with the count -/
theorem hline_take6 {a : Str} (ha : a.length = 6) (r lbl : Str) : (hline (a ++ r) lbl).take 6 = a := by
  unfold hline padRight
  rw [List.append_assoc, List.append_assoc]
  exact List.take_left' ha

theorem padCount_length {n : Nat} (h : n < 1000000) : (padLeft 6 (natStr n)).length = 6 :=
  padLeft_length (natStr_length_le (by omega) (by omega))

/-- head and continuation of the written type lines, uniformly -/
theorem obsTypes_lines (pre post : List Str) (ts : List Str) (hpre : ∀ x ∈ pre, contains (c% "# / TYPES OF OBSERV") x = false)
    (ht : ∀ t ∈ ts, t.length = 2) (hn : ts.length < 1000000) :
    obsTypes (pre ++ typeLines ts ++ post) = .ok ts := by
  unfold typeLines
  generalize hlbl : (c% "# / TYPES OF OBSERV") = lbl at *
  have hc6 := padCount_length hn
  have hfind := findTypesLine_spec pre ((chunks 9 (ts.drop 9)).map (fun c =>
    hline (List.replicate 6 ' ' ++ (c.map (padLeft 6)).flatten) lbl) ++ post)
    (hline (padLeft 6 (natStr ts.length) ++ ((ts.take 9).map (padLeft 6)).flatten) lbl) 0
    (by rw [hlbl]; exact hpre) (by rw [hlbl]; exact hline_contains _ _)
  unfold obsTypes
  rw [List.append_assoc, List.cons_append, hfind]
  simp only [hline_take6 hc6, parseInt_padLeft_natStr]
  by_cases h9 : ts.length > 9
  · simp only [Nat.zero_add]
    -- split into full lines and the rest
    generalize hq : ts.length / 9 = q
    have hq1 : 1 ≤ q := by omega
    let A := ts.take (9 * q)
    let B := ts.drop (9 * q)
    have hAB : ts = A ++ B := (List.take_append_drop _ _).symm
    have hA : A.length = 9 * q := by simp [A]; omega
    have hB : B.length = ts.length % 9 := by simp [B]; omega
    have hdrop : ts.drop 9 = A.drop 9 ++ B := by
      conv => lhs; rw [hAB]
      rw [List.drop_append_of_le_length (by omega)]
    have htake : ts.take 9 = A.take 9 := by
      conv => lhs; rw [hAB]
      rw [List.take_append_of_le_length (by omega)]
    have hchunk : chunks 9 (ts.drop 9) = chunks 9 (A.drop 9) ++ chunks 9 B := by
      rw [hdrop]; exact chunks_append_full 9 (by omega) (q - 1) _ _ (by simp [hA]; omega)
    have hAne : A ≠ [] := by intro h; rw [h] at hA; simp at hA; omega
    have hcA : chunks 9 A = A.take 9 :: chunks 9 (A.drop 9) := chunks_cons 9 A (by omega) hAne
    have hfl : (chunks 9 A).flatten = A := chunks_flatten 9 A (by omega)
    have hall : ∀ k (l : List Str), l.length = 9 * k → (∀ t ∈ l, t.length = 2) →
        (chunks 9 l).length = k ∧ ∀ c ∈ chunks 9 l, c.length = 9 ∧ ∀ t ∈ c, t.length = 2 := by
      intro k
      induction k with
      | zero => intro l hl _; have : l = [] := List.length_eq_zero_iff.1 (by omega)
                subst this; simp [chunks_nil]
      | succ k ih =>
        intro l hl h2
        have hne : l ≠ [] := by rintro rfl; simp at hl
        rw [chunks_cons 9 l (by omega) hne]
        obtain ⟨i1, i2⟩ := ih (l.drop 9) (by simp [hl]; omega) (fun t ht => h2 t (List.mem_of_mem_drop ht))
        refine ⟨by simp [i1], ?_⟩
        intro c hc
        rcases List.mem_cons.1 hc with rfl | hc
        · exact ⟨by simp [hl], fun t ht => h2 t (List.mem_of_mem_take ht)⟩
        · exact i2 c hc
    have htA : ∀ t ∈ A, t.length = 2 := fun t h => ht t (List.mem_of_mem_take h)
    have htB : ∀ t ∈ B, t.length = 2 := fun t h => ht t (List.mem_of_mem_drop h)
    obtain ⟨hk, hcs⟩ := hall (q - 1) (A.drop 9) (by simp [hA]; omega) (fun t h => htA t (List.mem_of_mem_drop h))
    let mk : List Str → Str := fun c => hline (List.replicate 6 ' ' ++ (c.map (padLeft 6)).flatten) lbl
    have hmk : ∀ c, c.length = 9 → (∀ t ∈ c, t.length = 2) → ∃ p, slice (mk c) 6 60 = typeCols c ++ p := by
      intro c hc9 hc2
      exact hline_slice (by simp) hc2 (by omega) lbl (by omega) (by omega)
    let first := hline (padLeft 6 (natStr ts.length) ++ ((ts.take 9).map (padLeft 6)).flatten) lbl
    obtain ⟨q', rfl⟩ : ∃ q', q = q' + 1 := ⟨q - 1, by omega⟩
    have hrest := fullTypeLines_spec pre post q' 1 (chunks 9 (A.drop 9)) ((chunks 9 B).map mk) (by simpa using hk) hcs mk
      hmk [first] rfl
    have hhdr : pre ++ (first :: ((chunks 9 (ts.drop 9)).map mk ++ post)) =
        pre ++ ([first] ++ (chunks 9 (A.drop 9)).map mk ++ (chunks 9 B).map mk) ++ post := by
      rw [hchunk]; simp
    have hfirst : getOTypes (slice first 6 60) 9 6 = A.take 9 := by
      obtain ⟨p, hp⟩ := hline_slice hc6 (ts := A.take 9) (fun t h => htA t (List.mem_of_mem_take h)) (by simp) lbl
        (b := 60) (by simp; omega) (by omega)
      have : slice first 6 60 = typeCols (A.take 9) ++ p := by
        simp only [first, htake]; exact hp
      rw [this]
      have := getOTypes_cols (ts := A.take 9) (fun t h => htA t (List.mem_of_mem_take h)) p
      rwa [show (A.take 9).length = 9 by simp [hA]] at this
    have hfull : fullTypeLines (pre ++ (first :: ((chunks 9 (ts.drop 9)).map mk ++ post))) pre.length 0 (q' + 1) =
        .ok A := by
      simp only [fullTypeLines, Nat.add_zero, Nat.zero_add]
      rw [List.getElem?_append_right (by omega)]
      simp only [Nat.sub_self, List.getElem?_cons_zero]
      rw [hhdr, hrest, hfirst, ok_bind]
      simp only [pure, Except.pure, Except.ok.injEq]
      rw [← List.flatten_cons, ← hcA, hfl]
    have hm : ts.length % 9 = ts.length - (q' + 1) * 9 := by omega
    suffices hgoal : typesList (pre ++ (first :: ((chunks 9 (ts.drop 9)).map mk ++ post))) pre.length first
        (ts.length : Int) = .ok ts by
      simp only [first, mk] at hgoal
      rw [hgoal]; simp
    unfold typesList
    rw [if_pos (by omega)]
    simp only [Int.toNat_natCast, hq, hfull]
    by_cases hz : ts.length % 9 = 0
    · rw [if_neg (by simp [hz])]
      have hBnil : B = [] := List.length_eq_zero_iff.1 (by omega)
      have hAts : A = ts := by rw [hBnil, List.append_nil] at hAB; exact hAB.symm
      rw [hAts]
    · rw [if_pos hz]
      have hBne : B ≠ [] := by intro h; rw [h] at hB; simp at hB; omega
      have hcB : chunks 9 B = [B] := by
        rw [chunks_cons 9 B (by omega) hBne, List.take_of_length_le (by omega), List.drop_eq_nil_of_le (by omega),
          chunks_nil]
      have hget : (pre ++ (first :: ((chunks 9 (ts.drop 9)).map mk ++ post)))[pre.length + (q' + 1)]? = some (mk B) := by
        rw [hhdr, hcB, List.append_assoc, List.getElem?_append_right (by omega),
          show pre.length + (q' + 1) - pre.length = q' + 1 by omega]
        rw [List.append_assoc, List.append_assoc, List.getElem?_append_right (by simp)]
        simp only [List.length_singleton, Nat.add_sub_cancel]
        rw [List.getElem?_append_right (by simp [hk])]
        simp [hk]
      rw [hget]
      obtain ⟨p, hp⟩ := hline_slice (a := List.replicate 6 ' ') (by simp) htB (by omega) lbl
        (b := 6 + (ts.length - (q' + 1) * 9) * 6) (by omega) (by omega)
      have hg := getOTypes_cols htB p
      rw [hB, hm] at hg
      simp only
      rw [show slice (mk B) 6 (6 + (ts.length - (q' + 1) * 9) * 6) = typeCols B ++ p from hp, hg, ← hAB]
  · have htake : ts.take 9 = ts := List.take_of_length_le (by omega)
    obtain ⟨p, hp⟩ := hline_slice hc6 ht (by omega) lbl (b := 6 + ts.length * 6) (by omega) (by omega)
    have hg := getOTypes_cols ht p
    have hb : (6 + (ts.length : Int) * 6).toNat = 6 + ts.length * 6 := by omega
    unfold typesList
    rw [if_neg (by omega), hb, htake]
    simp only [typeCols] at hp hg
    rw [hp, Int.toNat_natCast, hg]
    simp

/-- only the first sixty characters of a line matter, and whether it contains the label -/
theorem obsTypes_congr {h h' : List Str} (hh : List.Forall₂ (fun l l' : Str => l.take 60 = l'.take 60 ∧ contains (c% "# / TYPES OF OBSERV") l = contains (c% "# / TYPES OF OBSERV") l') h h') :
    obsTypes h = obsTypes h' := by
  have hsl : ∀ {l l' : Str} (a b : Nat), b ≤ 60 → l.take 60 = l'.take 60 → slice l a b = slice l' a b := by
    intro l l' a b hb e
    have : ∀ x : Str, (x.drop a).take (b - a) = (((x.take 60).take b).drop a) := fun x => by rw [List.take_take, min_eq_left hb, List.drop_take]
    unfold slice
    rw [this l, this l', e]
  have hfind : ∀ i, (findTypesLine h i = none ∧ findTypesLine h' i = none) ∨
      ∃ j l l', findTypesLine h i = some (j, l) ∧ findTypesLine h' i = some (j, l') ∧ l.take 60 = l'.take 60 := by
    induction hh with
    | nil => intro i; exact .inl ⟨rfl, rfl⟩
    | cons hl _ ih =>
      intro i
      simp only [findTypesLine, ← hl.2]
      split
      · exact .inr ⟨_, _, _, rfl, rfl, hl.1⟩
      · exact ih (i + 1)
  have hget : ∀ i : Nat, (h[i]? = none ∧ h'[i]? = none) ∨ ∃ l l' : Str, h[i]? = some l ∧ h'[i]? = some l' ∧ l.take 60 = l'.take 60 := by
    clear hfind
    induction hh with
    | nil => intro i; exact .inl ⟨rfl, rfl⟩
    | cons hl _ ih =>
      intro i
      cases i with
      | zero => exact .inr ⟨_, _, rfl, rfl, hl.1⟩
      | succ i => simpa using ih i
  have hfull : ∀ (idx k cur : Nat), fullTypeLines h idx cur k = fullTypeLines h' idx cur k := by
    intro idx k
    induction k with
    | zero => intro cur; rfl
    | succ k ih =>
      intro cur
      unfold fullTypeLines
      rcases hget (idx + cur) with ⟨e1, e2⟩ | ⟨l, l', e1, e2, e3⟩
      · rw [e1, e2]
      · rw [e1, e2]
        simp only [ih (cur + 1), hsl 6 60 le_rfl e3]
  unfold obsTypes
  rcases hfind 0 with ⟨e1, e2⟩ | ⟨j, l, l', e1, e2, e3⟩
  · rw [e1, e2]
  · have h6 : l.take 6 = l'.take 6 := by simpa [slice] using hsl 0 6 (by omega) e3
    have hty : ∀ num, typesList h j l num = typesList h' j l' num := by
      intro num
      unfold typesList
      split
      · simp only [hfull]
        rcases hget (j + num.toNat / 9) with ⟨k1, k2⟩ | ⟨m, m', k1, k2, k3⟩
        · rw [k1, k2]
        · rw [k1, k2]
          simp only [hsl 6 (6 + (num.toNat - num.toNat / 9 * 9) * 6) (by omega) k3]
      · rw [hsl 6 (6 + num * 6).toNat (by omega) e3]
    rw [e1, e2]
    simp only [h6, hty]

theorem forall2_same {α : Type} {R : α → α → Prop} (h : ∀ a, R a a) (l : List α) : List.Forall₂ R l l := by
  induction l with
  | nil => exact .nil
  | cons a l ih => exact .cons (h a) ih

theorem typeText_refl (ts : List Str) : TypeText (typeLines ts) ts := forall2_same (fun _ => ⟨[], by simp, by simp⟩) _

/-- the types of a header, with any white space at the end of its lines -/
theorem obsTypes_render (pre post : List Str) (tls ts : List Str) (htl : TypeText tls ts) (hpre : ∀ x ∈ pre, contains (c% "# / TYPES OF OBSERV") x = false)
    (ht : ∀ t ∈ ts, t.length = 2) (hn : ts.length < 1000000) : obsTypes (pre ++ tls ++ post) = .ok ts := by
  rw [← obsTypes_lines pre post ts hpre ht hn]
  apply obsTypes_congr
  refine List.rel_append (List.rel_append (forall2_same (fun _ => ⟨rfl, rfl⟩) _) ?_) (forall2_same (fun _ => ⟨rfl, rfl⟩) _)
  have key : ∀ c ∈ typeLines ts, 60 ≤ c.length ∧ ∀ w, contains (c% "# / TYPES OF OBSERV") (c ++ w) = true := by
    have hl : ∀ a lbl : Str, lbl.length = 19 → 60 ≤ (hline a lbl).length ∧ ∀ w, contains lbl (hline a lbl ++ w) = true := by
      intro a lbl _
      refine ⟨by simp [hline, padRight]; omega, fun w => ?_⟩
      unfold hline
      exact contains_of_append _ lbl w
    intro c hc
    unfold typeLines at hc
    rcases List.mem_cons.1 hc with rfl | hc
    · exact hl _ _ (by decide)
    · obtain ⟨x, -, rfl⟩ := List.mem_map.1 hc
      exact hl _ _ (by decide)
  unfold TypeText at htl
  generalize typeLines ts = cs at htl key
  induction htl with
  | nil => exact .nil
  | cons h _ ih =>
    obtain ⟨w, rfl, -⟩ := h
    obtain ⟨k1, k2⟩ := key _ (List.mem_cons_self ..)
    refine .cons ⟨?_, ?_⟩ (ih fun c hc => key c (by simp [hc]))
    · rw [List.take_append_of_le_length k1]
    · rw [k2 w]
      have := k2 []
      rw [List.append_nil] at this
      rw [this]

/-- whatever the header, the number of types is the announced one -/
theorem obsTypes_count {header : List Str} {ts : List Str} (h : obsTypes header = .ok ts) :
    (findTypesLine header 0 = none ∧ ts = []) ∨
    ∃ i l, findTypesLine header 0 = some (i, l) ∧ parseInt (l.take 6) = some (ts.length : Int) := by
  unfold obsTypes at h
  cases hf : findTypesLine header 0 with
  | none =>
    rw [hf] at h
    simp only [Except.ok.injEq] at h
    exact Or.inl ⟨rfl, h.symm⟩
  | some p =>
    obtain ⟨i, l⟩ := p
    rw [hf] at h
    simp only at h
    right
    refine ⟨i, l, rfl, ?_⟩
    cases hp : parseInt (l.take 6) with
    | none => rw [hp] at h; simp at h
    | some num =>
      rw [hp] at h
      simp only at h
      split at h
      · simp at h
      · split at h
        · simp at h
        · rename_i hne
          simp only [Except.ok.injEq] at h
          subst h
          simp only [ne_eq, not_not] at hne
          rw [hne]

end Verif.Proofs
