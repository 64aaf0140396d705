import Verif.Spec.Tail
import Verif.Proofs.Tail
import Verif.Props.Batch
/-!
# C92: lines behind an observation file
-/
namespace Verif.Props
open Verif.Py Verif.Model Verif.Spec Verif.Proofs

/-! ## Observation files are not navigation files -/

/-- what comes before and behind the first dot -/
theorem obs_dot {name : Str} {hat comp : Bool} (h : ObsName name hat comp) : ∃ a b, name = a ++ '.' :: b ∧ (∀ x ∈ a, isWord x = true) ∧
    ((∃ y z t u, b = y :: z :: t :: u ∧ isDigit y = true ∧ (lowerC t = 'o' ∨ lowerC t = 'd')) ∨
      ∃ a' o c u, a = a' ++ [o] ∧ lowerC o = 'o' ∧ b = c :: u ∧ (lowerC c = 'r' ∨ lowerC c = 'c')) := by
  obtain ⟨stem, suf, rfl, hs, -⟩ := h
  have dw : ∀ {k s}, Digits k s → ∀ x ∈ s, isWord x = true := fun h x hx => isWord_digit (h.2 x hx)
  have tt : ∀ {hat : Bool} {t : Char}, lowerC t = (if hat then 'd' else 'o') → lowerC t = 'o' ∨ lowerC t = 'd' := by
    intro hat t h; cases hat <;> simp_all
  cases hs with
  | quarter st d c m y t _ h1 h2 h3 h4 h5 h6 =>
    have hm : ∀ x ∈ m, isDigit x = true := by rcases h4 with rfl | rfl | rfl | rfl <;> decide
    obtain ⟨yl, yd⟩ := h5
    match y, yl with
    | [y1, y2], _ =>
    refine ⟨st ++ d ++ c :: m, y1 :: y2 :: t :: suf, by simp, ?_, .inl ⟨_, _, _, _, rfl, yd _ (by simp), tt h6⟩⟩
    intro x hx
    simp only [List.mem_append, List.mem_cons] at hx
    rcases hx with (hx | hx) | rfl | hx
    · exact h1.2 x hx
    · exact dw h2 x hx
    · obtain ⟨z, hz, e⟩ := h3
      apply isWord_lower
      rw [e]
      clear e
      revert z
      decide
    · exact isWord_digit (hm x hx)
  | daily st d c y t _ h1 h2 h3 h5 h6 =>
    obtain ⟨yl, yd⟩ := h5
    match y, yl with
    | [y1, y2], _ =>
    refine ⟨st ++ d ++ [c], y1 :: y2 :: t :: suf, by simp, ?_, .inl ⟨_, _, _, _, rfl, yd _ (by simp), tt h6⟩⟩
    intro x hx
    simp only [List.mem_append, List.mem_cons, List.not_mem_nil, or_false] at hx
    rcases hx with (hx | hx) | rfl
    · exact h1.2 x hx
    · exact dw h2 x hx
    · exact h3
  | long si so sta pe fr sy o ext _ h1 h2 h3 h4 h5 h6 h7 h8 =>
    have hl : ext.length = 3 := by
      have := congrArg List.length h8
      cases hat <;> simpa [lower] using this
    match ext, hl with
    | [r, n2, x], _ =>
    refine ⟨si ++ '_' :: so :: '_' :: sta ++ '_' :: pe ++ '_' :: fr ++ '_' :: sy :: [o], r :: n2 :: x :: suf, by simp, ?_,
      .inr ⟨si ++ '_' :: so :: '_' :: sta ++ '_' :: pe ++ '_' :: fr ++ ['_', sy], o, r, _, by simp, h7, rfl, ?_⟩⟩
    · have us : isWord '_' = true := by decide
      have hso : isWord so = true := by
        obtain ⟨z, hz, e⟩ := h2
        apply isWord_lower
        rw [e]
        clear e
        revert z
        decide
      have ho : isWord o = true := by apply isWord_lower; rw [h7]; decide
      intro x hx
      simp only [List.mem_append, List.mem_cons, List.not_mem_nil, or_false] at hx
      rcases hx with (((hx | rfl | rfl | rfl | hx) | rfl | hx) | rfl | hx) | rfl | rfl | rfl
      · exact h1.2 x hx
      · exact us
      · exact hso
      · exact us
      · exact dw h3 x hx
      · exact us
      · exact h4.2 x hx
      · exact us
      · exact h5.2 x hx
      · exact us
      · exact h6
      · exact ho
    · cases hat
      · left
        have := congrArg List.head? h8
        simpa [lower] using this.trans (by decide : _ = some 'r')
      · right
        have := congrArg List.head? h8
        simpa [lower] using this.trans (by decide : _ = some 'c')

theorem words_strfJ (t : DateTime) : ∀ x ∈ strfJ t, isWord x = true := fun x hx => isWord_digit (zfill_digits (natStr_digits _) x hx)
theorem words_strfY (t : DateTime) : ∀ x ∈ strfY t, isWord x = true := fun x hx => isWord_digit (natStr_digits _ x hx)

theorem nav_dot {name : Str} {system : Char} {t : DateTime} (h : (composeNavRe system t).accepts name = true) :
    ∃ a b, name = a ++ '.' :: b ∧ '.' ∉ a ∧
    ((∃ y z t u, b = y :: z :: t :: u ∧ isDigit y = true ∧ lowerC t ∈ c% "nghlp") ∨
      (∃ a' n c u, a = a' ++ [n] ∧ lowerC n = 'n' ∧ b = c :: u ∧ lowerC c = 'r') ∨ ∃ c u, b = c :: u ∧ lowerC c = 'n') := by
  have hyy : strfy t = dig2 (t.year % 100) := by unfold strfy; rw [zfill2 (by omega)]
  have hJ := words_strfJ t
  have hY := words_strfY t
  have nd : ∀ {c : Char}, isWord c = true → c ≠ '.' := by rintro c h rfl; revert h; decide
  have nd' : ∀ {s : Str}, (∀ x ∈ s, isWord x = true) → '.' ∉ s := fun h hm => nd (h _ hm) rfl
  have hmod : (reModernNav t system).accepts name = true → ∃ a b, name = a ++ '.' :: b ∧ '.' ∉ a ∧
      ((∃ a' n c u, a = a' ++ [n] ∧ lowerC n = 'n' ∧ b = c :: u ∧ lowerC c = 'r') ∨ ∃ c u, b = c :: u ∧ lowerC c = 'n') := by
    rw [Re.accepts_iff]
    simp only [reModernNav, reSeq, Re.ex_seq, Re.ex_grp, reW, reD, Re.ex_rep, Re.ex_lit, Re.ex_chr, Re.ex_c, Re.ex_opt, Re.ex_eps, lowerC_dot,
      lowerC_us, sameCI_dig (zfill_digits (natStr_digits _)), strfY, strfJ, sameCI_dig (natStr_digits _), show lowerC 'N' = 'n' by decide,
      show lowerC 'r' = 'r' by decide, show lowerC 'n' = 'n' by decide, show lowerC 'x' = 'x' by decide]
    rintro ⟨st, u, rfl, h1, h2, mo, u, rfl, h3, h4, c1, u, rfl, rfl, src, u, rfl, h5, c2, u, rfl, rfl, y, u, rfl, rfl, d, u, rfl, rfl,
      tm, u, rfl, h6, h7, c3, u, rfl, rfl, p, u, rfl, h8, h9, hf⟩
    have h7' : '.' ∉ tm := nd' fun x hx => isWord_digit (h7 x hx)
    have fin : ∀ (freq : Str), '.' ∉ freq → ∀ s n r u, lowerC n = 'n' → lowerC r = 'r' →
        ∃ a b, st ++ (mo ++ '_' :: src :: '_' :: (natStr t.year ++ (zfill 3 (natStr (yday t)) ++ (tm ++ '_' :: (p ++ (freq ++ '_' :: s :: n :: '.' :: r :: u)))))) =
          a ++ '.' :: b ∧ '.' ∉ a ∧ ((∃ a' n c u, a = a' ++ [n] ∧ lowerC n = 'n' ∧ b = c :: u ∧ lowerC c = 'r') ∨ ∃ c u, b = c :: u ∧ lowerC c = 'n') := by
      intro freq hf s n r u hn hr
      have hpre : '.' ∉ st ++ (mo ++ '_' :: src :: '_' :: (natStr t.year ++ (zfill 3 (natStr (yday t)) ++ (tm ++ '_' :: (p ++ (freq ++ ['_'])))))) := by
        have k1 := nd' h2
        have k2 := nd' h4
        have k3 := nd h5
        have k4 := nd' hY
        have k5 := nd' hJ
        have k6 := nd' h9
        simp only [strfY, strfJ] at k4 k5
        simp only [List.mem_append, List.mem_cons, List.not_mem_nil, or_false, not_or]
        refine ⟨k1, k2, by decide, Ne.symm k3, by decide, k4, k5, h7', by decide, k6, hf, by decide⟩
      have hn' : n ≠ '.' := by rintro rfl; revert hn; decide
      by_cases hs : s = '.'
      · subst hs
        exact ⟨_, n :: '.' :: r :: u, by simp only [List.append_assoc, List.cons_append, List.nil_append], hpre, .inr ⟨n, _, rfl, hn⟩⟩
      · refine ⟨st ++ (mo ++ '_' :: src :: '_' :: (natStr t.year ++ (zfill 3 (natStr (yday t)) ++ (tm ++ '_' :: (p ++ (freq ++ ['_'])))))) ++ [s, n], r :: u,
          by simp only [List.append_assoc, List.cons_append, List.nil_append], ?_, .inl ⟨st ++ (mo ++ '_' :: src :: '_' :: (natStr t.year ++ (zfill 3 (natStr (yday t)) ++ (tm ++ '_' :: (p ++ (freq ++ ['_'])))))) ++ [s],
            n, r, u, ?_, hn, rfl, hr⟩⟩
        · rw [List.mem_append, not_or]
          refine ⟨hpre, ?_⟩
          simp only [List.mem_cons, List.not_mem_nil, or_false, not_or]
          exact ⟨Ne.symm hs, Ne.symm hn'⟩
        · simp only [List.append_assoc, List.cons_append, List.nil_append]
    rcases hf with ⟨c, u, rfl, rfl, f, u, rfl, hf1, hf2, c5, u, rfl, rfl, s, u', rfl, hs, n, u'', rfl, hn, dd, u3, rfl, rfl, r, u4, rfl, hr, n2, u5, rfl, hn2, x, u6, rfl, hx, -⟩ |
      ⟨c5, u, rfl, rfl, s, u', rfl, hs, n, u'', rfl, hn, dd, u3, rfl, rfl, r, u4, rfl, hr, n2, u5, rfl, hn2, x, u6, rfl, hx, -⟩
    · have := fin ('_' :: f) (by simp only [List.mem_cons, not_or]; exact ⟨by decide, nd' hf2⟩) s n r (n2 :: x :: u6) hn hr
      simpa only [List.append_assoc, List.cons_append, List.nil_append, List.append_nil] using this
    · have := fin [] (by simp) s n r (n2 :: x :: u6) hn hr
      simpa only [List.append_assoc, List.cons_append, List.nil_append, List.append_nil] using this
  unfold composeNavRe at h
  cases hi : navId system with
  | none =>
    rw [hi] at h
    obtain ⟨a, b, h1, h2, h3⟩ := hmod h
    exact ⟨a, b, h1, h2, .inr h3⟩
  | some l =>
    rw [hi] at h
    simp only at h
    rw [accepts_alt] at h
    rcases h with h | h
    · have hll : lowerC l ∈ c% "nghlp" := by
        have hl := (navId_iff _ _).1 hi
        cases hl <;> decide
      rw [Re.accepts_iff] at h
      simp only [reClassicNav, reSeq, Re.ex_seq, Re.ex_grp, reW, Re.ex_rep, Re.ex_lit, Re.ex_chr, Re.ex_c, Re.ex_eps, lowerC_dot, hyy,
        sameCI_dig (dig2_digits _).2, strfJ, sameCI_dig (zfill_digits (natStr_digits _))] at h
      obtain ⟨st, u, rfl, h1, h2, d, u, rfl, rfl, c, u, rfl, h3, c', u, rfl, rfl, y, u, rfl, rfl, l', u, rfl, h4, -⟩ := h
      refine ⟨st ++ zfill 3 (natStr (yday t)) ++ [c], dig2 (t.year % 100) ++ l' :: u, by simp, ?_, .inl ⟨_, _, l', u, rfl, (dig2_digits (t.year % 100)).2 _ (by simp [dig2]), by rw [h4]; exact hll⟩⟩
      have k5 := nd' hJ
      simp only [strfJ] at k5
      simp only [List.mem_append, List.mem_cons, List.not_mem_nil, or_false, not_or]
      exact ⟨⟨nd' h2, k5⟩, Ne.symm (nd h3)⟩
    · obtain ⟨a, b, h1, h2, h3⟩ := hmod h
      exact ⟨a, b, h1, h2, .inr h3⟩

theorem first_dot {a a' b b' : Str} (h : '.' ∉ a) (h' : '.' ∉ a') (e : a ++ '.' :: b = a' ++ '.' :: b') : a = a' ∧ b = b' := by
  induction a generalizing a' with
  | nil =>
    cases a' with
    | nil => simpa using e
    | cons x a' => simp at e h'; exact absurd e.1 h'.1
  | cons x a ih =>
    cases a' with
    | nil => simp at e h; exact absurd e.1.symm h.1
    | cons y a' =>
      simp only [List.cons_append, List.cons.injEq] at e
      simp only [List.mem_cons, not_or] at h h'
      obtain ⟨h1, h2⟩ := ih h.2 h'.2 e.2
      exact ⟨by rw [e.1, h1], h2⟩

/-- C36: the name of an observation file is never taken for a navigation file, whatever the system and the day. -/
theorem C36_disjoint (name : Str) (system : Char) (t : DateTime) (h : (composeNavRe system t).accepts name = true) (hat comp : Bool) : ¬ ObsName name hat comp := by
  intro ho
  obtain ⟨a, b, e1, hw, k1⟩ := obs_dot ho
  obtain ⟨a2, b2, e2, hd, k2⟩ := nav_dot h
  rw [e1] at e2
  obtain ⟨rfl, rfl⟩ := first_dot (fun hm => absurd (hw _ hm) (by decide)) hd e2
  have dig : ∀ {c : Char}, isDigit c = true → lowerC c ∈ c% "rcn" → False := by
    intro c h1 h2
    rw [lowerC_digit h1] at h2
    have h2 : c ∈ ['r', 'c', 'n'] := h2
    simp only [List.mem_cons, List.not_mem_nil, or_false] at h2
    rcases h2 with rfl | rfl | rfl <;> revert h1 <;> decide
  rcases k1 with ⟨y, z, t1, u, rfl, h1, h2⟩ | ⟨a', o, c, u, rfl, h1, rfl, h2⟩
  · rcases k2 with ⟨y', z', t', u', e, h3, h4⟩ | ⟨a', n, c, u', rfl, h3, e, h4⟩ | ⟨c, u', e, h3⟩
    · cases e
      rcases h2 with h2 | h2 <;> rw [h2] at h4 <;> revert h4 <;> decide
    · cases e
      exact dig h1 (by rw [h4]; decide)
    · cases e
      exact dig h1 (by rw [h3]; decide)
  · rcases k2 with ⟨y', z', t', u', e, h3, h4⟩ | ⟨a2, n, c', u', e, h3, e', h4⟩ | ⟨c', u', e, h3⟩
    · cases e
      exact dig h3 (by rcases h2 with h2 | h2 <;> rw [h2] <;> decide)
    · have := List.append_inj' e rfl
      simp only [List.cons.injEq, and_true] at this
      rw [← this.2, h1] at h3
      revert h3; decide
    · cases e
      rcases h2 with h2 | h2 <;> rw [h2] at h3 <;> revert h3 <;> decide

/-! ## The other files of the run -/

theorem obs_not_xyz {name : Str} {hat comp : Bool} (h : ObsName name hat comp) : ¬ c% ".xyz" <:+ name := by
  obtain ⟨stem, suf, rfl, hs, hx⟩ := h
  rintro ⟨x, e⟩
  obtain ⟨w, k, rfl, hw, hk, hm⟩ := stem_shape hs
  cases comp with
  | false =>
    simp only [Bool.false_eq_true, if_false] at hx
    subst hx
    rw [List.append_nil] at e
    have hl := mark_length hm
    obtain ⟨-, e2⟩ := List.append_inj' e (by simp [hl])
    rw [← e2] at hm
    rcases hm with ⟨y, t, h1, ⟨h2, -⟩, h3⟩ | h1
    · match y, h2 with
      | [y1, y2], _ =>
      have h1 : ['.', 'x', 'y', 'z'] = '.' :: [y1, y2] ++ [t] := h1
      simp only [List.cons_append, List.nil_append, List.cons.injEq, true_and, and_true] at h1
      rw [← h1.2.2] at h3
      cases hat <;> revert h3 <;> decide
    · unfold SameCI at h1
      cases hat <;> revert h1 <;> decide
  | true =>
    simp only [if_true] at hx
    rcases hx with hx | hx
    · have hl : suf.length = 2 := by have := congrArg List.length hx; simpa [lower] using this
      have e' : (x ++ ['.', 'x']) ++ ['y', 'z'] = (w ++ '.' :: k) ++ suf := by rw [← e]; simp
      obtain ⟨-, e2⟩ := List.append_inj' e' (by rw [hl]; rfl)
      rw [← e2] at hx
      unfold SameCI at hx
      revert hx; decide
    · have hl : suf.length = 3 := by have := congrArg List.length hx; simpa [lower] using this
      have e' : (x ++ ['.']) ++ ['x', 'y', 'z'] = (w ++ '.' :: k) ++ suf := by rw [← e]; simp
      obtain ⟨-, e2⟩ := List.append_inj' e' (by rw [hl]; rfl)
      rw [← e2] at hx
      unfold SameCI at hx
      revert hx; decide

theorem obs_length {name : Str} {hat comp : Bool} (h : ObsName name hat comp) : 4 ≤ name.length := by
  obtain ⟨stem, suf, rfl, hs, -⟩ := h
  obtain ⟨w, k, rfl, hw, hk, hm⟩ := stem_shape hs
  have := mark_length hm
  simp at this ⊢
  omega

theorem xyz_ne {p n path name : Str} {hat comp : Bool} (h : xyzName p = some n) (hl : LastComponent path name) (ho : ObsName name hat comp) : n ≠ path := by
  rintro rfl
  have hs : c% ".xyz" <:+ n := by
    unfold xyzName at h
    simp only [Option.map_eq_some_iff] at h
    obtain ⟨m, -, rfl⟩ := h
    exact List.suffix_append _ _
  have hn : name <:+ n := by
    rcases hl.2 with h | ⟨d, h⟩
    · rw [h]
    · exact ⟨d ++ ['/'], by rw [h]; simp⟩
  exact obs_not_xyz ho (List.suffix_of_suffix_length_le hs hn (obs_length ho))

theorem xyz_elsewhere {D D' : Disk} {path name : Str} {hat comp : Bool} (hd : Elsewhere D D' path) (hl : LastComponent path name) (ho : ObsName name hat comp)
    (b : Bool) (p : Str) : xyzData D' b p = xyzData D b p := by
  unfold xyzData
  cases hx : xyzName p with
  | none => rfl
  | some n =>
    simp only
    rw [hd.present, hd.lines .text n (xyz_ne hx hl ho)]

theorem obs_elsewhere {D D' : Disk} {path : Str} (hd : Elsewhere D D' path) (fuel : Nat) {p : Str} (hp : p ≠ path) : obsFile D' fuel p = obsFile D fuel p := by
  have hf : fetchObs D' p = fetchObs D p := by
    unfold fetchObs
    simp only [fun k => hd.lines k p hp]
  unfold obsFile
  rw [hf]

/-- the chosen file is in one of the directories, and its name is that of a navigation file -/
theorem chosen_nav {dirs : List (Str × List Str)} {e : DateTime} {c : Char} {priority : List Str} {f : Str} (h : chooseNavFile dirs e c priority = .ok f) :
    ∃ d ∈ dirs, ∃ n ∈ d.2, f = inDir d.1 n ∧ ∃ s, (composeNavRe s e).accepts n = true := by
  have hmem : f ∈ findNavFiles dirs e c ∨ f ∈ findNavFiles dirs e 'M' := by
    have : f ∈ (if findNavFiles dirs e c = [] then findNavFiles dirs e 'M' else findNavFiles dirs e c) := by
      unfold chooseNavFile at h
      simp only at h
      generalize (if findNavFiles dirs e c = [] then findNavFiles dirs e 'M' else findNavFiles dirs e c) = files at h ⊢
      cases files with
      | nil => cases h
      | cons a l =>
        simp only at h
        split at h
        · cases h; simp
        · split at h
          · rename_i g hg
            cases h
            exact prior_mem hg
          · cases h
    split at this
    · exact .inr this
    · exact .inl this
  have key : ∀ s, f ∈ findNavFiles dirs e s → ∃ d ∈ dirs, ∃ n ∈ d.2, f = inDir d.1 n ∧ ∃ s, (composeNavRe s e).accepts n = true := by
    intro s hs
    unfold findNavFiles findFiles at hs
    obtain ⟨l, h1, h2⟩ := List.mem_flatten.1 hs
    obtain ⟨d, h3, rfl⟩ := List.mem_map.1 h1
    obtain ⟨n, h4, rfl⟩ := List.mem_map.1 h2
    exact ⟨d, h3, n, (List.mem_filter.1 h4).1, rfl, s, (List.mem_filter.1 h4).2⟩
  rcases hmem with h | h
  · exact key _ h
  · exact key _ h

theorem load_elsewhere {D D' : Disk} {cfg : Cfg} {path name : Str} {hat comp : Bool} (hd : Elsewhere D D' path) (hl : LastComponent path name)
    (ho : ObsName name hat comp) (hn : FileNames D cfg.navDir) : loadFor D' cfg = loadFor D cfg := by
  funext d c
  unfold loadFor
  rw [listDirs_same fun d _ => hd.listing d]
  cases cfg.navPriority.get? c with
  | none => rfl
  | some priority =>
    simp only
    cases hdi : listDirs D cfg.navDir with
    | error e => rfl
    | ok dirs =>
      simp only
      cases hc : chooseNavFile dirs d.start c priority with
      | error e => rfl
      | ok f =>
        simp only
        obtain ⟨a, h3, n, h4, rfl, s, hs⟩ := chosen_nav hc
        obtain ⟨h5, h6⟩ := listing_of_mem hdi a h3
        have hne : inDir a.1 n ≠ path := by
          intro he
          have hl' := inDir_last a.1 n (hn a.1 h5 a.2 h6 n h4)
          rw [he] at hl'
          have : n = name := by rw [← basename_of_last hl', basename_of_last hl]
          subst this
          exact C36_disjoint n s _ hs hat comp ho
        have hf : navFileOf D' (inDir a.1 n) = navFileOf D (inDir a.1 n) := by
          unfold navFileOf fetchNav
          rw [hd.lines .gunzip _ hne, hd.lines .text _ hne]
        unfold loadNavigationMessage
        rw [hc]
        simp only [hf]

theorem prm_elsewhere (X : Ext) {D D' : Disk} {cfg : Cfg} {path name : Str} {hat comp : Bool} (hd : Elsewhere D D' path) (hl : LastComponent path name)
    (ho : ObsName name hat comp) (hn : FileNames D cfg.navDir) : prmOf X D' cfg = prmOf X D cfg := by
  unfold prmOf
  rw [load_elsewhere hd hl ho hn]

theorem obsFiles_elsewhere {D D' : Disk} {cfg : Cfg} {path : Str} (hd : Elsewhere D D' path) : obsFiles D' cfg = obsFiles D cfg := by
  unfold obsFiles
  rw [listDirs_same fun d _ => hd.listing d]

theorem someXyz_elsewhere {D D' : Disk} {cfg : Cfg} {path : Str} (hd : Elsewhere D D' path) : someXyz D' cfg = someXyz D cfg := by
  unfold someXyz
  rw [listDirs_same fun d _ => hd.listing d]

/-! ## One file -/

theorem items_tail (P : Prm) (o : ObsIn) (its : List ObsItem) (st : Except PyErr Unit) (k : Option Int) (xyz : Dict DateTime Pos) (items : List ObsItem) : ∀ last s,
    runItems P { o with items := its, stop := st } k xyz items last s = runItems P o k xyz items last s := by
  induction items with
  | nil => exact fun _ _ => rfl
  | cons it items ih =>
    intro last s
    simp only [runItems, ih]
    rfl

/-- the calls for the longer file begin with those for the shorter one -/
theorem file_tail (P : Prm) (f f' : FileIn) (o o' : ObsIn) (ho : f.opened = .ok o) (ho' : f'.opened = .ok o') (hx : f'.xyzData = f.xyzData) (hc : Continues o o')
    (g : Glob) (fs : FS) :
    ∃ new, (processFile P f' g fs).ops = (processFile P f g fs).ops ++ new := by
  obtain ⟨extra, stop, rfl⟩ := hc
  rcases processFile_cases P f with ⟨o1, t, l, xyz, hst⟩ | ⟨err, hno⟩
  · have := hst.opened
    rw [ho] at this
    cases this
    have hst' : Started P f' { o with items := o.items ++ extra, stop := stop } t l xyz := ⟨ho', hst.system, hst.tofo, hst.lbh, by rw [hx]; exact hst.data⟩
    rw [processFile_started P f g fs o t l xyz hst _ rfl, processFile_started P f' g fs _ t l xyz hst' _ rfl]
    simp only [items_tail]
    have hs : startState P { o with items := o.items ++ extra, stop := stop } t l g fs = startState P o t l g fs := rfl
    rw [hs]
    rcases items_append P o (samplingFor P.cfg o.interval) xyz o.items extra none (startState P o t l g fs) with h | ⟨-, last, h⟩
    · rw [h]; exact ⟨[], by simp⟩
    · rw [h]
      obtain ⟨new, n1, -⟩ := run_adds P o (samplingFor P.cfg o.interval) xyz extra last (runItems P o (samplingFor P.cfg o.interval) xyz o.items none (startState P o t l g fs)).1
      exact ⟨new, n1⟩
  · rw [hno]; exact ⟨_, rfl⟩

/-! ## The run -/

/-- C92: two runs over the same files, except that lines were added behind one observation file.  Provided that the shorter file has a complete header and at
least ten changes of the epoch (one for RINEX 3), so that its interval is settled, the records written for it are also written for the longer file, before any others, and every output file
written for the shorter file is the beginning of the output file for the longer one - even if the added lines end the second run with an exception. -/
theorem C92_output (X : Ext) (D D' : Disk) (cfg : Cfg) (fuel : Nat) (fs : FS) (r r' : Outcome) (paths : List Str) (i : Nat) (path name : Str) (A more : List Str)
    (hout : OutDirOk cfg) (hn : PlainNames D cfg.obsDir) (hnav : FileNames D cfg.navDir) (hf : InputFiles D cfg.obsDir paths) (hi : Only paths i path)
    (honce : ∀ j : Nat, paths[j]? = some path → j = i) (hname : LastComponent path name) (hy : FourDigits paths) (hd : Elsewhere D D' path)
    (hA : ReadAs D path A) (hA' : ReadAs D' path (A ++ more)) (hh : HeaderEnds A)
    (h10 : ∀ o, obsFile D fuel path = some (.ok o) →
      10 ≤ epochChanges o.items ∨ 1 ≤ epochChanges o.items ∧ ∃ v, obsVersion (A.headD []) = .ok v ∧ 300 ≤ v)
    (hrun : program X D cfg fuel fs = some r) (hend : r.err = none) (hrun' : program X D' cfg fuel fs = some r') :
    ∃ ops ops', r.calls[i]? = some ops ∧ r'.calls[i]? = some ops' ∧ writesOf ops <+: writesOf ops' ∧
      ∀ sat e v, (sat, e, v) ∈ writesOf ops → ∃ text tail, r.fs.get? (outputPath cfg.outDir (name.take 4) sat e) = some text ∧
        r'.fs.get? (outputPath cfg.outDir (name.take 4) sat e) = some (text ++ tail) := by
  obtain ⟨hi, honly⟩ := hi
  have hf' := (C72_files D cfg paths hn).2 hf
  have hn' : PlainNames D' cfg.obsDir := fun d h l hl => hn d h l (by rw [← hd.listing]; exact hl)
  have hf2 : InputFiles D' cfg.obsDir paths := (C72_files D' cfg paths hn').1 (by rw [obsFiles_elsewhere hd]; exact hf')
  obtain ⟨hlast, hat, comp, hobs⟩ : LastComponent path name ∧ ∃ hat comp, ObsName name hat comp := by
    obtain ⟨-, dir, name', hat, comp, hp, ho, -⟩ := hA
    have : LastComponent path name' := ⟨(obsName_word ho).2, hp.imp id fun h => ⟨dir, h.1⟩⟩
    have : name = name' := by rw [← basename_of_last hname, basename_of_last this]
    subst this
    exact ⟨hname, hat, comp, ho⟩
  obtain ⟨p, ps, rfl⟩ : ∃ p ps, paths = p :: ps := by
    cases paths with
    | nil => simp at hi
    | cons p ps => exact ⟨p, ps, rfl⟩
  obtain ⟨ins, hins, rfl⟩ := program_ins hf' hrun
  obtain ⟨ins', hins', rfl⟩ := program_ins (by rw [obsFiles_elsewhere hd]; exact hf') hrun'
  rw [someXyz_elsewhere hd] at hins'
  rw [prm_elsewhere X hd hlast hobs hnav]
  have hl := ins_legal hf hy hins
  have hl' := ins_legal hf2 hy hins'
  obtain ⟨hlen, hget⟩ := allOf_get hins
  obtain ⟨hlen', hget'⟩ := allOf_get hins'
  obtain ⟨f, hfi, hf1⟩ := hget i path hi
  obtain ⟨f', hfi', hf1'⟩ := hget' i path hi
  have hil := (List.getElem?_eq_some_iff.1 hf1).1
  have hset : ins' = ins.set i f' := by
    apply List.ext_getElem?
    intro j
    by_cases hj : j = i
    · subst hj
      rw [hf1', List.getElem?_set_self hil]
    · rw [List.getElem?_set_ne (Ne.symm hj)]
      cases hp : (p :: ps)[j]? with
      | none =>
        rw [List.getElem?_eq_none_iff] at hp
        rw [List.getElem?_eq_none (by omega), List.getElem?_eq_none (by omega)]
      | some q =>
        obtain ⟨f2, k1, k2⟩ := hget j q hp
        obtain ⟨f3, k3, k4⟩ := hget' j q hp
        have hq : q ≠ path := by rintro rfl; exact hj (honce j hp)
        unfold fileIn at k1 k3
        rw [obs_elsewhere hd fuel hq, xyz_elsewhere hd hlast hobs, k1] at k3
        rw [k2, k4, ← Option.some.inj k3]
  have hsplit : ins = ins.take i ++ f :: ins.drop (i + 1) := by
    have h5 := (List.getElem?_eq_some_iff.1 hf1).2
    rw [← h5, List.cons_getElem_drop_succ, List.take_append_drop]
  have hsplit' : ins' = ins.take i ++ f' :: ins.drop (i + 1) := by
    rw [hset, List.set_eq_take_append_cons_drop, if_pos hil]
  generalize hA0 : ins.take i = A0 at hsplit hsplit'
  generalize ins.drop (i + 1) = B at hsplit hsplit'
  have hAl : A0.length = i := by rw [← hA0, List.length_take]; omega
  clear hA0 hset
  subst hsplit hsplit'
  simp only at hend ⊢
  generalize hP : prmOf X D cfg = P at hend ⊢
  have hod : P.cfg.outDir = cfg.outDir := by rw [← hP]; rfl
  have ho1 : P.cfg.outDir ≠ [] := by rw [hod]; exact hout.1
  have ho2 : P.cfg.outDir.getLast? ≠ some '/' := by rw [hod]; exact hout.2
  have hA0 : (mainLoop P A0 Glob.empty fs).2.2.2 = none := by
    by_contra hA0
    rw [mainLoop_append_err P A0 (f :: B) _ _ hA0] at hend
    exact hA0 hend
  have hlenA := mainLoop_length P A0 _ _ hA0
  have hg := mainLoop_ginv P A0 _ fs (ginv_empty P) hA0
  rw [mainLoop_append P A0 (f :: B) _ _ hA0] at hend ⊢
  rw [mainLoop_append P A0 (f' :: B) _ _ hA0]
  generalize (mainLoop P A0 Glob.empty fs).1 = g at *
  generalize (mainLoop P A0 Glob.empty fs).2.1 = fs1 at *
  generalize (mainLoop P A0 Glob.empty fs).2.2.1 = calls at *
  have he : (processFile P f g fs1).err = none := by
    simp only [mainLoop] at hend
    cases he : (processFile P f g fs1).err with
    | none => rfl
    | some e => rw [he] at hend; cases hend
  have hg1 := file_ginv P f _ _ hg he
  obtain ⟨hop, hxd⟩ := fileIn_opened hfi
  obtain ⟨hop', hxd'⟩ := fileIn_opened hfi'
  have hxx : f'.xyzData = f.xyzData := by
    rw [xyz_elsewhere hd hlast hobs, hxd] at hxd'
    exact (Option.some.inj hxd').symm
  have hnew : ∃ new, (processFile P f' g fs1).ops = (processFile P f g fs1).ops ++ new := by
    cases hfo : f.opened with
    | error er =>
      rcases processFile_cases P f with ⟨o1, t, l, xyz, hst⟩ | ⟨err, hno⟩
      · have := hst.opened
        rw [hfo] at this
        cases this
      · rw [hno]; exact ⟨_, rfl⟩
    | ok o =>
      rw [hfo] at hop
      obtain ⟨o', h1, h2⟩ := obsFile_tail (fetchObs_read hA) (fetchObs_read hA') hh hop (h10 o hop) hop'
      exact file_tail P f f' o o' hfo h1 hxx h2 g fs1
  obtain ⟨new, hnew⟩ := hnew
  refine ⟨(processFile P f g fs1).ops, (processFile P f' g fs1).ops, ?_, ?_, ?_, ?_⟩
  · simp only [mainLoop, he]
    rw [List.getElem?_append_right (by omega), hlenA, hAl]
    simp
  · simp only [mainLoop]
    rw [List.getElem?_append_right (by omega), hlenA, hAl, Nat.sub_self]
    cases (processFile P f' g fs1).err <;> rfl
  · rw [hnew, writesOf_append]
    exact List.prefix_append _ _
  · intro sat e v hw
    obtain ⟨o, t, l, xyz, hst⟩ : ∃ o t l xyz, Started P f o t l xyz := by
      rcases processFile_cases P f with h | ⟨err, hno⟩
      · exact h
      · rw [hno] at hw; cases hw
    have hfo := hst.opened
    rw [hfo] at hop
    obtain ⟨o', h1, h2⟩ := obsFile_tail (fetchObs_read hA) (fetchObs_read hA') hh hop (h10 o hop) hop'
    obtain ⟨extra, stop, rfl⟩ := h2
    have hst' : Started P f' { o with items := o.items ++ extra, stop := stop } t l xyz := ⟨h1, hst.system, hst.tofo, hst.lbh, by rw [hxx]; exact hst.data⟩
    obtain ⟨u1, u2, u3, u4⟩ := obsFile_legal hop
    obtain ⟨hleg, hday⟩ : Legal e ∧ NamedDay path e.date := by
      obtain ⟨t', xyz', -, it, hit, c, n, e'', hcon, hm⟩ := writes_day hg hfo hw
      obtain ⟨-, a2, -⟩ := mem_writesFor hm
      simp only at a2
      subst a2
      refine ⟨u4 it hit _ hcon.2.1, ?_⟩
      have := hcon.2.2.2
      rw [u2, namedDay_iff path _ ⟨name, hlast⟩] at this
      exact this
    have hother : ∀ (j : Nat) (f2 : FileIn), B[j]? = some f2 → ∀ g fs, GInv P g →
        ¬ WritesAt P f2 (processFile P f2 g fs).ops (outputPath cfg.outDir (name.take 4) sat e) := by
      intro j f2 hf2 g fs hg
      have hj2 : (A0 ++ f :: B)[i + 1 + j]? = some f2 := by
        rw [List.getElem?_append_right (by omega), hAl, show i + 1 + j - i = j + 1 by omega, List.getElem?_cons_succ, hf2]
      have hjl := (List.getElem?_eq_some_iff.1 hj2).1
      obtain ⟨q, hq⟩ : ∃ q, (p :: ps)[i + 1 + j]? = some q := ⟨_, List.getElem?_eq_getElem (by omega)⟩
      obtain ⟨f3, hf3, hf4⟩ := hget _ q hq
      rw [hj2] at hf4
      cases hf4
      rw [← hod]
      exact not_writes (P := P) hf3 hlast hleg hday sat (honly _ q (by omega) hq) g fs hg
    have hrest : ∀ g2 fs2, GInv P g2 → (mainLoop P B g2 fs2).2.1.get? (outputPath cfg.outDir (name.take 4) sat e) =
        fs2.get? (outputPath cfg.outDir (name.take 4) sat e) := by
      intro g2 fs2 hg2
      refine mainLoop_elsewhere P ho1 ho2 B (fun f2 h => hl f2 (by simp [h])) _ _ _ hg2 ?_
      intro j f2 ops' hj hops'
      obtain ⟨f4, g4, fs4, k1, k2, rfl, -, -⟩ := mainLoop_at P B _ _ hg2 j ops' hops'
      rw [hj] at k1
      cases k1
      exact hother j f2 hj g4 fs4 k2
    have hacc : Accepted o t := (accepted_iff ..).2 ⟨hst.system, hst.tofo⟩
    have hacc' : Accepted { o with items := o.items ++ extra, stop := stop } t := (accepted_iff ..).2 ⟨hst.system, hst.tofo⟩
    obtain ⟨hlegT, name1, hn1, hn0⟩ := hl' f' (by simp) _ t h1 hacc'
    have hnn : name1 = name := by
      have h7 : LastComponent path name1 := by rw [← u1]; exact hn1
      rw [← basename_of_last h7, basename_of_last hlast]
    subst hnn
    have hops' := file_opsOk P f' _ t l xyz hst' g fs1 hlegT
    rw [hnew] at hops'
    obtain ⟨w1, er1, hr1, her1⟩ := (file_ok P f g fs1 o t l xyz hst hg).fs
    obtain ⟨w2, er2, hr2, -⟩ := (file_ok P f' g fs1 _ t l xyz hst' hg).fs
    simp only at hr2
    rw [hnew] at hr2
    have her : er1 = none := by
      rcases her1 with h | h
      · exact h
      · rw [h, he]
    obtain ⟨text, tail, g1, g2⟩ := C53_grows P.env P.cfg o.filename name1 hn1 hn0 ho1 ho2 o.interval _ _ new hops' fs1 (by rw [hr1]; exact her) sat e v
      ((mem_writesOf ..).2 hw)
    rw [hr1, hod] at g1
    rw [hr2, hod] at g2
    refine ⟨text, tail, ?_, ?_⟩
    · simp only [mainLoop, he]
      rw [hrest _ _ hg1]
      exact g1
    · simp only [mainLoop]
      cases he' : (processFile P f' g fs1).err with
      | some er => exact g2
      | none =>
        simp only
        rw [hrest _ _ (file_ginv P f' _ _ hg he')]
        exact g2

/-! ## Opening the longer file -/

/-- C92: a file is opened with the same header values, the same interval and the same observations when lines are added behind it; more observations may
follow.  The file may be of any kind, also one that does not end well. -/
theorem C92_any (D D' : Disk) (fuel : Nat) (path : Str) (A more : List Str) (o : ObsIn) (r : Except PyErr ObsIn) (hA : ReadAs D path A)
    (hA' : ReadAs D' path (A ++ more)) (hh : HeaderEnds A) (h : obsFile D fuel path = some (.ok o)) (h10 : 10 ≤ epochChanges o.items)
    (h' : obsFile D' fuel path = some r) : ∃ o', r = .ok o' ∧ Continues o o' :=
  obsFile_tail (fetchObs_read hA) (fetchObs_read hA') hh h (.inl h10) h'

theorem spacings_distinct (l : List DateTime) (h : l.Pairwise fun a b => instant a < instant b) : (spacings l).length = l.length - 1 := by
  induction l with
  | nil => rfl
  | cons a l ih =>
    cases l with
    | nil => rfl
    | cons b l =>
      have hne : a ≠ b := by
        rintro rfl
        have := (List.pairwise_cons.1 h).1 a (by simp)
        omega
      have := ih (List.pairwise_cons.1 h).2
      unfold spacings at this ⊢
      simp only [List.tail_cons, List.zip_cons_cons, List.filter_cons, ne_eq, hne, not_false_eq_true, decide_true, if_true, List.map_cons, List.length_cons] at this ⊢
      rw [this]
      omega

theorem changes_epochs (ts : List Str) (p : Pos) (es : List Epoch) (h : ∀ e ∈ es, e.sats ≠ []) (hinc : es.Pairwise fun a b => instant a.time < instant b.time) :
    epochChanges (es.flatMap (Epoch.items ts p)) = es.length - 1 := by
  unfold epochChanges
  have he : (es.flatMap (Epoch.items ts p)).filterMap (·.epoch) = (es.map fun e => List.replicate e.sats.length e.time).flatten := by
    clear h hinc
    induction es with
    | nil => rfl
    | cons e es ih =>
      simp only [List.flatMap_cons, List.filterMap_append, List.map_cons, List.flatten_cons, ih, Epoch.items, List.filterMap_map, Function.comp_def]
      congr 1
      generalize e.sats = l
      induction l with
      | nil => rfl
      | cons a l ih => simp only [List.filterMap_cons, List.length_cons, List.replicate_succ, ih]
  rw [he, spacings_epochs es h, spacings_distinct]
  · simp
  · rw [List.pairwise_map]; exact hinc

/-- C92, RINEX 2: a file with at least eleven epochs and any lines behind it -/
theorem C92_open2 (D D' : Disk) (fuel : Nat) (path : Str) (file more : List Str) (v : Nat) (sys : Char) (hs : List HLine) (ts : List Str) (es : List Epoch)
    (hr : ReadAs D path file) (hr' : ReadAs D' path (file ++ more)) (hf : File2 file v sys hs ts es) (h11 : 11 ≤ es.length) :
    ∃ o, Opened2 path v sys hs ts es o ∧ ∀ r, obsFile D' fuel path = some r → ∃ o', r = .ok o' ∧ Continues o o' := by
  obtain ⟨o, h1, h2⟩ := C73_open2 D fuel path file v sys hs ts es hr hf
  refine ⟨o, h2, fun r hr2 => C92_any D D' fuel path file more o r hr hr' ?_ h1 ?_ hr2⟩
  · obtain ⟨before, tls, after, hs1, hs2, f, d, endl, body, items, hf0, hs0, hd0, rfl, rfl, htl, h1, h2, hpre, hno, hend, hw, hes, hbody⟩ := hf.text
    exact ⟨_, _, _, rfl, hno, hend⟩
  · rw [h2.items, changes_epochs ts _ es hf.epochs hf.increasing]
    omega

/-- C92, RINEX 3: a file with two different epochs and any lines behind it -/
theorem C92_open3 (D D' : Disk) (path : Str) (file more : List Str) (v : Nat) (sys : Char) (es : List HEntry) (items : List Item3) (a b : DateTime)
    (hr : ReadAs D path file) (hr' : ReadAs D' path (file ++ more)) (hf : File3 file v sys es items a b) (hh : HeaderEnds file)
    (h2 : 1 ≤ epochChanges (items.flatMap (Item3.items (typeMapOf v es) (sitePos (linesOf es))))) :
    ∃ n o, Opened3 path v sys es items a b o ∧ ∀ fuel r, n ≤ fuel → obsFile D' fuel path = some r → ∃ o', r = .ok o' ∧ Continues o o' := by
  obtain ⟨n, o, h1, h3⟩ := C73_open3 D path file v sys es items a b hr hf
  refine ⟨n, o, h3, fun fuel r hn hr2 => obsFile_tail (fetchObs_read hr) (fetchObs_read hr') hh (h1 fuel hn) (.inr ⟨by rw [h3.items]; exact h2, v, ?_, ?_⟩) hr2⟩
  · obtain ⟨f, d, hdr, endl, body, hf0, hs0, hd0, rfl, hp, -, -, -, -⟩ := hf.text
    obtain ⟨w, r, hb, hws⟩ := physical_cons hp
    rw [hb]
    simp only [List.cons_append, List.headD_cons]
    refine obsVersion_written v ?_ f sys hf0 hs0 d hd0 w hws
    have := hf.version
    simp only [List.mem_cons, List.not_mem_nil, or_false] at this ⊢
    omega
  · have := hf.version
    simp only [List.mem_cons, List.not_mem_nil, or_false] at this
    omega

namespace ProgEx

/-- a file with twelve epochs -/
def longItems : List Item := (List.range 12).map fun k => .obs (epoch (2 * k))
def longLines : List Str :=
  [HLine.render 211 (.version 211 'O' 'M' obsWords), HLine.render 211 (.firstObs ⟨2017, 1, 2, 3, 4, 0, 0⟩ 0 (c% "GPS")), HLine.render 211 (.position 10000 20000 30000)] ++
    typeLines exTypes ++ [] ++ hline [] lblEnd :: bodyLines longItems
/-- one more epoch, and the remains of another -/
def moreLines : List Str := bodyLines [.obs (epoch 24)] ++ [c% " 17  1  2  3  4 26.00"]

def longDisk (ls : List Str) : Disk := { disk with lines := fun f p => if p = obsPath then (if f = .plain then .ok ls else .error .os) else disk.lines f p }

theorem longReadAs (ls : List Str) : ReadAs (longDisk ls) obsPath ls :=
  ⟨by decide, c% "d", c% "irkj0020.17o", false, false, .inr ⟨rfl, no_slash_mark⟩, obsName, rfl⟩

theorem longElsewhere (ls ls' : List Str) : Elsewhere (longDisk ls) (longDisk ls') obsPath where
  listing := fun _ => rfl
  present := fun _ => rfl
  lines := fun k p h => by simp only [longDisk, h, if_false]

theorem longPlain (ls : List Str) : PlainNames (longDisk ls) cfg.obsDir := plain

theorem longInputs (ls : List Str) : InputFiles (longDisk ls) cfg.obsDir [obsPath] := ⟨inputs.sorted, inputs.files⟩

theorem longNav (ls : List Str) : FileNames (longDisk ls) cfg.navDir := by
  intro d hd l hl n hn
  have hd : d ∈ [c% "n"] := hd
  rw [List.mem_singleton] at hd
  subst hd
  have hl : Except.ok [c% "BRDC00IGS_R_20170020000_01D_MN.rnx"] = Except.ok l := hl
  cases hl
  rw [List.mem_singleton] at hn
  subst hn
  decide

/-- the file of the example is one of those of `C92_open2` -/
theorem C92_hypotheses : File2 longLines 211 'M' head exTypes ((List.range 12).map fun k => epoch (2 * k)) where
  version := by decide
  text := by
    refine ⟨[HLine.render 211 (.version 211 'O' 'M' obsWords), HLine.render 211 (.firstObs ⟨2017, 1, 2, 3, 4, 0, 0⟩ 0 (c% "GPS")), HLine.render 211 (.position 10000 20000 30000)], typeLines exTypes, [],
      head, [], 'O', obsWords, hline [] lblEnd, bodyLines longItems, longItems,
      by decide, by decide, by decide, rfl, rfl, typeText_refl _, ?_, trivial, by decide +kernel, by decide +kernel, by decide +kernel, written_refl _, rfl, ?_⟩
    · exact ⟨⟨[], by simp, by simp⟩, ⟨[], by simp, by simp⟩, ⟨[], by simp, by simp⟩, trivial⟩
    · intro i hi
      obtain ⟨k, hk, rfl⟩ := List.mem_map.1 hi
      have := List.mem_range.1 hk
      exact ⟨epoch_ok (by omega), fun _ h => nomatch h⟩
  header := C73_hypotheses.header
  types := by decide
  epochs := by
    intro e he
    obtain ⟨k, -, rfl⟩ := List.mem_map.1 he
    simp [epoch]
  two := by decide
  increasing := by decide +kernel
  span := by decide +kernel

/-- all conditions of `C92_output` hold for the example; the file of R24 grows -/
theorem C92_example : ∃ r r', program ext (longDisk longLines) cfg 5 [] = some r ∧ program ext (longDisk (longLines ++ moreLines)) cfg 5 [] = some r' ∧
    r.err = none ∧ ∃ ops ops', r.calls[0]? = some ops ∧ r'.calls[0]? = some ops' ∧ (writesOf ops).length = 24 ∧ (writesOf ops').length = 26 ∧
      writesOf ops <+: writesOf ops' ∧ ∃ text tail, tail ≠ [] ∧ r.fs.get? (c% "out/2017/002/irkj/irkj_R24_002_17.dat") = some text ∧
        r'.fs.get? (c% "out/2017/002/irkj/irkj_R24_002_17.dat") = some (text ++ tail) := by
  have h1 : (program ext (longDisk longLines) cfg 5 []).map (fun r => (r.err, r.calls[0]?.map fun ops => (writesOf ops).length,
      (r.fs.get? (c% "out/2017/002/irkj/irkj_R24_002_17.dat")).map fun t => (splitOn '\n' t).length)) =
      some (none, some 24, some 24) := by decide +kernel
  have h0 : (program ext (longDisk longLines) cfg 5 []).map (fun r => r.calls[0]?.map fun ops => (writesOf ops)[1]?.map fun w => (w.1, w.2.1)) =
      some (some (some (c% "R24", ⟨2017, 1, 2, 3, 4, 0, 0⟩))) := by decide +kernel
  have h2 : (program ext (longDisk (longLines ++ moreLines)) cfg 5 []).map (fun r => (r.calls[0]?.map fun ops => (writesOf ops).length,
      (r.fs.get? (c% "out/2017/002/irkj/irkj_R24_002_17.dat")).map fun t => (splitOn '\n' t).length)) = some (some 26, some 25) := by decide +kernel
  obtain ⟨r, h3, h4⟩ := Option.map_eq_some_iff.1 h1
  obtain ⟨r', h5, h6⟩ := Option.map_eq_some_iff.1 h2
  simp only [Prod.mk.injEq] at h4 h6
  have h10 : ∀ o, obsFile (longDisk longLines) 5 obsPath = some (.ok o) → 10 ≤ epochChanges o.items ∨
      1 ≤ epochChanges o.items ∧ ∃ v, obsVersion (longLines.headD []) = .ok v ∧ 300 ≤ v := by
    intro o ho
    left
    obtain ⟨o1, k1, k2⟩ := C73_open2 (longDisk longLines) 5 obsPath longLines 211 'M' head exTypes _ (longReadAs _) C92_hypotheses
    rw [ho] at k1
    cases k1
    rw [k2.items, changes_epochs exTypes _ _ C92_hypotheses.epochs C92_hypotheses.increasing]
    decide
  have hh : HeaderEnds longLines := by
    obtain ⟨before, tls, after, hs1, hs2, f, d, endl, body, items, hf0, hs0, hd0, -, e, htl, h1, h2, hpre, hno, hend, -⟩ := C92_hypotheses.text
    rw [e]
    exact ⟨_, _, _, rfl, hno, hend⟩
  obtain ⟨ops, ops', k1, k2, k3, k4⟩ := C92_output ext (longDisk longLines) (longDisk (longLines ++ moreLines)) cfg 5 [] r r' [obsPath] 0 obsPath (c% "irkj0020.17o")
    longLines moreLines C77_hypotheses.2.1 (longPlain _) (longNav _) (longInputs _) onlyOne (by intro j hj; cases j with | zero => rfl | succ j => simp at hj) last C77_hypotheses.2.2
    (longElsewhere _ _) (longReadAs _) (longReadAs _) hh h10 h3 h4.1 h5
  rw [h3, Option.map_some, k1] at h0
  rw [k1] at h4
  rw [k2] at h6
  simp only [Option.map_some, Option.some.injEq] at h4 h6 h0
  refine ⟨r, r', h3, h5, h4.1, ops, ops', k1, k2, h4.2.1, h6.1, k3, ?_⟩
  obtain ⟨w, w1, w2⟩ := Option.map_eq_some_iff.1 h0
  obtain ⟨sat, e, v⟩ := w
  simp only [Prod.mk.injEq] at w2
  obtain ⟨rfl, rfl⟩ := w2
  obtain ⟨text, tail, t1, t2⟩ := k4 _ _ v (List.mem_of_getElem? w1)
  have hp : outputPath cfg.outDir ((c% "irkj0020.17o").take 4) (c% "R24") ⟨2017, 1, 2, 3, 4, 0, 0⟩ = c% "out/2017/002/irkj/irkj_R24_002_17.dat" := by decide +kernel
  rw [hp] at t1 t2
  refine ⟨text, tail, ?_, t1, t2⟩
  rintro rfl
  rw [t1] at h4
  rw [List.append_nil] at t2
  rw [t2] at h6
  have a1 := h4.2.2
  have a2 := h6.2
  simp only [Option.map_some, Option.some.injEq] at a1 a2
  omega

/-- the RINEX 3 file of C73 meets the conditions of `C92_open3` -/
theorem C92_hypotheses3 : File3 obsLines3 302 'M' entries3 exItems3 ⟨2017, 2, 28, 23, 59, 59, 999999⟩ ⟨2017, 3, 1, 0, 0, 30, 0⟩ ∧ HeaderEnds obsLines3 ∧
    1 ≤ epochChanges (exItems3.flatMap (Item3.items (typeMapOf 302 entries3) (sitePos (linesOf entries3)))) :=
  ⟨C73_hypotheses3.1, ⟨_, _, _, rfl, by decide +kernel, by decide +kernel⟩, by decide +kernel⟩

end ProgEx

end Verif.Props
