import Verif.Proofs.Main
import Verif.Props.Tec
/-!
# Proofs: the record of an item
-/
namespace Verif.Proofs
open Verif.Py Verif.Model Verif.Spec Verif.Props

/-! ## observables -/

theorem family_unique (r : ObsRec) (n : Str) (v w : Option (Option Rat × Int × Int)) (hv : FamilyIs r n v) (hw : FamilyIs r n w) : v = w := by
  have mem : ∀ c x, r.get? c = some x → c ∈ r.keys := fun c x h => (Dict.get?_isSome_iff _ _).1 (by rw [h]; rfl)
  rcases hv with ⟨rfl, h1⟩ | ⟨c, x, rfl, hc, hm, hb⟩ <;> rcases hw with ⟨rfl, h2⟩ | ⟨d, y, rfl, hd, hm', hb'⟩
  · rfl
  · exact absurd hm' (h1 d (mem _ _ hd))
  · exact absurd hm (h2 c (mem _ _ hc))
  · have h1 := (strLe_iff c d).2 ((hb d (mem _ _ hd) hm').imp Eq.symm id)
    have h2 := (strLe_iff d c).2 ((hb' c (mem _ _ hc) hm).imp Eq.symm id)
    have := strLe_antisymm c d h1 h2
    subst this
    rw [hc] at hd
    rw [hd]

theorem family_parse (r : ObsRec) (n : Str) (F : Fam) (hF : (n, F) ∈ named) (hobs : n.length = 2) :
    ∃ v, FamilyIs r n v ∧ (parseRec r).get? F = some v := by
  rcases C41_choice r n F hF hobs with ⟨h1, h2⟩ | ⟨c, v, h1, h2, h3, h4⟩
  · exact ⟨none, .inl ⟨rfl, h1⟩, h2⟩
  · exact ⟨some v, .inr ⟨c, v, rfl, h1, h2, h3⟩, h4⟩

theorem ds_family (r : ObsRec) (n : Str) (F : Fam) (hF : (n, F) ∈ named) (hobs : n.length = 2) :
    ∃ v, FamilyIs r n v ∧ dsVal r F = v.bind (fun u => u.1) ∧ dsLli r F = v.map (fun u => u.2.1) := by
  obtain ⟨v, h1, h2⟩ := family_parse r n F hF hobs
  refine ⟨v, h1, ?_, ?_⟩
  · unfold dsVal; rw [h2]; cases v <;> rfl
  · unfold dsLli; rw [h2]; cases v <;> rfl

theorem mem_lliType (r : ObsRec) (b : Char) (F : Fam) (hF : (['L', b], F) ∈ named) (name o : Str) :
    o ∈ lliType r F name ↔ o = name ∧ ∃ v i j, FamilyIs r ['L', b] (some (v, i, j)) ∧ i % 2 = 1 := by
  obtain ⟨v, h1, -, h3⟩ := ds_family r _ F hF rfl
  unfold lliType
  rw [h3]
  cases v with
  | none =>
    simp only [Option.map_none, List.not_mem_nil, false_iff, not_and]
    rintro - ⟨v, i, j, h, -⟩
    cases family_unique _ _ _ _ h1 h
  | some u =>
    obtain ⟨v, i, j⟩ := u
    simp only [Option.map_some]
    split
    · rename_i hi
      simp only [List.mem_singleton]
      exact ⟨fun h => ⟨h, v, i, j, h1, hi.2⟩, fun h => h.1⟩
    · rename_i hi
      simp only [List.not_mem_nil, false_iff, not_and]
      rintro - ⟨v', i', j', h, hi'⟩
      cases family_unique _ _ _ _ h1 h
      exact hi ⟨by intro h0; subst h0; simp at hi', hi'⟩

theorem mem_validityTypes (r : ObsRec) (o : Str) : o ∈ validityTypes r ↔ Observed r o := by
  have h1 := mem_lliType r '1' Lbl.L1 (by decide) (c% "LLI1") o
  have h2 := mem_lliType r '2' Lbl.L2 (by decide) (c% "LLI2") o
  have h5 := mem_lliType r '5' Lbl.L5 (by decide) (c% "LLI5") o
  have h0 : o ∈ r.keys.filter (fun t => match r.get? t with | some (some v, _) => decide (v ≠ 0) | _ => false) ↔
      ∃ v i j, r.get? o = some (some v, i, j) ∧ v ≠ 0 := by
    rw [List.mem_filter, ← Dict.get?_isSome_iff]
    cases hg : r.get? o with
    | none => simp
    | some u =>
      obtain ⟨v, i, j⟩ := u
      cases v with
      | none => simp
      | some v => simp
  unfold validityTypes Observed
  simp only [List.mem_append, h1, h2, h5]
  constructor
  · rintro (((h | ⟨h, v, i, j, h'⟩) | ⟨h, v, i, j, h'⟩) | ⟨h, v, i, j, h'⟩)
    · exact .inl (h0.1 h)
    · exact .inr ⟨'1', v, i, j, by decide, h, h'⟩
    · exact .inr ⟨'2', v, i, j, by decide, h, h'⟩
    · exact .inr ⟨'5', v, i, j, by decide, h, h'⟩
  · rintro (h | ⟨b, v, i, j, hb, h, h'⟩)
    · exact .inl (.inl (.inl (h0.2 h)))
    · simp only [List.mem_cons, List.not_mem_nil, or_false] at hb
      rcases hb with rfl | rfl | rfl
      · exact .inl (.inl (.inr ⟨h, v, i, j, h'⟩))
      · exact .inl (.inr ⟨h, v, i, j, h'⟩)
      · exact .inr ⟨h, v, i, j, h'⟩

/-! ## TEC -/

theorem columnValue_is (onP onL onLC : Bool) (x y : Char) (v w f g r : Option Rat) (hon : (if x = 'l' then if y = 'l' then onL else onLC else onP) = true)
    (hg : x = 'l' → y ≠ 'l' → f = g) (h : columnValue onP onL onLC x y v w f g = .ok r) : TecIs x y v w f g r := by
  unfold columnValue at h
  unfold TecIs
  have nope : ∀ (v w f g : Option Rat), (v = none ∨ v = some 0 ∨ w = none ∨ w = some 0 ∨ f = none ∨ f = some 0 ∨ g = none ∨ g = some 0) →
      ¬ (∃ p q a b, v = some p ∧ w = some q ∧ f = some a ∧ g = some b ∧ p ≠ 0 ∧ q ≠ 0 ∧ a ≠ 0 ∧ b ≠ 0) := by
    rintro v w f g h ⟨p, q, a, b, rfl, rfl, rfl, rfl, h1, h2, h3, h4⟩
    simp only [Option.some.injEq, reduceCtorEq, false_or] at h
    tauto
  by_cases hx : x = 'l'
  · simp only [hx, if_true] at h hon ⊢
    by_cases hy : y = 'l'
    · simp only [hy, if_true] at h hon ⊢
      simp only [computeViaL, hon, if_true, viaL] at h
      split at h
      · cases h; exact .inr ⟨nope _ _ _ _ (by simp), rfl⟩
      · split at h
        · rename_i h0; cases h; subst h0; exact .inr ⟨nope _ _ _ _ (by simp), rfl⟩
        · rename_i g1 h0
          split at h
          · cases h; exact .inr ⟨nope _ _ _ _ (by simp), rfl⟩
          · split at h
            · rename_i h0; cases h; subst h0; exact .inr ⟨nope _ _ _ _ (by simp), rfl⟩
            · rename_i g2 h0'
              split at h
              · split at h
                · rename_i h0; cases h; subst h0; exact .inr ⟨nope _ _ _ _ (by simp), rfl⟩
                · split at h
                  · rename_i h0; cases h; subst h0; exact .inr ⟨nope _ _ _ _ (by simp), rfl⟩
                  · rename_i q1 q2 h1 h2
                    split at h
                    · cases h
                    · rename_i t ht
                      cases h
                      unfold tecFactor at ht
                      split at ht
                      · cases ht
                      · cases ht
                        refine .inl ⟨_, _, _, _, rfl, rfl, rfl, rfl, h1, h2, h0, h0', ?_⟩
                        unfold phaseTec lightSpeed
                        congr 1
                        ring
              · rename_i hno
                cases h
                refine .inr ⟨?_, rfl⟩
                rintro ⟨p, q, a, b, rfl, rfl, -⟩
                exact hno p q rfl rfl
    · simp only [hy, if_false] at h hon ⊢
      cases hg hx hy
      simp only [computeViaLC, hon, if_true, viaLC] at h
      cases h
      split
      · exact .inr ⟨nope _ _ _ _ (by simp), rfl⟩
      · split
        · rename_i h0; subst h0; exact .inr ⟨nope _ _ _ _ (by simp), rfl⟩
        · rename_i g1 h0
          split
          · split
            · rename_i h0; subst h0; exact .inr ⟨nope _ _ _ _ (by simp), rfl⟩
            · split
              · rename_i h0; subst h0; exact .inr ⟨nope _ _ _ _ (by simp), rfl⟩
              · rename_i q1 q2 h1 h2
                refine .inl ⟨_, _, _, _, rfl, rfl, rfl, rfl, h2, h1, h0, h0, ?_⟩
                unfold singleTec lightSpeed
                congr 1
                ring
          · rename_i hno
            refine .inr ⟨?_, rfl⟩
            rintro ⟨p, q, a, b, rfl, rfl, -⟩
            exact hno q p rfl rfl
  · simp only [hx, if_false] at h hon ⊢
    simp only [computeViaP, hon, if_true, viaP] at h
    split at h
    · cases h; exact .inr ⟨nope _ _ _ _ (by simp), rfl⟩
    · split at h
      · rename_i h0; cases h; subst h0; exact .inr ⟨nope _ _ _ _ (by simp), rfl⟩
      · rename_i g1 h0
        split at h
        · cases h; exact .inr ⟨nope _ _ _ _ (by simp), rfl⟩
        · split at h
          · rename_i h0; cases h; subst h0; exact .inr ⟨nope _ _ _ _ (by simp), rfl⟩
          · rename_i g2 h0'
            split at h
            · split at h
              · rename_i h0; cases h; subst h0; exact .inr ⟨nope _ _ _ _ (by simp), rfl⟩
              · split at h
                · rename_i h0; cases h; subst h0; exact .inr ⟨nope _ _ _ _ (by simp), rfl⟩
                · rename_i q1 q2 h1 h2
                  split at h
                  · cases h
                  · rename_i t ht
                    cases h
                    unfold tecFactor at ht
                    split at ht
                    · cases ht
                    · cases ht
                      refine .inl ⟨_, _, _, _, rfl, rfl, rfl, rfl, h1, h2, h0, h0', ?_⟩
                      unfold codeTec
                      congr 1
                      ring
            · rename_i hno
              cases h
              refine .inr ⟨?_, rfl⟩
              rintro ⟨p, q, a, b, rfl, rfl, -⟩
              exact hno p q rfl rfl

/-- the names of the TEC columns -/
theorem tec_columns (x a y b : Char) (kind : ColKind) (h : (['t', 'e', 'c', '.', x, a, y, b], kind) ∈ columns) :
    ['t', 'e', 'c', '.', x, a, y, b] ∈ R.TEC_ALL := by
  have : ∀ p ∈ columns, p.1.take 4 = c% "tec." → p.1 ∈ R.TEC_ALL := by
    have h2 : ∀ n ∈ columns.map (·.1), n.take 4 = c% "tec." → n ∈ R.TEC_ALL := by decide +kernel
    intro p hp
    exact h2 _ (List.mem_map_of_mem hp)
  exact this _ h rfl

/-- the TEC columns of the values -/
theorem chunk_tec (r : ObsRec) (t : Str → Option Rat) (v : Nat) (el az : Rat) (sp x l : Pos) (n : Str) (h : n ∈ R.TEC_ALL) :
    ColIs (chunk r t v el az sp x l) n ((t n).map fun q => .flt (.fin q)) := by
  simp only [R.TEC_ALL, List.mem_cons, List.not_mem_nil, or_false] at h
  rcases h with rfl | rfl | rfl | rfl | rfl | rfl | rfl | rfl | rfl | rfl | rfl | rfl | rfl | rfl | rfl | rfl | rfl
  · exact ⟨11, _, rfl, rfl⟩
  · exact ⟨27, _, rfl, rfl⟩
  · exact ⟨31, _, rfl, rfl⟩
  · exact ⟨6, _, rfl, rfl⟩
  · exact ⟨23, _, rfl, rfl⟩
  · exact ⟨32, _, rfl, rfl⟩
  · exact ⟨30, _, rfl, rfl⟩
  · exact ⟨33, _, rfl, rfl⟩
  · exact ⟨24, _, rfl, rfl⟩
  · exact ⟨49, _, rfl, rfl⟩
  · exact ⟨50, _, rfl, rfl⟩
  · exact ⟨43, _, rfl, rfl⟩
  · exact ⟨44, _, rfl, rfl⟩
  · exact ⟨45, _, rfl, rfl⟩
  · exact ⟨46, _, rfl, rfl⟩
  · exact ⟨47, _, rfl, rfl⟩
  · exact ⟨48, _, rfl, rfl⟩

/-- the observable columns of the values -/
theorem chunk_obs (r : ObsRec) (t : Str → Option Rat) (v : Nat) (el az : Rat) (sp x l : Pos) (col lli family : Str)
    (h : (col, lli, family) ∈ obsColumns) :
    ∃ u, FamilyIs r family u ∧ ColIs (chunk r t v el az sp x l) col (u.bind fun u => u.1.map fun q => .flt (.fin q)) ∧
      ColIs (chunk r t v el az sp x l) lli (u.map fun u => .int u.2.1) := by
  have key : ∀ (F : Fam) (i j : Nat) (ki kj : ColKind), (family, F) ∈ named → family.length = 2 →
      columns[i + 3]? = some (col, ki) → (chunk r t v el az sp x l)[i]? = some (fv (dsVal r F)) →
      columns[j + 3]? = some (lli, kj) → (chunk r t v el az sp x l)[j]? = some (iv (dsLli r F)) →
      ∃ u, FamilyIs r family u ∧ ColIs (chunk r t v el az sp x l) col (u.bind fun u => u.1.map fun q => .flt (.fin q)) ∧
        ColIs (chunk r t v el az sp x l) lli (u.map fun u => .int u.2.1) := by
    intro F i j ki kj hF hlen h1 h2 h3 h4
    obtain ⟨u, hu, hv, hl⟩ := ds_family r family F hF hlen
    refine ⟨u, hu, ⟨i, ki, h1, ?_⟩, ⟨j, kj, h3, ?_⟩⟩
    · rw [h2, hv]; unfold fv; cases u <;> rfl
    · rw [h4, hl]; unfold iv; cases u <;> rfl
  simp only [obsColumns, List.mem_cons, List.not_mem_nil, or_false, Prod.mk.injEq] at h
  rcases h with ⟨rfl, rfl, rfl⟩ | ⟨rfl, rfl, rfl⟩ | ⟨rfl, rfl, rfl⟩ | ⟨rfl, rfl, rfl⟩ | ⟨rfl, rfl, rfl⟩ | ⟨rfl, rfl, rfl⟩ | ⟨rfl, rfl, rfl⟩ |
    ⟨rfl, rfl, rfl⟩ | ⟨rfl, rfl, rfl⟩ | ⟨rfl, rfl, rfl⟩ | ⟨rfl, rfl, rfl⟩
  · exact key Lbl.P1 2 3 _ _ (by decide) rfl rfl rfl rfl rfl
  · exact key Lbl.P2 4 5 _ _ (by decide) rfl rfl rfl rfl rfl
  · exact key Lbl.C1 19 20 _ _ (by decide) rfl rfl rfl rfl rfl
  · exact key Lbl.C2 21 22 _ _ (by decide) rfl rfl rfl rfl rfl
  · exact key Lbl.C5 28 29 _ _ (by decide) rfl rfl rfl rfl rfl
  · exact key Lbl.L1 7 8 _ _ (by decide) rfl rfl rfl rfl rfl
  · exact key Lbl.L2 9 10 _ _ (by decide) rfl rfl rfl rfl rfl
  · exact key Lbl.L5 25 26 _ _ (by decide) rfl rfl rfl rfl rfl
  · exact key Lbl.S1 13 14 _ _ (by decide) rfl rfl rfl rfl rfl
  · exact key Lbl.S2 15 16 _ _ (by decide) rfl rfl rfl rfl rfl
  · exact key Lbl.S5 17 18 _ _ (by decide) rfl rfl rfl rfl rfl

/-! ## geometry -/

theorem ephemeris_iff (P : Prm) (c : Char) (n : Int) (e : DateTime) (dt : Rat) (eph : List PyFloat) :
    EphemerisIs P c n e dt eph ↔ selOf P c n e = .ok (some (dt, eph)) := by
  unfold EphemerisIs selOf tableOf
  cases h : P.load e.date c with
  | error er =>
    simp only [reduceCtorEq, false_and, exists_false, false_iff]
    intro h'
    unfold selectMessage at h'
    simp [Dict.get?] at h'
  | ok fm =>
    obtain ⟨f, m⟩ := fm
    simp only [Except.ok.injEq, Prod.mk.injEq]
    constructor
    · rintro ⟨f', m', ⟨rfl, rfl⟩, h'⟩; exact h'
    · intro h'; exact ⟨f, m, ⟨rfl, rfl⟩, h'⟩

theorem satAt_iff (P : Prm) (c : Char) (n : Int) (e : DateTime) (p : Pos) : SatAt P c n e p ↔ posOf P c n e = some p := by
  unfold SatAt posOf
  simp only [ephemeris_iff]
  constructor
  · rintro ⟨dt, eph, h1, h2⟩; rw [h1]; simp only [h2]
  · intro h
    cases hs : selOf P c n e with
    | error er => rw [hs] at h; cases h
    | ok r =>
      cases r with
      | none => rw [hs] at h; cases h
      | some de =>
        obtain ⟨dt, eph⟩ := de
        rw [hs] at h
        simp only at h
        cases hp : P.satPos c eph dt with
        | error er => rw [hp] at h; cases h
        | ok q => rw [hp] at h; cases h; exact ⟨dt, eph, rfl, hp⟩

theorem siteAt_iff (xyz : Dict DateTime Pos) (it : ObsItem) (e : DateTime) (x : Pos) : SiteAt xyz it e x ↔ x = siteOf xyz it e := by
  unfold SiteAt siteOf
  cases h : xyz.get? e with
  | none => simp
  | some p => simp [eq_comm]

theorem angles_iff (P : Prm) (c : Char) (n : Int) (e : DateTime) (x sp : Pos) (el az : Rat) :
    angles P c x (posOf P c n e) = .ok (some (sp, el, az)) ↔ DirectionIs P c n e x sp el az ∧ 0 ≤ el := by
  unfold angles DirectionIs
  simp only [satAt_iff]
  cases h : posOf P c n e with
  | none =>
    simp only [reduceCtorEq, false_and, not_false_eq_true, implies_true, true_and, false_or]
    cases hi : P.cfg.navIgnoreAbsence with
    | false => simp
    | true =>
      by_cases hR : c = 'R'
      · simp [hR]
      · simp only [hR, if_false, lt_self_iff_false, Bool.true_eq_false, Except.ok.injEq, Option.some.injEq, Prod.mk.injEq, ne_eq, not_false_eq_true,
          true_and]
        constructor
        · rintro ⟨rfl, rfl, rfl⟩; exact ⟨⟨rfl, rfl, rfl⟩, le_refl _⟩
        · rintro ⟨⟨rfl, rfl, rfl⟩, -⟩; exact ⟨rfl, rfl, rfl⟩
  | some p =>
    simp only [Option.some.injEq]
    have hno : ¬ ∀ q, ¬ p = q := fun h => h p rfl
    simp only [hno, false_and, and_false, or_false]
    cases hq : P.elAz x p with
    | error er =>
      simp only
      constructor
      · intro h; split at h <;> cases h
      · rintro ⟨⟨rfl, h⟩, -⟩; rw [hq] at h; cases h
    | ok r =>
      obtain ⟨el', az'⟩ := r
      simp only
      by_cases hlt : el' < 0
      · simp only [hlt, if_true, Except.ok.injEq, reduceCtorEq, false_iff, not_and, not_le]
        rintro ⟨rfl, h⟩
        rw [hq] at h; cases h; exact hlt
      · simp only [hlt, if_false, Except.ok.injEq, Option.some.injEq, Prod.mk.injEq]
        constructor
        · rintro ⟨rfl, rfl, rfl⟩; exact ⟨⟨rfl, hq⟩, not_lt.1 hlt⟩
        · rintro ⟨⟨rfl, h⟩, -⟩; rw [hq] at h; cases h; exact ⟨rfl, rfl, rfl⟩

theorem processed_mem (c : Char) : Processed c ↔ c ∈ supported := by
  unfold Processed supported; simp

theorem freqs_other (c : Char) (h : c ≠ 'R') (a b : Rat × Rat) : freqsOf c a = freqsOf c b := by
  unfold freqsOf; simp only [h, if_false]

/-- what `values` computes -/
theorem values_spec (P : Prm) (it : ObsItem) (c : Char) (hc : Processed c) (k : Rat) (el az : Rat) (sp x l : Pos) :
    ∃ d : Dict Str (Option Rat),
      (∀ x a y b, ['t', 'e', 'c', '.', x, a, y, b] ∈ R.TEC_ALL →
        ∃ F1 F2 r, ([upperObs x, a], F1) ∈ named ∧ ([upperObs y, b], F2) ∈ named ∧
          columnValue (onDemandP P.cfg.outFileModeText P.cfg.recFields) (onDemandL P.cfg.outFileModeText P.cfg.recFields)
            (onDemandLC P.cfg.outFileModeText P.cfg.recFields) x y (dsVal it.data F1) (dsVal it.data F2) (carrier c a k) (carrier c b k) = .ok r ∧
          d.get? ['t', 'e', 'c', '.', x, a, y, b] = some r) ∧
      values P it c (gloF1 k, gloF2 k) el az sp x l =
        (match it.types c with
        | none => .error .key
        | some ts =>
          match evalValidity ts (validityTypes it.data) with
          | .error .label => .ok none
          | .error e => .error e
          | .ok v => .ok (some (chunk it.data (fun n => (d.get? n).getD none) v el az sp x l))) := by
  have hs : c ∈ c% "GRSCE" := by
    unfold Processed at hc
    rcases hc with rfl | rfl | rfl | rfl | rfl <;> decide
  obtain ⟨f, d, h1, h2, h3⟩ := C46_columns (K := Rat) (onDemandP P.cfg.outFileModeText P.cfg.recFields) (onDemandL P.cfg.outFileModeText P.cfg.recFields)
    (onDemandLC P.cfg.outFileModeText P.cfg.recFields) c hs k (dsVal it.data)
  refine ⟨d, h3, ?_⟩
  unfold values
  rw [h1]
  simp only
  rw [h2]
  cases it.types c with
  | none => rfl
  | some ts =>
    simp only
    cases evalValidity ts (validityTypes it.data) with
    | ok v => rfl
    | error e => cases e <;> rfl

/-- the frequency number of an item with a direction -/
theorem frequency_of (P : Prm) (c : Char) (n : Int) (e : DateTime) (f1 f2 k : Rat)
    (h : (if c = 'R' then freqOf P n e else some (0, 0, 0)) = some (f1, f2, k)) :
    FrequencyNumber P c n e k ∧ ∀ (it : ObsItem) (el az : Rat) (sp x l : Pos), values P it c (f1, f2) el az sp x l = values P it c (gloF1 k, gloF2 k) el az sp x l := by
  by_cases hR : c = 'R'
  · subst hR
    simp only [if_true] at h
    unfold freqOf at h
    split at h
    · rename_i dt eph hs
      split at h
      · rename_i k' h7
        cases h
        exact ⟨.inl ⟨rfl, dt, eph, (ephemeris_iff ..).2 hs, h7⟩, fun _ _ _ _ _ _ => rfl⟩
      · cases h
    · cases h
  · simp only [hR, if_false] at h
    cases h
    refine ⟨.inr ⟨hR, rfl⟩, ?_⟩
    intro it el az sp x l
    unfold values
    rw [freqs_other c hR]

theorem switch_on (P : Prm) (ht : P.cfg.outFileModeText = true) (x a y b : Char) (hc : ['t', 'e', 'c', '.', x, a, y, b] ∈ R.TEC_ALL)
    (hr : ['t', 'e', 'c', '.', x, a, y, b] ∈ P.cfg.recFields)
    (h8 : ['t', 'e', 'c', '.', x, a, y, b] = c% "tec.l8c8" → c% "tec.l1c1" ∈ P.cfg.recFields ∨ c% "tec.l2c2" ∈ P.cfg.recFields) :
    (if x = 'l' then if y = 'l' then onDemandL P.cfg.outFileModeText P.cfg.recFields else onDemandLC P.cfg.outFileModeText P.cfg.recFields
      else onDemandP P.cfg.outFileModeText P.cfg.recFields) = true := by
  rw [ht]
  by_cases he : ['t', 'e', 'c', '.', x, a, y, b] = c% "tec.l8c8"
  · have := (C47_l8c8 P.cfg.recFields).2 (h8 he)
    simp only [List.cons.injEq, and_true, true_and] at he
    obtain ⟨rfl, rfl, rfl, rfl⟩ := he
    exact this
  · exact C47_computed P.cfg.recFields x a y b hc hr he

theorem switch_off (P : Prm) (ht : P.cfg.outFileModeText = true) (h1 : c% "tec.l1c1" ∉ P.cfg.recFields) (h2 : c% "tec.l2c2" ∉ P.cfg.recFields) :
    onDemandLC P.cfg.outFileModeText P.cfg.recFields = false := by
  rw [ht]
  have := (C47_l8c8 P.cfg.recFields).not.2 (by simp only [not_or]; exact ⟨h1, h2⟩)
  simpa [columnSwitch] using this

theorem band_single : ∀ q ∈ columnLetters, q.1 = 'l' → q.2.2.1 ≠ 'l' → q.2.1 = q.2.2.2 := by decide +kernel

theorem recOf_gives (P : Prm) (xyz : Dict DateTime Pos) (it : ObsItem) (c : Char) (n : Int) (e : DateTime) (hc : Processed c) (v : List (Option FVal))
    (h : recOf P xyz it c n e = .ok (some v)) : Gives P xyz it c n e v := by
  unfold recOf at h
  split at h
  · cases h
  rename_i l hl
  split at h
  · cases h
  · cases h
  rename_i sp el az ha
  split at h
  · cases h
  rename_i f1 f2 k hk
  obtain ⟨hfn, hval⟩ := frequency_of P c n e f1 f2 k hk
  obtain ⟨hd, hel⟩ := (angles_iff ..).1 ha
  rw [hval] at h
  obtain ⟨d, htec, hv⟩ := values_spec P it c hc k el az sp (siteOf xyz it e) l
  rw [hv] at h
  split at h
  · cases h
  rename_i ts hts
  split at h
  · cases h
  · cases h
  rename_i vd hvd
  simp only [Except.ok.injEq, Option.some.injEq] at h
  have hknown : ∀ o ∈ ts ++ validityTypes it.data, Known o := by
    by_contra hcon
    have := (C42_unknown ts (validityTypes it.data)).1 (by simpa using hcon)
    rw [this] at hvd; cases hvd
  obtain ⟨v', hv', hbits⟩ := C42_bits ts (validityTypes it.data) (fun o ho => hknown o (by simp [ho])) (fun o ho => hknown o (by simp [ho]))
  rw [hv'] at hvd; cases hvd
  subst h
  refine ⟨rfl, ⟨ts, hts, fun t ht => hknown t (by simp [ht]), fun t ht => hknown t (by simp [(mem_validityTypes _ _).2 ht])⟩, ?_, ?_, ?_, ?_, ?_⟩
  · exact ⟨siteOf xyz it e, l, sp, el, az, ⟨(siteAt_iff ..).2 rfl, hl, hd, hel, ⟨0, _, rfl, rfl⟩, ⟨1, _, rfl, rfl⟩,
      ⟨⟨34, _, rfl, rfl⟩, ⟨35, _, rfl, rfl⟩, ⟨36, _, rfl, rfl⟩⟩, ⟨⟨37, _, rfl, rfl⟩, ⟨38, _, rfl, rfl⟩, ⟨39, _, rfl, rfl⟩⟩,
      ⟨⟨40, _, rfl, rfl⟩, ⟨41, _, rfl, rfl⟩, ⟨42, _, rfl, rfl⟩⟩⟩⟩
  · intro col lli family hm
    exact chunk_obs _ _ _ _ _ _ _ _ _ _ _ hm
  · refine ⟨ts, vd, hts, ?_, ⟨12, _, rfl, rfl⟩⟩
    intro b
    rw [hbits b]
    have : HasBit b (validityTypes it.data) ↔ ∃ o, Observed it.data o ∧ ∃ n, bitFamily b = some n ∧ Member n o := by
      unfold HasBit
      simp only [mem_validityTypes]
    rw [this]
  · refine ⟨k, hfn, ?_⟩
    intro htext x a y b kind hcol hreq h8
    have hall := tec_columns x a y b kind hcol
    obtain ⟨F1, F2, r, m1, m2, hcv, hg⟩ := htec x a y b hall
    obtain ⟨u, hu, hu1, -⟩ := ds_family it.data _ F1 m1 rfl
    obtain ⟨w, hw, hw1, -⟩ := ds_family it.data _ F2 m2 rfl
    refine ⟨u, w, r, hu, hw, ?_, ?_⟩
    · rw [← hu1, ← hw1]
      refine columnValue_is _ _ _ x y _ _ _ _ _ (switch_on P htext x a y b hall hreq h8) ?_ hcv
      intro hx hy
      obtain ⟨q, hq, he⟩ := columns_shape _ hall
      simp only [List.cons.injEq, and_true, true_and] at he
      obtain ⟨rfl, rfl, rfl, rfl⟩ := he
      rw [band_single q hq hx hy]
    · have := chunk_tec it.data (fun n => (d.get? n).getD none) vd el az sp (siteOf xyz it e) l _ hall
      simp only [hg, Option.getD_some] at this
      exact this
  · intro htext h1 h2
    have hall : c% "tec.l8c8" ∈ R.TEC_ALL := by decide
    obtain ⟨F1, F2, r, -, -, hcv, hg⟩ := htec 'l' '8' 'c' '8' hall
    have hr : r = none := by
      have := switch_off P htext h1 h2
      rw [this] at hcv
      simpa [columnValue, computeViaLC] using hcv.symm
    have := chunk_tec it.data (fun n => (d.get? n).getD none) vd el az sp (siteOf xyz it e) l _ hall
    simp only [hg, Option.getD_some, hr] at this
    exact this

theorem recOf_none (P : Prm) (xyz : Dict DateTime Pos) (it : ObsItem) (c : Char) (n : Int) (e : DateTime) (hc : Processed c)
    (h : recOf P xyz it c n e = .ok none) : ∀ vals, ¬ Gives P xyz it c n e vals := by
  rintro vals ⟨-, ⟨types, ht1, ht2, ht3⟩, ⟨x, l, sp, el, az, hg⟩, -, -, -, -⟩
  have hx := (siteAt_iff ..).1 hg.site
  subst hx
  unfold recOf at h
  rw [hg.lbh] at h
  simp only at h
  rw [(angles_iff ..).2 ⟨hg.direction, hg.visible⟩] at h
  simp only at h
  split at h
  · cases h
  rename_i f1 f2 k hk
  obtain ⟨-, hval⟩ := frequency_of P c n e f1 f2 k hk
  obtain ⟨d, -, hv⟩ := values_spec P it c hc k el az sp (siteOf xyz it e) l
  rw [hval, hv, ht1] at h
  simp only at h
  obtain ⟨v, hv', -⟩ := C42_bits types (validityTypes it.data) ht2 (fun o ho => ht3 o ((mem_validityTypes _ _).1 ho))
  rw [hv'] at h
  cases h

theorem arith_iff (P : Prm) (c : Char) (n : Int) (e : DateTime) : ArithError P c n e ↔ posFlow P c n e = .skip := by
  unfold ArithError posFlow
  simp only [ephemeris_iff]
  constructor
  · rintro ⟨dt, eph, h1, h2 | h2⟩ <;> rw [h1] <;> simp [h2, arithmetic]
  · intro h
    split at h
    · cases h
    · cases h
    · rename_i dt eph hs
      split at h
      · rename_i er her
        split at h
        · rename_i hm
          refine ⟨dt, eph, hs, ?_⟩
          simp only [arithmetic, List.mem_cons, List.not_mem_nil, or_false] at hm
          rcases hm with rfl | rfl
          · exact .inl her
          · exact .inr her
        · cases h
      · split at h
        · split at h <;> cases h
        · cases h

end Verif.Proofs
