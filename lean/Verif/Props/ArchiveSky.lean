import Verif.Props.Archive
import Verif.Spec.ArchiveSky
/-!
# Property C107: the exceptions of the numerical functions
-/
namespace Verif.Props
open Verif.Py Verif.Model Verif.Model.DoubleGeo Verif.Spec Verif.Spec.Geo Verif.Proofs Verif.Proofs.Geo

theorem signSafe_binary64 : SignSafe Flt.binary64 := by
  have h0 : Verif.Py.rnd 0 = 0 := by unfold Verif.Py.rnd; rw [if_pos rfl]
  have hr : ∀ x, 0 ≤ x → 0 ≤ Verif.Py.rnd x := by
    intro x hx
    unfold Verif.Py.rnd
    split
    · exact le_rfl
    · refine mul_nonneg ?_ (by positivity)
      have hq : 0 ≤ x / (2 : ℝ) ^ max (Int.log 2 |x| - 52) (-1074) := div_nonneg hx (by positivity)
      generalize x / (2 : ℝ) ^ max (Int.log 2 |x| - 52) (-1074) = q at hq
      have hf : 0 ≤ ⌊q⌋ := Int.floor_nonneg.2 hq
      have : 0 ≤ nearestEven q := by
        unfold nearestEven
        split
        · exact hf
        · split
          · omega
          · split <;> omega
      exact_mod_cast this
  refine ⟨⟨h0, fun n hn => ?_⟩, hr, fun x n h => hr _ h⟩
  show Verif.Py.rnd (0 ^ n) = 0
  rw [zero_pow hn, h0]

theorem uncons {α : Type} {n : Nat} {l : List α} (h : n + 1 ≤ l.length) : ∃ a t, l = a :: t ∧ n ≤ t.length := by
  cases l with
  | nil => simp at h
  | cons a t => exact ⟨a, t, rfl, by simpa using h⟩

theorem divF_err {F : Flt} {x y : ℝ} {er : PyErr} (h : divF F x y = .error er) : Arithmetic er := by
  unfold divF at h
  split at h
  · cases h; exact .inl rfl
  · cases h

theorem glonass_raises (F : Flt) (hS : SignSafe F) (l : List ℝ) (h : 11 ≤ l.length) (dt : ℝ) (er : PyErr) (he : glonassSatXyzF F l dt = .error er) : Arithmetic er := by
  obtain ⟨a0, l0, rfl, u0⟩ := uncons h
  obtain ⟨a1, l1, rfl, u1⟩ := uncons u0
  obtain ⟨a2, l2, rfl, u2⟩ := uncons u1
  obtain ⟨a3, l3, rfl, u3⟩ := uncons u2
  obtain ⟨a4, l4, rfl, u4⟩ := uncons u3
  obtain ⟨a5, l5, rfl, u5⟩ := uncons u4
  obtain ⟨a6, l6, rfl, u6⟩ := uncons u5
  obtain ⟨a7, l7, rfl, u7⟩ := uncons u6
  obtain ⟨a8, l8, rfl, u8⟩ := uncons u7
  obtain ⟨a9, l9, rfl, u9⟩ := uncons u8
  obtain ⟨a10, l10, rfl, u10⟩ := uncons u9
  unfold glonassSatXyzF at he
  simp only at he
  split at he
  · cases he
  · rw [sqrtF_ok _ _ (hS.rnd _ (add_nonneg (hS.rnd _ (add_nonneg (hS.pow _ _ (sq_nonneg _)) (hS.pow _ _ (sq_nonneg _)))) (hS.pow _ _ (sq_nonneg _))))] at he
    simp only at he
    split at he
    · rename_i h1
      cases he
      exact divF_err h1
    · split at he
      · rename_i h1
        cases he
        exact divF_err h1
      · cases he

theorem kepler_raises (F : Flt) (fuel : ℕ) : ∀ e0 mk ek ek1 prv cur er, keplerLoopF F fuel e0 mk ek ek1 prv cur = .error er → Arithmetic er := by
  induction fuel with
  | zero =>
    intro e0 mk ek ek1 prv cur er h
    unfold keplerLoopF at h
    split at h <;> cases h
  | succ fuel ih =>
    intro e0 mk ek ek1 prv cur er h
    unfold keplerLoopF at h
    split at h
    · cases h
    · simp only at h
      split at h
      · rename_i h1
        cases h
        exact divF_err h1
      · exact ih _ _ _ _ _ _ _ h

theorem gps_raises (F : Flt) (hF : Accurate F) (hS : SignSafe F) (fuel : ℕ) (l : List ℝ) (h : 17 ≤ l.length) (hecc : ∀ x : ℝ, l[5]? = some x → |x| ≤ 0.99) (sec : ℝ) (er : PyErr)
    (he : gpsSatXyzF F fuel l sec = .error er) : Arithmetic er := by
  obtain ⟨a0, l0, rfl, u0⟩ := uncons h
  obtain ⟨a1, l1, rfl, u1⟩ := uncons u0
  obtain ⟨a2, l2, rfl, u2⟩ := uncons u1
  obtain ⟨a3, l3, rfl, u3⟩ := uncons u2
  obtain ⟨a4, l4, rfl, u4⟩ := uncons u3
  obtain ⟨a5, l5, rfl, u5⟩ := uncons u4
  obtain ⟨a6, l6, rfl, u6⟩ := uncons u5
  obtain ⟨a7, l7, rfl, u7⟩ := uncons u6
  obtain ⟨a8, l8, rfl, u8⟩ := uncons u7
  obtain ⟨a9, l9, rfl, u9⟩ := uncons u8
  obtain ⟨a10, l10, rfl, u10⟩ := uncons u9
  obtain ⟨a11, l11, rfl, u11⟩ := uncons u10
  obtain ⟨a12, l12, rfl, u12⟩ := uncons u11
  obtain ⟨a13, l13, rfl, u13⟩ := uncons u12
  obtain ⟨a14, l14, rfl, u14⟩ := uncons u13
  obtain ⟨a15, l15, rfl, u15⟩ := uncons u14
  obtain ⟨a16, l16, rfl, u16⟩ := uncons u15
  have hx : |a5| ≤ 0.99 := hecc a5 rfl
  unfold gpsSatXyzF at he
  simp only at he
  split at he
  · rename_i h1
    cases he
    exact divF_err h1
  · rename_i q hq
    have hq0 : 0 ≤ q := by
      unfold divF at hq
      split at hq
      · cases hq
      · cases hq
        refine hS.rnd _ (div_nonneg (hS.rnd _ (by norm_num)) (hS.pow _ _ (pow_nonneg (hS.pow _ _ (sq_nonneg _)) _)))
    rw [sqrtF_ok _ _ hq0] at he
    simp only at he
    split at he
    · rename_i h1
      cases he
      exact kepler_raises F _ _ _ _ _ _ _ _ h1
    · cases he
    · split at he
      · rename_i h1
        cases he
        unfold gpsAfterF at h1
        have hw : 0 ≤ F.rnd (1 - F.pow a5 2) := by
          refine hS.rnd _ ?_
          have h2 := abs_le.1 (hF.pow a5 2)
          rw [sq_abs] at h2
          have h3 : a5 ^ 2 ≤ 0.9801 := by
            rw [← sq_abs]
            refine (pow_le_pow_left₀ (abs_nonneg _) hx 2).trans (by norm_num)
          have h4 := sq_nonneg a5
          norm_num at h2 h3 ⊢
          linarith [h2.2]
        rw [sqrtF_ok _ _ hw] at h1
        simp only at h1
        split at h1
        · rename_i h2
          cases h1
          exact divF_err h2
        · split at h1
          · rename_i h2
            cases h1
            exact divF_err h2
          · cases h1
      · cases he

theorem lat_raises (F : Flt) (hF : Accurate F) (fuel : ℕ) : ∀ Q z b er, latLoopF F fuel Q z b ≠ .error er := by
  induction fuel with
  | zero => intro Q z b er h; cases h
  | succ n ih =>
    intro Q z b er h
    rw [latLoopF_succ F hF] at h
    split at h
    · cases h
    · exact ih _ _ _ _ h

theorem lbh_raises (F : Flt) (hF : Accurate F) (hS : SignSafe F) (fuel : ℕ) (x y z : ℝ) (er : PyErr) (h : xyz2lbhF F fuel x y z = .error er) : er = .zeroDiv := by
  have hd : ∀ {a b : ℝ}, divF F a b = .error er → er = .zeroDiv := by
    intro a b h
    unfold divF at h
    split at h
    · cases h; rfl
    · cases h
  unfold xyz2lbhF at h
  rw [sqrtF_ok _ _ (hS.rnd _ (add_nonneg (hS.pow _ _ (sq_nonneg _)) (hS.pow _ _ (sq_nonneg _))))] at h
  simp only at h
  split at h
  · rename_i h1
    cases h
    exact hd h1
  · split at h
    · rename_i h1
      cases h
      exact hd h1
    · split at h
      · rename_i h1
        exact absurd h1 (lat_raises F hF _ _ _ _ _)
      · cases h
      · cases h

/-- the geodetic coordinates are computed for every position -/
theorem lbhDeg_raises (F : Flt) (hF : Accurate F) (hS : SignSafe F) (fuel : ℕ) (x y z : ℝ) (er : PyErr) : xyz2lbhDegF F fuel x y z ≠ .error er := by
  intro h
  unfold xyz2lbhDegF at h
  split at h
  · cases h
  · cases h
  · rename_i e h0 h1 h2
    exact h0 (lbh_raises F hF hS fuel x y z e h2)
  · cases h
  · cases h

/-- at the centre of the Earth -/
theorem lbh_origin (F : Flt) (hS : SignSafe F) (fuel : ℕ) : xyz2lbhF F fuel 0 0 0 = .error .zeroDiv := by
  unfold xyz2lbhF
  rw [hS.zero.2 2 (by norm_num), add_zero, hS.zero.1, sqrtF_ok _ _ le_rfl, Real.sqrt_zero, hS.zero.1]
  simp only [divF, if_pos]

theorem look_raises (F : Flt) (hF : Accurate F) (hS : SignSafe F) (fuel : ℕ) (hf : 8 ≤ fuel) (x s : Pos) (er : PyErr)
    (hx : x = ⟨0, 0, 0⟩ ∨ ∃ l b h ls bs hs, StationAt x l b h ∧ SatelliteAt s ls bs hs ∧ Spec.Geo.dot (Spec.Geo.up l b) (Spec.Geo.up ls bs) ^ 2 ≤ 1 - 1e-10)
    (he : computeElAzF F fuel (vec x) (vec s) = .error er) : Arithmetic er := by
  rcases hx with rfl | ⟨l0, b0, h0, ls, bs, hs', hst, hsa, hc1⟩
  · unfold computeElAzF vec at he
    simp only [Rat.cast_zero, lbh_origin F hS] at he
    cases he
    exact .inl rfl
  · obtain ⟨s1, s2, s3⟩ := station_len hst
    obtain ⟨L0, B0, H0, hres0, ⟨k0, hL0⟩, hB0, -⟩ := C96_geodetic F hF fuel l0 b0 h0 _ _ _ hst.latitude s1 hst.position s2 s3 hst.axis hf
    obtain ⟨Ls, Bs, Hs, hress, ⟨ks, hLs⟩, hBs, -⟩ := C96_geodetic F hF fuel ls bs hs' _ _ _ hsa.latitude hsa.height hsa.position (le_trans (by norm_num) hsa.distance.1) hsa.distance.2 hsa.axis hf
    have lonApp : ∀ x y z L B H l : ℝ, ∀ k : ℤ, xyz2lbhF F fuel x y z = .ok (some (L, B, H)) → Within 2e-15 L (l + 2 * Real.pi * k) → Appr L (l + 2 * Real.pi * k) 5 2e-15 := by
      intro x y z L B H l k hres hL
      have hLb : -3.15 ≤ L ∧ L ≤ 4.8 := by rw [xyz2lbhF_lon F fuel x y z L B H hres]; exact lonF_bound F hF x y
      refine ⟨?_, hL⟩
      unfold Within at hL
      have h1 := abs_le.1 hL
      rw [abs_le]
      norm_num at h1 hLb ⊢
      constructor <;> linarith
    have hcn := arc_near F hF l0 b0 ls bs L0 B0 Ls Bs k0 ks (lonApp _ _ _ _ _ _ _ _ hres0 hL0) (lonApp _ _ _ _ _ _ _ _ hress hLs) hB0 hBs
    unfold computeElAzF vec at he
    simp only at he
    rw [hres0, hress] at he
    simp only at he
    rw [sqrtF_ok _ _ (hS.rnd _ (add_nonneg (hS.rnd _ (add_nonneg (hS.pow _ _ (sq_nonneg _)) (hS.pow _ _ (sq_nonneg _)))) (hS.pow _ _ (sq_nonneg _))))] at he
    simp only at he
    set C := F.rnd (F.rnd (F.sin B0 * F.sin Bs) + F.rnd (F.rnd (F.cos B0 * F.cos Bs) * F.cos (F.rnd (Ls - L0))))
    set c := Spec.Geo.dot (Spec.Geo.up l0 b0) (Spec.Geo.up ls bs)
    have hw : 0 ≤ F.rnd (1 - F.pow C 2) := by
      refine hS.rnd _ ?_
      have h2 := abs_le.1 (hF.pow C 2)
      rw [sq_abs] at h2
      have hcb : |c| ≤ 1 := (sq_le_one_iff_abs_le_one c).1 (hc1.trans (by norm_num))
      have h3 : C ^ 2 - c ^ 2 = (C - c) * (C - c + 2 * c) := by ring
      have h4 : |C ^ 2 - c ^ 2| ≤ 874e-16 * 3 := by
        rw [h3, abs_mul]
        refine mul_le_mul hcn ?_ (abs_nonneg _) (by norm_num)
        refine (abs_add_le _ _).trans ?_
        rw [abs_mul, abs_two]
        norm_num at hcn ⊢
        linarith
      have h5 := (abs_le.1 h4).2
      have h6 := sq_nonneg C
      norm_num at h2 h5 hc1 ⊢
      linarith [h2.2]
    rw [sqrtF_ok _ _ hw] at he
    simp only at he
    split at he
    · rename_i h1
      cases he
      exact divF_err h1
    · split at he
      · rename_i h1
        cases he
        exact divF_err h1
      · split at he
        · rename_i h1
          cases he
          exact divF_err h1
        · cases he

/-- the geodetic coordinates of a station are computed -/
theorem lbhDeg_ground (F : Flt) (hF : Accurate F) (hS : SignSafe F) (x : Pos) (h : OnGround x) : ∃ v, xyz2lbhDegF F 8 x.x x.y x.z = .ok (some v) := by
  rcases h with rfl | ⟨l0, b0, h0, hst⟩
  · unfold xyz2lbhDegF
    simp only [Rat.cast_zero, lbh_origin F hS]
    exact ⟨_, rfl⟩
  · obtain ⟨s1, s2, s3⟩ := station_len hst
    obtain ⟨L0, B0, H0, hres0, -⟩ := C96_geodetic F hF 8 l0 b0 h0 _ _ _ hst.latitude s1 hst.position s2 s3 hst.axis le_rfl
    unfold xyz2lbhDegF
    simp only [hres0]
    exact ⟨_, rfl⟩

/-! ### C107 -/

theorem values_fin (m : NavMsg) : ∃ q : List Rat, m.values = q.map .fin := by
  refine ⟨m.rows.flatMap fun r => r.fields.map fun f => f.value, ?_⟩
  rw [NavMsg.values, List.map_flatMap]
  simp [Function.comp_def]

theorem values_rows (m : NavMsg) : m.values.length = (m.rows.map fun r => r.fields.length).sum := by
  rw [NavMsg.values, List.length_flatMap]
  simp

/-- the ephemerides used are complete lists of numbers -/
theorem ephemeris_values (X : Ext) (D : Disk) (cfg : Cfg) (hcfg : Configured X cfg) (paths : List Str) (hnav : NavArchive D cfg paths) (path : Str) (hpath : path ∈ paths)
    (c : Char) (n : Int) (e : DateTime) (dt : Rat) (eph : List PyFloat) (hday : NamedDay path e.date) (hc : Processed c) (he : Legal e) (hy : 1000 ≤ e.year)
    (h : EphemerisIs (prmOf X D cfg) c n e dt eph) : ∃ q : List Rat, eph = q.map .fin ∧ q.length = (rowSizes c).sum := by
  rcases nav_data X D cfg hcfg paths hnav path hpath c e hday hc he hy with h1 | ⟨f', m', h1, -, h2⟩
  · obtain ⟨f, m, h4, -⟩ := h
    rcases h1 with h1 | h1 <;> rw [h1] at h4 <;> cases h4
  · obtain ⟨f, m, h4, h5⟩ := h
    rw [h1] at h4
    cases h4
    obtain ⟨τ, hm⟩ := C29_own e c n _ true dt eph h5
    obtain ⟨msg, k1, k2, rfl⟩ := h2 n τ eph hm
    obtain ⟨q, hq⟩ := values_fin msg
    refine ⟨q, hq, ?_⟩
    have := values_rows msg
    rw [hq, List.length_map, k1.2.2.2.2.1, k2] at this
    exact this

/-- C107: with the numerical functions of the program, in floating point, ephemerides with eccentricities of at most 0.99 and no satellite in the zenith, the only exceptions of the
numerical functions are arithmetic ones. -/
theorem C107_numerics (F : Flt) (hF : Accurate F) (hS : SignSafe F) (X : Ext) (D : Disk) (cfg : Cfg) (paths : List Str) (hcfg : Configured X cfg) (hyears : FourDigits paths)
    (hnav : NavArchive D cfg paths) (hR : Raises F (prmOf X D cfg)) (hgr : Grounded D cfg paths) (hecc : Eccentricities (prmOf X D cfg) paths) (hsky : NotInZenith (prmOf X D cfg) D paths) : Numerics X D cfg paths := by
  have hlbh : ∀ p, OnGround p → ∃ q, X.lbh p = .ok q := by
    intro p hp
    cases h : X.lbh p with
    | ok q => exact ⟨q, rfl⟩
    | error er =>
      rcases hR.lbh p er h with ⟨fuel, -, h⟩ | ⟨-, h⟩
      · exact absurd h (lbhDeg_raises F hF hS fuel _ _ _ er)
      · obtain ⟨v, hv⟩ := lbhDeg_ground F hF hS p hp
        rw [h 8 le_rfl] at hv
        cases hv
  refine ⟨fun path hpath fuel o ho => hlbh _ (hgr.own path hpath fuel o ho), fun path hpath it e x h1 h2 => hlbh _ (hgr.site path hpath it e x h1 h2), ?_, ?_⟩
  · intro path hpath c n e dt eph hday hleg hc he er h
    obtain ⟨q, rfl, hq⟩ := ephemeris_values X D cfg hcfg paths hnav path hpath c n e dt eph hday hc hleg (hyears path hpath e.date hday) he
    have kep : c = 'G' ∨ c = 'C' ∨ c = 'E' → Arithmetic er := by
      intro hk
      rcases hR.kepler c q dt er hk h with ⟨fuel, hf⟩ | ⟨ha, -⟩
      swap
      · exact ha
      refine gps_raises F hF hS fuel _ ?_ ?_ _ er hf
      · rw [List.length_map, hq]
        rcases hk with rfl | rfl | rfl <;> decide
      · intro x hx
        rw [List.getElem?_map, Option.map_eq_some_iff] at hx
        obtain ⟨y, hy, rfl⟩ := hx
        exact hecc path hpath c n e dt _ hday hk he y (by rw [List.getElem?_map, hy]; rfl)
    have mot : c = 'R' ∨ c = 'S' → Arithmetic er := by
      intro hk
      refine glonass_raises F hS _ ?_ _ er (hR.motion c q dt er hk h)
      rw [List.length_map, hq]
      rcases hk with rfl | rfl <;> decide
    rcases hc with rfl | rfl | rfl | rfl | rfl
    · exact kep (.inl rfl)
    · exact mot (.inl rfl)
    · exact mot (.inr rfl)
    · exact kep (.inr (.inl rfl))
    · exact kep (.inr (.inr rfl))
  · intro path hpath it c n e x s h1 h2 h3 h4 h5 h6 h7 er h
    rcases hR.elAz x s er h with ⟨fuel, hf, h⟩ | ⟨ha, -⟩
    swap
    · exact ha
    exact look_raises F hF hS fuel hf x s er (hsky path hpath it c n e x s h1 h2 h3 h6 h7) h

/-- C107: a run over an archive of well-formed files, with numerical functions that compute as the code does in floating point, ends, and ends normally. -/
theorem C107_run (F : Flt) (hF : Accurate F) (hS : SignSafe F) (X : Ext) (D : Disk) (cfg : Cfg) (fs : FS) (paths : List Str) (hcfg : Configured X cfg)
    (hn : PlainNames D cfg.obsDir) (hf : InputFiles D cfg.obsDir paths) (hne : paths ≠ []) (hyears : FourDigits paths)
    (hobs : ObsArchive D cfg paths) (hnav : NavArchive D cfg paths)
    (hR : Raises F (prmOf X D cfg)) (hgr : Grounded D cfg paths) (hecc : Eccentricities (prmOf X D cfg) paths) (hsky : NotInZenith (prmOf X D cfg) D paths) :
    ∃ n, ∀ fuel, n ≤ fuel → ∃ r, program X D cfg fuel fs = some r ∧ r.err = none :=
  C107_ends X D cfg fs paths hcfg hn hf hne hyears hobs hnav (C107_numerics F hF hS X D cfg paths hcfg hyears hnav hR hgr hecc hsky)

end Verif.Props
