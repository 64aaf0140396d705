import Verif.Props.Program
import Verif.Props.NavFile
import Verif.Props.Select
/-!
# Property C75: the ephemeris used for a record comes from the right message of the right navigation file
-/
namespace Verif.Props
open Verif.Py Verif.Model Verif.Spec Verif.Proofs

/-! ## the message -/

theorem weekStart_legal (c : Char) : Legal (weekStart c) := by
  unfold weekStart
  split
  · unfold Legal LegalDate; decide
  · split <;> (unfold Legal LegalDate; decide)

theorem weekSecond_unique {start t : DateTime} {s s' : Int} (h : WeekSecond start t s) (h' : WeekSecond start t s') : s = s' := by
  obtain ⟨a1, a2, w, us, a3, a4, a5⟩ := h
  obtain ⟨b1, b2, w', us', b3, b4, b5⟩ := h'
  omega

theorem weekSecond_iff (c : Char) (e : DateTime) (he : Legal e) (hs : instant (weekStart c) ≤ instant e) (dt : Rat) :
    weekSecond e c = dt ↔ ∃ s, WeekSecond (weekStart c) e s ∧ dt = (s : Rat) := by
  have : weekSecond e c = getWeekSec e (weekStart c) := rfl
  rw [this]
  obtain ⟨s, h1, h2⟩ := C33_week e (weekStart c) he (weekStart_legal c) hs
  rw [h1]
  constructor
  · rintro rfl; exact ⟨s, h2, rfl⟩
  · rintro ⟨s', h3, rfl⟩
    rw [weekSecond_unique h2 h3]

theorem msg_unique {M : Messages} {c : Char} {n : Int} {τ : Nat} {v w : List PyFloat} (h : Msg M c n τ v) (h' : Msg M c n τ w) : v = w := by
  obtain ⟨a, b, h1, h2, h3⟩ := h
  obtain ⟨a', b', h1', h2', h3'⟩ := h'
  rw [h1] at h1'; cases h1'
  rw [h2] at h2'; cases h2'
  rw [h3] at h3'; cases h3'
  rfl

theorem ageLimit_some {c : Char} (hc : Processed c) : ∃ l, ageLimit c = some l := by
  unfold Processed at hc
  unfold ageLimit
  rcases hc with rfl | rfl | rfl | rfl | rfl <;> simp

/-- C75, the message: what is selected, as one equivalence -/
theorem C75_message (M : Messages) (c : Char) (n : Int) (e : DateTime) (hc : Processed c) (he : Legal e)
    (hs : c ≠ 'R' → c ≠ 'S' → instant (weekStart c) ≤ instant e) (dt : Rat) (v : List PyFloat) :
    selectMessage e c n M true = .ok (some (dt, v)) ↔ ∃ τ, Chosen (Msg M c n) c e τ v ∧ TimeArg c e τ dt := by
  have harg : ∀ τ, (if c = 'G' ∨ c = 'C' ∨ c = 'E' then weekSecond e c else (age (timeOfDay e) τ : Rat)) = dt ↔ TimeArg c e τ dt := by
    intro τ
    unfold TimeArg
    by_cases hg : c = 'G' ∨ c = 'C' ∨ c = 'E'
    · rw [if_pos hg, if_pos hg]
      exact weekSecond_iff c e he (hs (by rintro rfl; revert hg; decide) (by rintro rfl; revert hg; decide)) dt
    · rw [if_neg hg, if_neg hg]
      exact eq_comm
  by_cases hsat : HasSat M c n
  swap
  · rw [C29_absent e c n M true hsat]
    constructor
    · intro h; cases h
    · rintro ⟨τ, h, -⟩
      exfalso
      apply hsat
      have : Msg M c n τ v := by cases h <;> assumption
      obtain ⟨a, b, h1, h2, -⟩ := this
      exact ⟨a, b, h1, h2⟩
  by_cases hex : ∃ w, Msg M c n (timeOfDay e) w
  · obtain ⟨w, hw⟩ := hex
    have hage : age (timeOfDay e) (timeOfDay e) = 0 := by unfold age; omega
    have := harg (timeOfDay e)
    rw [hage] at this
    rw [C30_exact e c n M true w hw]
    simp only [Except.ok.injEq, Option.some.injEq, Prod.mk.injEq]
    constructor
    · rintro ⟨h1, rfl⟩
      exact ⟨timeOfDay e, .exact hw rfl, this.1 (by simpa using h1)⟩
    · rintro ⟨τ, h, ht⟩
      cases h with
      | exact hm hτ =>
        subst hτ
        exact ⟨by simpa using this.2 ht, msg_unique hw hm⟩
      | first h => exact absurd hw (h w)
      | window _ h => exact absurd hw (h w)
  have hno : ∀ w, ¬ Msg M c n (timeOfDay e) w := fun w h => hex ⟨w, h⟩
  by_cases hg : c = 'G' ∨ c = 'C'
  · have hg3 : c = 'G' ∨ c = 'C' ∨ c = 'E' := by tauto
    simp only [if_pos hg3] at harg
    by_cases hany : ∃ τ w, Msg M c n τ w
    · classical
      have hmin := Nat.find_spec hany
      obtain ⟨w, hw⟩ := hmin
      have hle : ∀ τ' w', Msg M c n τ' w' → Nat.find hany ≤ τ' := fun τ' w' h => Nat.find_min' hany ⟨w', h⟩
      rw [C32_first e c n M hg hno _ w hw hle]
      simp only [Except.ok.injEq, Option.some.injEq, Prod.mk.injEq]
      constructor
      · rintro ⟨h1, rfl⟩
        exact ⟨_, .first hno hg hw hle, (harg _).1 h1⟩
      · rintro ⟨τ, h, ht⟩
        refine ⟨(harg τ).2 ht, ?_⟩
        cases h with
        | exact hm hτ => exact absurd (hτ ▸ hm) (hno _)
        | first _ _ hm hl =>
          have : τ = Nat.find hany := Nat.le_antisymm (hl _ _ hw) (hle _ _ hm)
          subst this
          exact msg_unique hw hm
        | window _ _ h1 h2 => exact absurd hg (by tauto)
    · constructor
      · intro h
        obtain ⟨τ, h⟩ := C29_own e c n M true dt v h
        exact absurd ⟨τ, v, h⟩ hany
      · rintro ⟨τ, h, -⟩
        exact absurd ⟨τ, v, by cases h <;> assumption⟩ hany
  · obtain ⟨limit, hl⟩ := ageLimit_some hc
    obtain ⟨r, h1, h2, h3⟩ := C31_window e c n M true limit hl (fun h => absurd h hg) hsat hno
    rw [h1]
    simp only [Except.ok.injEq]
    constructor
    · rintro rfl
      obtain ⟨τ, hm, ⟨hw, hearly⟩, hx⟩ := h3 dt v rfl
      exact ⟨τ, .window limit hno (by tauto) (by tauto) hl hm hw hearly, (harg τ).1 hx.symm⟩
    · rintro ⟨τ, h, ht⟩
      cases h with
      | exact hm hτ => exact absurd (hτ ▸ hm) (hno _)
      | first _ h => exact absurd h hg
      | window limit' _ _ _ hl' hm hw hearly =>
        rw [hl] at hl'; cases hl'
        cases r with
        | none => exact absurd hw (h2.1 rfl τ v hm)
        | some p =>
          obtain ⟨x, w⟩ := p
          obtain ⟨τ', hm', ⟨hw', hearly'⟩, hx⟩ := h3 x w rfl
          have : τ = τ' := Nat.le_antisymm (hearly _ _ hm' hw'.1 hw'.2) (hearly' _ _ hm hw.1 hw.2)
          subst this
          rw [msg_unique hm' hm, hx, (harg τ).2 ht]

/-! ## the file -/

theorem doy_start (e : DateTime) : doy (Date.start e.date) = doy e := rfl

theorem navCandidates_start (dirs : List (Str × List Str)) (c : Char) (e : DateTime) :
    navCandidates dirs c (Date.start e.date) = navCandidates dirs c e := rfl

theorem legal_start {e : DateTime} (he : Legal e) : Legal (Date.start e.date) := by
  unfold Legal at he ⊢
  simp only [Date.start, DateTime.date]
  exact ⟨he.1, by omega, by omega, by omega, by omega⟩

theorem loadFor_iff (D : Disk) (cfg : Cfg) (c : Char) (e : DateTime) (f : Str) (he : Legal e) (hy : 1000 ≤ e.year) (hf : NavChoice D cfg c e f) :
    loadFor D cfg e.date c = (match navFileOf D f with
      | .error er => .error er
      | .ok T => match T.get? c with
        | none => .error .nm
        | some m => .ok (f, m)) := by
  obtain ⟨priority, ls, h1, h2, h3⟩ := hf.choice
  have hl := (listDirs_iff D cfg.navDir (cfg.navDir.zip ls)).2 ⟨ls, h2, rfl⟩
  have hd : ∀ d ∈ cfg.navDir.zip ls, d.1 ≠ [] ∧ d.1.getLast? ≠ some '/' := fun d hd => hf.dirs d.1 (List.of_mem_zip hd).1
  have hls := legal_start he
  rw [← navCandidates_start] at h3
  have hch := (C35_choice (cfg.navDir.zip ls) (Date.start e.date) c priority hls hy hd f).1.2 h3
  unfold loadFor
  rw [h1]
  simp only [hl, hch]
  unfold loadNavigationMessage
  rw [hch]
  simp only
  cases hn : navFileOf D f with
  | error er => rfl
  | ok T =>
    simp only
    unfold Dict.has
    cases hT : T.get? c with
    | none => rfl
    | some m => simp [hT]

theorem packed_iff (path : Str) (h : '\n' ∉ path) : reZ.accepts path = true ↔ Packed path := by
  rw [reZ_accepts path h]
  unfold Packed Suffix
  simp

theorem fetchNav_read {D : Disk} {path : Str} {file : List Str} (h : NavReadAs D path file) : fetchNav D path = .ok file := by
  unfold fetchNav
  by_cases hp : Packed path
  · rw [if_pos ((packed_iff path h.line).2 hp), h.packed hp]
  · rw [if_neg (fun hz => hp ((packed_iff path h.line).1 hz)), h.plain hp]

theorem layout_of (v : Nat) : (if v < 300 then navCfg2 v else navCfg3 v) = layout (decide (300 ≤ v)) v := by
  by_cases h : v < 300
  · rw [if_pos h, show decide (300 ≤ v) = false by simp; omega]; rfl
  · rw [if_neg h, show decide (300 ≤ v) = true by simp; omega]; rfl

theorem navVersion_header {file : List Str} {w v : Nat} {ms : List NavMsg} (h : NavText file w v ms) : navVersion (Model.firstLine file) = .ok v := by
  obtain ⟨f, sys, wd, hs, hdr, endl, body, hwd, rfl, ht, -⟩ := h.text
  obtain ⟨ws, r, rfl, -⟩ := headerText_cons ht
  simp only [List.cons_append, Model.firstLine, List.headD_cons, HLine.render, hline, padRight, List.append_assoc]
  refine (C24_nav_written w ?_ _ v).2 h.version
  have := h.version
  simp only [navReaders, List.mem_cons, List.not_mem_nil, or_false, Prod.mk.injEq] at this
  have h100 : ∀ a : Nat, (w : Rat) / 100 = (a : Rat) / 100 → w = a := by
    intro a ha
    have : (w : Rat) = (a : Rat) := by linarith
    exact_mod_cast this
  rcases this with h | h | h | h | h | h | h | h | h <;>
    first
    | (have := h100 200 (by exact_mod_cast h.1); omega)
    | (have := h100 201 (by exact_mod_cast h.1); omega)
    | (have := h100 210 (by exact_mod_cast h.1); omega)
    | (have := h100 211 (by exact_mod_cast h.1); omega)
    | (have := h100 300 (by exact_mod_cast h.1); omega)
    | (have := h100 301 (by exact_mod_cast h.1); omega)
    | (have := h100 302 (by exact_mod_cast h.1); omega)
    | (have := h100 303 (by exact_mod_cast h.1); omega)
    | (have := h100 304 (by exact_mod_cast h.1); omega)

/-- the table of a written navigation file -/
theorem navFileOf_written (D : Disk) (f : Str) (d : DateTime) (file : List Str) (w v : Nat) (ms : List NavMsg)
    (hd : NamedDay f d.date) (hr : NavReadAs D f file) (hf : NavText file w v ms) :
    ∃ T, navFileOf D f = .ok T ∧ (∀ s n τ v, Msg T s n τ v ↔ LastOf d ms s n τ v) ∧ NoEmpty T := by
  have hver := navVersion_header hf
  have hw : w < 1000 := by
    have := hf.version
    simp only [navReaders, List.mem_cons, List.not_mem_nil, or_false, Prod.mk.injEq] at this
    have hlt : (w : Rat) < 1000 := by
      have : (w : Rat) / 100 ≤ 304 / 100 := by
        rcases this with h | h | h | h | h | h | h | h | h <;> rw [h.1] <;> norm_num
      linarith
    exact_mod_cast hlt
  obtain ⟨ft, sys, wd, hs, hdr, endl, body, hwd, rfl, ht, hok, hno, hend, hm, hb⟩ := hf.text
  have hok' : ∀ h ∈ HLine.version w ft sys wd :: hs, h.Ok := by
    intro h hh
    simp only [List.mem_cons] at hh
    rcases hh with rfl | hh
    · exact ⟨hw, hwd⟩
    · exact hok h hh
  obtain ⟨T, h1, h2, h3⟩ := C26_table (decide (300 ≤ v)) v _ hok' hdr ht hno endl hend ms hm body hb d
  refine ⟨T, ?_, h2, h3⟩
  have hlast : ∃ name, LastComponent f name := by
    obtain ⟨name, _, _, h, _⟩ := hd
    exact ⟨name, h⟩
  unfold navFileOf
  rw [fetchNav_read hr]
  simp only [hver, (namedDay_iff f d.date hlast).2 hd, layout_of, h1]

theorem msg_single {T : NavTable} {c : Char} {m : Eph} (h : T.get? c = some m) (n : Int) (τ : Nat) (v : List PyFloat) :
    Msg [(c, m)] c n τ v ↔ Msg T c n τ v := by
  unfold Msg
  rw [h]
  simp [Dict.get?]

/-- C75: for a navigation file written as the standard says, the ephemeris (and time argument) used for a satellite at a time is that of the message selected
by `Chosen` among the messages of the file, on the day of the observation, of that satellite; of several messages with the same time the last one counts. -/
theorem C75_written (X : Ext) (D : Disk) (cfg : Cfg) (c : Char) (e : DateTime) (f : Str) (file : List Str) (w v : Nat) (ms : List NavMsg)
    (hc : Processed c) (he : Legal e) (hy : 1000 ≤ e.year) (hs : c ≠ 'R' → c ≠ 'S' → instant (weekStart c) ≤ instant e)
    (hf : NavChoice D cfg c e f) (hd : NamedDay f e.date) (hr : NavReadAs D f file) (hfile : NavText file w v ms)
    (n : Int) (dt : Rat) (eph : List PyFloat) :
    EphemerisIs (prmOf X D cfg) c n e dt eph ↔ ∃ τ, Chosen (LastOf e ms c n) c e τ eph ∧ TimeArg c e τ dt := by
  obtain ⟨T, h1, h2, -⟩ := navFileOf_written D f e file w v ms hd hr hfile
  have hload : (prmOf X D cfg).load e.date c = loadFor D cfg e.date c := rfl
  rw [loadFor_iff D cfg c e f he hy hf, h1] at hload
  simp only at hload
  unfold EphemerisIs
  rw [hload]
  cases hT : T.get? c with
  | none =>
    simp only [reduceCtorEq, false_and, exists_false, false_iff]
    rintro ⟨τ, h, -⟩
    have : LastOf e ms c n τ eph := by cases h <;> assumption
    obtain ⟨a, b, ha, -⟩ := (h2 ..).2 this
    rw [hT] at ha; cases ha
  | some m =>
    simp only [Except.ok.injEq, Prod.mk.injEq]
    have hmsg : Msg [(c, m)] c n = LastOf e ms c n := by
      funext τ v
      rw [eq_iff_iff, msg_single hT, h2]
    rw [← hmsg, ← C75_message [(c, m)] c n e hc he hs]
    constructor
    · rintro ⟨_, _, ⟨rfl, rfl⟩, h⟩; exact h
    · intro h; exact ⟨f, m, ⟨rfl, rfl⟩, h⟩

theorem lastOf_exists {d : DateTime} {ms : List NavMsg} {m : NavMsg} {c : Char} (hm : m ∈ ms) (hc : m.system = c) (hd : OnDay m.epoch d) :
    ∃ v, LastOf d ms c m.number (timeOfDay m.epoch) v := by
  induction ms with
  | nil => cases hm
  | cons a ms ih =>
    by_cases hrest : ∃ m' ∈ ms, OnDay m'.epoch d ∧ m'.system = c ∧ (m'.number : Int) = m.number ∧ timeOfDay m'.epoch = timeOfDay m.epoch
    · have : ∀ (ms : List NavMsg), (∃ m' ∈ ms, OnDay m'.epoch d ∧ m'.system = c ∧ (m'.number : Int) = m.number ∧ timeOfDay m'.epoch = timeOfDay m.epoch) →
          ∃ v, LastOf d ms c m.number (timeOfDay m.epoch) v := by
        intro ms
        induction ms with
        | nil => rintro ⟨_, h, -⟩; cases h
        | cons b ms ih =>
          rintro ⟨m', h, h1, h2, h3, h4⟩
          by_cases hr : ∃ m' ∈ ms, OnDay m'.epoch d ∧ m'.system = c ∧ (m'.number : Int) = m.number ∧ timeOfDay m'.epoch = timeOfDay m.epoch
          · obtain ⟨v, pre, k, post, hk, hk'⟩ := ih hr
            exact ⟨v, b :: pre, k, post, by rw [hk]; rfl, hk'⟩
          · simp only [List.mem_cons] at h
            rcases h with rfl | h
            · exact ⟨_, [], m', ms, rfl, h1, h2, h3, h4, rfl, fun x hx hh => hr ⟨x, hx, hh⟩⟩
            · exact absurd ⟨m', h, h1, h2, h3, h4⟩ hr
      obtain ⟨v, pre, k, post, hk, hk'⟩ := this ms hrest
      exact ⟨v, a :: pre, k, post, by rw [hk]; rfl, hk'⟩
    · simp only [List.mem_cons] at hm
      rcases hm with rfl | hm
      · exact ⟨_, [], m, ms, rfl, hd, hc, rfl, rfl, rfl, fun x hx hh => hrest ⟨x, hx, hh⟩⟩
      · exact absurd ⟨m, hm, hd, hc, rfl, rfl⟩ hrest

theorem noEmpty_msg {T : NavTable} (h : NoEmpty T) {c : Char} {a : Eph} (ha : T.get? c = some a) : ∃ n τ v, Msg T c n τ v := by
  obtain ⟨n, b, hb⟩ := h.1 c a ha
  obtain ⟨τ, v, hv⟩ := h.2 c a n b ha hb
  exact ⟨n, τ, v, a, b, ha, hb, hv⟩

/-- C75: the system counts as having navigation data on the day exactly when the chosen file has a message of the system for the day. -/
theorem C75_available (X : Ext) (D : Disk) (cfg : Cfg) (c : Char) (e : DateTime) (f : Str) (file : List Str) (w v : Nat) (ms : List NavMsg)
    (he : Legal e) (hy : 1000 ≤ e.year) (hf : NavChoice D cfg c e f) (hd : NamedDay f e.date) (hr : NavReadAs D f file) (hfile : NavText file w v ms) :
    ((∃ m ∈ ms, m.system = c ∧ OnDay m.epoch e) → ∃ m, (prmOf X D cfg).load e.date c = .ok (f, m)) ∧
    ((∀ m ∈ ms, ¬ (m.system = c ∧ OnDay m.epoch e)) → NoNavigation (prmOf X D cfg) e.date c) := by
  obtain ⟨T, h1, h2, h3⟩ := navFileOf_written D f e file w v ms hd hr hfile
  have hload : (prmOf X D cfg).load e.date c = loadFor D cfg e.date c := rfl
  rw [loadFor_iff D cfg c e f he hy hf, h1] at hload
  simp only at hload
  constructor
  · rintro ⟨m, hm, hmc, hmd⟩
    have hex : ∃ v, LastOf e ms c m.number (timeOfDay m.epoch) v := lastOf_exists hm hmc hmd
    obtain ⟨v, hv⟩ := hex
    obtain ⟨a, b, ha, -⟩ := (h2 ..).2 hv
    rw [hload, ha]
    exact ⟨a, rfl⟩
  · intro hno
    cases hT : T.get? c with
    | none => exact .inr (by rw [hload, hT])
    | some a =>
      exfalso
      obtain ⟨n, τ, v, hmsg⟩ : ∃ n τ v, Msg T c n τ v := noEmpty_msg h3 hT
      obtain ⟨_, m, _, hms, hd', hmc, -⟩ := (h2 ..).1 hmsg
      exact hno m (by rw [hms]; simp) ⟨hmc, hd'⟩

/-- C75: without a file of the system or a mixed file of the day in the directories there is no navigation data. -/
theorem C75_none (X : Ext) (D : Disk) (cfg : Cfg) (c : Char) (e : DateTime) (he : Legal e) (hy : 1000 ≤ e.year) (priority : List Str)
    (ls : List (List Str)) (hp : cfg.navPriority.get? c = some priority) (hl : Listings D cfg.navDir ls)
    (hd : ∀ d ∈ cfg.navDir, d ≠ [] ∧ d.getLast? ≠ some '/') (hno : navCandidates (cfg.navDir.zip ls) c e = []) :
    NoNavigation (prmOf X D cfg) e.date c := by
  have hl := (listDirs_iff D cfg.navDir (cfg.navDir.zip ls)).2 ⟨ls, hl, rfl⟩
  have hd : ∀ d ∈ cfg.navDir.zip ls, d.1 ≠ [] ∧ d.1.getLast? ≠ some '/' := fun d h => hd d.1 (List.of_mem_zip h).1
  rw [← navCandidates_start] at hno
  have hch := (C35_choice (cfg.navDir.zip ls) (Date.start e.date) c priority (legal_start he) hy hd []).2.1 hno
  have hload : (prmOf X D cfg).load e.date c = loadFor D cfg e.date c := rfl
  refine .inr ?_
  rw [hload]
  unfold loadFor
  rw [hp]
  simp only [hl, hch]

theorem dayNumber_doy {e : DateTime} (he : Legal e) : dayNumber e.year e.month e.day = dayNumber e.year 1 1 + (doy e - 1) := by
  have hd := (yday_eq he).2.1
  unfold dayNumber doy at *
  simp
  omega

/-- C75: the name of a navigation file of a day names that day to the reader as well: classic names for the years 1969 to 2068, long names with the data source
`R`, `S` or `U` for all years. -/
theorem C75_named (dir n : Str) (c : Char) (e : DateTime) (he : Legal e) (hs : '/' ∉ n)
    (h : (ClassicNav n c e ∧ 1969 ≤ e.year ∧ e.year ≤ 2068) ∨
      (LongNav n c e ∧ ∀ site source rest, n = site ++ '_' :: source :: '_' :: rest → site.length = 9 → OneOf (c% "RSU") source)) :
    NamedDay (dir ++ '/' :: n) e.date := by
  obtain ⟨-, hd1, hd2⟩ := yday_eq he
  refine ⟨n, e.year, doy e, ⟨hs, .inr ⟨dir, rfl⟩⟩, ?_, he.1.1, hd1, hd2, he.1, dayNumber_doy he⟩
  rcases h with ⟨⟨st, se, le, re, l, h1, h2, h3, h4, h5⟩, hy⟩ | ⟨⟨site, src, time, per, fr, s, nn, ext, re, h1, h2, h3, h4, -⟩, hsrc⟩
  · refine .inl ⟨e.year % 100, ⟨st, [se], le, re, ?_, h2, by omega, .inl ⟨rfl, by simpa using h3⟩, by omega, ?_⟩, by unfold NameYear; omega⟩
    · rw [h1]; simp
    · rw [show OneOf (c% "odnmglphbc") le ↔ ∃ x ∈ (c% "odnmglphbc"), lowerC le = lowerC x from Iff.rfl]
      refine ⟨l, ?_, ?_⟩
      · cases h4 <;> decide
      · rw [h5]; cases h4 <;> decide
  · refine .inr ⟨site.take 4, site.drop 4, src, time, '_' :: per ++ fr ++ '_' :: s :: nn :: '.' :: ext ++ re, ?_, ?_, ?_,
      hsrc site src (dig4 e.year ++ (dig3 (doy e) ++ (time ++ '_' :: (per ++ (fr ++ '_' :: s :: nn :: '.' :: (ext ++ re))))))
        (by rw [h1]; simp only [List.append_assoc, List.cons_append]) h2.1, ?_, by omega, h4⟩
    · rw [h1, List.take_append_drop]; simp
    · exact ⟨by rw [List.length_take, h2.1]; rfl, fun x hx => h2.2 x (List.mem_of_mem_take hx)⟩
    · exact ⟨by rw [List.length_drop, h2.1], fun x hx => h2.2 x (List.mem_of_mem_drop hx)⟩
    · have := he.1.2.1; omega

/-- C75, any text: whatever the navigation files contain, an ephemeris used for a satellite at a time stands in the file chosen for the system and the day as
one complete message of that satellite, of the day named by the file. -/
theorem C75_source (X : Ext) (D : Disk) (cfg : Cfg) (c : Char) (e : DateTime) (he : Legal e) (hy : 1000 ≤ e.year)
    (hd : ∀ d ∈ cfg.navDir, d ≠ [] ∧ d.getLast? ≠ some '/') (n : Int) (dt : Rat) (eph : List PyFloat)
    (h : EphemerisIs (prmOf X D cfg) c n e dt eph) :
    ∃ f file v ft t, NavChoice D cfg c e f ∧ (∃ how, D.lines how f = .ok file) ∧ navVersion (Model.firstLine file) = .ok v ∧
      Holds (decide (300 ≤ v)) v ft file c n t eph ∧ getRinexDate f = some t.date ∧ eph.length = if c = 'R' ∨ c = 'S' then 12 else 26 := by
  obtain ⟨f, m, h1, h2⟩ := h
  have hload : (prmOf X D cfg).load e.date c = loadFor D cfg e.date c := rfl
  rw [hload] at h1
  have hch : NavChoice D cfg c e f := by
    refine ⟨hd, ?_⟩
    unfold loadFor at h1
    cases hp : cfg.navPriority.get? c with
    | none => rw [hp] at h1; cases h1
    | some priority =>
      rw [hp] at h1
      simp only at h1
      cases hl : listDirs D cfg.navDir with
      | error er => rw [hl] at h1; cases h1
      | ok dirs =>
        rw [hl] at h1
        simp only at h1
        obtain ⟨ls, hls, rfl⟩ := (listDirs_iff ..).1 hl
        have hd' : ∀ d ∈ cfg.navDir.zip ls, d.1 ≠ [] ∧ d.1.getLast? ≠ some '/' := fun d h => hd d.1 (List.of_mem_zip h).1
        cases hc : chooseNavFile (cfg.navDir.zip ls) (Date.start e.date) c priority with
        | error er => rw [hc] at h1; cases h1
        | ok g =>
          rw [hc] at h1
          have hg : g = f := by
            simp only at h1
            split at h1
            · cases h1
            · split at h1
              · cases h1
              · simp only [Except.ok.injEq, Prod.mk.injEq] at h1; exact h1.1
          subst hg
          exact ⟨priority, ls, rfl, hls, by
            rw [← navCandidates_start]
            exact (C35_choice _ _ c priority (legal_start he) hy hd' g).1.1 hc⟩
  rw [loadFor_iff D cfg c e f he hy hch] at h1
  cases hT : navFileOf D f with
  | error er => rw [hT] at h1; cases h1
  | ok T =>
    rw [hT] at h1
    simp only at h1
    cases hm : T.get? c with
    | none => rw [hm] at h1; cases h1
    | some m' =>
      rw [hm] at h1
      simp only [Except.ok.injEq, Prod.mk.injEq, true_and] at h1
      subst h1
      obtain ⟨τ, hmsg⟩ := C29_own e c n _ true dt eph h2
      rw [msg_single hm] at hmsg
      unfold navFileOf at hT
      cases hfetch : fetchNav D f with
      | error er => rw [hfetch] at hT; cases hT
      | ok file =>
        rw [hfetch] at hT
        simp only at hT
        cases hver : navVersion (Model.firstLine file) with
        | error er => rw [hver] at hT; cases hT
        | ok v =>
          rw [hver] at hT
          simp only [layout_of] at hT
          obtain ⟨⟨vt, t, -, hh, hdate, -⟩, hlen⟩ := C27_assembled (decide (300 ≤ v)) v _ file T hT c n τ eph hmsg
          refine ⟨f, file, v, _, t, hch, ?_, hver, hh, hdate, hlen⟩
          unfold fetchNav at hfetch
          split at hfetch
          · exact ⟨_, hfetch⟩
          · exact ⟨_, hfetch⟩

end Verif.Props
