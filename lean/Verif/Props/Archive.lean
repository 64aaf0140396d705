import Verif.Spec.Archive
import Verif.Props.EndToEnd
import Verif.Props.Moved3
import Verif.Props.ConfigLists
/-!
# Property C107: archives of well-formed files are processed to the end
-/
namespace Verif.Props
open Verif.Py Verif.Model Verif.Model.DoubleGeo Verif.Spec Verif.Proofs

/-! ### observation files -/

/-- an opened file without anything that could stop the loop -/
structure Clean (o : ObsIn) : Prop where
  tofo : o.tofo ≠ none
  interval : 0 < o.interval
  stop : o.stop = .ok ()
  sat : ∀ it ∈ o.items, ∃ c r n, it.sat = c :: r ∧ pyInt r = .ok n
  epoch : ∀ it ∈ o.items, it.epoch ≠ none
  types : ∀ it ∈ o.items, ∀ c r, it.sat = c :: r → it.types c ≠ none

theorem stored_pos {v : Nat} {i : Int} {q : Rat} (hs : Stored v i (.fin q)) (hl : LongEnough v i) : 0 < q := by
  obtain ⟨ms, h1, h2, h3⟩ := hs
  unfold LongEnough at hl
  cases h3
  split at hl
  · rename_i hv
    rw [if_pos hv]
    have : 1000 ≤ ms := by omega
    have : 1 ≤ ms / 1000 := by omega
    exact_mod_cast this
  · rename_i hv
    rw [if_neg hv]
    have : 1 ≤ ms := by omega
    have : (1 : Rat) ≤ (ms : Rat) := by exact_mod_cast this
    linarith

theorem digits2_int (n : Nat) (h : n < 100) : ∃ k, pyInt [digit (n / 10), digit (n % 10)] = .ok k := by
  have : ∀ n < 100, (pyInt [digit (n / 10), digit (n % 10)]).toOption.isSome = true := by decide +kernel
  have := this n h
  cases hp : pyInt [digit (n / 10), digit (n % 10)] with
  | ok k => exact ⟨k, rfl⟩
  | error e => rw [hp] at this; cases this

theorem heard_mem {v : Nat} {heard : Option Pos} {p : Pos} {items : List Item3} {l : List (Ep3 × Pos)} (h : Heard v heard p items l) : ∀ x ∈ l, Item3.obs x.1 ∈ items := by
  induction h with
  | done => simp
  | epoch _ ih =>
    intro x hx
    rcases List.mem_cons.1 hx with rfl | hx
    · simp
    · exact List.mem_cons_of_mem _ (ih x hx)
  | event _ _ ih => intro x hx; exact List.mem_cons_of_mem _ (ih x hx)

/-- the items of an epoch -/
theorem items2_clean (ts : List Str) (p : Pos) (e : Epoch) (n : Nat) (h : e.Ok n) (it : ObsItem) (hi : it ∈ e.items ts p) :
    (∃ c r n, it.sat = c :: r ∧ pyInt r = .ok n) ∧ it.epoch ≠ none ∧ ∀ c r, it.sat = c :: r → it.types c ≠ none := by
  obtain ⟨s, hs, rfl⟩ := List.mem_map.1 hi
  obtain ⟨k, hk⟩ := digits2_int s.1.num (h.2.2.2.2.2 s hs).1.1
  exact ⟨⟨_, _, k, rfl, hk⟩, by simp, by simp⟩

theorem items3_clean (m : TypeMap) (p : Pos) (e : Ep3) (h : e.Ok m) (it : ObsItem) (hi : it ∈ e.items m p) :
    (∃ c r n, it.sat = c :: r ∧ pyInt r = .ok n) ∧ it.epoch ≠ none ∧ ∀ c r, it.sat = c :: r → it.types c ≠ none := by
  obtain ⟨s, hs, rfl⟩ := List.mem_map.1 hi
  obtain ⟨h1, ⟨ts, h2, -⟩, -⟩ := h.2.2.2 s hs
  obtain ⟨k, hk⟩ := digits2_int s.1.num h1.1
  refine ⟨⟨_, _, k, rfl, hk⟩, by simp, ?_⟩
  intro c r hc
  simp only [SatId.name3, List.cons.injEq] at hc
  simp only [← hc.1, h2]
  simp

/-- opening a file of the archive -/
theorem clean_open (D : Disk) (path : Str) (file : List Str) (hr : ReadAs D path file) (h : ObsText file) :
    ∃ n, ∀ fuel, n ≤ fuel → ∃ o, obsFile D fuel path = some (.ok o) ∧ Clean o := by
  cases h with
  | ordered2 v sys hs ts es h1 h3 h4 =>
    refine ⟨0, fun fuel _ => ?_⟩
    obtain ⟨o, ho, hop⟩ := C73_open2 D fuel path file v sys hs ts es hr h1
    obtain ⟨t, ht⟩ := h4
    obtain ⟨i, k1, k2⟩ := hop.interval
    have key : ∀ it ∈ o.items, (∃ c r n, it.sat = c :: r ∧ pyInt r = .ok n) ∧ it.epoch ≠ none ∧ ∀ c r, it.sat = c :: r → it.types c ≠ none := by
      intro it hi
      rw [hop.items] at hi
      obtain ⟨x, hx, hi⟩ := List.mem_flatMap.1 hi
      obtain ⟨_, _, _, _, _, _, _, _, _, items, _, _, _, _, _, _, _, _, _, _, _, _, hes, hb⟩ := h1.text
      exact items2_clean ts _ x ts.length (epochsOf_ok hb x (hes ▸ hx)) it hi
    exact ⟨o, ho, by rw [hop.tofo, ht]; simp, stored_pos k2 (h3 i k1), hop.stop, fun it hi => (key it hi).1, fun it hi => (key it hi).2.1, fun it hi => (key it hi).2.2⟩
  | rinex2 v sys hs ts items seen final i h1 h2 h3 h4 =>
    refine ⟨0, fun fuel _ => ?_⟩
    obtain ⟨o, ho, hop⟩ := C100_open D fuel path file v sys hs ts items seen final i hr h1 h2
    obtain ⟨t, ht⟩ := h4
    obtain ⟨m, used, q, -, k1, k2⟩ := hop.items
    have key : ∀ it ∈ o.items, (∃ c r n, it.sat = c :: r ∧ pyInt r = .ok n) ∧ it.epoch ≠ none ∧ ∀ c r, it.sat = c :: r → it.types c ≠ none := by
      intro it hi
      rw [k2] at hi
      obtain ⟨x, hx, hi⟩ := List.mem_flatMap.1 hi
      exact items2_clean ts x.2 x.1 ts.length (h1.body _ (track_mem k1 x ((fresh_sub m used).subset hx))) it hi
    exact ⟨o, ho, by rw [hop.tofo, ht]; simp, stored_pos hop.interval h3, hop.stop, fun it hi => (key it hi).1, fun it hi => (key it hi).2.1, fun it hi => (key it hi).2.2⟩
  | rinex3 v sys es items a b h1 h3 h4 =>
    obtain ⟨n, o, ho, hop⟩ := C73_open3 D path file v sys es items a b hr h1
    obtain ⟨t, ht⟩ := h4
    have key : ∀ it ∈ o.items, (∃ c r n, it.sat = c :: r ∧ pyInt r = .ok n) ∧ it.epoch ≠ none ∧ ∀ c r, it.sat = c :: r → it.types c ≠ none := by
      intro it hi
      rw [hop.items] at hi
      obtain ⟨x, hx, hi⟩ := List.mem_flatMap.1 hi
      cases x with
      | event e => cases hi
      | obs e => exact items3_clean _ _ e (h1.body _ hx) it hi
    exact ⟨n, fun fuel hfu => ⟨o, ho fuel hfu, by rw [hop.tofo, ht]; simp, stored_pos hop.interval h3, hop.stop, fun it hi => (key it hi).1, fun it hi => (key it hi).2.1,
      fun it hi => (key it hi).2.2⟩⟩
  | moved3 v sys es items a b seen h1 h3 h4 =>
    obtain ⟨n, o, ho, hop⟩ := C91_open D path file v sys es items a b seen hr h1
    obtain ⟨t, ht⟩ := h4
    obtain ⟨used, k1, k2⟩ := hop.items
    have key : ∀ it ∈ o.items, (∃ c r n, it.sat = c :: r ∧ pyInt r = .ok n) ∧ it.epoch ≠ none ∧ ∀ c r, it.sat = c :: r → it.types c ≠ none := by
      intro it hi
      rw [k2] at hi
      obtain ⟨x, hx, hi⟩ := List.mem_flatMap.1 hi
      exact items3_clean _ x.2 x.1 (h1.body _ (heard_mem k1 x hx)) it hi
    exact ⟨n, fun fuel hfu => ⟨o, ho fuel hfu, by rw [hop.tofo, ht]; simp, stored_pos hop.interval h3, hop.stop, fun it hi => (key it hi).1, fun it hi => (key it hi).2.1,
      fun it hi => (key it hi).2.2⟩⟩

/-! ### navigation files -/

theorem configured_priority {X : Ext} {cfg : Cfg} (h : Configured X cfg) {c : Char} (hc : Processed c) : ∃ priority, cfg.navPriority.get? c = some priority := by
  obtain ⟨ev, dtLen, filename, content, h, -⟩ := h
  unfold readCfg at h
  have key : ∃ a b d, cfg.navPriority = [('G', a), ('R', b), ('S', d), ('C', []), ('E', [])] := by
    split at h
    · cases h
    split at h
    · cases h
    split at h
    · cases h
    simp only at h
    split at h
    · cases h
    split at h
    · cases h
    split at h
    · cases h
    split at h
    · cases h
    split at h
    · cases h
    split at h
    · cases h
    · cases h
      exact ⟨_, _, _, rfl⟩
  obtain ⟨a, b, d, hk⟩ := key
  rw [hk]
  unfold Processed at hc
  rcases hc with rfl | rfl | rfl | rfl | rfl
  · exact ⟨a, rfl⟩
  · exact ⟨b, rfl⟩
  · exact ⟨d, rfl⟩
  · exact ⟨[], rfl⟩
  · exact ⟨[], rfl⟩

theorem readable_ok {v3 : Bool} {v : Nat} {hs : List HLine} {m : NavMsg} (h : Readable v3 v hs m) : m.Ok := by
  unfold Readable at h
  split at h
  · exact h.1
  · obtain ⟨s, -, h⟩ := h; exact h.1

/-- the navigation data of a system and a day: none, or a table of complete messages -/
theorem nav_data (X : Ext) (D : Disk) (cfg : Cfg) (hcfg : Configured X cfg) (paths : List Str) (hnav : NavArchive D cfg paths) (path : Str) (hpath : path ∈ paths) (c : Char) (e : DateTime) (hday0 : NamedDay path e.date) (hc : Processed c) (he : Legal e) (hy : 1000 ≤ e.year) :
    NoNavigation (prmOf X D cfg) e.date c ∨ ∃ f m, (prmOf X D cfg).load e.date c = .ok (f, m) ∧ (∀ n, m.get? n ≠ some []) ∧
      ∀ n τ v, Msg [(c, m)] c n τ v → ∃ msg : NavMsg, msg.Ok ∧ msg.system = c ∧ v = msg.values := by
  obtain ⟨priority, hp⟩ := configured_priority hcfg hc
  obtain ⟨ls, hl⟩ := hnav.listed
  by_cases hno : navCandidates (cfg.navDir.zip ls) c e = []
  · exact .inl (C75_none X D cfg c e he hy priority ls hp hl hnav.dirs hno)
  · have hd : ∀ d ∈ cfg.navDir.zip ls, d.1 ≠ [] ∧ d.1.getLast? ≠ some '/' := fun d h => hnav.dirs d.1 (List.of_mem_zip h).1
    rw [← navCandidates_start] at hno
    obtain ⟨f, hf⟩ := (C35_choice (cfg.navDir.zip ls) (Date.start e.date) c priority (legal_start he) hy hd []).2.2 hno
    have hpref := (C35_choice (cfg.navDir.zip ls) (Date.start e.date) c priority (legal_start he) hy hd f).1.1 hf
    rw [navCandidates_start] at hpref
    have hch : NavChoice D cfg c e f := ⟨hnav.dirs, priority, ls, hp, hl, hpref⟩
    obtain ⟨hday, file, w, v, ms, hr, ht⟩ := hnav.files path hpath c e f hday0 hc hch
    obtain ⟨T, h1, h2, h3⟩ := navFileOf_written D f e file w v ms hday hr ht
    have hload : (prmOf X D cfg).load e.date c = loadFor D cfg e.date c := rfl
    rw [loadFor_iff D cfg c e f he hy hch, h1] at hload
    simp only at hload
    cases hT : T.get? c with
    | none => exact .inl (.inr (by rw [hload, hT]))
    | some m =>
      refine .inr ⟨f, m, by rw [hload, hT], ?_, ?_⟩
      · intro n hn
        obtain ⟨τ, v, hv⟩ := h3.2 c m n [] hT hn
        cases hv
      · intro n τ v hm
        obtain ⟨pre, msg, post, k1, -, k2, -, -, k3, -⟩ := (h2 ..).1 ((msg_single hT n τ v).1 hm)
        obtain ⟨_, _, _, _, _, _, _, _, _, _, _, _, _, hm, _⟩ := ht.text
        exact ⟨msg, readable_ok (hm msg (by rw [k1]; simp)), k2, k3⟩

theorem four_fields {l : List OField} (h : l.length = 4) : ∃ a b c d, l = [a, b, c, d] := by
  match l, h with
  | [a, b, c, d], _ => exact ⟨a, b, c, d, rfl⟩

theorem three_rows {l : List ORow} (h : l.map (fun r => r.fields.length) = [4, 4, 4]) :
    ∃ a b c, l = [a, b, c] ∧ a.fields.length = 4 ∧ b.fields.length = 4 := by
  cases l with
  | nil => cases h
  | cons a l =>
    cases l with
    | nil => simp at h
    | cons b l =>
      cases l with
      | nil => simp at h
      | cons c l =>
        cases l with
        | nil => simp only [List.map_cons, List.map_nil, List.cons.injEq] at h; exact ⟨a, b, c, rfl, h.1, h.2.1⟩
        | cons d l => simp at h

theorem values_freq {m : NavMsg} (h : m.Ok) (hs : m.system = 'R') : ∃ k, m.values[7]? = some (.fin k) := by
  have h1 := h.2.2.2.2.1
  rw [hs] at h1
  obtain ⟨a, b, c, hr, ha, hb⟩ := three_rows (by rw [h1]; rfl)
  obtain ⟨a1, a2, a3, a4, ha⟩ := four_fields ha
  obtain ⟨b1, b2, b3, b4, hb⟩ := four_fields hb
  exact ⟨b4.value, by simp [NavMsg.values, hr, ha, hb]⟩

/-! ### C107 -/

/-- nothing in a well-formed archive can stop the program -/
theorem archive_no_cause (X : Ext) (D : Disk) (cfg : Cfg) (fuel : Nat) (paths : List Str) (path : Str) (o : ObsIn) (xl : List XyzLine) (xyz : Dict DateTime Pos)
    (hcfg : Configured X cfg) (hpath : path ∈ paths) (hyears : FourDigits paths) (hlast : ∃ name, LastComponent path name)
    (hnav : NavArchive D cfg paths) (hnum : Numerics X D cfg paths)
    (ho : obsFile D fuel path = some (.ok o)) (hclean : Clean o) (hx : CoordLines D cfg.obsDir path xl) (hpos : Positions xl xyz) (er : PyErr) :
    ¬ Cause (prmOf X D cfg) ⟨.ok o, .ok xyz⟩ er := by
  obtain ⟨-, hdate, -, hleg⟩ := obsFile_legal ho
  have hcon : ∀ it c n e, it ∈ o.items → Considered o it c n e → Legal e ∧ 1000 ≤ e.year ∧ NamedDay path e.date := by
    intro it c n e hi hc
    have hd : NamedDay path e.date := by
      refine (namedDay_iff path e.date hlast).1 ?_
      rw [← hdate]
      exact hc.2.2.2
    exact ⟨hleg it hi e hc.2.1, hyears path hpath e.date hd, hd⟩
  have heph : ∀ c n e dt eph f m, (prmOf X D cfg).load e.date c = .ok (f, m) → EphemerisIs (prmOf X D cfg) c n e dt eph → ∃ τ, Msg [(c, m)] c n τ eph := by
    rintro c n e dt eph f m hl ⟨f', m', h1, h2⟩
    rw [hl] at h1
    cases h1
    exact C29_own e c n _ true dt eph h2
  intro h
  cases h with
  | opening h _ _ => cases h
  | start o' h1 h2 _ => cases h1; exact hclean.tofo h2
  | xyzFile h => cases h
  | reading o' h1 h2 _ => cases h1; rw [hclean.stop] at h2; cases h2
  | noSat o' it h1 h2 h3 _ =>
    cases h1
    obtain ⟨c, r, n, hs, -⟩ := hclean.sat it h2
    rw [hs] at h3; cases h3
  | satName o' it a r h1 h2 h3 h4 =>
    cases h1
    obtain ⟨c, r', n, hs, hp⟩ := hclean.sat it h2
    rw [hs] at h3; cases h3
    rw [hp] at h4; cases h4
  | noEpoch o' it h1 h2 h3 _ => cases h1; exact hclean.epoch it h2 h3
  | geodetic o' h1 h =>
    cases h1
    obtain ⟨q, hq⟩ := hnum.own path hpath fuel o ho
    exact absurd (hq.symm.trans h) (by simp)
  | site o' xyz' it c n e x h1 h2 h3 h4 h5 h =>
    cases h1
    cases h2
    obtain ⟨q, hq⟩ := hnum.site path hpath it e x h4.2.1 ⟨fuel, o, xl, xyz, ho, h3, hx, hpos, h5⟩
    exact absurd (hq.symm.trans h) (by simp)
  | load o' it c n e h1 h2 h3 h4 h5 =>
    cases h1
    obtain ⟨l1, l2, l3⟩ := hcon it c n e h2 h3
    rcases nav_data X D cfg hcfg paths hnav path hpath c e l3 h3.2.2.1 l1 l2 with h | ⟨f, m, h, -⟩
    · apply h5
      rcases h with h | h <;> rw [h] at h4 <;> cases h4
      · exact .inl rfl
      · exact .inr rfl
    · rw [h] at h4; cases h4
  | noMessage o' it c n e f m h1 h2 h3 h4 h5 _ =>
    cases h1
    obtain ⟨l1, l2, l3⟩ := hcon it c n e h2 h3
    rcases nav_data X D cfg hcfg paths hnav path hpath c e l3 h3.2.2.1 l1 l2 with h | ⟨f', m', h, h', -⟩
    · rcases h with h | h <;> rw [h] at h4 <;> cases h4
    · rw [h] at h4; cases h4
      exact h' n h5
  | satellite o' it c n e dt eph h1 h2 h3 h4 h5 h6 =>
    cases h1
    obtain ⟨l1, -, l3⟩ := hcon it c n e h2 h3
    exact h6 (hnum.satPos path hpath c n e dt eph l3 l1 h3.2.2.1 h4 er h5)
  | frequency o' it n e dt eph h1 h2 h3 h4 h5 =>
    cases h1
    obtain ⟨l1, l2, l3⟩ := hcon it 'R' n e h2 h3
    rcases nav_data X D cfg hcfg paths hnav path hpath 'R' e l3 h3.2.2.1 l1 l2 with h | ⟨f', m', h, -, h'⟩
    · obtain ⟨f, m, h4, -⟩ := h4
      rcases h with h | h <;> rw [h] at h4 <;> cases h4
    · obtain ⟨τ, hm⟩ := heph 'R' n e dt eph f' m' h h4
      obtain ⟨msg, k1, k2, rfl⟩ := h' n τ eph hm
      obtain ⟨k, hk⟩ := values_freq k1 k2
      exact h5 k hk
  | direction o' xyz' it c n e x p h1 h2 h3 h4 h5 h6 h7 h8 =>
    cases h1
    cases h2
    obtain ⟨l1, -, l3⟩ := hcon it c n e h3 h4
    exact h8 (hnum.elAz path hpath it c n e x p h4.1 h4.2.1 l3 l1 h4.2.2.1 ⟨fuel, o, xl, xyz, ho, h3, hx, hpos, h5⟩ h6 er h7)
  | types o' it c n e h1 h2 h3 h4 _ =>
    cases h1
    obtain ⟨r, hs, -⟩ := h3.1
    exact hclean.types it h2 c r hs h4
  | format h =>
    obtain ⟨f1, f2, f3⟩ := configured_format hcfg
    exact h ⟨_, f1, f2, _, f3⟩
  | interval o' h1 h2 => cases h1; exact absurd hclean.interval (not_lt.2 h2)

/-- C107: a run over an archive of well-formed files ends, and ends normally. -/
theorem C107_ends (X : Ext) (D : Disk) (cfg : Cfg) (fs : FS) (paths : List Str) (hcfg : Configured X cfg)
    (hn : PlainNames D cfg.obsDir) (hf : InputFiles D cfg.obsDir paths) (hne : paths ≠ []) (hyears : FourDigits paths)
    (hobs : ObsArchive D cfg paths) (hnav : NavArchive D cfg paths) (hnum : Numerics X D cfg paths) :
    ∃ n, ∀ fuel, n ≤ fuel → ∃ r, program X D cfg fuel fs = some r ∧ r.err = none := by
  have hfiles := (C72_files D cfg paths hn).2 hf
  have hl : ∃ r, listDirs D cfg.obsDir = .ok r := by
    unfold obsFiles at hfiles
    cases h : listDirs D cfg.obsDir with
    | error e => rw [h] at hfiles; cases hfiles
    | ok r => exact ⟨r, rfl⟩
  have key : ∀ l : List Str, (∀ p ∈ l, p ∈ paths) → ∃ n, ∀ fuel, n ≤ fuel → ∀ p ∈ l, ∃ f, fileIn D fuel (someXyz D cfg) p = some f ∧ ∀ er, ¬ Cause (prmOf X D cfg) f er := by
    intro l
    induction l with
    | nil => intro _; exact ⟨0, fun _ _ p hp => by cases hp⟩
    | cons p l ih =>
      intro h
      obtain ⟨n, hn⟩ := ih fun q hq => h q (by simp [hq])
      obtain ⟨⟨file, hr, ht⟩, xl, hxl⟩ := hobs p (h p (by simp))
      obtain ⟨m, hm⟩ := clean_open D p file hr ht
      obtain ⟨xyz, hx1, hx2⟩ := C73_coordinates D cfg p xl hl hxl
      refine ⟨max n m, fun fuel hfu q hq => ?_⟩
      rcases List.mem_cons.1 hq with rfl | hq
      · obtain ⟨o, ho, hclean⟩ := hm fuel (le_trans (le_max_right ..) hfu)
        refine ⟨⟨.ok o, .ok xyz⟩, by rw [fileIn, ho, hx1]; rfl, fun er => ?_⟩
        exact archive_no_cause X D cfg fuel paths q o xl xyz hcfg (h q (by simp)) hyears ((input_last hf (h q (by simp))).imp fun _ h => h.1) hnav hnum ho hclean hxl hx2 er
      · exact hn fuel (le_trans (le_max_left ..) hfu) q hq
  obtain ⟨n, hk⟩ := key paths fun p hp => hp
  refine ⟨n, fun fuel hfu => ?_⟩
  unfold program
  rw [hfiles]
  cases paths with
  | nil => exact absurd rfl hne
  | cons p ps =>
    obtain ⟨ins, hins⟩ := allOf_some (f := fileIn D fuel (someXyz D cfg)) (l := p :: ps) fun q hq => (hk fuel hfu q hq).imp fun _ h => h.1
    simp only [hins]
    refine ⟨_, rfl, ?_⟩
    apply C63_no_abort
    intro f hf' er
    obtain ⟨q, hq, hq'⟩ := allOf_mem hins f hf'
    obtain ⟨f', h1, h2⟩ := hk fuel hfu q hq
    rw [hq'] at h1
    cases h1
    exact h2 er

/-- C107, RINEX 2: the records of the output files, without the assumption that the run ended normally -/
theorem C107_rinex2 (F : Flt) (hF : Accurate F) (X : Ext) (D : Disk) (cfg : Cfg) (fs : FS) (paths : List Str) (i : Nat) (path name : Str) (file : List Str)
    (v : Nat) (sys : Char) (hs : List HLine) (ts : List Str) (es : List Epoch) (xl : List XyzLine)
    (hP : Computed F (prmOf X D cfg)) (hd : ∀ t, DateIsWord (prmOf X D cfg) t) (htext : cfg.outFileModeText = true)
    (hcfg : Configured X cfg) (hout : OutDirOk cfg) (hn : PlainNames D cfg.obsDir) (hf : InputFiles D cfg.obsDir paths)
    (hobs : ObsArchive D cfg paths) (hnav : NavArchive D cfg paths) (hnum : Numerics X D cfg paths) (hi : paths[i]? = some path)
    (hname : LastComponent path name) (hyears : FourDigits paths) (hlast : ∀ (j : Nat) (p : Str), i < j → paths[j]? = some p → ¬ SameOutput path p)
    (hr : ReadAs D path file) (hfile : File2 file v sys hs ts es) (hx : CoordLines D cfg.obsDir path xl) :
    ∃ n, ∀ fuel, n ≤ fuel → ∃ r, program X D cfg fuel fs = some r ∧ r.err = none ∧ ∃ o, Opened2 path v sys hs ts es o ∧ RunBack (prmOf X D cfg) o xl name r.fs := by
  obtain ⟨n, hn'⟩ := C107_ends X D cfg fs paths hcfg hn hf (by rintro rfl; cases hi) hyears hobs hnav hnum
  refine ⟨n, fun fuel hfu => ?_⟩
  obtain ⟨r, hrun, hend⟩ := hn' fuel hfu
  refine ⟨r, hrun, hend, ?_⟩
  obtain ⟨o, hop, key⟩ := C77_rinex2 X D cfg fuel fs r paths i path name file v sys hs ts es xl hcfg hout hn hf hi hname hyears hlast hrun hend hr hfile hx
  refine ⟨o, hop, fun t ha good => ?_⟩
  obtain ⟨xyz, kept, ws, k1, k2, k3, k4⟩ := key t ha good
  refine ⟨xyz, kept, ws, k1, k2, k3, fun sat e v more hw => ?_⟩
  obtain ⟨satDef, nav, pos, lbh, lines, text, m1, m2⟩ := k4 sat e v more hw
  exact ⟨text, m2, file_back F hF _ hP o xyz kept ws k3 _ sat e v more satDef nav pos lbh lines text hw m1 hd htext⟩

/-- C107, RINEX 2 with the epochs in any order -/
theorem C107_any_order (F : Flt) (hF : Accurate F) (X : Ext) (D : Disk) (cfg : Cfg) (fs : FS) (paths : List Str) (i : Nat) (path name : Str) (file : List Str)
    (v : Nat) (sys : Char) (hs : List HLine) (ts : List Str) (items : List Item) (seen : List (Epoch × Pos)) (final : Pos) (iv : Int) (xl : List XyzLine)
    (hP : Computed F (prmOf X D cfg)) (hd : ∀ t, DateIsWord (prmOf X D cfg) t) (htext : cfg.outFileModeText = true)
    (hcfg : Configured X cfg) (hout : OutDirOk cfg) (hn : PlainNames D cfg.obsDir) (hf : InputFiles D cfg.obsDir paths)
    (hobs : ObsArchive D cfg paths) (hnav : NavArchive D cfg paths) (hnum : Numerics X D cfg paths) (hi : paths[i]? = some path)
    (hname : LastComponent path name) (hyears : FourDigits paths) (hlast : ∀ (j : Nat) (p : Str), i < j → paths[j]? = some p → ¬ SameOutput path p)
    (hr : ReadAs D path file) (hfile : Any2 file v sys hs ts items seen final) (hiv : IntervalIs seen iv) (hx : CoordLines D cfg.obsDir path xl) :
    ∃ n, ∀ fuel, n ≤ fuel → ∃ r, program X D cfg fuel fs = some r ∧ r.err = none ∧ ∃ o, OpenedAny2 path v sys hs ts items seen final iv o ∧ RunBack (prmOf X D cfg) o xl name r.fs := by
  obtain ⟨n, hn'⟩ := C107_ends X D cfg fs paths hcfg hn hf (by rintro rfl; cases hi) hyears hobs hnav hnum
  refine ⟨n, fun fuel hfu => ?_⟩
  obtain ⟨r, hrun, hend⟩ := hn' fuel hfu
  refine ⟨r, hrun, hend, ?_⟩
  obtain ⟨o, hop, key⟩ := C100_output X D cfg fuel fs r paths i path name file v sys hs ts items seen final iv xl hcfg hout hn hf hi hname hyears hlast hrun hend hr hfile hiv hx
  refine ⟨o, hop, fun t ha good => ?_⟩
  obtain ⟨xyz, kept, ws, k1, k2, k3, k4⟩ := key t ha good
  refine ⟨xyz, kept, ws, k1, k2, k3, fun sat e v more hw => ?_⟩
  obtain ⟨satDef, nav, pos, lbh, lines, text, m1, m2⟩ := k4 sat e v more hw
  exact ⟨text, m2, file_back F hF _ hP o xyz kept ws k3 _ sat e v more satDef nav pos lbh lines text hw m1 hd htext⟩

/-- C107, RINEX 3 -/
theorem C107_rinex3 (F : Flt) (hF : Accurate F) (X : Ext) (D : Disk) (cfg : Cfg) (fs : FS) (paths : List Str) (i : Nat) (path name : Str) (file : List Str)
    (v : Nat) (sys : Char) (es : List HEntry) (items : List Item3) (a b : DateTime) (xl : List XyzLine)
    (hP : Computed F (prmOf X D cfg)) (hd : ∀ t, DateIsWord (prmOf X D cfg) t) (htext : cfg.outFileModeText = true)
    (hcfg : Configured X cfg) (hout : OutDirOk cfg) (hn : PlainNames D cfg.obsDir) (hf : InputFiles D cfg.obsDir paths)
    (hobs : ObsArchive D cfg paths) (hnav : NavArchive D cfg paths) (hnum : Numerics X D cfg paths) (hi : paths[i]? = some path)
    (hname : LastComponent path name) (hyears : FourDigits paths) (hlast : ∀ (j : Nat) (p : Str), i < j → paths[j]? = some p → ¬ SameOutput path p)
    (hr : ReadAs D path file) (hfile : File3 file v sys es items a b) (hx : CoordLines D cfg.obsDir path xl) :
    ∃ n, ∀ fuel, n ≤ fuel → ∃ r, program X D cfg fuel fs = some r ∧ r.err = none ∧ ∃ o, Opened3 path v sys es items a b o ∧ RunBack (prmOf X D cfg) o xl name r.fs := by
  obtain ⟨n, hn'⟩ := C107_ends X D cfg fs paths hcfg hn hf (by rintro rfl; cases hi) hyears hobs hnav hnum
  obtain ⟨o, m, hop, key⟩ := C77_rinex3 X D cfg fs paths i path name file v sys es items a b xl hcfg hout hn hf hi hname hyears hlast hr hfile hx
  refine ⟨max n m, fun fuel hfu => ?_⟩
  obtain ⟨r, hrun, hend⟩ := hn' fuel ((le_max_left _ _).trans hfu)
  refine ⟨r, hrun, hend, o, hop, fun t ha good => ?_⟩
  obtain ⟨xyz, kept, ws, k1, k2, k3, k4⟩ := key fuel r t ((le_max_right _ _).trans hfu) hrun hend ha good
  refine ⟨xyz, kept, ws, k1, k2, k3, fun sat e v more hw => ?_⟩
  obtain ⟨satDef, nav, pos, lbh, lines, text, m1, m2⟩ := k4 sat e v more hw
  exact ⟨text, m2, file_back F hF _ hP o xyz kept ws k3 _ sat e v more satDef nav pos lbh lines text hw m1 hd htext⟩

/-- C107, RINEX 3 with positions announced inside the file -/
theorem C107_moved3 (F : Flt) (hF : Accurate F) (X : Ext) (D : Disk) (cfg : Cfg) (fs : FS) (paths : List Str) (i : Nat) (path name : Str) (file : List Str)
    (v : Nat) (sys : Char) (es : List HEntry) (items : List Item3) (a b : DateTime) (seen : List (Ep3 × Pos)) (xl : List XyzLine)
    (hP : Computed F (prmOf X D cfg)) (hd : ∀ t, DateIsWord (prmOf X D cfg) t) (htext : cfg.outFileModeText = true)
    (hcfg : Configured X cfg) (hout : OutDirOk cfg) (hn : PlainNames D cfg.obsDir) (hf : InputFiles D cfg.obsDir paths)
    (hobs : ObsArchive D cfg paths) (hnav : NavArchive D cfg paths) (hnum : Numerics X D cfg paths) (hi : paths[i]? = some path)
    (hname : LastComponent path name) (hyears : FourDigits paths) (hlast : ∀ (j : Nat) (p : Str), i < j → paths[j]? = some p → ¬ SameOutput path p)
    (hr : ReadAs D path file) (hfile : Moved3 file v sys es items a b seen) (hx : CoordLines D cfg.obsDir path xl) :
    ∃ n, ∀ fuel, n ≤ fuel → ∃ r, program X D cfg fuel fs = some r ∧ r.err = none ∧ ∃ o, OpenedMoved3 path v sys es items a b o ∧ RunBack (prmOf X D cfg) o xl name r.fs := by
  obtain ⟨n, hn'⟩ := C107_ends X D cfg fs paths hcfg hn hf (by rintro rfl; cases hi) hyears hobs hnav hnum
  obtain ⟨o, m, hop, key⟩ := C91_output X D cfg fs paths i path name file v sys es items a b seen xl hcfg hout hn hf hi hname hyears hlast hr hfile hx
  refine ⟨max n m, fun fuel hfu => ?_⟩
  obtain ⟨r, hrun, hend⟩ := hn' fuel ((le_max_left _ _).trans hfu)
  refine ⟨r, hrun, hend, o, hop, fun t ha good => ?_⟩
  obtain ⟨xyz, kept, ws, k1, k2, k3, k4⟩ := key fuel r t ((le_max_right _ _).trans hfu) hrun hend ha good
  refine ⟨xyz, kept, ws, k1, k2, k3, fun sat e v more hw => ?_⟩
  obtain ⟨satDef, nav, pos, lbh, lines, text, m1, m2⟩ := k4 sat e v more hw
  exact ⟨text, m2, file_back F hF _ hP o xyz kept ws k3 _ sat e v more satDef nav pos lbh lines text hw m1 hd htext⟩

end Verif.Props
