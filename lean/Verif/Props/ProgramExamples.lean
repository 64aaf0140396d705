import Verif.Props.Output
import Verif.Props.ProgramNav
import Verif.Props.ProgramEnd
/-!
# A concrete run

An observation file with two epochs (G01 and R24), its coordinate file, a mixed navigation file and a configuration file.
-/
namespace Verif.Props.ProgEx
open Verif.Py Verif.Model Verif.Spec Verif.Proofs Verif.Props

def ev (s : Str) : Except PyErr Str := .ok s
def dtLen (_ : Str) : Nat := 10

def cfgLines : List Str :=
  [c% "# an example\n", c% "obsDir = d\n", c% "navDir = n\n", c% "outDir = out\n", c% "recFields = tsn, el, c1, site.x\n", c% "datetimeFormat = %Y\n",
   c% "navIgnoreAbsence = False\n", c% "samplingInterval = 0\n", c% "logFile = l\n"]

def cfg : Cfg :=
  ⟨c% "t.cfg", c% "DEBUG", [c% "tsn", c% "el", c% "c1", c% "site.x"], [c% "d"], [c% "n"], c% "out", c% "%Y", true,
    c% "{0:11d} {3: 10.5f} {22: 16.3f} {40: 23.12f}\n", c% "(I11,1X,F10.5,1X,F16.3,1X,F23.12)", [('G', []), ('R', []), ('S', []), ('C', []), ('E', [])], false, c% "out/l", none⟩

def epoch (s : Nat) : Epoch := ⟨⟨2017, 1, 2, 3, 4, s, 0⟩, 3, 0, [exSat 'G' 1 123456, exSat 'R' 24 99], [], (false, true)⟩

def head : List HLine := [.firstObs ⟨2017, 1, 2, 3, 4, 0, 0⟩ 0 (c% "GPS"), .position 10000 20000 30000]

/-- a comment between the epochs -/
def comment : Event := ⟨List.replicate 26 ' ', 4, ['\n'], [hline (c% "antenna cleaned") (c% "COMMENT")]⟩

def obsLines : List Str :=
  [HLine.render 211 (.version 211 'O' 'M' obsWords), HLine.render 211 (.firstObs ⟨2017, 1, 2, 3, 4, 0, 0⟩ 0 (c% "GPS")), HLine.render 211 (.position 10000 20000 30000)] ++
    typeLines exTypes ++ [] ++ hline [] lblEnd :: bodyLines [.obs (epoch 0), .event comment, .obs (epoch 30)]

def coords : List XyzLine :=
  [.comment [] (c% " x y z"), .point ⟨2017, 1, 2, 3, 4, 30, 0⟩ [' '] ⟨1, 50⟩ [' '] ⟨1, 60⟩ [' '] ⟨1, 70⟩ [' '] ['\n']]

def navG (num w : Nat) : NavMsg :=
  ⟨'G', num, ⟨2017, 1, 2, 2, 0, 0, 0⟩, [exNum 1, exNum 1, exNum 1],
    [exRow w, exRow 4, exRow 5, exRow 5, exRow 5, exRow 5, ⟨[some (exNum 1), some (exNum 4)], []⟩]⟩
def navR (num w : Nat) : NavMsg := ⟨'R', num, ⟨2017, 1, 2, 3, 15, 0, 0⟩, [exNum 1, exNum 1, exNum 1], [exRow w, exRow 4, exRow 5]⟩

def navLines : List Str := [HLine.render 302 (.version 302 'N' 'M' navWords)] ++ hline [] lblEnd :: (exLines (navG 1 7) ++ (exLines (navR 24 3) ++ []))

def obsPath : Str := c% "d/irkj0020.17o"
def navPath : Str := c% "n/BRDC00IGS_R_20170020000_01D_MN.rnx"

def disk : Disk :=
  ⟨fun d => if d = c% "d" then .ok [c% "readme", c% "irkj0020.17o.xyz", c% "irkj0020.17o"] else if d = c% "n" then .ok [c% "BRDC00IGS_R_20170020000_01D_MN.rnx"] else .error .os,
   fun f p => match f with
     | .plain => if p = obsPath then .ok obsLines else .error .os
     | .text => if p = c% "d/irkj0020.17o.xyz" then .ok (coords.map XyzLine.render) else if p = navPath then .ok navLines else .error .os
     | _ => .error .os,
   fun p => p = obsPath ∨ p = c% "d/irkj0020.17o.xyz" ∨ p = navPath⟩

/-- the satellite position is taken from the ephemeris, the elevation from both positions -/
def ext : Ext :=
  ⟨fun p => .ok ⟨p.z, p.y, p.x⟩, fun _ eph dt => match eph with | .fin a :: _ => .ok ⟨a, 0, dt⟩ | _ => .error .zeroDiv,
   fun s p => .ok (s.x + p.x, 90), MainEx.env, 10⟩

theorem configured : readCfg ev dtLen (c% "t.cfg") (some cfgLines) = .ok cfg := by decide +kernel

/-- the output files of the run: comment and two lines each; the second line uses the position of the coordinate file -/
theorem C77_example : ∃ r, program ext disk cfg 5 [] = some r ∧ r.err = none ∧ r.fs.map (·.1) = [c% "out/2017/002/irkj/irkj_G01_002_17.dat", c% "out/2017/002/irkj/irkj_R24_002_17.dat"] ∧
    (r.fs.get? (c% "out/2017/002/irkj/irkj_R24_002_17.dat")).map (splitOn '\n') = some
      [c% "# Created on 2026-01-01", c% "# Sources: d/irkj0020.17o, n/BRDC00IGS_R_20170020000_01D_MN.rnx", c% "# Satellite: R24 (k = 3)", c% "# Interval: 30",
       c% "# Sampling interval: 0 (not used).", c% "# Site: irkj", c% "# Position (L, B, H): 3, 2, 1", c% "# Position (X, Y, Z): 1, 2, 3", c% "# datetime format: %Y",
       c% "# Columns: tsn, el, c1, site.x", c% "# (I11,1X,F10.5,1X,F16.3,1X,F23.12)",
       c% "        368    4.00000           -0.099          1.000000000000", c% "        369    8.00000           -0.099          5.000000000000", []] := by
  have h : ((program ext disk cfg 5 []).map fun r => (r.err, r.fs.map (·.1), (r.fs.get? (c% "out/2017/002/irkj/irkj_R24_002_17.dat")).map (splitOn '\n'))) = some (none,
      [c% "out/2017/002/irkj/irkj_G01_002_17.dat", c% "out/2017/002/irkj/irkj_R24_002_17.dat"], some
      [c% "# Created on 2026-01-01", c% "# Sources: d/irkj0020.17o, n/BRDC00IGS_R_20170020000_01D_MN.rnx", c% "# Satellite: R24 (k = 3)", c% "# Interval: 30",
       c% "# Sampling interval: 0 (not used).", c% "# Site: irkj", c% "# Position (L, B, H): 3, 2, 1", c% "# Position (X, Y, Z): 1, 2, 3", c% "# datetime format: %Y",
       c% "# Columns: tsn, el, c1, site.x", c% "# (I11,1X,F10.5,1X,F16.3,1X,F23.12)",
       c% "        368    4.00000           -0.099          1.000000000000", c% "        369    8.00000           -0.099          5.000000000000", []]) := by decide +kernel
  obtain ⟨r, h1, h2⟩ := Option.map_eq_some_iff.1 h
  simp only [Prod.mk.injEq] at h2
  exact ⟨r, h1, h2.1, h2.2.1, h2.2.2⟩

theorem obsName : ObsName (c% "irkj0020.17o") false false :=
  ⟨c% "irkj0020.17o", [], rfl, .daily (c% "irkj") (c% "002") '0' (c% "17") 'o' false ⟨rfl, by decide⟩ ⟨rfl, by decide⟩ rfl ⟨rfl, by decide⟩ rfl, rfl⟩

theorem plain : PlainNames disk cfg.obsDir := by
  intro d hd l hl n hn
  have hd : d ∈ [c% "d"] := hd
  rw [List.mem_singleton] at hd
  subst hd
  have hl : Except.ok [c% "readme", c% "irkj0020.17o.xyz", c% "irkj0020.17o"] = Except.ok l := hl
  cases hl
  revert n
  decide

theorem inputs : InputFiles disk cfg.obsDir [obsPath] := (C72_files disk cfg [obsPath] plain).1 (by decide +kernel)

theorem no_slash_mark (k : Bool) : ¬ Marked k (c% "d") := by
  rintro ⟨x, m, r, h, hm⟩
  have h1 : m.length ≤ 1 := by
    have := congrArg List.length h
    simp only [List.length_append, List.length_cons, List.length_nil] at this
    omega
  rcases hm with ⟨yy, t, rfl, h2, -⟩ | h2
  · simp [h2.1] at h1
  · have := congrArg List.length h2
    simp only [lower, List.length_map] at this
    rw [this] at h1
    cases k <;> simp at h1

theorem readAs : ReadAs disk obsPath obsLines :=
  ⟨by decide, c% "d", c% "irkj0020.17o", false, false, .inr ⟨rfl, no_slash_mark⟩, obsName, rfl⟩

theorem last : LastComponent obsPath (c% "irkj0020.17o") := ⟨by decide, .inr ⟨c% "d", by decide⟩⟩

theorem epoch_ok {s : Nat} (h : s < 60) : (epoch s).Ok 3 := by
  refine ⟨(legal_iff _).2 ?_, ?_, (by decide : 3 < 10), (by decide : 0 ≤ 1), (by decide : 2 < 1000), ?_⟩
  · exact ⟨(by decide : validDate 2017 1 2), (by decide : 3 ≤ 23), (by decide : 4 ≤ 59), (by show s ≤ 59; omega), (by decide : 0 ≤ 999999)⟩
  · exact ⟨(by decide : 1989 ≤ 2017), (by decide : 2017 ≤ 2088)⟩
  · exact (exEpoch_ok (by decide : 0 < 60)).2.2.2.2.2

theorem written_refl (cs : List Str) : Written cs cs := by
  induction cs with
  | nil => trivial
  | cons c cs ih => exact ⟨rfl, ih⟩

theorem legal0 : Legal ⟨2017, 1, 2, 3, 4, 0, 0⟩ := by simp only [Legal, LegalDate]; decide
theorem legal30 : Legal ⟨2017, 1, 2, 3, 4, 30, 0⟩ := by simp only [Legal, LegalDate]; decide

/-- the observation file is one of the files C73 and C77 are about -/
theorem C73_hypotheses : File2 obsLines 211 'M' head exTypes [epoch 0, epoch 30] where
  version := by decide
  text := by
    refine ⟨[HLine.render 211 (.version 211 'O' 'M' obsWords), HLine.render 211 (.firstObs ⟨2017, 1, 2, 3, 4, 0, 0⟩ 0 (c% "GPS")), HLine.render 211 (.position 10000 20000 30000)], typeLines exTypes, [],
      head, [], 'O', obsWords, hline [] lblEnd, bodyLines [.obs (epoch 0), .event comment, .obs (epoch 30)], [.obs (epoch 0), .event comment, .obs (epoch 30)],
      by decide, by decide, by decide, rfl, rfl, typeText_refl _, ?_, trivial, by decide +kernel, by decide +kernel, by decide +kernel, written_refl _, rfl, ?_⟩
    · exact ⟨⟨[], by simp, by simp⟩, ⟨[], by simp, by simp⟩, ⟨[], by simp, by simp⟩, trivial⟩
    · intro i hi
      simp only [List.mem_cons, List.not_mem_nil, or_false] at hi
      rcases hi with rfl | rfl | rfl
      · exact ⟨epoch_ok (by decide), fun _ h => nomatch h⟩
      · refine ⟨⟨by decide, by decide, by decide, by decide⟩, fun e h => ?_⟩
        cases h
        intro _
        decide +kernel
      · exact ⟨epoch_ok (by decide), fun _ h => nomatch h⟩
  header := by
    intro h hh
    simp only [head, List.mem_cons, List.not_mem_nil, or_false] at hh
    rcases hh with rfl | rfl
    · exact ⟨legal0, (by decide : 100 ≤ 2017), by decide, rfl⟩
    · show ∀ n ∈ _, _
      decide +kernel
  types := by decide
  epochs := by
    intro e he
    simp only [List.mem_cons, List.not_mem_nil, or_false] at he
    rcases he with rfl | rfl
    · simp [epoch]
    · simp [epoch]
  two := by decide
  increasing := by decide +kernel
  span := by decide +kernel

theorem C73_coord_hypotheses : CoordLines disk cfg.obsDir obsPath coords := by
  refine ⟨?_, obsPath, c% "irkj0020.17o", [], false, false, rfl, .inr ⟨c% "d", by decide, rfl⟩,
    .daily (c% "irkj") (c% "002") '0' (c% "17") 'o' false ⟨rfl, by decide⟩ ⟨rfl, by decide⟩ rfl ⟨rfl, by decide⟩ rfl, obsName,
    .inr ⟨by decide, rfl, c% "d", List.mem_singleton.2 rfl, _, c% "irkj0020.17o.xyz", rfl, by decide, by decide, by decide⟩⟩
  intro l hl
  simp only [coords, List.mem_cons, List.not_mem_nil, or_false] at hl
  rcases hl with rfl | rfl
  · show ∀ c ∈ _, _
    decide
  · refine ⟨legal30, rfl, ?_⟩
    simp only [Blank]
    decide

theorem C77_hypotheses : Configured ext cfg ∧ OutDirOk cfg ∧ FourDigits [obsPath] := by
  refine ⟨⟨ev, dtLen, c% "t.cfg", some cfgLines, configured, rfl⟩, ⟨by decide, by decide⟩, ?_⟩
  intro p hp d hd
  simp only [List.mem_singleton] at hp
  subst hp
  have := (namedDay_iff obsPath d ⟨_, last⟩).2 hd
  have h2 : getRinexDate obsPath = some ⟨2017, 1, 2⟩ := by decide +kernel
  rw [h2] at this
  cases this
  decide

/-- the navigation file is one of the files C75 is about -/
theorem C75_hypotheses : NavText navLines 302 302 [navG 1 7, navR 24 3] ∧ NavReadAs disk navPath navLines ∧
    NavChoice disk cfg 'R' ⟨2017, 1, 2, 3, 4, 0, 0⟩ navPath := by
  refine ⟨⟨?_, 'N', 'M', navWords, [], [HLine.render 302 (.version 302 'N' 'M' navWords)], hline [] lblEnd, _, by decide, rfl, ?_, by simp, by decide +kernel, by decide +kernel, ?_, ?_⟩, ?_, ?_⟩
  · have : ((302 : Nat) : Rat) / 100 = 302 / 100 := by norm_num
    rw [this]
    decide +kernel
  · exact ⟨⟨[], by simp, by simp⟩, trivial⟩
  · intro m hm
    have hd : ∀ w, w < 10 → (exNum w).Ok := fun w hw => ⟨by simp [exNum]; omega, by simp [exNum], by simp [exNum], by simp [exNum], by simp [exNum, DNum.text]⟩
    have hr : ∀ w, w < 10 → ∀ f ∈ (exRow w).fields, OField.Ok f := by
      intro w hw f hf
      simp only [exRow, List.mem_cons, List.not_mem_nil, or_false] at hf
      rcases hf with rfl | rfl | rfl | rfl
      · exact hd w hw
      · trivial
      · exact hd 2 (by omega)
      · exact hd 3 (by omega)
    have hc : ∀ d ∈ [exNum 1, exNum 1, exNum 1], d.Ok := by
      intro d hdm
      simp only [List.mem_cons, List.not_mem_nil, or_false] at hdm
      rcases hdm with rfl | rfl | rfl <;> exact hd 1 (by omega)
    simp only [List.mem_cons, List.not_mem_nil, or_false] at hm
    rcases hm with rfl | rfl
    · refine ⟨⟨by decide, ?_, rfl, hc, rfl, ?_⟩, by decide, by decide, rfl⟩
      · simp only [navG, Legal, LegalDate]; decide
      · intro r hrm
        simp only [navG, List.mem_cons, List.not_mem_nil, or_false] at hrm
        rcases hrm with rfl | rfl | rfl | rfl | rfl | rfl | rfl
        · exact hr 7 (by omega)
        · exact hr 4 (by omega)
        · exact hr 5 (by omega)
        · exact hr 5 (by omega)
        · exact hr 5 (by omega)
        · exact hr 5 (by omega)
        · intro f hf
          simp only [List.mem_cons, List.not_mem_nil, or_false] at hf
          rcases hf with rfl | rfl
          · exact hd 1 (by omega)
          · exact hd 4 (by omega)
    · refine ⟨⟨by decide, ?_, rfl, hc, rfl, ?_⟩, by decide, by decide, rfl⟩
      · simp only [navR, Legal, LegalDate]; decide
      · intro r hrm
        simp only [navR, List.mem_cons, List.not_mem_nil, or_false] at hrm
        rcases hrm with rfl | rfl | rfl
        · exact hr 3 (by omega)
        · exact hr 4 (by omega)
        · exact hr 5 (by omega)
  · exact ⟨_, _, rfl, ⟨⟨false, written_refl _⟩, by decide +kernel⟩, _, _, rfl, ⟨⟨false, written_refl _⟩, by decide +kernel⟩, rfl⟩
  · refine ⟨by decide, ?_, fun _ => rfl⟩
    intro hp
    have := (packed_iff navPath (by decide)).2 hp
    revert this
    decide +kernel
  · refine ⟨by decide, [], [[c% "BRDC00IGS_R_20170020000_01D_MN.rnx"]], rfl, .cons rfl .nil, ?_⟩
    exact (C35_choice _ ⟨2017, 1, 2, 3, 4, 0, 0⟩ 'R' [] legal0 (by decide) (by decide) navPath).1.1 (by decide +kernel)

/-- C72: the order in which the navigation directories are listed matters: with two files for the day the first one listed is taken -/
theorem C72_navigation_order :
    chooseNavFile [(c% "n", [c% "aaaa0020.17n", c% "bbbb0020.17n"])] ⟨2017, 1, 2, 3, 4, 0, 0⟩ 'G' [] = .ok (c% "n/aaaa0020.17n") ∧
    chooseNavFile [(c% "n", [c% "bbbb0020.17n", c% "aaaa0020.17n"])] ⟨2017, 1, 2, 3, 4, 0, 0⟩ 'G' [] = .ok (c% "n/bbbb0020.17n") := by
  decide +kernel

/-! ## RINEX 3 -/

def entries3 : List HEntry :=
  [.line (.firstObs ⟨2017, 2, 28, 23, 59, 59, 999999⟩ 0 (c% "GPS")), .sys 'G' 2 [⟨'C', '1', 'C'⟩, ⟨'L', '1', 'C'⟩], .line (.position 10000 20000 30000), .sys 'R' 1 [⟨'C', '1', 'P'⟩]]

def obsLines3 : List Str :=
  ((HEntry.line (.version 302 'O' 'M' obsWords) :: entries3).map (HEntry.lines 302)).flatten.map (· ++ ['\n']) ++ (hline [] lblEnd ++ ['\n']) :: bodyLines3 exItems3

def obsPath3 : Str := c% "d/IRKJ00RUS_R_20170590000_01D_30S_MO.crx.gz"

/-- the packed Hatanaka file; a packed navigation file with a message of G05 -/
def disk3 : Disk :=
  ⟨fun d => if d = c% "d" then .ok [c% "IRKJ00RUS_R_20170590000_01D_30S_MO.crx.gz"] else .ok [c% "brdc0590.17p.Z"],
   fun f p => match f with
     | .gunzipCrx => if p = obsPath3 then .ok obsLines3 else .error .os
     | .gunzip => if p = c% "n/brdc0590.17p.Z" then .ok ([HLine.render 302 (.version 302 'N' 'M' navWords)] ++ hline [] lblEnd :: exLines { navG 5 7 with epoch := ⟨2017, 2, 28, 22, 0, 0, 0⟩ })
       else .error .os
     | _ => .error .os,
   fun p => p = obsPath3⟩

theorem physical_nl (cs : List Str) : PhysicalLines (cs.map (· ++ ['\n'])) cs := by
  induction cs with
  | nil => trivial
  | cons c cs ih => exact ⟨⟨[], by simp, by simp⟩, ih⟩

/-- a RINEX 3 file as in C73 and C77 -/
theorem C73_hypotheses3 :
    File3 obsLines3 302 'M' entries3 exItems3 ⟨2017, 2, 28, 23, 59, 59, 999999⟩ ⟨2017, 3, 1, 0, 0, 30, 0⟩ ∧ ReadAs disk3 obsPath3 obsLines3 ∧
    CoordLines disk3 cfg.obsDir obsPath3 [] := by
  have hstem : ObsStem (c% "IRKJ00RUS_R_20170590000_01D_30S_MO.crx") true :=
    .long (c% "IRKJ00RUS") 'R' (c% "20170590000") (c% "01D") (c% "30S") 'M' 'O' (c% "crx") true ⟨rfl, by decide⟩ ⟨'R', by decide, rfl⟩ ⟨rfl, by decide⟩ ⟨rfl, by decide⟩ ⟨rfl, by decide⟩
      rfl rfl rfl
  have hname : ObsName (c% "IRKJ00RUS_R_20170590000_01D_30S_MO.crx.gz") true true := ⟨c% "IRKJ00RUS_R_20170590000_01D_30S_MO.crx", c% ".gz", rfl, hstem, .inr rfl⟩
  refine ⟨?_, ⟨by decide, c% "d", c% "IRKJ00RUS_R_20170590000_01D_30S_MO.crx.gz", true, true, .inr ⟨rfl, no_slash_mark⟩, hname, rfl⟩,
    by simp, c% "d/IRKJ00RUS_R_20170590000_01D_30S_MO.crx", c% "IRKJ00RUS_R_20170590000_01D_30S_MO.crx", c% ".gz", true, true, rfl, .inr ⟨c% "d", by decide, rfl⟩, hstem, hname, .inl ⟨by decide, rfl⟩⟩
  have hl1 : Legal ⟨2017, 2, 28, 23, 59, 59, 999999⟩ := by simp only [Legal, LegalDate]; decide
  have hl2 : Legal ⟨2017, 3, 1, 0, 0, 30, 0⟩ := by simp only [Legal, LegalDate]; decide
  refine ⟨by decide, ⟨'O', obsWords, _, _, _, by decide, by decide, by decide, rfl, physical_nl _, by decide +kernel, by decide +kernel, written_refl _, by decide +kernel⟩, ?_, ?_, ⟨by decide, by decide⟩,
    exItems3_ok, ?_, ⟨_, rfl, by decide⟩, ⟨hl1, hl2⟩, by decide +kernel, by decide +kernel⟩
  · intro e he
    simp only [entries3, List.mem_cons, List.not_mem_nil, or_false] at he
    rcases he with rfl | rfl | rfl | rfl
    · exact ⟨⟨hl1, (by decide : 100 ≤ 2017), by decide, rfl⟩, by simp⟩
    · refine ⟨by decide, by omega, ?_⟩
      simp only [Code.Ok]
      decide
    · refine ⟨?_, by simp⟩
      show ∀ n ∈ _, _
      decide +kernel
    · refine ⟨by decide, by omega, ?_⟩
      simp only [Code.Ok]
      decide
  · intro s n codes hm
    simp only [entries3, List.mem_cons, reduceCtorEq, HEntry.sys.injEq, List.not_mem_nil, or_false, false_or] at hm
    rcases hm with ⟨-, rfl, rfl⟩ | ⟨-, rfl, rfl⟩ <;> rfl
  · intro e he
    simp only [exItems3, List.mem_cons, reduceCtorEq, List.not_mem_nil, or_false, false_or, Item3.event.injEq] at he
    subst he
    decide

/-- the run writes the record of G05 (R12 has no ephemeris; the second epoch is on another day) -/
theorem C73_example3 :
    (program ext disk3 cfg 5 []).map (fun r => (r.err, r.fs.map (·.1), (r.fs.get? (c% "out/2017/059/IRKJ/IRKJ_G05_059_17.dat")).map fun t => (splitOn '\n' t).drop 11)) =
    some (none, [c% "out/2017/059/IRKJ/IRKJ_G05_059_17.dat"], some [c% "       2880    8.00000     20000000.123          1.000000000000", []]) := by decide +kernel

end Verif.Props.ProgEx
