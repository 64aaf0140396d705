import Verif.Spec.EndToEnd
import Verif.Props.Look
import Verif.Props.Ends
import Verif.Props.AnyOrder
/-!
# Property C106: from the directories of observation files to the numbers in the output files
-/
namespace Verif.Props
open Verif.Py Verif.Model Verif.Model.DoubleGeo Verif.Spec Verif.Proofs

/-- an output file against the sky -/
theorem file_back (F : Flt) (hF : Accurate F) (P : Prm) (hP : Computed F P) (o : ObsIn) (xyz : Dict DateTime Pos) (kept : List ObsItem) (ws : List Rec)
    (hr : RecordsOf P o xyz [] kept ws)
    (site sat : Str) (e : DateTime) (v : List (Option FVal)) (more : List Rec) (satDef : Str) (nav : Option Str) (pos lbh : Pos) (lines : List Str) (text : Str)
    (hw : ws.filter (fun w => w.1 == sat) = (sat, e, v) :: more) (hout : OutputIs P o site sat e v more satDef nav pos lbh lines text)
    (hd : ∀ t, DateIsWord P t) (htext : P.cfg.outFileModeText = true) : FileBack P o xyz kept sat ((sat, e, v) :: more) text := by
  have hmem : ∀ w ∈ (sat, e, v) :: more, ∃ it ∈ kept, ∃ c n, it.sat = sat ∧ Considered o it c n w.2.1 ∧ Gives P xyz it c n w.2.1 w.2.2 := by
    intro w hw'
    rw [← hw, List.mem_filter] at hw'
    obtain ⟨it, h1, c, n, h2, h3, h4⟩ := records_gives P o xyz [] kept ws hr w hw'.1
    exact ⟨it, h1, c, n, h2.trans (by simpa using hw'.2), h3, h4⟩
  refine ⟨_, lines, ?_, hout.text, ?_⟩
  · rfl
  have hrec := hout.records
  clear hout hw
  generalize (sat, e, v) :: more = l at hmem hrec
  induction hrec with
  | nil => exact .nil
  | @cons w line l lines h _ ih =>
    refine .cons ?_ (ih fun w hw => hmem w (by simp [hw]))
    obtain ⟨it, h1, c, n, h2, h3, h4⟩ := hmem w (by simp)
    exact ⟨it, h1, c, n, h2, h3, C101_line P xyz it c n o.interval w.2.1 w.2.2 line h4 h (hd _) htext,
      C105_line F hF P hP xyz it c n o.interval w.2.1 w.2.2 line h4 h (hd _)⟩

/-- C106, RINEX 2 -/
theorem C106_rinex2 (F : Flt) (hF : Accurate F) (X : Ext) (D : Disk) (cfg : Cfg) (fs : FS) (paths : List Str) (i : Nat) (path name : Str) (file : List Str)
    (v : Nat) (sys : Char) (hs : List HLine) (ts : List Str) (es : List Epoch) (xl : List XyzLine)
    (hP : Computed F (prmOf X D cfg)) (hd : ∀ t, DateIsWord (prmOf X D cfg) t) (htext : cfg.outFileModeText = true)
    (hcfg : Configured X cfg) (hout : OutDirOk cfg) (hn : PlainNames D cfg.obsDir) (hf : InputFiles D cfg.obsDir paths)
    (ho : ∀ p ∈ paths, ∀ how file, D.lines how p = .ok file → Tractable file)
    (hxs : ∀ n ls, D.lines .text (n ++ c% ".xyz") = .ok ls → ∀ l ∈ ls, Plain l)
    (hi : paths[i]? = some path)
    (hname : LastComponent path name) (hyears : FourDigits paths) (hlast : ∀ (j : Nat) (p : Str), i < j → paths[j]? = some p → ¬ SameOutput path p)
    (hr : ReadAs D path file) (hfile : File2 file v sys hs ts es) (hx : CoordLines D cfg.obsDir path xl) :
    ∃ n, ∀ fuel, n ≤ fuel → ∃ r, program X D cfg fuel fs = some r ∧
      (r.err = none → ∃ o, Opened2 path v sys hs ts es o ∧ RunBack (prmOf X D cfg) o xl name r.fs) := by
  obtain ⟨n, hn'⟩ := C103_ends X D cfg fs paths hn hf ho hxs
  refine ⟨n, fun fuel hfu => ?_⟩
  obtain ⟨r, hrun⟩ := hn' fuel hfu
  refine ⟨r, hrun, fun hend => ?_⟩
  obtain ⟨o, hop, key⟩ := C77_rinex2 X D cfg fuel fs r paths i path name file v sys hs ts es xl hcfg hout hn hf hi hname hyears hlast hrun hend hr hfile hx
  refine ⟨o, hop, fun t ha good => ?_⟩
  obtain ⟨xyz, kept, ws, k1, k2, k3, k4⟩ := key t ha good
  refine ⟨xyz, kept, ws, k1, k2, k3, fun sat e v more hw => ?_⟩
  obtain ⟨satDef, nav, pos, lbh, lines, text, m1, m2⟩ := k4 sat e v more hw
  exact ⟨text, m2, file_back F hF _ hP o xyz kept ws k3 _ sat e v more satDef nav pos lbh lines text hw m1 hd htext⟩

/-- C106, RINEX 2 with the epochs in any order -/
theorem C106_any_order (F : Flt) (hF : Accurate F) (X : Ext) (D : Disk) (cfg : Cfg) (fs : FS) (paths : List Str) (i : Nat) (path name : Str) (file : List Str)
    (v : Nat) (sys : Char) (hs : List HLine) (ts : List Str) (items : List Item) (seen : List (Epoch × Pos)) (final : Pos) (iv : Int) (xl : List XyzLine)
    (hP : Computed F (prmOf X D cfg)) (hd : ∀ t, DateIsWord (prmOf X D cfg) t) (htext : cfg.outFileModeText = true)
    (hcfg : Configured X cfg) (hout : OutDirOk cfg) (hn : PlainNames D cfg.obsDir) (hf : InputFiles D cfg.obsDir paths)
    (ho : ∀ p ∈ paths, ∀ how file, D.lines how p = .ok file → Tractable file)
    (hxs : ∀ n ls, D.lines .text (n ++ c% ".xyz") = .ok ls → ∀ l ∈ ls, Plain l)
    (hi : paths[i]? = some path)
    (hname : LastComponent path name) (hyears : FourDigits paths) (hlast : ∀ (j : Nat) (p : Str), i < j → paths[j]? = some p → ¬ SameOutput path p)
    (hr : ReadAs D path file) (hfile : Any2 file v sys hs ts items seen final) (hiv : IntervalIs seen iv) (hx : CoordLines D cfg.obsDir path xl) :
    ∃ n, ∀ fuel, n ≤ fuel → ∃ r, program X D cfg fuel fs = some r ∧
      (r.err = none → ∃ o, OpenedAny2 path v sys hs ts items seen final iv o ∧ RunBack (prmOf X D cfg) o xl name r.fs) := by
  obtain ⟨n, hn'⟩ := C103_ends X D cfg fs paths hn hf ho hxs
  refine ⟨n, fun fuel hfu => ?_⟩
  obtain ⟨r, hrun⟩ := hn' fuel hfu
  refine ⟨r, hrun, fun hend => ?_⟩
  obtain ⟨o, hop, key⟩ := C100_output X D cfg fuel fs r paths i path name file v sys hs ts items seen final iv xl hcfg hout hn hf hi hname hyears hlast hrun hend hr hfile hiv hx
  refine ⟨o, hop, fun t ha good => ?_⟩
  obtain ⟨xyz, kept, ws, k1, k2, k3, k4⟩ := key t ha good
  refine ⟨xyz, kept, ws, k1, k2, k3, fun sat e v more hw => ?_⟩
  obtain ⟨satDef, nav, pos, lbh, lines, text, m1, m2⟩ := k4 sat e v more hw
  exact ⟨text, m2, file_back F hF _ hP o xyz kept ws k3 _ sat e v more satDef nav pos lbh lines text hw m1 hd htext⟩

/-- C106, RINEX 3 -/
theorem C106_rinex3 (F : Flt) (hF : Accurate F) (X : Ext) (D : Disk) (cfg : Cfg) (fs : FS) (paths : List Str) (i : Nat) (path name : Str) (file : List Str)
    (v : Nat) (sys : Char) (es : List HEntry) (items : List Item3) (a b : DateTime) (xl : List XyzLine)
    (hP : Computed F (prmOf X D cfg)) (hd : ∀ t, DateIsWord (prmOf X D cfg) t) (htext : cfg.outFileModeText = true)
    (hcfg : Configured X cfg) (hout : OutDirOk cfg) (hn : PlainNames D cfg.obsDir) (hf : InputFiles D cfg.obsDir paths)
    (ho : ∀ p ∈ paths, ∀ how file, D.lines how p = .ok file → Tractable file)
    (hxs : ∀ n ls, D.lines .text (n ++ c% ".xyz") = .ok ls → ∀ l ∈ ls, Plain l)
    (hi : paths[i]? = some path)
    (hname : LastComponent path name) (hyears : FourDigits paths) (hlast : ∀ (j : Nat) (p : Str), i < j → paths[j]? = some p → ¬ SameOutput path p)
    (hr : ReadAs D path file) (hfile : File3 file v sys es items a b) (hx : CoordLines D cfg.obsDir path xl) :
    ∃ o n, Opened3 path v sys es items a b o ∧ ∀ fuel, n ≤ fuel → ∃ r, program X D cfg fuel fs = some r ∧
      (r.err = none → RunBack (prmOf X D cfg) o xl name r.fs) := by
  obtain ⟨n, hn'⟩ := C103_ends X D cfg fs paths hn hf ho hxs
  obtain ⟨o, m, hop, key⟩ := C77_rinex3 X D cfg fs paths i path name file v sys es items a b xl hcfg hout hn hf hi hname hyears hlast hr hfile hx
  refine ⟨o, max n m, hop, fun fuel hfu => ?_⟩
  obtain ⟨r, hrun⟩ := hn' fuel ((le_max_left _ _).trans hfu)
  refine ⟨r, hrun, fun hend t ha good => ?_⟩
  obtain ⟨xyz, kept, ws, k1, k2, k3, k4⟩ := key fuel r t ((le_max_right _ _).trans hfu) hrun hend ha good
  refine ⟨xyz, kept, ws, k1, k2, k3, fun sat e v more hw => ?_⟩
  obtain ⟨satDef, nav, pos, lbh, lines, text, m1, m2⟩ := k4 sat e v more hw
  exact ⟨text, m2, file_back F hF _ hP o xyz kept ws k3 _ sat e v more satDef nav pos lbh lines text hw m1 hd htext⟩

/-! ## The hypotheses -/

/-- the numerical functions of a program can be such that they return the results of the code in binary64 -/
theorem C106_functions (X0 : Ext) : ∃ X : Ext, X.env = X0.env ∧ X.dtLen = X0.dtLen ∧ ∀ D cfg, Computed Flt.binary64 (prmOf X D cfg) := by
  obtain ⟨P, -, -, -, -, hc, -⟩ := C105_hypotheses (prmOf X0 ProgEx.disk ProgEx.cfg)
  exact ⟨{ X0 with lbh := P.lbh, satPos := P.satPos, elAz := P.elAz }, rfl, rfl, fun D cfg => ⟨hc.lbh, hc.elAz, hc.kepler, hc.motion⟩⟩

/-- C106: all hypotheses together, for the example of C77 (its file, its coordinate file) with functions that compute in binary64 -/
theorem C106_hypotheses : ∃ X : Ext, Accurate Flt.binary64 ∧ Computed Flt.binary64 (prmOf X ProgEx.disk ProgEx.cfg) ∧ (∀ t, DateIsWord (prmOf X ProgEx.disk ProgEx.cfg) t) ∧
    ProgEx.cfg.outFileModeText = true ∧ Configured X ProgEx.cfg ∧ OutDirOk ProgEx.cfg ∧ PlainNames ProgEx.disk ProgEx.cfg.obsDir ∧
    InputFiles ProgEx.disk ProgEx.cfg.obsDir [ProgEx.obsPath] ∧ (∀ p ∈ [ProgEx.obsPath], ∀ how file, ProgEx.disk.lines how p = .ok file → Tractable file) ∧
    (∀ n ls, ProgEx.disk.lines .text (n ++ c% ".xyz") = .ok ls → ∀ l ∈ ls, Plain l) ∧ LastComponent ProgEx.obsPath (c% "irkj0020.17o") ∧ FourDigits [ProgEx.obsPath] ∧
    (∀ (j : Nat) (p : Str), 0 < j → [ProgEx.obsPath][j]? = some p → ¬ SameOutput ProgEx.obsPath p) ∧ ReadAs ProgEx.disk ProgEx.obsPath ProgEx.obsLines ∧
    File2 ProgEx.obsLines 211 'M' ProgEx.head exTypes [ProgEx.epoch 0, ProgEx.epoch 30] ∧ CoordLines ProgEx.disk ProgEx.cfg.obsDir ProgEx.obsPath ProgEx.coords := by
  obtain ⟨X, h1, h2, h3⟩ := C106_functions ProgEx.ext
  obtain ⟨⟨ev, dtLen, fn, content, c1, c2⟩, c3, c4⟩ := ProgEx.C77_hypotheses
  obtain ⟨d1, d2, d3, d4⟩ := C103_hypotheses
  refine ⟨X, accurate_binary64, h3 _ _, ?_, rfl, ⟨ev, dtLen, fn, content, c1, by rw [h2, c2]⟩, c3, d1, d2, d3, d4, ProgEx.last, c4, ?_, ProgEx.readAs, ProgEx.C73_hypotheses,
    ProgEx.C73_coord_hypotheses⟩
  · intro t h
    exact absurd h (by show ¬ (c% "datetime" ∈ ProgEx.cfg.recFields); decide)
  · intro j p hj h
    cases j with
    | zero => omega
    | succ j => simp at h

end Verif.Props
