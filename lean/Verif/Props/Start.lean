import Verif.Spec.Start
import Verif.Props.Archive
import Verif.Props.Bytes
import Verif.Props.Run
/-!
# C108: a run from the command line and the bytes on the disk
-/
namespace Verif.Props
open Verif.Py Verif.Model Verif.Model.DoubleGeo Verif.Spec Verif.Proofs

theorem holds_read {R : RawDisk} {path : Str} {file : List Str} (h : ObsHolds R path file) : ReadAs (diskOf R) path file := by
  obtain ⟨hat, comp, ls, last, h1, h2, h3, h4⟩ := h
  exact C78_lines R path hat comp ls last file h1 h2 h3 h4

theorem textHolds_read {R : RawDisk} (hl : AsciiLocale R) {path : Str} {file : List Str} (h : TextHolds R path file) : (diskOf R).lines .text path = .ok file := by
  obtain ⟨ls, last, h1, h2, h3, h4⟩ := h
  exact C78_coordinates R path ls last file hl h1 h2 h3 h4

theorem coordHolds_read {R : RawDisk} (hl : AsciiLocale R) {dirs : List Str} {path : Str} {xl : List XyzLine} (h : CoordHolds R dirs path xl) : CoordLines (diskOf R) dirs path xl := by
  obtain ⟨h0, stem, base, suffix, hat, comp, h1, h2, h3, h4, h5⟩ := h
  refine ⟨h0, stem, base, suffix, hat, comp, h1, h2, h3, h4, h5.imp id ?_⟩
  rintro ⟨k1, k2, k3⟩
  exact ⟨k1, textHolds_read hl k2, k3⟩

theorem navHolds_read {R : RawDisk} (hl : AsciiLocale R) {path : Str} {file : List Str} (h : NavHolds R path file) : NavReadAs (diskOf R) path file := by
  obtain ⟨h0, h1, h2⟩ := h
  by_cases hp : Packed path
  · obtain ⟨ls, last, k1, k2, k3⟩ := h1 hp
    exact C78_navigation R path ls last file h0 hl (fun _ => k1) (fun h => absurd hp h) k2 k3
  · obtain ⟨ls, last, k1, k2, k3, k4⟩ := h2 hp
    exact C78_navigation R path ls last file h0 hl (fun h => absurd h hp) (fun _ => ⟨k1, k2⟩) k3 k4

/-- C108: an archive in bytes is one in lines -/
theorem C108_archive (R : RawDisk) (cfg : Cfg) (paths : List Str) (h : ByteArchive R cfg paths) : ObsArchive (diskOf R) cfg paths ∧ NavArchive (diskOf R) cfg paths := by
  constructor
  · intro p hp
    obtain ⟨⟨file, h1, h2⟩, xl, h3⟩ := h.obs p hp
    exact ⟨⟨file, holds_read h1, h2⟩, xl, coordHolds_read h.locale h3⟩
  · refine ⟨h.dirs, h.listed, fun path hp c e f h1 h2 h3 => ?_⟩
    obtain ⟨k1, file, w, v, ms, k2, k3⟩ := h.nav path hp c e f h1 h2 h3
    exact ⟨k1, file, w, v, ms, navHolds_read h.locale k2, k3⟩

/-- a bound for all members of a list -/
theorem uniform_bound {α : Type} (l : List α) (Q : α → Nat → Prop) (h : ∀ x ∈ l, ∃ n, ∀ m, n ≤ m → Q x m) : ∃ n, ∀ m, n ≤ m → ∀ x ∈ l, Q x m := by
  induction l with
  | nil => exact ⟨0, fun _ _ x hx => by cases hx⟩
  | cons a l ih =>
    obtain ⟨n, hn⟩ := ih fun x hx => h x (by simp [hx])
    obtain ⟨k, hk⟩ := h a (by simp)
    refine ⟨max n k, fun m hm x hx => ?_⟩
    rcases List.mem_cons.1 hx with rfl | hx
    · exact hk m ((le_max_right ..).trans hm)
    · exact hn m ((le_max_left ..).trans hm) x hx

theorem forall2_right {α β : Type} {Q : α → β → Prop} {l : List α} {k : List β} (h : List.Forall₂ Q l k) : ∀ b ∈ k, ∃ a ∈ l, Q a b := by
  induction h with
  | nil => intro b hb; cases hb
  | cons h _ ih =>
    intro b hb
    rcases List.mem_cons.1 hb with rfl | hb
    · exact ⟨_, by simp, h⟩
    · obtain ⟨a, h1, h2⟩ := ih b hb
      exact ⟨a, by simp [h1], h2⟩

theorem forall2_left {α β : Type} {Q : α → β → Prop} {l : List α} {k : List β} (h : List.Forall₂ Q l k) : ∀ a ∈ l, ∃ b ∈ k, Q a b := by
  intro a ha
  exact forall2_right (Q := fun b a => Q a b) (List.Forall₂.flip h) a ha

theorem positions_unique {xl : List XyzLine} {x y : Dict DateTime Pos} (hx : Positions xl x) (hy : Positions xl y) (t : DateTime) : x.get? t = y.get? t := by
  have h := (hx t).trans (hy t).symm
  cases h1 : x.get? t <;> cases h2 : y.get? t <;> simp only [h1, h2, Option.map_none, Option.map_some, reduceCtorEq, Option.some.injEq, List.cons.injEq, PyFloat.fin.injEq] at h ⊢
  rename_i p q
  cases p; cases q
  simp_all

/-- the same for the run from the command line as for the program behind it -/
theorem launched_run {ev : Str → Except PyErr Str} {dtLen : Str → Nat} {X : Ext} {W : World} {a : Args} {cfg : Cfg} {R : RawDisk} (h : Launched ev dtLen W a cfg R)
    (hX : X.dtLen = dtLen cfg.datetimeFormat) (fuel : Nat) (fs : FS) : tecsRun ev dtLen X W a fuel fs = mainRun X (diskOf R) cfg false fuel fs ∧ Configured X cfg := by
  obtain ⟨hv, hs, dir, name, items, lines, h1, h2, h3, h4, h5, h6, h7, h8, h9⟩ := h
  have := C81_directory ev dtLen X W a fuel fs dir name items lines cfg (diskOf R) hv h1 h2 h3 h4 h5 h6 h7 h8 h9
  rw [this, hs, ← hX]
  exact ⟨rfl, ev, dtLen, _, _, h8, hX⟩

/-- C108: a run, from the command line and the bytes on the disk to the numbers in the output files.  With an archive in bytes and a configuration file that can be read the run ends without
an exception, prints the message on errors exactly if something was left out of one of the files, and leaves for each observation file (whose output is not written again by a later one) the
output files of C106. -/
theorem C108_run (F : Flt) (hF : Accurate F) (ev : Str → Except PyErr Str) (dtLen : Str → Nat) (X : Ext) (W : World) (a : Args) (cfg : Cfg) (R : RawDisk) (fs : FS) (paths : List Str)
    (hstart : Launched ev dtLen W a cfg R) (hX : X.dtLen = dtLen cfg.datetimeFormat)
    (hP : Computed F (prmOf X (diskOf R) cfg)) (hd : ∀ t, DateIsWord (prmOf X (diskOf R) cfg) t) (htext : cfg.outFileModeText = true)
    (hout : OutDirOk cfg) (hn : PlainNames (diskOf R) cfg.obsDir) (hf : InputFiles (diskOf R) cfg.obsDir paths) (hne : paths ≠ []) (hyears : FourDigits paths)
    (harch : ByteArchive R cfg paths) (hnum : Numerics X (diskOf R) cfg paths) :
    ∃ n, ∀ fuel, n ≤ fuel → ∃ r, tecsRun ev dtLen X W a fuel fs = some r ∧ r.err = none ∧
      (r.message = true ↔ ∃ path ∈ paths, ∃ o xl xyz, obsFile (diskOf R) fuel path = some (.ok o) ∧ CoordHolds R cfg.obsDir path xl ∧ Positions xl xyz ∧
        Lost (prmOf X (diskOf R) cfg) o xyz) ∧
      ∀ (i : Nat) (path name : Str), paths[i]? = some path → LastComponent path name → (∀ (j : Nat) (p : Str), i < j → paths[j]? = some p → ¬ SameOutput path p) →
        ∃ file o xl, ObsHolds R path file ∧ FileIs path file o ∧ CoordHolds R cfg.obsDir path xl ∧ RunBack (prmOf X (diskOf R) cfg) o xl name r.fs := by
  have hcfg := (launched_run hstart hX 0 fs).2
  obtain ⟨hobs, hnav⟩ := C108_archive R cfg paths harch
  have hfiles := (C72_files (diskOf R) cfg paths hn).2 hf
  have hl : ∃ r, listDirs (diskOf R) cfg.obsDir = .ok r := by
    unfold obsFiles at hfiles
    cases h : listDirs (diskOf R) cfg.obsDir with
    | error e => rw [h] at hfiles; cases hfiles
    | ok r => exact ⟨r, rfl⟩
  obtain ⟨n, hn'⟩ := C107_ends X (diskOf R) cfg fs paths hcfg hn hf hne hyears hobs hnav hnum
  -- each file
  have hfile : ∃ m, ∀ fuel, m ≤ fuel → ∀ i ∈ List.range paths.length, ∀ (path name : Str), paths[i]? = some path → LastComponent path name →
      (∀ (j : Nat) (p : Str), i < j → paths[j]? = some p → ¬ SameOutput path p) → ∃ file o xl r, program X (diskOf R) cfg fuel fs = some r ∧ ObsHolds R path file ∧ FileIs path file o ∧
        CoordHolds R cfg.obsDir path xl ∧ RunBack (prmOf X (diskOf R) cfg) o xl name r.fs := by
    apply uniform_bound
    intro i hi
    by_cases hex : ∃ path name, paths[i]? = some path ∧ LastComponent path name ∧ ∀ (j : Nat) (p : Str), i < j → paths[j]? = some p → ¬ SameOutput path p
    · obtain ⟨path, name, hi, hname, hlast⟩ := hex
      obtain ⟨⟨file, hh, ht⟩, xl, hxl⟩ := harch.obs path (List.mem_of_getElem? hi)
      have hr := holds_read hh
      have hx := coordHolds_read harch.locale hxl
      have key : ∃ m, ∀ fuel, m ≤ fuel → ∃ o r, program X (diskOf R) cfg fuel fs = some r ∧ FileIs path file o ∧ RunBack (prmOf X (diskOf R) cfg) o xl name r.fs := by
        cases ht with
        | ordered2 v sys hs ts es h1 _ _ =>
          obtain ⟨m, hm⟩ := C107_rinex2 F hF X (diskOf R) cfg fs paths i path name file v sys hs ts es xl hP hd htext hcfg hout hn hf hobs hnav hnum hi hname hyears hlast hr h1 hx
          refine ⟨m, fun fuel hfu => ?_⟩
          obtain ⟨r, k1, -, o, k2, k3⟩ := hm fuel hfu
          exact ⟨o, r, k1, .ordered2 v sys hs ts es h1 k2, k3⟩
        | rinex2 v sys hs ts items seen final iv h1 h2 _ _ =>
          obtain ⟨m, hm⟩ := C107_any_order F hF X (diskOf R) cfg fs paths i path name file v sys hs ts items seen final iv xl hP hd htext hcfg hout hn hf hobs hnav hnum hi hname hyears hlast hr h1 h2 hx
          refine ⟨m, fun fuel hfu => ?_⟩
          obtain ⟨r, k1, -, o, k2, k3⟩ := hm fuel hfu
          exact ⟨o, r, k1, .rinex2 v sys hs ts items seen final iv h1 h2 k2, k3⟩
        | rinex3 v sys es items a b h1 _ _ =>
          obtain ⟨m, hm⟩ := C107_rinex3 F hF X (diskOf R) cfg fs paths i path name file v sys es items a b xl hP hd htext hcfg hout hn hf hobs hnav hnum hi hname hyears hlast hr h1 hx
          refine ⟨m, fun fuel hfu => ?_⟩
          obtain ⟨r, k1, -, o, k2, k3⟩ := hm fuel hfu
          exact ⟨o, r, k1, .rinex3 v sys es items a b h1 k2, k3⟩
        | moved3 v sys es items a b seen h1 _ _ =>
          obtain ⟨m, hm⟩ := C107_moved3 F hF X (diskOf R) cfg fs paths i path name file v sys es items a b seen xl hP hd htext hcfg hout hn hf hobs hnav hnum hi hname hyears hlast hr h1 hx
          refine ⟨m, fun fuel hfu => ?_⟩
          obtain ⟨r, k1, -, o, k2, k3⟩ := hm fuel hfu
          exact ⟨o, r, k1, .moved3 v sys es items a b seen h1 k2, k3⟩
      obtain ⟨m, hm⟩ := key
      refine ⟨m, fun fuel hfu path' name' hi' hname' _ => ?_⟩
      rw [hi] at hi'
      cases hi'
      obtain rfl : name = name' := (basename_of_last hname).symm.trans (basename_of_last hname')
      obtain ⟨o, r, k1, k2, k3⟩ := hm fuel hfu
      exact ⟨file, o, xl, r, k1, hh, k2, hxl, k3⟩
    · exact ⟨0, fun fuel _ path name h1 h2 h3 => absurd ⟨path, name, h1, h2, h3⟩ hex⟩
  obtain ⟨m, hm⟩ := hfile
  -- opening
  have hopen : ∃ k, ∀ fuel, k ≤ fuel → ∀ p ∈ paths, ∃ o, obsFile (diskOf R) fuel p = some (.ok o) ∧ Clean o := by
    apply uniform_bound
    intro p hp
    obtain ⟨⟨file, hr, ht⟩, -⟩ := hobs p hp
    exact clean_open (diskOf R) p file hr ht
  obtain ⟨k, hk⟩ := hopen
  refine ⟨max n (max m k), fun fuel hfu => ?_⟩
  have hfn := (le_max_left ..).trans hfu
  have hfm := (le_max_left ..).trans ((le_max_right ..).trans hfu)
  have hfk := (le_max_right ..).trans ((le_max_right ..).trans hfu)
  obtain ⟨r0, hrun0, hend0⟩ := hn' fuel hfn
  have hmain := C80_program X (diskOf R) cfg fuel fs
  rw [hrun0] at hmain
  cases hr : mainRun X (diskOf R) cfg false fuel fs with
  | none => rw [hr] at hmain; cases hmain
  | some r =>
    rw [hr] at hmain
    simp only [Option.map_some, Option.some.injEq, Prod.mk.injEq] at hmain
    have hend : r.err = none := hmain.2.trans hend0
    refine ⟨r, (launched_run hstart hX fuel fs).1.trans hr, hend, ?_, ?_⟩
    · obtain ⟨paths', ins, h1, h2, h3⟩ := C80_message X (diskOf R) cfg fuel fs r hr hend
      rw [hfiles] at h1
      cases h1
      rw [h3]
      have hin : ∀ p ∈ paths, ∀ xl, CoordHolds R cfg.obsDir p xl → ∃ o xyz, obsFile (diskOf R) fuel p = some (.ok o) ∧ Clean o ∧ Positions xl xyz ∧ fileIn (diskOf R) fuel (someXyz (diskOf R) cfg) p = some ⟨.ok o, .ok xyz⟩ := by
        intro p hp xl hxl
        obtain ⟨o, ho, hc⟩ := hk fuel hfk p hp
        obtain ⟨xyz, hx1, hx2⟩ := C73_coordinates (diskOf R) cfg p xl hl (coordHolds_read harch.locale hxl)
        exact ⟨o, xyz, ho, hc, hx2, by rw [fileIn, ho, hx1]; rfl⟩
      constructor
      · rintro ⟨f, hfm, hfe⟩
        obtain ⟨p, hp, hpf⟩ : ∃ p ∈ paths, fileIn (diskOf R) fuel (someXyz (diskOf R) cfg) p = some f := by
          exact forall2_right h2 f hfm
        obtain ⟨-, xl, hxl⟩ := harch.obs p hp
        obtain ⟨o, xyz, ho, hc, hpos, hfi⟩ := hin p hp xl hxl
        rw [hpf] at hfi
        cases hfi
        refine ⟨p, hp, o, xl, xyz, ho, hxl, hpos, ?_⟩
        cases hfe with
        | opening h => rcases h with h | h <;> cases h
        | timeSystem o' t s h1 h2 h3 h4 => cases h1; exact .inl ⟨t, s, h2, h3, h4⟩
        | broken o' t h1 h2 h3 => cases h1; rw [hc.stop] at h3; cases h3
        | item o' t xyz' kept it c n e h1 h2 h3 h4 h5 h6 h7 => cases h1; cases h3; exact .inr ⟨t, kept, it, c, n, e, h2, h4, h5, h6, h7⟩
      · rintro ⟨p, hp, o, xl, xyz, ho, hxl, hpos, hlost⟩
        obtain ⟨o', xyz', ho', hc, hpos', hfi⟩ := hin p hp xl hxl
        rw [ho] at ho'
        cases ho'
        obtain ⟨f, hfm, hfi'⟩ := forall2_left h2 p hp
        rw [hfi] at hfi'
        cases hfi'
        refine ⟨_, hfm, ?_⟩
        rcases hlost with ⟨t, s, k1, k2, k3⟩ | ⟨t, kept, it, c, n, e, k1, k2, k3, k4, k5⟩
        · exact .timeSystem o t s rfl k1 k2 k3
        · refine .item o t xyz' kept it c n e rfl k1 rfl k2 k3 k4 ?_
          rcases k5 with k5 | ⟨x, p, er, k5, k6⟩
          · exact .inl k5
          · refine .inr ⟨x, p, er, ?_, k6⟩
            unfold SiteAt at k5 ⊢
            rwa [positions_unique hpos' hpos]
    · intro i path name hi hname hlast
      obtain ⟨file, o, xl, r', k1, k2, k3, k4, k5⟩ := hm fuel hfm i (by rw [List.mem_range]; exact (List.getElem?_eq_some_iff.1 hi).1) path name hi hname hlast
      rw [hrun0] at k1
      cases k1
      exact ⟨file, o, xl, k2, k3, k4, by rw [hmain.1]; exact k5⟩

end Verif.Props
