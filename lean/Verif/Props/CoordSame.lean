import Verif.Spec.CoordSame
import Verif.Props.Tail
import Verif.Props.NavSame
/-!
# Coordinate files that differ in what no record needs (C114)
-/
namespace Verif.Props
open Verif.Py Verif.Model Verif.Spec Verif.Proofs

/-! ## The loop -/

theorem siteStage_coord (P : Prm) (o : ObsIn) (xyz xyz' : Dict DateTime Pos) (e : DateTime) (hdr : Pos) (s : St) (h : xyz.get? e = xyz'.get? e) :
    siteStage P o xyz e hdr s = siteStage P o xyz' e hdr s := by
  unfold siteStage
  rw [h]

theorem process_coord (P : Prm) (o : ObsIn) (xyz xyz' : Dict DateTime Pos) (it : ObsItem) (c : Char) (n : Int) (e : DateTime) (s : St) (h : xyz.get? e = xyz'.get? e) :
    process P o xyz it c n e s = process P o xyz' it c n e s := by
  unfold process
  simp only [siteStage_coord P o xyz xyz' e _ _ h]

theorem runItems_coord (P : Prm) (o : ObsIn) (sampling : Option Int) (xyz xyz' : Dict DateTime Pos) (items : List ObsItem) :
    (∀ it ∈ items, ∀ c n e, Considered o it c n e → xyz.get? e = xyz'.get? e) → ∀ last s,
    runItems P o sampling xyz items last s = runItems P o sampling xyz' items last s := by
  induction items with
  | nil => intro _ last s; rfl
  | cons it items ih =>
    intro h last s
    have ih := ih fun it' hit => h it' (by simp [hit])
    simp only [runItems]
    cases ha : admit o sampling last it with
    | error er => rfl
    | ok r =>
      cases r with
      | none => exact ih ..
      | some r =>
        obtain ⟨c, n, e, last'⟩ := r
        have hc := ((admit_some ..).1 ha).1
        simp only [process_coord P o xyz xyz' it c n e s (h it (by simp) c n e hc), ih]

/-- the same file as far as its records are concerned -/
def SameSite (f f' : FileIn) : Prop :=
  f.opened = f'.opened ∧ ∃ xyz xyz', f.xyzData = .ok xyz ∧ f'.xyzData = .ok xyz' ∧
    ∀ o, f.opened = .ok o → ∀ it ∈ o.items, ∀ c n e, Considered o it c n e → xyz.get? e = xyz'.get? e

theorem processFile_coord (P : Prm) {f f' : FileIn} (h : SameSite f f') (g : Glob) (fs : FS) : processFile P f g fs = processFile P f' g fs := by
  obtain ⟨h1, xyz, xyz', h2, h3, h4⟩ := h
  unfold processFile
  rw [← h1, h2, h3]
  cases ho : f.opened with
  | error er => rfl
  | ok o => simp only [runItems_coord P o _ xyz xyz' o.items (h4 o ho)]

theorem mainLoop_coord (P : Prm) {fs fs' : List FileIn} (h : List.Forall₂ SameSite fs fs') : ∀ g d, mainLoop P fs g d = mainLoop P fs' g d := by
  induction h with
  | nil => intro g d; rfl
  | cons h _ ih => intro g d; simp only [mainLoop, processFile_coord P h, ih]

/-! ## Names -/

theorem coord_nonl {n : Str} (h : CoordName n) : '\n' ∉ n ∧ '/' ∉ n := by
  obtain ⟨base, hat, hs, rfl⟩ := h
  obtain ⟨h1, h2⟩ := obsName_word (comp := false) ⟨base, [], (List.append_nil _).symm, hs, rfl⟩
  simp only [List.mem_append, not_or]
  exact ⟨⟨h1, by decide⟩, h2, by decide⟩

theorem coord_not_obs {n : Str} (h : CoordName n) : reObs.accepts n = false := by
  rw [← Bool.not_eq_true, reObs_accepts n (coord_nonl h).1]
  rintro ⟨hat, comp, ho⟩
  obtain ⟨base, _, -, rfl⟩ := h
  exact obs_not_xyz ho (List.suffix_append _ _)

/-- the name of a coordinate file is never taken for a navigation file -/
theorem coord_not_nav {n : Str} (h : CoordName n) (system : Char) (t : DateTime) : (composeNavRe system t).accepts n = false := by
  rw [← Bool.not_eq_true]
  intro hacc
  obtain ⟨base, hat, hs, rfl⟩ := h
  obtain ⟨a, b, e1, hw, k1⟩ := obs_dot (comp := false) ⟨base, [], (List.append_nil _).symm, hs, rfl⟩
  obtain ⟨a2, b2, e2, hd, k2⟩ := nav_dot hacc
  rw [e1, List.append_assoc, List.cons_append] at e2
  obtain ⟨rfl, rfl⟩ := first_dot (fun hm => absurd (hw _ hm) (by decide)) hd e2
  have dig : ∀ {c : Char}, isDigit c = true → lowerC c ∈ c% "rcn" → False := by
    intro c h1 h2
    rw [lowerC_digit h1] at h2
    have h2 : c ∈ ['r', 'c', 'n'] := h2
    simp only [List.mem_cons, List.not_mem_nil, or_false] at h2
    rcases h2 with rfl | rfl | rfl <;> revert h1 <;> decide
  rcases k1 with ⟨y, z, t1, u, rfl, h1, h2⟩ | ⟨a', o, c, u, rfl, h1, rfl, h2⟩
  · rcases k2 with ⟨y', z', t', u', e, h3, h4⟩ | ⟨a', n, c, u', rfl, h3, e, h4⟩ | ⟨c, u', e, h3⟩
    · cases e
      rcases h2 with h2 | h2 <;> rw [h2] at h4 <;> revert h4 <;> decide
    · cases e
      exact dig h1 (by rw [h4]; decide)
    · cases e
      exact dig h1 (by rw [h3]; decide)
  · rcases k2 with ⟨y', z', t', u', e, h3, h4⟩ | ⟨a2, n, c', u', e, h3, e', h4⟩ | ⟨c', u', e, h3⟩
    · have e := (List.cons.inj e).1
      subst e
      exact dig h3 (by rcases h2 with h2 | h2 <;> rw [h2] <;> decide)
    · have := List.append_inj' e rfl
      simp only [List.cons.injEq, and_true] at this
      rw [← this.2, h1] at h3
      revert h3; decide
    · cases e
      rcases h2 with h2 | h2 <;> rw [h2] at h3 <;> revert h3 <;> decide

open Classical in
theorem dirs_coord {D D' : Disk} {dirs : List Str} (h : ∀ d, SameNames (D.listing d) (D'.listing d)) :
    (∃ e, listDirs D dirs = .error e ∧ listDirs D' dirs = .error e) ∨
    ∃ r r', listDirs D dirs = .ok r ∧ listDirs D' dirs = .ok r' ∧
      List.Forall₂ (fun a b => a.1 = b.1 ∧ a.2.filter (fun n => ¬ CoordName n) = b.2.filter fun n => ¬ CoordName n) r r' := by
  induction dirs with
  | nil => exact .inr ⟨[], [], rfl, rfl, .nil⟩
  | cons d dirs ih =>
    have hd := h d
    simp only [listDirs]
    cases h1 : D.listing d with
    | error e =>
      cases h2 : D'.listing d with
      | error e' => rw [h1, h2] at hd; cases hd; exact .inl ⟨e, rfl, rfl⟩
      | ok l' => rw [h1, h2] at hd; cases hd
    | ok l =>
      cases h2 : D'.listing d with
      | error e' => rw [h1, h2] at hd; cases hd
      | ok l' =>
        rw [h1, h2] at hd
        rcases ih with ⟨e, h3, h4⟩ | ⟨r, r', h3, h4, h5⟩
        · exact .inl ⟨e, by rw [h3], by rw [h4]⟩
        · exact .inr ⟨(d, l) :: r, (d, l') :: r', by rw [h3], by rw [h4], .cons ⟨rfl, hd⟩ h5⟩

open Classical in
theorem findFiles_coord {r r' : List (Str × List Str)} (re : Re) (hre : ∀ n, CoordName n → re.accepts n = false)
    (h : List.Forall₂ (fun a b => a.1 = b.1 ∧ a.2.filter (fun n => ¬ CoordName n) = b.2.filter fun n => ¬ CoordName n) r r') : findFiles r re = findFiles r' re := by
  have key : ∀ l : List Str, l.filter re.accepts = (l.filter fun n => ¬ CoordName n).filter re.accepts := by
    intro l
    rw [List.filter_filter]
    apply List.filter_congr
    intro n _
    by_cases hn : CoordName n
    · simp [hn, hre n hn]
    · simp [hn]
  unfold findFiles
  congr 1
  induction h with
  | nil => rfl
  | cons h _ ih =>
    simp only [List.map_cons, ih]
    rw [key, h.2, ← key, h.1]

theorem loadFor_coord {D D' : Disk} {cfg : Cfg} (h : ∀ d, SameNames (D.listing d) (D'.listing d)) (hn : FileNames D cfg.navDir)
    (hl : ∀ k p n, LastComponent p n → ¬ CoordName n → D'.lines k p = D.lines k p) : loadFor D' cfg = loadFor D cfg := by
  funext d c
  unfold loadFor
  cases cfg.navPriority.get? c with
  | none => rfl
  | some priority =>
    simp only
    rcases dirs_coord (dirs := cfg.navDir) h with ⟨e, h3, h4⟩ | ⟨r, r', h3, h4, h5⟩
    · rw [h3, h4]
    · rw [h3, h4]
      simp only
      have hch : chooseNavFile r' d.start c priority = chooseNavFile r d.start c priority := by
        unfold chooseNavFile findNavFiles
        rw [findFiles_coord _ (fun n hn => coord_not_nav hn c d.start) h5, findFiles_coord _ (fun n hn => coord_not_nav hn 'M' d.start) h5]
      unfold loadNavigationMessage
      rw [hch]
      cases hc : chooseNavFile r d.start c priority with
      | error e => rfl
      | ok f =>
        simp only
        obtain ⟨a, h6, n, h7, rfl, s, hs⟩ := chosen_nav hc
        obtain ⟨h8, h9⟩ := listing_of_mem h3 a h6
        have hlast := inDir_last a.1 n (hn a.1 h8 a.2 h9 n h7)
        have hnc : ¬ CoordName n := by
          intro hcn
          rw [coord_not_nav hcn] at hs
          cases hs
        have : navFileOf D' (inDir a.1 n) = navFileOf D (inDir a.1 n) := by
          unfold navFileOf fetchNav
          simp only [fun k => hl k _ n hlast hnc]
        rw [this]

theorem coordFile_name {path q : Str} (h : CoordFile path q) : ∃ n, LastComponent q n ∧ CoordName n := by
  obtain ⟨stem, base, suffix, hat, comp, -, hst, hs, -, rfl⟩ := h
  have hcn : CoordName (base ++ c% ".xyz") := ⟨base, hat, hs, rfl⟩
  refine ⟨base ++ c% ".xyz", ⟨(coord_nonl hcn).2, ?_⟩, hcn⟩
  rcases hst with rfl | ⟨dir, -, rfl⟩
  · exact .inl rfl
  · exact .inr ⟨dir, by simp⟩

theorem input_named {D : Disk} {dirs paths : List Str} (hf : InputFiles D dirs paths) : ∀ p ∈ paths, ∃ name hat comp, LastComponent p name ∧ ObsName name hat comp := by
  classical
  intro p hp
  obtain ⟨-, ls, -, hperm⟩ := hf
  obtain ⟨d, hd, h⟩ := List.mem_flatMap.1 (hperm.mem_iff.1 hp)
  obtain ⟨n, hm, rfl⟩ := List.mem_map.1 h
  obtain ⟨hat, comp, ho⟩ := of_decide_eq_true (List.mem_filter.1 hm).2
  exact ⟨n, hat, comp, inDir_last d.1 n (obsName_word ho).2, ho⟩

theorem allOf_related {α β : Type} {R : β → β → Prop} {f g : α → Option β} {l : List α}
    (h : ∀ a ∈ l, (f a = none ∧ g a = none) ∨ ∃ b b', f a = some b ∧ g a = some b' ∧ R b b') :
    (allOf f l = none ∧ allOf g l = none) ∨ ∃ r r', allOf f l = some r ∧ allOf g l = some r' ∧ List.Forall₂ R r r' := by
  induction l with
  | nil => exact .inr ⟨[], [], rfl, rfl, .nil⟩
  | cons a l ih =>
    simp only [allOf]
    rcases h a (by simp) with ⟨h1, h2⟩ | ⟨b, b', h1, h2, h3⟩
    · rw [h1, h2]; exact .inl ⟨rfl, rfl⟩
    · rw [h1, h2]
      rcases ih fun x hx => h x (by simp [hx]) with ⟨h4, h5⟩ | ⟨r, r', h4, h5, h6⟩
      · rw [h4, h5]; exact .inl ⟨rfl, rfl⟩
      · rw [h4, h5]; exact .inr ⟨b :: r, b' :: r', rfl, rfl, .cons h3 h6⟩

theorem positions_agree {xl xl' : List XyzLine} {xyz xyz' : Dict DateTime Pos} (h : Positions xl xyz) (h' : Positions xl' xyz') {e : DateTime} (he : lastFor e xl = lastFor e xl') :
    xyz.get? e = xyz'.get? e := by
  have h1 := h e
  rw [he, ← h' e] at h1
  cases ha : xyz.get? e with
  | none => rw [ha] at h1; cases hb : xyz'.get? e with
    | none => rfl
    | some p => rw [hb] at h1; cases h1
  | some p => rw [ha] at h1; cases hb : xyz'.get? e with
    | none => rw [hb] at h1; cases h1
    | some q =>
      rw [hb] at h1
      cases p; cases q
      simpa using h1

/-- C114: a coordinate file counts only by the positions it gives for the epochs of the records.  If coordinate files are added, removed or written anew (other comments, another order, other spacing,
more or fewer epochs) and for the epochs of the records of each observation file its coordinate file gives the same positions, the run is the same. -/
theorem C114_run (X : Ext) (D D' : Disk) (cfg : Cfg) (fuel : Nat) (fs : FS) (paths : List Str) (hn : PlainNames D cfg.obsDir) (hf : InputFiles D cfg.obsDir paths)
    (hnav : FileNames D cfg.navDir) (h : CoordsRewritten D D' fuel cfg.obsDir paths) : program X D' cfg fuel fs = program X D cfg fuel fs := by
  have hlines : ∀ k p n, LastComponent p n → ¬ CoordName n → D'.lines k p = D.lines k p := by
    intro k p n hl hc
    apply h.others
    rintro path - hcf
    obtain ⟨m, hm, hcm⟩ := coordFile_name hcf
    have : m = n := by rw [← basename_of_last hm, basename_of_last hl]
    exact hc (this ▸ hcm)
  have hP : prmOf X D' cfg = prmOf X D cfg := by unfold prmOf; rw [loadFor_coord h.listing hnav hlines]
  rcases dirs_coord (dirs := cfg.obsDir) h.listing with ⟨e, h3, h4⟩ | ⟨r, r', h3, h4, h5⟩
  · unfold program obsFiles
    rw [h3, h4]
  · have hobs : obsFiles D' cfg = obsFiles D cfg := by
      unfold obsFiles
      rw [h3, h4]
      simp only
      rw [findFiles_coord _ (fun n hn => coord_not_obs hn) h5]
    have hfile : ∀ p ∈ paths, (fileIn D' fuel (someXyz D' cfg) p = none ∧ fileIn D fuel (someXyz D cfg) p = none) ∨
        ∃ b b', fileIn D' fuel (someXyz D' cfg) p = some b ∧ fileIn D fuel (someXyz D cfg) p = some b' ∧ SameSite b b' := by
      intro p hp
      obtain ⟨name, hat, comp, hl, ho⟩ := input_named hf p hp
      have hnc : ¬ CoordName name := by
        rintro ⟨base, _, -, rfl⟩
        exact obs_not_xyz ho (List.suffix_append _ _)
      have ho : obsFile D' fuel p = obsFile D fuel p := by
        have : fetchObs D' p = fetchObs D p := by
          unfold fetchObs
          simp only [fun k => hlines k p name hl hnc]
        unfold obsFile
        rw [this]
      obtain ⟨xl, xl', c1, c2, c3⟩ := h.coords p hp
      obtain ⟨xyz, e1, p1, -⟩ := coordinates_data D cfg p xl ⟨r, h3⟩ c1
      obtain ⟨xyz', e2, p2, -⟩ := coordinates_data D' cfg p xl' ⟨r', h4⟩ c2
      unfold fileIn
      rw [ho, e1, e2]
      cases hop : obsFile D fuel p with
      | none => exact .inl ⟨rfl, rfl⟩
      | some o =>
        refine .inr ⟨_, _, rfl, rfl, rfl, xyz', xyz, rfl, rfl, ?_⟩
        intro ob hob it hit c n e hc
        subst hob
        exact (positions_agree p1 p2 (c3 e ⟨ob, it, c, n, hop, hit, hc⟩)).symm
    unfold program
    rw [hobs, (C72_files D cfg paths hn).2 hf, hP]
    cases paths with
    | nil => rfl
    | cons p ps =>
      simp only
      rcases allOf_related hfile with ⟨h6, h7⟩ | ⟨q, q', h6, h7, h8⟩
      · rw [h6, h7]
      · rw [h6, h7]
        simp only [Option.map_some, mainLoop_coord _ h8]

/-- C114: in particular the order, the spacing and the comments of a coordinate file do not matter, as long as lines of one epoch keep their order. -/
theorem C114_layout (xl xl' : List XyzLine) (h : ∀ e, (xl.filterMap XyzLine.entry).filter (fun p => p.1 = e) = (xl'.filterMap XyzLine.entry).filter fun p => p.1 = e) (e : DateTime) :
    lastFor e xl = lastFor e xl' := by
  have key : ∀ l : List XyzLine, lastFor e l = (((l.filterMap XyzLine.entry).filter fun p => p.1 = e).reverse.head?).map (·.2) := by
    intro l
    unfold lastFor
    rw [← List.filter_reverse, List.head?_filter]
  rw [key, key, h]

end Verif.Props

namespace Verif.Props.ProgEx
open Verif.Py Verif.Spec Verif.Model Verif.Proofs

/-- the coordinate file of the example with other spacing, without the comment, and with positions for epochs without observations -/
def coords' : List XyzLine :=
  [.point ⟨2017, 1, 2, 3, 4, 31, 0⟩ [' '] ⟨1, 1⟩ [' '] ⟨1, 2⟩ [' '] ⟨1, 3⟩ [' '] ['\n'], .blank ['\n'],
   .point ⟨2017, 1, 2, 3, 4, 30, 0⟩ [' ', ' '] ⟨2, 500⟩ ['\t'] ⟨1, 60⟩ [' '] ⟨3, 7000⟩ [' '] ['\n'],
   .point ⟨2016, 1, 2, 3, 4, 30, 0⟩ [' '] ⟨1, 1⟩ [' '] ⟨1, 2⟩ [' '] ⟨1, 3⟩ [' '] ['\n']]

def diskX : Disk := { disk with lines := fun f p => if f = .text ∧ p = c% "d/irkj0020.17o.xyz" then .ok (coords'.map XyzLine.render) else disk.lines f p }

theorem coords'_ok : ∀ l ∈ coords', l.Ok := by
  intro l hl
  have bl : ∀ {s : Str}, (∀ c ∈ s, isSpace c = true) → Blank s := fun h => h
  have h1 : Legal ⟨2017, 1, 2, 3, 4, 31, 0⟩ := by simp only [Legal, LegalDate]; decide
  have h2 : Legal ⟨2016, 1, 2, 3, 4, 30, 0⟩ := by simp only [Legal, LegalDate]; decide
  simp only [coords', List.mem_cons, List.not_mem_nil, or_false] at hl
  rcases hl with rfl | rfl | rfl | rfl
  · exact ⟨h1, rfl, bl (by decide), by decide, bl (by decide), by decide, bl (by decide), by decide, bl (by decide), by decide, bl (by decide), by decide, by decide, by decide⟩
  · show ∀ c ∈ _, _
    decide
  · exact ⟨legal30, rfl, bl (by decide), by decide, bl (by decide), by decide, bl (by decide), by decide, bl (by decide), by decide, bl (by decide), by decide, by decide, by decide⟩
  · exact ⟨h2, rfl, bl (by decide), by decide, bl (by decide), by decide, bl (by decide), by decide, bl (by decide), by decide, bl (by decide), by decide, by decide, by decide⟩

/-- the epochs with records -/
theorem observed_at {e : DateTime} (h : ObservedAt disk 5 obsPath e) : e = ⟨2017, 1, 2, 3, 4, 0, 0⟩ ∨ e = ⟨2017, 1, 2, 3, 4, 30, 0⟩ := by
  obtain ⟨o, it, c, n, ho, hit, -, he, -⟩ := h
  obtain ⟨o', ho', p⟩ := C73_open2 disk 5 obsPath obsLines 211 'M' head exTypes [epoch 0, epoch 30] readAs C73_hypotheses
  rw [ho] at ho'
  cases ho'
  rw [p.items] at hit
  obtain ⟨ep, h1, h2⟩ := List.mem_flatMap.1 hit
  simp only [Epoch.items, List.mem_map] at h2
  obtain ⟨s, -, rfl⟩ := h2
  simp only [List.mem_cons, List.not_mem_nil, or_false] at h1
  rcases h1 with rfl | rfl
  · cases he; exact .inl rfl
  · cases he; exact .inr rfl

theorem C114_hypotheses : CoordsRewritten disk diskX 5 cfg.obsDir [obsPath] ∧ coords'.map XyzLine.render ≠ coords.map XyzLine.render := by
  refine ⟨⟨?_, ?_, ?_⟩, by decide +kernel⟩
  · intro d
    show SameNames (disk.listing d) (disk.listing d)
    cases disk.listing d <;> exact rfl
  · intro k p hp
    have : p ≠ c% "d/irkj0020.17o.xyz" := by
      rintro rfl
      exact hp obsPath (by simp) ⟨obsPath, c% "irkj0020.17o", [], false, false, rfl, .inr ⟨c% "d", by decide, rfl⟩,
        .daily (c% "irkj") (c% "002") '0' (c% "17") 'o' false ⟨rfl, by decide⟩ ⟨rfl, by decide⟩ rfl ⟨rfl, by decide⟩ rfl, obsName, rfl⟩
    simp [diskX, this]
  · intro path hp
    rw [List.mem_singleton] at hp
    subst hp
    refine ⟨coords, coords', C73_coord_hypotheses, ⟨coords'_ok, ?_⟩, ?_⟩
    · exact ⟨obsPath, c% "irkj0020.17o", [], false, false, rfl, .inr ⟨c% "d", by decide, rfl⟩,
        .daily (c% "irkj") (c% "002") '0' (c% "17") 'o' false ⟨rfl, by decide⟩ ⟨rfl, by decide⟩ rfl ⟨rfl, by decide⟩ rfl, obsName,
        .inr ⟨by decide, rfl, c% "d", List.mem_singleton.2 rfl, _, c% "irkj0020.17o.xyz", rfl, by decide, by decide, by decide⟩⟩
    · intro e he
      rcases observed_at he with rfl | rfl <;> decide +kernel

theorem C114_example : program ext diskX cfg 5 [] = program ext disk cfg 5 [] :=
  C114_run ext disk diskX cfg 5 [] [obsPath] plain inputs (by
    intro d hd l hl n hn
    have hd : d ∈ [c% "n"] := hd
    rw [List.mem_singleton] at hd
    subst hd
    have hl : Except.ok [c% "BRDC00IGS_R_20170020000_01D_MN.rnx"] = Except.ok l := hl
    cases hl
    revert n
    decide) C114_hypotheses.1

end Verif.Props.ProgEx
