import Verif.Proofs.Moved
import Verif.Props.ProgramExamples
/-!
# Property C88: positions announced inside a RINEX 2 file, from the file to the output
-/
namespace Verif.Props
open Verif.Py Verif.Model Verif.Spec Verif.Proofs

theorem tracked_items (ts : List Str) (hd : HeaderVals) (prev : Option DateTime) (l : List (Epoch × Pos)) :
    allOf (itemOf2 ts) (tracked ts hd prev l) = some (l.flatMap fun e => e.1.items ts e.2) := by
  have hone : ∀ (e : Epoch) (p : Pos) (st : St2), st.hdr.xyz = xyzList p →
      ∀ y ∈ (recsOf ts e).map (·, st), itemOf2 ts y = some ⟨some y.1.epoch, y.1.sat, (recOf2 y.1.data).getD [], p, fun _ => some ts⟩ := by
    intro e p st hst y hy
    obtain ⟨r, hr, rfl⟩ := List.mem_map.1 hy
    obtain ⟨s, -, rfl⟩ := List.mem_map.1 hr
    simp [itemOf2, hst, posOf_xyzList, recOf2_says]
  have hall : ∀ (l : List (Epoch × Pos)) (prev : Option DateTime), ∃ f : Rec2 × St2 → ObsItem,
      (∀ y ∈ tracked ts hd prev l, itemOf2 ts y = some (f y)) ∧ (tracked ts hd prev l).map f = l.flatMap fun e => e.1.items ts e.2 := by
    intro l
    induction l with
    | nil => intro prev; exact ⟨fun y => ⟨none, [], [], ⟨0, 0, 0⟩, fun _ => none⟩, by simp [tracked], rfl⟩
    | cons a l ih =>
      intro prev
      obtain ⟨e, p⟩ := a
      obtain ⟨f, h1, h2⟩ := ih (some e.time)
      refine ⟨fun y => (itemOf2 ts y).getD ⟨none, [], [], ⟨0, 0, 0⟩, fun _ => none⟩, ?_, ?_⟩
      · intro y hy
        simp only [tracked, List.mem_append] at hy
        rcases hy with hy | hy
        · beta_reduce; rw [hone e p _ rfl y hy]; rfl
        · beta_reduce; rw [h1 y hy]; rfl
      · simp only [tracked, List.map_append, List.flatMap_cons]
        congr 1
        · rw [Epoch.items, List.map_map, recsOf, List.map_map]
          apply List.map_congr_left
          intro s _
          simp [itemOf2, posOf_xyzList, recOf2_says]
        · rw [← h2]
          apply List.map_congr_left
          intro y hy
          rw [h1 y hy]; rfl
  obtain ⟨f, h1, h2⟩ := hall l prev
  rw [← h2]
  exact allOf_map h1

/-- C88, opening: a RINEX 2 file whose events announce positions is opened; the program sees the header values, the sampling interval and all observations
that were written; the positions are those of a reading that starts with the position of the eleventh epoch (the last one if there are fewer epochs). -/
theorem C88_open (D : Disk) (fuel : Nat) (path : Str) (file : List Str) (v : Nat) (sys : Char) (hs : List HLine) (ts : List Str) (items : List Item)
    (seen : List (Epoch × Pos)) (final : Pos) (hr : ReadAs D path file) (hf : Moved2 file v sys hs ts items seen final) :
    ∃ o, obsFile D fuel path = some (.ok o) ∧ OpenedMoved2 path v sys hs ts items seen final o := by
  obtain ⟨before, tls, after, hs1, hs2, f, d, endl, body, hf0, hs0, hd0, rfl, rfl, htl, h1, h2, hpre, hno, hend, hw⟩ := hf.text
  obtain ⟨w, r, hb, hws⟩ := headerText_cons h1
  have hver : obsVersion (Model.firstLine (before ++ tls ++ after ++ endl :: body)) = .ok v := by
    rw [hb]
    simp only [List.cons_append, Model.firstLine, List.headD_cons]
    refine obsVersion_written v ?_ f sys hf0 hs0 d hd0 w hws
    have := hf.version
    simp only [List.mem_cons, List.not_mem_nil, or_false] at this ⊢
    omega
  have hv3 : v < 300 := by
    have := hf.version
    simp only [List.mem_cons, List.not_mem_nil, or_false] at this
    omega
  obtain ⟨ht, hcnt, hnd⟩ := hf.types
  have hokh : ∀ h ∈ (HLine.version v f sys d :: hs1) ++ hs2, h.Ok := by
    intro h hh
    simp only [List.cons_append, List.mem_cons] at hh
    rcases hh with rfl | hh
    · refine ⟨?_, hd0⟩
      omega
    · exact hf.header h hh
  have hph := header2_parsed v before tls after (.version v f sys d :: hs1) hs2 ts htl h1 h2 hokh ht hcnt
  have hts := obsTypes_render before after tls ts htl hpre ht hcnt
  have hpl := header_xyzList (HLine.version v f sys d :: hs1 ++ hs2)
  have hsite : sitePos (HLine.version v f sys d :: hs1 ++ hs2) = sitePos (hs1 ++ hs2) := rfl
  obtain ⟨o, i, wv, used, prev, ho, hcfg, hhdr, hpi, hi0, hi1, hmf, hu, hy, s, hst⟩ := open_moved _ body endl ts _ items seen (sitePos (hs1 ++ hs2)) final hno hend hts hnd hph
    (by rw [← hsite]; exact hpl) hf.body hf.track hf.epochs hf.two hf.increasing hf.span hw
  have hstored := stored_of_parse ⟨by omega, hi1⟩ (fun _ => hi0.le) hpi
  obtain ⟨q, hq⟩ : ∃ q, wv = .fin q := by
    obtain ⟨ms, -, -, h⟩ := hstored
    exact ⟨_, h⟩
  subst hq
  refine ⟨⟨path, getRinexDate path, if sys = ' ' then 'G' else sys, (hs1 ++ hs2).findSome? HLine.saysFirstObs, startPos seen final, q,
      used.flatMap fun e => e.1.items ts e.2, .ok ()⟩, ?_, ?_⟩
  · unfold obsFile
    rw [fetchObs_read hr]
    simp only [hver, if_pos hv3, ho]
    unfold obsIn2
    rw [hcfg, hy, tracked_items]
    simp only [Option.bind_some]
    unfold obsIn
    rw [hhdr]
    simp only [List.cons_append, List.findSome?_cons, HLine.saysVersion, HLine.saysFirstObs, posOf_xyzList]
    simp only [Option.bind_some, ratOf, Option.map_some, hst, hv3, true_and, Except.map]
  · exact ⟨rfl, fun d => namedDay_iff path d (readAs_last hr), rfl, rfl, rfl, ⟨i, hmf, hstored⟩, ⟨used, hu, rfl⟩, rfl⟩

theorem moved_legal {file v sys hs ts items seen final} (h : Moved2 file v sys hs ts items seen final) :
    ∀ e, Item.obs e ∈ items → Legal e.time := fun _ he => (h.body _ he).1

theorem track_mem {v : Nat} {p q : Pos} {items : List Item} {l : List (Epoch × Pos)} (ht : Track v p items l q) : ∀ x ∈ l, Item.obs x.1 ∈ items := by
  induction ht with
  | done p => simp
  | epoch _ ih =>
    intro x hx
    rcases List.mem_cons.1 hx with rfl | hx
    · simp
    · simp [ih x hx]
  | event _ _ ih => intro x hx; simp [ih x hx]

/-- C88, records: as C73, for files with announced positions -/
theorem C88_records (X : Ext) (D : Disk) (cfg : Cfg) (fuel : Nat) (fs : FS) (r : Outcome) (paths : List Str) (i : Nat) (path : Str) (file : List Str)
    (v : Nat) (sys : Char) (hs : List HLine) (ts : List Str) (items : List Item) (seen : List (Epoch × Pos)) (final : Pos) (xl : List XyzLine)
    (hn : PlainNames D cfg.obsDir) (hf : InputFiles D cfg.obsDir paths) (hi : paths[i]? = some path)
    (hrun : program X D cfg fuel fs = some r) (hend : r.err = none)
    (hr : ReadAs D path file) (hfile : Moved2 file v sys hs ts items seen final) (hx : CoordLines D cfg.obsDir path xl) :
    ∃ o, OpenedMoved2 path v sys hs ts items seen final o ∧ ∀ t, Accepted o t →
      (cfg.navIgnoreAbsence = false ∨ ∀ it ∈ o.items, ∀ c n e, Considered o it c n e → ¬ ArithError (prmOf X D cfg) c n e) →
      ∃ ops xyz kept, r.calls[i]? = some ops ∧ Positions xl xyz ∧ Kept cfg o kept ∧ RecordsOf (prmOf X D cfg) o xyz [] kept (writesOf ops) := by
  obtain ⟨o, ho, hop⟩ := C88_open D fuel path file v sys hs ts items seen final hr hfile
  refine ⟨o, hop, fun t ha good => ?_⟩
  refine run_records X D cfg fuel fs r paths i path o xl t ((C72_files D cfg paths hn).2 hf) hi hrun hend ho hx ha ?_ good
  intro it hit e he
  obtain ⟨used, hu, hui⟩ := hop.items
  rw [hui, List.mem_flatMap] at hit
  obtain ⟨ep, hep, hit⟩ := hit
  obtain ⟨s, -, rfl⟩ := List.mem_map.1 hit
  cases he
  exact moved_legal hfile _ (track_mem hu _ hep)

/-- C88, output: as C77, for files with announced positions -/
theorem C88_output (X : Ext) (D : Disk) (cfg : Cfg) (fuel : Nat) (fs : FS) (r : Outcome) (paths : List Str) (i : Nat) (path name : Str) (file : List Str)
    (v : Nat) (sys : Char) (hs : List HLine) (ts : List Str) (items : List Item) (seen : List (Epoch × Pos)) (final : Pos) (xl : List XyzLine)
    (hcfg : Configured X cfg) (hout : OutDirOk cfg) (hn : PlainNames D cfg.obsDir) (hf : InputFiles D cfg.obsDir paths) (hi : paths[i]? = some path)
    (hname : LastComponent path name) (hyears : FourDigits paths) (hlast : ∀ (j : Nat) (p : Str), i < j → paths[j]? = some p → ¬ SameOutput path p)
    (hrun : program X D cfg fuel fs = some r) (hend : r.err = none)
    (hr : ReadAs D path file) (hfile : Moved2 file v sys hs ts items seen final) (hx : CoordLines D cfg.obsDir path xl) :
    ∃ o, OpenedMoved2 path v sys hs ts items seen final o ∧ ∀ t, Accepted o t →
      (cfg.navIgnoreAbsence = false ∨ ∀ it ∈ o.items, ∀ c n e, Considered o it c n e → ¬ ArithError (prmOf X D cfg) c n e) →
      ∃ xyz kept ws, Positions xl xyz ∧ Kept cfg o kept ∧ RecordsOf (prmOf X D cfg) o xyz [] kept ws ∧
        ∀ sat e v more, ws.filter (fun w => w.1 == sat) = (sat, e, v) :: more →
          ∃ satDef nav pos lbh lines text, OutputIs (prmOf X D cfg) o (name.take 4) sat e v more satDef nav pos lbh lines text ∧
            r.fs.get? (outputPath cfg.outDir (name.take 4) sat e) = some text := by
  obtain ⟨o, ho, hop⟩ := C88_open D fuel path file v sys hs ts items seen final hr hfile
  refine ⟨o, hop, fun t ha good => ?_⟩
  refine output_files X D cfg fuel fs r paths i path name o xl t hcfg hout hn hf hi hname hyears hlast hrun hend ho ?_ hx ha good
  obtain ⟨d, h1, h2⟩ := hop.interval
  refine stored_nonneg h2 ?_
  have hd := List.mem_of_mem_take h1.1
  rw [show seen.map (·.1.time) = (seen.map (·.1)).map (·.time) by rw [List.map_map]; rfl,
    ← spacings_epochs _ (by intro e he; obtain ⟨x, hx, rfl⟩ := List.mem_map.1 he; exact hfile.epochs x hx)] at hd
  refine (spacings_increasing ?_ (List.pairwise_map.2 hfile.increasing) d hd).1.le
  intro e he
  obtain ⟨x, hx, rfl⟩ := List.mem_map.1 he
  exact moved_legal hfile _ (track_mem hfile.track _ hx)

/-! ## Which positions are right -/

theorem announces_unique {v : Nat} {e : Event} {m m' : Option Pos} (h : e.Announces v m) (h' : e.Announces v m') : m = m' := by
  by_cases hf : e.flag = 3 ∨ e.flag = 4
  · have key : ∀ p : Pos, m.getD p = m'.getD p := by
      intro p
      have h1 := parseHeader_event h hf p { HeaderVals.empty with xyz := xyzList p } rfl
      rw [parseHeader_event h' hf p _ rfl] at h1
      have h2 : xyzList (m'.getD p) = xyzList (m.getD p) := by simpa using h1
      have h3 := congrArg Model.posOf h2
      rw [posOf_xyzList, posOf_xyzList] at h3
      exact (Option.some.inj h3).symm
    have other : ∀ p : Pos, ∃ p' : Pos, p' ≠ p := fun p => ⟨⟨p.x + 1, p.y, p.z⟩, fun h => by
      have := congrArg Pos.x h
      simp at this⟩
    cases m with
    | none =>
      cases m' with
      | none => rfl
      | some x =>
        obtain ⟨p, hp⟩ := other x
        exact absurd (key p) hp
    | some y =>
      cases m' with
      | none =>
        obtain ⟨p, hp⟩ := other y
        exact absurd (key p).symm hp
      | some x => exact congrArg some (key ⟨0, 0, 0⟩)
  · rw [h.2 hf, h'.2 hf]

theorem track_unique {v : Nat} {p q q' : Pos} {items : List Item} {l l' : List (Epoch × Pos)} (h : Track v p items l q) (h' : Track v p items l' q') :
    l' = l ∧ q' = q := by
  induction h generalizing l' with
  | done p => cases h'; exact ⟨rfl, rfl⟩
  | epoch _ ih =>
    cases h' with
    | epoch h' =>
      obtain ⟨h1, h2⟩ := ih h'
      exact ⟨by rw [h1], h2⟩
  | event hm _ ih =>
    cases h' with
    | event hm' h' =>
      have := announces_unique hm hm'
      subst this
      exact ih h'

theorem track_before {v : Nat} {p q : Pos} {a b : List Item} {l : List (Epoch × Pos)} (h : Track v p (a ++ b) l q)
    (ha : ∀ e, Item.event e ∈ a → e.Announces v none) : ∀ x ∈ l.take (epochsOf a).length, x.2 = p := by
  induction a generalizing l with
  | nil => simp [epochsOf]
  | cons i a ih =>
    cases h with
    | epoch h =>
      intro x hx
      simp only [epochsOf, List.length_cons, List.take_succ_cons, List.mem_cons] at hx
      rcases hx with rfl | hx
      · rfl
      · exact ih h (fun e he => ha e (by simp [he])) x hx
    | event hm h =>
      have := announces_unique hm (ha _ (by simp))
      subst this
      exact ih h (fun e he => ha e (by simp [he]))

theorem track_after {v : Nat} {p p' q q' : Pos} {a b : List Item} {e : Event} {m : Pos} {l l' : List (Epoch × Pos)} (h : Track v p (a ++ .event e :: b) l q)
    (h' : Track v p' (a ++ .event e :: b) l' q') (he : e.Announces v (some m)) : l'.drop (epochsOf a).length = l.drop (epochsOf a).length := by
  induction a generalizing l l' p p' with
  | nil =>
    cases h with
    | event hm h =>
      cases h' with
      | event hm' h' =>
        have e1 := announces_unique hm he
        have e2 := announces_unique hm' he
        subst e1
        subst e2
        exact congrArg _ (track_unique h h').1
  | cons i a ih =>
    cases h with
    | epoch h =>
      cases h' with
      | epoch h' =>
        simp only [epochsOf, List.length_cons, List.drop_succ_cons]
        exact ih h h'
    | event hm h =>
      cases h' with
      | event hm' h' => exact ih h h'

/-- C88, which positions are right: the epochs after an announced position have the right position; the epochs before the first one all have the starting
position: that of the eleventh epoch, or the last one if there are fewer epochs.  If that is the position of the header, all positions are right. -/
theorem C88_positions (path : Str) (file : List Str) (v : Nat) (sys : Char) (hs : List HLine) (ts : List Str) (items : List Item)
    (seen : List (Epoch × Pos)) (final : Pos) (o : ObsIn) (hf : Moved2 file v sys hs ts items seen final)
    (ho : OpenedMoved2 path v sys hs ts items seen final o) :
    ∃ used, o.items = (used.flatMap fun e => e.1.items ts e.2) ∧ used.map (·.1) = seen.map (·.1) ∧
      (∀ a b e m, items = a ++ .event e :: b → e.Announces v (some m) → used.drop (epochsOf a).length = seen.drop (epochsOf a).length) ∧
      (∀ a b, items = a ++ b → (∀ e, Item.event e ∈ a → e.Announces v none) →
        (∀ x ∈ used.take (epochsOf a).length, x.2 = startPos seen final) ∧ ∀ x ∈ seen.take (epochsOf a).length, x.2 = sitePos hs) ∧
      (startPos seen final = sitePos hs → used = seen) := by
  obtain ⟨used, hu, hi⟩ := ho.items
  refine ⟨used, hi, by rw [track_epochs hu, track_epochs hf.track], ?_, ?_, ?_⟩
  · rintro a b e m rfl he
    exact track_after hf.track hu he
  · rintro a b rfl ha
    exact ⟨track_before hu ha, track_before hf.track ha⟩
  · intro h
    rw [h] at hu
    exact (track_unique hf.track hu).1

/-- C88, if no position is announced before the eleventh epoch, all positions are right. -/
theorem C88_late (path : Str) (file : List Str) (v : Nat) (sys : Char) (hs : List HLine) (ts : List Str) (a b : List Item)
    (seen : List (Epoch × Pos)) (final : Pos) (o : ObsIn) (hf : Moved2 file v sys hs ts (a ++ b) seen final)
    (ho : OpenedMoved2 path v sys hs ts (a ++ b) seen final o) (ha : ∀ e, Item.event e ∈ a → e.Announces v none) (h11 : 11 ≤ (epochsOf a).length) :
    o.xyz = sitePos hs ∧ o.items = seen.flatMap fun e => e.1.items ts e.2 := by
  obtain ⟨used, h1, -, -, h3, h4⟩ := C88_positions path file v sys hs ts _ seen final o hf ho
  have hlen : 11 ≤ seen.length := by
    have := congrArg List.length (track_epochs hf.track)
    have happ : ∀ a b : List Item, epochsOf (a ++ b) = epochsOf a ++ epochsOf b := by
      intro a b
      induction a with
      | nil => rfl
      | cons i a ih => cases i <;> simp [epochsOf, ih]
    rw [List.length_map, happ, List.length_append] at this
    omega
  have hs : startPos seen final = sitePos hs := by
    unfold startPos
    rw [List.getElem?_eq_getElem (by omega)]
    refine (h3 a b rfl ha).2 seen[10] ?_
    rw [List.mem_take_iff_getElem]
    exact ⟨10, by omega, rfl⟩
  rw [ho.xyz, h1, hs, h4 hs]
  exact ⟨rfl, rfl⟩

/-! ## Example -/

namespace ProgEx

/-- the receiver is moved between the epochs -/
def move : Event := ⟨List.replicate 26 ' ', 3, ['\n'], [hline (c% "antenna moved") (c% "COMMENT"), HLine.render 211 (.position 50000 60000 70000), HLine.render 211 (.position 10 10 10)]⟩

def movedItems : List Item := [.obs (epoch 0), .event move, .obs (epoch 30)]

def movedLines : List Str :=
  [HLine.render 211 (.version 211 'O' 'M' obsWords), HLine.render 211 (.firstObs ⟨2017, 1, 2, 3, 4, 0, 0⟩ 0 (c% "GPS")), HLine.render 211 (.position 10000 20000 30000)] ++
    typeLines exTypes ++ [] ++ hline [] lblEnd :: bodyLines movedItems

/-- the same disk with this file and without coordinate file -/
def movedDisk : Disk :=
  ⟨fun d => if d = c% "d" then .ok [c% "readme", c% "irkj0020.17o"] else disk.listing d,
   fun f p => if f = .plain ∧ p = obsPath then .ok movedLines else disk.lines f p,
   fun p => p = obsPath ∨ p = navPath⟩

theorem move_announces : move.Announces 211 (some ⟨5, 6, 7⟩) := by
  refine ⟨fun _ => ⟨[.other (hline (c% "antenna moved") (c% "COMMENT")), .position 50000 60000 70000, .position 10 10 10], ?_, ?_, by decide +kernel⟩, fun h => ?_⟩
  · exact ⟨⟨[], by simp [HLine.render], by simp⟩, ⟨[], by simp, by simp⟩, ⟨[], by simp, by simp⟩, trivial⟩
  · intro h hh
    simp only [List.mem_cons, List.not_mem_nil, or_false] at hh
    rcases hh with rfl | rfl | rfl
    · refine ⟨?_, by decide +kernel⟩
      show labelOf _ ∉ _
      decide +kernel
    · show ∀ n ∈ _, _
      decide +kernel
    · show ∀ n ∈ _, _
      decide +kernel
  · exact absurd (.inl rfl) h

theorem C88_hypotheses : Moved2 movedLines 211 'M' head exTypes movedItems [(epoch 0, ⟨1, 2, 3⟩), (epoch 30, ⟨5, 6, 7⟩)] ⟨5, 6, 7⟩ where
  version := by decide
  text := by
    refine ⟨[HLine.render 211 (.version 211 'O' 'M' obsWords), HLine.render 211 (.firstObs ⟨2017, 1, 2, 3, 4, 0, 0⟩ 0 (c% "GPS")), HLine.render 211 (.position 10000 20000 30000)], typeLines exTypes, [],
      head, [], 'O', obsWords, hline [] lblEnd, bodyLines movedItems, by decide, by decide, by decide, rfl, rfl, typeText_refl _, ?_, trivial, by decide +kernel, by decide +kernel, by decide +kernel, written_refl _⟩
    exact ⟨⟨[], by simp, by simp⟩, ⟨[], by simp, by simp⟩, ⟨[], by simp, by simp⟩, trivial⟩
  header := C73_hypotheses.header
  types := by decide
  body := by
    intro i hi
    simp only [movedItems, List.mem_cons, List.not_mem_nil, or_false] at hi
    rcases hi with rfl | rfl | rfl
    · exact epoch_ok (by decide)
    · exact ⟨by decide, by decide, by decide, by decide⟩
    · exact epoch_ok (by decide)
  track := by
    have h1 : sitePos head = ⟨1, 2, 3⟩ := by decide +kernel
    rw [h1]
    exact .epoch (.event move_announces (.epoch (.done _)))
  epochs := by
    intro e he
    simp only [List.mem_cons, List.not_mem_nil, or_false] at he
    rcases he with rfl | rfl
    · simp [epoch]
    · simp [epoch]
  two := by decide
  increasing := by decide +kernel
  span := by decide +kernel

/-- the run: both lines have the position announced between the epochs (`el` and `site.x` of the first line should be those of the header, 1) -/
theorem C88_example : ∃ r, program ext movedDisk cfg 5 [] = some r ∧ r.err = none ∧
    ((r.fs.get? (c% "out/2017/002/irkj/irkj_R24_002_17.dat")).map (splitOn '\n')).map (·.drop 6) = some
      [c% "# Position (L, B, H): 7, 6, 5", c% "# Position (X, Y, Z): 5, 6, 7", c% "# datetime format: %Y",
       c% "# Columns: tsn, el, c1, site.x", c% "# (I11,1X,F10.5,1X,F16.3,1X,F23.12)",
       c% "        368    8.00000           -0.099          5.000000000000", c% "        369    8.00000           -0.099          5.000000000000", []] := by
  have h : ((program ext movedDisk cfg 5 []).map fun r => (r.err, ((r.fs.get? (c% "out/2017/002/irkj/irkj_R24_002_17.dat")).map (splitOn '\n')).map (·.drop 6))) = some (none,
      some [c% "# Position (L, B, H): 7, 6, 5", c% "# Position (X, Y, Z): 5, 6, 7", c% "# datetime format: %Y",
       c% "# Columns: tsn, el, c1, site.x", c% "# (I11,1X,F10.5,1X,F16.3,1X,F23.12)",
       c% "        368    8.00000           -0.099          5.000000000000", c% "        369    8.00000           -0.099          5.000000000000", []]) := by decide +kernel
  obtain ⟨r, h1, h2⟩ := Option.map_eq_some_iff.1 h
  simp only [Prod.mk.injEq] at h2
  exact ⟨r, h1, h2.1, h2.2⟩

end ProgEx

end Verif.Props
