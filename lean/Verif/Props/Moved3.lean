import Verif.Proofs.Moved3
import Verif.Props.Moved
/-!
# Property C91: positions announced inside a RINEX 3 file, from the file to the output
-/
namespace Verif.Props
open Verif.Py Verif.Model Verif.Spec Verif.Proofs

theorem heard_of_track {v : Nat} {p q : Pos} {heard : Option Pos} {items : List Item3} {l : List (Ep3 × Pos)} (h : Track3 v p items l) :
    ∃ used, Heard v heard q items used := by
  induction h generalizing q heard with
  | done => exact ⟨[], .done ..⟩
  | epoch _ ih =>
    obtain ⟨u, hu⟩ := ih (q := q) (heard := heard)
    exact ⟨_, .epoch hu⟩
  | event ha _ ih =>
    obtain ⟨hs, hh, -⟩ := ha
    obtain ⟨u, hu⟩ := ih
    exact ⟨u, .event hh hu⟩

theorem heard_items (m : TypeMap) (hd : HeaderVals) (l : List (Ep3 × Pos)) :
    allOf itemOf3 (heardRecs m hd (asSys m) l) = some (l.flatMap fun e => e.1.items m e.2) := by
  have happ : ∀ a b : List (Rec3 × Obj3), ∀ x y, allOf itemOf3 a = some x → allOf itemOf3 b = some y → allOf itemOf3 (a ++ b) = some (x ++ y) := by
    intro a
    induction a with
    | nil => intro b x y h1 h2; cases h1; exact h2
    | cons c a ih =>
      intro b x y h1 h2
      simp only [allOf] at h1
      obtain ⟨z, hz, h1⟩ := Option.bind_eq_some_iff.1 h1
      obtain ⟨r, hr, rfl⟩ := Option.map_eq_some_iff.1 h1
      simp only [List.cons_append, allOf, hz, ih b r y hr h2, Option.bind_some, Option.map_some]
  induction l with
  | nil => rfl
  | cons a l ih =>
    obtain ⟨e, p⟩ := a
    simp only [heardRecs, List.flatMap_cons] at ih ⊢
    refine happ _ _ _ _ ?_ ih
    rw [recs3, List.map_map, Ep3.items]
    generalize e.sats = sats
    induction sats with
    | nil => rfl
    | cons s sats ihs =>
      simp only [List.map_cons, allOf, ihs, Option.map_some, Function.comp]
      unfold itemOf3
      rw [recOf3_says]
      simp only [Option.bind_some, posOf_xyzList, Option.map_some, Option.some.injEq, List.cons.injEq, and_true]
      congr 1
      funext c
      exact asSys_get m c

/-- C91, opening: a RINEX 3 file whose events announce positions is opened; the program sees the header values, the sampling interval and all observations
that were written; the positions are those of `Heard`. -/
theorem C91_open (D : Disk) (path : Str) (file : List Str) (v : Nat) (sys : Char) (es : List HEntry) (items : List Item3) (a b : DateTime)
    (seen : List (Ep3 × Pos)) (hr : ReadAs D path file) (hf : Moved3 file v sys es items a b seen) :
    ∃ n o, (∀ fuel, n ≤ fuel → obsFile D fuel path = some (.ok o)) ∧ OpenedMoved3 path v sys es items a b o := by
  obtain ⟨f, d, hdr, endl, body, hf0, hs0, hd0, rfl, hp, hh, hend, hw, hne⟩ := hf.text
  obtain ⟨w, r, hb, hws⟩ := physical_cons hp
  have hver : obsVersion (Model.firstLine (hdr ++ endl :: body)) = .ok v := by
    rw [hb]
    simp only [List.cons_append, Model.firstLine, List.headD_cons]
    refine obsVersion_written v ?_ f sys hf0 hs0 d hd0 w hws
    have := hf.version
    simp only [List.mem_cons, List.not_mem_nil, or_false] at this ⊢
    omega
  have hv3 : 300 ≤ v ∧ v < 1000 := by
    have := hf.version
    simp only [List.mem_cons, List.not_mem_nil, or_false] at this
    omega
  obtain ⟨rest, hca, hcb⟩ := hf.times
  have hes : ∀ e ∈ HEntry.line (.version v f sys d) :: es, e.Ok := by
    intro e he
    rcases List.mem_cons.1 he with rfl | he
    · exact ⟨⟨hv3.2, hd0⟩, by intro l h; cases h⟩
    · exact hf.header e he
  have hcons : Consistent [] (HEntry.line (.version v f sys d) :: es) := by
    refine ⟨?_, ?_, by simp [Dict.keys]⟩
    · intro s n codes hm
      simp only [List.mem_cons, reduceCtorEq, false_or] at hm
      exact hf.numbers s n codes hm
    · have := hf.systems.1
      rw [← sysOf_typeMap] at this
      simp only [sysOf]
      have h2 : (sysOf es).map (fun p => [p.1]) = ((sysOf es).map (·.1)).map fun c => [c] := by rw [List.map_map]; rfl
      rw [h2]
      exact this.map (fun x y h => by simpa using h)
  have hm := marks_of_items _ items hf.body body hw hne
  obtain ⟨n, hn⟩ := (C22_interval hm hca).1 ⟨a, by rw [hca]; simp⟩
  have hsub : b.sub a = instant b - instant a := by rw [DateTime.sub, instant_eq hf.legal.1, instant_eq hf.legal.2]
  have hpos' := hf.increasing
  have hdet : ∀ fuel, n ≤ fuel → detInterval3 fuel body = some (.ok (instant b - instant a)) := by
    intro fuel hf
    rw [hn fuel hf, hcb]
    simp only [spacingOf]
    rw [if_neg (by rw [hsub]; omega), hsub]
  have htm : typeMapOf v (HEntry.line (.version v f sys d) :: es) = typeMapOf v es := rfl
  obtain ⟨ch, wv, hch, hstored, hopen⟩ := open3 v hv3.1 _ hes hcons (by rw [htm]; exact hf.systems.2) hdr hp hh endl hend body n _ ⟨hf.increasing, hf.span⟩ hdet
  rw [htm] at hch hopen
  obtain ⟨q, hq⟩ : ∃ q, wv = .fin q := by
    obtain ⟨ms, -, -, h⟩ := hstored
    exact ⟨_, h⟩
  subst hq
  obtain ⟨used, hu⟩ := heard_of_track (heard := none) (q := sitePos (linesOf es)) hf.track
  have hxyz : (valuesOf v (HEntry.line (.version v f sys d) :: es) .empty).xyz = xyzList (sitePos (linesOf es)) :=
    header_xyzList (HLine.version v f sys d :: linesOf es)
  generalize hhd : ({ valuesOf v (HEntry.line (.version v f sys d) :: es) .empty with interval := some (.fin q) } : HeaderVals) = hd at hopen
  have hdx : hd.xyz = xyzList (sitePos (linesOf es)) := by rw [← hhd]; exact hxyz
  have hdd : hd = { hd with xyz := xyzList (sitePos (linesOf es)) } := by rw [← hdx]
  obtain ⟨hy, s, hst⟩ := read_heard (hd := hd) hch hu hf.body body hw hne
  rw [← hdd] at hy hst
  refine ⟨n, ⟨path, getRinexDate path, sys, (linesOf es).findSome? HLine.saysFirstObs, sitePos (linesOf es), q,
    used.flatMap fun e => e.1.items (typeMapOf v es) e.2, .ok ()⟩, ?_, ?_⟩
  · intro fuel hfu
    unfold obsFile
    rw [fetchObs_read hr]
    simp only [hver, if_neg (show ¬ v < 300 by omega), hopen fuel hfu]
    unfold obsIn3
    unfold Obs3.records
    rw [hy, heard_items, hst]
    simp only [Option.bind_some]
    unfold obsIn
    rw [hdx, posOf_xyzList, ← hhd]
    simp only [valuesOf, linesOf, List.findSome?_cons, HLine.saysVersion, HLine.saysFirstObs, HeaderVals.empty, Option.or_none, Option.bind_some,
      ratOf, Option.map_some, Except.map, show ¬ v < 300 by omega, false_and, if_false]
  · exact ⟨rfl, fun d => namedDay_iff path d (readAs_last hr), rfl, rfl, rfl, hstored, ⟨used, hu, rfl⟩, rfl⟩

theorem heard_epochs {v : Nat} {heard : Option Pos} {p : Pos} {items : List Item3} {l : List (Ep3 × Pos)} (h : Heard v heard p items l) :
    l.map (·.1) = epochs3 items := by
  induction h with
  | done => rfl
  | epoch _ ih => simp [epochs3, ih]
  | event _ _ ih => simpa [epochs3] using ih

theorem track3_epochs {v : Nat} {p : Pos} {items : List Item3} {l : List (Ep3 × Pos)} (h : Track3 v p items l) : l.map (·.1) = epochs3 items := by
  induction h with
  | done => rfl
  | epoch _ ih => simp [epochs3, ih]
  | event _ _ ih => simpa [epochs3] using ih

theorem epochs3_mem {items : List Item3} {e : Ep3} (h : e ∈ epochs3 items) : Item3.obs e ∈ items := by
  induction items with
  | nil => cases h
  | cons i items ih =>
    cases i with
    | obs x =>
      simp only [epochs3, List.mem_cons] at h
      rcases h with rfl | h
      · simp
      · simp [ih h]
    | event x => simp [ih h]

/-- C91, records: as C73, for files with announced positions -/
theorem C91_records (X : Ext) (D : Disk) (cfg : Cfg) (fs : FS) (paths : List Str) (i : Nat) (path : Str) (file : List Str)
    (v : Nat) (sys : Char) (es : List HEntry) (items : List Item3) (a b : DateTime) (seen : List (Ep3 × Pos)) (xl : List XyzLine)
    (hn : PlainNames D cfg.obsDir) (hf : InputFiles D cfg.obsDir paths) (hi : paths[i]? = some path)
    (hr : ReadAs D path file) (hfile : Moved3 file v sys es items a b seen) (hx : CoordLines D cfg.obsDir path xl) :
    ∃ o n, OpenedMoved3 path v sys es items a b o ∧ ∀ fuel r t, n ≤ fuel → program X D cfg fuel fs = some r → r.err = none → Accepted o t →
      (cfg.navIgnoreAbsence = false ∨ ∀ it ∈ o.items, ∀ c n e, Considered o it c n e → ¬ ArithError (prmOf X D cfg) c n e) →
      ∃ ops xyz kept, r.calls[i]? = some ops ∧ Positions xl xyz ∧ Kept cfg o kept ∧ RecordsOf (prmOf X D cfg) o xyz [] kept (writesOf ops) := by
  obtain ⟨n, o, ho, hop⟩ := C91_open D path file v sys es items a b seen hr hfile
  refine ⟨o, n, hop, fun fuel r t hfu hrun hend ha good => ?_⟩
  refine run_records X D cfg fuel fs r paths i path o xl t ((C72_files D cfg paths hn).2 hf) hi hrun hend (ho fuel hfu) hx ha ?_ good
  intro it hit e he
  obtain ⟨used, hu, hui⟩ := hop.items
  rw [hui, List.mem_flatMap] at hit
  obtain ⟨ep, hep, hit⟩ := hit
  obtain ⟨s, -, rfl⟩ := List.mem_map.1 hit
  cases he
  exact (hfile.body _ (epochs3_mem (heard_epochs hu ▸ List.mem_map_of_mem hep))).1.1

/-- C91, output: as C77, for files with announced positions -/
theorem C91_output (X : Ext) (D : Disk) (cfg : Cfg) (fs : FS) (paths : List Str) (i : Nat) (path name : Str) (file : List Str)
    (v : Nat) (sys : Char) (es : List HEntry) (items : List Item3) (a b : DateTime) (seen : List (Ep3 × Pos)) (xl : List XyzLine)
    (hcfg : Configured X cfg) (hout : OutDirOk cfg) (hn : PlainNames D cfg.obsDir) (hf : InputFiles D cfg.obsDir paths) (hi : paths[i]? = some path)
    (hname : LastComponent path name) (hyears : FourDigits paths) (hlast : ∀ (j : Nat) (p : Str), i < j → paths[j]? = some p → ¬ SameOutput path p)
    (hr : ReadAs D path file) (hfile : Moved3 file v sys es items a b seen) (hx : CoordLines D cfg.obsDir path xl) :
    ∃ o n, OpenedMoved3 path v sys es items a b o ∧ ∀ fuel r t, n ≤ fuel → program X D cfg fuel fs = some r → r.err = none → Accepted o t →
      (cfg.navIgnoreAbsence = false ∨ ∀ it ∈ o.items, ∀ c n e, Considered o it c n e → ¬ ArithError (prmOf X D cfg) c n e) →
      ∃ xyz kept ws, Positions xl xyz ∧ Kept cfg o kept ∧ RecordsOf (prmOf X D cfg) o xyz [] kept ws ∧
        ∀ sat e v more, ws.filter (fun w => w.1 == sat) = (sat, e, v) :: more →
          ∃ satDef nav pos lbh lines text, OutputIs (prmOf X D cfg) o (name.take 4) sat e v more satDef nav pos lbh lines text ∧
            r.fs.get? (outputPath cfg.outDir (name.take 4) sat e) = some text := by
  obtain ⟨n, o, ho, hop⟩ := C91_open D path file v sys es items a b seen hr hfile
  refine ⟨o, n, hop, fun fuel r t hfu hrun hend ha good => ?_⟩
  exact output_files X D cfg fuel fs r paths i path name o xl t hcfg hout hn hf hi hname hyears hlast hrun hend (ho fuel hfu)
    (stored_nonneg hop.interval hfile.increasing.le) hx ha good

/-! ## Which positions are right -/

theorem holds_pos {v : Nat} {e : Ev3} {hs hs' : List HLine} (h : e.Holds v hs) (h' : e.Holds v hs') : hs.findSome? HLine.pos = hs'.findSome? HLine.pos := by
  have key := announces_unique (v := v) (e := ⟨[], 4, [], e.body⟩) (m := hs.findSome? HLine.pos) (m' := hs'.findSome? HLine.pos)
    ⟨fun _ => ⟨hs, h.1, h.2.1, rfl⟩, fun h => absurd (.inr rfl) h⟩ ⟨fun _ => ⟨hs', h'.1, h'.2.1, rfl⟩, fun h => absurd (.inr rfl) h⟩
  exact key

/-- nothing announced: the position remains -/
theorem heard_silent {v : Nat} {p : Pos} {a b : List Item3} {l : List (Ep3 × Pos)} (h : Heard v none p (a ++ b) l) (ha : ∀ e, Item3.event e ∈ a → e.Silent v) :
    ∃ l', Heard v none p b l' ∧ l = (epochs3 a).map (·, p) ++ l' := by
  induction a generalizing l with
  | nil => exact ⟨l, h, rfl⟩
  | cons i a ih =>
    cases h with
    | epoch h =>
      obtain ⟨l', h1, rfl⟩ := ih h fun e he => ha e (by simp [he])
      exact ⟨l', h1, rfl⟩
    | @event _ _ e hs _ _ hh h =>
      obtain ⟨hs', g1, g2⟩ := ha e (by simp)
      rw [holds_pos hh g1, g2] at h
      simp only [Option.or_none, Option.getD_none, ite_self] at h
      exact ih h fun e he => ha e (by simp [he])

theorem track_silent {v : Nat} {p : Pos} {a b : List Item3} {l : List (Ep3 × Pos)} (h : Track3 v p (a ++ b) l) (ha : ∀ e, Item3.event e ∈ a → e.Announces v none) :
    ∃ l', Track3 v p b l' ∧ l = (epochs3 a).map (·, p) ++ l' := by
  induction a generalizing l with
  | nil => exact ⟨l, h, rfl⟩
  | cons i a ih =>
    cases h with
    | epoch h =>
      obtain ⟨l', h1, rfl⟩ := ih h fun e he => ha e (by simp [he])
      exact ⟨l', h1, rfl⟩
    | @event _ e m _ _ hh h =>
      obtain ⟨hs, g1, g2⟩ := hh
      obtain ⟨hs', g1', g2'⟩ := ha e (by simp)
      rw [holds_pos g1 g1', ← g2'] at g2
      subst g2
      exact ih h fun e he => ha e (by simp [he])

/-- in force: no event changes the position any more -/
theorem heard_fixed {v : Nat} {heard : Option Pos} {m : Pos} {b : List Item3} {l : List (Ep3 × Pos)} (h : Heard v heard m b l) (hm : heard = some m) :
    l = (epochs3 b).map (·, m) := by
  induction h with
  | done => rfl
  | epoch _ ih => simp [epochs3, ← ih hm]
  | event _ _ ih =>
    subst hm
    simp only [Option.some_or, Option.getD_some, ite_self, forall_const] at ih
    exact ih

/-- C91, which positions are right: (1) up to the first block with a position, all epochs have the position of the header, as they should; (2) if that block has flag 4,
*all* epochs behind it have its position, also those behind further announcements; (3) if it has another flag (3: new site), nothing happens before the
next block with flag 4 that is not empty. -/
theorem C91_positions (path : Str) (file : List Str) (v : Nat) (sys : Char) (es : List HEntry) (t1 t2 : DateTime) (seen : List (Ep3 × Pos)) (o : ObsIn)
    (a b : List Item3) (e : Ev3) (hs : List HLine) (m : Pos) (hf : Moved3 file v sys es (a ++ .event e :: b) t1 t2 seen)
    (ho : OpenedMoved3 path v sys es (a ++ .event e :: b) t1 t2 o) (ha : ∀ x, Item3.event x ∈ a → x.Silent v) (he : e.Holds v hs)
    (hm : hs.findSome? HLine.pos = some m) :
    ∃ used : List (Ep3 × Pos), o.items = (used.flatMap fun x => x.1.items (typeMapOf v es) x.2) ∧ used.map (·.1) = epochs3 (a ++ .event e :: b) ∧
      used.take (epochs3 a).length = (epochs3 a).map (·, sitePos (linesOf es)) ∧
      seen.take (epochs3 a).length = (epochs3 a).map (·, sitePos (linesOf es)) ∧
      (e.flag = 4 → used.drop (epochs3 a).length = (epochs3 b).map (·, m) ∧
        ∀ b1 b2, b = b1 ++ b2 → (∀ x, Item3.event x ∈ b1 → x.Announces v none) →
          (seen.drop (epochs3 a).length).take (epochs3 b1).length = (epochs3 b1).map (·, m)) ∧
      (e.flag ≠ 4 → ∀ b1 b2, b = b1 ++ b2 → (∀ x, Item3.event x ∈ b1 → x.flag = 4 → x.body = []) →
        (used.drop (epochs3 a).length).take (epochs3 b1).length = (epochs3 b1).map (·, sitePos (linesOf es))) := by
  obtain ⟨used, hu, hi⟩ := ho.items
  have hlen : ∀ (l : List Ep3) (q : Pos), l.length = (l.map fun x => (x, q)).length := by simp
  obtain ⟨l', h1, rfl⟩ := heard_silent hu ha
  have ha' : ∀ x, Item3.event x ∈ a → x.Announces v none := by
    intro x hx
    obtain ⟨hs, g1, g2⟩ := ha x hx
    exact ⟨hs, g1, by rw [g2, ite_self]⟩
  obtain ⟨s', k1, rfl⟩ := track_silent hf.track ha'
  have htake : ∀ (l : List Ep3) (q : Pos) (r : List (Ep3 × Pos)), (l.map (·, q) ++ r).take l.length = l.map (·, q) := by
    intro l q r
    exact List.take_left' (by simp)
  have hdrop : ∀ (l : List Ep3) (q : Pos) (r : List (Ep3 × Pos)), (l.map (·, q) ++ r).drop l.length = r := by
    intro l q r
    exact List.drop_left' (by simp)
  refine ⟨_, hi, heard_epochs hu, htake .., htake .., ?_, ?_⟩
  · intro h4
    rw [hdrop, hdrop]
    cases h1 with
    | @event _ _ _ hs' _ _ hh h =>
      have hbody : e.body ≠ [] := by
        intro hb
        have := he.1
        rw [hb] at this
        cases hs with
        | nil => simp at hm
        | cons => simp [HeaderText] at this
      rw [holds_pos hh he, hm, if_pos ⟨h4, hbody⟩] at h
      refine ⟨heard_fixed h rfl, ?_⟩
      rintro b1 b2 rfl hb1
      cases k1 with
      | @event _ _ m' _ _ hh' k =>
        obtain ⟨hs2, g1, g2⟩ := hh'
        rw [holds_pos g1 he, hm, if_pos (.inr h4)] at g2
        subst g2
        obtain ⟨l2, -, rfl⟩ := track_silent k hb1
        exact htake ..
  · rintro h4 b1 b2 rfl hb1
    rw [hdrop]
    cases h1 with
    | @event _ _ _ hs' _ _ hh h =>
      rw [if_neg (fun h => h4 h.1)] at h
      generalize (none : Option Pos).or (hs'.findSome? HLine.pos) = hd at h
      have key : ∀ (hd : Option Pos) (l : List (Ep3 × Pos)), Heard v hd (sitePos (linesOf es)) (b1 ++ b2) l →
          l.take (epochs3 b1).length = (epochs3 b1).map (·, sitePos (linesOf es)) := by
        clear hu hi k1 h hh ho hf
        induction b1 with
        | nil => intro hd l _; simp [epochs3]
        | cons i b1 ih =>
          intro hd l h
          cases h with
          | epoch h => simp [epochs3, ih (fun x hx => hb1 x (by simp [hx])) _ _ h]
          | @event _ _ x _ _ _ _ h =>
            rw [if_neg (fun g => g.2 (hb1 x (by simp) g.1))] at h
            exact ih (fun x hx => hb1 x (by simp [hx])) _ _ h
      exact key hd l' h

/-- C91: a file with one announced position, in a block with flag 4: all positions are right. -/
theorem C91_once (path : Str) (file : List Str) (v : Nat) (sys : Char) (es : List HEntry) (t1 t2 : DateTime) (seen : List (Ep3 × Pos)) (o : ObsIn)
    (a b : List Item3) (e : Ev3) (hs : List HLine) (m : Pos) (hf : Moved3 file v sys es (a ++ .event e :: b) t1 t2 seen)
    (ho : OpenedMoved3 path v sys es (a ++ .event e :: b) t1 t2 o) (ha : ∀ x, Item3.event x ∈ a → x.Silent v) (he : e.Holds v hs)
    (hm : hs.findSome? HLine.pos = some m) (h4 : e.flag = 4) (hb : ∀ x, Item3.event x ∈ b → x.Announces v none) :
    o.items = seen.flatMap fun x => x.1.items (typeMapOf v es) x.2 := by
  obtain ⟨used, h1, h2, h3, h3', h5, -⟩ := C91_positions path file v sys es t1 t2 seen o a b e hs m hf ho ha he hm
  obtain ⟨h6, h7⟩ := h5 h4
  have h8 := h7 b [] (by simp) hb
  have hlen : (seen.drop (epochs3 a).length).length = (epochs3 b).length := by
    have := congrArg List.length (track3_epochs hf.track)
    have happ : ∀ a b : List Item3, epochs3 (a ++ b) = epochs3 a ++ epochs3 b := by
      intro a b
      induction a with
      | nil => rfl
      | cons i a ih => cases i <;> simp [epochs3, ih]
    rw [List.length_map, happ, List.length_append] at this
    simp only [epochs3] at this
    rw [List.length_drop]
    omega
  rw [← hlen, List.take_length] at h8
  rw [h1, ← List.take_append_drop (epochs3 a).length used, h3, h6, ← h3', ← h8, List.take_append_drop]

/-! ## Example -/

namespace ProgEx

def epoch3 (s : Nat) : Ep3 := ⟨⟨2017, 2, 28, 23, 59, s, 0⟩, 0, 0, none, [(⟨'G', 5, true⟩, [.val 20000000123 none (some 7), .blank])]⟩

/-- the receiver is moved -/
def move3 (x : Int) : Ev3 := ⟨none, 4, none, [hline (c% "antenna moved") (c% "COMMENT"), HLine.render 302 (.position x 60000 70000)]⟩

/-- twice -/
def movedItems3 : List Item3 := [.obs (epoch3 0), .event (move3 50000), .obs (epoch3 29), .event (move3 80000), .obs (epoch3 58)]

def movedLines3 : List Str :=
  ((HEntry.line (.version 302 'O' 'M' obsWords) :: entries3).map (HEntry.lines 302)).flatten.map (· ++ ['\n']) ++ (hline [] lblEnd ++ ['\n']) :: bodyLines3 movedItems3

def movedDisk3 : Disk :=
  ⟨disk3.listing, fun f p => if f = .gunzipCrx ∧ p = obsPath3 then .ok movedLines3 else disk3.lines f p, disk3.present⟩

theorem move3_holds (x : Int) (hx : (fixedDec 4 x).length ≤ 14) (hl : labelOf (HLine.render 302 (.position x 60000 70000)) ≠ lblSys) :
    (move3 x).Holds 302 [.other (hline (c% "antenna moved") (c% "COMMENT")), .position x 60000 70000] := by
  refine ⟨⟨⟨[], by simp [HLine.render], by simp⟩, ⟨[], by simp, by simp⟩, trivial⟩, ?_, ?_⟩
  · intro h hh
    simp only [List.mem_cons, List.not_mem_nil, or_false] at hh
    rcases hh with rfl | rfl
    · refine ⟨?_, by decide +kernel⟩
      show labelOf _ ∉ _
      decide +kernel
    · intro n hn
      simp only [List.mem_cons, List.not_mem_nil, or_false] at hn
      rcases hn with rfl | rfl | rfl
      · exact hx
      · decide +kernel
      · decide +kernel
  · intro l hh
    simp only [move3, List.mem_cons, List.not_mem_nil, or_false] at hh
    rcases hh with rfl | rfl
    · decide +kernel
    · exact hl

theorem C91_hypotheses : Moved3 movedLines3 302 'M' entries3 movedItems3 ⟨2017, 2, 28, 23, 59, 0, 0⟩ ⟨2017, 2, 28, 23, 59, 29, 0⟩
    [(epoch3 0, ⟨1, 2, 3⟩), (epoch3 29, ⟨5, 6, 7⟩), (epoch3 58, ⟨8, 6, 7⟩)] where
  version := by decide
  text := ⟨'O', obsWords, _, _, _, by decide, by decide, by decide, rfl, physical_nl _, by decide +kernel, by decide +kernel, written_refl _, by decide +kernel⟩
  header := C73_hypotheses3.1.header
  numbers := C73_hypotheses3.1.numbers
  systems := C73_hypotheses3.1.systems
  body := by
    intro i hi
    simp only [movedItems3, List.mem_cons, List.not_mem_nil, or_false] at hi
    have hep : ∀ s, s < 60 → (epoch3 s).Ok (typeMapOf 302 entries3) := by
      intro s hs
      refine ⟨⟨?_, (by decide : 100 ≤ 2017), (by decide : 0 < 10)⟩, (by decide : 0 ≤ 1), (by decide : 1 < 1000), ?_⟩
      · simp only [epoch3, Legal, LegalDate]
        refine ⟨by decide, by omega, by omega, hs, by omega⟩
      · intro x hx
        simp only [epoch3, List.mem_cons, List.not_mem_nil, or_false] at hx
        subst hx
        refine ⟨by unfold SatId.Ok3; decide, ⟨_, rfl, by decide, rfl⟩, ?_⟩
        intro f hf
        simp only [List.mem_cons, List.not_mem_nil, or_false] at hf
        rcases hf with rfl | rfl
        · exact ⟨by decide +kernel, by simp, by simp⟩
        · trivial
    rcases hi with rfl | rfl | rfl | rfl | rfl
    · exact hep 0 (by omega)
    · exact ⟨trivial, by decide, by decide, by decide, by decide +kernel⟩
    · exact hep 29 (by omega)
    · exact ⟨trivial, by decide, by decide, by decide, by decide +kernel⟩
    · exact hep 58 (by omega)
  track := by
    have h1 : sitePos (linesOf entries3) = ⟨1, 2, 3⟩ := by decide +kernel
    rw [h1]
    refine .epoch (.event (m := some ⟨5, 6, 7⟩) ?_ (.epoch (.event (m := some ⟨8, 6, 7⟩) ?_ (.epoch (.done _)))))
    · exact ⟨_, move3_holds _ (by decide +kernel) (by decide +kernel), by decide +kernel⟩
    · exact ⟨_, move3_holds _ (by decide +kernel) (by decide +kernel), by decide +kernel⟩
  times := ⟨_, rfl, by decide⟩
  legal := by simp only [Legal, LegalDate]; decide
  increasing := by decide +kernel
  span := by decide +kernel

/-- the run: the second change of the position is ignored (`site.x` of the last line should be 8) -/
theorem C91_example :
    (program ext movedDisk3 cfg 5 []).map (fun r => (r.err, (r.fs.get? (c% "out/2017/059/IRKJ/IRKJ_G05_059_17.dat")).map fun t => (splitOn '\n' t).drop 11)) =
    some (none, some [c% "       2977    8.00000     20000000.123          1.000000000000",
      c% "       2978   12.00000     20000000.123          5.000000000000", c% "       2979   12.00000     20000000.123          5.000000000000", []]) := by decide +kernel

end ProgEx

end Verif.Props
