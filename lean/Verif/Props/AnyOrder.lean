import Verif.Proofs.AnyOrder
import Verif.Props.Moved
/-!
# Property C100: RINEX 2 files with epochs in any order, from the file to the output
-/
namespace Verif.Props
open Verif.Py Verif.Model Verif.Spec Verif.Proofs

theorem trackedAny_items (ts : List Str) (hd : HeaderVals) (prev : Option DateTime) (l : List (Epoch × Pos)) :
    allOf (itemOf2 ts) (trackedAny ts hd prev l) = some ((fresh prev l).flatMap fun e => e.1.items ts e.2) := by
  have hone : ∀ (e : Epoch) (p : Pos) (st : St2), st.hdr.xyz = xyzList p →
      ∀ y ∈ (recsOf ts e).map (·, st), itemOf2 ts y = some ⟨some y.1.epoch, y.1.sat, (recOf2 y.1.data).getD [], p, fun _ => some ts⟩ := by
    intro e p st hst y hy
    obtain ⟨r, hr, rfl⟩ := List.mem_map.1 hy
    obtain ⟨s, -, rfl⟩ := List.mem_map.1 hr
    simp [itemOf2, hst, posOf_xyzList, recOf2_says]
  have hall : ∀ (l : List (Epoch × Pos)) (prev : Option DateTime), ∃ f : Rec2 × St2 → ObsItem,
      (∀ y ∈ trackedAny ts hd prev l, itemOf2 ts y = some (f y)) ∧ (trackedAny ts hd prev l).map f = (fresh prev l).flatMap fun e => e.1.items ts e.2 := by
    intro l
    induction l with
    | nil => intro prev; exact ⟨fun y => ⟨none, [], [], ⟨0, 0, 0⟩, fun _ => none⟩, by simp [trackedAny], rfl⟩
    | cons a l ih =>
      intro prev
      obtain ⟨e, p⟩ := a
      obtain ⟨f, h1, h2⟩ := ih (some e.time)
      by_cases hp : prev = some e.time
      · refine ⟨f, ?_, ?_⟩
        · simpa [trackedAny, hp] using h1
        · simpa [trackedAny, fresh, hp] using h2
      · refine ⟨fun y => (itemOf2 ts y).getD ⟨none, [], [], ⟨0, 0, 0⟩, fun _ => none⟩, ?_, ?_⟩
        · intro y hy
          simp only [trackedAny, if_neg hp, List.mem_append] at hy
          rcases hy with hy | hy
          · beta_reduce; rw [hone e p _ rfl y hy]; rfl
          · beta_reduce; rw [h1 y hy]; rfl
        · simp only [trackedAny, fresh, if_neg hp, List.map_append, List.flatMap_cons]
          congr 1
          · rw [Epoch.items, List.map_map, recsOf, List.map_map]
            apply List.map_congr_left
            intro s _
            simp [itemOf2, posOf_xyzList, recOf2_says]
          · rw [← h2]
            apply List.map_congr_left
            intro y hy
            rw [h1 y hy]; rfl
  obtain ⟨f, h1, h2⟩ := hall l prev
  rw [← h2]
  exact allOf_map h1

/-- C100, opening: a RINEX 2 file with epochs in any order is opened; the program sees the header values, the sampling interval and the observations of the
epochs, without those that repeat the time of the epoch before them. -/
theorem C100_open (D : Disk) (fuel : Nat) (path : Str) (file : List Str) (v : Nat) (sys : Char) (hs : List HLine) (ts : List Str) (items : List Item)
    (seen : List (Epoch × Pos)) (final : Pos) (i : Int) (hr : ReadAs D path file) (hf : Any2 file v sys hs ts items seen final) (hi : IntervalIs seen i) :
    ∃ o, obsFile D fuel path = some (.ok o) ∧ OpenedAny2 path v sys hs ts items seen final i o := by
  obtain ⟨before, tls, after, hs1, hs2, f, d, endl, body, hf0, hs0, hd0, rfl, rfl, htl, h1, h2, hpre, hno, hend, hw⟩ := hf.text
  obtain ⟨w, r, hb, hws⟩ := headerText_cons h1
  have hver : obsVersion (Model.firstLine (before ++ tls ++ after ++ endl :: body)) = .ok v := by
    rw [hb]
    simp only [List.cons_append, Model.firstLine, List.headD_cons]
    refine obsVersion_written v ?_ f sys hf0 hs0 d hd0 w hws
    have := hf.version
    simp only [List.mem_cons, List.not_mem_nil, or_false] at this ⊢
    omega
  have hv3 : v < 300 := by
    have := hf.version
    simp only [List.mem_cons, List.not_mem_nil, or_false] at this
    omega
  obtain ⟨ht, hcnt, hnd⟩ := hf.types
  have hokh : ∀ h ∈ (HLine.version v f sys d :: hs1) ++ hs2, h.Ok := by
    intro h hh
    simp only [List.cons_append, List.mem_cons] at hh
    rcases hh with rfl | hh
    · refine ⟨?_, hd0⟩
      omega
    · exact hf.header h hh
  have hph := header2_parsed v before tls after (.version v f sys d :: hs1) hs2 ts htl h1 h2 hokh ht hcnt
  have hts := obsTypes_render before after tls ts htl hpre ht hcnt
  have hpl := header_xyzList (HLine.version v f sys d :: hs1 ++ hs2)
  have hsite : sitePos (HLine.version v f sys d :: hs1 ++ hs2) = sitePos (hs1 ++ hs2) := rfl
  obtain ⟨o, wv, p, m, used, q', ho, hcfg, hhdr, hpi, hleft, hu, hy, s, hst⟩ := open_any _ body endl ts _ items seen (sitePos (hs1 ++ hs2)) final i hno hend hts hnd hph
    (by rw [← hsite]; exact hpl) hf.body hf.track hi hw
  have hstored := stored_of_parse ⟨by have := hi.forward; omega, hi.short⟩ (fun _ => hi.forward) hpi
  obtain ⟨q, hq⟩ : ∃ q, wv = .fin q := by
    obtain ⟨ms, -, -, h⟩ := hstored
    exact ⟨_, h⟩
  subst hq
  refine ⟨⟨path, getRinexDate path, if sys = ' ' then 'G' else sys, (hs1 ++ hs2).findSome? HLine.saysFirstObs, p, q,
      (fresh m used).flatMap fun e => e.1.items ts e.2, .ok ()⟩, ?_, ?_⟩
  · unfold obsFile
    rw [fetchObs_read hr]
    simp only [hver, if_pos hv3, ho]
    unfold obsIn2
    rw [hcfg, hy, trackedAny_items]
    simp only [Option.bind_some]
    unfold obsIn
    rw [hhdr]
    simp only [List.cons_append, List.findSome?_cons, HLine.saysVersion, HLine.saysFirstObs, posOf_xyzList]
    simp only [Option.bind_some, ratOf, Option.map_some, hst, hv3, true_and, Except.map]
  · exact ⟨rfl, fun d => namedDay_iff path d (readAs_last hr), rfl, rfl, hstored, ⟨m, used, q', hleft, hu, rfl⟩, rfl⟩

/-- C100, no interval: if the observations of the file have fewer than two different times one after the other, the file cannot be opened. -/
theorem C100_too_few (D : Disk) (fuel : Nat) (path : Str) (file : List Str) (v : Nat) (sys : Char) (hs : List HLine) (ts : List Str) (items : List Item)
    (seen : List (Epoch × Pos)) (final : Pos) (hr : ReadAs D path file) (hf : Any2 file v sys hs ts items seen final) (hi : spacings (obsTimes seen) = []) :
    obsFile D fuel path = some (.error .rinex) := by
  obtain ⟨before, tls, after, hs1, hs2, f, d, endl, body, hf0, hs0, hd0, rfl, rfl, htl, h1, h2, hpre, hno, hend, hw⟩ := hf.text
  obtain ⟨w, r, hb, hws⟩ := headerText_cons h1
  have hver : obsVersion (Model.firstLine (before ++ tls ++ after ++ endl :: body)) = .ok v := by
    rw [hb]
    simp only [List.cons_append, Model.firstLine, List.headD_cons]
    refine obsVersion_written v ?_ f sys hf0 hs0 d hd0 w hws
    have := hf.version
    simp only [List.mem_cons, List.not_mem_nil, or_false] at this ⊢
    omega
  have hv3 : v < 300 := by
    have := hf.version
    simp only [List.mem_cons, List.not_mem_nil, or_false] at this
    omega
  obtain ⟨ht, hcnt, hnd⟩ := hf.types
  have hokh : ∀ h ∈ (HLine.version v f sys d :: hs1) ++ hs2, h.Ok := by
    intro h hh
    simp only [List.cons_append, List.mem_cons] at hh
    rcases hh with rfl | hh
    · refine ⟨?_, hd0⟩
      omega
    · exact hf.header h hh
  have hph := header2_parsed v before tls after (.version v f sys d :: hs1) hs2 ts htl h1 h2 hokh ht hcnt
  have hts := obsTypes_render before after tls ts htl hpre ht hcnt
  have hpl := header_xyzList (HLine.version v f sys d :: hs1 ++ hs2)
  have hsite : sitePos (HLine.version v f sys d :: hs1 ++ hs2) = sitePos (hs1 ++ hs2) := rfl
  have ho := open_none _ body endl ts _ items seen (sitePos (hs1 ++ hs2)) final hno hend hts hnd hph
    (by rw [← hsite]; exact hpl) hf.body hf.track hi hw
  unfold obsFile
  rw [fetchObs_read hr]
  simp only [hver, if_pos hv3, ho]

theorem any_legal {file v sys hs ts items seen final} (h : Any2 file v sys hs ts items seen final) :
    ∀ e, Item.obs e ∈ items → Legal e.time := fun _ he => (h.body _ he).1

/-- C100, records: as C73, for files with epochs in any order -/
theorem C100_records (X : Ext) (D : Disk) (cfg : Cfg) (fuel : Nat) (fs : FS) (r : Outcome) (paths : List Str) (i : Nat) (path : Str) (file : List Str)
    (v : Nat) (sys : Char) (hs : List HLine) (ts : List Str) (items : List Item) (seen : List (Epoch × Pos)) (final : Pos) (iv : Int) (xl : List XyzLine)
    (hn : PlainNames D cfg.obsDir) (hf : InputFiles D cfg.obsDir paths) (hi : paths[i]? = some path)
    (hrun : program X D cfg fuel fs = some r) (hend : r.err = none)
    (hr : ReadAs D path file) (hfile : Any2 file v sys hs ts items seen final) (hiv : IntervalIs seen iv) (hx : CoordLines D cfg.obsDir path xl) :
    ∃ o, OpenedAny2 path v sys hs ts items seen final iv o ∧ ∀ t, Accepted o t →
      (cfg.navIgnoreAbsence = false ∨ ∀ it ∈ o.items, ∀ c n e, Considered o it c n e → ¬ ArithError (prmOf X D cfg) c n e) →
      ∃ ops xyz kept, r.calls[i]? = some ops ∧ Positions xl xyz ∧ Kept cfg o kept ∧ RecordsOf (prmOf X D cfg) o xyz [] kept (writesOf ops) := by
  obtain ⟨o, ho, hop⟩ := C100_open D fuel path file v sys hs ts items seen final iv hr hfile hiv
  refine ⟨o, hop, fun t ha good => ?_⟩
  refine run_records X D cfg fuel fs r paths i path o xl t ((C72_files D cfg paths hn).2 hf) hi hrun hend ho hx ha ?_ good
  intro it hit e he
  obtain ⟨m, used, q, -, hu, hui⟩ := hop.items
  rw [hui, List.mem_flatMap] at hit
  obtain ⟨ep, hep, hit⟩ := hit
  obtain ⟨s, -, rfl⟩ := List.mem_map.1 hit
  cases he
  exact any_legal hfile _ (track_mem hu _ ((fresh_sub _ _).subset hep))

/-- C100, output: as C77, for files with epochs in any order -/
theorem C100_output (X : Ext) (D : Disk) (cfg : Cfg) (fuel : Nat) (fs : FS) (r : Outcome) (paths : List Str) (i : Nat) (path name : Str) (file : List Str)
    (v : Nat) (sys : Char) (hs : List HLine) (ts : List Str) (items : List Item) (seen : List (Epoch × Pos)) (final : Pos) (iv : Int) (xl : List XyzLine)
    (hcfg : Configured X cfg) (hout : OutDirOk cfg) (hn : PlainNames D cfg.obsDir) (hf : InputFiles D cfg.obsDir paths) (hi : paths[i]? = some path)
    (hname : LastComponent path name) (hyears : FourDigits paths) (hlast : ∀ (j : Nat) (p : Str), i < j → paths[j]? = some p → ¬ SameOutput path p)
    (hrun : program X D cfg fuel fs = some r) (hend : r.err = none)
    (hr : ReadAs D path file) (hfile : Any2 file v sys hs ts items seen final) (hiv : IntervalIs seen iv) (hx : CoordLines D cfg.obsDir path xl) :
    ∃ o, OpenedAny2 path v sys hs ts items seen final iv o ∧ ∀ t, Accepted o t →
      (cfg.navIgnoreAbsence = false ∨ ∀ it ∈ o.items, ∀ c n e, Considered o it c n e → ¬ ArithError (prmOf X D cfg) c n e) →
      ∃ xyz kept ws, Positions xl xyz ∧ Kept cfg o kept ∧ RecordsOf (prmOf X D cfg) o xyz [] kept ws ∧
        ∀ sat e v more, ws.filter (fun w => w.1 == sat) = (sat, e, v) :: more →
          ∃ satDef nav pos lbh lines text, OutputIs (prmOf X D cfg) o (name.take 4) sat e v more satDef nav pos lbh lines text ∧
            r.fs.get? (outputPath cfg.outDir (name.take 4) sat e) = some text := by
  obtain ⟨o, ho, hop⟩ := C100_open D fuel path file v sys hs ts items seen final iv hr hfile hiv
  refine ⟨o, hop, fun t ha good => ?_⟩
  exact output_files X D cfg fuel fs r paths i path name o xl t hcfg hout hn hf hi hname hyears hlast hrun hend ho (stored_nonneg hop.interval hiv.forward) hx ha good

/-! ## Which epochs are lost -/

/-- C100, what the pre-read loses: nothing, or exactly the first epoch of the file, if it has the time `m` the pre-read ended with. -/
theorem C100_lost (m : Option DateTime) (l : List (Epoch × Pos)) :
    fresh m l = fresh none l ∨ ∃ e r, l = e :: r ∧ m = some e.1.time ∧ fresh none l = e :: fresh m l := by
  cases l with
  | nil => exact .inl rfl
  | cons x r =>
    by_cases h : m = some x.1.time
    · refine .inr ⟨x, r, rfl, h, ?_⟩
      simp [fresh, h]
    · exact .inl (by simp [fresh, h])

theorem fresh_times {prev : Option DateTime} {l : List (Epoch × Pos)} {t : DateTime} (h : ∀ x ∈ l, x.1.time = t) :
    ((fresh prev l).filter fun x => x.1.sats ≠ []).map (·.1.time) = List.replicate (((fresh prev l).filter fun x => x.1.sats ≠ []).length) t := by
  rw [List.eq_replicate_iff]
  refine ⟨by simp, ?_⟩
  intro s hs
  obtain ⟨x, hx, rfl⟩ := List.mem_map.1 hs
  exact h x ((fresh_sub _ _).subset (List.mem_filter.1 hx).1)

theorem spacings_same {l : List (Epoch × Pos)} {t : DateTime} (h : ∀ x ∈ l, x.1.time = t) : spacings (obsTimes l) = [] := by
  unfold obsTimes
  rw [fresh_times h]
  generalize ((fresh none l).filter fun x => x.1.sats ≠ []).length = n
  cases n with
  | zero => rfl
  | succ n =>
    have := spacings_replicate t n []
    simp only [List.append_nil] at this
    rw [this]
    rfl

theorem all_between {l : List (Epoch × Pos)} (hl : ∀ x ∈ l, Legal x.1.time) (hm : l.Pairwise fun a b => instant a.1.time ≤ instant b.1.time)
    {a b : Epoch × Pos} (h1 : l.head? = some a) (h2 : l.getLast? = some b) (he : b.1.time = a.1.time) : ∀ x ∈ l, x.1.time = a.1.time := by
  intro x hx
  have hb := List.mem_of_getLast? h2
  have ha := List.mem_of_mem_head? h1
  have l1 : instant a.1.time ≤ instant x.1.time := by
    cases l with
    | nil => simp at h1
    | cons y l =>
      simp only [List.head?_cons, Option.some.injEq] at h1
      subst h1
      rcases List.mem_cons.1 hx with rfl | hx
      · exact le_refl _
      · exact (List.pairwise_cons.1 hm).1 x hx
  have l2 : instant x.1.time ≤ instant b.1.time := by
    obtain ⟨l', rfl⟩ : ∃ l', l = l' ++ [b] := by
      have := List.dropLast_append_getLast? b h2
      exact ⟨_, this.symm⟩
    rw [List.pairwise_append] at hm
    rcases List.mem_append.1 hx with hx | hx
    · exact hm.2.2 x hx b (by simp)
    · rw [List.mem_singleton.1 hx]
  rw [he] at l2
  exact instant_inj (hl x hx) (hl a ha) (le_antisymm l2 l1)

theorem fresh_first {prev : Option DateTime} {a b : List (Epoch × Pos)} {x : Epoch × Pos} (hp : prev ≠ some x.1.time) (h : ∀ y ∈ a, y.1.time ≠ x.1.time) :
    x ∈ fresh prev (a ++ x :: b) := by
  induction a generalizing prev with
  | nil => simp [fresh, hp]
  | cons y a ih =>
    have hy : some y.1.time ≠ some x.1.time := by simpa using h y (by simp)
    have := ih hy (fun z hz => h z (by simp [hz]))
    simp only [List.cons_append, fresh]
    split
    · exact this
    · exact List.mem_cons_of_mem _ this

theorem fresh_increasing {l : List (Epoch × Pos)} (hl : ∀ x ∈ l, Legal x.1.time) (hm : l.Pairwise fun a b => instant a.1.time ≤ instant b.1.time)
    (prev : Option DateTime) (hprev : ∀ t, prev = some t → Legal t ∧ ∀ x ∈ l, instant t ≤ instant x.1.time) :
    (fresh prev l).Pairwise (fun a b => instant a.1.time < instant b.1.time) ∧ ∀ t, prev = some t → ∀ x ∈ fresh prev l, instant t < instant x.1.time := by
  induction l generalizing prev with
  | nil => exact ⟨List.Pairwise.nil, by simp [fresh]⟩
  | cons y l ih =>
    have hp := List.pairwise_cons.1 hm
    have ih' := ih (fun x hx => hl x (by simp [hx])) hp.2 (some y.1.time) (by
      intro t ht
      cases ht
      exact ⟨hl y (by simp), hp.1⟩)
    simp only [fresh]
    split
    · rename_i h
      exact ⟨ih'.1, by rw [h]; exact ih'.2⟩
    · rename_i h
      refine ⟨List.pairwise_cons.2 ⟨ih'.2 _ rfl, ih'.1⟩, ?_⟩
      intro t ht x hx
      have hlt : instant t < instant y.1.time := by
        obtain ⟨k1, k2⟩ := hprev t ht
        refine lt_of_le_of_ne (k2 y (by simp)) ?_
        intro he
        have := instant_inj k1 (hl y (by simp)) he
        rw [ht, this] at h
        exact h rfl
      rcases List.mem_cons.1 hx with rfl | hx
      · exact hlt
      · exact hlt.trans (ih'.2 _ rfl x hx)

/-- C100, times that do not go back: exactly the first epoch of each time is used; nothing else is lost. -/
theorem C100_ordered (path : Str) (file : List Str) (v : Nat) (sys : Char) (hs : List HLine) (ts : List Str) (items : List Item)
    (seen : List (Epoch × Pos)) (final : Pos) (i : Int) (o : ObsIn) (hf : Any2 file v sys hs ts items seen final) (hi : IntervalIs seen i)
    (hm : seen.Pairwise fun a b => instant a.1.time ≤ instant b.1.time) (ho : OpenedAny2 path v sys hs ts items seen final i o) :
    ∃ (used l : List (Epoch × Pos)) (q : Pos), Track v o.xyz items used q ∧ o.items = (l.flatMap fun e => e.1.items ts e.2) ∧ l.Sublist used ∧
      l.Pairwise (fun a b => instant a.1.time < instant b.1.time) ∧
      ∀ a x b, used = a ++ x :: b → (∀ y ∈ a, y.1.time ≠ x.1.time) → x ∈ l := by
  obtain ⟨m, used, q, hleft, hu, hit⟩ := ho.items
  have hep : used.map (·.1) = seen.map (·.1) := by rw [track_epochs hu, track_epochs hf.track]
  have hlegS : ∀ x ∈ seen, Legal x.1.time := fun x hx => any_legal hf _ (track_mem hf.track _ hx)
  have hlegU : ∀ x ∈ used, Legal x.1.time := fun x hx => any_legal hf _ (track_mem hu _ hx)
  have hmU : used.Pairwise fun a b => instant a.1.time ≤ instant b.1.time := by
    have h1 : (seen.map (·.1)).Pairwise fun a b => instant a.time ≤ instant b.time := List.pairwise_map.2 hm
    rw [← hep] at h1
    exact (List.pairwise_map (f := fun x : Epoch × Pos => x.1)).1 h1
  have hlost : ∀ x, seen.head? = some x → m ≠ some x.1.time := by
    intro x hx
    cases hleft with
    | whole h =>
      intro he
      obtain ⟨y, hy, hy2⟩ := Option.map_eq_some_iff.1 he
      have hs := spacings_same (all_between hlegS hm hx hy hy2)
      have := hi.frequent.1
      rw [hs] at this
      simp at this
    | stopped pre e p post h1 h2 h3 =>
      intro he
      obtain ⟨y, hy, hy2⟩ := Option.map_eq_some_iff.1 he
      have hx' : pre.head? = some x := by
        cases pre with
        | nil => simp at hy
        | cons z pre => rw [h1] at hx; exact hx
      have hs := spacings_same (all_between (l := pre) (fun z hz => hlegS z (by rw [h1]; simp [hz])) (by
        rw [h1, List.pairwise_append] at hm
        exact hm.1) hx' hy hy2)
      rw [hs] at h2
      simp at h2
  have hnone : fresh m used = fresh none used := by
    rcases C100_lost m used with h | ⟨e, r, h1, h2, -⟩
    · exact h
    · exfalso
      rw [h1] at hep
      cases hs : seen with
      | nil => rw [hs] at hep; simp at hep
      | cons x s =>
        rw [hs] at hep
        simp only [List.map_cons, List.cons.injEq] at hep
        refine hlost x (by rw [hs]; rfl) ?_
        rw [h2, hep.1]
  refine ⟨used, fresh none used, q, hu, by rw [hit, hnone], fresh_sub _ _, (fresh_increasing hlegU hmU none (by simp)).1, ?_⟩
  rintro a x b rfl h
  exact fresh_first (by simp) h

/-! ## Example -/

namespace ProgEx

/-- an epoch without satellites -/
def emptyEpoch (s : Nat) : Epoch := ⟨⟨2017, 1, 2, 3, 4, s, 0⟩, 3, 0, [], [], (true, false)⟩

/-- a repeated epoch, an epoch without satellites, and a time that goes back to that of the first epoch -/
def anyItems : List Item := [.obs (epoch 0), .obs (epoch 0), .obs (emptyEpoch 10), .event move, .obs (epoch 30), .obs (epoch 20), .obs (epoch 0)]

def linesOf (items : List Item) : List Str :=
  [HLine.render 211 (.version 211 'O' 'M' obsWords), HLine.render 211 (.firstObs ⟨2017, 1, 2, 3, 4, 0, 0⟩ 0 (c% "GPS")), HLine.render 211 (.position 10000 20000 30000)] ++
    typeLines exTypes ++ [] ++ hline [] lblEnd :: bodyLines items

theorem emptyEpoch_ok : (emptyEpoch 10).Ok 3 := by
  refine ⟨(legal_iff _).2 ?_, ?_, (by decide : 3 < 10), (by decide : 0 ≤ 1), (by decide : 0 < 1000), ?_⟩
  · exact ⟨(by decide : validDate 2017 1 2), (by decide : 3 ≤ 23), (by decide : 4 ≤ 59), (by decide : 10 ≤ 59), (by decide : 0 ≤ 999999)⟩
  · exact ⟨(by decide : 1989 ≤ 2017), (by decide : 2017 ≤ 2088)⟩
  · intro s hs
    simp [emptyEpoch] at hs

theorem any_of {items : List Item} {seen : List (Epoch × Pos)} {final : Pos} (hb : ∀ i ∈ items, i.Ok 3) (ht : Track 211 ⟨1, 2, 3⟩ items seen final) :
    Any2 (linesOf items) 211 'M' head exTypes items seen final where
  version := by decide
  text := by
    refine ⟨[HLine.render 211 (.version 211 'O' 'M' obsWords), HLine.render 211 (.firstObs ⟨2017, 1, 2, 3, 4, 0, 0⟩ 0 (c% "GPS")), HLine.render 211 (.position 10000 20000 30000)], typeLines exTypes, [],
      head, [], 'O', obsWords, hline [] lblEnd, bodyLines items, by decide, by decide, by decide, rfl, rfl, typeText_refl _, ?_, trivial, by decide +kernel, by decide +kernel, by decide +kernel, written_refl _⟩
    exact ⟨⟨[], by simp, by simp⟩, ⟨[], by simp, by simp⟩, ⟨[], by simp, by simp⟩, trivial⟩
  header := C73_hypotheses.header
  types := by decide
  body := hb
  track := by
    have h1 : sitePos head = ⟨1, 2, 3⟩ := by decide +kernel
    rw [h1]
    exact ht

def anySeen : List (Epoch × Pos) :=
  [(epoch 0, ⟨1, 2, 3⟩), (epoch 0, ⟨1, 2, 3⟩), (emptyEpoch 10, ⟨1, 2, 3⟩), (epoch 30, ⟨5, 6, 7⟩), (epoch 20, ⟨5, 6, 7⟩), (epoch 0, ⟨5, 6, 7⟩)]

theorem anyItems_ok : ∀ i ∈ anyItems, i.Ok 3 := by
  intro i hi
  simp only [anyItems, List.mem_cons, List.not_mem_nil, or_false] at hi
  rcases hi with rfl | rfl | rfl | rfl | rfl | rfl | rfl
  · exact epoch_ok (by decide)
  · exact epoch_ok (by decide)
  · exact emptyEpoch_ok
  · exact C88_hypotheses.body _ (by simp [movedItems])
  · exact epoch_ok (by decide)
  · exact epoch_ok (by decide)
  · exact epoch_ok (by decide)

theorem C100_hypotheses : Any2 (linesOf anyItems) 211 'M' head exTypes anyItems anySeen ⟨5, 6, 7⟩ ∧ IntervalIs anySeen 30000000 :=
  ⟨any_of anyItems_ok (.epoch (.epoch (.epoch (.event move_announces (.epoch (.epoch (.epoch (.done _)))))))),
   ⟨by unfold MostFrequent; decide +kernel, by decide, by decide⟩⟩

/-- the file without the last two epochs: the times do not go back -/
theorem C100_ordered_hypotheses : Any2 (linesOf (anyItems.take 5)) 211 'M' head exTypes (anyItems.take 5) (anySeen.take 4) ⟨5, 6, 7⟩ ∧ IntervalIs (anySeen.take 4) 30000000 ∧
    (anySeen.take 4).Pairwise fun a b => instant a.1.time ≤ instant b.1.time :=
  ⟨any_of (fun i hi => anyItems_ok i (List.mem_of_mem_take hi)) (.epoch (.epoch (.epoch (.event move_announces (.epoch (.done _)))))),
   ⟨by unfold MostFrequent; decide +kernel, by decide, by decide⟩, by decide +kernel⟩

/-- the file with its first three epochs only: two times, one observed -/
theorem C100_too_few_hypotheses : Any2 (linesOf (anyItems.take 3)) 211 'M' head exTypes (anyItems.take 3) (anySeen.take 3) ⟨1, 2, 3⟩ ∧ spacings (obsTimes (anySeen.take 3)) = [] :=
  ⟨any_of (fun i hi => anyItems_ok i (List.mem_of_mem_take hi)) (.epoch (.epoch (.epoch (.done _)))), by decide +kernel⟩

/-- the observations of the first epoch are lost: it has the time the reading for the interval ended with -/
theorem C100_example : (fresh (some (epoch 0).time) anySeen).map (fun x => (x.1.time.second, x.2)) = [(10, ⟨1, 2, 3⟩), (30, ⟨5, 6, 7⟩), (20, ⟨5, 6, 7⟩), (0, ⟨5, 6, 7⟩)] ∧
    (obsFile ⟨fun _ => .error .os, fun f p => if f = .plain ∧ p = obsPath then .ok (linesOf anyItems) else .error .os, fun p => p = obsPath⟩ 5 obsPath).bind
      (fun x => x.toOption.map fun o => (o.xyz, o.interval, o.items.map fun it => (it.epoch, it.sat))) =
    some (⟨5, 6, 7⟩, 30, [(some (epoch 30).time, c% "G01"), (some (epoch 30).time, c% "R24"), (some (epoch 20).time, c% "G01"), (some (epoch 20).time, c% "R24"),
      (some (epoch 0).time, c% "G01"), (some (epoch 0).time, c% "R24")]) := by
  decide +kernel

end ProgEx

end Verif.Props
