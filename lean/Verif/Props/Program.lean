import Verif.Proofs.Program
import Verif.Props.Main
/-!
# Whole runs: C72 (the files processed), C73 (from the observation file to the records)
-/
namespace Verif.Props
open Verif.Py Verif.Model Verif.Spec Verif.Proofs

/-! ## C72: the files processed -/

theorem insertStr_perm (x : Str) (l : List Str) : (insertStr x l).Perm (x :: l) := by
  induction l with
  | nil => exact List.Perm.refl _
  | cons y l ih =>
    simp only [insertStr]
    split
    · exact List.Perm.refl _
    · exact (List.Perm.cons y ih).trans (List.Perm.swap x y l)

theorem sortStr_perm (l : List Str) : (sortStr l).Perm l := by
  induction l with
  | nil => exact List.Perm.refl _
  | cons x l ih => exact (insertStr_perm x _).trans (List.Perm.cons x ih)

theorem sortStr_unique {l m : List Str} (h : l.Perm m) (hm : m.Pairwise fun a b => strLe a b = true) : sortStr l = m :=
  List.Perm.eq_of_pairwise (fun a b _ _ => strLe_antisymm a b) (sorted_sortStr l) hm ((sortStr_perm l).trans h)

theorem listDirs_iff (D : Disk) (dirs : List Str) (r : List (Str × List Str)) :
    listDirs D dirs = .ok r ↔ ∃ ls, Listings D dirs ls ∧ r = dirs.zip ls := by
  induction dirs generalizing r with
  | nil =>
    simp only [listDirs, Except.ok.injEq]
    constructor
    · rintro rfl; exact ⟨[], .nil, rfl⟩
    · rintro ⟨ls, h, rfl⟩; rfl
  | cons d dirs ih =>
    simp only [listDirs]
    cases hd : D.listing d with
    | error e =>
      simp only [reduceCtorEq, false_iff]
      rintro ⟨ls, h, -⟩
      cases h with
      | cons h _ => rw [hd] at h; cases h
    | ok l =>
      simp only
      cases hr : listDirs D dirs with
      | error e =>
        simp only [reduceCtorEq, false_iff]
        rintro ⟨ls, h, -⟩
        cases h with
        | cons h1 h2 => rw [(ih _).2 ⟨_, h2, rfl⟩] at hr; cases hr
      | ok r' =>
        obtain ⟨ls, h1, h2⟩ := (ih r').1 hr
        simp only [Except.ok.injEq]
        constructor
        · rintro rfl
          exact ⟨l :: ls, .cons hd h1, by rw [h2]; rfl⟩
        · rintro ⟨ls', h, rfl⟩
          cases h with
          | cons h3 h4 =>
            rw [hd] at h3
            cases h3
            rw [(ih _).2 ⟨_, h4, rfl⟩] at hr
            cases hr
            rfl

/-- the names in the directories are single lines -/
def PlainNames (D : Disk) (dirs : List Str) : Prop := ∀ d ∈ dirs, ∀ l, D.listing d = .ok l → ∀ n ∈ l, '\n' ∉ n

theorem mem_zip_listing {D : Disk} {dirs : List Str} {ls : List (List Str)} (h : Listings D dirs ls) {d : Str × List Str} (hd : d ∈ dirs.zip ls) :
    d.1 ∈ dirs ∧ D.listing d.1 = .ok d.2 := by
  induction h with
  | nil => simp at hd
  | cons h1 _ ih =>
    simp only [List.zip_cons_cons, List.mem_cons] at hd
    rcases hd with rfl | hd
    · exact ⟨by simp, h1⟩
    · exact ⟨by simp [(ih hd).1], (ih hd).2⟩

open Classical in
theorem findFiles_obs (D : Disk) (dirs : List Str) (ls : List (List Str)) (h : Listings D dirs ls) (hn : PlainNames D dirs) :
    findFiles (dirs.zip ls) reObs =
      (dirs.zip ls).flatMap fun d => (d.2.filter fun n => decide (∃ hat comp, ObsName n hat comp)).map (inDir d.1) := by
  unfold findFiles
  rw [List.flatMap_def]
  congr 1
  apply List.map_congr_left
  intro d hd
  obtain ⟨h1, h2⟩ := mem_zip_listing h hd
  have hf : d.2.filter reObs.accepts = d.2.filter fun n => decide (∃ hat comp, ObsName n hat comp) := by
    apply List.filter_congr
    intro n hm
    have := reObs_accepts n (hn d.1 h1 d.2 h2 n hm)
    rw [Bool.eq_iff_iff, this, decide_eq_true_eq]
  rw [hf]
  rfl

/-- C72: the files processed are all entries of the observation directories that have the name of an observation file, sorted by path. -/
theorem C72_files (D : Disk) (cfg : Cfg) (paths : List Str) (hn : PlainNames D cfg.obsDir) :
    obsFiles D cfg = .ok paths ↔ InputFiles D cfg.obsDir paths := by
  unfold obsFiles
  constructor
  · intro h
    cases hl : listDirs D cfg.obsDir with
    | error e => rw [hl] at h; cases h
    | ok r =>
      rw [hl] at h
      obtain ⟨ls, h1, rfl⟩ := (listDirs_iff ..).1 hl
      cases h
      refine ⟨?_, ls, h1, ?_⟩
      · exact (sorted_sortStr _).imp fun {a b} h => (strLe_iff a b).1 h
      · rw [← findFiles_obs D _ ls h1 hn]
        exact sortStr_perm _
  · rintro ⟨h1, ls, h2, h3⟩
    rw [(listDirs_iff ..).2 ⟨ls, h2, rfl⟩]
    simp only [Except.ok.injEq]
    rw [findFiles_obs D _ ls h2 hn]
    exact sortStr_unique h3.symm (h1.imp fun {a b} h => (strLe_iff a b).2 h)

/-- the same disk, but the observation directories are listed in another order -/
structure Relisted (D D' : Disk) (obsDir navDir : List Str) : Prop where
  obs : ∀ d ∈ obsDir, (∃ l l', D.listing d = .ok l ∧ D'.listing d = .ok l' ∧ l.Perm l') ∨ D.listing d = D'.listing d
  nav : ∀ d ∈ navDir, D.listing d = D'.listing d
  lines : D.lines = D'.lines
  present : D.present = D'.present

theorem relisted_dirs {D D' : Disk} {dirs : List Str}
    (h : ∀ d ∈ dirs, (∃ l l', D.listing d = .ok l ∧ D'.listing d = .ok l' ∧ l.Perm l') ∨ D.listing d = D'.listing d) :
    (∃ e, listDirs D dirs = .error e ∧ listDirs D' dirs = .error e) ∨
    ∃ r r', listDirs D dirs = .ok r ∧ listDirs D' dirs = .ok r' ∧ List.Forall₂ (fun a b => a.1 = b.1 ∧ a.2.Perm b.2) r r' := by
  induction dirs with
  | nil => exact .inr ⟨[], [], rfl, rfl, .nil⟩
  | cons d dirs ih =>
    have hd : (∃ e, D.listing d = .error e ∧ D'.listing d = .error e) ∨ ∃ l l', D.listing d = .ok l ∧ D'.listing d = .ok l' ∧ l.Perm l' := by
      rcases h d (by simp) with h | h
      · exact .inr h
      · cases hd : D.listing d with
        | error e => exact .inl ⟨e, rfl, by rw [← h, hd]⟩
        | ok l => exact .inr ⟨l, l, rfl, by rw [← h, hd], List.Perm.refl _⟩
    rcases hd with ⟨e, h1, h2⟩ | ⟨l, l', h1, h2, hp⟩
    · exact .inl ⟨e, by simp [listDirs, h1], by simp [listDirs, h2]⟩
    · rcases ih fun x hx => h x (by simp [hx]) with ⟨e, i1, i2⟩ | ⟨r, r', i1, i2, i3⟩
      · exact .inl ⟨e, by simp [listDirs, h1, i1], by simp [listDirs, h2, i2]⟩
      · exact .inr ⟨(d, l) :: r, (d, l') :: r', by simp [listDirs, h1, i1], by simp [listDirs, h2, i2], .cons ⟨rfl, hp⟩ i3⟩

theorem findFiles_perm (test : Re) {r r' : List (Str × List Str)} (h : List.Forall₂ (fun a b => a.1 = b.1 ∧ a.2.Perm b.2) r r') :
    (findFiles r test).Perm (findFiles r' test) := by
  induction h with
  | nil => exact List.Perm.refl _
  | cons h _ ih =>
    simp only [findFiles, List.map_cons, List.flatten_cons] at ih ⊢
    rw [h.1]
    exact ((h.2.filter _).map _).append ih

/-- C72: the result of a run does not depend on the order in which the operating system lists the observation directories. -/
theorem C72_order (X : Ext) (D D' : Disk) (cfg : Cfg) (fuel : Nat) (fs : FS) (h : Relisted D D' cfg.obsDir cfg.navDir) :
    program X D cfg fuel fs = program X D' cfg fuel fs := by
  have hfiles : obsFiles D cfg = obsFiles D' cfg ∧ someXyz D cfg = someXyz D' cfg := by
    unfold obsFiles someXyz
    rcases relisted_dirs h.obs with ⟨e, h1, h2⟩ | ⟨r, r', h1, h2, h3⟩
    · simp [h1, h2]
    · simp only [h1, h2, Except.ok.injEq]
      refine ⟨sortStr_unique ((findFiles_perm _ h3).trans (sortStr_perm _).symm) (sorted_sortStr _), ?_⟩
      have := findFiles_perm reXyz h3
      congr 1
      rw [eq_iff_iff]
      constructor
      · intro hne he; rw [he] at this; exact hne this.eq_nil
      · intro hne he; rw [he] at this; exact hne this.symm.eq_nil
  have hnav : listDirs D cfg.navDir = listDirs D' cfg.navDir := by
    have hn := h.nav
    generalize cfg.navDir = dirs at hn
    induction dirs with
    | nil => rfl
    | cons d dirs ih => simp only [listDirs, hn d (by simp), ih fun x hx => hn x (by simp [hx])]
  have hload : loadFor D cfg = loadFor D' cfg := by
    have hf : navFileOf D = navFileOf D' := by
      funext f; unfold navFileOf fetchNav; rw [h.lines]
    funext d c
    unfold loadFor
    rw [hnav, hf]
  have hfile : fileIn D fuel (someXyz D cfg) = fileIn D' fuel (someXyz D' cfg) := by
    funext f
    unfold fileIn obsFile fetchObs xyzData
    rw [h.lines, h.present, hfiles.2]
  unfold program prmOf
  rw [hfiles.1, hfile, hload]

/-! ## C73: from an observation file to the records -/

theorem readAs_last {D : Disk} {path : Str} {file : List Str} (h : ReadAs D path file) : ∃ name, LastComponent path name := by
  obtain ⟨-, dir, name, hat, comp, hp, ho, -⟩ := h
  refine ⟨name, (obsName_word ho).2, ?_⟩
  rcases hp with h | ⟨h, -⟩
  · exact .inl h
  · exact .inr ⟨dir, h⟩

theorem fetchObs_read {D : Disk} {path : Str} {file : List Str} (h : ReadAs D path file) : fetchObs D path = .ok file := by
  obtain ⟨hl, dir, name, hat, comp, hp, ho, hf⟩ := h
  have he := C38_treatment path dir name hat comp (hp.imp id And.left) hl ho (hp.imp id And.right)
  unfold fetchObs
  rw [he]
  cases hat <;> cases comp <;> exact hf

theorem headerText_cons {v : Nat} {ls : List Str} {h : HLine} {hs : List HLine} (ht : HeaderText v ls (h :: hs)) :
    ∃ w r, ls = (h.render v ++ w) :: r ∧ (∀ c ∈ w, isSpace c = true) := by
  cases ls with
  | nil => simp [HeaderText] at ht
  | cons l r =>
    obtain ⟨⟨w, hw, hs⟩, -⟩ := ht
    exact ⟨w, r, by rw [hw], hs⟩

/-- C73, opening a RINEX 2 file: the program sees exactly the header values, the sampling interval and the observations that were written. -/
theorem C73_open2 (D : Disk) (fuel : Nat) (path : Str) (file : List Str) (v : Nat) (sys : Char) (hs : List HLine) (ts : List Str) (es : List Epoch)
    (hr : ReadAs D path file) (hf : File2 file v sys hs ts es) :
    ∃ o, obsFile D fuel path = some (.ok o) ∧ Opened2 path v sys hs ts es o := by
  obtain ⟨before, tls, after, hs1, hs2, f, d, endl, body, items, hf0, hs0, hd0, rfl, rfl, htl, h1, h2, hpre, hno, hend, hw, hes, hbody⟩ := hf.text
  obtain ⟨w, r, hb, hws⟩ := headerText_cons h1
  have hver : obsVersion (firstLine (before ++ tls ++ after ++ endl :: body)) = .ok v := by
    rw [hb]
    simp only [List.cons_append, Model.firstLine, List.headD_cons]
    refine obsVersion_written v ?_ f sys hf0 hs0 d hd0 w hws
    have := hf.version
    simp only [List.mem_cons, List.not_mem_nil, or_false] at this ⊢
    omega
  have hv3 : v < 300 := by
    have := hf.version
    simp only [List.mem_cons, List.not_mem_nil, or_false] at this
    omega
  obtain ⟨ht, hcnt, hnd⟩ := hf.types
  have hokh : ∀ h ∈ (HLine.version v f sys d :: hs1) ++ hs2, h.Ok := by
    intro h hh
    simp only [List.cons_append, List.mem_cons] at hh
    rcases hh with rfl | hh
    · refine ⟨?_, hd0⟩
      omega
    · exact hf.header h hh
  have hph := header2_parsed v before tls after (.version v f sys d :: hs1) hs2 ts htl h1 h2 hokh ht hcnt
  have hts := obsTypes_render before after tls ts htl hpre ht hcnt
  have hsat : ∀ e ∈ es, e.sats ≠ [] := hf.epochs
  have hok : ∀ e ∈ es, e.Ok ts.length := by rw [hes]; exact epochsOf_ok hbody
  obtain ⟨o, i, ho, -, hcfg, hhdr, hy, hyh, s, hst⟩ := open_read _ body endl ts _ items es hes hno hend hts hnd hph hbody hsat hf.two hf.increasing hf.span hw
  -- the interval
  have hdel : ∀ (prev : Option DateTime), delivered ts prev items = delivered ts prev (es.map .obs) := by
    rw [hes]
    clear hw hes hph ho hbody
    induction items with
    | nil => intro prev; rfl
    | cons i is ih =>
      intro prev
      cases i with
      | obs e => simp only [epochsOf, List.map_cons, delivered, ih]
      | event e => simp only [epochsOf, delivered, ih]
  have htimes : recTimes ts items = (es.map fun e => List.replicate e.sats.length e.time).flatten := by
    have hdt : (es.map (·.time)).Nodup := by
      rw [List.Nodup, List.pairwise_map]
      exact hf.increasing.imp fun {a b} hab h => by rw [h] at hab; omega
    have : ∀ (prev : Option DateTime) (es : List Epoch), (es.map (·.time)).Nodup → (∀ e ∈ es.head?, prev ≠ some e.time) →
        (delivered ts prev (es.map .obs)).map (·.1) = (es.map fun e => List.replicate e.sats.length e.time).flatten := by
      intro prev es
      induction es generalizing prev with
      | nil => intros; rfl
      | cons e es ih =>
        intro hn hp
        simp only [List.map_cons, List.nodup_cons] at hn
        simp only [List.map_cons, delivered, List.flatten_cons, List.map_append]
        rw [if_neg (hp e (by simp)), ih (some e.time) hn.2]
        · congr 1
          simp [Epoch.records, Function.comp_def, List.map_const']
        · intro e' he' h
          cases es with
          | nil => simp at he'
          | cons e'' es =>
            simp only [List.head?_cons, Option.mem_def, Option.some.injEq] at he' h
            subst he'
            exact hn.1 (by rw [h]; simp)
    unfold recTimes
    rw [hdel]
    exact this none es hdt (by simp)
  obtain ⟨i', wv, hmf, hint, hstored⟩ := C14_interval v _ body endl ts hnd _ items o hno hend hts hph
    (fun i hi => (hbody i hi).1) (fun e he => (hbody _ he).2 e rfl) hw
    (by
      intro d hd
      rw [htimes] at hd
      obtain ⟨p1, a, ha, b, hb, rfl⟩ := spacings_increasing (fun e he => (hok e he).1) hf.increasing d hd
      have := hf.span a ha b hb
      exact ⟨by omega, this, fun _ => by omega⟩) ho
  rw [htimes, spacings_epochs es hsat] at hmf
  obtain ⟨q, hq⟩ : ∃ q, wv = .fin q := by
    obtain ⟨ms, -, -, h⟩ := hstored
    exact ⟨_, h⟩
  subst hq
  have hi : i = .fin q := by
    rw [hhdr] at hint
    simpa using hint
  subst hi
  -- the items
  have hitems : allOf (itemOf2 o.cfg.types) o.records.yields = some (es.flatMap (Epoch.items ts (sitePos (hs1 ++ hs2)))) := by
    have hpos : ∀ y ∈ o.records.yields, posOf y.2.hdr.xyz = some (sitePos (hs1 ++ hs2)) := by
      intro y hyy
      rw [hyh y hyy, hhdr]
      have := posOf_header (HLine.version v f sys d :: hs1 ++ hs2)
      simp only at this ⊢
      rw [this]
      congr 1
    have hl : ∀ Y : List (Rec2 × St2), (∀ y ∈ Y, posOf y.2.hdr.xyz = some (sitePos (hs1 ++ hs2))) → ∀ R : List Rec2, Y.map (·.1) = R →
        (∀ x ∈ R, ∃ r, recOf2 x.data = some r) →
        allOf (itemOf2 ts) Y = some (R.map fun x => ⟨some x.epoch, x.sat, (recOf2 x.data).getD [], sitePos (hs1 ++ hs2), fun _ => some ts⟩) := by
      intro Y hp R hR hrec
      subst hR
      rw [List.map_map]
      apply allOf_map
      intro y hy
      obtain ⟨r, hr⟩ := hrec y.1 (List.mem_map_of_mem hy)
      simp [itemOf2, hr, hp y hy]
    rw [hcfg, hl _ hpos _ hy]
    · rw [List.flatMap_def, List.map_flatten, List.map_map]
      congr 2
      apply List.map_congr_left
      intro e _
      simp [recsOf, Epoch.items, Function.comp_def, recOf2_says]
    · intro x hx
      obtain ⟨l, hl, hx⟩ := List.mem_flatten.1 hx
      obtain ⟨e, -, rfl⟩ := List.mem_map.1 hl
      obtain ⟨s, -, rfl⟩ := List.mem_map.1 hx
      exact ⟨_, recOf2_says ..⟩
  refine ⟨⟨path, getRinexDate path, if sys = ' ' then 'G' else sys, (hs1 ++ hs2).findSome? HLine.saysFirstObs, sitePos (hs1 ++ hs2), q,
      es.flatMap (Epoch.items ts (sitePos (hs1 ++ hs2))), .ok ()⟩, ?_, ?_⟩
  · unfold obsFile
    rw [fetchObs_read hr]
    simp only [hver, if_pos hv3, ho]
    unfold obsIn2
    rw [hitems]
    simp only [Option.bind_some]
    unfold obsIn
    rw [hhdr]
    have hpos := posOf_header (HLine.version v f sys d :: hs1 ++ hs2)
    simp only [List.cons_append, List.findSome?_cons, HLine.saysVersion, HLine.saysFirstObs, HLine.saysPosition] at hpos ⊢
    rw [hpos]
    simp only [Option.bind_some, ratOf, Option.map_some, hst, hv3, true_and, Except.map]
    rfl
  · exact ⟨rfl, fun d => namedDay_iff path d (readAs_last hr), rfl, rfl, rfl, ⟨i', hmf, hstored⟩, rfl, rfl⟩

theorem physical_cons {v : Nat} {ls : List Str} {h : HLine} {es : List HEntry}
    (ht : PhysicalLines ls ((HEntry.line h :: es).map (HEntry.lines v)).flatten) :
    ∃ w r, ls = (h.render v ++ w) :: r ∧ (∀ c ∈ w, isSpace c = true) := by
  simp only [List.map_cons, List.flatten_cons, HEntry.lines, List.singleton_append] at ht
  cases ls with
  | nil => simp [PhysicalLines] at ht
  | cons l r =>
    obtain ⟨⟨w, hw, hs⟩, -⟩ := ht
    refine ⟨w ++ ['\n'], r, by rw [hw, List.append_assoc], ?_⟩
    intro c hc
    simp only [List.mem_append, List.mem_singleton] at hc
    rcases hc with hc | rfl
    · exact (hs c hc).1
    · decide

theorem sysOf_typeMap (v : Nat) (es : List HEntry) : (sysOf es).map (·.1) = (typeMapOf v es).map (·.1) := by
  induction es with
  | nil => rfl
  | cons e es ih => cases e <;> simp [sysOf, typeMapOf, ih]

/-- C73, opening a RINEX 3 file: the program sees exactly the header values, the sampling interval and the observations that were written. -/
theorem C73_open3 (D : Disk) (path : Str) (file : List Str) (v : Nat) (sys : Char) (es : List HEntry) (items : List Item3) (a b : DateTime)
    (hr : ReadAs D path file) (hf : File3 file v sys es items a b) :
    ∃ n o, (∀ fuel, n ≤ fuel → obsFile D fuel path = some (.ok o)) ∧ Opened3 path v sys es items a b o := by
  obtain ⟨f, d, hdr, endl, body, hf0, hs0, hd0, rfl, hp, hh, hend, hw, hne⟩ := hf.text
  obtain ⟨w, r, hb, hws⟩ := physical_cons hp
  have hver : obsVersion (Model.firstLine (hdr ++ endl :: body)) = .ok v := by
    rw [hb]
    simp only [List.cons_append, Model.firstLine, List.headD_cons]
    refine obsVersion_written v ?_ f sys hf0 hs0 d hd0 w hws
    have := hf.version
    simp only [List.mem_cons, List.not_mem_nil, or_false] at this ⊢
    omega
  have hv3 : 300 ≤ v ∧ v < 1000 := by
    have := hf.version
    simp only [List.mem_cons, List.not_mem_nil, or_false] at this
    omega
  obtain ⟨rest, hca, hcb⟩ := hf.times
  have hes : ∀ e ∈ HEntry.line (.version v f sys d) :: es, e.Ok := by
    intro e he
    rcases List.mem_cons.1 he with rfl | he
    · exact ⟨⟨hv3.2, hd0⟩, by intro l h; cases h⟩
    · exact hf.header e he
  have hcons : Consistent [] (HEntry.line (.version v f sys d) :: es) := by
    refine ⟨?_, ?_, by simp [Dict.keys]⟩
    · intro s n codes hm
      simp only [List.mem_cons, reduceCtorEq, false_or] at hm
      exact hf.numbers s n codes hm
    · have := hf.systems.1
      rw [← sysOf_typeMap] at this
      simp only [sysOf]
      have h2 : (sysOf es).map (fun p => [p.1]) = ((sysOf es).map (·.1)).map fun c => [c] := by rw [List.map_map]; rfl
      rw [h2]
      exact this.map (fun x y h => by simpa using h)
  obtain ⟨n, o, hopen, hy, hobj, hstop, hsys, wv, hstored, hhdr⟩ := C20_file v hv3.1 _ hes hcons hdr hp hh endl hend items hf.body hf.systems.2
    hf.noHeaderEvents body hw hne a b rest hca hcb hf.legal.1 hf.legal.2 hf.increasing hf.span
  obtain ⟨q, hq⟩ : ∃ q, wv = .fin q := by
    obtain ⟨ms, -, -, h⟩ := hstored
    exact ⟨_, h⟩
  subst hq
  have hpos : posOf o.obj.hdr.xyz = some (sitePos (linesOf es)) := by
    rw [hhdr]
    have := posOf_header (HLine.version v f sys d :: linesOf es)
    exact this
  have hitems : allOf itemOf3 o.records.yields = some (items.flatMap (Item3.items (typeMapOf v es) (sitePos (linesOf es)))) := by
    have hl : ∀ (Y : List (Rec3 × Obj3)) (items : List Item3), (∀ y ∈ Y, y.2 = o.obj) →
        Y.map (fun y => triple3 y.1) = (bodyRecords3 (typeMapOf v es) items).map (fun t => (some t.1, t.2.1, t.2.2)) →
        allOf itemOf3 Y = some (items.flatMap (Item3.items (typeMapOf v es) (sitePos (linesOf es)))) := by
      intro Y items hY
      have hone : ∀ y ∈ Y, ∀ (t : DateTime) (s : SatId) (fs : List Field) (ts : List Str), triple3 y.1 = (some t, s.name3, ts.zip (fs.map Field.says3)) →
          itemOf3 y = some ⟨some t, s.name3, ts.zip (fs.map Field.obs3), sitePos (linesOf es), (typeMapOf v es).of⟩ := by
        intro y hy t s fs ts h
        simp only [triple3, Prod.mk.injEq] at h
        obtain ⟨h1, h2, h3⟩ := h
        unfold itemOf3
        rw [h3, recOf3_says, hY y hy, hpos, h1, h2]
        simp only [Option.bind_some, Option.map_some]
        congr 2
        funext c
        exact hsys c
      intro h
      have key : ∀ (recs : List (DateTime × SatId × List Field × List Str)) (Y : List (Rec3 × Obj3)), (∀ y ∈ Y, ∀ (t : DateTime) (s : SatId) (fs : List Field) (ts : List Str), triple3 y.1 = (some t, s.name3, ts.zip (fs.map Field.says3)) →
          itemOf3 y = some ⟨some t, s.name3, ts.zip (fs.map Field.obs3), sitePos (linesOf es), (typeMapOf v es).of⟩) →
          Y.map (fun y => triple3 y.1) = recs.map (fun r => (some r.1, r.2.1.name3, r.2.2.2.zip (r.2.2.1.map Field.says3))) →
          allOf itemOf3 Y = some (recs.map fun r => ⟨some r.1, r.2.1.name3, r.2.2.2.zip (r.2.2.1.map Field.obs3), sitePos (linesOf es), (typeMapOf v es).of⟩) := by
        intro recs
        induction recs with
        | nil => intro Y _ h; cases Y with
          | nil => rfl
          | cons => simp at h
        | cons r recs ih =>
          intro Y hY h
          cases Y with
          | nil => simp at h
          | cons y Y =>
            simp only [List.map_cons, List.cons.injEq] at h
            simp only [allOf, hY y (by simp) _ _ _ _ h.1, Option.bind_some, ih Y (fun y' hy' => hY y' (by simp [hy'])) h.2, Option.map_some, List.map_cons]
      let recs : List (DateTime × SatId × List Field × List Str) := items.flatMap fun
        | .obs e => e.sats.map fun s => (e.time, s.1, s.2, ((typeMapOf v es).of s.1.sys).getD [])
        | .event _ => []
      have e1 : (bodyRecords3 (typeMapOf v es) items).map (fun t => (some t.1, t.2.1, t.2.2)) =
          recs.map (fun r => (some r.1, r.2.1.name3, r.2.2.2.zip (r.2.2.1.map Field.says3))) := by
        show _ = (items.flatMap _).map _
        clear h hone hY hca hcb hw hy
        induction items with
        | nil => rfl
        | cons i items ih =>
          cases i with
          | obs e => simp [bodyRecords3, Ep3.records, ih, Function.comp_def]
          | event e => simp [bodyRecords3, ih]
      rw [key recs Y hone (h.trans e1)]
      congr 1
      show (items.flatMap _).map _ = _
      clear h hone hY hca hcb hw hy e1 recs
      induction items with
      | nil => rfl
      | cons i items ih =>
        cases i with
        | obs e => simp [Item3.items, Ep3.items, ih, Function.comp_def]
        | event e => simp [Item3.items, ih]
    exact hl _ items hobj hy
  refine ⟨n, ⟨path, getRinexDate path, sys, (linesOf es).findSome? HLine.saysFirstObs, sitePos (linesOf es), q,
    items.flatMap (Item3.items (typeMapOf v es) (sitePos (linesOf es))), .ok ()⟩, ?_, ?_⟩
  · intro fuel hfu
    unfold obsFile
    rw [fetchObs_read hr]
    simp only [hver, if_neg (show ¬ v < 300 by omega), hopen fuel hfu]
    unfold obsIn3
    rw [hitems]
    simp only [Option.bind_some]
    unfold obsIn
    rw [hpos, hhdr, hstop]
    simp only [valuesOf, linesOf, List.findSome?_cons, HLine.saysVersion, HLine.saysFirstObs, HeaderVals.empty, Option.or_none, Option.bind_some,
      ratOf, Option.map_some, Except.map, show ¬ v < 300 by omega, false_and, if_false]
  · exact ⟨rfl, fun d => namedDay_iff path d (readAs_last hr), rfl, rfl, rfl, hstored, rfl, rfl⟩

/-! ### coordinates -/

theorem get?_map_values {α β : Type} (f : α → β) (d : Dict DateTime α) (t : DateTime) :
    Dict.get? (d.map fun p => (p.1, f p.2)) t = (d.get? t).map f := by
  induction d with
  | nil => rfl
  | cons p d ih =>
    simp only [List.map_cons, Dict.get?]
    split
    · rfl
    · exact ih

theorem set_values {α : Type} (P : α → Prop) (d : Dict DateTime α) (hd : ∀ p ∈ d, P p.2) (t : DateTime) (a : α) (ha : P a) : ∀ p ∈ d.set t a, P p.2 := by
  induction d with
  | nil => simpa [Dict.set] using ha
  | cons p d ih =>
    obtain ⟨k, v⟩ := p
    have h1 := hd (k, v) (by simp)
    have h2 := ih fun p hp => hd p (by simp [hp])
    simp only [Dict.set]
    split
    · intro p hp
      rcases List.mem_cons.1 hp with rfl | hp
      · exact ha
      · exact hd p (by simp [hp])
    · intro p hp
      rcases List.mem_cons.1 hp with rfl | hp
      · exact h1
      · exact h2 p hp

theorem reXyz_accepts {base : Str} {hat : Bool} (hb : ObsStem base hat) : reXyz.accepts (base ++ c% ".xyz") = true := by
  rw [Re.accepts_iff]
  simp only [reXyz, reAlt, Re.ex_alt, Re.ex_seq]
  rw [ex_stem]
  refine ⟨base, c% ".xyz", hat, rfl, hb, ?_⟩
  show reXyzExt.Ex (c% ".xyz") fun _ => True
  rw [← Re.accepts_iff]
  decide

theorem loaded_positions (xl : List XyzLine) (hok : ∀ l ∈ xl, l.Ok) :
    ∃ d r, loadXyz (xl.map XyzLine.render) [] = .ok d ∧ allOf (fun p : DateTime × List PyFloat => (posOf p.2).map fun q => (p.1, q)) d = some r ∧
      Positions xl r := by
  obtain ⟨d, hd, hget⟩ := C39_contents xl hok
  have hvals : ∀ p ∈ d, ∃ x y z : Rat, p.2 = [.fin x, .fin y, .fin z] := by
    rw [loadXyz_written xl hok, Except.ok.injEq] at hd
    subst hd
    have : ∀ (es : List (DateTime × List PyFloat)) (d : Dict DateTime (List PyFloat)), (∀ e ∈ es, ∃ x y z : Rat, e.2 = [.fin x, .fin y, .fin z]) →
        (∀ p ∈ d, ∃ x y z : Rat, p.2 = [.fin x, .fin y, .fin z]) →
        ∀ p ∈ es.foldl (fun d e => d.set e.1 e.2) d, ∃ x y z : Rat, p.2 = [.fin x, .fin y, .fin z] := by
      intro es
      induction es with
      | nil => intro d _ h; exact h
      | cons e es ih =>
        intro d he h
        exact ih _ (fun e' he' => he e' (by simp [he'])) (set_values (fun v => ∃ x y z : Rat, v = [.fin x, .fin y, .fin z]) d h e.1 e.2 (he e (by simp)))
    refine this _ [] ?_ (by simp)
    intro e he
    obtain ⟨l, -, hl⟩ := List.mem_filterMap.1 he
    cases l with
    | comment => cases hl
    | blank => cases hl
    | point t s1 x s2 y s3 z s0 tr => cases hl; exact ⟨_, _, _, rfl⟩
  refine ⟨d, d.map fun p => (p.1, (posOf p.2).getD ⟨0, 0, 0⟩), hd, ?_, ?_⟩
  · apply allOf_map
    intro p hp
    obtain ⟨x, y, z, h⟩ := hvals p hp
    rw [h]; rfl
  · intro t
    rw [get?_map_values (fun v => (Model.posOf v).getD ⟨0, 0, 0⟩), ← hget t]
    cases hg : d.get? t with
    | none => rfl
    | some v =>
      have hm : ∃ p ∈ d, p.2 = v := by
        clear hd hget hvals
        induction d with
        | nil => cases hg
        | cons p d ih =>
          simp only [Dict.get?] at hg
          split at hg
          · exact ⟨p, by simp, by simpa using hg⟩
          · obtain ⟨p', h1, h2⟩ := ih hg
            exact ⟨p', by simp [h1], h2⟩
      obtain ⟨p, hp, rfl⟩ := hm
      obtain ⟨x, y, z, h⟩ := hvals p hp
      rw [h]; rfl

theorem mem_listDirs {D : Disk} {dirs : List Str} {r : List (Str × List Str)} (h : listDirs D dirs = .ok r) {d : Str} (hd : d ∈ dirs) :
    ∃ l, D.listing d = .ok l ∧ (d, l) ∈ r := by
  obtain ⟨ls, h1, rfl⟩ := (listDirs_iff ..).1 h
  clear h
  induction h1 with
  | nil => cases hd
  | @cons a l dirs ls h1 _ ih =>
    rcases List.mem_cons.1 hd with rfl | hd
    · exact ⟨l, h1, by simp⟩
    · obtain ⟨l', h2, h3⟩ := ih hd
      exact ⟨l', h2, by simp [h3]⟩

/-- the positions seen by the program -/
theorem coordinates_data (D : Disk) (cfg : Cfg) (path : Str) (xl : List XyzLine) (hl : ∃ r, listDirs D cfg.obsDir = .ok r)
    (hx : CoordLines D cfg.obsDir path xl) : ∃ xyz, xyzData D (someXyz D cfg) path = some (.ok xyz) ∧ Positions xl xyz ∧
      ∃ d, loadXyz (xl.map XyzLine.render) [] = .ok d ∧ allOf (fun p : DateTime × List PyFloat => (posOf p.2).map fun q => (p.1, q)) d = some xyz := by
  obtain ⟨hok, stem, base, suffix, hat, comp, rfl, hstem, hs, ho, hp⟩ := hx
  have hname : xyzName (stem ++ suffix) = some (stem ++ c% ".xyz") := by
    rcases hstem with rfl | ⟨dir, hdir, rfl⟩
    · exact (C39_name [] stem suffix hat comp hs ho (by simp)).1
    · have := (C39_name dir base suffix hat comp hs ho hdir).2
      simpa using this
  unfold xyzData
  rw [hname]
  simp only
  rcases hp with ⟨hno, rfl⟩ | ⟨hyes, hlines, d, hd, l, n, hdl, hn, hslash, hpath⟩
  · refine ⟨[], ?_, fun t => rfl, [], rfl, rfl⟩
    rw [hno]
    simp
  · have hsome : someXyz D cfg = true := by
      obtain ⟨r, hr⟩ := hl
      unfold someXyz
      rw [hr]
      simp only [ne_eq, decide_eq_true_eq]
      obtain ⟨l', hl', hmem⟩ := mem_listDirs hr hd
      rw [hdl] at hl'
      cases hl'
      have hbase : n = base ++ c% ".xyz" := by
        have h1 : LastComponent (stem ++ c% ".xyz") n := by
          refine ⟨hslash, ?_⟩
          rw [← hpath]
          unfold inDir
          split
          · exact .inl rfl
          · split
            · rename_i _ h
              obtain ⟨d', rfl⟩ := List.getLast?_eq_some_iff.1 h
              exact .inr ⟨d', by simp⟩
            · exact .inr ⟨d, rfl⟩
        have hsl := (obsName_word ho).2
        simp only [List.mem_append, not_or] at hsl
        have h2 : LastComponent (stem ++ c% ".xyz") (base ++ c% ".xyz") := by
          refine ⟨?_, ?_⟩
          · simp only [List.mem_append, not_or]; exact ⟨hsl.1, by decide⟩
          · rcases hstem with rfl | ⟨dir, -, rfl⟩
            · exact .inl rfl
            · exact .inr ⟨dir, by simp⟩
        rw [← basename_of_last h1, ← basename_of_last h2]
      intro hnil
      have : joinPath d n ∈ findFiles r reXyz := by
        unfold findFiles
        rw [List.mem_flatten]
        refine ⟨_, List.mem_map.2 ⟨(d, l), hmem, rfl⟩, ?_⟩
        exact List.mem_map_of_mem (List.mem_filter.2 ⟨hn, by rw [hbase]; exact reXyz_accepts hs⟩)
      rw [hnil] at this
      cases this
    obtain ⟨d', r, h1, h2, h3⟩ := loaded_positions xl hok
    refine ⟨r, ?_, h3, d', h1, h2⟩
    rw [hsome, hyes, hlines]
    simp only [Bool.true_eq_false, if_false, h1, h2, Option.map_some]

/-- C73, coordinates: the coordinates used with an observation file are those of its coordinate file. -/
theorem C73_coordinates (D : Disk) (cfg : Cfg) (path : Str) (xl : List XyzLine) (hl : ∃ r, listDirs D cfg.obsDir = .ok r)
    (hx : CoordLines D cfg.obsDir path xl) : ∃ xyz, xyzData D (someXyz D cfg) path = some (.ok xyz) ∧ Positions xl xyz := by
  obtain ⟨xyz, h1, h2, -⟩ := coordinates_data D cfg path xl hl hx
  exact ⟨xyz, h1, h2⟩

/-! ### records -/

/-- a file in a run -/
theorem program_file (X : Ext) (D : Disk) (cfg : Cfg) (fuel : Nat) (fs : FS) (r : Outcome) (paths : List Str) (i : Nat) (path : Str)
    (hf : obsFiles D cfg = .ok paths) (hi : paths[i]? = some path) (hrun : program X D cfg fuel fs = some r) :
    ∃ ins f, mainLoop (prmOf X D cfg) ins Glob.empty fs = ((mainLoop (prmOf X D cfg) ins Glob.empty fs).1, r.fs, r.calls, r.err) ∧
      ins.length = paths.length ∧ ins[i]? = some f ∧ fileIn D fuel (someXyz D cfg) path = some f := by
  unfold program at hrun
  rw [hf] at hrun
  cases paths with
  | nil => simp at hi
  | cons p ps =>
    simp only [Option.map_eq_some_iff] at hrun
    obtain ⟨ins, h1, rfl⟩ := hrun
    obtain ⟨h2, h3⟩ := allOf_get h1
    obtain ⟨f, h4, h5⟩ := h3 i path hi
    exact ⟨ins, f, rfl, h2, h5, h4⟩

/-- C73, records: in a run that ends normally, the records written for an observation file are those of the items left by the sampling interval -/
theorem run_records (X : Ext) (D : Disk) (cfg : Cfg) (fuel : Nat) (fs : FS) (r : Outcome) (paths : List Str) (i : Nat) (path : Str) (o : ObsIn)
    (xl : List XyzLine) (t : DateTime) (hf : obsFiles D cfg = .ok paths) (hi : paths[i]? = some path)
    (hrun : program X D cfg fuel fs = some r) (hend : r.err = none) (ho : obsFile D fuel path = some (.ok o))
    (hx : CoordLines D cfg.obsDir path xl) (ha : Accepted o t) (hleg : ∀ it ∈ o.items, ∀ e, it.epoch = some e → Legal e)
    (good : cfg.navIgnoreAbsence = false ∨ ∀ it ∈ o.items, ∀ c n e, Considered o it c n e → ¬ ArithError (prmOf X D cfg) c n e) :
    ∃ ops xyz kept, r.calls[i]? = some ops ∧ Positions xl xyz ∧ Kept cfg o kept ∧ RecordsOf (prmOf X D cfg) o xyz [] kept (writesOf ops) := by
  obtain ⟨ins, f, hm, hlen, hfi, hfile⟩ := program_file X D cfg fuel fs r paths i path hf hi hrun
  have hl : ∃ r, listDirs D cfg.obsDir = .ok r := by
    unfold obsFiles at hf
    cases h : listDirs D cfg.obsDir with
    | error e => rw [h] at hf; cases hf
    | ok r => exact ⟨r, rfl⟩
  obtain ⟨xyz, hxyz, hpos⟩ := C73_coordinates D cfg path xl hl hx
  have hfo : f.opened = .ok o ∧ f.xyzData = .ok xyz := by
    unfold fileIn at hfile
    rw [ho, hxyz] at hfile
    cases hfile
    exact ⟨rfl, rfl⟩
  generalize hP : prmOf X D cfg = P at *
  have hcfg : P.cfg = cfg := by rw [← hP]; rfl
  have herr : (mainLoop P ins Glob.empty fs).2.2.2 = none := by rw [hm]; exact hend
  have hcalls : (mainLoop P ins Glob.empty fs).2.2.1 = r.calls := by rw [hm]
  have hlen2 := mainLoop_length P ins _ _ herr
  have hil : i < ins.length := by
    rw [hlen]; exact (List.getElem?_eq_some_iff.1 hi).1
  obtain ⟨ops, hops⟩ : ∃ ops, (mainLoop P ins Glob.empty fs).2.2.1[i]? = some ops := ⟨_, List.getElem?_eq_getElem (by omega)⟩
  have hops' : r.calls[i]? = some ops := by rw [← hcalls]; exact hops
  by_cases hs : P.cfg.samplingInterval = none ∨ ∃ us, P.cfg.samplingInterval = some us ∧ (us = 0 ∨ (us : Rat) / 1000000 ≤ o.interval)
  · exact ⟨ops, xyz, o.items, hops', hpos, .all (by rw [← hcfg]; exact hs),
      C71_exact P ins fs i f o t xyz ops herr hops hfi hfo.1 hfo.2 ha hs (by rw [hcfg]; exact good)⟩
  · obtain ⟨us, hus, h0, h1⟩ : ∃ us, P.cfg.samplingInterval = some us ∧ us ≠ 0 ∧ o.interval < (us : Rat) / 1000000 := by
      cases hc : P.cfg.samplingInterval with
      | none => exact absurd (.inl hc) hs
      | some us =>
        refine ⟨us, rfl, ?_, ?_⟩
        · rintro rfl; exact hs (.inr ⟨0, hc, .inl rfl⟩)
        · by_contra h; exact hs (.inr ⟨us, hc, .inr (not_lt.1 h)⟩)
    obtain ⟨flags, hd, hrec⟩ := C58_decimation P ins fs i f o t xyz ops herr hops hfi hfo.1 hfo.2 ha us hus h0 h1 hleg (by rw [hcfg]; exact good)
    exact ⟨ops, xyz, leftOf flags, hops', hpos, .some us flags (by rw [← hcfg]; exact hus) h0 h1 hd, hrec⟩

/-- the times of the epochs are legal -/
theorem _root_.Verif.Spec.File2.legal {file v sys hs ts es} (h : File2 file v sys hs ts es) : ∀ e ∈ es, Legal e.time := by
  obtain ⟨_, _, _, _, _, _, _, _, _, items, _, _, _, _, _, _, _, _, _, _, _, _, hes, hb⟩ := h.text
  intro e he
  exact (epochsOf_ok hb e (hes ▸ he)).1

/-- C73, RINEX 2: a run over directories that contain a well-formed RINEX 2 file and that ends normally hands to the writer, for this file, exactly the
records described by `RecordsOf` from the observations written in the file. -/
theorem C73_rinex2 (X : Ext) (D : Disk) (cfg : Cfg) (fuel : Nat) (fs : FS) (r : Outcome) (paths : List Str) (i : Nat) (path : Str) (file : List Str)
    (v : Nat) (sys : Char) (hs : List HLine) (ts : List Str) (es : List Epoch) (xl : List XyzLine)
    (hn : PlainNames D cfg.obsDir) (hf : InputFiles D cfg.obsDir paths) (hi : paths[i]? = some path)
    (hrun : program X D cfg fuel fs = some r) (hend : r.err = none)
    (hr : ReadAs D path file) (hfile : File2 file v sys hs ts es) (hx : CoordLines D cfg.obsDir path xl) :
    ∃ o, Opened2 path v sys hs ts es o ∧ ∀ t, Accepted o t →
      (cfg.navIgnoreAbsence = false ∨ ∀ it ∈ o.items, ∀ c n e, Considered o it c n e → ¬ ArithError (prmOf X D cfg) c n e) →
      ∃ ops xyz kept, r.calls[i]? = some ops ∧ Positions xl xyz ∧ Kept cfg o kept ∧ RecordsOf (prmOf X D cfg) o xyz [] kept (writesOf ops) := by
  obtain ⟨o, ho, hop⟩ := C73_open2 D fuel path file v sys hs ts es hr hfile
  refine ⟨o, hop, fun t ha good => ?_⟩
  refine run_records X D cfg fuel fs r paths i path o xl t ((C72_files D cfg paths hn).2 hf) hi hrun hend ho hx ha ?_ good
  intro it hit e he
  rw [hop.items, List.mem_flatMap] at hit
  obtain ⟨ep, hep, hit⟩ := hit
  obtain ⟨s, -, rfl⟩ := List.mem_map.1 hit
  cases he
  exact hfile.legal ep hep

/-- C73, RINEX 3: the same; `fuel` bounds the turns of the detection of the interval, any sufficiently large number will do. -/
theorem C73_rinex3 (X : Ext) (D : Disk) (cfg : Cfg) (fs : FS) (paths : List Str) (i : Nat) (path : Str) (file : List Str)
    (v : Nat) (sys : Char) (es : List HEntry) (items : List Item3) (a b : DateTime) (xl : List XyzLine)
    (hn : PlainNames D cfg.obsDir) (hf : InputFiles D cfg.obsDir paths) (hi : paths[i]? = some path)
    (hr : ReadAs D path file) (hfile : File3 file v sys es items a b) (hx : CoordLines D cfg.obsDir path xl) :
    ∃ o n, Opened3 path v sys es items a b o ∧ ∀ fuel r t, n ≤ fuel → program X D cfg fuel fs = some r → r.err = none → Accepted o t →
      (cfg.navIgnoreAbsence = false ∨ ∀ it ∈ o.items, ∀ c n e, Considered o it c n e → ¬ ArithError (prmOf X D cfg) c n e) →
      ∃ ops xyz kept, r.calls[i]? = some ops ∧ Positions xl xyz ∧ Kept cfg o kept ∧ RecordsOf (prmOf X D cfg) o xyz [] kept (writesOf ops) := by
  obtain ⟨n, o, ho, hop⟩ := C73_open3 D path file v sys es items a b hr hfile
  refine ⟨o, n, hop, fun fuel r t hfu hrun hend ha good => ?_⟩
  refine run_records X D cfg fuel fs r paths i path o xl t ((C72_files D cfg paths hn).2 hf) hi hrun hend (ho fuel hfu) hx ha ?_ good
  intro it hit e he
  rw [hop.items, List.mem_flatMap] at hit
  obtain ⟨ep, hep, hit⟩ := hit
  cases ep with
  | event ev => cases hit
  | obs ep =>
    obtain ⟨s, -, rfl⟩ := List.mem_map.1 hit
    cases he
    exact (hfile.body _ hep).1.1

end Verif.Props
