import Verif.Spec.Foreign
import Verif.Props.Cols
/-!
# Satellites of systems the program does not process (C119)
-/
namespace Verif.Props
open Verif.Py Verif.Model Verif.Spec Verif.Proofs

/-- an item of a supported system -/
def ours (it : ObsItem) : Bool := (it.sat.take 1).all fun c => processed.contains c

/-- two items that give the same in the supported systems -/
structure SameHere (it it' : ObsItem) : Prop where
  epoch : it'.epoch = it.epoch
  sat : it'.sat = it.sat
  xyz : it'.xyz = it.xyz
  data : it'.data = it.data
  types : ∀ c ∈ processed, it'.types c = it.types c

theorem process_sameHere {it it' : ObsItem} (h : SameHere it it') (P : Prm) (o : ObsIn) (xyz : Dict DateTime Pos) (c : Char) (hc : c ∈ processed) (n : Int) (e : DateTime) (s : St) :
    process P o xyz it' c n e s = process P o xyz it c n e s := by
  have hv : ∀ glo el az sp x l, values P it' c glo el az sp x l = values P it c glo el az sp x l := by
    intro glo el az sp x l
    unfold values
    rw [h.data, h.types c hc]
  unfold process emitStage outStage
  simp only [hv, h.sat, h.xyz]

theorem admit_sameHere {it it' : ObsItem} (h : SameHere it it') (o : ObsIn) (sampling : Option Int) (last : Option DateTime) : admit o sampling last it' = admit o sampling last it := by
  unfold admit decode
  rw [h.sat, h.epoch]

theorem admit_here {o : ObsIn} {sampling : Option Int} {last l : Option DateTime} {it : ObsItem} {c : Char} {n : Int} {e : DateTime}
    (h : admit o sampling last it = .ok (some (c, n, e, l))) : c ∈ processed := by
  unfold admit at h
  cases hd : decode it with
  | error er => rw [hd] at h; cases h
  | ok q =>
    obtain ⟨c', n', e'⟩ := q
    rw [hd] at h
    simp only at h
    split at h
    · cases h
    · next hs =>
      split at h
      · cases h
      · split at h
        · cases h
        · cases h
          exact not_not.1 hs

theorem admit_foreign {it : ObsItem} (hf : ours it = false) (hd : ∃ r, decode it = .ok r) (o : ObsIn) (sampling : Option Int) (last : Option DateTime) : admit o sampling last it = .ok none := by
  obtain ⟨⟨c, n, e⟩, hd⟩ := hd
  unfold admit
  rw [hd]
  have : c ∉ supported := by
    unfold decode at hd
    unfold ours at hf
    cases hs : it.sat with
    | nil => rw [hs] at hd; cases hd
    | cons x r =>
      rw [hs] at hd hf
      simp only at hd
      cases hp : pyInt r with
      | error er => rw [hp] at hd; cases hd
      | ok m =>
        rw [hp] at hd
        simp only at hd
        cases he : it.epoch with
        | none => rw [he] at hd; cases hd
        | some e' =>
          rw [he] at hd
          cases hd
          simpa [supported, processed] using hf
  simp only [if_pos this]

theorem runItems_ours (P : Prm) (o : ObsIn) (sampling : Option Int) (xyz : Dict DateTime Pos) (its : List ObsItem) (hd : ∀ it ∈ its, ∃ r, decode it = .ok r) :
    ∀ last s, runItems P o sampling xyz its last s = runItems P o sampling xyz (its.filter ours) last s := by
  induction its with
  | nil => intro _ _; rfl
  | cons it its ih =>
    intro last s
    have ih := ih fun i hi => hd i (by simp [hi])
    cases h : ours it with
    | true =>
      rw [List.filter_cons_of_pos h]
      unfold runItems
      simp only [ih]
    | false =>
      rw [List.filter_cons_of_neg (by simp [h])]
      rw [← ih]
      conv_lhs => unfold runItems
      rw [admit_foreign h (hd it (by simp))]

theorem runItems_sameHere (P : Prm) (o : ObsIn) (sampling : Option Int) (xyz : Dict DateTime Pos) {its its' : List ObsItem} (h : List.Forall₂ SameHere its its') :
    ∀ last s, runItems P o sampling xyz its' last s = runItems P o sampling xyz its last s := by
  induction h with
  | nil => intro _ _; rfl
  | @cons it it' _ _ h _ ih =>
    intro last s
    unfold runItems
    rw [admit_sameHere h]
    cases ha : admit o sampling last it with
    | error e => rfl
    | ok q =>
      cases q with
      | none => simp only [ih]
      | some q =>
        obtain ⟨c, n, e, l⟩ := q
        simp only [process_sameHere h P o xyz c (admit_here ha), ih]

/-- what the program knows of two observation files is the same but for the items of other systems -/
structure SameButForeign (o o' : ObsIn) : Prop where
  rest : ∃ items', o' = { o with items := items' }
  items : List.Forall₂ SameHere (o.items.filter ours) (o'.items.filter ours)
  named : ∀ it ∈ o.items ++ o'.items, ∃ r, decode it = .ok r

theorem processFile_foreign {o o' : ObsIn} (h : SameButForeign o o') (P : Prm) (x : Except PyErr (Dict DateTime Pos)) (g : Glob) (fs : FS) :
    processFile P ⟨.ok o', x⟩ g fs = processFile P ⟨.ok o, x⟩ g fs := by
  obtain ⟨⟨items', rfl⟩, hi, hd⟩ := h
  unfold processFile
  simp only [runItems_other, runItems_ours P o _ _ items' (fun i h => hd i (by simp [h])), runItems_ours P o _ _ o.items (fun i h => hd i (by simp [h])), runItems_sameHere P o _ _ hi]
  rfl

/-- two archives that differ in one file: if the file is processed in the same way, the runs are the same -/
theorem program_alike (X : Ext) (D D' : Disk) (cfg : Cfg) (fs : FS) (paths : List Str) (path : Str) (file : List Str) (hn : PlainNames D cfg.obsDir)
    (hf : InputFiles D cfg.obsDir paths) (hnav : FileNames D cfg.navDir) (hd : Elsewhere D D' path) (hr : ReadAs D path file) (fuel : Nat)
    (hopen : ∃ o o', obsFile D fuel path = some (.ok o) ∧ obsFile D' fuel path = some (.ok o') ∧
      ∀ P x g fs, processFile P ⟨.ok o', x⟩ g fs = processFile P ⟨.ok o, x⟩ g fs) :
    program X D' cfg fuel fs = program X D cfg fuel fs := by
  obtain ⟨name, hat, comp, hl, ho⟩ : ∃ name hat comp, LastComponent path name ∧ ObsName name hat comp := by
    obtain ⟨dir, name, hat, comp, hp, ho, -⟩ := hr.treated
    have hs : '/' ∉ name := (obsName_word ho).2
    exact ⟨name, hat, comp, ⟨hs, hp.imp id fun h => ⟨dir, h.1⟩⟩, ho⟩
  have hfile : ∀ p b, Option.Rel (Alike (prmOf X D cfg)) (fileIn D fuel b p) (fileIn D' fuel b p) := by
    intro p b
    unfold fileIn
    rw [xyz_elsewhere hd hl ho]
    by_cases hp : p = path
    · subst hp
      obtain ⟨o, o', e1, e2, hs⟩ := hopen
      rw [e1, e2]
      simp only [Option.bind_some]
      cases xyzData D b p with
      | none => exact .none
      | some x => exact .some fun g fs => hs _ x g fs
    · rw [obs_elsewhere hd fuel hp]
      cases (obsFile D fuel p).bind fun o => (xyzData D b p).map fun x => (⟨o, x⟩ : FileIn) with
      | none => exact .none
      | some f => exact .some fun _ _ => rfl
  unfold program
  rw [obsFiles_elsewhere hd, someXyz_elsewhere hd, (C72_files D cfg paths hn).2 hf, prm_elsewhere X hd hl ho hnav]
  cases paths with
  | nil => rfl
  | cons p ps =>
    simp only
    have hall := allOf_alike (prmOf X D cfg) (f := fileIn D fuel (someXyz D cfg)) (f' := fileIn D' fuel (someXyz D cfg)) (l := p :: ps) fun a _ => hfile a _
    cases ha : allOf (fileIn D fuel (someXyz D cfg)) (p :: ps) <;> cases ha' : allOf (fileIn D' fuel (someXyz D cfg)) (p :: ps) <;> rw [ha, ha'] at hall <;> cases hall
    rename_i hall
    simp only [Option.map_some, mainLoop_alike _ hall]

theorem pyInt_two {n : Nat} (h : n < 100) : ∃ m, pyInt [digit (n / 10), digit (n % 10)] = .ok m := by
  have : ∀ n : Fin 100, (pyInt [digit (n.1 / 10), digit (n.1 % 10)]).toOption.isSome = true := by decide +kernel
  have := this ⟨n, h⟩
  simp only at this
  cases hp : pyInt [digit (n / 10), digit (n % 10)] with
  | ok m => exact ⟨m, rfl⟩
  | error e => rw [hp] at this; cases this

theorem decode_two {it : ObsItem} {c : Char} {n : Nat} (h : n < 100) {t : DateTime} (hs : it.sat = [c, digit (n / 10), digit (n % 10)]) (he : it.epoch = some t) : ∃ r, decode it = .ok r := by
  obtain ⟨m, hm⟩ := pyInt_two h
  exact ⟨(c, m, t), by unfold decode; rw [hs, he]; simp only [hm]⟩

theorem filter_flatMap_foreign {α β : Type} (R : ObsItem → ObsItem → Prop) {l : List α} {m : List β} {f : α → List ObsItem} {g : β → List ObsItem}
    (h : List.Forall₂ (fun a b => List.Forall₂ R ((f a).filter ours) ((g b).filter ours)) l m) : List.Forall₂ R ((l.flatMap f).filter ours) ((m.flatMap g).filter ours) := by
  induction h with
  | nil => exact .nil
  | cons h _ ih =>
    rw [List.flatMap_cons, List.flatMap_cons, List.filter_append, List.filter_append]
    exact List.rel_append h ih

theorem sameHere_sats {name : SatId → Str} {sats sats' : List (SatId × List Spec.Field)} (h : ofProcessed name sats' = ofProcessed name sats) {f f' : SatId × List Spec.Field → ObsItem}
    (hf : ∀ s, (f s).sat = name s.1) (hf' : ∀ s, (f' s).sat = name s.1) (hs : ∀ s ∈ ofProcessed name sats, SameHere (f s) (f' s)) :
    List.Forall₂ SameHere ((sats.map f).filter ours) ((sats'.map f').filter ours) := by
  have e1 : (sats.map f).filter ours = (ofProcessed name sats).map f := by
    rw [List.filter_map]; congr 1
    unfold ofProcessed ours Function.comp; simp only [hf]
  have e2 : (sats'.map f').filter ours = (ofProcessed name sats').map f' := by
    rw [List.filter_map]; congr 1
    unfold ofProcessed ours Function.comp; simp only [hf']
  rw [e1, e2, h, List.forall₂_map_left_iff, List.forall₂_map_right_iff]
  exact List.forall₂_same.2 hs

theorem obsIn_rest {o o' : ObsIn} (h1 : o'.filename = o.filename) (h2 : o'.fileDate = o.fileDate) (h3 : o'.system = o.system) (h4 : o'.tofo = o.tofo) (h5 : o'.xyz = o.xyz)
    (h6 : o'.interval = o.interval) (h8 : o'.stop = o.stop) : ∃ items', o' = { o with items := items' } := by
  refine ⟨o'.items, ?_⟩
  cases o; cases o'; simp_all

theorem items2_named {file : List Str} {v : Nat} {sys : Char} {hs : List HLine} {ts : List Str} {es : List Epoch} (h : File2 file v sys hs ts es) (p : Pos) :
    ∀ it ∈ es.flatMap (Epoch.items ts p), ∃ r, decode it = .ok r := by
  obtain ⟨before, tls, after, hs1, hs2, f, d, endl, body, items, -, -, -, -, -, -, -, -, -, -, -, -, rfl, hb⟩ := h.text
  intro it hi
  obtain ⟨e, he, hi⟩ := List.mem_flatMap.1 hi
  obtain ⟨s, hs, rfl⟩ := List.mem_map.1 hi
  exact decode_two ((epochsOf_ok hb e he).2.2.2.2.2 s hs).1.1 rfl rfl

/-- C119, opening, RINEX 2 -/
theorem C119_open2 (D D' : Disk) (fuel : Nat) (path : Str) (file file' : List Str) (hr : ReadAs D path file) (hr' : ReadAs D' path file') (h : SameProcessed2 file file') :
    ∃ o o', obsFile D fuel path = some (.ok o) ∧ obsFile D' fuel path = some (.ok o') ∧ SameButForeign o o' := by
  obtain ⟨v, v', sys, hs, hs', ts, es, es', h1, h2, hv, hms, hpos, hto, hobs⟩ := h
  obtain ⟨o, e1, p1⟩ := C73_open2 D fuel path file v sys hs ts es hr h1
  obtain ⟨o', e2, p2⟩ := C73_open2 D' fuel path file' v' sys hs' ts es' hr' h2
  refine ⟨o, o', e1, e2, ?_, ?_, ?_⟩
  · have htimes : es.map (·.time) = es'.map (·.time) := by
      refine List.forall₂_eq_eq_eq ▸ ?_
      rw [List.forall₂_map_left_iff, List.forall₂_map_right_iff]
      exact hobs.imp fun _ _ h => h.1.symm
    apply obsIn_rest
    · rw [p2.filename, p1.filename]
    · exact fileDate_same p2.date p1.date
    · rw [p2.system, p1.system]
    · rw [p2.tofo, p1.tofo, hto]
    · rw [p2.xyz, p1.xyz, hpos]
    · obtain ⟨i, i1, i2⟩ := p1.interval
      obtain ⟨j, j1, j2⟩ := p2.interval
      rw [← htimes] at j1
      have := mostFrequent_unique i1 j1
      subst this
      refine stored_ms hv.symm (spacing_ms ?_ i (List.mem_of_mem_take i1.1)) j2 i2
      intro t ht
      obtain ⟨e, he, rfl⟩ := List.mem_map.1 ht
      exact hms e he
    · rw [p2.stop, p1.stop]
  · rw [p2.items, p1.items, ← hpos]
    refine filter_flatMap_foreign _ (hobs.imp fun e e' he => ?_)
    refine sameHere_sats he.2 (fun _ => rfl) (fun _ => rfl) fun s _ => ⟨?_, rfl, rfl, rfl, fun _ _ => rfl⟩
    simp only [he.1]
  · intro it hi
    rcases List.mem_append.1 hi with hi | hi
    · rw [p1.items] at hi
      exact items2_named h1 _ it hi
    · rw [p2.items] at hi
      exact items2_named h2 _ it hi

theorem items3_named {file : List Str} {v : Nat} {sys : Char} {es : List HEntry} {items : List Item3} {a b : DateTime} (h : File3 file v sys es items a b) (m : TypeMap) (p : Pos) :
    ∀ it ∈ items.flatMap (Item3.items m p), ∃ r, decode it = .ok r := by
  intro it hi
  obtain ⟨e, he, hi⟩ := List.mem_flatMap.1 hi
  cases e with
  | event e => cases hi
  | obs e =>
    obtain ⟨s, hs, rfl⟩ := List.mem_map.1 hi
    exact decode_two (((h.body _ he).2.2.2 s hs).1.1) rfl rfl

/-- C119, opening, RINEX 3 -/
theorem C119_open3 (D D' : Disk) (path : Str) (file file' : List Str) (hr : ReadAs D path file) (hr' : ReadAs D' path file') (h : SameProcessed3 file file') :
    ∃ n o o', ∀ fuel, n ≤ fuel → obsFile D fuel path = some (.ok o) ∧ obsFile D' fuel path = some (.ok o') ∧ SameButForeign o o' := by
  obtain ⟨v, sys, hs, hs', items, items', a, b, h1, h2, ha, hb, htm, hpos, hto, hobs⟩ := h
  obtain ⟨n, o, e1, p1⟩ := C73_open3 D path file v sys hs items a b hr h1
  obtain ⟨n', o', e2, p2⟩ := C73_open3 D' path file' v sys hs' items' a b hr' h2
  refine ⟨max n n', o, o', fun fuel hf => ⟨e1 fuel (le_trans (le_max_left ..) hf), e2 fuel (le_trans (le_max_right ..) hf), ?_, ?_, ?_⟩⟩
  · apply obsIn_rest
    · rw [p2.filename, p1.filename]
    · exact fileDate_same p2.date p1.date
    · rw [p2.system, p1.system]
    · rw [p2.tofo, p1.tofo, hto]
    · rw [p2.xyz, p1.xyz, hpos]
    · exact stored_ms Iff.rfl (instant_ms ha hb) p2.interval p1.interval
    · rw [p2.stop, p1.stop]
  · rw [p2.items, p1.items, ← hpos, items3_obs, items3_obs]
    refine filter_flatMap_foreign _ (hobs.imp fun e e' he => ?_)
    refine sameHere_sats (name := SatId.name3) he.2 (fun _ => rfl) (fun _ => rfl) fun s hs => ?_
    have hc : s.1.sys ∈ processed := by
      have := (List.mem_filter.1 hs).2
      simpa [SatId.name3] using this
    refine ⟨?_, rfl, rfl, ?_, htm⟩
    · simp only [he.1]
    · simp only [htm _ hc]
  · intro it hi
    rcases List.mem_append.1 hi with hi | hi
    · rw [p1.items] at hi
      exact items3_named h1 _ _ it hi
    · rw [p2.items] at hi
      exact items3_named h2 _ _ it hi

/-- C119: if satellites of systems the program does not process are added to an observation file or removed from it, the run is the same: the same output files, the same calls of the
writer, and it ends in the same way. -/
theorem C119_run (X : Ext) (D D' : Disk) (cfg : Cfg) (fs : FS) (paths : List Str) (path : Str) (file file' : List Str) (hn : PlainNames D cfg.obsDir)
    (hf : InputFiles D cfg.obsDir paths) (hnav : FileNames D cfg.navDir) (hd : Elsewhere D D' path) (hr : ReadAs D path file) (hr' : ReadAs D' path file')
    (h : SameProcessed2 file file' ∨ SameProcessed3 file file') :
    ∃ n, ∀ fuel, n ≤ fuel → program X D' cfg fuel fs = program X D cfg fuel fs := by
  rcases h with h | h
  · refine ⟨0, fun fuel _ => program_alike X D D' cfg fs paths path file hn hf hnav hd hr fuel ?_⟩
    obtain ⟨o, o', e1, e2, e3⟩ := C119_open2 D D' fuel path file file' hr hr' h
    exact ⟨o, o', e1, e2, fun P x g fs => processFile_foreign e3 P x g fs⟩
  · obtain ⟨n, o, o', h⟩ := C119_open3 D D' path file file' hr hr' h
    refine ⟨n, fun fuel hfu => program_alike X D D' cfg fs paths path file hn hf hnav hd hr fuel ?_⟩
    obtain ⟨e1, e2, e3⟩ := h fuel hfu
    exact ⟨o, o', e1, e2, fun P x g fs => processFile_foreign e3 P x g fs⟩

end Verif.Props

namespace Verif.Props.ProgEx
open Verif.Py Verif.Spec Verif.Model Verif.Proofs

/-- a QZSS satellite between the others -/
def epochJ (s : Nat) : Epoch := { epoch s with sats := [exSat 'G' 1 123456, exSat 'J' 2 77, exSat 'R' 24 99] }

theorem epochJ_ok {s : Nat} (h : s < 60) : (epochJ s).Ok 3 := by
  obtain ⟨a, b, c, d, e, f⟩ := epoch_ok h
  refine ⟨a, b, c, d, (by decide : 3 < 1000), fun s' hs => ?_⟩
  have hs : s' ∈ [exSat 'G' 1 123456, exSat 'J' 2 77, exSat 'R' 24 99] := hs
  simp only [List.mem_cons, List.not_mem_nil, or_false] at hs
  rcases hs with rfl | rfl | rfl
  · exact f _ (by simp [epoch])
  · refine ⟨⟨(by decide : 2 < 100), .inr (.inl (by decide))⟩, rfl, fun y hy => ?_⟩
    simp only [exSat, List.mem_cons, List.not_mem_nil, or_false] at hy
    rcases hy with rfl | rfl | rfl
    · exact ⟨by decide +kernel, by simp, by simp⟩
    · trivial
    · exact ⟨by decide +kernel, by simp, by simp⟩
  · exact f _ (by simp [epoch])

def obsLinesJ : List Str :=
  [HLine.render 211 (.version 211 'O' 'M' obsWords), HLine.render 211 (.firstObs ⟨2017, 1, 2, 3, 4, 0, 0⟩ 0 (c% "GPS")), HLine.render 211 (.position 10000 20000 30000)] ++
    typeLines exTypes ++ [] ++ hline [] lblEnd :: bodyLines [.obs (epochJ 0), .obs (epochJ 30)]

theorem foreign2 : File2 obsLinesJ 211 'M' head exTypes [epochJ 0, epochJ 30] where
  version := by decide
  text := by
    refine ⟨[HLine.render 211 (.version 211 'O' 'M' obsWords), HLine.render 211 (.firstObs ⟨2017, 1, 2, 3, 4, 0, 0⟩ 0 (c% "GPS")), HLine.render 211 (.position 10000 20000 30000)],
      typeLines exTypes, [], head, [], 'O', obsWords, hline [] lblEnd, bodyLines [.obs (epochJ 0), .obs (epochJ 30)], [.obs (epochJ 0), .obs (epochJ 30)],
      by decide, by decide, by decide, rfl, rfl, typeText_refl _, ?_, trivial, by decide +kernel, by decide +kernel, by decide +kernel, written_refl _, rfl, ?_⟩
    · exact ⟨⟨[], by simp, by simp⟩, ⟨[], by simp, by simp⟩, ⟨[], by simp, by simp⟩, trivial⟩
    · intro i hi
      simp only [List.mem_cons, List.not_mem_nil, or_false] at hi
      rcases hi with rfl | rfl
      · exact ⟨epochJ_ok (by decide), fun _ h => nomatch h⟩
      · exact ⟨epochJ_ok (by decide), fun _ h => nomatch h⟩
  header := C73_hypotheses.header
  types := C73_hypotheses.types
  epochs := by
    intro e he
    simp only [List.mem_cons, List.not_mem_nil, or_false] at he
    rcases he with rfl | rfl
    · simp [epochJ]
    · simp [epochJ]
  two := by decide
  increasing := by decide +kernel
  span := by decide +kernel

/-- the files of the example differ in a satellite of a system that is not processed -/
theorem C119_hypotheses : SameProcessed2 obsLines obsLinesJ := by
  refine ⟨211, 211, 'M', head, head, exTypes, _, _, C73_hypotheses, foreign2, Iff.rfl, ?_, rfl, rfl, ?_⟩
  · intro e he
    simp only [List.mem_cons, List.not_mem_nil, or_false] at he
    rcases he with rfl | rfl <;> rfl
  · have h : ∀ s, (epochJ s).time = (epoch s).time ∧ ofProcessed SatId.name (epochJ s).sats = ofProcessed SatId.name (epoch s).sats := fun s => ⟨rfl, rfl⟩
    exact .cons (h 0) (.cons (h 30) .nil)

def diskJ : Disk := { disk with lines := fun f p => if f = .plain ∧ p = obsPath then .ok obsLinesJ else disk.lines f p }

/-- the two runs, by calculation -/
theorem C119_example : ((program ext diskJ cfg 5 []).map fun r => (r.err, r.fs)) = (program ext disk cfg 5 []).map fun r => (r.err, r.fs) := by decide +kernel

end Verif.Props.ProgEx
