import Verif.Spec.Strength
import Verif.Props.Foreign
/-!
# The digits for the signal strength (C120)
-/
namespace Verif.Props
open Verif.Py Verif.Model Verif.Spec Verif.Proofs

/-- a dictionary with other values -/
def mapVals {κ α β : Type} (g : α → β) (d : Dict κ α) : Dict κ β := d.map fun p => (p.1, g p.2)

theorem get_mapVals {κ α β : Type} [DecidableEq κ] (g : α → β) (d : Dict κ α) (k : κ) : (mapVals g d).get? k = (d.get? k).map g := by
  induction d with
  | nil => rfl
  | cons p d ih =>
    unfold mapVals at ih ⊢
    simp only [List.map_cons, Dict.get?]
    split
    · rfl
    · exact ih

theorem set_mapVals {κ α β : Type} [DecidableEq κ] (g : α → β) (d : Dict κ α) (k : κ) (v : α) : (mapVals g d).set k (g v) = mapVals g (d.set k v) := by
  induction d with
  | nil => rfl
  | cons p d ih =>
    unfold mapVals at ih ⊢
    simp only [List.map_cons, Dict.set]
    split
    · rfl
    · rw [List.map_cons, ← ih]

theorem keys_mapVals {κ α β : Type} (g : α → β) (d : Dict κ α) : (mapVals g d).keys = d.keys := by
  unfold mapVals Dict.keys
  rw [List.map_map]
  rfl

theorem parseRecLoop_mapVals {α β : Type} (g : α → β) (r : Dict Str α) : ∀ (fs : List Fam) (ots : List Str) (d : Dict Fam (Option α)),
    parseRecLoop (mapVals g r) fs ots (mapVals (Option.map g) d) = mapVals (Option.map g) (parseRecLoop r fs ots d) := by
  intro fs
  induction fs with
  | nil => intro _ _; rfl
  | cons F fs ih =>
    intro ots d
    unfold parseRecLoop
    have h1 : (mapVals (Option.map g) d).set F none = mapVals (Option.map g) (d.set F none) := set_mapVals (Option.map g) d F none
    simp only [h1, get_mapVals, set_mapVals]
    split
    · exact ih _ _
    · exact ih _ _

theorem parseRec_mapVals {α β : Type} (g : α → β) (r : Dict Str α) (F : Fam) : (parseRec (mapVals g r)).get? F = ((parseRec r).get? F).map (Option.map g) := by
  unfold parseRec
  rw [keys_mapVals]
  have := parseRecLoop_mapVals g r Lbl.OBS_TYPE_LABELS (sortStr r.keys) []
  rw [show mapVals (Option.map g) ([] : Dict Fam (Option α)) = [] from rfl] at this
  rw [this, get_mapVals]

/-- value and loss-of-lock digit -/
def noStrength (v : Option Rat × Int × Int) : Option Rat × Int := (v.1, v.2.1)

/-- two items with the same values and loss-of-lock digits -/
structure SameButStrength (it it' : ObsItem) : Prop where
  epoch : it'.epoch = it.epoch
  sat : it'.sat = it.sat
  xyz : it'.xyz = it.xyz
  data : mapVals noStrength it'.data = mapVals noStrength it.data
  types : it'.types = it.types

theorem values_strength {it it' : ObsItem} (h : SameButStrength it it') (P : Prm) (c : Char) (glo : Rat × Rat) (el az : Rat) (sp x l : Pos) :
    values P it' c glo el az sp x l = values P it c glo el az sp x l := by
  have hrec : ∀ F, ((parseRec it'.data).get? F).map (Option.map noStrength) = ((parseRec it.data).get? F).map (Option.map noStrength) := by
    intro F; rw [← parseRec_mapVals, ← parseRec_mapVals, h.data]
  have hv : dsVal it'.data = dsVal it.data := by
    funext F
    have := hrec F
    unfold dsVal
    cases h1 : (parseRec it'.data).get? F with
    | none => cases h2 : (parseRec it.data).get? F with
      | none => rfl
      | some b => rw [h1, h2] at this; cases this
    | some a => cases h2 : (parseRec it.data).get? F with
      | none => rw [h1, h2] at this; cases this
      | some b =>
        rw [h1, h2] at this
        cases a <;> cases b <;> simp [noStrength] at this ⊢
        exact this.1
  have hl : dsLli it'.data = dsLli it.data := by
    funext F
    have := hrec F
    unfold dsLli
    cases h1 : (parseRec it'.data).get? F with
    | none => cases h2 : (parseRec it.data).get? F with
      | none => rfl
      | some b => rw [h1, h2] at this; cases this
    | some a => cases h2 : (parseRec it.data).get? F with
      | none => rw [h1, h2] at this; cases this
      | some b =>
        rw [h1, h2] at this
        cases a <;> cases b <;> simp [noStrength] at this ⊢
        exact this.2
  have hk : it'.data.keys = it.data.keys := by rw [← keys_mapVals noStrength, ← keys_mapVals noStrength it.data, h.data]
  have hg : ∀ k, ((it'.data.get? k).map fun v => v.1) = (it.data.get? k).map fun v => v.1 := by
    intro k
    have := congrArg (Option.map Prod.fst) (congrArg (fun d => Dict.get? d k) h.data)
    simp only [get_mapVals, Option.map_map] at this
    exact this
  have hvt : validityTypes it'.data = validityTypes it.data := by
    unfold validityTypes lliType
    rw [hl, hk]
    congr 3
    refine List.filter_congr fun t _ => ?_
    · have := hg t
      cases h1 : it'.data.get? t with
      | none => cases h2 : it.data.get? t with
        | none => rfl
        | some b => rw [h1, h2] at this; cases this
      | some a => cases h2 : it.data.get? t with
        | none => rw [h1, h2] at this; cases this
        | some b =>
          rw [h1, h2] at this
          obtain ⟨a1, a2⟩ := a
          obtain ⟨b1, b2⟩ := b
          simp only [Option.map_some, Option.some.injEq] at this
          subst this
          cases a1 <;> rfl
  have hchunk : ∀ t v, chunk it'.data t v el az sp x l = chunk it.data t v el az sp x l := by
    intro t v; unfold chunk; rw [hv, hl]
  unfold values
  simp only [hv, h.types, hvt, hchunk]

theorem process_strength {it it' : ObsItem} (h : SameButStrength it it') (P : Prm) (o : ObsIn) (xyz : Dict DateTime Pos) (c : Char) (n : Int) (e : DateTime) (s : St) :
    process P o xyz it' c n e s = process P o xyz it c n e s := by
  unfold process emitStage outStage
  simp only [values_strength h, h.sat, h.xyz]

theorem admit_strength {it it' : ObsItem} (h : SameButStrength it it') (o : ObsIn) (sampling : Option Int) (last : Option DateTime) : admit o sampling last it' = admit o sampling last it := by
  unfold admit decode
  rw [h.sat, h.epoch]

theorem runItems_strength (P : Prm) (o : ObsIn) (sampling : Option Int) (xyz : Dict DateTime Pos) {its its' : List ObsItem} (h : List.Forall₂ SameButStrength its its') :
    ∀ last s, runItems P o sampling xyz its' last s = runItems P o sampling xyz its last s := by
  induction h with
  | nil => intro _ _; rfl
  | cons h _ ih =>
    intro last s
    unfold runItems
    simp only [admit_strength h, process_strength h, ih]

/-- what the program knows of two observation files is the same but for the signal strengths -/
def SameButStrengths (o o' : ObsIn) : Prop := (∃ items', o' = { o with items := items' }) ∧ List.Forall₂ SameButStrength o.items o'.items

theorem processFile_strength {o o' : ObsIn} (h : SameButStrengths o o') (P : Prm) (x : Except PyErr (Dict DateTime Pos)) (g : Glob) (fs : FS) :
    processFile P ⟨.ok o', x⟩ g fs = processFile P ⟨.ok o, x⟩ g fs := by
  obtain ⟨⟨items', rfl⟩, hi⟩ := h
  unfold processFile
  simp only [runItems_other, runItems_strength P o _ _ hi]
  rfl

theorem marks_data {f : Spec.Field → Option Rat × Int × Int} (hf : ∀ x y, SameMark x y → noStrength (f y) = noStrength (f x)) {fs fs' : List Spec.Field} (h : List.Forall₂ SameMark fs fs') :
    ∀ ts : List Str, mapVals noStrength (ts.zip (fs'.map f)) = mapVals noStrength (ts.zip (fs.map f)) := by
  induction h with
  | nil => intro _; rfl
  | cons h _ ih =>
    intro ts
    cases ts with
    | nil => rfl
    | cons t ts =>
      have := ih ts
      unfold mapVals at this ⊢
      simp only [List.map_cons, List.zip_cons_cons, hf _ _ h, this]

theorem marks_obs2 (x y : Spec.Field) (h : SameMark x y) : noStrength y.obs2 = noStrength x.obs2 := by
  cases h with
  | blank => rfl
  | val n l l' s s' z z' h => simp [Field.obs2, noStrength, h]

theorem marks_obs3 (x y : Spec.Field) (h : SameMark x y) : noStrength y.obs3 = noStrength x.obs3 := by
  cases h with
  | blank => rfl
  | val n l l' s s' z z' h => simp [Field.obs3, noStrength, h]

/-- C120, opening, RINEX 2 -/
theorem C120_open2 (D D' : Disk) (fuel : Nat) (path : Str) (file file' : List Str) (hr : ReadAs D path file) (hr' : ReadAs D' path file') (h : SameMarks2 file file') :
    ∃ o o', obsFile D fuel path = some (.ok o) ∧ obsFile D' fuel path = some (.ok o') ∧ SameButStrengths o o' := by
  obtain ⟨v, v', sys, hs, hs', ts, es, es', h1, h2, hv, hms, hpos, hto, hobs⟩ := h
  obtain ⟨o, e1, p1⟩ := C73_open2 D fuel path file v sys hs ts es hr h1
  obtain ⟨o', e2, p2⟩ := C73_open2 D' fuel path file' v' sys hs' ts es' hr' h2
  refine ⟨o, o', e1, e2, ?_, ?_⟩
  · have htimes : es.map (·.time) = es'.map (·.time) := by
      refine List.forall₂_eq_eq_eq ▸ ?_
      rw [List.forall₂_map_left_iff, List.forall₂_map_right_iff]
      exact hobs.imp fun _ _ h => h.1.symm
    apply obsIn_rest
    · rw [p2.filename, p1.filename]
    · exact fileDate_same p2.date p1.date
    · rw [p2.system, p1.system]
    · rw [p2.tofo, p1.tofo, hto]
    · rw [p2.xyz, p1.xyz, hpos]
    · obtain ⟨i, i1, i2⟩ := p1.interval
      obtain ⟨j, j1, j2⟩ := p2.interval
      rw [← htimes] at j1
      have := mostFrequent_unique i1 j1
      subst this
      refine stored_ms hv.symm (spacing_ms ?_ i (List.mem_of_mem_take i1.1)) j2 i2
      intro t ht
      obtain ⟨e, he, rfl⟩ := List.mem_map.1 ht
      exact hms e he
    · rw [p2.stop, p1.stop]
  · rw [p2.items, p1.items, ← hpos]
    refine flatMap_forall₂ hobs fun e e' he => ?_
    unfold Epoch.items
    rw [List.forall₂_map_left_iff, List.forall₂_map_right_iff]
    exact he.2.imp fun s s' hs => ⟨by simp only [he.1], by simp only [hs.sat], rfl, marks_data marks_obs2 hs.fields ts, rfl⟩

/-- C120, opening, RINEX 3 -/
theorem C120_open3 (D D' : Disk) (path : Str) (file file' : List Str) (hr : ReadAs D path file) (hr' : ReadAs D' path file') (h : SameMarks3 file file') :
    ∃ n o o', ∀ fuel, n ≤ fuel → obsFile D fuel path = some (.ok o) ∧ obsFile D' fuel path = some (.ok o') ∧ SameButStrengths o o' := by
  obtain ⟨v, sys, hs, hs', items, items', a, b, h1, h2, ha, hb, htm, hpos, hto, hobs⟩ := h
  obtain ⟨n, o, e1, p1⟩ := C73_open3 D path file v sys hs items a b hr h1
  obtain ⟨n', o', e2, p2⟩ := C73_open3 D' path file' v sys hs' items' a b hr' h2
  refine ⟨max n n', o, o', fun fuel hf => ⟨e1 fuel (le_trans (le_max_left ..) hf), e2 fuel (le_trans (le_max_right ..) hf), ?_, ?_⟩⟩
  · apply obsIn_rest
    · rw [p2.filename, p1.filename]
    · exact fileDate_same p2.date p1.date
    · rw [p2.system, p1.system]
    · rw [p2.tofo, p1.tofo, hto]
    · rw [p2.xyz, p1.xyz, hpos]
    · exact stored_ms Iff.rfl (instant_ms ha hb) p2.interval p1.interval
    · rw [p2.stop, p1.stop]
  · rw [p2.items, p1.items, ← hpos, ← htm, items3_obs, items3_obs]
    refine flatMap_forall₂ hobs fun e e' he => ?_
    rw [List.forall₂_map_left_iff, List.forall₂_map_right_iff]
    refine he.2.imp fun s s' hs => ?_
    have hsys : s'.1.sys = s.1.sys := by rw [hs.sat]
    exact ⟨by simp only [he.1], by simp only [hs.sat], rfl, by simp only [hsys]; exact marks_data marks_obs3 hs.fields _, rfl⟩

/-- C120: if the digits for the signal strength of an observation file are changed, the run is the same: the same output files, the same calls of the writer, and it ends in the same way. -/
theorem C120_run (X : Ext) (D D' : Disk) (cfg : Cfg) (fs : FS) (paths : List Str) (path : Str) (file file' : List Str) (hn : PlainNames D cfg.obsDir)
    (hf : InputFiles D cfg.obsDir paths) (hnav : FileNames D cfg.navDir) (hd : Elsewhere D D' path) (hr : ReadAs D path file) (hr' : ReadAs D' path file')
    (h : SameMarks2 file file' ∨ SameMarks3 file file') :
    ∃ n, ∀ fuel, n ≤ fuel → program X D' cfg fuel fs = program X D cfg fuel fs := by
  rcases h with h | h
  · refine ⟨0, fun fuel _ => program_alike X D D' cfg fs paths path file hn hf hnav hd hr fuel ?_⟩
    obtain ⟨o, o', e1, e2, e3⟩ := C120_open2 D D' fuel path file file' hr hr' h
    exact ⟨o, o', e1, e2, fun P x g fs => processFile_strength e3 P x g fs⟩
  · obtain ⟨n, o, o', h⟩ := C120_open3 D D' path file file' hr hr' h
    refine ⟨n, fun fuel hfu => program_alike X D D' cfg fs paths path file hn hf hnav hd hr fuel ?_⟩
    obtain ⟨e1, e2, e3⟩ := h fuel hfu
    exact ⟨o, o', e1, e2, fun P x g fs => processFile_strength e3 P x g fs⟩

end Verif.Props

namespace Verif.Props.ProgEx
open Verif.Py Verif.Spec Verif.Model Verif.Proofs

/-- other digits for the signal strength, loss-of-lock digits 0 instead of blanks -/
def satS (c : Char) (n : Nat) (x : Int) : SatId × List Spec.Field := (⟨c, n, true⟩, [.val x (some 0) (some 3), .blank, .val (-x) (some 1) (some 9)])

def epochS (s : Nat) : Epoch := { epoch s with sats := [satS 'G' 1 123456, satS 'R' 24 99] }

theorem epochS_ok {s : Nat} (h : s < 60) : (epochS s).Ok 3 := by
  obtain ⟨a, b, c, d, e, f⟩ := epoch_ok h
  refine ⟨a, b, c, d, (by decide : 2 < 1000), fun s' hs => ?_⟩
  have hs : s' ∈ [satS 'G' 1 123456, satS 'R' 24 99] := hs
  simp only [List.mem_cons, List.not_mem_nil, or_false] at hs
  rcases hs with rfl | rfl
  · refine ⟨(f (exSat 'G' 1 123456) (by simp [epoch])).1, rfl, fun y hy => ?_⟩
    simp only [satS, List.mem_cons, List.not_mem_nil, or_false] at hy
    rcases hy with rfl | rfl | rfl
    · exact ⟨by decide +kernel, by simp, by simp⟩
    · trivial
    · exact ⟨by decide +kernel, by simp, by simp⟩
  · refine ⟨(f (exSat 'R' 24 99) (by simp [epoch])).1, rfl, fun y hy => ?_⟩
    simp only [satS, List.mem_cons, List.not_mem_nil, or_false] at hy
    rcases hy with rfl | rfl | rfl
    · exact ⟨by decide +kernel, by simp, by simp⟩
    · trivial
    · exact ⟨by decide +kernel, by simp, by simp⟩

def obsLinesS : List Str :=
  [HLine.render 211 (.version 211 'O' 'M' obsWords), HLine.render 211 (.firstObs ⟨2017, 1, 2, 3, 4, 0, 0⟩ 0 (c% "GPS")), HLine.render 211 (.position 10000 20000 30000)] ++
    typeLines exTypes ++ [] ++ hline [] lblEnd :: bodyLines [.obs (epochS 0), .obs (epochS 30)]

theorem strength2 : File2 obsLinesS 211 'M' head exTypes [epochS 0, epochS 30] where
  version := by decide
  text := by
    refine ⟨[HLine.render 211 (.version 211 'O' 'M' obsWords), HLine.render 211 (.firstObs ⟨2017, 1, 2, 3, 4, 0, 0⟩ 0 (c% "GPS")), HLine.render 211 (.position 10000 20000 30000)],
      typeLines exTypes, [], head, [], 'O', obsWords, hline [] lblEnd, bodyLines [.obs (epochS 0), .obs (epochS 30)], [.obs (epochS 0), .obs (epochS 30)],
      by decide, by decide, by decide, rfl, rfl, typeText_refl _, ?_, trivial, by decide +kernel, by decide +kernel, by decide +kernel, written_refl _, rfl, ?_⟩
    · exact ⟨⟨[], by simp, by simp⟩, ⟨[], by simp, by simp⟩, ⟨[], by simp, by simp⟩, trivial⟩
    · intro i hi
      simp only [List.mem_cons, List.not_mem_nil, or_false] at hi
      rcases hi with rfl | rfl
      · exact ⟨epochS_ok (by decide), fun _ h => nomatch h⟩
      · exact ⟨epochS_ok (by decide), fun _ h => nomatch h⟩
  header := C73_hypotheses.header
  types := C73_hypotheses.types
  epochs := by
    intro e he
    simp only [List.mem_cons, List.not_mem_nil, or_false] at he
    rcases he with rfl | rfl
    · simp [epochS]
    · simp [epochS]
  two := by decide
  increasing := by decide +kernel
  span := by decide +kernel

/-- the files of the example differ in the digits for the signal strength -/
theorem C120_hypotheses : SameMarks2 obsLines obsLinesS := by
  refine ⟨211, 211, 'M', head, head, exTypes, _, _, C73_hypotheses, strength2, Iff.rfl, ?_, rfl, rfl, ?_⟩
  · intro e he
    simp only [List.mem_cons, List.not_mem_nil, or_false] at he
    rcases he with rfl | rfl <;> rfl
  · have h1 : ∀ c n x, SameMarks (exSat c n x) (satS c n x) := fun c n x => ⟨rfl, .cons (.val _ _ _ _ _ _ _ rfl) (.cons .blank (.cons (.val _ _ _ _ _ _ _ rfl) .nil))⟩
    have h : ∀ s, (epochS s).time = (epoch s).time ∧ List.Forall₂ SameMarks (epoch s).sats (epochS s).sats := fun s => ⟨rfl, .cons (h1 ..) (.cons (h1 ..) .nil)⟩
    exact .cons (h 0) (.cons (h 30) .nil)

def diskS : Disk := { disk with lines := fun f p => if f = .plain ∧ p = obsPath then .ok obsLinesS else disk.lines f p }

/-- the two runs, by calculation -/
theorem C120_example : ((program ext diskS cfg 5 []).map fun r => (r.err, r.fs)) = (program ext disk cfg 5 []).map fun r => (r.err, r.fs) := by decide +kernel

end Verif.Props.ProgEx
