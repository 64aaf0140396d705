import Verif.Spec.OtherDays
import Verif.Props.Foreign
/-!
# Epochs of other days (C121)
-/
namespace Verif.Props
open Verif.Py Verif.Model Verif.Spec Verif.Proofs

/-- an item of the day of the file -/
def today (o : ObsIn) (it : ObsItem) : Bool := it.epoch.any fun t => decide (some t.date = o.fileDate)

theorem admit_otherDay {o : ObsIn} {it : ObsItem} (hf : today o it = false) (hd : ∃ r, decode it = .ok r) (sampling : Option Int) (last : Option DateTime) : admit o sampling last it = .ok none := by
  obtain ⟨⟨c, n, e⟩, hd⟩ := hd
  have he : it.epoch = some e := by
    unfold decode at hd
    cases hs : it.sat with
    | nil => rw [hs] at hd; cases hd
    | cons x r =>
      rw [hs] at hd
      simp only at hd
      cases hp : pyInt r with
      | error er => rw [hp] at hd; cases hd
      | ok m =>
        rw [hp] at hd
        simp only at hd
        cases he : it.epoch with
        | none => rw [he] at hd; cases hd
        | some e' => rw [he] at hd; cases hd; rfl
  unfold admit
  rw [hd]
  unfold today at hf
  rw [he] at hf
  have : some e.date ≠ o.fileDate := by simpa using hf
  simp only [if_pos this]
  split <;> rfl

theorem runItems_today (P : Prm) (o : ObsIn) (sampling : Option Int) (xyz : Dict DateTime Pos) (its : List ObsItem) (hd : ∀ it ∈ its, ∃ r, decode it = .ok r) :
    ∀ last s, runItems P o sampling xyz its last s = runItems P o sampling xyz (its.filter (today o)) last s := by
  induction its with
  | nil => intro _ _; rfl
  | cons it its ih =>
    intro last s
    have ih := ih fun i hi => hd i (by simp [hi])
    cases h : today o it with
    | true =>
      rw [List.filter_cons_of_pos h]
      unfold runItems
      simp only [ih]
    | false =>
      rw [List.filter_cons_of_neg (by simp [h])]
      rw [← ih]
      conv_lhs => unfold runItems
      rw [admit_otherDay h (hd it (by simp))]

/-- what the program knows of two observation files is the same but for the items of other days -/
structure SameToday (o o' : ObsIn) : Prop where
  rest : ∃ items', o' = { o with items := items' }
  items : o'.items.filter (today o) = o.items.filter (today o)
  named : ∀ it ∈ o.items ++ o'.items, ∃ r, decode it = .ok r

theorem processFile_today {o o' : ObsIn} (h : SameToday o o') (P : Prm) (x : Except PyErr (Dict DateTime Pos)) (g : Glob) (fs : FS) :
    processFile P ⟨.ok o', x⟩ g fs = processFile P ⟨.ok o, x⟩ g fs := by
  obtain ⟨⟨items', rfl⟩, hi, hd⟩ := h
  have hi : items'.filter (today o) = o.items.filter (today o) := hi
  unfold processFile
  simp only [runItems_other, runItems_today P o _ _ items' (fun i h => hd i (by simp [h])), runItems_today P o _ _ o.items (fun i h => hd i (by simp [h])), hi]
  rfl

/-- the items of the day are those of the observations of the day -/
theorem today_items {path : Str} {o : ObsIn} (hdate : ∀ d, o.fileDate = some d ↔ NamedDay path d) {l obs : List (DateTime × List (SatId × List Spec.Field))} (h : OfDay path l obs)
    (f : DateTime → SatId × List Spec.Field → ObsItem) (hf : ∀ t s, (f t s).epoch = some t) :
    (l.flatMap fun e => e.2.map (f e.1)).filter (today o) = obs.flatMap fun e => e.2.map (f e.1) := by
  obtain ⟨day, hday, rfl⟩ := h
  have hd : ∀ t s, today o (f t s) = day t := by
    intro t s
    unfold today
    rw [hf]
    rw [Bool.eq_iff_iff, hday, ← hdate]
    simp [eq_comm]
  induction l with
  | nil => rfl
  | cons e l ih =>
    rw [List.flatMap_cons, List.filter_append, ih]
    have : (e.2.map (f e.1)).filter (today o) = if day e.1 then e.2.map (f e.1) else [] := by
      split
      · next h => rw [List.filter_eq_self.2]; intro it hi; obtain ⟨s, _, rfl⟩ := List.mem_map.1 hi; rw [hd, h]
      · next h => rw [List.filter_eq_nil_iff.2]; intro it hi; obtain ⟨s, _, rfl⟩ := List.mem_map.1 hi; rw [hd]; exact h
    rw [this]
    by_cases h : day e.1 = true
    · rw [if_pos h, List.filter_cons_of_pos (p := fun e : DateTime × List (SatId × List Spec.Field) => day e.1) h, List.flatMap_cons]
    · rw [if_neg h, List.filter_cons_of_neg (p := fun e : DateTime × List (SatId × List Spec.Field) => day e.1) h, List.nil_append]

theorem items2_obs (ts : List Str) (p : Pos) (es : List Epoch) : es.flatMap (Epoch.items ts p) = (es.map fun e => (e.time, e.sats)).flatMap
    fun q => q.2.map fun s => ⟨some q.1, s.1.name, ts.zip (s.2.map Field.obs2), p, fun _ => some ts⟩ := by
  rw [List.flatMap_map]; rfl

/-- C121, opening, RINEX 2 -/
theorem C121_open2 (D D' : Disk) (fuel : Nat) (path : Str) (file file' : List Str) (hr : ReadAs D path file) (hr' : ReadAs D' path file') (h : SameDay2 path file file') :
    ∃ o o', obsFile D fuel path = some (.ok o) ∧ obsFile D' fuel path = some (.ok o') ∧ SameToday o o' := by
  obtain ⟨v, v', sys, hs, hs', ts, es, es', h1, h2, hv, hms, hpos, hto, ⟨k, k1, k2⟩, obs, hobs, hobs'⟩ := h
  obtain ⟨o, e1, p1⟩ := C73_open2 D fuel path file v sys hs ts es hr h1
  obtain ⟨o', e2, p2⟩ := C73_open2 D' fuel path file' v' sys hs' ts es' hr' h2
  refine ⟨o, o', e1, e2, ?_, ?_, ?_⟩
  · apply obsIn_rest
    · rw [p2.filename, p1.filename]
    · exact fileDate_same p2.date p1.date
    · rw [p2.system, p1.system]
    · rw [p2.tofo, p1.tofo, hto]
    · rw [p2.xyz, p1.xyz, hpos]
    · obtain ⟨i, i1, i2⟩ := p1.interval
      obtain ⟨j, j1, j2⟩ := p2.interval
      have hi := mostFrequent_unique i1 k1
      have hj := mostFrequent_unique j1 k2
      subst hi
      subst hj
      refine stored_ms hv.symm (spacing_ms ?_ _ (List.mem_of_mem_take i1.1)) j2 i2
      intro t ht
      obtain ⟨e, he, rfl⟩ := List.mem_map.1 ht
      exact hms e he
    · rw [p2.stop, p1.stop]
  · rw [p2.items, p1.items, ← hpos, items2_obs, items2_obs]
    let f : DateTime → SatId × List Spec.Field → ObsItem := fun t s => ⟨some t, s.1.name, ts.zip (s.2.map Field.obs2), sitePos hs, fun _ => some ts⟩
    exact (today_items p1.date hobs' f fun _ _ => rfl).trans (today_items p1.date hobs f fun _ _ => rfl).symm
  · intro it hi
    rcases List.mem_append.1 hi with hi | hi
    · rw [p1.items] at hi
      exact items2_named h1 _ it hi
    · rw [p2.items] at hi
      exact items2_named h2 _ it hi

/-- C121, opening, RINEX 3 -/
theorem C121_open3 (D D' : Disk) (path : Str) (file file' : List Str) (hr : ReadAs D path file) (hr' : ReadAs D' path file') (h : SameDay3 path file file') :
    ∃ n o o', ∀ fuel, n ≤ fuel → obsFile D fuel path = some (.ok o) ∧ obsFile D' fuel path = some (.ok o') ∧ SameToday o o' := by
  obtain ⟨v, sys, hs, hs', items, items', a, b, a', b', h1, h2, ha, hb, htm, hpos, hto, hi, obs, hobs, hobs'⟩ := h
  obtain ⟨n, o, e1, p1⟩ := C73_open3 D path file v sys hs items a b hr h1
  obtain ⟨n', o', e2, p2⟩ := C73_open3 D' path file' v sys hs' items' a' b' hr' h2
  refine ⟨max n n', o, o', fun fuel hf => ⟨e1 fuel (le_trans (le_max_left ..) hf), e2 fuel (le_trans (le_max_right ..) hf), ?_, ?_, ?_⟩⟩
  · apply obsIn_rest
    · rw [p2.filename, p1.filename]
    · exact fileDate_same p2.date p1.date
    · rw [p2.system, p1.system]
    · rw [p2.tofo, p1.tofo, hto]
    · rw [p2.xyz, p1.xyz, hpos]
    · have := p2.interval
      rw [hi] at this
      exact stored_ms Iff.rfl (instant_ms ha hb) this p1.interval
    · rw [p2.stop, p1.stop]
  · rw [p2.items, p1.items, ← hpos, ← htm, items3_obs, items3_obs]
    let f : DateTime → SatId × List Spec.Field → ObsItem :=
      fun t s => ⟨some t, s.1.name3, (((typeMapOf v hs).of s.1.sys).getD []).zip (s.2.map Field.obs3), sitePos (linesOf hs), (typeMapOf v hs).of⟩
    exact (today_items p1.date hobs' f fun _ _ => rfl).trans (today_items p1.date hobs f fun _ _ => rfl).symm
  · intro it hi
    rcases List.mem_append.1 hi with hi | hi
    · rw [p1.items] at hi
      exact items3_named h1 _ _ it hi
    · rw [p2.items] at hi
      exact items3_named h2 _ _ it hi

/-- C121: if epochs of other days than the one in the name of an observation file are added, removed or changed, and the interval stays, the run is the same: the same output files, the same
calls of the writer, and it ends in the same way. -/
theorem C121_run (X : Ext) (D D' : Disk) (cfg : Cfg) (fs : FS) (paths : List Str) (path : Str) (file file' : List Str) (hn : PlainNames D cfg.obsDir)
    (hf : InputFiles D cfg.obsDir paths) (hnav : FileNames D cfg.navDir) (hd : Elsewhere D D' path) (hr : ReadAs D path file) (hr' : ReadAs D' path file')
    (h : SameDay2 path file file' ∨ SameDay3 path file file') :
    ∃ n, ∀ fuel, n ≤ fuel → program X D' cfg fuel fs = program X D cfg fuel fs := by
  rcases h with h | h
  · refine ⟨0, fun fuel _ => program_alike X D D' cfg fs paths path file hn hf hnav hd hr fuel ?_⟩
    obtain ⟨o, o', e1, e2, e3⟩ := C121_open2 D D' fuel path file file' hr hr' h
    exact ⟨o, o', e1, e2, fun P x g fs => processFile_today e3 P x g fs⟩
  · obtain ⟨n, o, o', h⟩ := C121_open3 D D' path file file' hr hr' h
    refine ⟨n, fun fuel hfu => program_alike X D D' cfg fs paths path file hn hf hnav hd hr fuel ?_⟩
    obtain ⟨e1, e2, e3⟩ := h fuel hfu
    exact ⟨o, o', e1, e2, fun P x g fs => processFile_today e3 P x g fs⟩

end Verif.Props

namespace Verif.Props.ProgEx
open Verif.Py Verif.Spec Verif.Model Verif.Proofs

/-- an epoch 23 hours later: the next day -/
def epochN : Epoch := { epoch 0 with time := ⟨2017, 1, 3, 2, 4, 0, 0⟩ }

theorem epochN_ok : epochN.Ok 3 := by
  obtain ⟨_, _, c, d, e, f⟩ := epoch_ok (s := 0) (by decide)
  exact ⟨(legal_iff _).2 ⟨(by decide : validDate 2017 1 3), (by decide : 2 ≤ 23), (by decide : 4 ≤ 59), (by decide : 0 ≤ 59), (by decide : 0 ≤ 999999)⟩,
    ⟨(by decide : 1989 ≤ 2017), (by decide : 2017 ≤ 2088)⟩, c, d, e, f⟩

def obsLinesN : List Str :=
  [HLine.render 211 (.version 211 'O' 'M' obsWords), HLine.render 211 (.firstObs ⟨2017, 1, 2, 3, 4, 0, 0⟩ 0 (c% "GPS")), HLine.render 211 (.position 10000 20000 30000)] ++
    typeLines exTypes ++ [] ++ hline [] lblEnd :: bodyLines [.obs (epoch 0), .obs (epoch 30), .obs epochN]

theorem otherDay2 : File2 obsLinesN 211 'M' head exTypes [epoch 0, epoch 30, epochN] where
  version := by decide
  text := by
    refine ⟨[HLine.render 211 (.version 211 'O' 'M' obsWords), HLine.render 211 (.firstObs ⟨2017, 1, 2, 3, 4, 0, 0⟩ 0 (c% "GPS")), HLine.render 211 (.position 10000 20000 30000)],
      typeLines exTypes, [], head, [], 'O', obsWords, hline [] lblEnd, bodyLines [.obs (epoch 0), .obs (epoch 30), .obs epochN], [.obs (epoch 0), .obs (epoch 30), .obs epochN],
      by decide, by decide, by decide, rfl, rfl, typeText_refl _, ?_, trivial, by decide +kernel, by decide +kernel, by decide +kernel, written_refl _, rfl, ?_⟩
    · exact ⟨⟨[], by simp, by simp⟩, ⟨[], by simp, by simp⟩, ⟨[], by simp, by simp⟩, trivial⟩
    · intro i hi
      simp only [List.mem_cons, List.not_mem_nil, or_false] at hi
      rcases hi with rfl | rfl | rfl
      · exact ⟨epoch_ok (by decide), fun _ h => nomatch h⟩
      · exact ⟨epoch_ok (by decide), fun _ h => nomatch h⟩
      · exact ⟨epochN_ok, fun _ h => nomatch h⟩
  header := C73_hypotheses.header
  types := C73_hypotheses.types
  epochs := by
    intro e he
    simp only [List.mem_cons, List.not_mem_nil, or_false] at he
    rcases he with rfl | rfl | rfl
    · simp [epoch]
    · simp [epoch]
    · simp [epochN, epoch]
  two := by decide
  increasing := by decide +kernel
  span := by decide +kernel

/-- the files of the example differ in an epoch of the next day -/
theorem C121_hypotheses : SameDay2 obsPath obsLines obsLinesN := by
  refine ⟨211, 211, 'M', head, head, exTypes, _, _, C73_hypotheses, otherDay2, Iff.rfl, ?_, rfl, rfl, ⟨30000000, by unfold MostFrequent; decide +kernel, by unfold MostFrequent; decide +kernel⟩,
    [((epoch 0).time, (epoch 0).sats), ((epoch 30).time, (epoch 30).sats)], ?_⟩
  · intro e he
    simp only [List.mem_cons, List.not_mem_nil, or_false] at he
    rcases he with rfl | rfl <;> rfl
  · have h : ∀ t : DateTime, decide (t.date = ⟨2017, 1, 2⟩) = true ↔ NamedDay obsPath t.date := by
      intro t
      rw [← namedDay_iff obsPath _ ⟨_, last⟩, show getRinexDate obsPath = some ⟨2017, 1, 2⟩ from by decide +kernel]
      simp [eq_comm]
    exact ⟨⟨_, h, rfl⟩, ⟨_, h, rfl⟩⟩

def diskN : Disk := { disk with lines := fun f p => if f = .plain ∧ p = obsPath then .ok obsLinesN else disk.lines f p }

/-- the two runs, by calculation -/
theorem C121_example : ((program ext diskN cfg 5 []).map fun r => (r.err, r.fs)) = (program ext disk cfg 5 []).map fun r => (r.err, r.fs) := by decide +kernel

end Verif.Props.ProgEx
