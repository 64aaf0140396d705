import Verif.Spec.ObsSame
import Verif.Props.Tail
import Verif.Props.NavSame
/-!
# Observation files with the same contents (C113)
-/
namespace Verif.Props
open Verif.Py Verif.Model Verif.Spec Verif.Proofs

theorem stored_ms {v v' : Nat} {i : Int} {p q : Rat} (hv : v = 200 ↔ v' = 200) (hi : 1000 ∣ i) (hp : Stored v i (.fin p)) (hq : Stored v' i (.fin q)) : p = q := by
  obtain ⟨m, a1, a2, a3⟩ := hp
  obtain ⟨n, b1, b2, b3⟩ := hq
  obtain ⟨k, rfl⟩ := hi
  have h1 : m = k := by omega
  have h2 : n = k := by omega
  subst h1 h2
  cases a3; cases b3; simp only [hv]

theorem instant_ms {s t : DateTime} (hs : WholeMs s) (ht : WholeMs t) : (1000 : Int) ∣ instant t - instant s := by
  have key : ∀ x : DateTime, WholeMs x → (1000 : Int) ∣ instant x := by
    intro x hx
    unfold WholeMs at hx
    unfold instant instantOf
    refine Int.dvd_add (Int.dvd_add (Int.dvd_add (Int.dvd_add ?_ ?_) ?_) ?_) ?_
    · exact Dvd.dvd.mul_left ⟨86400000, by norm_num⟩ _
    · exact Dvd.dvd.mul_left ⟨3600000, by norm_num⟩ _
    · exact Dvd.dvd.mul_left ⟨60000, by norm_num⟩ _
    · exact Dvd.dvd.mul_left ⟨1000, by norm_num⟩ _
    · omega
  exact Int.dvd_sub (key t ht) (key s hs)

theorem spacing_ms {l : List DateTime} (h : ∀ t ∈ l, WholeMs t) : ∀ i ∈ spacings l, (1000 : Int) ∣ i := by
  intro i hi
  unfold spacings at hi
  simp only [List.mem_map, List.mem_filter] at hi
  obtain ⟨⟨a, b⟩, ⟨hm, -⟩, rfl⟩ := hi
  have := List.of_mem_zip hm
  exact instant_ms (h a this.1) (h b (List.mem_of_mem_tail this.2))

theorem fileDate_same {path : Str} {o o' : ObsIn} (h : ∀ d, o.fileDate = some d ↔ NamedDay path d) (h' : ∀ d, o'.fileDate = some d ↔ NamedDay path d) :
    o.fileDate = o'.fileDate := by
  cases ho : o.fileDate with
  | none =>
    cases ho' : o'.fileDate with
    | none => rfl
    | some d => rw [(h d).2 ((h' d).1 ho')] at ho; cases ho
  | some d => exact ((h' d).2 ((h d).1 ho)).symm

theorem obsIn_ext {o o' : ObsIn} (h1 : o.filename = o'.filename) (h2 : o.fileDate = o'.fileDate) (h3 : o.system = o'.system) (h4 : o.tofo = o'.tofo) (h5 : o.xyz = o'.xyz)
    (h6 : o.interval = o'.interval) (h7 : o.items = o'.items) (h8 : o.stop = o'.stop) : o = o' := by
  cases o; cases o'; simp_all

theorem items2_same (ts : List Str) (p : Pos) : ∀ (es es' : List Epoch), es.map (fun e => (e.time, e.sats)) = es'.map (fun e => (e.time, e.sats)) →
    es.flatMap (Epoch.items ts p) = es'.flatMap (Epoch.items ts p) := by
  intro es es' h
  have : ∀ l : List Epoch, l.flatMap (Epoch.items ts p) = (l.map fun e => (e.time, e.sats)).flatMap
      fun q => q.2.map fun s => ⟨some q.1, s.1.name, ts.zip (s.2.map Field.obs2), p, fun _ => some ts⟩ := by
    intro l
    rw [List.flatMap_map]
    rfl
  rw [this, this, h]

/-- C113, opening, RINEX 2 -/
theorem C113_open2 (D D' : Disk) (fuel : Nat) (path : Str) (file file' : List Str) (hr : ReadAs D path file) (hr' : ReadAs D' path file') (h : SameObs2 file file') :
    obsFile D' fuel path = obsFile D fuel path := by
  obtain ⟨v, v', sys, hs, hs', ts, es, es', h1, h2, hv, hms, hpos, hto, hobs⟩ := h
  obtain ⟨o, e1, p1⟩ := C73_open2 D fuel path file v sys hs ts es hr h1
  obtain ⟨o', e2, p2⟩ := C73_open2 D' fuel path file' v' sys hs' ts es' hr' h2
  rw [e1, e2]
  have htimes : es.map (·.time) = es'.map (·.time) := by
    have := congrArg (List.map Prod.fst) hobs
    simpa [List.map_map, Function.comp_def] using this
  congr 2
  apply obsIn_ext
  · rw [p2.filename, p1.filename]
  · exact fileDate_same p2.date p1.date
  · rw [p2.system, p1.system]
  · rw [p2.tofo, p1.tofo, hto]
  · rw [p2.xyz, p1.xyz, hpos]
  · obtain ⟨i, i1, i2⟩ := p1.interval
    obtain ⟨j, j1, j2⟩ := p2.interval
    rw [← htimes] at j1
    have := mostFrequent_unique i1 j1
    subst this
    refine stored_ms hv.symm (spacing_ms ?_ i (List.mem_of_mem_take i1.1)) j2 i2
    intro t ht
    obtain ⟨e, he, rfl⟩ := List.mem_map.1 ht
    exact hms e he
  · rw [p2.items, p1.items, ← hpos]
    exact (items2_same ts _ es es' hobs).symm
  · rw [p2.stop, p1.stop]

theorem items3_obs (m : TypeMap) (p : Pos) (items : List Item3) : items.flatMap (Item3.items m p) = (obsOf3 items).flatMap
    fun q => q.2.map fun s => ⟨some q.1, s.1.name3, ((m.of s.1.sys).getD []).zip (s.2.map Field.obs3), p, m.of⟩ := by
  induction items with
  | nil => rfl
  | cons i items ih =>
    cases i with
    | obs e => simp only [List.flatMap_cons, obsOf3, List.filterMap_cons, ih]; rfl
    | event e => simp only [List.flatMap_cons, obsOf3, List.filterMap_cons, ih]; rfl

/-- C113, opening, RINEX 3 -/
theorem C113_open3 (D D' : Disk) (path : Str) (file file' : List Str) (hr : ReadAs D path file) (hr' : ReadAs D' path file') (h : SameObs3 file file') :
    ∃ n, ∀ fuel, n ≤ fuel → obsFile D' fuel path = obsFile D fuel path := by
  obtain ⟨v, sys, hs, hs', items, items', a, b, h1, h2, ha, hb, htm, hpos, hto, hobs⟩ := h
  obtain ⟨n, o, e1, p1⟩ := C73_open3 D path file v sys hs items a b hr h1
  obtain ⟨n', o', e2, p2⟩ := C73_open3 D' path file' v sys hs' items' a b hr' h2
  refine ⟨max n n', fun fuel hf => ?_⟩
  rw [e1 fuel (le_trans (le_max_left ..) hf), e2 fuel (le_trans (le_max_right ..) hf)]
  congr 2
  apply obsIn_ext
  · rw [p2.filename, p1.filename]
  · exact fileDate_same p2.date p1.date
  · rw [p2.system, p1.system]
  · rw [p2.tofo, p1.tofo, hto]
  · rw [p2.xyz, p1.xyz, hpos]
  · exact stored_ms Iff.rfl (instant_ms ha hb) p2.interval p1.interval
  · rw [p2.items, p1.items, ← hpos, ← htm, items3_obs, items3_obs, hobs]
  · rw [p2.stop, p1.stop]

/-- C113: if an observation file is written anew with the same contents, the run is the same: the same output files, the same calls of the writer, and it ends in the same
way. -/
theorem C113_run (X : Ext) (D D' : Disk) (cfg : Cfg) (fs : FS) (paths : List Str) (path : Str) (file file' : List Str) (hn : PlainNames D cfg.obsDir)
    (hf : InputFiles D cfg.obsDir paths) (hnav : FileNames D cfg.navDir) (hd : Elsewhere D D' path) (hr : ReadAs D path file) (hr' : ReadAs D' path file')
    (h : SameObs2 file file' ∨ SameObs3 file file') :
    ∃ n, ∀ fuel, n ≤ fuel → program X D' cfg fuel fs = program X D cfg fuel fs := by
  have hopen : ∃ n, ∀ fuel, n ≤ fuel → obsFile D' fuel path = obsFile D fuel path := by
    rcases h with h | h
    · exact ⟨0, fun fuel _ => C113_open2 D D' fuel path file file' hr hr' h⟩
    · exact C113_open3 D D' path file file' hr hr' h
  obtain ⟨n, hopen⟩ := hopen
  refine ⟨n, fun fuel hfu => ?_⟩
  obtain ⟨name, hat, comp, hl, ho⟩ : ∃ name hat comp, LastComponent path name ∧ ObsName name hat comp := by
    obtain ⟨dir, name, hat, comp, hp, ho, -⟩ := hr.treated
    have hs : '/' ∉ name := (obsName_word ho).2
    exact ⟨name, hat, comp, ⟨hs, hp.imp id fun h => ⟨dir, h.1⟩⟩, ho⟩
  have hfile : ∀ p b, fileIn D' fuel b p = fileIn D fuel b p := by
    intro p b
    unfold fileIn
    rw [xyz_elsewhere hd hl ho]
    by_cases hp : p = path
    · subst hp; rw [hopen fuel hfu]
    · rw [obs_elsewhere hd fuel hp]
  unfold program
  rw [obsFiles_elsewhere hd, someXyz_elsewhere hd, (C72_files D cfg paths hn).2 hf, prm_elsewhere X hd hl ho hnav]
  cases paths with
  | nil => rfl
  | cons p ps =>
    simp only
    rw [allOf_congr fun a _ => hfile a (someXyz D cfg)]

end Verif.Props

namespace Verif.Props.ProgEx
open Verif.Py Verif.Spec Verif.Model Verif.Proofs

/-- another fraction below the microsecond, and a clock offset -/
def epoch' (s : Nat) : Epoch := { epoch s with sub := 7, tail := c% " -0.123456789" }

theorem epoch'_ok {s : Nat} (h : s < 60) : (epoch' s).Ok 3 := by
  obtain ⟨a, b, -, c, d, e⟩ := epoch_ok h
  exact ⟨a, b, (by decide : 7 < 10), c, d, e⟩

def head' : List HLine := [.other (hline (c% "another program") (c% "COMMENT")), .position 10000 20000 30000, .firstObs ⟨2017, 1, 2, 3, 4, 0, 0⟩ 5 (c% "GPS")]

/-- the file of the example in version 2.10, without the comment between the epochs, with a comment in the header, the lines of the header in another order and white space behind one of them -/
def obsLines' : List Str :=
  [HLine.render 210 (.version 210 'O' 'M' obsWords) ++ [' ', '\n'], HLine.render 210 (.other (hline (c% "another program") (c% "COMMENT"))),
   HLine.render 210 (.position 10000 20000 30000)] ++
    typeLines exTypes ++ [HLine.render 210 (.firstObs ⟨2017, 1, 2, 3, 4, 0, 0⟩ 5 (c% "GPS"))] ++ hline [] lblEnd :: bodyLines [.obs (epoch' 0), .obs (epoch' 30)]

theorem rewritten2 : File2 obsLines' 210 'M' head' exTypes [epoch' 0, epoch' 30] where
  version := by decide
  text := by
    refine ⟨[HLine.render 210 (.version 210 'O' 'M' obsWords) ++ [' ', '\n'], HLine.render 210 (.other (hline (c% "another program") (c% "COMMENT"))), HLine.render 210 (.position 10000 20000 30000)],
      typeLines exTypes, [HLine.render 210 (.firstObs ⟨2017, 1, 2, 3, 4, 0, 0⟩ 5 (c% "GPS"))],
      [.other (hline (c% "another program") (c% "COMMENT")), .position 10000 20000 30000], [.firstObs ⟨2017, 1, 2, 3, 4, 0, 0⟩ 5 (c% "GPS")], 'O', obsWords, hline [] lblEnd,
      bodyLines [.obs (epoch' 0), .obs (epoch' 30)], [.obs (epoch' 0), .obs (epoch' 30)],
      by decide, by decide, by decide, rfl, rfl, typeText_refl _, ?_, ?_, by decide +kernel, by decide +kernel, by decide +kernel, written_refl _, rfl, ?_⟩
    · exact ⟨⟨[' ', '\n'], rfl, by decide⟩, ⟨[], by simp, by simp⟩, ⟨[], by simp, by simp⟩, trivial⟩
    · exact ⟨⟨[], by simp, by simp⟩, trivial⟩
    · intro i hi
      simp only [List.mem_cons, List.not_mem_nil, or_false] at hi
      rcases hi with rfl | rfl
      · exact ⟨epoch'_ok (by decide), fun _ h => nomatch h⟩
      · exact ⟨epoch'_ok (by decide), fun _ h => nomatch h⟩
  header := by
    intro h hh
    simp only [head', List.mem_cons, List.not_mem_nil, or_false] at hh
    rcases hh with rfl | rfl | rfl
    · show _ ∉ _
      decide +kernel
    · show ∀ n ∈ _, _
      decide +kernel
    · exact ⟨legal0, (by decide : 100 ≤ 2017), by decide, rfl⟩
  types := by decide
  epochs := by
    intro e he
    simp only [List.mem_cons, List.not_mem_nil, or_false] at he
    rcases he with rfl | rfl
    · simp [epoch', epoch]
    · simp [epoch', epoch]
  two := by decide
  increasing := by decide +kernel
  span := by decide +kernel

def diskO : Disk := { disk with lines := fun f p => if f = .plain ∧ p = obsPath then .ok obsLines' else disk.lines f p }

theorem C113_hypotheses : SameObs2 obsLines obsLines' ∧ obsLines' ≠ obsLines ∧ Elsewhere disk diskO obsPath ∧ ReadAs disk obsPath obsLines ∧ ReadAs diskO obsPath obsLines' := by
  refine ⟨⟨211, 210, 'M', head, head', exTypes, _, _, C73_hypotheses, rewritten2, by decide, ?_, by decide +kernel, by decide +kernel, rfl⟩, by decide +kernel, ⟨fun _ => rfl, fun _ => rfl, ?_⟩, readAs, ?_⟩
  · intro e he
    simp only [List.mem_cons, List.not_mem_nil, or_false] at he
    rcases he with rfl | rfl <;> rfl
  · intro k p hp
    simp [diskO, hp]
  · exact ⟨by decide, c% "d", c% "irkj0020.17o", false, false, .inr ⟨rfl, no_slash_mark⟩, obsName, rfl⟩

/-- the run over the rewritten file is the run of C77 -/
theorem C113_example : ∃ n, ∀ fuel, n ≤ fuel → program ext diskO cfg fuel [] = program ext disk cfg fuel [] :=
  C113_run ext disk diskO cfg [] [obsPath] obsPath obsLines obsLines' plain inputs (by
    intro d hd l hl n hn
    have hd : d ∈ [c% "n"] := hd
    rw [List.mem_singleton] at hd
    subst hd
    have hl : Except.ok [c% "BRDC00IGS_R_20170020000_01D_MN.rnx"] = Except.ok l := hl
    cases hl
    revert n
    decide) C113_hypotheses.2.2.1 C113_hypotheses.2.2.2.1 C113_hypotheses.2.2.2.2 (.inl C113_hypotheses.1)

end Verif.Props.ProgEx
