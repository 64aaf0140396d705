import Verif.Props.ArchiveSky
import Verif.Props.ProgramExamples
/-!
# C107: an archive

A station on the equator; an observation of R24 at the time of its navigation message, and one of G01, for which there is no message.
-/
namespace Verif.Props
open Verif.Py Verif.Model Verif.Model.DoubleGeo Verif.Spec Verif.Proofs

/-! ## The numerical functions -/

/-- a result for a computation with a bound on its passes -/
theorem total_result {α β : Type} (code : ℕ → Except PyErr (Option α)) (rep : β → α) (p : ℕ → Prop) (hr : ∀ n v, code n = .ok (some v) → ∃ b, v = rep b) :
    ∃ r : Except PyErr β, (∀ b, r = .ok b → ∃ n, p n ∧ code n = .ok (some (rep b))) ∧
      ∀ er, r = .error er → (∃ n, p n ∧ code n = .error er) ∨ Arithmetic er ∧ ∀ n, p n → code n = .ok none := by
  by_cases h : ∃ b n, p n ∧ code n = .ok (some (rep b))
  · obtain ⟨b, n, h⟩ := h
    refine ⟨.ok b, fun b' e => ?_, fun er e => (by cases e)⟩
    cases e
    exact ⟨n, h⟩
  by_cases h2 : ∃ er n, p n ∧ code n = .error er
  · obtain ⟨er, n, h2⟩ := h2
    refine ⟨.error er, fun b' e => (by cases e), fun er' e => ?_⟩
    cases e
    exact .inl ⟨n, h2⟩
  · refine ⟨.error .zeroDiv, fun b' e => (by cases e), fun er' e => ?_⟩
    cases e
    refine .inr ⟨.inl rfl, fun n hn => ?_⟩
    cases hc : code n with
    | error er => exact absurd ⟨er, n, hn, hc⟩ h2
    | ok o =>
      cases o with
      | none => rfl
      | some v =>
        obtain ⟨b, rfl⟩ := hr n v hc
        exact absurd ⟨b, n, hn, hc⟩ h

/-- whatever the rest of the parameters, there are numerical functions that return the results and raise the exceptions of the code in binary64 -/
theorem C107_functions (X0 : Ext) : ∃ X : Ext, X.env = X0.env ∧ X.dtLen = X0.dtLen ∧ ∀ D cfg, Computed Flt.binary64 (prmOf X D cfg) ∧ Raises Flt.binary64 (prmOf X D cfg) := by
  have hl : ∀ p : Pos, _ := fun p => total_result (fun n => xyz2lbhDegF Flt.binary64 n p.x p.y p.z) vec (fun n => 8 ≤ n) fun n v h => lbh_rat _ _ _ _ _ h
  have ha : ∀ x s : Pos, _ := fun x s => total_result (fun n => computeElAzF Flt.binary64 n (vec x) (vec s)) (fun r : Rat × Rat => ((r.1 : ℝ), (r.2 : ℝ))) (fun n => 8 ≤ n)
    fun n v h => by obtain ⟨el, az, h⟩ := elAz_rat _ _ _ _ h; exact ⟨(el, az), h⟩
  have hs : ∀ (c : Char) (eph : List PyFloat) (t : Rat), ∃ r : Except PyErr Pos, ∀ q : List Rat, eph = q.map .fin →
      ((c = 'G' ∨ c = 'C' ∨ c = 'E') → (∀ b, r = .ok b → ∃ n, gpsSatXyzF Flt.binary64 n (q.map fun x : Rat => (x : ℝ)) t = .ok (some (vec b))) ∧
        ∀ er, r = .error er → (∃ n, gpsSatXyzF Flt.binary64 n (q.map fun x : Rat => (x : ℝ)) t = .error er) ∨
          Arithmetic er ∧ ∀ n, gpsSatXyzF Flt.binary64 n (q.map fun x : Rat => (x : ℝ)) t = .ok none) ∧
      ((c = 'R' ∨ c = 'S') → (∀ b, r = .ok b → glonassSatXyzF Flt.binary64 (q.map fun x : Rat => (x : ℝ)) t = .ok (vec b)) ∧
        ∀ er, r = .error er → glonassSatXyzF Flt.binary64 (q.map fun x : Rat => (x : ℝ)) t = .error er) := by
    intro c eph t
    by_cases hq : ∃ q : List Rat, eph = q.map .fin
    · obtain ⟨q, rfl⟩ := hq
      by_cases hk : c = 'G' ∨ c = 'C' ∨ c = 'E'
      · obtain ⟨r, h1, h2⟩ := total_result (fun n => gpsSatXyzF Flt.binary64 n (q.map fun x : Rat => (x : ℝ)) t) vec (fun _ => True) fun n v h => gps_rat _ _ _ _ h
        refine ⟨r, fun q' e => ?_⟩
        cases fin_inj e
        refine ⟨fun _ => ⟨fun b hb => (h1 b hb).imp fun _ h => h.2, fun er he => (h2 er he).imp (fun h => h.imp fun _ h => h.2) fun h => ⟨h.1, fun n => h.2 n trivial⟩⟩, fun hc => ?_⟩
        rcases hk with rfl | rfl | rfl <;> rcases hc with hc | hc <;> exact absurd hc (by decide)
      · cases hg : glonassSatXyzF Flt.binary64 (q.map fun x : Rat => (x : ℝ)) t with
        | error er =>
          refine ⟨.error er, fun q' e => ?_⟩
          cases fin_inj e
          exact ⟨fun h => absurd h hk, fun _ => ⟨fun b hb => (by cases hb), fun er' he => by cases he; exact hg⟩⟩
        | ok v =>
          obtain ⟨b, rfl⟩ := glonass_rat _ _ _ hg
          refine ⟨.ok b, fun q' e => ?_⟩
          cases fin_inj e
          exact ⟨fun h => absurd h hk, fun _ => ⟨fun b' hb => (by cases hb; exact hg), fun er' he => by cases he⟩⟩
    · exact ⟨.error .zeroDiv, fun q e => absurd ⟨q, e⟩ hq⟩
  choose lbh l1 l2 using hl
  choose elAz a1 a2 using ha
  choose satPos hs using hs
  refine ⟨{ X0 with lbh := lbh, elAz := elAz, satPos := satPos }, rfl, rfl, fun D cfg => ⟨⟨?_, ?_, ?_, ?_⟩, ⟨?_, ?_, ?_, ?_⟩⟩⟩
  · exact fun p q h => l1 p q h
  · exact fun x s el az h => a1 x s (el, az) h
  · exact fun c q t p hc h => ((hs c _ t q rfl).1 hc).1 p h
  · exact fun c q t p hc h => ((hs c _ t q rfl).2 hc).1 p h
  · exact fun p er h => l2 p er h
  · exact fun x s er h => a2 x s er h
  · exact fun c q t er hc h => ((hs c _ t q rfl).1 hc).2 er h
  · exact fun c q t er hc h => ((hs c _ t q rfl).2 hc).2 er h

namespace ArchEx

theorem written_newline (cs : List Str) : Written (cs.map (· ++ ['\n'])) cs := by
  induction cs with
  | nil => trivial
  | cons c cs ih => exact ⟨rstrip_append_space _ _ (by decide), ih⟩

theorem typeText_newline (ts : List Str) : TypeText ((typeLines ts).map (· ++ ['\n'])) ts := by
  unfold TypeText
  induction typeLines ts with
  | nil => exact .nil
  | cons c cs ih => exact .cons ⟨['\n'], rfl, by decide⟩ ih

def epoch (c : Char) (n s : Nat) : Epoch := ⟨⟨2017, 1, 2, 3, 15, s, 0⟩, 3, 0, [exSat c n 99], [], (true, true)⟩

def head : List HLine := [.firstObs ⟨2017, 1, 2, 3, 15, 0, 0⟩ 0 (c% "GPS"), .position 63781370000 0 0]

def obsLines : List Str :=
  ([HLine.render 211 (.version 211 'O' 'M' obsWords), HLine.render 211 (.firstObs ⟨2017, 1, 2, 3, 15, 0, 0⟩ 0 (c% "GPS")), HLine.render 211 (.position 63781370000 0 0)]).map (· ++ ['\n']) ++
    (typeLines exTypes).map (· ++ ['\n']) ++ [] ++ (hline [] lblEnd ++ ['\n']) :: (bodyLines [.obs (epoch 'R' 24 0), .obs (epoch 'G' 1 30)]).map (· ++ ['\n'])

/-- 20000 -/
def km : DNum := ⟨false, [0], [2], 'D', false, [0, 5]⟩

/-- the satellite is at (20000, 20000, 0) km -/
def navR : NavMsg := ⟨'R', 24, ⟨2017, 1, 2, 3, 15, 0, 0⟩, [exNum 1, exNum 1, exNum 1],
  [⟨[some km, none, none, none], []⟩, ⟨[some km, none, none, some (exNum 3)], []⟩, ⟨[none, none, none, none], []⟩]⟩

def navLines : List Str := [HLine.render 302 (.version 302 'N' 'M' navWords) ++ ['\n']] ++ (hline [] lblEnd ++ ['\n']) :: ((exLines navR).map (· ++ ['\n']) ++ [])

def obsPath : Str := ProgEx.obsPath
def navPath : Str := ProgEx.navPath

def disk : Disk :=
  ⟨fun d => if d = c% "d" then .ok [c% "readme", c% "irkj0020.17o"] else if d = c% "n" then .ok [c% "BRDC00IGS_R_20170020000_01D_MN.rnx"] else .error .os,
   fun f p => match f with
     | .plain | .text => if p = obsPath then .ok obsLines else if p = navPath then .ok navLines else .error .os
     | .empty => .ok []
     | _ => .error .uncompress,
   fun p => p = obsPath ∨ p = navPath⟩

def cfg : Cfg := { ProgEx.cfg with cfgFile := c% "./tecs.cfg" }

theorem configured : readCfg ProgEx.ev ProgEx.dtLen (c% "./tecs.cfg") (some ProgEx.cfgLines) = .ok cfg := by decide +kernel

theorem plain : PlainNames disk cfg.obsDir := by
  intro d hd l hl n hn
  have hd : d ∈ [c% "d"] := hd
  rw [List.mem_singleton] at hd
  subst hd
  have hl : Except.ok [c% "readme", c% "irkj0020.17o"] = Except.ok l := hl
  cases hl
  revert n
  decide

theorem inputs : InputFiles disk cfg.obsDir [obsPath] := (C72_files disk cfg [obsPath] plain).1 (by decide +kernel)

theorem readAs : ReadAs disk obsPath obsLines :=
  ⟨by decide, c% "d", c% "irkj0020.17o", false, false, .inr ⟨rfl, ProgEx.no_slash_mark⟩, ProgEx.obsName, rfl⟩

theorem epoch_ok (c : Char) (hc : c = 'R' ∨ c = 'G') {n s : Nat} (hn : n < 100) (h : s < 60) : (epoch c n s).Ok 3 := by
  refine ⟨(legal_iff _).2 ?_, ?_, (by decide : 3 < 10), (by decide : 0 ≤ 1), (by decide : 1 < 1000), ?_⟩
  · exact ⟨(by decide : validDate 2017 1 2), (by decide : 3 ≤ 23), (by decide : 15 ≤ 59), (by show s ≤ 59; omega), (by decide : 0 ≤ 999999)⟩
  · exact ⟨(by decide : 1989 ≤ 2017), (by decide : 2017 ≤ 2088)⟩
  · intro x hx
    have hx : x ∈ [exSat c n 99] := hx
    rw [List.mem_singleton] at hx
    subst hx
    have h2 := (exEpoch_ok (by decide : 0 < 60)).2.2.2.2.2 (exSat 'R' 24 99) (by simp [exEpoch])
    refine ⟨⟨hn, ?_⟩, h2.2⟩
    rcases hc with rfl | rfl <;> simp [exSat]

theorem file2 : File2 obsLines 211 'M' head exTypes [epoch 'R' 24 0, epoch 'G' 1 30] where
  version := by decide
  text := by
    refine ⟨([HLine.render 211 (.version 211 'O' 'M' obsWords), HLine.render 211 (.firstObs ⟨2017, 1, 2, 3, 15, 0, 0⟩ 0 (c% "GPS")), HLine.render 211 (.position 63781370000 0 0)]).map (· ++ ['\n']),
      (typeLines exTypes).map (· ++ ['\n']), [], head, [], 'O', obsWords, hline [] lblEnd ++ ['\n'], (bodyLines [.obs (epoch 'R' 24 0), .obs (epoch 'G' 1 30)]).map (· ++ ['\n']),
      [.obs (epoch 'R' 24 0), .obs (epoch 'G' 1 30)], by decide, by decide, by decide, rfl, rfl, typeText_newline _, ?_, trivial, by decide +kernel, by decide +kernel, by decide +kernel,
      written_newline _, rfl, ?_⟩
    · exact ⟨⟨['\n'], rfl, by decide⟩, ⟨['\n'], rfl, by decide⟩, ⟨['\n'], rfl, by decide⟩, trivial⟩
    · intro i hi
      simp only [List.mem_cons, List.not_mem_nil, or_false] at hi
      rcases hi with rfl | rfl
      · exact ⟨epoch_ok _ (.inl rfl) (by decide) (by decide), fun _ h => nomatch h⟩
      · exact ⟨epoch_ok _ (.inr rfl) (by decide) (by decide), fun _ h => nomatch h⟩
  header := by
    intro h hh
    simp only [head, List.mem_cons, List.not_mem_nil, or_false] at hh
    rcases hh with rfl | rfl
    · exact ⟨(by simp only [Legal, LegalDate]; decide), (by decide : 100 ≤ 2017), by decide, rfl⟩
    · show ∀ n ∈ _, _
      decide +kernel
  types := by decide
  epochs := by
    intro e he
    simp only [List.mem_cons, List.not_mem_nil, or_false] at he
    rcases he with rfl | rfl <;> simp [epoch]
  two := by decide
  increasing := by decide +kernel
  span := by decide +kernel

theorem coords : CoordLines disk cfg.obsDir obsPath [] :=
  ⟨by simp, obsPath, c% "irkj0020.17o", [], false, false, rfl, .inr ⟨c% "d", by decide, rfl⟩,
    .daily (c% "irkj") (c% "002") '0' (c% "17") 'o' false ⟨rfl, by decide⟩ ⟨rfl, by decide⟩ rfl ⟨rfl, by decide⟩ rfl, ProgEx.obsName, .inl ⟨by decide, rfl⟩⟩

theorem navText : NavText navLines 302 302 [navR] ∧ NavReadAs disk navPath navLines := by
  refine ⟨⟨?_, 'N', 'M', navWords, [], [HLine.render 302 (.version 302 'N' 'M' navWords) ++ ['\n']], hline [] lblEnd ++ ['\n'], _, by decide, rfl, ?_, by simp, by decide +kernel, by decide +kernel, ?_, ?_⟩, ?_⟩
  · have : ((302 : Nat) : Rat) / 100 = 302 / 100 := by norm_num
    rw [this]
    decide +kernel
  · exact ⟨⟨['\n'], rfl, by decide⟩, trivial⟩
  · intro m hm
    have hd : ∀ w, w < 10 → (exNum w).Ok := fun w hw => ⟨by simp [exNum]; omega, by simp [exNum], by simp [exNum], by simp [exNum], by simp [exNum, DNum.text]⟩
    have hk : km.Ok := ⟨by simp [km], by simp [km], by simp [km], by simp [km], by simp [km, DNum.text]⟩
    rw [List.mem_singleton] at hm
    subst hm
    refine ⟨⟨by decide, ?_, rfl, ?_, rfl, ?_⟩, by decide, by decide, rfl⟩
    · simp only [navR, Legal, LegalDate]; decide
    · intro d hdm
      simp only [navR, List.mem_cons, List.not_mem_nil, or_false] at hdm
      rcases hdm with rfl | rfl | rfl <;> exact hd 1 (by omega)
    · intro r hrm f hf
      simp only [navR, List.mem_cons, List.not_mem_nil, or_false] at hrm
      rcases hrm with rfl | rfl | rfl <;> simp only [List.mem_cons, List.not_mem_nil, or_false] at hf
      · rcases hf with rfl | rfl | rfl | rfl
        · exact hk
        all_goals trivial
      · rcases hf with rfl | rfl | rfl | rfl
        · exact hk
        · trivial
        · trivial
        · exact hd 3 (by omega)
      · rcases hf with rfl | rfl | rfl | rfl <;> trivial
  · exact ⟨_, _, rfl, ⟨⟨false, written_newline _⟩, by decide +kernel⟩, rfl⟩
  · refine ⟨by decide, ?_, fun _ => rfl⟩
    intro hp
    have := (packed_iff navPath (by decide)).2 hp
    revert this
    decide +kernel

theorem day (d : Date) (h : NamedDay obsPath d) : d = ⟨2017, 1, 2⟩ := by
  have := (namedDay_iff obsPath d ⟨_, ProgEx.last⟩).2 h
  have h2 : getRinexDate obsPath = some ⟨2017, 1, 2⟩ := by decide +kernel
  rw [h2] at this
  cases this
  rfl

theorem navDay : NamedDay navPath ⟨2017, 1, 2⟩ :=
  (namedDay_iff navPath ⟨2017, 1, 2⟩ ⟨c% "BRDC00IGS_R_20170020000_01D_MN.rnx", by decide, .inr ⟨c% "n", by decide⟩⟩).1 (by decide +kernel)

theorem navArchive_choice (c : Char) (e : DateTime) (f : Str) (hch : NavChoice disk cfg c e f) : f = navPath := by
    obtain ⟨-, pr, ls, -, hl, hpref⟩ := hch
    have hls : ls = [[c% "BRDC00IGS_R_20170020000_01D_MN.rnx"]] := by
      have hl : List.Forall₂ _ [c% "n"] ls := hl
      cases hl with
      | cons h1 h2 =>
        cases h2
        cases h1
        rfl
    subst hls
    have hmem : f ∈ navCandidates (cfg.navDir.zip [[c% "BRDC00IGS_R_20170020000_01D_MN.rnx"]]) c e := by
      rcases hpref with ⟨_, _, _, _, _, a, b, h, _⟩ | ⟨_, b, h⟩ <;> rw [h] <;> simp
    have hnf : ∀ s, f ∈ navFiles (cfg.navDir.zip [[c% "BRDC00IGS_R_20170020000_01D_MN.rnx"]]) s e → f = navPath := by
      intro s hm
      unfold navFiles at hm
      obtain ⟨d, hd, hm⟩ := List.mem_flatMap.1 hm
      have hd : d ∈ [(c% "n", [c% "BRDC00IGS_R_20170020000_01D_MN.rnx"])] := hd
      rw [List.mem_singleton] at hd
      subst hd
      obtain ⟨n, hn, rfl⟩ := List.mem_map.1 hm
      have := List.mem_of_mem_filter hn
      rw [List.mem_singleton] at this
      subst this
      rfl
    unfold navCandidates at hmem
    split at hmem
    · exact hnf _ hmem
    · exact hnf _ hmem

theorem navArchive : NavArchive disk cfg [obsPath] := by
  refine ⟨by decide, ⟨[[c% "BRDC00IGS_R_20170020000_01D_MN.rnx"]], .cons rfl .nil⟩, ?_⟩
  intro path hp c e f hday hc hch
  rw [List.mem_singleton] at hp
  subst hp
  have hd := day _ hday
  obtain rfl := navArchive_choice c e f hch
  refine ⟨by rw [hd]; exact navDay, navLines, 302, 302, [navR], navText.2, navText.1⟩

theorem obsText : ObsText obsLines := by
  refine .ordered2 211 'M' head exTypes _ file2 ?_ ⟨_, rfl⟩
  intro i hi
  have hs : (spacings ([epoch 'R' 24 0, epoch 'G' 1 30].map (·.time))).take 10 = [30000000] := by decide +kernel
  rw [hs] at hi
  have : i = 30000000 := by
    have := hi.1
    simpa using this
  subst this
  unfold LongEnough
  decide

theorem obsArchive : ObsArchive disk cfg [obsPath] := by
  intro p hp
  rw [List.mem_singleton] at hp
  subst hp
  exact ⟨⟨obsLines, readAs, obsText⟩, [], coords⟩

/-- the items of the file -/
theorem items (fuel : Nat) (o : ObsIn) (h : obsFile disk fuel obsPath = some (.ok o)) : o.xyz = ⟨6378137, 0, 0⟩ ∧ ∀ it ∈ o.items, it.xyz = ⟨6378137, 0, 0⟩ ∧
    (it.sat = c% "R24" ∧ it.epoch = some ⟨2017, 1, 2, 3, 15, 0, 0⟩ ∨ it.sat = c% "G01" ∧ it.epoch = some ⟨2017, 1, 2, 3, 15, 30, 0⟩) := by
  obtain ⟨o', ho', hop⟩ := C73_open2 disk fuel obsPath obsLines 211 'M' head exTypes _ readAs file2
  rw [h] at ho'
  cases ho'
  have hp : sitePos head = ⟨6378137, 0, 0⟩ := by decide +kernel
  refine ⟨by rw [hop.xyz, hp], fun it hi => ?_⟩
  rw [hop.items, hp] at hi
  simp only [List.flatMap_cons, List.flatMap_nil, Epoch.items, epoch, List.map_cons, List.map_nil, List.append_nil, List.cons_append, List.nil_append, List.mem_cons, List.not_mem_nil,
    or_false] at hi
  rcases hi with rfl | rfl
  · exact ⟨rfl, .inl ⟨(by decide : (exSat 'R' 24 99).1.name = c% "R24"), rfl⟩⟩
  · exact ⟨rfl, .inr ⟨(by decide : (exSat 'G' 1 99).1.name = c% "G01"), rfl⟩⟩

/-- the position of the station -/
theorem station (it : ObsItem) (e : DateTime) (x : Pos) (h : StationOf disk cfg obsPath it e x) : x = ⟨6378137, 0, 0⟩ ∧
    (it.sat = c% "R24" ∧ it.epoch = some ⟨2017, 1, 2, 3, 15, 0, 0⟩ ∨ it.sat = c% "G01" ∧ it.epoch = some ⟨2017, 1, 2, 3, 15, 30, 0⟩) := by
  obtain ⟨fuel, o, xl, xyz, ho, hi, hx, hp, hs⟩ := h
  obtain ⟨h1, h2⟩ := (items fuel o ho).2 it hi
  refine ⟨?_, h2⟩
  have hxl : xl = [] := by
    obtain ⟨-, stem, base, suffix, hat, comp, h3, -, -, -, h4⟩ := hx
    rcases h4 with ⟨-, h4⟩ | ⟨h4, -⟩
    · exact h4
    · have h5 : stem ++ c% ".xyz" = obsPath ∨ stem ++ c% ".xyz" = navPath := by simpa [disk] using h4
      have h6 : ∀ p ∈ [obsPath, navPath], p.getLast? ≠ some 'z' := by decide
      have h7 : (stem ++ c% ".xyz").getLast? = some 'z' := by simp
      rcases h5 with h5 | h5 <;> rw [h5] at h7
      · exact absurd h7 (h6 _ (by simp))
      · exact absurd h7 (h6 _ (by simp))
  subst hxl
  have hn : xyz.get? e = none := by
    have := hp e
    rw [show lastFor e [] = none from rfl] at this
    simpa using this
  rcases hs with hs | ⟨-, rfl⟩
  · rw [hn] at hs; cases hs
  · exact h1

theorem rnd_km : Flt.binary64.rnd ((20000 : ℝ) * 1000) = 20000000 := by
  have h := Verif.Proofs.rnd_rat 20000000 (.inr (by rw [show |(20000000 : ℚ)| = 20000000 by norm_num]; exact (zpow_le_one_of_nonpos₀ (by norm_num) (by norm_num)).trans (by norm_num)))
  have h2 : double 20000000 = 20000000 := by decide +kernel
  rw [h2] at h
  push_cast at h
  rw [show (20000 : ℝ) * 1000 = 20000000 by norm_num]
  exact h

theorem values : navR.values = [20000, 0, 0, 0, 20000, 0, 0, 3, 0, 0, 0, 0].map PyFloat.fin := by decide +kernel

instance instT : DecidableEq (ℕ × List PyFloat) := instDecidableEqProd
instance instB : DecidableEq (ℤ × List (ℕ × List PyFloat)) := instDecidableEqProd
instance instE : DecidableEq Eph := inferInstanceAs (DecidableEq (List (ℤ × List (ℕ × List PyFloat))))
instance instL : DecidableEq (Str × Eph) := instDecidableEqProd

theorem loadR : (loadFor disk cfg ⟨2017, 1, 2⟩ 'R').toOption = some (navPath, [(24, [(DateTime.time ⟨2017, 1, 2, 3, 15, 0, 0⟩, navR.values)])]) := by decide +kernel
theorem loadG : (loadFor disk cfg ⟨2017, 1, 2⟩ 'G').toOption = none := by decide +kernel

theorem toOption_ok {α : Type} {r : Except PyErr α} {a : α} : r.toOption = some a ↔ r = .ok a := by cases r <;> simp [Except.toOption]

/-- the only ephemeris of the day that an item uses -/
theorem ephemeris (X : Ext) (c : Char) (n : Int) (e : DateTime) (dt : Rat) (eph : List PyFloat) (hd : e.date = ⟨2017, 1, 2⟩) (hc : c = 'R' ∨ c = 'G')
    (h : EphemerisIs (prmOf X disk cfg) c n e dt eph) : c = 'R' ∧ eph = navR.values ∧ (n = 24 → e = ⟨2017, 1, 2, 3, 15, 0, 0⟩ → dt = 0) := by
  obtain ⟨f, m, h1, h2⟩ := h
  have h1 : loadFor disk cfg e.date c = .ok (f, m) := h1
  rw [hd] at h1
  rcases hc with rfl | rfl
  · have h3 := loadR
    rw [h1] at h3
    cases h3
    refine ⟨rfl, ?_, ?_⟩
    · obtain ⟨τ, hm⟩ := C29_own e 'R' n _ true dt eph h2
      obtain ⟨bs, bt, k1, k2, k3⟩ := hm
      cases k1
      simp only [Dict.get?] at k2
      split at k2
      · cases k2
        simp only [Dict.get?] at k3
        split at k3
        · cases k3; rfl
        · cases k3
      · cases k2
    · rintro rfl rfl
      have h4 : (selectMessage ⟨2017, 1, 2, 3, 15, 0, 0⟩ 'R' 24 [('R', [(24, [(DateTime.time ⟨2017, 1, 2, 3, 15, 0, 0⟩, navR.values)])])] true).toOption = some (some (0, navR.values)) := by decide +kernel
      rw [h2] at h4
      simp only [Except.toOption, Option.some.injEq, Prod.mk.injEq] at h4
      exact h4.1
  · have h3 := loadG
    rw [h1] at h3
    cases h3

theorem grounded : Grounded disk cfg [obsPath] := by
  refine ⟨fun path hp fuel o ho => ?_, fun path hp it e x _ hx => ?_⟩
  · rw [List.mem_singleton] at hp
    subst hp
    rw [(items fuel o ho).1]
    exact .inr ⟨_, _, _, C105_example.1⟩
  · rw [List.mem_singleton] at hp
    subst hp
    rw [(station it e x hx).1]
    exact .inr ⟨_, _, _, C105_example.1⟩

theorem eccentricities (X : Ext) : Eccentricities (prmOf X disk cfg) [obsPath] := by
  intro path hp c n e dt eph hday hc h
  rw [List.mem_singleton] at hp
  subst hp
  obtain ⟨f, m, h1, -⟩ := h
  have h1 : loadFor disk cfg e.date c = .ok (f, m) := h1
  rw [day _ hday] at h1
  have : ∀ c ∈ ['G', 'C', 'E'], (loadFor disk cfg ⟨2017, 1, 2⟩ c).toOption = none := by decide +kernel
  have := this c (by simpa using hc)
  rw [h1] at this
  cases this

theorem zenith (X : Ext) (hX : Computed Flt.binary64 (prmOf X disk cfg)) : NotInZenith (prmOf X disk cfg) disk [obsPath] := by
  intro path hp it c n e x s h1 h2 h3 h4 h5
  rw [List.mem_singleton] at hp
  subst hp
  obtain ⟨rfl, h6⟩ := station it e x h4
  obtain ⟨dt, eph, k1, k2⟩ := h5
  obtain ⟨r, hr1, hr2⟩ := h1
  have hc : c = 'R' ∨ c = 'G' := by
    rcases h6 with ⟨h6, -⟩ | ⟨h6, -⟩ <;> rw [h6] at hr1 <;> cases hr1
    · exact .inl rfl
    · exact .inr rfl
  obtain ⟨rfl, rfl, k3⟩ := ephemeris X c n e dt eph (day _ h3) hc k1
  rcases h6 with ⟨h6, h7⟩ | ⟨h6, h7⟩
  swap
  · rw [h6] at hr1; cases hr1
  rw [h6] at hr1
  cases hr1
  have hn : n = 24 := by
    have : (pyInt (c% "24")).toOption = some 24 := by decide
    rw [hr2] at this
    cases this
    rfl
  rw [h7] at h2
  cases h2
  cases k3 hn rfl
  have k4 := hX.motion 'R' [20000, 0, 0, 0, 20000, 0, 0, 3, 0, 0, 0, 0] 0 s (.inl rfl) (by rw [← values]; exact k2)
  have k5 : s = ⟨20000000, 20000000, 0⟩ := by
    unfold glonassSatXyzF at k4
    have r0 : Flt.binary64.rnd 0 = 0 := rnd_zero
    simp only [List.map_cons, List.map_nil, Rat.cast_zero, Rat.cast_ofNat, rnd_km, zero_mul, r0, if_pos] at k4
    injection k4 with k4
    simp only [vec, Prod.mk.injEq] at k4
    obtain ⟨a, b, c⟩ := k4
    cases s
    simp only [Pos.mk.injEq]
    exact ⟨by exact_mod_cast a.symm, by exact_mod_cast b.symm, by exact_mod_cast c.symm⟩
  subst k5
  refine .inr ⟨_, _, _, _, _, _, C105_example.1, C105_example.2, ?_⟩
  rw [up_dot]
  simp only [Real.sin_zero, Real.cos_zero, Real.cos_pi_div_four, sub_zero, mul_zero, zero_add, one_mul]
  rw [div_pow, Real.sq_sqrt (by norm_num)]
  norm_num

end ArchEx

/-- C107: the hypotheses hold together: an archive, and numerical functions that compute as the code does in binary64 -/
theorem C107_hypotheses : ∃ X : Ext, X.dtLen = ProgEx.ext.dtLen ∧ Accurate Flt.binary64 ∧ SignSafe Flt.binary64 ∧ Computed Flt.binary64 (prmOf X ArchEx.disk ArchEx.cfg) ∧ Raises Flt.binary64 (prmOf X ArchEx.disk ArchEx.cfg) ∧
    (∀ t, DateIsWord (prmOf X ArchEx.disk ArchEx.cfg) t) ∧ ArchEx.cfg.outFileModeText = true ∧ Configured X ArchEx.cfg ∧ OutDirOk ArchEx.cfg ∧ PlainNames ArchEx.disk ArchEx.cfg.obsDir ∧
    InputFiles ArchEx.disk ArchEx.cfg.obsDir [ArchEx.obsPath] ∧ FourDigits [ArchEx.obsPath] ∧ ObsArchive ArchEx.disk ArchEx.cfg [ArchEx.obsPath] ∧
    NavArchive ArchEx.disk ArchEx.cfg [ArchEx.obsPath] ∧ Grounded ArchEx.disk ArchEx.cfg [ArchEx.obsPath] ∧ Eccentricities (prmOf X ArchEx.disk ArchEx.cfg) [ArchEx.obsPath] ∧
    NotInZenith (prmOf X ArchEx.disk ArchEx.cfg) ArchEx.disk [ArchEx.obsPath] ∧ Numerics X ArchEx.disk ArchEx.cfg [ArchEx.obsPath] ∧
    ReadAs ArchEx.disk ArchEx.obsPath ArchEx.obsLines ∧ File2 ArchEx.obsLines 211 'M' ArchEx.head exTypes [ArchEx.epoch 'R' 24 0, ArchEx.epoch 'G' 1 30] ∧
    CoordLines ArchEx.disk ArchEx.cfg.obsDir ArchEx.obsPath [] := by
  obtain ⟨X, -, h2, h3⟩ := C107_functions ProgEx.ext
  obtain ⟨-, c3, c4⟩ := ProgEx.C77_hypotheses
  have hcfg : Configured X ArchEx.cfg := ⟨ProgEx.ev, ProgEx.dtLen, _, _, ArchEx.configured, by rw [h2]; rfl⟩
  obtain ⟨hc, hr⟩ := h3 ArchEx.disk ArchEx.cfg
  have hz := ArchEx.zenith X hc
  refine ⟨X, h2, accurate_binary64, signSafe_binary64, hc, hr, ?_, rfl, hcfg, c3, ArchEx.plain, ArchEx.inputs, c4, ArchEx.obsArchive, ArchEx.navArchive, ArchEx.grounded, ArchEx.eccentricities X, hz,
    C107_numerics Flt.binary64 accurate_binary64 signSafe_binary64 X ArchEx.disk ArchEx.cfg [ArchEx.obsPath] hcfg c4 ArchEx.navArchive hr ArchEx.grounded (ArchEx.eccentricities X) hz,
    ArchEx.readAs, ArchEx.file2, ArchEx.coords⟩
  intro t h
  exact absurd h (by show ¬ (c% "datetime" ∈ ProgEx.cfg.recFields); decide)

end Verif.Props
