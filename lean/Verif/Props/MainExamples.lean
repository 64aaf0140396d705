import Verif.Props.Select
import Verif.Props.Main
/-!
# Concrete runs of the main loop

A file with four items (G01 at 0:00:00, 0:00:30, 0:01:00 and R05 at 0:00:30) and several choices of configuration and navigation data.
-/
namespace Verif.Props.MainEx
open Verif.Py Verif.Model Verif.Spec Verif.Proofs Verif.Props

def env : WEnv := ⟨fun _ _ => c% "2026-01-01", fun q => natStr q.num.natAbs, fun _ _ => c% "2015-01-02"⟩

def cfg (ignore : Bool) (sampling : Option Int) : Cfg :=
  ⟨[], [], [c% "tsn", c% "el", c% "c1"], [], [], c% "out", c% "%Y", true, c% "{0:11d} {3: 10.5f} {22: 16.3f}\n", c% "(I11)", [], ignore, [], sampling⟩

def at_ (m s : Nat) : DateTime := ⟨2015, 1, 2, 0, m, s, 0⟩

def data : ObsRec := [(c% "L1", (some 100, 1, 0)), (c% "C1", (some 20000000, 0, 0)), (c% "L2", (some 50, 0, 0))]
def typesOf (_ : Char) : Option (List Str) := some [c% "L1", c% "C1", c% "L2"]

def item (sat : Str) (m s : Nat) : ObsItem := ⟨some (at_ m s), sat, data, ⟨1, 2, 3⟩, typesOf⟩

def obs : ObsIn := ⟨c% "d/irkj0020.15o", some ⟨2015, 1, 2⟩, 'M', some (at_ 0 0, c% "GPS"), ⟨1, 2, 3⟩, 30,
  [item (c% "G01") 0 0, item (c% "G01") 0 30, item (c% "R05") 0 30, item (c% "G01") 1 0], .ok ()⟩
def file : FileIn := ⟨.ok obs, .ok [(at_ 0 30, ⟨4, 5, 6⟩)]⟩

def eph (k : Rat) : List PyFloat := [.fin 1, .fin 0, .fin 0, .fin 0, .fin 0, .fin 0, .fin 0, .fin k]

def loadBoth (_ : Date) (c : Char) : Except PyErr (Str × Eph) :=
  if c = 'G' then .ok (c% "irkj0020.15n", [(1, [(0, eph 0)])]) else if c = 'R' then .ok (c% "irkj0020.15g", [(5, [(0, eph 3)])]) else .error .nm
def loadNone (_ : Date) (_ : Char) : Except PyErr (Str × Eph) := .error .nm

def prm (ignore : Bool) (sampling : Option Int) (load : Date → Char → Except PyErr (Str × Eph)) (satPos : Char → List PyFloat → Rat → Except PyErr Pos) : Prm :=
  ⟨cfg ignore sampling, env, 10, fun p => .ok ⟨p.z, p.y, p.x⟩, satPos, fun x p => .ok (x.x + p.x, 90), load⟩

def posOk : Char → List PyFloat → Rat → Except PyErr Pos := fun _ _ dt => .ok ⟨7, 8, dt⟩
def posBad : Char → List PyFloat → Rat → Except PyErr Pos := fun _ _ _ => .error .zeroDiv

instance : DecidableEq (Str × Nat × Nat × Option Rat × Option Rat) := inferInstance
instance : DecidableEq (List (Str × Nat × Nat × Option Rat × Option Rat)) := inferInstance
instance : DecidableEq (List (List (Str × Nat × Nat × Option Rat × Option Rat))) := inferInstance

/-- satellite, minute and second, elevation and receiver x of the records written -/
def shown (ws : List Rec) : List (Str × Nat × Nat × Option Rat × Option Rat) :=
  let q := fun (v : Option (Option FVal)) => match v with | some (some (.flt (.fin q))) => some q | _ => none
  ws.map fun w => (w.1, w.2.1.minute, w.2.1.second, q w.2.2[0]?, q w.2.2[37]?)

/-- everything available: all four items give a record; the second and third use the position of the coordinate file -/
theorem C57_example :
    (mainLoop (prm false none loadBoth posOk) [file] Glob.empty []).2.2.2 = none ∧
    (mainLoop (prm false none loadBoth posOk) [file] Glob.empty []).2.2.1.map (fun ops => shown (writesOf ops)) =
      [[(c% "G01", 0, 0, some 8, some 1), (c% "G01", 0, 30, some 11, some 4), (c% "R05", 0, 30, some 11, some 4), (c% "G01", 1, 0, some 8, some 1)]] := by
  decide +kernel

/-- the output file of G01 -/
theorem C71_example :
    (((mainLoop (prm false none loadBoth posOk) [file] Glob.empty []).2.1.get? (c% "out/2015/002/irkj/irkj_G01_002_15.dat")).map
      (fun t => (splitOn '\n' t).drop 11)) =
      some [c% "          0    8.00000     20000000.000", c% "          1   11.00000     20000000.000",
        c% "          2    8.00000     20000000.000", []] := by
  decide +kernel

/-- the file is accepted, its times are legal, its name has a last component, and no arithmetic error occurs: the hypotheses of C58, C59, C61, C62, C71 -/
theorem C71_hypotheses :
    Accepted obs (at_ 0 0) ∧ LegalTimes obs (at_ 0 0) ∧ LastComponent obs.filename (c% "irkj0020.15o") ∧
    (∀ it ∈ obs.items, ∃ c n e, Considered obs it c n e) ∧
    (∀ ignore s c n e, ¬ ArithError (prm ignore s loadBoth posOk) c n e) ∧ (∀ ignore s c n e, ¬ ArithError (prm ignore s loadNone posOk) c n e) := by
  refine ⟨⟨.inr rfl, rfl⟩, ⟨?_, ?_⟩, ⟨by decide, .inr ⟨c% "d", by decide⟩⟩, ?_, ?_, ?_⟩
  · simp only [Legal, LegalDate, at_]; decide
  · intro it hi e he
    simp only [obs, List.mem_cons, List.not_mem_nil, or_false] at hi
    rcases hi with rfl | rfl | rfl | rfl <;> simp only [item, Option.some.injEq] at he <;> subst he <;>
      exact ⟨by simp only [Legal, LegalDate, at_]; decide, fun _ => by decide⟩
  · intro it hi
    simp only [obs, List.mem_cons, List.not_mem_nil, or_false] at hi
    rcases hi with rfl | rfl | rfl | rfl
    · exact ⟨'G', 1, at_ 0 0, ⟨c% "01", rfl, by decide⟩, rfl, .inl rfl, rfl⟩
    · exact ⟨'G', 1, at_ 0 30, ⟨c% "01", rfl, by decide⟩, rfl, .inl rfl, rfl⟩
    · exact ⟨'R', 5, at_ 0 30, ⟨c% "05", rfl, by decide⟩, rfl, .inr (.inl rfl), rfl⟩
    · exact ⟨'G', 1, at_ 1 0, ⟨c% "01", rfl, by decide⟩, rfl, .inl rfl, rfl⟩
  · rintro ignore s c n e ⟨dt, eph, -, h | h⟩ <;> cases h
  · rintro ignore s c n e ⟨dt, eph, -, h | h⟩ <;> cases h

/-- sampling interval of one minute: the items at 0:00:30 are left out -/
theorem C58_example :
    (mainLoop (prm false (some 60000000) loadBoth posOk) [file] Glob.empty []).2.2.2 = none ∧
    (mainLoop (prm false (some 60000000) loadBoth posOk) [file] Glob.empty []).2.2.1.map (fun ops => shown (writesOf ops)) =
      [[(c% "G01", 0, 0, some 8, some 1), (c% "G01", 1, 0, some 8, some 1)]] := by
  decide +kernel

/-- C59: with `navIgnoreAbsence` and arithmetic errors the statement is false: processed first, the file gives no record; processed again, it gives records with
zeros (except for GLONASS). -/
theorem C59_counterexample :
    (mainLoop (prm true none loadBoth posBad) [file, file] Glob.empty []).2.2.2 = none ∧
    (mainLoop (prm true none loadBoth posBad) [file, file] Glob.empty []).2.2.1.map (fun ops => shown (writesOf ops)) =
      [[], [(c% "G01", 0, 0, some 0, some 1), (c% "G01", 0, 30, some 0, some 4), (c% "G01", 1, 0, some 0, some 1)]] := by
  decide +kernel

/-- C61: no navigation files, `navIgnoreAbsence`: the record of G01 at 0:00:00 is lost -/
theorem C61_example :
    (mainLoop (prm true none loadNone posOk) [file] Glob.empty []).2.2.2 = none ∧
    (mainLoop (prm true none loadNone posOk) [file] Glob.empty []).2.2.1.map (fun ops => shown (writesOf ops)) =
      [[(c% "G01", 0, 30, some 0, some 4), (c% "G01", 1, 0, some 0, some 1)]] := by
  decide +kernel

theorem known : ∀ s ∈ [c% "L1", c% "C1", c% "L2"], Known s := by
  intro s hs
  by_contra hn
  have := (C42_unknown [s] []).1 (by simpa using hn)
  simp only [List.mem_cons, List.not_mem_nil, or_false] at hs
  rcases hs with rfl | rfl | rfl <;> revert this <;> decide +kernel

/-- C61: the hypotheses hold for G -/
theorem C61_hypotheses (it : ObsItem) (hi : it ∈ obs.items) (n : Int) (e : DateTime) (_ : Considered obs it 'G' n e) :
    (∀ t ∈ [c% "L1", c% "C1", c% "L2"], Known t) ∧ it.types 'G' = some [c% "L1", c% "C1", c% "L2"] ∧
    (∀ d, NoNavigation (prm true none loadNone posOk) d 'G') ∧ ∀ x, ∃ l, (prm true none loadNone posOk).lbh x = .ok l := by
  refine ⟨known, ?_, fun d => .inr rfl, fun x => ⟨_, rfl⟩⟩
  simp only [obs, List.mem_cons, List.not_mem_nil, or_false] at hi
  rcases hi with rfl | rfl | rfl | rfl <;> rfl

/-- C62: files left out -/
theorem C62_example :
    LeftOut ⟨.error .rinex, .ok []⟩ ∧ LeftOut ⟨.ok { obs with system := 'J' }, .ok []⟩ ∧ LeftOut ⟨.ok { obs with tofo := some (at_ 0 0, c% "GLO") }, .ok []⟩ ∧
    (mainLoop (prm false none loadBoth posOk) [⟨.error .rinex, .ok []⟩, file, ⟨.ok { obs with tofo := none }, .ok []⟩, file] Glob.empty []).2.2.2 = some .type ∧
    (mainLoop (prm false none loadBoth posOk) [⟨.error .rinex, .ok []⟩, file, ⟨.ok { obs with tofo := none }, .ok []⟩, file] Glob.empty []).2.2.1.map
      (fun ops => (writesOf ops).length) = [0, 4, 0] := by
  refine ⟨.inl rfl, .inr (.inr ⟨_, rfl, .inl ⟨?_, by decide⟩⟩), .inr (.inr ⟨_, rfl, .inr ⟨_, _, rfl, by decide⟩⟩), by decide +kernel⟩
  unfold Processed
  decide

private theorem heph : ∀ c n e dt eph, EphemerisIs (prm false none loadBoth posOk) c n e dt eph → ∃ k, eph[7]? = some (.fin k) := by
  rintro c n e dt eph ⟨f, m, h1, h2⟩
  have h1 : loadBoth e.date c = .ok (f, m) := h1
  have hm : ∃ k i, m = [(i, [(0, MainEx.eph k)])] := by
    unfold loadBoth at h1
    split at h1
    · cases h1; exact ⟨0, 1, rfl⟩
    · split at h1
      · cases h1; exact ⟨3, 5, rfl⟩
      · cases h1
  obtain ⟨k, i, rfl⟩ := hm
  have hv : eph = MainEx.eph k := by
    obtain ⟨τ, a, b, h3, h4, h5⟩ := C29_own e c n _ true dt eph h2
    simp only [Dict.get?, if_true, Option.some.injEq] at h3
    subst h3
    simp only [Dict.get?] at h4
    split at h4
    · cases h4
      simp only [Dict.get?] at h5
      split at h5
      · cases h5; rfl
      · cases h5
    · cases h4
  exact ⟨k, by rw [hv]; rfl⟩

/-- C63: the run above has none of the causes of an exception -/
theorem C63_example (er : PyErr) : ¬ Cause (prm false none loadBoth posOk) file er := by
  have hopen : ∀ o, file.opened = .ok o → o = obs := by intro o h; cases h; rfl
  have hsat : ∀ it ∈ obs.items, it.sat = c% "G01" ∨ it.sat = c% "R05" := by
    intro it hi
    simp only [obs, List.mem_cons, List.not_mem_nil, or_false] at hi
    rcases hi with rfl | rfl | rfl | rfl
    · exact .inl rfl
    · exact .inl rfl
    · exact .inr rfl
    · exact .inl rfl
  intro h
  cases h with
  | opening h _ _ => cases h
  | start o h1 h2 _ => rw [hopen o h1] at h2; cases h2
  | xyzFile h => cases h
  | reading o h1 h2 _ => rw [hopen o h1] at h2; cases h2
  | noSat o it h1 h2 h3 _ =>
    rw [hopen o h1] at h2
    rcases hsat it h2 with h | h <;> rw [h] at h3 <;> cases h3
  | satName o it a r h1 h2 h3 h4 =>
    rw [hopen o h1] at h2
    rcases hsat it h2 with h | h <;> rw [h] at h3 <;> cases h3 <;> rw [show pyInt _ = .ok _ from rfl] at h4 <;> cases h4
  | noEpoch o it h1 h2 h3 _ =>
    rw [hopen o h1] at h2
    simp only [obs, List.mem_cons, List.not_mem_nil, or_false] at h2
    rcases h2 with rfl | rfl | rfl | rfl <;> cases h3
  | geodetic o _ h => cases h
  | site o xyz it c n e x _ _ _ _ _ h => cases h
  | load o it c n e h1 h2 h3 h4 h5 =>
    apply h5
    right
    have h4 : loadBoth e.date c = .error er := h4
    unfold loadBoth at h4
    split at h4
    · cases h4
    · split at h4 <;> cases h4
      rfl
  | noMessage o it c n e f m h1 h2 h3 h4 h5 _ =>
    have h4 : loadBoth e.date c = .ok (f, m) := h4
    have hm : ∃ k i, m = [(i, [(0, MainEx.eph k)])] := by
      unfold loadBoth at h4
      split at h4
      · cases h4; exact ⟨0, 1, rfl⟩
      · split at h4
        · cases h4; exact ⟨3, 5, rfl⟩
        · cases h4
    obtain ⟨k, i, rfl⟩ := hm
    simp only [Dict.get?] at h5
    split at h5
    · cases h5
    · cases h5
  | satellite o it c n e dt eph _ _ _ _ h5 _ => cases h5
  | frequency o it n e dt eph _ _ _ h4 h5 =>
    obtain ⟨k, hk⟩ := heph _ _ _ _ _ h4
    exact h5 k hk
  | direction o xyz it c n e x p _ _ _ _ _ _ h _ => cases h
  | types o it c n e h1 h2 h3 h4 _ =>
    rw [hopen o h1] at h2
    simp only [obs, List.mem_cons, List.not_mem_nil, or_false] at h2
    rcases h2 with rfl | rfl | rfl | rfl <;> cases h4
  | format h =>
    apply h
    refine ⟨[c% "tsn", c% "el", c% "c1"], by decide, ?_, c% "(I11,1X,F10.5,1X,F16.3)", ?_⟩
    · have : ∀ f ∈ [c% "tsn", c% "el", c% "c1"], f ∈ columns.map (·.1) := by decide +kernel
      intro f hf
      obtain ⟨⟨a, k⟩, h1, h2⟩ := List.mem_map.1 (this f hf)
      simp only at h2
      subst h2
      exact ⟨k, h1⟩
    · show composeRecFormat (formatDef 10) _ = .ok (_, c% "{0:11d} {3: 10.5f} {22: 16.3f}\n", c% "(I11,1X,F10.5,1X,F16.3)")
      decide +kernel
  | interval o h1 h2 =>
    rw [hopen o h1] at h2
    revert h2
    decide +kernel

end Verif.Props.MainEx
