import Verif.Spec.ConfigSame
import Verif.Props.Config
import Verif.Props.RunExamples
/-!
# Configuration files with the same settings (C115)
-/
namespace Verif.Props
open Verif.Py Verif.Model Verif.Spec Verif.Proofs

theorem readCfg_settings (ev : Str → Except PyErr Str) (dtLen : Str → Nat) (filename : Str) (c c' : Option (List Str)) (d d' : Dict Str CfgVal)
    (h : readSettings filename c = .ok d) (h' : readSettings filename c' = .ok d') (hg : ∀ n ∈ settings, d.get? n = d'.get? n) :
    readCfg ev dtLen filename c = readCfg ev dtLen filename c' := by
  have ht : ∀ n ∈ settings, textOf d n = textOf d' n := by intro n hn; unfold textOf; rw [hg n hn]
  have hp : ∀ n ∈ settings, priorityOf d n = priorityOf d' n := by intro n hn; unfold priorityOf; rw [hg n hn]
  unfold readCfg
  rw [h, h']
  simp only
  rw [ht (c% "logLevel") (by decide), ht (c% "recFields") (by decide), ht (c% "outDir") (by decide), ht (c% "datetimeFormat") (by decide), ht (c% "outFileMode") (by decide),
    hg (c% "navIgnoreAbsence") (by decide), hg (c% "samplingInterval") (by decide), ht (c% "cfg_file") (by decide), ht (c% "obsDir") (by decide), ht (c% "navDir") (by decide),
    hp (c% "navPriorityGPS") (by decide), hp (c% "navPriorityGLO") (by decide), hp (c% "navPriorityGEO") (by decide), ht (c% "logFile") (by decide)]

/-- C115: configuration files with the same settings are read as the same configuration, or refused with the same exception. -/
theorem C115_read (ev : Str → Except PyErr Str) (dtLen : Str → Nat) (filename : Str) (lines lines' : List Str) (h : SameSettings lines lines') :
    readCfg ev dtLen filename (some lines) = readCfg ev dtLen filename (some lines') := by
  obtain ⟨items, items', h1, h2, hs⟩ := h
  obtain ⟨d, a1, a2, a3, a4, -⟩ := C48_settings filename items lines h1
  obtain ⟨d', b1, b2, b3, b4, -⟩ := C48_settings filename items' lines' h2
  refine readCfg_settings ev dtLen filename _ _ d d' a1 b1 ?_
  intro n hn
  have hk : n ∈ DEFAULTS.keys := by revert n; decide
  by_cases hv : ∃ v, LastValue items n v
  · obtain ⟨v, hv⟩ := hv
    rw [a2 n v hk hv, b2 n v hk ((hs n hn v).1 hv)]
  · have no : ∀ v, ¬ LastValue items n v := fun v h => hv ⟨v, h⟩
    have no' : ∀ v, ¬ LastValue items' n v := fun v h => hv ⟨v, (hs n hn v).2 h⟩
    by_cases hc : n = c% "cfg_file"
    · subst hc; rw [a4 no, b4 no']
    · rw [a3 n no hc, b3 n no' hc]

/-- C115: the run is the same. -/
theorem C115_run (ev : Str → Except PyErr Str) (dtLen : Str → Nat) (X : Ext) (W W' : World) (a : Args) (fuel : Nat) (fs : FS) (hd : W'.chdir = W.chdir)
    (h : ∀ name, W.config name = W'.config name ∨ ∃ lines lines', W.config name = some lines ∧ W'.config name = some lines' ∧ SameSettings lines lines') :
    tecsRun ev dtLen X W' a fuel fs = tecsRun ev dtLen X W a fuel fs := by
  have : ∀ name, readCfg ev dtLen name (W'.config name) = readCfg ev dtLen name (W.config name) := by
    intro name
    rcases h name with h | ⟨lines, lines', h1, h2, h3⟩
    · rw [h]
    · rw [h1, h2, C115_read ev dtLen name lines lines' h3]
  unfold tecsRun
  rw [this, hd]

end Verif.Props

namespace Verif.Props.ProgEx
open Verif.Py Verif.Spec Verif.Model Verif.Proofs

/-- the settings of the example in another order, with a remark, a name without effect, an empty value and a value that is overwritten -/
def cfgLines' : List Str :=
  [c% "logFile=l\n", c% "samplingInterval = 0 # all\n", c% "\n", c% "navDir = x\n", c% "recFields = tsn, el, c1, site.x\n", c% "datetimeFormat = %Y\n", c% "elNanValue = 0\n",
   c% "navIgnoreAbsence = False\n", c% "navDir = n\n", c% "obsDir = d\n", c% "outDir = out\n", c% "obsDir = \n"]

def cfgItems : List CfgItem :=
  [.comment (c% " an example"), item (c% "obsDir") (c% "d"), item (c% "navDir") (c% "n"), item (c% "outDir") (c% "out"),
    item (c% "recFields") (c% "tsn, el, c1, site.x"), item (c% "datetimeFormat") (c% "%Y"), item (c% "navIgnoreAbsence") (c% "False"),
    item (c% "samplingInterval") (c% "0"), item (c% "logFile") (c% "l")]

def cfgItems' : List CfgItem :=
  [.assign [] (c% "logFile") [] [] (c% "l") [] none, .assign [] (c% "samplingInterval") [' '] [' '] (c% "0") [' '] (some (c% " all")), .blank [],
    item (c% "navDir") (c% "x"), item (c% "recFields") (c% "tsn, el, c1, site.x"), item (c% "datetimeFormat") (c% "%Y"), item (c% "elNanValue") (c% "0"),
    item (c% "navIgnoreAbsence") (c% "False"), item (c% "navDir") (c% "n"), item (c% "obsDir") (c% "d"), item (c% "outDir") (c% "out"), .assign [] (c% "obsDir") [' '] [' '] [] [] none]

/-- the last value, computed -/
def lastOfItems (items : List CfgItem) (n : Str) : Option Str :=
  items.reverse.findSome? fun i => match i with
    | .assign _ m _ _ v _ _ => if m = n ∧ v ≠ [] then some v else none
    | _ => none

theorem sets_iff (i : CfgItem) (n v : Str) : i.Sets n v ↔ (match i with
    | .assign _ m _ _ v _ _ => if m = n ∧ v ≠ [] then some v else none
    | _ => none) = some v := by
  constructor
  · rintro ⟨hv, a, b, c, d, r, rfl⟩
    simp [hv]
  · intro h
    cases i with
    | blank => cases h
    | comment => cases h
    | assign a m b c w d r =>
      simp only at h
      split at h
      · rename_i hm
        cases h
        obtain ⟨rfl, hv⟩ := hm
        exact ⟨hv, a, b, c, d, r, rfl⟩
      · cases h

theorem lastValue_iff (items : List CfgItem) (n v : Str) : LastValue items n v ↔ lastOfItems items n = some v := by
  unfold lastOfItems
  rw [List.findSome?_eq_some_iff]
  constructor
  · rintro ⟨pre, i, post, rfl, h1, h2⟩
    refine ⟨post.reverse, i, pre.reverse, by simp, (sets_iff ..).1 h1, ?_⟩
    intro j hj
    rw [Option.eq_none_iff_forall_ne_some]
    intro w hw
    exact h2 j (List.mem_reverse.1 hj) w ((sets_iff ..).2 hw)
  · rintro ⟨l1, i, l2, h, h1, h2⟩
    refine ⟨l2.reverse, i, l1.reverse, ?_, (sets_iff ..).2 h1, ?_⟩
    · have := congrArg List.reverse h
      simpa using this
    · intro j hj w hw
      have := (sets_iff ..).1 hw
      rw [h2 j (List.mem_reverse.1 hj)] at this
      cases this

theorem C115_hypotheses : SameSettings cfgLines cfgLines' ∧ cfgLines' ≠ cfgLines := by
  have hb : ∀ s, s = [] ∨ s = [' '] ∨ s = ['\n'] → Blank s := by rintro s (rfl | rfl | rfl) <;> (unfold Blank; decide)
  have hv : ∀ v, (v.all fun c => c ≠ '=' ∧ c ≠ '#') = true → (v.head?.all fun c => isSpace c = false) = true → (v.getLast?.all fun c => isSpace c = false) = true → CfgValue v := by
    intro v h1 h2 h3
    refine ⟨fun c hc => by simpa using List.all_eq_true.1 h1 c hc, fun c hc => ?_, fun c hc => ?_⟩
    · rw [hc] at h2; simpa using h2
    · rw [hc] at h3; simpa using h3
  have hn : ∀ n : Str, (n.all fun c => isSpace c = false ∧ c ≠ '=' ∧ c ≠ '#') = true → CfgName n := fun n h c hc => by simpa using List.all_eq_true.1 h c hc
  have hi : ∀ n v, CfgName n → CfgValue v → (item n v).Ok := fun n v h1 h2 => ⟨hb _ (by simp), h1, hb _ (by simp), hb _ (by simp), h2, hb _ (by simp)⟩
  refine ⟨⟨cfgItems, cfgItems', ?_, ?_, ?_⟩, by decide⟩
  · refine .cons _ ['\n'] _ _ trivial (hb _ (by simp)) ?_
    iterate 8
      refine .cons _ ['\n'] _ _ (hi _ _ (hn _ (by decide)) (hv _ (by decide) (by decide) (by decide))) (hb _ (by simp)) ?_
    exact .nil
  · refine .cons _ ['\n'] _ _ ⟨hb _ (by simp), hn _ (by decide), hb _ (by simp), hb _ (by simp), hv _ (by decide) (by decide) (by decide), hb _ (by simp)⟩ (hb _ (by simp)) ?_
    refine .cons _ ['\n'] _ _ ⟨hb _ (by simp), hn _ (by decide), hb _ (by simp), hb _ (by simp), hv _ (by decide) (by decide) (by decide), hb _ (by simp)⟩ (hb _ (by simp)) ?_
    refine .cons _ ['\n'] _ _ (hb _ (by simp)) (hb _ (by simp)) ?_
    iterate 8
      refine .cons _ ['\n'] _ _ (hi _ _ (hn _ (by decide)) (hv _ (by decide) (by decide) (by decide))) (hb _ (by simp)) ?_
    refine .cons _ ['\n'] _ _ ⟨hb _ (by simp), hn _ (by decide), hb _ (by simp), hb _ (by simp), hv _ (by decide) (by decide) (by decide), hb _ (by simp)⟩ (hb _ (by simp)) .nil
  · intro n hn v
    rw [lastValue_iff, lastValue_iff]
    have : lastOfItems cfgItems n = lastOfItems cfgItems' n := by revert n; decide
    rw [this]

/-- the run from the command line is the same with the rewritten configuration file -/
theorem C115_example : tecsRun ev dtLen ext ⟨fun n => if n = c% "./tecs.cfg" then some cfgLines' else world.config n, world.chdir⟩ ⟨false, none, false⟩ 5 [] =
    tecsRun ev dtLen ext world ⟨false, none, false⟩ 5 [] := by
  refine C115_run ev dtLen ext world _ _ 5 [] rfl ?_
  intro name
  by_cases h : name = c% "./tecs.cfg"
  · subst h
    exact .inr ⟨cfgLines, cfgLines', by decide, by simp, C115_hypotheses.1⟩
  · left
    simp [h]

end Verif.Props.ProgEx
