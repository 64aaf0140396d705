import Verif.Props.Rinex3File
import Verif.Props.Interval3
import Verif.Props.NavFile
import Verif.Props.Tec
import Verif.Props.Writer
import Verif.Props.Geo
import Verif.Props.Orbit
import Verif.Props.Nystrom
/-!
# Concrete cases

Cases that meet the hypotheses of theorems whose own module has none.
-/
namespace Verif.Props
open Verif.Py Verif.Model Verif.Spec Verif.Proofs

/-- an epoch line with a clock offset, an epoch line without date, and one with an unreadable count -/
theorem C18_example :
    parseEpoch3 (c% "> 2017 02 28 23 59 59.9999999  0 12       0.000000012345\n") = .ok ⟨some ⟨2017, 2, 28, 23, 59, 59, 999999⟩, 0, 12⟩ ∧
    SameLine (c% "> 2017 02 28 23 59 59.9999999  0 12       0.000000012345\n")
      (markLine (some (⟨2017, 2, 28, 23, 59, 59, 999999⟩, 9)) 0 12 (some 12345)) ∧
    DateOk (some (⟨2017, 2, 28, 23, 59, 59, 999999⟩, 9)) ∧
    parseEpoch3 (c% ">                              4  2") = .ok ⟨none, 4, 2⟩ ∧
    parseEpoch3 (c% "> 2017 02 28 23 59 59.9999999  0 1x") = .error .rinex := by
  refine ⟨by decide +kernel, by unfold SameLine; decide +kernel, ?_, by decide +kernel, by decide +kernel⟩
  simp only [DateOk, Legal, LegalDate]; decide

/-- a satellite line with a blank field and a short last field; an announced system and one that is not -/
theorem C19_example : ∃ ch, dataChunks3 [(['G'], [c% "C1C", c% "L1C", c% "S1C"])] = .ok ch ∧
    parseObs3 [(['G'], [c% "C1C", c% "L1C", c% "S1C"])] ch (c% "G 5  20000000.123 7                        45.000") =
      .ok (c% "G05", [(.fin (20000000123 / 1000), 0, 7), (.fin 0, 0, 0), (.fin 45, 0, 0)]) ∧
    SameLine (c% "G 5  20000000.123 7                        45.000") (satLine ⟨'G', 5, false⟩ [.val 20000000123 none (some 7), .blank, .val 45000 none none]) ∧
    parseObs3 [(['G'], [c% "C1C", c% "L1C", c% "S1C"])] ch (c% "G05          .500           -.50017") =
      .ok (c% "G05", [(.fin (1 / 2), 0, 0), (.fin (-1 / 2), 1, 7), (.fin 0, 0, 0)]) ∧
    SameLine (c% "G05          .500           -.50017") (satLine ⟨'G', 5, true⟩ [.val 500 none none true, .val (-500) (some 1) (some 7) true, .blank]) ∧
    parseObs3 [(['G'], [c% "C1C"])] ch (c% "R05  20000000.123 7") = .error .rinex :=
  ⟨_, rfl, by decide +kernel, by unfold SameLine; decide +kernel, by decide +kernel, by unfold SameLine; decide +kernel, by decide +kernel⟩

/-- two epochs 30 s apart around an event: the interval is found; without a readable date the search does not end -/
theorem C22_example :
    Marks [c% "> 2017 02 28 23 59  0.0000000  0  0\n", c% ">                              4  1\n", c% "x\n", c% "> 2017 02 28 23 59 30.0000000  0  0\n"]
      [(some ⟨2017, 2, 28, 23, 59, 0, 0⟩, 0), (none, 4), (some ⟨2017, 2, 28, 23, 59, 30, 0⟩, 0)] ∧
    detInterval3 9 [c% "> 2017 02 28 23 59  0.0000000  0  0\n", c% ">                              4  1\n", c% "x\n", c% "> 2017 02 28 23 59 30.0000000  0  0\n"] =
      some (.ok 30000000) ∧
    Marks [c% ">                              4  1\n", c% "x\n"] [(none, 4)] ∧ detInterval3 99 [c% ">                              4  1\n", c% "x\n"] = none := by
  refine ⟨.mark (e := ⟨some ⟨2017, 2, 28, 23, 59, 0, 0⟩, 0, 0⟩) rfl (by decide +kernel) (.mark (e := ⟨none, 4, 1⟩) rfl (by decide +kernel) (.other (by decide) (by decide)
    (.mark (e := ⟨some ⟨2017, 2, 28, 23, 59, 30, 0⟩, 0, 0⟩) rfl (by decide +kernel) .nil))), by decide +kernel,
    .mark (e := ⟨none, 4, 1⟩) rfl (by decide +kernel) (.other (by decide) (by decide) .nil), by decide +kernel⟩

/-- a GLONASS message without its last line in front of a complete one -/
theorem C27_example :
    EpochLine true 302 none (exNav 3 7).epochLine3 'R' 3 ⟨2015, 12, 19, 0, 15, 0, 0⟩ ∧
    OrbitLines true ((exNav 3 7).rows.map (ORow.render 4)).dropLast ∧ ((exNav 3 7).rows.map (ORow.render 4)).dropLast.length < (rowSizes 'R').length ∧
    loadNav (navCfg3 302) (some ⟨2015, 12, 19⟩) (hline [] lblEnd :: ((exLines (exNav 3 7)).dropLast ++ exLines (exNav 5 6))) = .error .rinex ∧
    (loadNav (navCfg3 302) (some ⟨2015, 12, 19⟩) (hline [] lblEnd :: (exLines (exNav 5 6) ++ (exLines (exNav 3 7)).dropLast)) =
      loadNav (navCfg3 302) (some ⟨2015, 12, 19⟩) (hline [] lblEnd :: exLines (exNav 5 6))) ∧
    ∃ T, loadNav (navCfg3 302) (some ⟨2015, 12, 19⟩) (hline [] lblEnd :: exLines (exNav 5 6)) = .ok T ∧ T.length = 1 := by
  refine ⟨⟨by decide +kernel, by decide +kernel, by decide +kernel⟩, ?_, by decide, by rfl, by rfl, _, rfl, by rfl⟩
  unfold OrbitLines
  decide +kernel

/-- one frequency: code and phase of a satellite at 20000 km through 50 TECU, before and after a change of the distance -/
theorem C45_example :
    pseudorange (20000000 : ℚ) 50 1575420000 ≠ 0 ∧ carrierPhase (20000000 : ℚ) 50 1575420000 7 ≠ 0 ∧
    (computeViaLC true (some (carrierPhase (20000000 : ℚ) 50 1575420000 7)) (some (pseudorange (20000000 : ℚ) 50 1575420000)) (some 1575420000)).isSome ∧
    (computeViaLC true (some (carrierPhase (21000000 : ℚ) 53 1575420000 7)) (some (pseudorange (21000000 : ℚ) 53 1575420000)) (some 1575420000)) =
      (computeViaLC true (some (carrierPhase (20000000 : ℚ) 50 1575420000 7)) (some (pseudorange (20000000 : ℚ) 50 1575420000)) (some 1575420000)).map (· + 3) := by
  decide +kernel

/-- slots of 30 s: on the grid, half way (down), and just above -/
theorem C54_example :
    tsnOf ⟨2015, 1, 2, 1, 0, 0, 0⟩ 30 = .ok 120 ∧ tsnOf ⟨2015, 1, 2, 1, 0, 15, 0⟩ 30 = .ok 120 ∧ tsnOf ⟨2015, 1, 2, 1, 0, 15, 1⟩ 30 = .ok 121 ∧
    secOfDay ⟨2015, 1, 2, 1, 0, 0, 0⟩ = (120 : Nat) * (30 : Rat) ∧ IsSlot (secOfDay ⟨2015, 1, 2, 1, 0, 15, 1⟩ / 30) 121 := by
  refine ⟨by decide +kernel, by decide +kernel, by decide +kernel, by decide +kernel, ?_⟩
  unfold IsSlot
  decide +kernel

end Verif.Props

namespace Verif.Props
open Verif.Py Verif.Model.Geo Verif.Spec.Geo

/-- the position of a station has coordinates in degrees -/
theorem C66_example : ∃ l b h, xyz2lbhDeg 8 (-968310) 3794414 5018167 = .ok (some (l, b, h)) ∧ IsDirection l 3794414 (-968310) := by
  obtain ⟨L, B, H, hr⟩ := C65_example.2
  have : ∃ l b h, xyz2lbhDeg 8 (-968310) 3794414 5018167 = .ok (some (l, b, h)) := by
    unfold xyz2lbhDeg
    rw [hr]
    exact ⟨_, _, _, rfl⟩
  obtain ⟨l, b, h, e⟩ := this
  exact ⟨l, b, h, e, (C66_degrees 8 _ _ _ l b h (.inl (by norm_num)) e).1⟩

/-- a GLONASS message and a motion that starts with its position and velocity -/
theorem C69_example : ((10000, 15000, 18000) : Vec) ≠ (0, 0, 0) ∧ ∃ Q V,
    Motion (frozenAcc earthMu iccRadius iccJ2 earthOmega (len (scale 1000 (10000, 15000, 18000))) (scale 1000 (-0.5, 2, -1.5)) (scale 1000 (0, 1e-9, -2e-9))) Q V ∧
    Q 0 = scale 1000 (10000, 15000, 18000) ∧ V 0 = scale 1000 (-0.5, 2, -1.5) :=
  ⟨by norm_num, C69_motion_exists _ _ _ _ _ _ _ _ _⟩

end Verif.Props
