import Verif.Props.OtherDays
import Verif.Props.Strength
/-!
# Hypotheses of C113, C118, C119, C120, C121 for RINEX 3 files
-/
namespace Verif.Props.ProgEx
open Verif.Py Verif.Spec Verif.Model Verif.Proofs

/-- the variants of the example: an event between the epochs, a QZSS satellite, other digits for the signal strength, an epoch of the next day, a column of signal strengths at the seventh frequency -/
structure Variant where
  event : Bool := false
  foreign : Bool := false
  digits : Bool := false
  later : Bool := false
  column : Bool := false

def satW (w : Variant) : SatId × List Spec.Field :=
  (⟨'G', 5, true⟩, [.val 20000000123 (if w.digits then some 0 else none) (if w.digits then some 3 else some 7), .blank] ++ if w.column then [.val 45000 none none] else [])

def satJ : SatId × List Spec.Field := (⟨'J', 2, true⟩, [.val 77 none none])

def items3W (w : Variant) : List Item3 :=
  [.obs ⟨⟨2017, 2, 28, 23, 59, 0, 0⟩, 0, 0, none, (if w.foreign then [satJ] else []) ++ [satW w]⟩] ++ (if w.event then [.event ⟨none, 5, none, [c% "external event"]⟩] else []) ++
   [.obs ⟨⟨2017, 2, 28, 23, 59, 30, 0⟩, 0, 0, none, [satW w]⟩] ++ if w.later then [.obs ⟨⟨2017, 3, 1, 0, 0, 0, 0⟩, 0, 0, none, [satW w]⟩] else []

def entries3W (w : Variant) : List HEntry :=
  [.line (.firstObs ⟨2017, 2, 28, 23, 59, 0, 0⟩ 0 (c% "GPS")),
   .sys 'G' (if w.column then 3 else 2) ([⟨'C', '1', 'C'⟩, ⟨'L', '1', 'C'⟩] ++ if w.column then [⟨'S', '7', 'Q'⟩] else []), .line (.position 10000 20000 30000)] ++
   if w.foreign then [.sys 'J' 1 [⟨'C', '1', 'C'⟩]] else []

def obsLines3W (w : Variant) : List Str :=
  ((HEntry.line (.version 302 'O' 'M' obsWords) :: entries3W w).map (HEntry.lines 302)).flatten.map (· ++ ['\n']) ++ (hline [] lblEnd ++ ['\n']) :: bodyLines3 (items3W w)

theorem satW_ok (w : Variant) : (satW w).1.Ok3 ∧ (∃ ts, (typeMapOf 302 (entries3W w)).of (satW w).1.sys = some ts ∧ ts.Nodup ∧ (satW w).2.length = ts.length) ∧ ∀ f ∈ (satW w).2, f.Ok := by
  refine ⟨by unfold SatId.Ok3; rcases w with ⟨_ | _, _ | _, _ | _, _ | _, _ | _⟩ <;> decide, ?_, ?_⟩
  · rcases w with ⟨_ | _, _ | _, _ | _, _ | _, _ | _⟩ <;> exact ⟨_, rfl, by decide, rfl⟩
  · intro f hf
    obtain ⟨_, _, d, _, c⟩ := w
    have h1 : (Spec.Field.val 20000000123 none (some 7)).Ok := ⟨by decide +kernel, by simp, by simp⟩
    have h2 : (Spec.Field.val 20000000123 (some 0) (some 3)).Ok := ⟨by decide +kernel, by simp, by simp⟩
    have h3 : (Spec.Field.val 45000 none none).Ok := ⟨by decide +kernel, by simp, by simp⟩
    cases d <;> cases c <;> simp [satW] at hf
    · rcases hf with rfl | rfl
      · exact h1
      · trivial
    · rcases hf with rfl | rfl | rfl
      · exact h1
      · trivial
      · exact h3
    · rcases hf with rfl | rfl
      · exact h2
      · trivial
    · rcases hf with rfl | rfl | rfl
      · exact h2
      · trivial
      · exact h3

theorem satJ_ok (w : Variant) (h : w.foreign = true) : satJ.1.Ok3 ∧ (∃ ts, (typeMapOf 302 (entries3W w)).of satJ.1.sys = some ts ∧ ts.Nodup ∧ satJ.2.length = ts.length) ∧ ∀ f ∈ satJ.2, f.Ok := by
  refine ⟨by unfold SatId.Ok3; decide, ?_, ?_⟩
  · rcases w with ⟨_ | _, _ | _, _ | _, _ | _, _ | _⟩ <;> first | exact ⟨_, rfl, by decide, rfl⟩ | cases h
  · intro f hf
    simp only [satJ, List.mem_cons, List.not_mem_nil, or_false] at hf
    subst hf
    exact ⟨by decide +kernel, by simp, by simp⟩

theorem epW_ok (w : Variant) (t : DateTime) (hz : DateOk (some (t, 0))) (sats : List (SatId × List Spec.Field)) (hn : sats.length < 1000)
    (hs : ∀ s ∈ sats, s = satW w ∨ s = satJ ∧ w.foreign = true) : (Item3.obs ⟨t, 0, 0, none, sats⟩).Ok (typeMapOf 302 (entries3W w)) := by
  refine ⟨hz, Nat.zero_le _, hn, ?_⟩
  intro s h
  rcases hs s h with rfl | ⟨rfl, hw⟩
  · exact satW_ok w
  · exact satJ_ok w hw

theorem items3W_ok (w : Variant) : ∀ i ∈ items3W w, i.Ok (typeMapOf 302 (entries3W w)) := by
  intro i hi
  simp only [items3W, List.mem_append, List.mem_cons, List.not_mem_nil, or_false] at hi
  rcases hi with ((rfl | hi) | rfl) | hi
  · refine epW_ok w _ ⟨(legal_iff _).2 (by decide), by decide, by decide⟩ _ ?_ ?_
    · split <;> simp
    · intro s hs
      split at hs
      · next h => simp at hs; rcases hs with rfl | rfl
                  · exact .inr ⟨rfl, h⟩
                  · exact .inl rfl
      · simp at hs; exact .inl hs
  · split at hi
    · simp at hi
      subst hi
      exact ⟨trivial, by decide, by decide, by decide, by decide⟩
    · cases hi
  · exact epW_ok w _ ⟨(legal_iff _).2 (by decide), by decide, by decide⟩ _ (by simp) (by simp)
  · split at hi
    · simp at hi
      subst hi
      exact epW_ok w _ ⟨(legal_iff _).2 (by decide), by decide, by decide⟩ _ (by simp) (by simp)
    · cases hi

theorem file3W (w : Variant) : File3 (obsLines3W w) 302 'M' (entries3W w) (items3W w) ⟨2017, 2, 28, 23, 59, 0, 0⟩ ⟨2017, 2, 28, 23, 59, 30, 0⟩ := by
  have hl1 : Legal ⟨2017, 2, 28, 23, 59, 0, 0⟩ := by simp only [Legal, LegalDate]; decide
  have hl2 : Legal ⟨2017, 2, 28, 23, 59, 30, 0⟩ := by simp only [Legal, LegalDate]; decide
  refine ⟨by decide, ⟨'O', obsWords, _, _, _, by decide, by decide, by decide, rfl, physical_nl _, ?_, by decide +kernel, written_refl _, ?_⟩, ?_, ?_, ?_,
    items3W_ok w, ?_, ?_, ⟨hl1, hl2⟩, by decide +kernel, by decide +kernel⟩
  · rcases w with ⟨_ | _, _ | _, _ | _, _ | _, _ | _⟩ <;> decide +kernel
  · rcases w with ⟨_ | _, _ | _, _ | _, _ | _, _ | _⟩ <;> decide +kernel
  · intro e he
    simp only [entries3W, List.mem_append, List.mem_cons, List.not_mem_nil, or_false] at he
    rcases he with (rfl | rfl | rfl) | he
    · exact ⟨⟨hl1, (by decide : 100 ≤ 2017), by decide, rfl⟩, by simp⟩
    · rcases w with ⟨_ | _, _ | _, _ | _, _ | _, _ | _⟩ <;>
      · refine ⟨by decide, by simp, ?_⟩
        simp only [Code.Ok]
        decide
    · refine ⟨?_, by simp⟩
      show ∀ n ∈ _, _
      decide +kernel
    · split at he
      · simp at he
        subst he
        refine ⟨by decide, by omega, ?_⟩
        simp only [Code.Ok]
        decide
      · cases he
  · intro s n codes hm
    obtain ⟨_, f, _, _, c⟩ := w
    cases f <;> cases c <;> simp [entries3W] at hm
    · obtain ⟨-, rfl, rfl⟩ := hm; rfl
    · obtain ⟨-, rfl, rfl⟩ := hm; rfl
    · rcases hm with ⟨-, rfl, rfl⟩ | ⟨-, rfl, rfl⟩ <;> rfl
    · rcases hm with ⟨-, rfl, rfl⟩ | ⟨-, rfl, rfl⟩ <;> rfl
  · rcases w with ⟨_ | _, _ | _, _ | _, _ | _, _ | _⟩ <;> exact ⟨by decide, by decide⟩
  · intro e he
    obtain ⟨e, f, d, l, c⟩ := w
    cases e <;> cases l <;> simp [items3W] at he <;> subst he <;> decide
  · rcases w with ⟨_ | _, _ | _, _ | _, _ | _, _ | _⟩ <;> exact ⟨_, rfl, by decide⟩

/-- C113, RINEX 3: an event more -/
theorem C113_hypotheses3 : SameObs3 (obsLines3W {}) (obsLines3W { event := true }) :=
  ⟨302, 'M', _, _, _, _, _, _, file3W _, file3W _, rfl, rfl, rfl, rfl, rfl, rfl⟩

/-- C118, RINEX 3: a column more -/
theorem C118_hypotheses3 : SameUsed3 (obsLines3W {}) (obsLines3W { column := true }) := by
  have hu : ∀ code, ¬ Unused code → code ≠ c% "S7Q" := by
    rintro code h rfl
    exact h ⟨c% "S7", by decide, .coded 'S' '7' 'Q' (c% "IQX") (by decide) (by decide)⟩
  refine ⟨302, 'M', _, _, _, _, _, _, file3W _, file3W _, rfl, rfl, ?_, rfl, rfl, ?_⟩
  · intro c
    by_cases h1 : c = 'G'
    · subst h1
      refine .inr ⟨[c% "C1C", c% "L1C"], [c% "C1C", c% "L1C", c% "S7Q"], rfl, rfl, fun code h => ?_⟩
      have := hu code h
      simp [this]
    · left
      have h1' : ¬ 'G' = c := fun h => h1 h.symm
      constructor <;> simp [TypeMap.of, typeMapOf, entries3W, h1']
  · have h : SameUsedFields [c% "C1C", c% "L1C"] [c% "C1C", c% "L1C", c% "S7Q"] (satW {}) (satW { column := true }) := by
      refine ⟨rfl, fun code field h => ?_⟩
      have := hu code h
      simp [satW, this]
    exact .cons ⟨rfl, .cons h .nil⟩ (.cons ⟨rfl, .cons h .nil⟩ .nil)

/-- C119, RINEX 3: a satellite of QZSS and its types in the header -/
theorem C119_hypotheses3 : SameProcessed3 (obsLines3W {}) (obsLines3W { foreign := true }) :=
  ⟨302, 'M', _, _, _, _, _, _, file3W _, file3W _, rfl, rfl, by decide, rfl, rfl, .cons ⟨rfl, rfl⟩ (.cons ⟨rfl, rfl⟩ .nil)⟩

/-- C120, RINEX 3: other digits -/
theorem C120_hypotheses3 : SameMarks3 (obsLines3W {}) (obsLines3W { digits := true }) := by
  have h : SameMarks (satW {}) (satW { digits := true }) := ⟨rfl, .cons (.val _ _ _ _ _ _ _ rfl) (.cons .blank .nil)⟩
  exact ⟨302, 'M', _, _, _, _, _, _, file3W _, file3W _, rfl, rfl, rfl, rfl, rfl, .cons ⟨rfl, .cons h .nil⟩ (.cons ⟨rfl, .cons h .nil⟩ .nil)⟩

/-- C121, RINEX 3: an epoch of the next day -/
theorem C121_hypotheses3 : SameDay3 obsPath3 (obsLines3W {}) (obsLines3W { later := true }) := by
  refine ⟨302, 'M', _, _, _, _, _, _, _, _, file3W _, file3W _, rfl, rfl, rfl, rfl, rfl, rfl, obsOf3 (items3W {}), ?_⟩
  have h : ∀ t : DateTime, decide (t.date = ⟨2017, 2, 28⟩) = true ↔ NamedDay obsPath3 t.date := by
    intro t
    rw [← namedDay_iff obsPath3 _ (readAs_last C73_hypotheses3.2.1), show getRinexDate obsPath3 = some ⟨2017, 2, 28⟩ from by decide +kernel]
    simp [eq_comm]
  exact ⟨⟨_, h, rfl⟩, ⟨_, h, rfl⟩⟩

/-- the archive of the example with such a file -/
def disk3W (w : Variant) : Disk := { disk3 with lines := fun f p => if f = .gunzipCrx ∧ p = obsPath3 then .ok (obsLines3W w) else disk3.lines f p }

/-- the runs, by calculation: one file with two records -/
theorem alike3_example : ∀ w ∈ [{}, { event := true }, { foreign := true }, { digits := true }, { later := true }, { column := true }, ⟨true, true, true, true, true⟩],
    (program ext (disk3W w) cfg 5 []).map (fun r => (r.err, r.fs.map fun f => (f.1, (splitOn '\n' f.2).length))) = some (none, [(c% "out/2017/059/IRKJ/IRKJ_G05_059_17.dat", 14)]) ∧
    (program ext (disk3W w) cfg 5 []).map (fun r => r.fs) = (program ext (disk3W {}) cfg 5 []).map (fun r => r.fs) := by decide +kernel

end Verif.Props.ProgEx
