import Verif.Spec.Program
import Verif.Props.Version
import Verif.Props.FileDate
import Verif.Props.ObsNames
import Verif.Props.Xyz
import Verif.Props.Rinex2File
import Verif.Props.Rinex3File
import Verif.Props.Label
/-!
# Lemmas on the whole run
-/
namespace Verif.Proofs
open Verif.Py Verif.Model Verif.Spec Verif.Props

/-! ## the first line -/

theorem numText_chars {s : Str} {q : Rat} (h : NumText s q) : ∀ c ∈ s, isDigit c = true ∨ c = '.' := by
  obtain ⟨a, b, -, h1, h2, h | h⟩ := h
  · obtain ⟨rfl, -⟩ := h
    exact fun c hc => .inl (h1 c hc)
  · obtain ⟨rfl, -⟩ := h
    intro c hc
    simp only [List.mem_append, List.mem_cons] at hc
    rcases hc with hc | rfl | hc
    · exact .inl (h1 c hc)
    · exact .inr rfl
    · exact .inl (h2 c hc)

/-- the version line as written is read -/
theorem obsVersion_written (v : Nat) (hv : v ∈ [200, 210, 211, 300, 301, 302, 303]) (f s : Char) (hf : f ≠ '\n') (hs : s ≠ '\n') (d : Str × Str) (hd : WordsOk d) (w : Str)
    (hw : ∀ c ∈ w, isSpace c = true) : obsVersion ((HLine.version v f s d).render v ++ w) = .ok v := by
  rw [C24_obs]
  refine ⟨(v : Rat) / 100, ?_, ?_⟩
  · refine ⟨List.replicate 5 ' ', fixedDec 2 v, List.replicate 11 ' ' ++ [f] ++ padRight 19 d.1 ++ [s] ++ padRight 19 d.2, lbl1, ?_, ?_, ?_, ?_, ?_, ?_⟩
    · have e : (HLine.version v f s d).render v ++ w = ((List.replicate 5 ' ' ++ fixedDec 2 v ++
          (List.replicate 11 ' ' ++ [f] ++ padRight 19 d.1 ++ [s] ++ padRight 19 d.2) ++ c% "RINEX VERSION / TYP") ++ ['E']) ++ w := by
        have hp : padLeft 9 (fixedDec 2 v) = List.replicate 5 ' ' ++ fixedDec 2 v := by
          simp only [List.mem_cons, List.not_mem_nil, or_false] at hv
          rcases hv with rfl | rfl | rfl | rfl | rfl | rfl | rfl <;> decide
        have hl : (fixedDec 2 v).length = 4 := by
          simp only [List.mem_cons, List.not_mem_nil, or_false] at hv
          rcases hv with rfl | rfl | rfl | rfl | rfl | rfl | rfl <;> decide
        simp only [HLine.render, hline, hp, padRight]
        have : 60 - (List.replicate 5 ' ' ++ fixedDec 2 (v : Int) ++ List.replicate 11 ' ' ++ [f] ++ (d.1 ++ List.replicate (19 - d.1.length) ' ') ++ [s] ++ d.2).length = 19 - d.2.length := by
          simp only [List.length_append, List.length_replicate, List.length_singleton, hl]
          have := hd.1
          omega
        rw [this]
        simp only [List.append_assoc, List.append_cancel_left_eq]
        rfl
      rw [e, rstrip_append_space _ _ hw, rstrip_of_last _ _ (by decide)]
      simp only [List.append_assoc]
      rfl
    · decide
    · simp only [List.mem_cons, List.not_mem_nil, or_false] at hv
      rcases hv with rfl | rfl | rfl | rfl | rfl | rfl | rfl
      · exact ⟨c% "2", c% "00", by decide, by decide, by decide, .inr ⟨by decide, by decide +kernel⟩⟩
      · exact ⟨c% "2", c% "10", by decide, by decide, by decide, .inr ⟨by decide, by decide +kernel⟩⟩
      · exact ⟨c% "2", c% "11", by decide, by decide, by decide, .inr ⟨by decide, by decide +kernel⟩⟩
      · exact ⟨c% "3", c% "00", by decide, by decide, by decide, .inr ⟨by decide, by decide +kernel⟩⟩
      · exact ⟨c% "3", c% "01", by decide, by decide, by decide, .inr ⟨by decide, by decide +kernel⟩⟩
      · exact ⟨c% "3", c% "02", by decide, by decide, by decide, .inr ⟨by decide, by decide +kernel⟩⟩
      · exact ⟨c% "3", c% "03", by decide, by decide, by decide, .inr ⟨by decide, by decide +kernel⟩⟩
    · intro c r q' hc hn
      have : c = ' ' := by
        simp only [List.replicate_succ, List.cons_append, List.cons.injEq] at hc
        exact hc.1.symm
      subst this
      have := numText_chars hn ' ' (by simp)
      revert this; decide
    · simp only [padRight, List.mem_append, List.mem_replicate, List.mem_singleton, not_or]
      exact ⟨⟨⟨⟨by decide, fun h => hf h.symm⟩, hd.2.2.1, fun h => absurd h.2 (by decide)⟩, fun h => hs h.symm⟩, hd.2.2.2, fun h => absurd h.2 (by decide)⟩
    · rfl
  · simp only [List.mem_cons, List.not_mem_nil, or_false] at hv
    rcases hv with rfl | rfl | rfl | rfl | rfl | rfl | rfl <;> simp [obsReaders]

/-! ## all or nothing -/

theorem allOf_map {α β : Type} {f : α → Option β} {g : α → β} {l : List α} (h : ∀ a ∈ l, f a = some (g a)) : allOf f l = some (l.map g) := by
  induction l with
  | nil => rfl
  | cons a l ih =>
    simp only [allOf, h a (by simp), Option.bind_some, ih fun x hx => h x (by simp [hx]), Option.map_some, List.map_cons]

theorem allOf_get {α β : Type} {f : α → Option β} {l : List α} {r : List β} (h : allOf f l = some r) :
    r.length = l.length ∧ ∀ (i : Nat) (a : α), l[i]? = some a → ∃ b, f a = some b ∧ r[i]? = some b := by
  induction l generalizing r with
  | nil => cases h; simp
  | cons a l ih =>
    simp only [allOf] at h
    cases ha : f a with
    | none => rw [ha] at h; cases h
    | some b =>
      rw [ha] at h
      simp only [Option.bind_some, Option.map_eq_some_iff] at h
      obtain ⟨r', hr, rfl⟩ := h
      obtain ⟨h1, h2⟩ := ih hr
      refine ⟨by simp [h1], fun i x hx => ?_⟩
      cases i with
      | zero => simp only [List.getElem?_cons_zero, Option.some.injEq] at hx; subst hx; exact ⟨b, ha, rfl⟩
      | succ i => simpa using h2 i x (by simpa using hx)

/-! ## spacings of repeated times -/

theorem spacings_cons_same (a : DateTime) (l : List DateTime) : spacings (a :: a :: l) = spacings (a :: l) := by
  simp [spacings]

theorem spacings_cons (a b : DateTime) (l : List DateTime) :
    spacings (a :: b :: l) = (if a = b then [] else [instant b - instant a]) ++ spacings (b :: l) := by
  simp only [spacings, List.tail_cons, List.zip_cons_cons, List.filter_cons]
  by_cases h : a = b <;> simp [h]

theorem spacings_replicate (a : DateTime) (n : Nat) (l : List DateTime) : spacings (List.replicate (n + 1) a ++ l) = spacings (a :: l) := by
  induction n with
  | zero => rfl
  | succ n ih =>
    rw [List.replicate_succ, List.replicate_succ, List.cons_append, List.cons_append, spacings_cons_same, ← List.cons_append, ← List.replicate_succ, ih]

theorem spacings_blocks (es : List (Nat × DateTime)) (h : ∀ e ∈ es, e.1 ≠ 0) (a : DateTime) :
    spacings (a :: (es.map fun e => List.replicate e.1 e.2).flatten) = spacings (a :: es.map (·.2)) := by
  induction es generalizing a with
  | nil => rfl
  | cons e es ih =>
    obtain ⟨n, t⟩ := e
    obtain ⟨m, rfl⟩ : ∃ m, n = m + 1 := ⟨n - 1, by have := h (n, t) (by simp); simp at this; omega⟩
    simp only [List.map_cons, List.flatten_cons]
    rw [List.replicate_succ, List.cons_append, spacings_cons, spacings_cons, ← List.cons_append, ← List.replicate_succ, spacings_replicate,
      ih fun e he => h e (by simp [he])]

theorem spacings_epochs (es : List Epoch) (h : ∀ e ∈ es, e.sats ≠ []) :
    spacings ((es.map fun e => List.replicate e.sats.length e.time).flatten) = spacings (es.map (·.time)) := by
  cases es with
  | nil => rfl
  | cons e es =>
    have hl : ∀ e' ∈ e :: es, e'.sats.length ≠ 0 := by
      intro e' he'; rw [Ne, List.length_eq_zero_iff]; exact h e' he'
    obtain ⟨m, hm⟩ : ∃ m, e.sats.length = m + 1 := ⟨e.sats.length - 1, by have := hl e (by simp); omega⟩
    simp only [List.map_cons, List.flatten_cons, hm]
    rw [spacings_replicate]
    have := spacings_blocks (es.map fun e => (e.sats.length, e.time)) (by
      intro x hx; obtain ⟨e', he', rfl⟩ := List.mem_map.1 hx; exact hl e' (by simp [he'])) e.time
    simpa [List.map_map, Function.comp_def] using this

/-! ## records -/

theorem recOf2_says (ts : List Str) (fs : List Field) : recOf2 (ts.zip (fs.map Field.says)) = some (ts.zip (fs.map Field.obs2)) := by
  induction ts generalizing fs with
  | nil => rfl
  | cons t ts ih =>
    cases fs with
    | nil => rfl
    | cons f fs =>
      simp only [List.map_cons, List.zip_cons_cons]
      cases f with
      | blank => simp [Field.says, Field.obs2, recOf2, ih]
      | val n l s z => simp [Field.says, Field.obs2, recOf2, ratOf, ih]

theorem recOf3_says (ts : List Str) (fs : List Field) : recOf3 (ts.zip (fs.map Field.says3)) = some (ts.zip (fs.map Field.obs3)) := by
  induction ts generalizing fs with
  | nil => rfl
  | cons t ts ih =>
    cases fs with
    | nil => rfl
    | cons f fs =>
      simp only [List.map_cons, List.zip_cons_cons]
      cases f with
      | blank => simp [Field.says3, Field.obs3, recOf3, ratOf, ih]
      | val n l s z => simp [Field.says3, Field.obs3, recOf3, ratOf, ih]

theorem posOf_header (hs : List HLine) :
    posOf ((hs.findSome? HLine.saysPosition).getD [.fin 0, .fin 0, .fin 0]) = some (sitePos hs) := by
  unfold sitePos
  induction hs with
  | nil => rfl
  | cons h hs ih =>
    cases h <;> simp only [List.findSome?_cons, HLine.saysPosition, HLine.pos, Option.getD_some] <;> first | exact ih | rfl

theorem namedDay_iff (path : Str) (d : Date) (hp : ∃ name, LastComponent path name) : getRinexDate path = some d ↔ NamedDay path d := by
  obtain ⟨name, hn⟩ := hp
  rw [C37_date path name hn]
  constructor
  · rintro ⟨y, n, h⟩; exact ⟨name, y, n, hn, h⟩
  · rintro ⟨name', y, n, h0, h⟩
    have : name' = name := by rw [← basename_of_last h0, ← basename_of_last hn]
    subst this
    exact ⟨y, n, h⟩

end Verif.Proofs
