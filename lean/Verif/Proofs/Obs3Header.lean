import Verif.Spec.Rinex3
import Verif.Model.Obs3
import Verif.Proofs.Split
import Verif.Proofs.HeaderLines
import Verif.Props.Header
/-! # `SYS / # / OBS TYPES` -/
namespace Verif.Proofs
open Verif.Py Verif.Model Verif.Spec Verif.Props

theorem Code.text_solid {c : Code} (h : c.Ok) : ∀ x ∈ c.text, isSpace x = false := by
  obtain ⟨h1, h2, h3, _⟩ := h
  simp [Code.text, h1, h2, h3]

theorem codeCols_nil : codeCols [] = [] := rfl
theorem codeCols_cons (c : Code) (l : List Code) : codeCols (c :: l) = ' ' :: c.text ++ codeCols l := by simp [codeCols]

theorem codeCols_length (l : List Code) : (codeCols l).length = 4 * l.length := by
  induction l with
  | nil => rfl
  | cons c l ih => rw [codeCols_cons]; simp [ih, Code.text]; omega

theorem codeCols_head (l : List Code) (r : Str) (hr : r = [] ∨ ∃ c t, r = c :: t ∧ isSpace c = true) :
    codeCols l ++ r = [] ∨ ∃ c t, codeCols l ++ r = c :: t ∧ isSpace c = true := by
  cases l with
  | nil => simpa [codeCols] using hr
  | cons c l => right; rw [codeCols_cons]; exact ⟨' ', _, rfl, by decide⟩

theorem splitWs_codeCols (l : List Code) (h : ∀ c ∈ l, c.Ok) (r : Str)
    (hr : r = [] ∨ ∃ c t, r = c :: t ∧ isSpace c = true) :
    splitWs (codeCols l ++ r) = l.map Code.text ++ splitWs r := by
  induction l with
  | nil => rfl
  | cons c l ih =>
    rw [codeCols_cons]
    rw [show ' ' :: c.text ++ codeCols l ++ r = [' '] ++ (c.text ++ (codeCols l ++ r)) by simp,
      splitWs_space _ _ (by simp),
      splitWs_word _ _ (by simp [Code.text]) (Code.text_solid (h c (by simp))) (codeCols_head l r hr),
      ih fun x hx => h x (by simp [hx])]
    rfl

/-- the codes of a continuation line after its first blank -/
theorem splitWs_codeCols_tail (l : List Code) (hne : l ≠ []) (h : ∀ c ∈ l, c.Ok) (r : Str)
    (hr : r = [] ∨ ∃ c t, r = c :: t ∧ isSpace c = true) :
    splitWs ((codeCols l).drop 1 ++ r) = l.map Code.text ++ splitWs r := by
  have := splitWs_codeCols l h r hr
  cases l with
  | nil => exact absurd rfl hne
  | cons c l =>
    rw [codeCols_cons] at this ⊢
    rw [← this]
    rw [show ' ' :: c.text ++ codeCols l ++ r = [' '] ++ (c.text ++ codeCols l ++ r) by simp,
      splitWs_space [' '] (c.text ++ codeCols l ++ r) (by simp)]
    rfl

theorem starts_blank (k : Nat) (x : Str) (hk : 1 ≤ k) :
    List.replicate k ' ' ++ x = [] ∨ ∃ c t, List.replicate k ' ' ++ x = c :: t ∧ isSpace c = true := by
  obtain ⟨j, rfl⟩ : ∃ j, k = j + 1 := ⟨k - 1, by omega⟩
  exact Or.inr ⟨' ', List.replicate j ' ' ++ x, by rw [List.replicate_succ]; rfl, by decide⟩

/-- what joining makes of the lines of one system -/
def joined (s : Char) (n : Nat) (codes : List Code) : Str :=
  padRight 60 ([s, ' ', ' '] ++ padLeft 3 (natStr n) ++ codeCols (codes.take 13)) ++
  ((chunks 13 (codes.drop 13)).map fun c =>
    (codeCols c).drop 1 ++ List.replicate (60 - (6 + (codeCols c).length)) ' ').flatten

theorem chunks_bound (k : Nat) (hk : 0 < k) (l : List α) : ∀ c ∈ chunks k l, c ≠ [] ∧ c.length ≤ k ∧ ∀ x ∈ c, x ∈ l := by
  induction h : l.length using Nat.strong_induction_on generalizing l with
  | _ n ih =>
    intro c hc
    by_cases hl : l = []
    · subst hl; simp [chunks_nil] at hc
    · rw [chunks_cons k l hk hl] at hc
      rcases List.mem_cons.1 hc with rfl | hc
      · refine ⟨?_, by simp, fun x hx => List.mem_of_mem_take hx⟩
        intro h0
        rw [List.take_eq_nil_iff] at h0
        rcases h0 with h0 | h0
        · omega
        · exact hl h0
      · have hlt : (l.drop k).length < n := by
          rw [List.length_drop]
          have := List.length_pos_iff.2 hl
          omega
        obtain ⟨a, b, c'⟩ := ih _ hlt (l.drop k) rfl c hc
        exact ⟨a, b, fun x hx => List.mem_of_mem_drop (c' x hx)⟩

theorem splitWs_conts (cs : List (List Code)) (h : ∀ c ∈ cs, c ≠ [] ∧ c.length ≤ 13 ∧ ∀ x ∈ c, x.Ok) :
    splitWs ((cs.map fun c =>
      (codeCols c).drop 1 ++ List.replicate (60 - (6 + (codeCols c).length)) ' ').flatten) =
    (cs.flatten).map Code.text := by
  induction cs with
  | nil => rfl
  | cons c cs ih =>
    obtain ⟨h1, h2, h3⟩ := h c (by simp)
    have hlen := codeCols_length c
    simp only [List.map_cons, List.flatten_cons, List.append_assoc, List.map_append]
    rw [splitWs_codeCols_tail c h1 h3, splitWs_space _ _ mem_blanks, ih fun x hx => h x (by simp [hx])]
    exact starts_blank _ _ (by omega)

theorem splitWs_joined (s : Char) (n : Nat) (codes : List Code) (hs : isSpace s = false) (hn : n < 1000)
    (hc : ∀ c ∈ codes, c.Ok) : splitWs (joined s n codes) = [s] :: natStr n :: codes.map Code.text := by
  unfold joined padRight
  have hlen := codeCols_length (codes.take 13)
  have h13 : (codes.take 13).length ≤ 13 := by simp
  have hl3 := pad3_length hn
  have hcl : ([s, ' ', ' '] ++ padLeft 3 (natStr n) ++ codeCols (codes.take 13)).length ≤ 58 := by
    simp only [List.length_append, hl3, List.length_cons, List.length_nil]; omega
  obtain ⟨k, hk⟩ : ∃ k, 60 - ([s, ' ', ' '] ++ padLeft 3 (natStr n) ++ codeCols (codes.take 13)).length = k + 1 :=
    ⟨60 - ([s, ' ', ' '] ++ padLeft 3 (natStr n) ++ codeCols (codes.take 13)).length - 1, by omega⟩
  rw [hk]
  have hpad : padLeft 3 (natStr n) = List.replicate (3 - (natStr n).length) ' ' ++ natStr n := rfl
  rw [hpad]
  set C := ((chunks 13 (codes.drop 13)).map fun c =>
    (codeCols c).drop 1 ++ List.replicate (60 - (6 + (codeCols c).length)) ' ').flatten with hC
  rw [show [s, ' ', ' '] ++ (List.replicate (3 - (natStr n).length) ' ' ++ natStr n) ++ codeCols (codes.take 13) ++
      List.replicate (k + 1) ' ' ++ C =
    [s] ++ (List.replicate 2 ' ' ++ (List.replicate (3 - (natStr n).length) ' ' ++ (natStr n ++ (codeCols (codes.take 13) ++
      (List.replicate (k + 1) ' ' ++ C))))) by simp]
  rw [splitWs_word _ _ (by simp) (by simpa using hs) (starts_blank 2 _ (by omega)), splitWs_space _ _ mem_blanks,
    splitWs_space _ _ mem_blanks,
    splitWs_word _ _ (natStr_ne_nil n) (fun c hc => isDigit_not_space (natStr_digits n c hc))
      (codeCols_head _ _ (starts_blank _ _ (by omega))),
    splitWs_codeCols _ (fun c h => hc c (List.mem_of_mem_take h)) _
      (starts_blank _ _ (by omega)),
    splitWs_space _ _ mem_blanks, hC, splitWs_conts, chunks_flatten _ _ (by omega), ← List.map_append, List.take_append_drop]
  intro c h
  obtain ⟨a, b, d⟩ := chunks_bound 13 (by omega) _ c h
  exact ⟨a, b, fun x hx => hc x (List.mem_of_mem_drop (d x hx))⟩

/-- the pieces between newlines of the physical lines of one system -/
theorem join_conts (cs : List (List Code)) (h : ∀ c ∈ cs, c ≠ [] ∧ c.length ≤ 13 ∧ ∀ x ∈ c, x.Ok) (xs : List Str)
    (hx : List.Forall₂ (fun x c => ∃ w, x = hline (List.replicate 6 ' ' ++ codeCols c) lblSys ++ w) xs cs)
    (a : Str) (acc rest : List Str) :
    joinSysLines (xs ++ rest) (a :: acc) =
      joinSysLines rest ((a ++ (cs.map fun c =>
        (codeCols c).drop 1 ++ List.replicate (60 - (6 + (codeCols c).length)) ' ').flatten) :: acc) := by
  induction hx generalizing a with
  | nil => simp
  | @cons x c xs cs hxc _ ih =>
    obtain ⟨w, rfl⟩ := hxc
    obtain ⟨h1, h2, h3⟩ := h c (by simp)
    have hlen := codeCols_length c
    have hne : hline (List.replicate 6 ' ' ++ codeCols c) lblSys ++ w ≠ [] := by simp [hline, lblSys]
    have hs6 : slice (hline (List.replicate 6 ' ' ++ codeCols c) lblSys ++ w) 0 6 = List.replicate 6 ' ' := by
      have := slice_hline (a := []) (m := List.replicate 6 ' ') (b := codeCols c) (lbl := lblSys) (w := w) (i := 0) (j := 6)
        rfl (by simp)
      simpa using this
    have hs60 : slice (hline (List.replicate 6 ' ' ++ codeCols c) lblSys ++ w) 7 60 =
        (codeCols c).drop 1 ++ List.replicate (60 - (6 + (codeCols c).length)) ' ' := by
      unfold hline padRight
      cases hcc : c with
      | nil => exact absurd hcc h1
      | cons d c' =>
        rw [codeCols_cons] at *
        rw [show List.replicate 6 ' ' ++ (' ' :: d.text ++ codeCols c') ++
            List.replicate (60 - (List.replicate 6 ' ' ++ (' ' :: d.text ++ codeCols c')).length) ' ' ++ lblSys ++ w =
            (List.replicate 6 ' ' ++ [' ']) ++ (d.text ++ codeCols c' ++
            List.replicate (60 - (List.replicate 6 ' ' ++ (' ' :: d.text ++ codeCols c')).length) ' ') ++ (lblSys ++ w) by simp]
        rw [slice_exact]
        · simp only [List.length_append, List.length_replicate, List.cons_append, List.drop_succ_cons, List.drop_zero,
            List.length_cons, List.append_assoc]
        · simp
        · rw [hcc, codeCols_cons] at hlen
          rw [hcc] at h2
          simp only [List.length_append, List.length_replicate, List.cons_append, List.length_cons, List.length_nil] at *
          omega
    rw [List.cons_append, joinSysLines]
    rw [if_neg hne, hs6, hs60]
    simp only [show isSpaceStr (List.replicate 6 ' ') = true by decide, if_true]
    rw [ih fun y hy => h y (by simp [hy])]
    simp

/-- physical lines without their newline -/
theorem physicalLines_strip {ls cs : List Str} (h : PhysicalLines ls cs) :
    ∃ xs, ls = xs.map (· ++ ['\n']) ∧
      List.Forall₂ (fun x c => ∃ w, x = c ++ w ∧ ∀ y ∈ w, isSpace y = true ∧ y ≠ '\n') xs cs := by
  induction ls generalizing cs with
  | nil =>
    cases cs with
    | nil => exact ⟨[], rfl, .nil⟩
    | cons => simp [PhysicalLines] at h
  | cons l ls ih =>
    cases cs with
    | nil => simp [PhysicalLines] at h
    | cons c cs =>
      obtain ⟨⟨w, rfl, hw⟩, h⟩ := h
      obtain ⟨xs, rfl, hx⟩ := ih h
      exact ⟨(c ++ w) :: xs, rfl, .cons ⟨w, rfl, hw⟩ hx⟩

theorem physicalLines_append {ls as bs : List Str} (h : PhysicalLines ls (as ++ bs)) :
    ∃ la lb, ls = la ++ lb ∧ PhysicalLines la as ∧ PhysicalLines lb bs := by
  induction as generalizing ls with
  | nil => exact ⟨[], ls, rfl, trivial, h⟩
  | cons a as ih =>
    cases ls with
    | nil => simp [PhysicalLines] at h
    | cons l ls =>
      obtain ⟨h1, h2⟩ := h
      obtain ⟨la, lb, rfl, ha, hb⟩ := ih h2
      exact ⟨l :: la, lb, rfl, ⟨h1, ha⟩, hb⟩

theorem physicalLines_mem {ls cs : List Str} (h : PhysicalLines ls cs) : ∀ l ∈ ls, ∃ c ∈ cs, Physical l c := by
  induction ls generalizing cs with
  | nil => simp
  | cons a ls ih =>
    cases cs with
    | nil => simp [PhysicalLines] at h
    | cons c cs =>
      intro l hl
      rcases List.mem_cons.1 hl with rfl | hl
      · exact ⟨c, by simp, h.1⟩
      · obtain ⟨d, hd, hp⟩ := ih h.2 l hl
        exact ⟨d, by simp [hd], hp⟩

theorem sysContent_length {s : Char} {n : Nat} {codes : List Code} (hn : n < 1000) :
    ([s, ' ', ' '] ++ padLeft 3 (natStr n) ++ codeCols (codes.take 13)).length ≤ 60 := by
  have hlen := codeCols_length (codes.take 13)
  have h13 : (codes.take 13).length ≤ 13 := by simp
  simp only [List.length_append, pad3_length hn, List.length_cons, List.length_nil]; omega

/-- the label of every line of a type definition -/
theorem sysLines_label {s : Char} {n : Nat} {codes : List Code} (hn : n < 1000) :
    ∀ c ∈ sysLines s n codes, ∀ w, (∀ x ∈ w, isSpace x = true) → headerLabel (c ++ w) = lblSys := by
  intro c hc w hw
  unfold sysLines at hc
  rcases List.mem_cons.1 hc with rfl | hc
  · exact headerLabel_hline (sysContent_length hn) (by decide) hw
  · obtain ⟨d, hd, rfl⟩ := List.mem_map.1 hc
    obtain ⟨_, h2, _⟩ := chunks_bound 13 (by omega) _ d hd
    refine headerLabel_hline ?_ (by decide) hw
    have := codeCols_length d
    simp only [List.length_append, List.length_replicate]; omega

theorem text_no_nl {c : Code} (h : c.Ok) : ∀ x ∈ c.text, x ≠ '\n' := by
  intro x hx e
  subst e
  have := Code.text_solid h _ hx
  exact absurd this (by decide)

theorem codeCols_no_nl {l : List Code} (h : ∀ c ∈ l, c.Ok) : ∀ x ∈ codeCols l, x ≠ '\n' := by
  induction l with
  | nil => simp [codeCols]
  | cons c l ih =>
    rw [codeCols_cons]
    intro x hx
    simp only [List.cons_append, List.mem_cons, List.mem_append] at hx
    rcases hx with rfl | hx | hx
    · decide
    · exact text_no_nl (h c (by simp)) x hx
    · exact ih (fun y hy => h y (by simp [hy])) x hx

theorem hline_no_nl {c lbl : Str} (hc : ∀ x ∈ c, x ≠ '\n') (hl : ∀ x ∈ lbl, x ≠ '\n') : ∀ x ∈ hline c lbl, x ≠ '\n' := by
  intro x hx
  simp only [hline, padRight, List.mem_append, List.mem_replicate] at hx
  rcases hx with (hx | hx) | hx
  · exact hc x hx
  · rw [hx.2]; decide
  · exact hl x hx

theorem digits_no_nl {s : Str} (h : ∀ c ∈ s, isDigit c = true) : ∀ x ∈ s, x ≠ '\n' := by
  intro x hx e
  subst e
  exact absurd (h _ hx) (by decide)

theorem lblSys_no_nl : ∀ x ∈ lblSys, x ≠ '\n' := by decide

theorem sysLines_no_nl {s : Char} {n : Nat} {codes : List Code} (hs : isSpace s = false) (hc : ∀ c ∈ codes, c.Ok) :
    ∀ l ∈ sysLines s n codes, ∀ x ∈ l, x ≠ '\n' := by
  intro l hl
  unfold sysLines at hl
  rcases List.mem_cons.1 hl with rfl | hl
  · refine hline_no_nl ?_ lblSys_no_nl
    intro x hx
    simp only [List.cons_append, List.nil_append, List.mem_cons, List.mem_append, padLeft, List.mem_replicate] at hx
    rcases hx with rfl | rfl | rfl | (hx | hx) | hx
    · intro e; subst e; exact absurd hs (by decide)
    · decide
    · decide
    · rw [hx.2]; decide
    · exact digits_no_nl (natStr_digits n) x hx
    · exact codeCols_no_nl (fun c h => hc c (List.mem_of_mem_take h)) x hx
  · obtain ⟨d, hd, rfl⟩ := List.mem_map.1 hl
    obtain ⟨_, _, h3⟩ := chunks_bound 13 (by omega) _ d hd
    refine hline_no_nl ?_ lblSys_no_nl
    intro x hx
    simp only [List.mem_append, List.mem_replicate] at hx
    rcases hx with hx | hx
    · rw [hx.2]; decide
    · exact codeCols_no_nl (fun c h => hc c (List.mem_of_mem_drop (h3 c h))) x hx

/-- joining the lines of one system -/
theorem join_block {s : Char} {n : Nat} {codes : List Code} (hs : isSpace s = false) (hn : n < 1000)
    (hc : ∀ c ∈ codes, c.Ok) (xs : List Str)
    (hx : List.Forall₂ (fun x c => ∃ w, x = c ++ w ∧ ∀ y ∈ w, isSpace y = true ∧ y ≠ '\n') xs (sysLines s n codes))
    (acc rest : List Str) :
    joinSysLines (xs ++ rest) acc = joinSysLines rest (joined s n codes :: acc) := by
  unfold sysLines at hx
  cases hx with
  | @cons x _ xs' _ h1 h2 =>
    obtain ⟨w, rfl, _⟩ := h1
    have hlen := sysContent_length (s := s) (codes := codes) hn
    set K := [s, ' ', ' '] ++ padLeft 3 (natStr n) ++ codeCols (codes.take 13) with hK
    have hne : hline K lblSys ++ w ≠ [] := by simp [hline, lblSys]
    have h60 : slice (hline K lblSys ++ w) 0 60 = padRight 60 K := by
      unfold hline
      have := slice_exact (p := []) (m := padRight 60 K) (q := lblSys ++ w) (a := 0) (b := 60) rfl
        (by rw [padRight_length hlen]; rfl)
      simpa using this
    have h6 : isSpaceStr (slice (hline K lblSys ++ w) 0 6) = false := by
      rw [hK]
      simp [hline, padRight, slice, isSpaceStr, hs]
    rw [List.cons_append]
    simp only [joinSysLines, if_neg hne, h6, h60, Bool.false_eq_true, if_false]
    rw [join_conts (chunks 13 (codes.drop 13))]
    · rfl
    · intro c h
      obtain ⟨a, b, d⟩ := chunks_bound 13 (by omega) _ c h
      exact ⟨a, b, fun x hx => hc x (List.mem_of_mem_drop (d x hx))⟩
    · rw [List.forall₂_map_right_iff] at h2
      refine h2.imp ?_
      rintro x c ⟨w, h, _⟩
      exact ⟨w, h⟩

/-- the type definitions among the entries of a header -/
def sysOf : List HEntry → List (Char × Nat × List Code)
  | [] => []
  | .line _ :: es => sysOf es
  | .sys s n codes :: es => (s, n, codes) :: sysOf es

theorem forall₂_no_nl {ys zs : List Str}
    (hy : List.Forall₂ (fun x c => ∃ w, x = c ++ w ∧ ∀ y ∈ w, isSpace y = true ∧ y ≠ '\n') ys zs)
    (hz : ∀ l ∈ zs, ∀ x ∈ l, x ≠ '\n') : ∀ l ∈ ys, ∀ x ∈ l, x ≠ '\n' := by
  induction hy with
  | nil => simp
  | cons hyz _ ih =>
    obtain ⟨w, rfl, hw⟩ := hyz
    intro l hl
    rcases List.mem_cons.1 hl with rfl | hl
    · intro c hc
      rcases List.mem_append.1 hc with h | h
      · exact hz _ (by simp) c h
      · exact (hw c h).2
    · exact ih (fun l hl => hz l (by simp [hl])) l hl

theorem header_text_join {v : Nat} (es : List HEntry) (hok : ∀ e ∈ es, e.Ok) (ls : List Str)
    (hp : PhysicalLines ls (es.map (HEntry.lines v)).flatten) :
    ∃ xs : List Str, (ls.filter fun l => headerLabel l = lblSysNObs) = xs.map (· ++ ['\n']) ∧
      (∀ x ∈ xs, ∀ c ∈ x, c ≠ '\n') ∧
      ∀ acc rest, joinSysLines (xs ++ rest) acc =
        joinSysLines rest (((sysOf es).map fun p => joined p.1 p.2.1 p.2.2).reverse ++ acc) := by
  induction es generalizing ls with
  | nil =>
    cases ls with
    | nil => exact ⟨[], by simp [sysOf]⟩
    | cons => simp [PhysicalLines] at hp
  | cons e es ih =>
    rw [List.map_cons, List.flatten_cons] at hp
    obtain ⟨la, lb, rfl, ha, hb⟩ := physicalLines_append hp
    obtain ⟨xs, h1, h2, h3⟩ := ih (fun x hx => hok x (by simp [hx])) lb hb
    have he := hok e (by simp)
    rw [List.filter_append, h1]
    cases e with
    | line h =>
      obtain ⟨hh, hother⟩ := he
      have : la.filter (fun l => headerLabel l = lblSysNObs) = [] := by
        rw [List.filter_eq_nil_iff]
        intro l hl
        obtain ⟨c, hc, w, rfl, hw⟩ := physicalLines_mem ha l hl
        simp only [HEntry.lines, List.mem_singleton] at hc
        subst hc
        have hlab := render_fits (v := v) hh (w ++ ['\n']) (by
          intro x hx
          rcases List.mem_append.1 hx with h | h
          · exact (hw x h).1
          · rw [List.mem_singleton.1 h]; decide)
        rw [← List.append_assoc] at hlab
        rw [show labelOf = headerLabel from rfl] at hlab
        intro hd
        have hd := of_decide_eq_true hd
        rw [hlab] at hd
        cases h with
        | other l => exact hother l rfl hd
        | version | firstObs | position | interval => simp only [HLine.lbl] at hd; revert hd; clear * -; decide
      rw [this]
      exact ⟨xs, rfl, h2, h3⟩
    | sys s n codes =>
      obtain ⟨hs, hn, hc⟩ := he
      obtain ⟨ys, rfl, hy⟩ := physicalLines_strip ha
      have : (ys.map (· ++ ['\n'])).filter (fun l => headerLabel l = lblSysNObs) = ys.map (· ++ ['\n']) := by
        rw [List.filter_eq_self]
        intro l hl
        obtain ⟨c, hcm, w, rfl, hw⟩ := physicalLines_mem ha l hl
        have := sysLines_label hn c hcm (w ++ ['\n']) (by
          intro x hx
          rcases List.mem_append.1 hx with h | h
          · exact (hw x h).1
          · rw [List.mem_singleton.1 h]; decide)
        rw [← List.append_assoc] at this
        simp only [this, decide_eq_true_eq]; rfl
      rw [this]
      refine ⟨ys ++ xs, by simp, ?_, ?_⟩
      · intro x hx
        rcases List.mem_append.1 hx with hx | hx
        · exact forall₂_no_nl hy (sysLines_no_nl (n := n) hs hc) x hx
        · exact h2 x hx
      · intro acc rest
        rw [List.append_assoc, join_block hs hn hc ys hy, h3]
        simp [sysOf]

end Verif.Proofs
