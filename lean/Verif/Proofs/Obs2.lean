import Verif.Model.Obs2
import Verif.Proofs.Render
import Verif.Proofs.Calendar
import Mathlib.Tactic.IntervalCases
/-! # Lemmas about the RINEX 2 reader -/
namespace Verif.Proofs
open Verif.Py Verif.Model Verif.Spec

/-! ## observation fields -/

theorem indicator_append_blanks (v : Str) (j k : Nat) :
    indicator (v ++ List.replicate j ' ') k = indicator v k := by
  unfold indicator
  rcases getElem?_append_blanks v j k with h | ⟨h1, h2⟩
  · rw [h]
  · rw [h1, h2]; rfl

/-- a field is read the same with or without trailing blanks -/
theorem getVal_sub {r1 r2 : Str} {i n j : Nat}
    (h : slice r1 i (i + n) = slice r2 i (i + n) ++ List.replicate j ' ') : getVal r1 i n = getVal r2 i n := by
  unfold getVal
  simp only [h]
  generalize slice r2 i (i + n) = v
  have e1 : (v ++ List.replicate j ' ' ≠ [] ∧
      v ++ List.replicate j ' ' ≠ List.replicate (v ++ List.replicate j ' ').length ' ') ↔
      (v ≠ [] ∧ v ≠ List.replicate v.length ' ') := by
    rw [ne_eq, ne_eq, ne_eq, ne_eq, all_eq_replicate, all_eq_replicate]
    constructor
    · rintro ⟨h1, h2⟩
      have hv : ¬ ∀ x ∈ v, x = ' ' := by
        intro hall
        apply h2
        intro x hx
        rcases List.mem_append.1 hx with hx | hx
        · exact hall x hx
        · exact (List.mem_replicate.1 hx).2
      refine ⟨?_, hv⟩
      rintro rfl; simp at hv
    · rintro ⟨h1, h2⟩
      refine ⟨by simp [h1], fun hall => h2 fun x hx => hall x (by simp [hx])⟩
  by_cases hb : v ≠ [] ∧ v ≠ List.replicate v.length ' '
  · rw [if_pos hb, if_pos (e1.2 hb)]
    have ht : (v ++ List.replicate j ' ').take 14 = v.take 14 ++ List.replicate (min (14 - v.length) j) ' ' := by
      rw [List.take_append, List.take_replicate]
    have hd : (v ++ List.replicate j ' ').drop 14 = v.drop 14 ++ List.replicate (j - (14 - v.length)) ' ' := by
      rw [List.drop_append, List.drop_replicate]
    rw [ht, parseFloat_append_space _ _ mem_blanks]
    cases parseFloat (v.take 14) with
    | none => rfl
    | some q => simp only [hd, indicator_append_blanks]
  · rw [if_neg hb, if_neg (mt e1.1 hb)]

theorem indicator_indCol (o : Option Nat) (h : ∀ d ∈ o, d < 10) (s : Str) (k : Nat) (hs : s[k]? = some (indCol o)) :
    indicator s k = o.getD 0 := by
  unfold indicator
  rw [hs]
  cases o with
  | none => rfl
  | some d =>
    have hd := h d rfl
    simp [indCol, digit_isDigit hd, digit_val hd]

theorem getVal_render {rec : Str} {i : Nat} {f : Field} (hok : f.Ok) (h : slice rec i (i + 16) = f.render) :
    getVal rec i 16 = .ok f.says := by
  unfold getVal
  simp only [h]
  cases f with
  | blank => simp [Field.render, Field.says]
  | val n l s z =>
    obtain ⟨h1, h2, h3⟩ := hok
    have hlen := padLeft_length h1
    have hne : Field.render (.val n l s z) ≠ List.replicate (Field.render (.val n l s z)).length ' ' := by
      rw [ne_eq, all_eq_replicate]
      intro hall
      have hm : '.' ∈ Field.render (.val n l s z) := by
        simp [Field.render, padLeft, fixed3]
      have := hall '.' hm
      revert this; decide
    rw [if_pos ⟨by simp [Field.render], hne⟩]
    have ht : (Field.render (.val n l s z)).take 14 = padLeft 14 (fixed3 n z) := by
      unfold Field.render; exact List.take_left' hlen
    have hd : (Field.render (.val n l s z)).drop 14 = [indCol l, indCol s] := by
      unfold Field.render; exact List.drop_left' hlen
    have hp : parseFloat (padLeft 14 (fixed3 n z)) = some (.fin ((n : Rat) / 1000)) := by
      have := parseFloat_fixed3 (List.replicate (14 - (fixed3 n z).length) ' ') [] n z mem_blanks (by simp)
      simpa [padLeft] using this
    rw [ht, hp, hd]
    simp [Field.says, indicator_indCol l h2 [indCol l, indCol s] 0 rfl,
      indicator_indCol s h3 [indCol l, indCol s] 1 rfl]

/-- reading a field from a stripped line -/
theorem getVal_rstrip {c : Str} (hc : ∀ x ∈ c, isSpace x = true → x = ' ') (i n : Nat) :
    getVal (rstrip c) i n = getVal c i n := by
  obtain ⟨t, ht, hsp⟩ := slice_rstrip c i (i + n)
  have : t = List.replicate t.length ' ' :=
    all_eq_replicate.2 fun x hx => hc x (hsp x hx).2 (hsp x hx).1
  rw [this] at ht
  exact (getVal_sub ht).symm

theorem readFields_render {fs : List Field} (hok : ∀ f ∈ fs, f.Ok) (pre post : Str)
    (hc : ∀ x ∈ pre ++ (fs.map Field.render).flatten ++ post, isSpace x = true → x = ' ') :
    readFields (rstrip (pre ++ (fs.map Field.render).flatten ++ post)) (List.range' pre.length fs.length 16) =
      .ok (fs.map Field.says) := by
  induction fs generalizing pre with
  | nil => rfl
  | cons f fs ih =>
    have hf := hok f (by simp)
    have hlen := Field.render_length hf
    simp only [List.length_cons, List.range'_succ, readFields]
    rw [show recLen = 16 from rfl, getVal_rstrip hc, getVal_render hf
      (by rw [List.map_cons, List.flatten_cons,
            show pre ++ (f.render ++ (fs.map Field.render).flatten) ++ post =
              pre ++ f.render ++ ((fs.map Field.render).flatten ++ post) by simp]
          exact slice_exact rfl (by omega))]
    have := ih (fun g hg => hok g (by simp [hg])) (pre ++ f.render) (by simpa using hc)
    rw [List.length_append, hlen] at this
    simp only [List.append_assoc, List.map_cons, List.flatten_cons] at this ⊢
    simp only [bind, Except.bind, this]
    rfl

theorem fields_plain {fs : List Field} (hok : ∀ f ∈ fs, f.Ok) :
    ∀ x ∈ (fs.map Field.render).flatten, isSpace x = true → x = ' ' := by
  intro x hx hs
  obtain ⟨l, hl, hxl⟩ := List.mem_flatten.1 hx
  obtain ⟨f, hf, rfl⟩ := List.mem_map.1 hl
  exact plain_space (Field.render_plain (hok f hf) x hxl) hs

theorem pyRange_fields (n : Nat) : pyRange 0 (n * recLen - (recLen - 1)) recLen = List.range' 0 n 16 := by
  rw [pyRange_eq_range', show recLen = 16 from rfl]
  congr 1
  omega

/-! ## the lines of a satellite -/

theorem linesPerRecGo_chunks (k : Nat) (l : List α) (hk : k = (l.length + 4) / 5) :
    linesPerRecGo k (l.length : Int) = (chunks 5 l).map List.length := by
  induction k generalizing l with
  | zero =>
    have : l = [] := List.length_eq_zero_iff.1 (by omega)
    subst this; rfl
  | succ k ih =>
    have hne : l ≠ [] := by rintro rfl; simp at hk
    rw [chunks_cons 5 l (by omega) hne]
    simp only [linesPerRecGo, List.map_cons, List.length_take]
    by_cases h5 : l.length < 5
    · have hk0 : k = 0 := by omega
      subst hk0
      have hd : l.drop 5 = [] := List.drop_eq_nil_of_le (by omega)
      rw [hd, chunks_nil, if_pos (by omega)]
      simp only [linesPerRecGo, List.map_nil]
      congr 1; omega
    · rw [if_neg (by omega)]
      have := ih (l.drop 5) (by rw [List.length_drop]; omega)
      rw [List.length_drop] at this
      rw [show ((l.length : Int) - 5) = ((l.length - 5 : Nat) : Int) by omega, this]
      congr 1; omega

theorem linesPerRec_chunks (l : List α) : linesPerRec l.length = (chunks 5 l).map List.length :=
  linesPerRecGo_chunks _ l rfl

theorem chunks_mem {k : Nat} (hk : 0 < k) {l : List α} {c : List α} (hc : c ∈ chunks k l) {x : α} (hx : x ∈ c) :
    x ∈ l := by
  have := chunks_flatten k l hk
  rw [← this]; exact List.mem_flatten.2 ⟨c, hc, hx⟩

theorem readSatLines_render (cs : List (List Field)) (hok : ∀ c ∈ cs, ∀ f ∈ c, f.Ok) (ls rest : List Str)
    (hw : Written ls (cs.map fun c => (c.map Field.render).flatten)) :
    readSatLines (cs.map List.length) (ls ++ rest) = .ok ((cs.map fun c => c.map Field.says).flatten, rest) := by
  induction cs generalizing ls with
  | nil =>
    cases ls with
    | nil => rfl
    | cons l ls => simp [Written] at hw
  | cons c cs ih =>
    cases ls with
    | nil => simp [Written] at hw
    | cons l ls =>
      simp only [List.map_cons, Written] at hw
      obtain ⟨h1, h2⟩ := hw
      simp only [List.map_cons, List.cons_append, readSatLines, nextRec, pyRange_fields]
      have hf := readFields_render (hok c (by simp)) [] [] (by simpa using fields_plain (hok c (by simp)))
      simp only [List.nil_append, List.append_nil, List.length_nil] at hf
      rw [show rstrip l = rstrip ((c.map Field.render).flatten) from h1]
      simp only [bind, Except.bind, hf, ih (fun d hd => hok d (by simp [hd])) ls h2]
      rfl

theorem flatten_map_says (fs : List Field) :
    ((chunks 5 fs).map fun c => c.map Field.says).flatten = fs.map Field.says := by
  have := chunks_flatten 5 fs (by omega)
  conv => rhs; rw [← this]
  rw [List.map_flatten]

/-! ## types and values -/

theorem dict_set_append {κ α : Type} [DecidableEq κ] (d : Dict κ α) (k : κ) (v : α) (h : k ∉ d.keys) :
    d.set k v = d ++ [(k, v)] := by
  induction d with
  | nil => rfl
  | cons p d ih =>
    obtain ⟨a, b⟩ := p
    simp only [Dict.keys, List.map_cons, List.mem_cons, not_or] at h
    have hne : a ≠ k := fun e => h.1 e.symm
    rw [Dict.set, if_neg hne, ih h.2]; rfl

theorem zipTypes_zip (ts : List Str) (vs : List ObsVal) (d : ObsDict) (hl : vs.length ≤ ts.length)
    (hn : ts.Nodup) (hd : ∀ t ∈ ts, t ∉ d.keys) : zipTypes ts vs d = .ok (d ++ ts.zip vs) := by
  induction ts generalizing vs d with
  | nil =>
    have : vs = [] := List.length_eq_zero_iff.1 (by simpa using hl)
    subst this; simp [zipTypes]
  | cons t ts ih =>
    cases vs with
    | nil => simp [zipTypes]
    | cons v vs =>
      simp only [zipTypes]
      have hset := dict_set_append d t v (hd t (by simp))
      rw [hset, ih vs _ (by simpa using hl) (List.nodup_cons.1 hn).2]
      · simp
      · intro t' ht'
        simp only [Dict.keys, List.map_append, List.map_cons, List.map_nil, List.mem_append, List.mem_singleton, not_or]
        refine ⟨hd t' (by simp [ht']), ?_⟩
        rintro rfl
        exact (List.nodup_cons.1 hn).1 ht'

theorem zipTypes_len (ts : List Str) (vs : List ObsVal) (d : ObsDict) (hl : vs.length ≤ ts.length) :
    ∃ r, zipTypes ts vs d = .ok r := by
  induction ts generalizing vs d with
  | nil =>
    have : vs = [] := List.length_eq_zero_iff.1 (by simpa using hl)
    subst this; exact ⟨d, by simp [zipTypes]⟩
  | cons t ts ih =>
    cases vs with
    | nil => exact ⟨d, by simp [zipTypes]⟩
    | cons v vs => exact ih vs _ (by simpa using hl)

/-! ## satellite identifiers -/

theorem SatId.render_length {s : SatId} (h : s.Ok) : s.render.length = 3 := by
  have hl : (natStr s.num).length ≤ 2 := natStr_length_le (by omega) (by have := h.1; omega)
  unfold SatId.render
  split <;> simp [zfill_length hl, padLeft_length hl]

theorem zfill2_eq {n : Nat} (h : n < 100) : zfill 2 (natStr n) = [digit (n / 10), digit (n % 10)] := by
  by_cases h10 : n < 10
  · have e1 : n / 10 = 0 := by omega
    have e2 : n % 10 = n := by omega
    rw [natStr_lt h10, e1, e2]; rfl
  · have e1 : n / 10 < 10 := by omega
    rw [natStr_ge (by omega), natStr_lt e1]; rfl

theorem getPrn_render {rec : Str} {i : Nat} {s : SatId} (hok : s.Ok) (h : slice rec i (i + 3) = s.render) :
    getPrn rec i = .ok s.name := by
  unfold getPrn
  rw [h]
  unfold SatId.render
  simp only
  have hp : parseInt (if s.zero then zfill 2 (natStr s.num) else padLeft 2 (natStr s.num)) = some (s.num : Int) := by
    split
    · exact parseInt_zfill_natStr 2 s.num
    · exact parseInt_padLeft_natStr 2 s.num
  rw [hp]
  simp only [SatId.name]
  have hz : intStrZ 2 (s.num : Int) = [digit (s.num / 10), digit (s.num % 10)] := by
    unfold intStrZ
    rw [if_neg (by omega)]
    simp only [Int.natAbs_natCast]
    exact zfill2_eq hok.1
  rw [hz]
  congr 2
  obtain ⟨_, h1 | h1 | h1⟩ := hok
  · rw [h1]; decide
  · have hne : s.sys ≠ ' ' := by intro e; rw [e] at h1; revert h1; decide
    have hu : upperC s.sys = s.sys := by unfold upperC; rw [if_neg (by omega)]
    rw [hu, if_neg hne, if_neg hne, if_neg (by omega)]
  · have hne : s.sys ≠ ' ' := by intro e; rw [e] at h1; revert h1; decide
    have hu : upperC s.sys = Char.ofNat (s.sys.toNat - 32) := by unfold upperC; rw [if_pos h1]
    have hne2 : Char.ofNat (s.sys.toNat - 32) ≠ ' ' := by
      obtain ⟨a, b⟩ := h1
      generalize s.sys.toNat = n at a b
      interval_cases n <;> decide
    rw [hu, if_neg hne2, if_neg hne, if_pos h1.1]

theorem getPrns_render {ids : List SatId} (hok : ∀ s ∈ ids, s.Ok) (pre post : Str) :
    getPrns (pre ++ satCols ids ++ post) (List.range' pre.length ids.length 3) = .ok (ids.map SatId.name) := by
  induction ids generalizing pre with
  | nil => rfl
  | cons s ids ih =>
    have hs := hok s (by simp)
    have hlen := SatId.render_length hs
    simp only [List.length_cons, List.range'_succ, getPrns]
    rw [getPrn_render hs (by
      rw [show pre ++ satCols (s :: ids) ++ post = pre ++ s.render ++ (satCols ids ++ post) by simp [satCols]]
      exact slice_exact rfl (by omega))]
    have := ih (fun g hg => hok g (by simp [hg])) (pre ++ s.render)
    rw [List.length_append, hlen] at this
    rw [show pre ++ s.render ++ satCols ids ++ post = pre ++ satCols (s :: ids) ++ post by simp [satCols]] at this
    simp only [bind, Except.bind, this]
    rfl

/-- the last character of rendered satellites is a digit -/
theorem SatId.render_last {s : SatId} (h : s.Ok) : ∃ r c, s.render = r ++ [c] ∧ isSpace c = false := by
  have hl : (natStr s.num).length ≤ 2 := natStr_length_le (by omega) (by have := h.1; omega)
  obtain ⟨r, c, hc⟩ := List.eq_nil_or_concat (natStr s.num) |>.resolve_left (natStr_ne_nil _)
  have hd : isSpace c = false := isDigit_not_space (natStr_digits s.num c (by simp [hc]))
  unfold SatId.render zfill padLeft
  split
  · exact ⟨s.sys :: (List.replicate (2 - (natStr s.num).length) '0' ++ r), c, by
      generalize 2 - (natStr s.num).length = k; rw [hc]; simp, hd⟩
  · exact ⟨s.sys :: (List.replicate (2 - (natStr s.num).length) ' ' ++ r), c, by
      generalize 2 - (natStr s.num).length = k; rw [hc]; simp, hd⟩

/-- stripping a line keeps everything up to a non-blank character -/
theorem rstrip_keep (p q : Str) (c : Char) (hc : isSpace c = false) :
    ∃ q', rstrip (p ++ [c] ++ q) = p ++ [c] ++ q' := by
  by_cases h : rstrip q = []
  · refine ⟨[], ?_⟩
    rw [rstrip_append_space _ _ ((rstrip_eq_nil_iff q).1 h), rstrip_of_last _ _ hc]; simp
  · exact ⟨rstrip q, rstrip_append_of_ne _ _ h⟩

/-- a line with satellites: stripping does not touch them -/
theorem rstrip_satCols (pre post : Str) (c : Char) (hc : isSpace c = false) {ids : List SatId}
    (hok : ∀ s ∈ ids, s.Ok) : ∃ q, rstrip (pre ++ [c] ++ satCols ids ++ post) = pre ++ [c] ++ satCols ids ++ q := by
  rcases List.eq_nil_or_concat ids with rfl | ⟨ids', s, rfl⟩
  · obtain ⟨q, hq⟩ := rstrip_keep pre post c hc
    exact ⟨q, by simpa [satCols] using hq⟩
  · obtain ⟨r, d, hr, hd⟩ := SatId.render_last (hok s (by simp))
    obtain ⟨q, hq⟩ := rstrip_keep (pre ++ [c] ++ satCols ids' ++ r) post d hd
    refine ⟨q, ?_⟩
    have e : satCols (ids'.concat s) = satCols ids' ++ (r ++ [d]) := by simp [satCols, hr]
    rw [e]
    simpa using hq

theorem rstrip_satCols' (pre post : Str) {ids : List SatId} (hne : ids ≠ []) (hok : ∀ s ∈ ids, s.Ok) :
    ∃ q, rstrip (pre ++ satCols ids ++ post) = pre ++ satCols ids ++ q := by
  rcases List.eq_nil_or_concat ids with rfl | ⟨ids', s, rfl⟩
  · simp at hne
  · obtain ⟨r, d, hr, hd⟩ := SatId.render_last (hok s (by simp))
    obtain ⟨q, hq⟩ := rstrip_keep (pre ++ satCols ids' ++ r) post d hd
    refine ⟨q, ?_⟩
    have e : satCols (ids'.concat s) = satCols ids' ++ (r ++ [d]) := by simp [satCols, hr]
    rw [e]
    simpa using hq

theorem pyRange_prns (n : Nat) : pyRange 32 (32 + 3 * n - 2) 3 = List.range' 32 n 3 := by
  rw [pyRange_eq_range']; congr 1; omega

theorem pyRange_prns12 : pyRange 32 66 3 = List.range' 32 12 3 := pyRange_prns 12

theorem getPrns_cont {ids : List SatId} (hne : ids ≠ []) (hok : ∀ s ∈ ids, s.Ok) {l : Str}
    (h : SameLine l (List.replicate 32 ' ' ++ satCols ids)) :
    getPrns (rstrip l) (List.range' 32 ids.length 3) = .ok (ids.map SatId.name) := by
  obtain ⟨q, hq⟩ := rstrip_satCols' (List.replicate 32 ' ') [] hne hok
  rw [List.append_nil] at hq
  rw [show rstrip l = _ from h, hq]
  have := getPrns_render hok (List.replicate 32 ' ') q
  simpa using this

/-- full continuation lines -/
theorem fullPrnLines_render (k : Nat) (ids : List SatId) (hok : ∀ s ∈ ids, s.Ok) (hk : ids.length = 12 * k)
    (ls rest : List Str)
    (hw : Written ls ((chunks 12 ids).map fun c => List.replicate 32 ' ' ++ satCols c)) :
    fullPrnLines k (ls ++ rest) = .ok (ids.map SatId.name, rest) := by
  induction k generalizing ids ls with
  | zero =>
    have : ids = [] := List.length_eq_zero_iff.1 (by omega)
    subst this
    cases ls with
    | nil => rfl
    | cons l ls => simp [Written, chunks_nil] at hw
  | succ k ih =>
    have hne : ids ≠ [] := by rintro rfl; simp at hk
    rw [chunks_cons 12 ids (by omega) hne] at hw
    cases ls with
    | nil => simp [Written] at hw
    | cons l ls =>
      simp only [List.map_cons, Written] at hw
      obtain ⟨h1, h2⟩ := hw
      have htake : ids.take 12 ≠ [] := by simp [hne]
      have hlen : (ids.take 12).length = 12 := by simp; omega
      have hp := getPrns_cont htake (fun s hs => hok s (List.mem_of_mem_take hs)) h1
      rw [hlen] at hp
      have hr := ih (ids.drop 12) (fun s hs => hok s (List.mem_of_mem_drop hs)) (by simp; omega) ls h2
      simp only [List.cons_append, fullPrnLines, nextRec, pyRange_prns12]
      simp only [bind, Except.bind, hp, hr]
      rw [← List.map_append, List.take_append_drop]; rfl

theorem written_append {a b c d : List Str} (h1 : Written a c) (h2 : Written b d) : Written (a ++ b) (c ++ d) := by
  induction a generalizing c with
  | nil => cases c with
    | nil => exact h2
    | cons => simp [Written] at h1
  | cons x a ih => cases c with
    | nil => simp [Written] at h1
    | cons y c => exact ⟨h1.1, ih h1.2⟩

theorem written_split {ls c d : List Str} (h : Written ls (c ++ d)) :
    ∃ a b, ls = a ++ b ∧ Written a c ∧ Written b d := by
  induction c generalizing ls with
  | nil => exact ⟨[], ls, rfl, trivial, h⟩
  | cons y c ih =>
    cases ls with
    | nil => simp [Written] at h
    | cons x ls =>
      obtain ⟨a, b, rfl, h1, h2⟩ := ih h.2
      exact ⟨x :: a, b, rfl, ⟨h.1, h1⟩, h2⟩

theorem chunks_append_full (k : Nat) (hk : 0 < k) (m : Nat) (a b : List α) (ha : a.length = k * m) :
    chunks k (a ++ b) = chunks k a ++ chunks k b := by
  induction m generalizing a with
  | zero => have : a = [] := List.length_eq_zero_iff.1 (by omega)
            subst this; rfl
  | succ m ih =>
    have hlen : k ≤ a.length := by rw [ha, Nat.mul_succ]; omega
    have hne : a ≠ [] := by rintro rfl; simp at hlen; omega
    rw [chunks_cons k a hk hne, chunks_cons k (a ++ b) hk (by simp [hne])]
    rw [List.take_append_of_le_length hlen, List.drop_append_of_le_length hlen,
      ih (a.drop k) (by rw [List.length_drop, ha, Nat.mul_succ]; omega)]
    rfl

/-- the satellite list of an epoch line -/
theorem readPrns_render (pre post : Str) (ids : List SatId) (hok : ∀ s ∈ ids, s.Ok) (hpre : pre.length = 32)
    (ls rest : List Str)
    (hw : Written ls ((chunks 12 (ids.drop 12)).map fun c => List.replicate 32 ' ' ++ satCols c)) :
    readPrns (pre ++ satCols (ids.take 12) ++ post) (ids.length : Int) (ls ++ rest) =
      .ok (ids.map SatId.name, rest) := by
  have h0 := getPrns_render (fun s hs => hok s (List.mem_of_mem_take hs)) pre post (ids := ids.take 12)
  rw [hpre] at h0
  unfold readPrns
  by_cases h12 : ids.length > 12
  · rw [if_pos (by omega)]
    have hlen : (ids.take 12).length = 12 := by simp; omega
    rw [hlen] at h0
    simp only [Int.toNat_natCast, pyRange_prns12]
    simp only [bind, Except.bind, h0]
    -- full lines and the rest
    generalize hr : ids.drop 12 = r at hw
    have hrl : r.length = ids.length - 12 := by rw [← hr]; simp
    have hokr : ∀ s ∈ r, s.Ok := fun s hs => hok s (List.mem_of_mem_drop (hr ▸ hs))
    have hsplit : r = r.take (12 * (r.length / 12)) ++ r.drop (12 * (r.length / 12)) := by simp
    generalize ha : r.take (12 * (r.length / 12)) = a at hsplit
    generalize hb : r.drop (12 * (r.length / 12)) = b at hsplit
    have hal : a.length = 12 * (r.length / 12) := by rw [← ha]; simp; omega
    have hbl : b.length = r.length % 12 := by rw [← hb]; simp; omega
    rw [hsplit, chunks_append_full 12 (by omega) (r.length / 12) a b hal, List.map_append] at hw
    obtain ⟨l1, l2, rfl, hw1, hw2⟩ := written_split hw
    have hfull := fullPrnLines_render (r.length / 12) a (fun s hs => hokr s (by rw [hsplit]; simp [hs])) hal l1
      (l2 ++ rest) hw1
    have hk : ids.length / 12 - 1 = r.length / 12 := by omega
    rw [hk, List.append_assoc, hfull]
    simp only
    have hnames : ids.map SatId.name = (ids.take 12).map SatId.name ++ a.map SatId.name ++ b.map SatId.name := by
      rw [← List.map_append, ← List.map_append, List.append_assoc, ← hsplit, ← hr, List.take_append_drop]
    by_cases hz : b = []
    · have : ids.length - ids.length / 12 * 12 = 0 := by
        rw [hz] at hbl; simp at hbl; omega
      rw [if_neg (by omega)]
      rw [hz, chunks_nil] at hw2
      cases l2 with
      | nil => rw [hnames, hz]; simp only [List.map_nil, List.append_nil, List.nil_append]; rfl
      | cons => simp [Written] at hw2
    · have hbpos : 0 < b.length := List.length_pos_iff.2 hz
      rw [if_pos (by omega)]
      rw [chunks_cons 12 b (by omega) hz, List.take_of_length_le (by omega), List.drop_eq_nil_of_le (by omega),
        chunks_nil] at hw2
      cases l2 with
      | nil => simp [Written] at hw2
      | cons l l2 =>
        simp only [List.map_cons, List.map_nil, Written] at hw2
        cases l2 with
        | cons => simp [Written] at hw2
        | nil =>
          have hp := getPrns_cont hz (fun s hs => hokr s (by rw [hsplit]; simp [hs])) hw2.1
          have e : ids.length - ids.length / 12 * 12 = b.length := by omega
          simp only [List.cons_append, List.nil_append, nextRec, e]
          rw [show 32 + b.length * 3 - 2 = 32 + 3 * b.length - 2 by omega, pyRange_prns, hp]
          rw [hnames]; rfl
  · rw [if_neg (by omega)]
    have htake : ids.take 12 = ids := List.take_of_length_le (by omega)
    have hdrop : ids.drop 12 = [] := List.drop_eq_nil_of_le (by omega)
    rw [hdrop, chunks_nil] at hw
    cases ls with
    | cons => simp [Written] at hw
    | nil =>
      rw [htake] at h0 ⊢
      have : (32 + 3 * (ids.length : Int) - 2).toNat = 32 + 3 * ids.length - 2 := by omega
      rw [this, pyRange_prns, h0]
      rfl

end Verif.Proofs
