import Verif.Proofs.Obs2File
import Verif.Spec.Cut
/-! # RINEX 2 files cut off at any place -/
namespace Verif.Proofs
open Verif.Py Verif.Model Verif.Spec Verif.Props

/-! ## lines consumed -/

theorem readSatLines_consumes {ns : List Nat} {ls ls' : List Str} {r : List ObsVal} (h : readSatLines ns ls = .ok (r, ls')) :
    ls.length = ns.length + ls'.length := by
  induction ns generalizing ls r with
  | nil => simp only [readSatLines, Except.ok.injEq, Prod.mk.injEq] at h; simp [← h.2]
  | cons n ns ih =>
    simp only [readSatLines, bind_eq_ok, Prod.exists, pure_eq_ok, Prod.mk.injEq] at h
    obtain ⟨a, b, h1, c, h2, d, e, h3, _, rfl⟩ := h
    cases ls with
    | nil => simp [nextRec] at h1
    | cons x ls =>
      simp only [nextRec, Except.ok.injEq, Prod.mk.injEq] at h1
      obtain ⟨_, rfl⟩ := h1
      have := ih h3
      simp; omega

theorem readSatLines_short {ns : List Nat} {ls : List Str} (h : ls.length < ns.length) : readSatLines ns ls = .error .rinex := by
  cases hr : readSatLines ns ls with
  | error e => rw [readSatLines_error hr]
  | ok p => obtain ⟨r, l⟩ := p; have := readSatLines_consumes hr; omega

theorem fullPrnLines_consumes {k : Nat} {ls r ls' : List Str} (h : fullPrnLines k ls = .ok (r, ls')) : ls.length = k + ls'.length := by
  induction k generalizing ls r with
  | zero => simp only [fullPrnLines, Except.ok.injEq, Prod.mk.injEq] at h; simp [← h.2]
  | succ k ih =>
    simp only [fullPrnLines, bind_eq_ok, Prod.exists, pure_eq_ok, Prod.mk.injEq] at h
    obtain ⟨a, b, h1, c, h2, d, e, h3, _, rfl⟩ := h
    cases ls with
    | nil => simp [nextRec] at h1
    | cons x ls =>
      simp only [nextRec, Except.ok.injEq, Prod.mk.injEq] at h1
      obtain ⟨_, rfl⟩ := h1
      have := ih h3
      simp; omega

/-- continuation lines of an epoch with `n` satellites -/
def contLines (n : Int) : Nat := if n > 12 then n.toNat / 12 - 1 + (if n.toNat - n.toNat / 12 * 12 ≠ 0 then 1 else 0) else 0

theorem readPrns_consumes {ep : Str} {n : Int} {ls r ls' : List Str} (h : readPrns ep n ls = .ok (r, ls')) :
    ls.length = contLines n + ls'.length := by
  unfold readPrns at h
  unfold contLines
  split at h
  · rename_i hn
    rw [if_pos hn]
    simp only [bind_eq_ok, Prod.exists] at h
    obtain ⟨p0, h0, p1, l1, h1, h2⟩ := h
    have := fullPrnLines_consumes h1
    split at h2
    · rename_i hr
      rw [if_pos hr]
      simp only [bind_eq_ok, Prod.exists, pure_eq_ok, Prod.mk.injEq] at h2
      obtain ⟨a, b, h3, c, h4, _, rfl⟩ := h2
      cases l1 with
      | nil => simp [nextRec] at h3
      | cons x l1 =>
        simp only [nextRec, Except.ok.injEq, Prod.mk.injEq] at h3
        obtain ⟨_, rfl⟩ := h3
        simp at this; omega
    · rename_i hr
      rw [if_neg hr]
      simp only [pure_eq_ok, Prod.mk.injEq] at h2
      rw [← h2.2]; omega
  · rename_i hn
    rw [if_neg hn]
    simp only [bind_eq_ok, pure_eq_ok, Prod.mk.injEq] at h
    obtain ⟨_, _, _, rfl⟩ := h; omega

/-- the same epoch line with other lines behind it: as many lines are consumed -/
theorem readEpoch_consumes {x : Str} {l1 r1 l2 r2 : List Str} {e1 e2 : Epoch2} (h1 : readEpoch x l1 = .ok (e1, r1))
    (h2 : readEpoch x l2 = .ok (e2, r2)) : l1.length + r2.length = l2.length + r1.length := by
  unfold readEpoch at h1 h2
  cases hf : parseInt (slice x 26 29) with
  | none => rw [hf] at h1; simp at h1
  | some flag =>
    rw [hf] at h1 h2
    simp only at h1 h2
    cases hn : parseInt (slice x 29 32) with
    | none =>
      rw [hn] at h1
      split at h1
      · simp at h1
      · simp only [bind_eq_ok] at h1
        obtain ⟨t, _, h⟩ := h1
        simp at h
    | some n =>
      rw [hn] at h1 h2
      split at h1
      · rename_i hfl
        rw [if_pos hfl] at h2
        simp only [Except.ok.injEq, Prod.mk.injEq] at h1 h2
        rw [← h1.2, ← h2.2]; omega
      · rename_i hfl
        rw [if_neg hfl] at h2
        simp only [bind_eq_ok, Prod.exists] at h1 h2
        obtain ⟨t, _, p, l, h1, h1'⟩ := h1
        obtain ⟨t', _, p', l', h2, h2'⟩ := h2
        split at h1'
        · simp at h1'
        · split at h2'
          · simp at h2'
          · simp only [Except.ok.injEq, Prod.mk.injEq] at h1' h2'
            rw [← h1'.2, ← h2'.2]
            have := readPrns_consumes h1
            have := readPrns_consumes h2
            omega

/-- with fewer lines than the epoch line needs it is a RinexError -/
theorem readEpoch_short {x : Str} {l1 l2 : List Str} {e1 : Epoch2} (h1 : readEpoch x l1 = .ok (e1, [])) (hl : l2.length < l1.length) :
    readEpoch x l2 = .error .rinex := by
  cases h2 : readEpoch x l2 with
  | ok p =>
    obtain ⟨e2, r2⟩ := p
    have := readEpoch_consumes h1 h2
    simp at this; omega
  | error e =>
    congr 1
    unfold readEpoch at h1 h2
    cases hf : parseInt (slice x 26 29) with
    | none => rw [hf] at h1; simp at h1
    | some flag =>
      rw [hf] at h1 h2
      simp only at h1 h2
      split at h1
      · rename_i hfl
        rw [if_pos hfl] at h2
        cases hn : parseInt (slice x 29 32) with
        | none => rw [hn] at h1; simp at h1
        | some n => rw [hn] at h2; simp at h2
      · rename_i hfl
        rw [if_neg hfl] at h2
        simp only [bind_eq_ok] at h1
        obtain ⟨t, ht, h1⟩ := h1
        rw [ht] at h2
        simp only [bind, Except.bind] at h2
        cases hn : parseInt (slice x 29 32) with
        | none => rw [hn] at h1; simp at h1
        | some n =>
          rw [hn] at h2
          simp only at h2
          cases hp : readPrns x n l2 with
          | error e' => rw [hp] at h2; simp only [Except.error.injEq] at h2; rw [← h2]; exact readPrns_error hp
          | ok p =>
            rw [hp] at h2
            simp only at h2
            split at h2
            · simpa using h2.symm
            · simp at h2

/-! ## the values of a cut line -/

theorem readFields_get {rec : Str} {is : List Nat} {vs : List ObsVal} (h : readFields rec is = .ok vs) (i : Nat) (k : Nat) (hk : is[i]? = some k) :
    ∃ v, getVal rec k recLen = .ok v ∧ vs[i]? = some v := by
  induction is generalizing vs i with
  | nil => simp at hk
  | cons a is ih =>
    simp only [readFields, bind_eq_ok, pure_eq_ok] at h
    obtain ⟨v, hv, ws, hws, rfl⟩ := h
    cases i with
    | zero => simp only [List.getElem?_cons_zero, Option.some.injEq] at hk; subst hk; exact ⟨v, hv, by simp⟩
    | succ i => simpa using ih hws i (by simpa using hk)

theorem slice_take_of_le {s : Str} {a b j : Nat} (h : b ≤ j) : slice (s.take j) a b = slice s a b := by
  unfold slice
  rw [List.drop_take, List.take_take]
  congr 1
  omega

theorem slice_take_nil {s : Str} {a b j : Nat} (h : j ≤ a) : slice (s.take j) a b = [] := by
  unfold slice
  rw [List.drop_eq_nil_of_le (by simp; omega)]
  simp

theorem slice_fieldCols {fs : List Field} (hok : ∀ f ∈ fs, f.Ok) (i : Nat) (f : Field) (hi : fs[i]? = some f) :
    slice (fs.map Field.render).flatten (16 * i) (16 * i + 16) = f.render := by
  induction fs generalizing i with
  | nil => simp at hi
  | cons g fs ih =>
    have hg := Field.render_length (hok g (by simp))
    cases i with
    | zero =>
      simp only [List.getElem?_cons_zero, Option.some.injEq] at hi
      subst hi
      simp only [slice, List.map_cons, List.flatten_cons, Nat.mul_zero, List.drop_zero]
      rw [List.take_append_of_le_length (by omega), List.take_of_length_le (by omega)]
    | succ i =>
      have := ih (fun f hf => hok f (by simp [hf])) i (by simpa using hi)
      rw [← this]
      unfold slice
      simp only [List.map_cons, List.flatten_cons]
      rw [List.drop_append, List.drop_eq_nil_of_le (by omega), List.nil_append, hg]
      congr 1
      omega

/-- values up to some place, one of any kind, then missing ones -/
def Mangled (w r : List ObsVal) : Prop := r.length = w.length ∧ ∃ k, r.take k = w.take k ∧ ∀ x ∈ r.drop (k + 1), x = (none, 0, 0)

theorem readFields_cut {fs : List Field} (hok : ∀ f ∈ fs, f.Ok) (j : Nat) (vs : List ObsVal)
    (h : readFields (rstrip ((fs.map Field.render).flatten.take j)) (List.range' 0 fs.length 16) = .ok vs) : Mangled (fs.map Field.says) vs := by
  have hlen : vs.length = fs.length := by rw [readFields_length h]; simp
  have hplain : ∀ x ∈ (fs.map Field.render).flatten.take j, isSpace x = true → x = ' ' :=
    fun x hx => fields_plain hok x (List.mem_of_mem_take hx)
  have hget : ∀ i, i < fs.length → ∃ v, getVal ((fs.map Field.render).flatten.take j) (16 * i) 16 = .ok v ∧ vs[i]? = some v := by
    intro i hi
    obtain ⟨v, h1, h2⟩ := readFields_get h i (16 * i) (by rw [List.getElem?_range' hi]; simp)
    rw [show recLen = 16 from rfl, getVal_rstrip hplain] at h1
    exact ⟨v, h1, h2⟩
  refine ⟨by simp [hlen], j / 16, ?_, ?_⟩
  · apply List.ext_getElem?
    intro i
    by_cases hi : i < j / 16
    · rw [List.getElem?_take_of_lt hi, List.getElem?_take_of_lt hi]
      by_cases hl : i < fs.length
      · obtain ⟨v, h1, h2⟩ := hget i hl
        have hf : fs[i]? = some fs[i] := List.getElem?_eq_getElem hl
        have hs := slice_fieldCols hok i fs[i] hf
        rw [h2, List.getElem?_map, hf]
        rw [getVal_render (hok _ (List.getElem_mem hl)) (by rw [slice_take_of_le (by omega)]; exact hs)] at h1
        simpa using h1.symm
      · rw [List.getElem?_eq_none (by omega), List.getElem?_eq_none (by simp; omega)]
    · rw [List.getElem?_eq_none (by simp; omega), List.getElem?_eq_none (by simp; omega)]
  · intro x hx
    obtain ⟨i, hi⟩ := List.getElem?_of_mem hx
    rw [List.getElem?_drop] at hi
    have hl : j / 16 + 1 + i < fs.length := by
      rw [← hlen]
      exact (List.getElem?_eq_some_iff.1 hi).1
    obtain ⟨v, h1, h2⟩ := hget _ hl
    rw [hi] at h2
    simp only [Option.some.injEq] at h2
    subst h2
    unfold getVal at h1
    rw [slice_take_nil (by omega)] at h1
    simpa using h1.symm

theorem Mangled.prepend (a : List ObsVal) {w r : List ObsVal} (h : Mangled w r) : Mangled (a ++ w) (a ++ r) := by
  obtain ⟨hl, k, h1, h2⟩ := h
  refine ⟨by simp [hl], a.length + k, ?_, ?_⟩
  · rw [List.take_length_add_append, List.take_length_add_append, h1]
  · rw [show a.length + k + 1 = a.length + (k + 1) by omega, List.drop_length_add_append]
    exact h2

theorem readSatLines_cut (ds : List (List Field)) (d : List Field) (hok : ∀ c ∈ ds ++ [d], ∀ f ∈ c, f.Ok) (ls : List Str)
    (hw : Written ls (ds.map fun c => (c.map Field.render).flatten)) (p : Str) (j : Nat) (hp : SameLine p ((d.map Field.render).flatten.take j)) :
    readSatLines ((ds ++ [d]).map List.length) (ls ++ [p]) = .error .rinex ∨
    ∃ vs, readSatLines ((ds ++ [d]).map List.length) (ls ++ [p]) = .ok (vs, []) ∧ Mangled (((ds ++ [d]).map fun c => c.map Field.says).flatten) vs := by
  induction ds generalizing ls with
  | nil =>
    cases ls with
    | cons l ls => simp [Written] at hw
    | nil =>
      simp only [List.nil_append, List.map_cons, List.map_nil, readSatLines, nextRec, pyRange_fields, List.flatten_cons, List.flatten_nil, List.append_nil]
      rw [show rstrip p = _ from hp]
      cases hf : readFields (rstrip ((d.map Field.render).flatten.take j)) (List.range' 0 d.length 16) with
      | error e => exact .inl (by simp only [bind, Except.bind, hf, readFields_error hf])
      | ok vs =>
        refine .inr ⟨vs, ?_, readFields_cut (hok d (by simp)) j vs hf⟩
        simp [bind, Except.bind, hf, pure, Except.pure]
  | cons c ds ih =>
    cases ls with
    | nil => simp [Written] at hw
    | cons l ls =>
      simp only [List.map_cons, Written] at hw
      obtain ⟨h1, h2⟩ := hw
      have hf := readFields_render (hok c (by simp)) [] [] (by simpa using fields_plain (hok c (by simp)))
      simp only [List.nil_append, List.append_nil, List.length_nil] at hf
      simp only [List.map_cons, List.cons_append, readSatLines, nextRec, pyRange_fields, List.flatten_cons]
      rw [show rstrip l = rstrip ((c.map Field.render).flatten) from h1]
      rcases ih (fun d hd => hok d (by simp only [List.cons_append, List.mem_cons]; exact .inr hd)) ls h2 with h | ⟨vs, h, hm⟩
      · exact .inl (by simp only [bind, Except.bind, hf, h])
      · exact .inr ⟨c.map Field.says ++ vs, by simp only [bind, Except.bind, hf, h]; rfl, hm.prepend _⟩

/-! ## satellites -/

theorem readSats_nil {c : Cfg2} (hne : c.lines ≠ []) (st : St2) (t : DateTime) (prns : List Str) : (readSats c st t prns []).1 = [] := by
  cases prns with
  | nil => rfl
  | cons p prns =>
    have : readSatLines c.lines [] = .error .rinex := readSatLines_short (by
      cases h : c.lines with
      | nil => exact absurd h hne
      | cons => simp)
    simp [readSats, this]

/-- complete satellites, then lines the next one cannot be read from -/
theorem readSats_bad {c : Cfg2} (hc : CfgOk c) (st : St2) (t : DateTime) (a : List (SatId × List Field)) (n : Str) (more : List Str)
    (hok : ∀ s ∈ a, s.2.length = c.types.length ∧ ∀ f ∈ s.2, f.Ok) (ls part : List Str)
    (hw : Written ls (a.map fun s => fieldLines s.2).flatten) (hp : readSatLines c.lines part = .error .rinex) :
    readSats c st t ((a.map fun s => s.1.name) ++ n :: more) (ls ++ part) =
      (if st.preceding = some t then [] else a.map fun s => (⟨t, s.1.name, c.types.zip (s.2.map Field.says)⟩, st), .error .rinex) := by
  induction a generalizing ls with
  | nil =>
    cases ls with
    | cons => simp [Written] at hw
    | nil => simp [readSats, hp]
  | cons s a ih =>
    simp only [List.map_cons, List.flatten_cons] at hw
    obtain ⟨l1, l2, rfl, h1, h2⟩ := written_split hw
    obtain ⟨hlen, hf⟩ := hok s (by simp)
    have hl := readSatLines_render (chunks 5 s.2) (fun k hk f hfk => hf f (chunks_mem (by omega) hk hfk)) l1 (l2 ++ part) h1
    rw [← linesPerRec_chunks, hlen, ← hc.lines, flatten_map_says] at hl
    have hz := zipTypes_zip c.types (s.2.map Field.says) [] (by simp [hlen]) hc.nodup (by simp [Dict.keys])
    have := ih (fun s' hs' => hok s' (by simp [hs'])) l2 h2
    simp only [List.map_cons, List.cons_append, readSats, List.append_assoc, hl, hz, this]
    split <;> simp

/-- complete satellites, then too few lines for the next one -/
theorem readSats_short {c : Cfg2} (hc : CfgOk c) (st : St2) (t : DateTime) (a : List (SatId × List Field)) (n : Str) (more : List Str)
    (hok : ∀ s ∈ a, s.2.length = c.types.length ∧ ∀ f ∈ s.2, f.Ok) (ls part : List Str)
    (hw : Written ls (a.map fun s => fieldLines s.2).flatten) (hp : part.length < c.lines.length) :
    readSats c st t ((a.map fun s => s.1.name) ++ n :: more) (ls ++ part) =
      (if st.preceding = some t then [] else a.map fun s => (⟨t, s.1.name, c.types.zip (s.2.map Field.says)⟩, st), .error .rinex) :=
  readSats_bad hc st t a n more hok ls part hw (readSatLines_short hp)

theorem readSatLines_get {ns : List Nat} {ls ls' : List Str} {r : List ObsVal} (h : readSatLines ns ls = .ok (r, ls')) (i n : Nat) (hi : ns[i]? = some n) :
    ∃ l vs, ls[i]? = some l ∧ readFields (rstrip l) (pyRange 0 (n * recLen - (recLen - 1)) recLen) = .ok vs := by
  induction ns generalizing ls r i with
  | nil => simp at hi
  | cons k ns ih =>
    simp only [readSatLines, bind_eq_ok, Prod.exists, pure_eq_ok, Prod.mk.injEq] at h
    obtain ⟨a, b, h1, c, h2, d, e, h3, _, rfl⟩ := h
    cases ls with
    | nil => simp [nextRec] at h1
    | cons x ls =>
      simp only [nextRec, Except.ok.injEq, Prod.mk.injEq] at h1
      obtain ⟨rfl, rfl⟩ := h1
      cases i with
      | zero =>
        simp only [List.getElem?_cons_zero, Option.some.injEq] at hi
        subst hi
        exact ⟨x, c, rfl, h2⟩
      | succ i => exact ih h3 i hi

/-- an unreadable field among the lines of a satellite -/
theorem readSatLines_unreadable {ns : List Nat} {ls : List Str} (i n k : Nat) (hi : ns[i]? = some n) (hk : k < n) (l : Str) (hl : ls[i]? = some l)
    (hne : ∃ x ∈ slice l (16 * k) (16 * k + 16), isSpace x = false) (hbad : parseFloat ((slice l (16 * k) (16 * k + 16)).take 14) = none) :
    readSatLines ns ls = .error .rinex := by
  cases hr : readSatLines ns ls with
  | error e => rw [readSatLines_error hr]
  | ok p =>
    exfalso
    obtain ⟨r, ls'⟩ := p
    obtain ⟨l', vs, h1, h2⟩ := readSatLines_get hr i n hi
    rw [hl] at h1
    simp only [Option.some.injEq] at h1
    subst h1
    have hget : (pyRange 0 (n * recLen - (recLen - 1)) recLen)[k]? = some (16 * k) := by
      rw [pyRange_fields, List.getElem?_range' (by simpa using hk)]
      simp
    obtain ⟨v, h3, _⟩ := readFields_get h2 k (16 * k) hget
    obtain ⟨t, ht, hsp⟩ := slice_rstrip l (16 * k) (16 * k + 16)
    obtain ⟨x, hx, hxs⟩ := hne
    have hxr : x ∈ slice (rstrip l) (16 * k) (16 * k + 16) := by
      rw [ht] at hx
      rcases List.mem_append.1 hx with hx | hx
      · exact hx
      · rw [(hsp x hx).1] at hxs; simp at hxs
    have hb : parseFloat ((slice (rstrip l) (16 * k) (16 * k + 16)).take 14) = none := by
      rw [← hbad]
      conv => rhs; rw [ht]
      rw [List.take_append, parseFloat_append_space _ _ fun c hc => (hsp c (List.mem_of_mem_take hc)).1]
    unfold getVal at h3
    simp only [show recLen = 16 from rfl] at h3
    rw [if_pos, hb] at h3
    · simp at h3
    · refine ⟨List.ne_nil_of_mem hxr, fun e => ?_⟩
      have := all_eq_replicate.1 e x hxr
      rw [this] at hxs
      exact absurd hxs (by decide)

theorem Mangled.cutShort {ts : List Str} {w r : List ObsVal} (h : Mangled w r) (hl : w.length = ts.length) :
    CutShort ((none, 0, 0) : ObsVal) (ts.zip w) (ts.zip r) := by
  obtain ⟨hlen, k, h1, h2⟩ := h
  refine ⟨?_, k, ?_, ?_⟩
  · rw [List.map_fst_zip (by omega), List.map_fst_zip (by omega)]
  · simp only [List.zip_eq_zipWith, List.take_zipWith, h1]
  · intro x hx
    rw [List.zip_eq_zipWith, List.drop_zipWith, ← List.zip_eq_zipWith] at hx
    exact h2 _ (List.of_mem_zip hx).2

/-- complete satellites, then one whose last line is cut -/
theorem readSats_cut {c : Cfg2} (hc : CfgOk c) (hne : c.lines ≠ []) (st : St2) (t : DateTime) (a : List (SatId × List Field)) (s : SatId × List Field) (more : List Str)
    (hok : ∀ x ∈ a ++ [s], x.2.length = c.types.length ∧ ∀ f ∈ x.2, f.Ok) (ls part : List Str)
    (hw : Written ls (a.map fun s => fieldLines s.2).flatten) (hp : Written part (fieldLines s.2).dropLast) (p : Str) (j : Nat)
    (hpl : ∀ x, (fieldLines s.2).getLast? = some x → SameLine p (x.take j)) :
    ∃ last, (readSats c st t ((a.map fun s => s.1.name) ++ s.1.name :: more) (ls ++ part ++ [p])).1 =
      (if st.preceding = some t then [] else (a.map fun s => (⟨t, s.1.name, c.types.zip (s.2.map Field.says)⟩, st)) ++ last) ∧ last.length ≤ 1 ∧
      ∀ y ∈ last, y.2 = st ∧ y.1.epoch = t ∧ y.1.sat = s.1.name ∧ CutShort ((none, 0, 0) : ObsVal) (c.types.zip (s.2.map Field.says)) y.1.data := by
  induction a generalizing ls with
  | nil =>
    cases ls with
    | cons => simp [Written] at hw
    | nil =>
      obtain ⟨hlen, hf⟩ := hok s (by simp)
      have hlines : c.lines = (chunks 5 s.2).map List.length := by rw [hc.lines, ← hlen, linesPerRec_chunks]
      have hch : chunks 5 s.2 ≠ [] := by intro h; rw [h] at hlines; exact hne (by simpa using hlines)
      obtain ⟨ds, d, hds⟩ := (List.eq_nil_or_concat (chunks 5 s.2)).resolve_left hch
      have hfl : fieldLines s.2 = (ds.map fun c => (c.map Field.render).flatten) ++ [(d.map Field.render).flatten] := by
        simp [fieldLines, hds]
      rw [hfl, List.dropLast_concat] at hp
      have hpl' := hpl (d.map Field.render).flatten (by rw [hfl]; simp)
      have hcut := readSatLines_cut ds d (by
        intro k hk f hfk
        have hk' : k ∈ chunks 5 s.2 := by rw [hds]; simpa using hk
        exact hf f (chunks_mem (by omega) hk' hfk)) part hp p j hpl'
      have hsays := flatten_map_says s.2
      rw [hds] at hsays hlines
      simp only [List.concat_eq_append] at hsays hlines
      rw [← hlines, hsays] at hcut
      simp only [List.map_nil, List.nil_append, readSats]
      rcases hcut with h | ⟨vs, h, hm⟩
      · exact ⟨[], by rw [h]; simp, by simp, by simp⟩
      · have hvl : vs.length = c.types.length := by rw [hm.1]; simpa using hlen
        have hz := zipTypes_zip c.types vs [] (by omega) hc.nodup (by simp [Dict.keys])
        have hrest := readSats_nil hne st t more
        rw [h]
        simp only [hz]
        cases hr : readSats c st t more [] with
        | mk ys r =>
          rw [hr] at hrest
          simp only at hrest
          subst hrest
          refine ⟨[(⟨t, s.1.name, c.types.zip vs⟩, st)], ?_, by simp, ?_⟩
          · simp only [List.nil_append]
            split <;> rfl
          · intro y hy
            simp only [List.mem_singleton] at hy
            subst hy
            exact ⟨rfl, rfl, rfl, hm.cutShort (by simpa using hlen)⟩
  | cons x a ih =>
    simp only [List.map_cons, List.flatten_cons] at hw
    obtain ⟨l1, l2, rfl, h1, h2⟩ := written_split hw
    obtain ⟨hlen, hf⟩ := hok x (by simp)
    have hl := readSatLines_render (chunks 5 x.2) (fun k hk f hfk => hf f (chunks_mem (by omega) hk hfk)) l1 (l2 ++ (part ++ [p])) h1
    rw [← linesPerRec_chunks, hlen, ← hc.lines, flatten_map_says] at hl
    have hz := zipTypes_zip c.types (x.2.map Field.says) [] (by simp [hlen]) hc.nodup (by simp [Dict.keys])
    obtain ⟨last, i1, i2, i3⟩ := ih (fun y hy => hok y (by simp only [List.cons_append, List.mem_cons]; exact .inr hy)) l2 h2
    refine ⟨last, ?_, i2, i3⟩
    simp only [List.append_assoc] at i1
    simp only [List.map_cons, List.cons_append, readSats, List.append_assoc, hl, hz]
    split
    · rename_i hpre
      rw [i1, if_pos hpre]
    · rename_i hpre
      simp only [i1, if_neg hpre]
      simp

/-! ## places in a text -/

/-- the line number `n` of pieces of `r` lines each -/
theorem take_pieces {α β : Type} (f : α → List β) (r : Nat) (l : List α) (hr : ∀ x ∈ l, (f x).length = r) (n : Nat) (hn : n < (l.map f).flatten.length) :
    ∃ a x b, l = a ++ x :: b ∧ a.length = n / r ∧ n % r < r ∧ (l.map f).flatten.take n = (a.map f).flatten ++ (f x).take (n % r) ∧
      (l.map f).flatten[n]? = (f x)[n % r]? := by
  induction l generalizing n with
  | nil => simp at hn
  | cons y l ih =>
    have hy := hr y (by simp)
    by_cases hlt : n < r
    · refine ⟨[], y, l, rfl, by simp [Nat.div_eq_of_lt hlt], Nat.mod_lt _ (by omega), ?_, ?_⟩
      · rw [Nat.mod_eq_of_lt hlt]
        simp only [List.map_cons, List.flatten_cons, List.map_nil, List.flatten_nil, List.nil_append]
        rw [List.take_append_of_le_length (by omega)]
      · rw [Nat.mod_eq_of_lt hlt]
        simp only [List.map_cons, List.flatten_cons]
        rw [List.getElem?_append_left (by omega)]
    · simp only [List.map_cons, List.flatten_cons, List.length_append, hy] at hn
      have hr0 : 0 < r := by
        rcases Nat.eq_zero_or_pos r with h | h
        · exfalso
          have : (l.map f).flatten = [] := by
            apply List.flatten_eq_nil_iff.2
            intro z hz
            obtain ⟨w, hw, rfl⟩ := List.mem_map.1 hz
            exact List.length_eq_zero_iff.1 (by rw [hr w (by simp [hw]), h])
          rw [this] at hn
          simp at hn; omega
        · exact h
      obtain ⟨a, x, b, h1, h2, h3, h4, h5⟩ := ih (fun x hx => hr x (by simp [hx])) (n - r) (by omega)
      have hmod : (n - r) % r = n % r := by
        rw [← Nat.mod_eq_sub_mod (by omega)]
      rw [hmod] at h3 h4 h5
      refine ⟨y :: a, x, b, by simp [h1], ?_, h3, ?_, ?_⟩
      · simp only [List.length_cons, h2]
        exact (Nat.div_eq_sub_div hr0 (by omega)).symm
      · simp only [List.map_cons, List.flatten_cons]
        rw [List.take_append, List.take_of_length_le (by omega), hy, h4]
        simp
      · simp only [List.map_cons, List.flatten_cons]
        rw [List.getElem?_append_right (by omega), hy, h5]

theorem written_take {a b : List Str} (h : Written a b) (n : Nat) : Written (a.take n) (b.take n) := by
  induction a generalizing b n with
  | nil => cases b with
    | nil => simp [Written]
    | cons => simp [Written] at h
  | cons x a ih => cases b with
    | nil => simp [Written] at h
    | cons y b =>
      cases n with
      | zero => simp [Written]
      | succ n => exact ⟨h.1, ih h.2 n⟩

theorem written_get {a b : List Str} (h : Written a b) (n : Nat) (x : Str) (hx : a[n]? = some x) : ∃ y, b[n]? = some y ∧ SameLine x y := by
  induction a generalizing b n with
  | nil => simp at hx
  | cons z a ih => cases b with
    | nil => simp [Written] at h
    | cons y b =>
      cases n with
      | zero => simp only [List.getElem?_cons_zero, Option.some.injEq] at hx; subst hx; exact ⟨y, by simp, h.1⟩
      | succ n => simpa using ih h.2 n (by simpa using hx)

/-- the beginning of a physical line is the beginning of what it says -/
theorem sameLine_take {l c : Str} (h : SameLine l c) (j : Nat) : ∃ k, SameLine (l.take j) (c.take k) := by
  obtain ⟨t, ht, hs⟩ := rstrip_decomp l
  obtain ⟨t', ht', hs'⟩ := rstrip_decomp c
  unfold SameLine at h ⊢
  rw [← h] at ht'
  by_cases hj : j ≤ (rstrip l).length
  · refine ⟨j, ?_⟩
    have h1 : l.take j = (rstrip l).take j := by
      conv => lhs; rw [ht]
      exact List.take_append_of_le_length hj
    have h2 : c.take j = (rstrip l).take j := by
      conv => lhs; rw [ht']
      exact List.take_append_of_le_length hj
    rw [h1, h2]
  · refine ⟨c.length, ?_⟩
    have h1 : l.take j = rstrip l ++ t.take (j - (rstrip l).length) := by
      conv => lhs; rw [ht]
      rw [List.take_append, List.take_of_length_le (by omega)]
    rw [List.take_length, ← h, h1, rstrip_append_space _ _ (fun x hx => hs x (List.mem_of_mem_take hx)), rstrip_idem]

/-- the line number `n` of a text made of blocks -/
theorem take_blocks {α β : Type} (f : α → List β) (l : List α) (n : Nat) (hn : n < (l.map f).flatten.length) :
    ∃ a x b k, l = a ++ x :: b ∧ n = (a.map f).flatten.length + k ∧ k < (f x).length ∧ (l.map f).flatten.take n = (a.map f).flatten ++ (f x).take k ∧
      (l.map f).flatten[n]? = (f x)[k]? := by
  induction l generalizing n with
  | nil => simp at hn
  | cons y l ih =>
    by_cases hlt : n < (f y).length
    · refine ⟨[], y, l, n, rfl, by simp, hlt, ?_, ?_⟩
      · simp only [List.map_cons, List.flatten_cons, List.map_nil, List.flatten_nil, List.nil_append]
        rw [List.take_append_of_le_length (by omega)]
      · simp only [List.map_cons, List.flatten_cons]
        rw [List.getElem?_append_left hlt]
    · simp only [List.map_cons, List.flatten_cons, List.length_append] at hn
      obtain ⟨a, x, b, k, h1, h2, h3, h4, h5⟩ := ih (n - (f y).length) (by omega)
      refine ⟨y :: a, x, b, k, by simp [h1], ?_, h3, ?_, ?_⟩
      · simp only [List.map_cons, List.flatten_cons, List.length_append]; omega
      · simp only [List.map_cons, List.flatten_cons]
        rw [List.take_append, List.take_of_length_le (by omega), h4]
        simp
      · simp only [List.map_cons, List.flatten_cons]
        rw [List.getElem?_append_right (by omega), h5]

/-! ## blocks -/

theorem fieldLines_length {c : Cfg2} (hc : CfgOk c) {fs : List Field} (h : fs.length = c.types.length) : (fieldLines fs).length = c.lines.length := by
  rw [hc.lines, ← h, linesPerRec_chunks]; simp [fieldLines]

theorem readEpoch_first {n : Nat} {e : Epoch} (hok : e.Ok n) (l : Str) (h : ∀ x, e.headLines.head? = some x → SameLine l x) :
    readEpoch (rstrip l) e.headLines.tail = .ok (⟨some e.time, (e.flag : Int), (e.sats.length : Int), e.sats.map fun s => s.1.name⟩, []) := by
  have := readEpoch_render hok l e.headLines.tail [] (by
    cases hh : e.headLines with
    | nil => simp [Epoch.headLines] at hh
    | cons x t => exact ⟨h x (by simp [hh]), written_refl _⟩)
  simpa using this

theorem headLines_pos (e : Epoch) : 0 < e.headLines.length := by simp [Epoch.headLines]

/-- an epoch of which the last lines are missing -/
theorem readBlock_missing {c : Cfg2} (hc : CfgOk c) (st : St2) {e : Epoch} (hok : e.Ok c.types.length) (l : Str) (ls : List Str) (m : Nat)
    (hm : m < e.lines.length) (hw : Written (l :: ls) (e.lines.take m)) :
    readBlock c st l ls =
      (if st.preceding = some e.time then [] else ((recsOf c.types e).take ((m - e.headLines.length) / c.lines.length)).map (·, st), .error .rinex) := by
  have hlen := written_length hw
  simp only [List.length_cons, List.length_take] at hlen
  have hfirst : ∀ x, e.headLines.head? = some x → SameLine l x := by
    intro x hx
    obtain ⟨y, hy, hs⟩ := written_get hw 0 l (by simp)
    rw [List.getElem?_take_of_lt (by omega)] at hy
    unfold Epoch.lines at hy
    rw [List.getElem?_append_left (headLines_pos e), ← List.head?_eq_getElem?, hx] at hy
    simp only [Option.some.injEq] at hy
    rw [hy]; exact hs
  by_cases hh : m < e.headLines.length
  · have hr := readEpoch_short (l2 := ls) (readEpoch_first hok l hfirst) (by simp; omega)
    unfold readBlock
    rw [hr, show m - e.headLines.length = 0 by omega]
    simp
  · have hlines : e.lines.take m = e.headLines ++ (e.sats.map fun s => fieldLines s.2).flatten.take (m - e.headLines.length) := by
      unfold Epoch.lines
      rw [List.take_append, List.take_of_length_le (by omega)]
    rw [hlines] at hw
    obtain ⟨a, b, hab, h1, h2⟩ := written_split hw
    obtain ⟨sa, s, sb, hs1, hs2, hs3, hs4, hs5⟩ := take_pieces (fun s : SatId × List Field => fieldLines s.2) c.lines.length e.sats
      (fun s hs => fieldLines_length hc (hok.2.2.2.2.2 s hs).2.1) (m - e.headLines.length) (by
        unfold Epoch.lines at hm
        rw [List.length_append] at hm; omega)
    rw [hs4] at h2
    obtain ⟨b1, b2, rfl, h3, h4⟩ := written_split h2
    cases a with
    | nil => have := written_length h1; simp [Epoch.headLines] at this
    | cons x a =>
      simp only [List.cons_append, List.cons.injEq] at hab
      obtain ⟨rfl, rfl⟩ := hab
      have hr := readEpoch_render hok l a (b1 ++ b2) h1
      have hsat : ∀ x ∈ sa, x.2.length = c.types.length ∧ ∀ f ∈ x.2, f.Ok := fun x hx => (hok.2.2.2.2.2 x (by rw [hs1]; simp [hx])).2
      have hshort := readSats_short hc st e.time sa s.1.name (sb.map fun s => s.1.name) hsat b1 b2 h3 (by
        rw [written_length h4, List.length_take]
        omega)
      have hf := hok.2.2.2.1
      unfold readBlock
      rw [hr]
      simp only
      rw [if_neg (by omega), if_neg (by omega)]
      have hnames : (e.sats.map fun s => s.1.name) = (sa.map fun s => s.1.name) ++ s.1.name :: sb.map fun s => s.1.name := by rw [hs1]; simp
      rw [hnames]
      simp only [hshort]
      congr 1
      split
      · rfl
      · simp [recsOf, hs1, ← hs2]

theorem readSats_consumes {c : Cfg2} {st : St2} {t : DateTime} {prns ls ls' : List Str} {ys : List (Rec2 × St2)}
    (h : readSats c st t prns ls = (ys, .ok ls')) : ls.length = prns.length * c.lines.length + ls'.length := by
  induction prns generalizing ls ys with
  | nil => simp only [readSats, Prod.mk.injEq, Except.ok.injEq] at h; simp [← h.2]
  | cons p prns ih =>
    simp only [readSats] at h
    split at h
    · simp at h
    · rename_i data l1 h1
      have := readSatLines_consumes h1
      split at h
      · simp at h
      · rename_i d hd
        cases hr : readSats c st t prns l1 with
        | mk y r =>
          rw [hr] at h
          simp only at h
          have hrr : r = .ok ls' := by split at h <;> simp_all
          rw [hrr] at hr
          have := ih hr
          simp only [List.length_cons, Nat.add_mul]
          omega

theorem readRecords2_nil (c : Cfg2) (st : St2) : readRecords2 c st [] = ⟨[], .ok st⟩ := rfl

/-- a block that takes all lines there are for its first lines delivers nothing -/
theorem readRecords2_silent {c : Cfg2} (hne : c.lines ≠ []) (st : St2) (l : Str) (ls : List Str)
    (h : ∀ ep r, readEpoch (rstrip l) ls = .ok (ep, r) → r = []) : (readRecords2 c st (l :: ls)).yields = [] := by
  have hb : (readBlock c st l ls).1 = [] ∧ ∀ x, (readBlock c st l ls).2 = .ok x → x.2 = [] := by
    unfold readBlock
    cases hr : readEpoch (rstrip l) ls with
    | error e => simp
    | ok p =>
      obtain ⟨ep, r⟩ := p
      have := h ep r hr
      subst this
      simp only
      split
      · split
        · simp
        · rename_i h1
          have h2 := (takeLines_len h1).1
          simp only [List.take_nil, List.nil_append] at h2
          split
          · simp
          · simp [← h2]
      · split
        · split
          · simp
          · rename_i h1
            have h2 := (takeLines_len h1).1
            simp only [List.take_nil, List.nil_append] at h2
            simp [← h2]
        · split
          · simp
          · rename_i t _
            have h3 := readSats_nil hne st t ep.prns
            split
            · rename_i h4
              rw [h4] at h3
              simpa using h3
            · rename_i h4
              have h5 := readSats_len h4
              rw [h4] at h3
              simp only [List.length_nil, Nat.le_zero] at h5
              have h6 := List.length_eq_zero_iff.1 h5
              simpa [h6] using h3
  rw [readRecords2_cons]
  cases hq : readBlock c st l ls with
  | mk ys r =>
    rw [hq] at hb
    obtain ⟨h1, h2⟩ := hb
    simp only at h1
    subst h1
    cases r with
    | error e => rfl
    | ok x =>
      obtain ⟨st', ls'⟩ := x
      have := h2 _ rfl
      simp only at this
      subst this
      simp [readRecords2_nil]

/-- an epoch whose last line is cut -/
theorem readRecords2_epoch_cut {c : Cfg2} (hc : CfgOk c) (hne : c.lines ≠ []) (st : St2) {e : Epoch} (hok : e.Ok c.types.length) (T : List Str) (m : Nat)
    (hm : m < e.lines.length) (hw : Written T (e.lines.take m)) (p x : Str) (j : Nat) (hx : e.lines[m]? = some x) (hp : SameLine p (x.take j)) :
    ∃ last, (readRecords2 c st (T ++ [p])).yields =
        (if st.preceding = some e.time then [] else ((recsOf c.types e).take ((m - e.headLines.length) / c.lines.length)).map (·, st)) ++ last ∧ last.length ≤ 1 ∧
      ∀ y ∈ last, st.preceding ≠ some e.time ∧ ∃ w, (recsOf c.types e)[(m - e.headLines.length) / c.lines.length]? = some w ∧ y.2 = st ∧ y.1.epoch = w.epoch ∧
        y.1.sat = w.sat ∧ CutShort ((none, 0, 0) : ObsVal) w.data y.1.data := by
  have hlen := written_length hw
  simp only [List.length_take] at hlen
  cases T with
  | nil =>
    simp only [List.length_nil] at hlen
    have : m = 0 := by omega
    subst this
    refine ⟨[], ?_, by simp, by simp⟩
    rw [List.nil_append, readRecords2_silent hne st p [] (fun ep r h => List.length_eq_zero_iff.1 (by have := readEpoch_len h; simpa using this))]
    simp
  | cons l ls =>
    simp only [List.length_cons] at hlen
    have hfirst : ∀ x, e.headLines.head? = some x → SameLine l x := by
      intro x hx
      obtain ⟨y, hy, hs⟩ := written_get hw 0 l (by simp)
      rw [List.getElem?_take_of_lt (by omega)] at hy
      unfold Epoch.lines at hy
      rw [List.getElem?_append_left (headLines_pos e), ← List.head?_eq_getElem?, hx] at hy
      simp only [Option.some.injEq] at hy
      rw [hy]; exact hs
    by_cases hh : m < e.headLines.length
    · refine ⟨[], ?_, by simp, by simp⟩
      rw [List.cons_append, readRecords2_silent hne st l (ls ++ [p])]
      · rw [show m - e.headLines.length = 0 by omega]; simp
      · intro ep r h
        have := readEpoch_consumes (readEpoch_first hok l hfirst) h
        simp at this
        exact List.length_eq_zero_iff.1 (by omega)
    · have hlines : e.lines.take m = e.headLines ++ (e.sats.map fun s => fieldLines s.2).flatten.take (m - e.headLines.length) := by
        unfold Epoch.lines
        rw [List.take_append, List.take_of_length_le (by omega)]
      rw [hlines] at hw
      obtain ⟨a, b, hab, h1, h2⟩ := written_split hw
      obtain ⟨sa, s, sb, hs1, hs2, hs3, hs4, hs5⟩ := take_pieces (fun s : SatId × List Field => fieldLines s.2) c.lines.length e.sats
        (fun s hs => fieldLines_length hc (hok.2.2.2.2.2 s hs).2.1) (m - e.headLines.length) (by
          unfold Epoch.lines at hm
          rw [List.length_append] at hm; omega)
      rw [hs4] at h2
      obtain ⟨b1, b2, rfl, h3, h4⟩ := written_split h2
      have hx' : (fieldLines s.2)[(m - e.headLines.length) % c.lines.length]? = some x := by
        rw [← hs5, ← hx]
        unfold Epoch.lines
        rw [List.getElem?_append_right (by omega)]
      have hfl := fieldLines_length hc (hok.2.2.2.2.2 s (by rw [hs1]; simp)).2.1
      cases a with
      | nil => have := written_length h1; simp [Epoch.headLines] at this
      | cons z a =>
        simp only [List.cons_append, List.cons.injEq] at hab
        obtain ⟨rfl, rfl⟩ := hab
        have hr := readEpoch_render hok l a (b1 ++ (b2 ++ [p])) h1
        have hsat : ∀ x ∈ sa ++ [s], x.2.length = c.types.length ∧ ∀ f ∈ x.2, f.Ok := fun x hx => (hok.2.2.2.2.2 x (by
          rw [hs1]; simp only [List.mem_append, List.mem_singleton] at hx; simp only [List.mem_append, List.mem_cons]; tauto)).2
        have hf := hok.2.2.2.1
        have hnames : (e.sats.map fun s => s.1.name) = (sa.map fun s => s.1.name) ++ s.1.name :: sb.map fun s => s.1.name := by rw [hs1]; simp
        have htake : ((recsOf c.types e).take ((m - e.headLines.length) / c.lines.length)).map (·, st) =
            sa.map fun s => ((⟨e.time, s.1.name, c.types.zip (s.2.map Field.says)⟩, st) : Rec2 × St2) := by
          simp [recsOf, hs1, ← hs2]
        have hget : (recsOf c.types e)[(m - e.headLines.length) / c.lines.length]? = some ⟨e.time, s.1.name, c.types.zip (s.2.map Field.says)⟩ := by
          simp [recsOf, hs1, ← hs2]
        rw [List.cons_append, readRecords2_cons]
        unfold readBlock
        rw [List.append_assoc, List.append_assoc, hr]
        simp only
        rw [if_neg (by omega), if_neg (by omega), hnames]
        by_cases hk : (m - e.headLines.length) % c.lines.length + 1 < c.lines.length
        · have hshort := readSats_short hc st e.time sa s.1.name (sb.map fun s => s.1.name) (fun x hx => hsat x (by simp [hx])) b1 (b2 ++ [p]) h3 (by
            rw [List.length_append, written_length h4, List.length_take]
            simp; omega)
          simp only [hshort]
          refine ⟨[], ?_, by simp, by simp⟩
          rw [htake]; simp
        · have hdl : (fieldLines s.2).take ((m - e.headLines.length) % c.lines.length) = (fieldLines s.2).dropLast := by
            rw [List.dropLast_eq_take, hfl]; congr 1; omega
          rw [hdl] at h4
          have hlast : ∀ y, (fieldLines s.2).getLast? = some y → SameLine p (y.take j) := by
            intro y hy
            rw [List.getLast?_eq_getElem?, hfl, show c.lines.length - 1 = (m - e.headLines.length) % c.lines.length by omega, hx'] at hy
            simp only [Option.some.injEq] at hy
            rw [← hy]; exact hp
          obtain ⟨last, g1, g2, g3⟩ := readSats_cut hc hne st e.time sa s (sb.map fun s => s.1.name) hsat b1 b2 h3 h4 p j hlast
          rw [List.append_assoc] at g1
          have hrem : ∀ ys r, readSats c st e.time ((sa.map fun s => s.1.name) ++ s.1.name :: sb.map fun s => s.1.name) (b1 ++ (b2 ++ [p])) = (ys, .ok r) → r = [] := by
            intro ys r h
            have := readSats_consumes h
            have w1 := written_length h3
            have w2 := written_length h4
            have hfl1 : ((sa.map fun s => fieldLines s.2).flatten).length = sa.length * c.lines.length := by
              have : ∀ q : List (SatId × List Field), (∀ x ∈ q, x.2.length = c.types.length) → ((q.map fun s => fieldLines s.2).flatten).length = q.length * c.lines.length := by
                intro q hq
                induction q with
                | nil => simp
                | cons y q ih =>
                  simp only [List.map_cons, List.flatten_cons, List.length_append, List.length_cons, Nat.add_mul,
                    ih (fun x hx => hq x (by simp [hx])), fieldLines_length hc (hq y (by simp))]
                  omega
              exact this sa (fun x hx => (hsat x (by simp [hx])).1)
            simp only [List.length_append, List.length_map, List.length_cons, List.length_nil, w1, w2, hfl1, List.length_dropLast, hfl, Nat.add_mul, Nat.one_mul] at this
            apply List.length_eq_zero_iff.1
            have hpos : 0 < c.lines.length := by omega
            omega
          cases hq : readSats c st e.time ((sa.map fun s => s.1.name) ++ s.1.name :: sb.map fun s => s.1.name) (b1 ++ (b2 ++ [p])) with
          | mk ys r =>
            rw [hq] at g1
            simp only at g1
            have key : ∃ last : List (Rec2 × St2), ys = (if st.preceding = some e.time then [] else ((recsOf c.types e).take ((m - e.headLines.length) / c.lines.length)).map (·, st)) ++ last ∧
                last.length ≤ 1 ∧ ∀ y ∈ last, st.preceding ≠ some e.time ∧ ∃ w, (recsOf c.types e)[(m - e.headLines.length) / c.lines.length]? = some w ∧
                  y.2 = st ∧ y.1.epoch = w.epoch ∧ y.1.sat = w.sat ∧ CutShort (none, 0, 0) w.data y.1.data := by
              rw [g1]
              by_cases hpre : st.preceding = some e.time
              · exact ⟨[], by simp [hpre], by simp, by simp⟩
              · refine ⟨last, by rw [if_neg hpre, if_neg hpre, htake], g2, ?_⟩
                intro y hyl
                obtain ⟨k1, k2, k3, k4⟩ := g3 y hyl
                exact ⟨hpre, _, hget, k1, k2, k3, k4⟩
            cases r with
            | error e' => exact key
            | ok ls' =>
              have h0 := hrem ys ls' hq
              subst h0
              simpa only [readRecords2_nil, List.append_nil] using key

/-- an event block whose last line is cut delivers nothing -/
theorem readRecords2_event_cut {c : Cfg2} (hne : c.lines ≠ []) (st : St2) {e : Event} (hok : e.Ok) (T : List Str) (m : Nat)
    (hm : m < e.lines.length) (hw : Written T (e.lines.take m)) (p : Str) : (readRecords2 c st (T ++ [p])).yields = [] := by
  have hlen := written_length hw
  simp only [List.length_take] at hlen
  cases T with
  | nil =>
    rw [List.nil_append, readRecords2_silent hne st p [] (fun ep r h => List.length_eq_zero_iff.1 (by have := readEpoch_len h; simpa using this))]
  | cons l ls =>
    simp only [List.length_cons] at hlen
    have hl : SameLine l (e.date ++ padLeft 3 (natStr e.flag) ++ padLeft 3 (natStr e.body.length) ++ e.tail) := by
      obtain ⟨y, hy, hs⟩ := written_get hw 0 l (by simp)
      rw [List.getElem?_take_of_lt (by omega)] at hy
      simp only [Event.lines, List.getElem?_cons_zero, Option.some.injEq] at hy
      rw [hy]; exact hs
    have hr := readEpoch_event hok l (ls ++ [p]) hl
    have hf := hok.2.1
    have hml : m ≤ e.body.length := by simp [Event.lines] at hm; omega
    rw [List.cons_append, readRecords2_cons]
    unfold readBlock
    rw [hr]
    simp only [Int.toNat_natCast]
    have hshort : m < e.body.length ∨ m = e.body.length := by omega
    rcases hshort with h | h
    · rw [takeLines_short (by simp; omega)]
      simp only
      by_cases h34 : (e.flag : Int) = 3 ∨ (e.flag : Int) = 4
      · simp only [if_pos h34]
      · simp only [if_neg h34]
        rw [if_pos (by omega)]
    · have ht := takeLines_ok (ls ++ [p]) []
      rw [List.append_nil, show (ls ++ [p]).length = e.body.length by simp; omega] at ht
      rw [ht]
      simp only
      by_cases h34 : (e.flag : Int) = 3 ∨ (e.flag : Int) = 4
      · simp only [if_pos h34]
        cases parseHeader c.version (List.map rstrip (ls ++ [p])) st.hdr with
        | error _ => rfl
        | ok h => simp [readRecords2_nil]
      · simp only [if_neg h34]
        rw [if_pos (by omega)]
        simp [readRecords2_nil]

/-- an event block of which lines are missing is a RinexError -/
theorem readBlock_event_missing {c : Cfg2} (st : St2) {e : Event} (hok : e.Ok) (l : Str) (ls : List Str) (m : Nat)
    (hm : m < e.lines.length) (hw : Written (l :: ls) (e.lines.take m)) : readBlock c st l ls = ([], .error .rinex) := by
  have hlen := written_length hw
  simp only [List.length_cons, List.length_take] at hlen
  have hl : SameLine l (e.date ++ padLeft 3 (natStr e.flag) ++ padLeft 3 (natStr e.body.length) ++ e.tail) := by
    obtain ⟨y, hy, hs⟩ := written_get hw 0 l (by simp)
    rw [List.getElem?_take_of_lt (by omega)] at hy
    simp only [Event.lines, List.getElem?_cons_zero, Option.some.injEq] at hy
    rw [hy]; exact hs
  have hr := readEpoch_event hok l ls hl
  have hf := hok.2.1
  have hml : m ≤ e.body.length := by simp [Event.lines] at hm; omega
  unfold readBlock
  rw [hr]
  simp only [Int.toNat_natCast]
  rw [takeLines_short (by omega)]
  simp only
  split
  · rfl
  · rw [if_pos (by omega)]

end Verif.Proofs
