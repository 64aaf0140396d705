import Verif.Proofs.Cut
import Verif.Proofs.Obs3Body
/-! # RINEX 3 observation files cut short -/
namespace Verif.Proofs
open Verif.Py Verif.Model Verif.Spec

theorem readLoop3_append {v : Nat} {ch : List (Nat × Nat)} (a rest : List Str) (l : Loc3) (o o' : Obj3) (h : (readLoop3 v ch a l o).stop = .ok o') :
    ∃ l', readLoop3 v ch (a ++ rest) l o = ⟨(readLoop3 v ch a l o).yields ++ (readLoop3 v ch rest l' o').yields, (readLoop3 v ch rest l' o').stop⟩ := by
  induction a generalizing l o with
  | nil =>
    simp only [readLoop3, Except.ok.injEq] at h
    subst h
    exact ⟨l, by simp [readLoop3]⟩
  | cons x a ih =>
    rw [readLoop3] at h
    cases hs : step3 v ch x l o with
    | error e => rw [hs] at h; simp at h
    | ok p =>
      obtain ⟨y, l1, o1⟩ := p
      rw [hs] at h
      have h' : (readLoop3 v ch a l1 o1).stop = .ok o' := by
        cases y <;> exact h
      obtain ⟨l', ih⟩ := ih l1 o1 h'
      refine ⟨l', ?_⟩
      rw [List.cons_append, readLoop3_cons hs, readLoop3_cons hs, ih]
      simp

/-- the first satellites of an epoch that announces at least as many -/
theorem readLoop3_someSats {v : Nat} {ch : List (Nat × Nat)} {m : TypeMap} {o : Obj3} (hsys : o.sys = asSys m)
    (hch : dataChunks3 (asSys m) = .ok ch) (t : Option DateTime) (special : List Str) (sats : List (SatId × List Field))
    (hok : ∀ s ∈ sats, s.1.Ok3 ∧ (∃ ts, m.of s.1.sys = some ts ∧ ts.Nodup ∧ s.2.length = ts.length) ∧ ∀ f ∈ s.2, f.Ok)
    (flag : Int) (hf : flag = 0 ∨ flag = 1) (n : Nat) (ls rest : List Str) (hw : Written ls (sats.map fun s => satLine s.1 s.2)) :
    ∃ flag', (flag' = 0 ∨ flag' = 1) ∧ readLoop3 v ch (ls ++ rest) ⟨some ⟨t, flag, (sats.length + n : Nat)⟩, special⟩ o =
      ⟨(sats.map fun s => (⟨t, s.1.name3, ((m.of s.1.sys).getD []).zip (s.2.map Field.says3)⟩, o)) ++
        (readLoop3 v ch rest ⟨some ⟨t, flag', n⟩, special⟩ o).yields,
        (readLoop3 v ch rest ⟨some ⟨t, flag', n⟩, special⟩ o).stop⟩ := by
  induction sats generalizing flag ls with
  | nil =>
    cases ls with
    | nil => exact ⟨flag, hf, by simp⟩
    | cons => simp [Written] at hw
  | cons s sats ih =>
    cases ls with
    | nil => simp [Written] at hw
    | cons l ls =>
      obtain ⟨h1, h2⟩ := hw
      obtain ⟨hs, ⟨ts, hts, hnd, hlen⟩, hfs⟩ := hok s (by simp)
      obtain ⟨flag', hf', ih⟩ := ih (fun x hx => hok x (by simp [hx])) 0 (Or.inl rfl) ls h2
      have hget : o.sys.get? [s.1.sys] = some ts := by rw [hsys, asSys_get, hts]
      have hp := parseObs3_render (m := o.sys) (by rw [hsys]; exact hch) hs hfs hget hlen h1
      have hz := zipTypes3_zip ts (s.2.map Field.says3) [] (by simp [hlen]) hnd (by simp [Dict.keys])
      have hstep : step3 v ch l ⟨some ⟨t, flag, ((s :: sats).length + n : Nat)⟩, special⟩ o =
          .ok (some ⟨t, s.1.name3, ts.zip (s.2.map Field.says3)⟩, ⟨some ⟨t, 0, (sats.length + n : Nat)⟩, special⟩, o) := by
        unfold step3
        simp only [isEpochLine_sat hs h1]
        rw [if_neg (by omega)]
        have he : (if flag = 1 then ({ epoch := t, flag := 0, num := (((s :: sats).length + n : Nat) : Int) } : Epoch3)
            else ⟨t, flag, (((s :: sats).length + n : Nat) : Int)⟩) = ⟨t, 0, (((s :: sats).length + n : Nat) : Int)⟩ := by
          rcases hf with rfl | rfl <;> simp
        simp only [he]
        unfold dataLine3
        rw [if_pos (by simp; omega), hp]
        have : (SatId.name3 s.1).take 1 = [s.1.sys] := rfl
        have hnum : (((s :: sats).length + n : Nat) : Int) - 1 = (sats.length + n : Nat) := by simp only [List.length_cons]; omega
        simp only [this, hget, List.length_map, hlen, ne_eq, not_true_eq_false, if_false, hz, List.nil_append, hnum]
      refine ⟨flag', hf', ?_⟩
      rw [List.cons_append, readLoop3_cons hstep, ih]
      simp [hts]

/-- a satellite line cut after its first character or later -/
theorem parseObs3_cut {m : SysMap} {ch : List (Nat × Nat)} (hch : dataChunks3 m = .ok ch) {s : SatId} {fs : List Field}
    {ts : List Str} (hs : s.Ok3) (hfs : ∀ f ∈ fs, f.Ok) (hm : m.get? [s.sys] = some ts) (hlen : fs.length = ts.length)
    {x : Str} (hl : SameLine x (satLine s fs)) (j : Nat) (hj : 0 < j) :
    ∃ d, parseObs3 m ch (x.take j) = .ok (s.name3.take j, d) ∧ CutShort ((.fin 0, 0, 0) : ObsVal3) (ts.zip (fs.map Field.says3)) (ts.zip d) ∧ d.length = ts.length := by
  obtain ⟨p, d, hpd, hd⟩ := satRender_last hs.1
  have hr : rstrip s.render = s.render := by rw [hpd]; exact rstrip_of_last p d hd
  obtain ⟨q, hq, _⟩ := sameLine_head (h := s.render) hl hr
  have h3 := satRender_length hs.1
  have htake : (x.take j).take 3 = s.render.take j := by
    rw [hq, List.take_take, Nat.min_comm, ← List.take_take]
    congr 1
    rw [List.take_append_of_le_length (by omega), List.take_of_length_le (by omega)]
  have hname : replaceChar ' ' '0' (s.render.take j) = s.name3.take j := by
    rw [← replace_satId hs]
    simp [replaceChar, List.map_take]
  have hval : ∀ k, k < fs.length → ∀ f, fs[k]? = some f → rstrip (slice x (3 + 16 * k) (3 + 16 * (k + 1))) = rstrip f.render := by
    intro k hk f hf
    rw [rstrip_slice_same hl]
    unfold satLine
    have := slice_fields s.render fs hfs k f hf
    rw [h3] at this
    rw [this]
  refine ⟨(List.range ts.length).map fun k => parseChunk3 (slice (x.take j) (3 + 16 * k) (3 + 16 * (k + 1))), ?_, ⟨?_, (j - 3) / 16, ?_, ?_⟩, by simp⟩
  · unfold parseObs3
    rw [htake, hname]
    obtain ⟨j', rfl⟩ : ∃ j', j = j' + 1 := ⟨j - 1, by omega⟩
    unfold SatId.name3
    simp only [List.take_succ_cons, hm]
    rw [parseChunks3_map _ fun k hk => dataChunks3_get hch hm (List.mem_range.1 hk)]
  · rw [List.map_fst_zip (by simp), List.map_fst_zip (by simp [hlen])]
  · simp only [List.zip, List.take_zipWith]
    congr 1
    apply List.ext_getElem?
    intro k
    by_cases hk : k < (j - 3) / 16
    · rw [List.getElem?_take_of_lt hk, List.getElem?_take_of_lt hk]
      by_cases hl' : k < fs.length
      · have hf : fs[k]? = some fs[k] := List.getElem?_eq_getElem hl'
        rw [List.getElem?_map, List.getElem?_map, hf, List.getElem?_range (by omega)]
        simp only [Option.map_some, Option.some.injEq]
        rw [slice_take_of_le (by omega), ← parseChunk3_render (hfs _ (List.getElem_mem hl'))]
        exact parseChunk3_rstrip (hval k hl' _ hf)
      · rw [List.getElem?_eq_none (by simp; omega), List.getElem?_eq_none (by simp; omega)]
    · rw [List.getElem?_eq_none (by simp; omega), List.getElem?_eq_none (by simp; omega)]
  · intro y hy
    obtain ⟨i, hi⟩ := List.getElem?_of_mem hy
    rw [List.getElem?_drop] at hi
    have h2 := (List.getElem?_zip_eq_some.1 hi).2
    rw [List.getElem?_map] at h2
    obtain ⟨k, hk, hk2⟩ := Option.map_eq_some_iff.1 h2
    have hlt : (j - 3) / 16 + 1 + i < ts.length := by
      by_contra hge
      rw [List.getElem?_eq_none (by simp; omega)] at hk
      simp at hk
    rw [List.getElem?_range hlt] at hk
    simp only [Option.some.injEq] at hk
    rw [← hk2, ← hk, slice_take_nil (by omega)]
    rfl

/-- the lines of an event block that have arrived yield nothing -/
theorem readLoop3_event_silent {v : Nat} {ch : List (Nat × Nat)} (t : Option DateTime) (flag : Int) (hf : flag > 1) (h4 : flag ≠ 4)
    (bl : List Str) (hbl : ∀ l ∈ bl, isEpochLine l = .ok false) (n : Int) (special : List Str) (o : Obj3) :
    readLoop3 v ch bl ⟨some ⟨t, flag, n⟩, special⟩ o = ⟨[], .ok o⟩ := by
  induction bl generalizing special n with
  | nil => rfl
  | cons l bl ih =>
    have hl := hbl l (by simp)
    have hstep : ∃ n' special', step3 v ch l ⟨some ⟨t, flag, n⟩, special⟩ o = .ok (none, ⟨some ⟨t, flag, n'⟩, special'⟩, o) := by
      unfold step3
      simp only [hl, hf, if_true]
      unfold eventLine3 handleEvent3
      simp only [if_neg h4]
      exact ⟨_, _, ite_self _⟩
    obtain ⟨n', special', hstep⟩ := hstep
    rw [readLoop3_none hstep]
    exact ih (fun x hx => hbl x (by simp [hx])) _ _

theorem isEpochLine_take {x : Str} {j : Nat} (hj : 0 < j) : isEpochLine (x.take j) = isEpochLine x := by
  obtain ⟨j', rfl⟩ : ∃ j', j = j' + 1 := ⟨j - 1, by omega⟩
  cases x <;> rfl

/-- an epoch line, cut or not, yields nothing -/
theorem readLoop3_mark_silent {v : Nat} {ch : List (Nat × Nat)} {x : Str} (hx : isEpochLine x = .ok true) (l : Loc3) (o : Obj3) :
    (readLoop3 v ch [x] l o).yields = [] := by
  rw [readLoop3]
  unfold step3
  rw [hx]
  simp only
  cases parseEpoch3 x <;> rfl

/-- the last satellite line of a file, cut -/
theorem readLoop3_cutSat {v : Nat} {ch : List (Nat × Nat)} {m : TypeMap} {o : Obj3} (hsys : o.sys = asSys m)
    (hch : dataChunks3 (asSys m) = .ok ch) (t : Option DateTime) (special : List Str) (s : SatId × List Field)
    (hok : s.1.Ok3 ∧ (∃ ts, m.of s.1.sys = some ts ∧ ts.Nodup ∧ s.2.length = ts.length) ∧ ∀ f ∈ s.2, f.Ok)
    (flag : Int) (hf : flag = 0 ∨ flag = 1) (n : Nat) (hn : 0 < n) (x : Str) (hx : SameLine x (satLine s.1 s.2)) (j : Nat) (hj : 0 < j) :
    ∃ data, readLoop3 v ch [x.take j] ⟨some ⟨t, flag, n⟩, special⟩ o = ⟨[(⟨t, s.1.name3.take j, data⟩, o)], .ok o⟩ ∧
      CutShort ((.fin 0, 0, 0) : ObsVal3) (((m.of s.1.sys).getD []).zip (s.2.map Field.says3)) data := by
  obtain ⟨hs, ⟨ts, hts, hnd, hlen⟩, hfs⟩ := hok
  have hget : o.sys.get? [s.1.sys] = some ts := by rw [hsys, asSys_get, hts]
  obtain ⟨d, hp, hcut, hdl⟩ := parseObs3_cut (m := o.sys) (by rw [hsys]; exact hch) hs hfs hget hlen hx j hj
  have hz := zipTypes3_zip ts d [] (by simp [hdl]) hnd (by simp [Dict.keys])
  have hhead : (s.1.name3.take j).take 1 = [s.1.sys] := by
    obtain ⟨j', rfl⟩ : ∃ j', j = j' + 1 := ⟨j - 1, by omega⟩
    simp [SatId.name3]
  refine ⟨ts.zip d, ?_, by simpa [hts] using hcut⟩
  have hstep : step3 v ch (x.take j) ⟨some ⟨t, flag, (n : Int)⟩, special⟩ o =
      .ok (some ⟨t, s.1.name3.take j, ts.zip d⟩, ⟨some ⟨t, 0, (n : Int) - 1⟩, special⟩, o) := by
    unfold step3
    simp only [isEpochLine_take hj, isEpochLine_sat hs hx]
    rw [if_neg (by omega)]
    have he : (if flag = 1 then ({ epoch := t, flag := 0, num := (n : Int) } : Epoch3) else ⟨t, flag, (n : Int)⟩) = ⟨t, 0, (n : Int)⟩ := by
      rcases hf with rfl | rfl <;> simp
    simp only [he]
    unfold dataLine3
    rw [if_pos (by simp; omega), hp]
    simp only [hhead, hget, hdl, ne_eq, not_true_eq_false, if_false, hz, List.nil_append]
  rw [readLoop3_cons hstep]
  simp [readLoop3]

/-- the lines of an epoch that have arrived -/
theorem readLoop3_epoch_lines {v : Nat} {ch : List (Nat × Nat)} {m : TypeMap} {o : Obj3} (hsys : o.sys = asSys m)
    (hch : dataChunks3 (asSys m) = .ok ch) {e : Ep3} (he : e.Ok m) (k : Nat) (l : Loc3) (x : Str) (xs rest : List Str)
    (hw : Written (x :: xs) (e.lines.take (k + 1))) (hk : k ≤ e.sats.length) :
    ∃ flag', (flag' = 0 ∨ flag' = 1) ∧ readLoop3 v ch (x :: xs ++ rest) l o =
      ⟨((recs3 m e).take k).map (·, o) ++ (readLoop3 v ch rest ⟨some ⟨some e.time, flag', (e.sats.length - k : Nat)⟩, l.special⟩ o).yields,
        (readLoop3 v ch rest ⟨some ⟨some e.time, flag', (e.sats.length - k : Nat)⟩, l.special⟩ o).stop⟩ := by
  obtain ⟨hd, hf, hn, hs⟩ := he
  unfold Ep3.lines at hw
  rw [List.take_succ_cons] at hw
  obtain ⟨h1, h2⟩ := hw
  rw [← List.map_take] at h2
  have hstep : step3 v ch x l o = .ok (none, ⟨some ⟨some e.time, e.flag, e.sats.length⟩, l.special⟩, o) := by
    unfold step3
    rw [isEpochLine_mark h1, parseEpoch3_mark hd (by omega) hn h1]
    simp
  obtain ⟨flag', hf', h⟩ := readLoop3_someSats (v := v) hsys hch (some e.time) l.special (e.sats.take k) (fun s hs' => hs s (List.mem_of_mem_take hs')) (e.flag : Int) (by omega)
    (e.sats.length - k) xs rest h2
  refine ⟨flag', hf', ?_⟩
  have hlen : (e.sats.take k).length + (e.sats.length - k) = e.sats.length := by simp; omega
  rw [hlen] at h
  rw [List.cons_append, readLoop3_none hstep, h]
  simp [recs3, List.map_take, Function.comp_def]

end Verif.Proofs
