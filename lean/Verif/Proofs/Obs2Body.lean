import Verif.Proofs.Obs2Epoch
import Verif.Proofs.Except
/-! # RINEX 2: bodies of files -/
namespace Verif.Proofs
open Verif.Py Verif.Model Verif.Spec Verif.Props

/-! ## lines consumed -/

theorem takeLines_len {k : Nat} {ls r ls' : List Str} (h : takeLines k ls = .ok (r, ls')) :
    ls = ls.take k ++ ls' ∧ r = (ls.take k).map rstrip ∧ k ≤ ls.length := by
  induction k generalizing ls r with
  | zero =>
    simp only [takeLines, Except.ok.injEq, Prod.mk.injEq] at h
    obtain ⟨rfl, rfl⟩ := h; simp
  | succ k ih =>
    cases ls with
    | nil => simp [takeLines, nextRec, bind, Except.bind] at h
    | cons l ls =>
      simp only [takeLines, nextRec, bind, Except.bind] at h
      cases ht : takeLines k ls with
      | error e => rw [ht] at h; simp at h
      | ok p =>
        obtain ⟨r', ls''⟩ := p
        rw [ht] at h
        simp only [pure, Except.pure, Except.ok.injEq, Prod.mk.injEq] at h
        obtain ⟨rfl, rfl⟩ := h
        obtain ⟨h1, h2, h3⟩ := ih ht
        refine ⟨?_, ?_, by simpa using h3⟩
        · simpa using h1
        · simp [h2]

theorem takeLines_ok (ls rest : List Str) : takeLines ls.length (ls ++ rest) = .ok (ls.map rstrip, rest) := by
  induction ls with
  | nil => rfl
  | cons l ls ih => simp [takeLines, nextRec, bind, Except.bind, ih, pure, Except.pure]

theorem takeLines_short {k : Nat} {ls : List Str} (h : ls.length < k) : takeLines k ls = .error .rinex := by
  induction k generalizing ls with
  | zero => omega
  | succ k ih =>
    cases ls with
    | nil => simp [takeLines, nextRec, bind, Except.bind]
    | cons l ls => simp [takeLines, nextRec, bind, Except.bind, ih (ls := ls) (by simpa using h)]

theorem fullPrnLines_len {k : Nat} {ls r ls' : List Str} (h : fullPrnLines k ls = .ok (r, ls')) :
    ls'.length ≤ ls.length := by
  induction k generalizing ls r with
  | zero =>
    simp only [fullPrnLines, Except.ok.injEq, Prod.mk.injEq] at h
    obtain ⟨_, rfl⟩ := h; omega
  | succ k ih =>
    cases ls with
    | nil => simp [fullPrnLines, nextRec, bind, Except.bind] at h
    | cons l ls =>
      simp only [fullPrnLines, nextRec, bind, Except.bind] at h
      cases hg : getPrns (rstrip l) (pyRange 32 66 3) with
      | error e => rw [hg] at h; simp at h
      | ok p =>
        rw [hg] at h; simp only at h
        cases ht : fullPrnLines k ls with
        | error e => rw [ht] at h; simp at h
        | ok q =>
          obtain ⟨r', ls''⟩ := q
          rw [ht] at h
          simp only [pure, Except.pure, Except.ok.injEq, Prod.mk.injEq] at h
          obtain ⟨rfl, rfl⟩ := h
          have := ih ht
          simp; omega

theorem nextRec_len {ls ls' : List Str} {l : Str} (h : nextRec ls = .ok (l, ls')) : ls'.length < ls.length := by
  cases ls with
  | nil => simp [nextRec] at h
  | cons a b =>
    simp only [nextRec, Except.ok.injEq, Prod.mk.injEq] at h
    rw [← h.2]; simp

theorem readPrns_len {ep : Str} {n : Int} {ls r ls' : List Str} (h : readPrns ep n ls = .ok (r, ls')) :
    ls'.length ≤ ls.length := by
  unfold readPrns at h
  split at h
  · simp only [bind_eq_ok, Prod.exists] at h
    obtain ⟨p0, h0, p1, l1, h1, h2⟩ := h
    have := fullPrnLines_len h1
    split at h2
    · simp only [bind_eq_ok, Prod.exists, pure_eq_ok, Prod.mk.injEq] at h2
      obtain ⟨a, b, h3, c, h4, _, rfl⟩ := h2
      have := nextRec_len h3
      omega
    · simp only [pure_eq_ok, Prod.mk.injEq] at h2
      rw [← h2.2]; exact this
  · simp only [bind_eq_ok, pure_eq_ok, Prod.mk.injEq] at h
    obtain ⟨_, _, _, rfl⟩ := h; omega

theorem readEpoch_len {ep : Str} {ls ls' : List Str} {e : Epoch2} (h : readEpoch ep ls = .ok (e, ls')) :
    ls'.length ≤ ls.length := by
  unfold readEpoch at h
  split at h
  · simp at h
  · split at h
    · split at h
      · simp at h
      · simp only [Except.ok.injEq, Prod.mk.injEq] at h
        simp [← h.2]
    · simp only [bind_eq_ok] at h
      obtain ⟨t, _, h⟩ := h
      split at h
      · simp at h
      · simp only [bind_eq_ok, Prod.exists] at h
        obtain ⟨p, l, h1, h⟩ := h
        split at h
        · simp at h
        · simp only [Except.ok.injEq, Prod.mk.injEq] at h
          rw [← h.2]; exact readPrns_len h1

theorem readSatLines_len {ns : List Nat} {ls ls' : List Str} {r : List ObsVal}
    (h : readSatLines ns ls = .ok (r, ls')) : ls'.length ≤ ls.length := by
  induction ns generalizing ls r with
  | nil =>
    simp only [readSatLines, Except.ok.injEq, Prod.mk.injEq] at h
    simp [← h.2]
  | cons n ns ih =>
    simp only [readSatLines, bind_eq_ok, Prod.exists, pure_eq_ok, Prod.mk.injEq] at h
    obtain ⟨a, b, h1, c, h2, d, e, h3, _, rfl⟩ := h
    have := nextRec_len h1
    have := ih h3
    omega

theorem readSats_len {c : Cfg2} {st : St2} {t : DateTime} {prns ls ls' : List Str} {ys : List (Rec2 × St2)}
    (h : readSats c st t prns ls = (ys, .ok ls')) : ls'.length ≤ ls.length := by
  induction prns generalizing ls ys with
  | nil =>
    simp only [readSats, Prod.mk.injEq, Except.ok.injEq] at h
    simp [← h.2]
  | cons p prns ih =>
    simp only [readSats] at h
    split at h
    · simp at h
    · rename_i data l1 h1
      have := readSatLines_len h1
      split at h
      · simp at h
      · rename_i d hd
        cases hr : readSats c st t prns l1 with
        | mk y r =>
          rw [hr] at h
          simp only at h
          have hrr : r = .ok ls' := by split at h <;> simp_all
          rw [hrr] at hr
          have := ih hr
          omega

theorem readBlock_len {c : Cfg2} {st st' : St2} {l : Str} {ls ls' : List Str} {ys : List (Rec2 × St2)}
    (h : readBlock c st l ls = (ys, .ok (st', ls'))) : ls'.length ≤ ls.length := by
  unfold readBlock at h
  split at h
  · simp at h
  · rename_i ep l1 h1
    have := readEpoch_len h1
    split at h
    · split at h
      · simp at h
      · rename_i hl l2 h2
        have h3 := takeLines_len h2
        have h4 := congrArg List.length h3.1
        simp at h4
        split at h
        · simp at h
        · simp only [Prod.mk.injEq, Except.ok.injEq] at h
          rw [← h.2.2]; omega
    · split at h
      · split at h
        · simp at h
        · rename_i hl l2 h2
          have h3 := takeLines_len h2
          have h4 := congrArg List.length h3.1
          simp at h4
          simp only [Prod.mk.injEq, Except.ok.injEq] at h
          rw [← h.2.2]; omega
      · split at h
        · simp at h
        · split at h
          · simp at h
          · rename_i hs
            simp only [Prod.mk.injEq, Except.ok.injEq] at h
            have := readSats_len hs
            rw [← h.2.2]; omega

/-- the fuel is never exhausted -/
theorem readLoop_fuel (c : Cfg2) (f g : Nat) (st : St2) (ls : List Str) (hf : ls.length ≤ f) (hg : ls.length ≤ g) :
    readLoop c f st ls = readLoop c g st ls := by
  induction f generalizing g st ls with
  | zero =>
    have : ls = [] := List.length_eq_zero_iff.1 (by omega)
    subst this
    cases g <;> rfl
  | succ f ih =>
    cases ls with
    | nil => cases g <;> rfl
    | cons l ls =>
      cases g with
      | zero => simp at hg
      | succ g =>
        simp only [readLoop]
        cases hb : readBlock c st l ls with
        | mk ys r =>
          cases r with
          | error e => rfl
          | ok p =>
            obtain ⟨st', ls'⟩ := p
            have := readBlock_len hb
            simp only [List.length_cons] at hf hg
            simp only [ih g st' ls' (by omega) (by omega)]

/-- one turn of the loop -/
theorem readRecords2_cons (c : Cfg2) (st : St2) (l : Str) (ls : List Str) :
    readRecords2 c st (l :: ls) =
      match readBlock c st l ls with
      | (ys, .error e) => ⟨ys, .error e⟩
      | (ys, .ok (st', ls')) =>
        ⟨ys ++ (readRecords2 c st' ls').yields, (readRecords2 c st' ls').stop⟩ := by
  unfold readRecords2
  simp only [List.length_cons, readLoop]
  cases hb : readBlock c st l ls with
  | mk ys r =>
    cases r with
    | error e => rfl
    | ok p =>
      obtain ⟨st', ls'⟩ := p
      have := readBlock_len hb
      simp only [readLoop_fuel c ls.length ls'.length st' ls' (by omega) (Nat.le_refl _)]

/-! ## blocks -/

/-- the records of an epoch as the model writes them -/
def recsOf (types : List Str) (e : Epoch) : List Rec2 :=
  e.sats.map fun s => ⟨e.time, s.1.name, types.zip (s.2.map Field.says)⟩

theorem readSats_render {c : Cfg2} (hc : c.lines = linesPerRec c.types.length) (hn : c.types.Nodup) (st : St2)
    (t : DateTime) (sats : List (SatId × List Field))
    (hok : ∀ s ∈ sats, s.2.length = c.types.length ∧ ∀ f ∈ s.2, f.Ok) (ls rest : List Str)
    (hw : Written ls (sats.map fun s => fieldLines s.2).flatten) :
    readSats c st t (sats.map fun s => s.1.name) (ls ++ rest) =
      (if st.preceding = some t then [] else
        sats.map fun s => (⟨t, s.1.name, c.types.zip (s.2.map Field.says)⟩, st), .ok rest) := by
  induction sats generalizing ls with
  | nil =>
    cases ls with
    | nil => simp [readSats]
    | cons => simp [Written] at hw
  | cons s sats ih =>
    simp only [List.map_cons, List.flatten_cons] at hw
    obtain ⟨l1, l2, rfl, h1, h2⟩ := written_split hw
    obtain ⟨hlen, hf⟩ := hok s (by simp)
    have hl := readSatLines_render (chunks 5 s.2) (fun k hk f hfk => hf f (chunks_mem (by omega) hk hfk)) l1 (l2 ++ rest) h1
    rw [← linesPerRec_chunks, hlen, ← hc, flatten_map_says] at hl
    have hz := zipTypes_zip c.types (s.2.map Field.says) [] (by simp [hlen]) hn (by simp [Dict.keys])
    have := ih (fun s' hs' => hok s' (by simp [hs'])) l2 h2
    simp only [List.map_cons, readSats, List.append_assoc, hl, hz, this]
    split <;> simp

theorem written_length {a b : List Str} (h : Written a b) : a.length = b.length := by
  induction a generalizing b with
  | nil => cases b with
    | nil => rfl
    | cons => simp [Written] at h
  | cons x a ih => cases b with
    | nil => simp [Written] at h
    | cons y b => simp [ih h.2]

theorem written_map_rstrip {a b : List Str} (h : Written a b) : a.map rstrip = b.map rstrip := by
  induction a generalizing b with
  | nil => cases b with
    | nil => rfl
    | cons => simp [Written] at h
  | cons x a ih => cases b with
    | nil => simp [Written] at h
    | cons y b => simp only [List.map_cons, ih h.2]; rw [show rstrip x = rstrip y from h.1]

theorem written_refl (a : List Str) : Written a a := by
  induction a with
  | nil => trivial
  | cons x a ih => exact ⟨rfl, ih⟩

/-- configuration of a reader for a list of types -/
structure CfgOk (c : Cfg2) : Prop where
  lines : c.lines = linesPerRec c.types.length
  nodup : c.types.Nodup

theorem readBlock_obs {c : Cfg2} (hc : CfgOk c) (st : St2) {e : Epoch} (hok : e.Ok c.types.length) (l : Str)
    (ls rest : List Str) (hw : Written (l :: ls) e.lines) :
    readBlock c st l (ls ++ rest) =
      (if st.preceding = some e.time then [] else (recsOf c.types e).map (·, st),
        .ok ({ st with preceding := some e.time }, rest)) := by
  obtain ⟨a, b, hab, h1, h2⟩ := written_split (c := e.headLines) hw
  cases a with
  | nil => simp [Epoch.headLines, Written] at h1
  | cons x a =>
    simp only [List.cons_append, List.cons.injEq] at hab
    obtain ⟨rfl, rfl⟩ := hab
    have hr := readEpoch_render hok l a (b ++ rest) h1
    have hs := readSats_render hc.lines hc.nodup st e.time e.sats (fun s hs => (hok.2.2.2.2.2 s hs).2) b rest h2
    have hf := hok.2.2.2.1
    unfold readBlock
    rw [List.append_assoc, hr]
    simp only
    rw [if_neg (by omega), if_neg (by omega)]
    simp only [hs]
    congr 1
    split <;> simp [recsOf]

theorem readEpoch_event {e : Event} (hok : e.Ok) (l : Str) (ls : List Str)
    (h : SameLine l (e.date ++ padLeft 3 (natStr e.flag) ++ padLeft 3 (natStr e.body.length) ++ e.tail)) :
    readEpoch (rstrip l) ls = .ok (⟨none, (e.flag : Int), (e.body.length : Int), []⟩, ls) := by
  obtain ⟨hd, hf, hf9, hb⟩ := hok
  obtain ⟨r, c, hc⟩ := List.eq_nil_or_concat (natStr e.body.length) |>.resolve_left (natStr_ne_nil _)
  have hcs : isSpace c = false := isDigit_not_space (natStr_digits e.body.length c (by simp [hc]))
  have hpad : padLeft 3 (natStr e.body.length) =
      (List.replicate (3 - (natStr e.body.length).length) ' ' ++ r) ++ [c] := by
    unfold padLeft
    generalize 3 - (natStr e.body.length).length = k
    rw [hc]; simp
  obtain ⟨q, hq⟩ := rstrip_keep (e.date ++ padLeft 3 (natStr e.flag) ++
    (List.replicate (3 - (natStr e.body.length).length) ' ' ++ r)) e.tail c hcs
  have hrl : rstrip l = e.date ++ padLeft 3 (natStr e.flag) ++ padLeft 3 (natStr e.body.length) ++ q := by
    rw [show rstrip l = _ from h, hpad]
    rw [← List.append_assoc]
    rw [hq]
  have l6 := pad3_length hf9
  have l7 := pad3_length hb
  have s1 : slice (rstrip l) 26 29 = padLeft 3 (natStr e.flag) := by
    rw [hrl]
    have := slice_exact (p := e.date) (m := padLeft 3 (natStr e.flag)) (q := padLeft 3 (natStr e.body.length) ++ q)
      (a := 26) (b := 29) hd (by omega)
    simpa using this
  have s2 : slice (rstrip l) 29 32 = padLeft 3 (natStr e.body.length) := by
    rw [hrl]
    exact slice_exact (by simp; omega) (by simp; omega)
  unfold readEpoch
  rw [s1, s2]
  simp only [parseInt_padLeft_natStr]
  rw [if_pos (by omega)]

/-- an event block: the header is updated by flags 3 and 4, everything else is skipped -/
theorem readBlock_event {c : Cfg2} (st : St2) {e : Event} (hok : e.Ok) (l : Str) (ls rest : List Str)
    (hw : Written (l :: ls) e.lines) :
    readBlock c st l (ls ++ rest) =
      if e.flag = 3 ∨ e.flag = 4 then
        match parseHeader c.version (e.body.map rstrip) st.hdr with
        | .error x => ([], .error x)
        | .ok h => ([], .ok ({ st with hdr := h }, rest))
      else ([], .ok (st, rest)) := by
  have hr := readEpoch_event hok l (ls ++ rest) hw.1
  have hlen := written_length hw.2
  have ht := takeLines_ok ls rest
  rw [hlen, written_map_rstrip hw.2] at ht
  have hf := hok.2.1
  unfold readBlock
  rw [hr]
  simp only [Int.toNat_natCast, ht]
  by_cases h34 : e.flag = 3 ∨ e.flag = 4
  · rw [if_pos (by omega), if_pos h34]
    cases parseHeader c.version (e.body.map rstrip) st.hdr <;> rfl
  · rw [if_neg (by omega), if_neg h34, if_pos (by omega)]

/-! ## whole bodies -/

/-- what one block delivers, and the state after it -/
def deliverItem (c : Cfg2) (st : St2) : Item → List (Rec2 × St2) × Except PyErr St2
  | .obs e => (if st.preceding = some e.time then [] else (recsOf c.types e).map (·, st),
      .ok { st with preceding := some e.time })
  | .event e =>
    if e.flag = 3 ∨ e.flag = 4 then
      match parseHeader c.version (e.body.map rstrip) st.hdr with
      | .error x => ([], .error x)
      | .ok h => ([], .ok { st with hdr := h })
    else ([], .ok st)

/-- what a body delivers -/
def deliver (c : Cfg2) (st : St2) : List Item → List (Rec2 × St2) × Except PyErr St2
  | [] => ([], .ok st)
  | i :: is =>
    match deliverItem c st i with
    | (ys, .error e) => (ys, .error e)
    | (ys, .ok st') => (ys ++ (deliver c st' is).1, (deliver c st' is).2)

/-- reading a well-formed body followed by anything -/
theorem readRecords2_body {c : Cfg2} (hc : CfgOk c) (st : St2) (items : List Item)
    (hok : ∀ i ∈ items, i.Ok c.types.length) (ls rest : List Str) (hw : Written ls (bodyLines items)) :
    readRecords2 c st (ls ++ rest) =
      match deliver c st items with
      | (ys, .error e) => ⟨ys, .error e⟩
      | (ys, .ok st') => ⟨ys ++ (readRecords2 c st' rest).yields, (readRecords2 c st' rest).stop⟩ := by
  induction items generalizing st ls with
  | nil =>
    cases ls with
    | nil => simp [deliver]
    | cons => simp [bodyLines, Written] at hw
  | cons i is ih =>
    simp only [bodyLines, List.map_cons, List.flatten_cons] at hw
    obtain ⟨a, b, rfl, h1, h2⟩ := written_split hw
    have hi := hok i (by simp)
    have hcons : ∃ l t, a = l :: t := by
      cases a with
      | cons l t => exact ⟨l, t, rfl⟩
      | nil =>
        have := written_length h1
        cases i <;> simp [Item.lines, Epoch.lines, Epoch.headLines, Event.lines] at this
    obtain ⟨l, t, rfl⟩ := hcons
    have hb : readBlock c st l (t ++ (b ++ rest)) =
        match deliverItem c st i with
        | (ys, .error e) => (ys, .error e)
        | (ys, .ok st') => (ys, .ok (st', b ++ rest)) := by
      cases i with
      | obs e => rw [readBlock_obs hc st hi l t (b ++ rest) h1]; rfl
      | event e =>
        rw [readBlock_event st hi l t (b ++ rest) h1]
        simp only [deliverItem]
        split
        · cases parseHeader c.version (e.body.map rstrip) st.hdr <;> rfl
        · rfl
    rw [List.append_assoc, List.cons_append, readRecords2_cons, hb]
    simp only [deliver]
    cases hd : deliverItem c st i with
    | mk ys r =>
      cases r with
      | error e => rfl
      | ok st' =>
        simp only
        rw [ih st' (fun j hj => hok j (by simp [hj])) b h2]
        cases hd2 : deliver c st' is with
        | mk zs r2 =>
          cases r2 with
          | error e => rfl
          | ok st2 => simp

end Verif.Proofs
