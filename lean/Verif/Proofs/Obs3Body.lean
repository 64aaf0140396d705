import Verif.Proofs.Obs3Line
import Verif.Proofs.Obs2Body
/-! # RINEX 3: the body -/
namespace Verif.Proofs
open Verif.Py Verif.Model Verif.Spec Verif.Props

/-- the type table as the reader keeps it -/
def asSys (m : TypeMap) : SysMap := m.map fun p => ([p.1], p.2)

theorem asSys_get (m : TypeMap) (s : Char) : (asSys m).get? [s] = m.of s := by
  induction m with
  | nil => rfl
  | cons p m ih =>
    simp only [asSys, List.map_cons, Dict.get?, TypeMap.of, List.find?_cons] at ih ⊢
    by_cases h : p.1 = s
    · simp [h]
    · simp [h, ih]

/-- records of an epoch as the model writes them -/
def recs3 (m : TypeMap) (e : Ep3) : List Rec3 :=
  e.sats.map fun s => ⟨some e.time, s.1.name3, ((m.of s.1.sys).getD []).zip (s.2.map Field.says3)⟩

theorem isEpochLine_mark {date : Option (DateTime × Nat)} {flag num : Nat} {clock : Option Int} {l : Str}
    (hl : SameLine l (markLine date flag num clock)) : isEpochLine l = .ok true := by
  rw [markLine_eq] at hl
  obtain ⟨q, rfl, _⟩ := sameLine_head hl (markHead_rstrip date flag num)
  rfl

theorem isEpochLine_sat {s : SatId} {fs : List Field} (hs : s.Ok3) {l : Str} (hl : SameLine l (satLine s fs)) :
    isEpochLine l = .ok false := by
  obtain ⟨p, d, hpd, hd⟩ := satRender_last hs.1
  have hr : rstrip s.render = s.render := by rw [hpd]; exact rstrip_of_last p d hd
  obtain ⟨q, rfl, _⟩ := sameLine_head (h := s.render) hl hr
  simp only [SatId.render, List.cons_append, isEpochLine, Except.ok.injEq, decide_eq_false_iff_not]
  exact hs.2.2

theorem isEpochLine_other {l c : Str} (hl : SameLine l c) (hne : l ≠ []) (hc : c.head? ≠ some '>') :
    isEpochLine l = .ok false := by
  cases l with
  | nil => exact absurd rfl hne
  | cons x l =>
    simp only [isEpochLine, Except.ok.injEq, decide_eq_false_iff_not]
    rintro rfl
    have h1 : ∃ r, rstrip ('>' :: l) = '>' :: r := by
      rw [rstrip_cons]
      split
      · exact ⟨[], by simp [show isSpace '>' = false by decide]⟩
      · exact ⟨_, rfl⟩
    obtain ⟨r, hr⟩ := h1
    have h2 : rstrip c = '>' :: r := by rw [← hr]; exact hl.symm
    obtain ⟨t, ht, _⟩ := rstrip_decomp c
    rw [h2] at ht
    rw [ht] at hc
    exact hc rfl

theorem readLoop3_cons {v : Nat} {ch : List (Nat × Nat)} {line : Str} {ls : List Str} {l l' : Loc3} {o o' : Obj3}
    {y : Option Rec3} (h : step3 v ch line l o = .ok (y, l', o')) :
    readLoop3 v ch (line :: ls) l o =
      ⟨y.toList.map (·, o') ++ (readLoop3 v ch ls l' o').yields, (readLoop3 v ch ls l' o').stop⟩ := by
  rw [readLoop3, h]
  cases y <;> rfl

theorem readLoop3_none {v : Nat} {ch : List (Nat × Nat)} {line : Str} {ls : List Str} {l l' : Loc3} {o o' : Obj3}
    (h : step3 v ch line l o = .ok (none, l', o')) : readLoop3 v ch (line :: ls) l o = readLoop3 v ch ls l' o' := by
  rw [readLoop3, h]

/-- the satellite lines of an epoch -/
theorem readLoop3_sats {v : Nat} {ch : List (Nat × Nat)} {m : TypeMap} {o : Obj3} (hsys : o.sys = asSys m)
    (hch : dataChunks3 (asSys m) = .ok ch) (t : Option DateTime) (special : List Str) (sats : List (SatId × List Field))
    (hok : ∀ s ∈ sats, s.1.Ok3 ∧ (∃ ts, m.of s.1.sys = some ts ∧ ts.Nodup ∧ s.2.length = ts.length) ∧ ∀ f ∈ s.2, f.Ok)
    (flag : Int) (hf : flag = 0 ∨ flag = 1) (ls rest : List Str) (hw : Written ls (sats.map fun s => satLine s.1 s.2)) :
    ∃ flag', readLoop3 v ch (ls ++ rest) ⟨some ⟨t, flag, sats.length⟩, special⟩ o =
      ⟨(sats.map fun s => (⟨t, s.1.name3, ((m.of s.1.sys).getD []).zip (s.2.map Field.says3)⟩, o)) ++
        (readLoop3 v ch rest ⟨some ⟨t, flag', 0⟩, special⟩ o).yields,
        (readLoop3 v ch rest ⟨some ⟨t, flag', 0⟩, special⟩ o).stop⟩ := by
  induction sats generalizing flag ls with
  | nil =>
    cases ls with
    | nil => exact ⟨flag, by simp⟩
    | cons => simp [Written] at hw
  | cons s sats ih =>
    cases ls with
    | nil => simp [Written] at hw
    | cons l ls =>
      obtain ⟨h1, h2⟩ := hw
      obtain ⟨hs, ⟨ts, hts, hnd, hlen⟩, hfs⟩ := hok s (by simp)
      obtain ⟨flag', ih⟩ := ih (fun x hx => hok x (by simp [hx])) 0 (Or.inl rfl) ls h2
      have hget : o.sys.get? [s.1.sys] = some ts := by rw [hsys, asSys_get, hts]
      have hp := parseObs3_render (m := o.sys) (by rw [hsys]; exact hch) hs hfs hget hlen h1
      have hz := zipTypes3_zip ts (s.2.map Field.says3) [] (by simp [hlen]) hnd (by simp [Dict.keys])
      have hstep : step3 v ch l ⟨some ⟨t, flag, (s :: sats).length⟩, special⟩ o =
          .ok (some ⟨t, s.1.name3, ts.zip (s.2.map Field.says3)⟩, ⟨some ⟨t, 0, sats.length⟩, special⟩, o) := by
        unfold step3
        simp only [isEpochLine_sat hs h1]
        rw [if_neg (by omega)]
        have he : (if flag = 1 then ({ epoch := t, flag := 0, num := ((s :: sats).length : Int) } : Epoch3)
            else ⟨t, flag, ((s :: sats).length : Int)⟩) = ⟨t, 0, ((s :: sats).length : Int)⟩ := by
          rcases hf with rfl | rfl <;> simp
        simp only [he]
        unfold dataLine3
        rw [if_pos (by simp), hp]
        have : (SatId.name3 s.1).take 1 = [s.1.sys] := rfl
        simp only [this, hget, List.length_map, hlen, ne_eq, not_true_eq_false, if_false, hz, List.nil_append,
          List.length_cons, Nat.cast_add, Nat.cast_one, add_sub_cancel_right]
      refine ⟨flag', ?_⟩
      rw [List.cons_append, readLoop3_cons hstep, ih]
      simp [hts]

/-- the lines of an event block -/
theorem readLoop3_eventLines {v : Nat} {ch : List (Nat × Nat)} (t : Option DateTime) (flag : Int) (hf : flag > 1)
    (bl : List Str) (hne : bl ≠ []) (hbl : ∀ l ∈ bl, isEpochLine l = .ok false) (special rest : List Str) (o : Obj3) :
    readLoop3 v ch (bl ++ rest) ⟨some ⟨t, flag, bl.length⟩, special⟩ o =
      match handleEvent3 v flag (special ++ bl) o with
      | .error e => ⟨[], .error e⟩
      | .ok o' => readLoop3 v ch rest ⟨some ⟨t, flag, 0⟩, special ++ bl⟩ o' := by
  induction bl generalizing special with
  | nil => exact absurd rfl hne
  | cons l bl ih =>
    have hl := hbl l (by simp)
    by_cases hb : bl = []
    · subst hb
      rw [List.cons_append, List.nil_append, readLoop3]
      unfold step3
      simp only [hl, hf, if_true]
      unfold eventLine3
      simp only [List.length_singleton, Nat.cast_one, show (1 : Int) > 0 by omega, if_true, sub_self]
      cases handleEvent3 v flag (special ++ [l]) o <;> rfl
    · have hpos : 0 < bl.length := List.length_pos_iff.2 hb
      have hstep : step3 v ch l ⟨some ⟨t, flag, (l :: bl).length⟩, special⟩ o =
          .ok (none, ⟨some ⟨t, flag, bl.length⟩, special ++ [l]⟩, o) := by
        unfold step3
        simp only [hl, hf, if_true]
        unfold eventLine3
        simp only [List.length_cons, Nat.cast_add, Nat.cast_one, add_sub_cancel_right,
          show (bl.length : Int) + 1 > 0 by omega, if_true]
        rw [if_neg (by omega)]
      rw [List.cons_append, readLoop3_none hstep, ih hb (fun x hx => hbl x (by simp [hx])) (special ++ [l])]
      simp

/-- an item together with its physical lines -/
def Blocks (m : TypeMap) : List (Item3 × List Str) → Prop
  | [] => True
  | (i, ls) :: bs => i.Ok m ∧ Written ls i.lines ∧ (∀ l ∈ ls, l ≠ []) ∧ Blocks m bs

/-- effect of an event block on the object -/
def afterEvent (v : Nat) (e : Ev3) (special : List Str) (o : Obj3) : Except PyErr Obj3 :=
  if e.flag = 4 ∧ e.body ≠ [] then parseHeader3 v special o else .ok o

/-- what the reader does, block by block: event lines accumulate -/
def blockRun (v : Nat) (m : TypeMap) : List (Item3 × List Str) → List Str → Obj3 → Run3
  | [], _, o => ⟨[], .ok o⟩
  | (.obs e, _) :: bs, special, o =>
    ⟨(recs3 m e).map (·, o) ++ (blockRun v m bs special o).yields, (blockRun v m bs special o).stop⟩
  | (.event e, ls) :: bs, special, o =>
    match afterEvent v e (special ++ ls.drop 1) o with
    | .error er => ⟨[], .error er⟩
    | .ok o' => blockRun v m bs (special ++ ls.drop 1) o'

/-- no type definitions among the lines of the events -/
def NoSys (special : List Str) (bs : List (Item3 × List Str)) : Prop :=
  (∀ e ls, (Item3.event e, ls) ∈ bs → e.flag ≠ 4) ∨
  ((∀ l ∈ special, headerLabel l ≠ lblSysNObs) ∧
    ∀ e ls, (Item3.event e, ls) ∈ bs → ∀ l ∈ ls.drop 1, headerLabel l ≠ lblSysNObs)

theorem parseHeader3_sys {v : Nat} {special : List Str} {o o' : Obj3} (hn : ∀ l ∈ special, headerLabel l ≠ lblSysNObs)
    (h : parseHeader3 v special o = .ok o') : o'.sys = o.sys := by
  unfold parseHeader3 at h
  have : special.filter (fun l => headerLabel l = lblSysNObs) = [] := by
    rw [List.filter_eq_nil_iff]
    intro l hl hd
    exact hn l hl (of_decide_eq_true hd)
  rw [this] at h
  have ha : assignSysNObs v ([] : List Str).flatten o.sys = .ok o.sys := rfl
  rw [ha] at h
  cases hp : parseHeader v special o.hdr with
  | error e => rw [hp] at h; simp at h
  | ok x => rw [hp] at h; simp only [Except.ok.injEq] at h; rw [← h]

theorem readLoop3_blocks {v : Nat} {ch : List (Nat × Nat)} {m : TypeMap} (hch : dataChunks3 (asSys m) = .ok ch)
    (bs : List (Item3 × List Str)) (hb : Blocks m bs) (ep : Option Epoch3) (special : List Str) (o : Obj3)
    (hsame : NoSys special bs) (hsys : o.sys = asSys m) :
    readLoop3 v ch (bs.map (·.2)).flatten ⟨ep, special⟩ o = blockRun v m bs special o := by
  induction bs generalizing ep special o with
  | nil => rfl
  | cons b bs ih =>
    obtain ⟨i, ls⟩ := b
    obtain ⟨hi, hw, hne, hb⟩ := hb
    cases i with
    | obs e =>
      obtain ⟨hd, hf, hn, hs⟩ := hi
      cases ls with
      | nil => simp [Item3.lines, Ep3.lines, Written] at hw
      | cons l ls =>
        obtain ⟨h1, h2⟩ := hw
        have hstep : step3 v ch l ⟨ep, special⟩ o =
            .ok (none, ⟨some ⟨some e.time, e.flag, e.sats.length⟩, special⟩, o) := by
          unfold step3
          rw [isEpochLine_mark h1, parseEpoch3_mark hd (by omega) hn h1]
          rfl
        obtain ⟨flag', hsats⟩ := readLoop3_sats (v := v) hsys hch (some e.time) special e.sats hs (e.flag : Int) (by omega) ls
          (bs.map (·.2)).flatten h2
        simp only [List.map_cons, List.flatten_cons, List.cons_append]
        rw [readLoop3_cons hstep, hsats, ih hb _ special o (hsame.imp (fun h e ls hm => h e ls (by simp [hm])) fun h => ⟨h.1, fun e ls hm => h.2 e ls (by simp [hm])⟩) hsys]
        simp [blockRun, recs3, List.map_map, Function.comp_def]
    | event e =>
      obtain ⟨hd, hf2, hf10, hn, hbody⟩ := hi
      cases ls with
      | nil => simp [Item3.lines, Ev3.lines, Written] at hw
      | cons l ls =>
        obtain ⟨h1, h2⟩ := hw
        have hstep : step3 v ch l ⟨ep, special⟩ o =
            .ok (none, ⟨some ⟨e.date.map (·.1), e.flag, e.body.length⟩, special⟩, o) := by
          unfold step3
          rw [isEpochLine_mark h1, parseEpoch3_mark hd hf10 hn h1]
        have hlen : ls.length = e.body.length := written_length h2
        simp only [List.map_cons, List.flatten_cons, List.cons_append]
        rw [readLoop3_none hstep]
        simp only [blockRun, List.drop_succ_cons, List.drop_zero]
        by_cases hbe : e.body = []
        · have : ls = [] := by
            rw [hbe] at hlen; exact List.length_eq_zero_iff.1 hlen
          subst this
          simp only [List.nil_append, List.append_nil, afterEvent, hbe, ne_eq, not_true_eq_false, and_false, if_false]
          rw [ih hb _ special o (hsame.imp (fun h e ls hm => h e ls (by simp [hm])) fun h => ⟨h.1, fun e ls hm => h.2 e ls (by simp [hm])⟩) hsys]
        · have hlne : ls ≠ [] := by
            intro h; rw [h] at hlen
            exact hbe (List.length_eq_zero_iff.1 hlen.symm)
          have hnot : ∀ x ∈ ls, isEpochLine x = .ok false := by
            intro x hx
            have hall : ∀ (a b : List Str), Written a b → ∀ x ∈ a, ∃ y ∈ b, SameLine x y := by
              intro a
              induction a with
              | nil => simp
              | cons p a iha =>
                intro b hab x hx
                cases b with
                | nil => simp [Written] at hab
                | cons q b =>
                  rcases List.mem_cons.1 hx with rfl | hx
                  · exact ⟨q, by simp, hab.1⟩
                  · obtain ⟨y, hy, hs⟩ := iha b hab.2 x hx
                    exact ⟨y, by simp [hy], hs⟩
            obtain ⟨y, hy, hs⟩ := hall ls e.body h2 x hx
            exact isEpochLine_other hs (hne x (by simp [hx])) (hbody y hy)
          rw [← hlen, readLoop3_eventLines _ _ (by omega) ls hlne hnot]
          have hev : handleEvent3 v (e.flag : Int) (special ++ ls) o = afterEvent v e (special ++ ls) o := by
            unfold handleEvent3 afterEvent
            by_cases h4 : e.flag = 4
            · simp [h4, hbe]
            · rw [if_neg (by omega), if_neg (by omega)]
          rw [hev]
          cases hh : afterEvent v e (special ++ ls) o with
          | error er => rfl
          | ok o' =>
            simp only
            have hnext : NoSys (special ++ ls) bs := by
              rcases hsame with h | ⟨hs1, hs2⟩
              · exact Or.inl fun e ls hm => h e ls (by simp [hm])
              · refine Or.inr ⟨?_, fun e ls hm => hs2 e ls (by simp [hm])⟩
                intro x hx
                rcases List.mem_append.1 hx with hx | hx
                · exact hs1 x hx
                · exact hs2 e (l :: ls) (by simp) x (by simpa using hx)
            refine ih hb _ _ _ hnext ?_
            unfold afterEvent at hh
            split at hh
            · rename_i h4
              rcases hsame with h | ⟨hs1, hs2⟩
              · exact absurd h4.1 (h e (l :: ls) (by simp))
              · rw [parseHeader3_sys _ hh, hsys]
                intro x hx
                rcases List.mem_append.1 hx with hx | hx
                · exact hs1 x hx
                · exact hs2 e (l :: ls) (by simp) x (by simpa using hx)
            · cases hh; exact hsys

/-- a written body is a sequence of blocks -/
theorem blocks_of_written {m : TypeMap} (items : List Item3) (hok : ∀ i ∈ items, i.Ok m) (ls : List Str)
    (hw : Written ls (bodyLines3 items)) (hne : ∀ l ∈ ls, l ≠ []) :
    ∃ bs, bs.map (·.1) = items ∧ (bs.map (·.2)).flatten = ls ∧ Blocks m bs := by
  induction items generalizing ls with
  | nil =>
    cases ls with
    | nil => exact ⟨[], rfl, rfl, trivial⟩
    | cons => simp [bodyLines3, Written] at hw
  | cons i items ih =>
    simp only [bodyLines3, List.map_cons, List.flatten_cons] at hw
    obtain ⟨l1, l2, rfl, h1, h2⟩ := written_split hw
    obtain ⟨bs, a, b, c⟩ := ih (fun x hx => hok x (by simp [hx])) l2 h2 fun l hl => hne l (by simp [hl])
    exact ⟨(i, l1) :: bs, by simp [a], by simp [b], hok i (by simp), h1, fun l hl => hne l (by simp [hl]), c⟩

end Verif.Proofs
