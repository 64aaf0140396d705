import Verif.Proofs.Cut
import Verif.Proofs.Cut3
import Verif.Props.Rinex3
import Verif.Model.Main
import Verif.Props.Rinex2File
/-!
# Property C102 (observation files cut short), and C13 for a fault inside an epoch

An interrupted transmission leaves the first lines of a file, the last of them possibly cut.
-/
namespace Verif.Props
open Verif.Py Verif.Model Verif.Spec Verif.Proofs

theorem delivered_append (ts : List Str) (p : Option DateTime) (a b : List Item) :
    delivered ts p (a ++ b) = delivered ts p a ++ delivered ts (lastTime p a) b := by
  induction a generalizing p with
  | nil => rfl
  | cons i a ih => cases i <;> simp [delivered, lastTime, ih]

theorem reader_lines {ts : List Str} : (reader v ts).lines.length = (ts.length + 4) / 5 := (C06_counts ts.length).1

/-- C102 (whole lines): a file of which only `m` lines of the next epoch block have arrived delivers what the complete items say, then the satellites of which all lines
have arrived, in the words of the file, and raises RinexError. -/
theorem C102_epoch_lines (v : Nat) (ts : List Str) (hn : ts.Nodup) (st : St2) (items : List Item)
    (hok : ∀ i ∈ items, i.Ok ts.length) (hev : ∀ e, Item.event e ∈ items → e.Quiet)
    (e : Epoch) (he : e.Ok ts.length) (m : Nat) (h0 : 0 < m) (hm : m < e.lines.length)
    (ls : List Str) (hw : Written ls (bodyLines items ++ e.lines.take m)) :
    (readRecords2 (reader v ts) st ls).yields.map (fun y => triple y.1) =
      delivered ts st.preceding items ++
        (if lastTime st.preceding items = some e.time then [] else (e.records ts).take ((m - e.headLines.length) / ((ts.length + 4) / 5))) ∧
    (readRecords2 (reader v ts) st ls).stop = .error .rinex := by
  obtain ⟨a, b, rfl, h1, h2⟩ := written_split hw
  obtain ⟨good, st', g1, g2, _, g4, g5⟩ := C13_before_fault v ts hn st items hok hev a b h1
  cases b with
  | nil =>
    have := written_length h2
    simp only [List.length_nil, List.length_take] at this
    omega
  | cons l b =>
    have hb := readBlock_missing (reader_ok v hn) st' he l b m hm h2
    have := C13_faulty_block _ _ _ _ _ _ hb
    rw [g1, g5, this.1, this.2.1, List.map_append, g2]
    refine ⟨?_, rfl⟩
    rw [g4, reader_lines]
    split
    · simp
    · rw [List.map_map, ← triple_recsOf, ← List.map_take]
      rfl

/-- C102 (whole lines): an event block of which lines are missing adds nothing and raises RinexError. -/
theorem C102_event_lines (v : Nat) (ts : List Str) (hn : ts.Nodup) (st : St2) (items : List Item)
    (hok : ∀ i ∈ items, i.Ok ts.length) (hev : ∀ e, Item.event e ∈ items → e.Quiet)
    (e : Event) (he : e.Ok) (m : Nat) (h0 : 0 < m) (hm : m < e.lines.length)
    (ls : List Str) (hw : Written ls (bodyLines items ++ e.lines.take m)) :
    (readRecords2 (reader v ts) st ls).yields.map (fun y => triple y.1) = delivered ts st.preceding items ∧
    (readRecords2 (reader v ts) st ls).stop = .error .rinex := by
  obtain ⟨a, b, rfl, h1, h2⟩ := written_split hw
  obtain ⟨good, st', g1, g2, _, g4, g5⟩ := C13_before_fault v ts hn st items hok hev a b h1
  cases b with
  | nil =>
    have := written_length h2
    simp only [List.length_nil, List.length_take] at this
    omega
  | cons l b =>
    have hb := readBlock_event_missing (c := reader v ts) st' he l b m hm h2
    have := C13_faulty_block _ _ _ _ _ _ hb
    rw [g1, g5, this.1, this.2.1, List.map_append, g2]
    exact ⟨by simp, rfl⟩

/-- C102 (a cut line): keep `m` lines of a file and the first `j` characters of the next one. Exactly the records of the `m` lines are delivered, those the whole file
delivers first, and at most one more: the next record of the whole file, with its time, its satellite and its types, right up to the value that was cut. -/
theorem C102_cut (v : Nat) (ts : List Str) (hn : ts.Nodup) (hne : ts ≠ []) (st : St2) (items : List Item)
    (hok : ∀ i ∈ items, i.Ok ts.length) (hev : ∀ e, Item.event e ∈ items → e.Quiet)
    (ls : List Str) (hw : Written ls (bodyLines items)) (m : Nat) (x : Str) (hx : ls[m]? = some x) (j : Nat) :
    let whole := delivered ts st.preceding items
    ∃ k last, (readRecords2 (reader v ts) st (ls.take m)).yields.map (fun y => triple y.1) = whole.take k ∧
      (readRecords2 (reader v ts) st (ls.take m ++ [x.take j])).yields.map (fun y => triple y.1) = whole.take k ++ last ∧
      last.length ≤ 1 ∧
      ∀ r ∈ last, ∃ w, whole[k]? = some w ∧ r.1 = w.1 ∧ r.2.1 = w.2.1 ∧ CutShort (none, 0, 0) w.2.2 r.2.2 := by
  intro whole
  have hmlt : m < ls.length := (List.getElem?_eq_some_iff.1 hx).1
  have hblt : m < (bodyLines items).length := by rw [← written_length hw]; exact hmlt
  obtain ⟨done, item, todo, n, hit, hmn, hn', htake, hget⟩ := take_blocks Item.lines items m hblt
  have hwt := written_take hw m
  unfold bodyLines at hwt
  rw [htake] at hwt
  obtain ⟨a, b, hab, h1, h2⟩ := written_split hwt
  have hokd : ∀ i ∈ done, i.Ok ts.length := fun i hi => hok i (by rw [hit]; simp [hi])
  have hevd : ∀ e, Item.event e ∈ done → e.Quiet := fun e he => hev e (by rw [hit]; simp [he])
  have hoki := hok item (by rw [hit]; simp)
  obtain ⟨y, hy, hxy⟩ := written_get hw m x hx
  obtain ⟨j', hj'⟩ := sameLine_take hxy j
  unfold bodyLines at hy
  rw [hget] at hy
  have hlne : (reader v ts).lines ≠ [] := by
    intro h0
    have := reader_lines (v := v) (ts := ts)
    rw [h0] at this
    have : 0 < ts.length := List.length_pos_iff.2 hne
    simp at *
    omega
  obtain ⟨good, st', g1, g2, _, g4, g5⟩ := C13_before_fault v ts hn st done hokd hevd a b h1
  obtain ⟨good', st'', g1', g2', _, g4', g5'⟩ := C13_before_fault v ts hn st done hokd hevd a (b ++ [x.take j]) h1
  rw [hab, List.append_assoc, g1, g1', List.map_append, List.map_append, g2, g2']
  have hwhole : whole = delivered ts st.preceding done ++ delivered ts (lastTime st.preceding done) (item :: todo) := by
    show delivered ts st.preceding items = _
    rw [hit, delivered_append]
  cases item with
  | obs e =>
    obtain ⟨last, k1, k2, k3⟩ := readRecords2_epoch_cut (reader_ok v hn) hlne st'' hoki b n hn' h2 (x.take j) y j' hy hj'
    have hm1 : (readRecords2 (reader v ts) st' b).yields.map (fun y => triple y.1) =
        if lastTime st.preceding done = some e.time then [] else (e.records ts).take ((n - e.headLines.length) / ((ts.length + 4) / 5)) := by
      cases b with
      | nil =>
        have := written_length h2
        simp only [List.length_nil, List.length_take] at this
        have hn0 : n = 0 := by have : n < e.lines.length := hn'; omega
        subst hn0
        simp [readRecords2_nil]
      | cons l b =>
        have hb := readBlock_missing (reader_ok v hn) st' hoki l b n hn' h2
        have := C13_faulty_block _ _ _ _ _ _ hb
        rw [this.1, g4, reader_lines]
        split
        · simp
        · rw [List.map_map, ← triple_recsOf, ← List.map_take]
          rfl
    rw [hm1, k1, List.map_append]
    by_cases hpre : lastTime st.preceding done = some e.time
    · refine ⟨(delivered ts st.preceding done).length, last.map (fun y => triple y.1), ?_, ?_, by simpa using k2, ?_⟩
      · rw [if_pos hpre, hwhole]; simp
      · rw [g4', if_pos hpre, hwhole]; simp
      · intro r hr
        obtain ⟨y, hyl, _⟩ := List.mem_map.1 hr
        exact absurd (g4'.trans hpre) (k3 y hyl).1
    · have hd : delivered ts (lastTime st.preceding done) (.obs e :: todo) = e.records ts ++ delivered ts (some e.time) todo := by
        simp [delivered, hpre]
      have hq : (n - e.headLines.length) / ((ts.length + 4) / 5) ≤ (e.records ts).length := by
        have hl : e.lines.length = e.headLines.length + e.sats.length * ((ts.length + 4) / 5) := by
          unfold Epoch.lines
          rw [List.length_append]
          congr 1
          have : ∀ q : List (SatId × List Field), (∀ x ∈ q, x.2.length = ts.length) →
              ((q.map fun s => fieldLines s.2).flatten).length = q.length * ((ts.length + 4) / 5) := by
            intro q hq
            induction q with
            | nil => simp
            | cons y q ih =>
              simp only [List.map_cons, List.flatten_cons, List.length_append, List.length_cons, Nat.add_mul,
                ih (fun x hx => hq x (by simp [hx])), fieldLines_length (reader_ok v hn) (c := reader v ts) (hq y (by simp)), reader_lines]
              omega
          exact this _ fun s hs => (hoki.2.2.2.2.2 s hs).2.1
        have hlt : n < e.lines.length := hn'
        unfold Epoch.records
        rw [List.length_map]
        rw [hl] at hlt
        exact Nat.div_le_of_le_mul (by rw [Nat.mul_comm]; omega)
      refine ⟨(delivered ts st.preceding done).length + (n - e.headLines.length) / ((ts.length + 4) / 5), last.map (fun y => triple y.1), ?_, ?_, by simpa using k2, ?_⟩
      · rw [if_neg hpre, hwhole, hd, List.take_length_add_append, List.take_append_of_le_length hq]
      · rw [g4', if_neg hpre, hwhole, hd, List.take_length_add_append, List.take_append_of_le_length hq, ← triple_recsOf, ← List.map_take, List.map_map, reader_lines, List.append_assoc]
        rfl
      · intro r hr
        obtain ⟨y, hyl, rfl⟩ := List.mem_map.1 hr
        obtain ⟨_, w, q1, q2, q3, q4, q5⟩ := k3 y hyl
        refine ⟨triple w, ?_, q3, q4, q5⟩
        rw [hwhole, hd, List.getElem?_append_right (Nat.le_add_right _ _), Nat.add_sub_cancel_left, ← triple_recsOf]
        rw [reader_lines] at q1
        rw [List.getElem?_append_left (by rw [List.length_map]; exact (List.getElem?_eq_some_iff.1 q1).1), List.getElem?_map]
        show (recsOf ts e)[_]?.map triple = _
        rw [show (recsOf ts e)[(n - e.headLines.length) / ((ts.length + 4) / 5)]? = some w from q1]
        rfl
  | event e =>
    have k1 := readRecords2_event_cut hlne st'' hoki b n hn' h2 (x.take j)
    have hm1 : (readRecords2 (reader v ts) st' b).yields = [] := by
      cases b with
      | nil => rfl
      | cons l b =>
        have hb := readBlock_event_missing (c := reader v ts) st' hoki l b n hn' h2
        exact (C13_faulty_block _ _ _ _ _ _ hb).1
    rw [hm1, k1]
    refine ⟨(delivered ts st.preceding done).length, [], ?_, ?_, by simp, by simp⟩
    · rw [hwhole]; simp
    · rw [hwhole]; simp

/-- field `k` (from 0) of a physical line is not empty and its first 14 columns are not a number -/
def UnreadableField (l : Str) (k : Nat) : Prop :=
  (∃ x ∈ slice l (16 * k) (16 * k + 16), isSpace x = false) ∧ parseFloat ((slice l (16 * k) (16 * k + 16)).take 14) = none

/-- C13: a fault in the lines of a satellite (a field of its line `i` is unreadable), whatever else stands there and behind: the complete items and the satellites of the
epoch before that one are delivered, nothing else, and RinexError is raised. -/
theorem C13_fault_in_epoch (v : Nat) (ts : List Str) (hn : ts.Nodup) (st : St2) (items : List Item)
    (hok : ∀ i ∈ items, i.Ok ts.length) (hev : ∀ e, Item.event e ∈ items → e.Quiet)
    (e : Epoch) (he : e.Ok ts.length) (sa sb : List (SatId × List Field)) (s : SatId × List Field) (hs : e.sats = sa ++ s :: sb)
    (ls rest : List Str) (hw : Written ls (bodyLines items ++ (e.headLines ++ (sa.map fun s => fieldLines s.2).flatten)))
    (i k : Nat) (l : Str) (hk : k < 5) (hik : 5 * i + k < ts.length) (hl : rest[i]? = some l) (hbad : UnreadableField l k) :
    (readRecords2 (reader v ts) st (ls ++ rest)).yields.map (fun y => triple y.1) =
      delivered ts st.preceding items ++ (if lastTime st.preceding items = some e.time then [] else (e.records ts).take sa.length) ∧
    (readRecords2 (reader v ts) st (ls ++ rest)).stop = .error .rinex := by
  obtain ⟨a, b, rfl, h1, h2⟩ := written_split hw
  obtain ⟨b1, b2, rfl, h3, h4⟩ := written_split h2
  rw [List.append_assoc]
  obtain ⟨good, st', g1, g2, _, g4, g5⟩ := C13_before_fault v ts hn st items hok hev a (b1 ++ b2 ++ rest) h1
  rw [g1, g5, List.map_append, g2]
  cases b1 with
  | nil => have := written_length h3; simp [Epoch.headLines] at this
  | cons z b1 =>
    have hget : ∃ n, (linesPerRec ts.length)[i]? = some n ∧ k < n := by
      rw [C06_layout]
      by_cases hi : i < ts.length / 5
      · exact ⟨5, by rw [List.getElem?_append_left (by simpa using hi)]; simp [hi], hk⟩
      · have : i = ts.length / 5 := by omega
        refine ⟨ts.length % 5, ?_, by omega⟩
        rw [List.getElem?_append_right (by simp; omega), if_neg (by omega)]
        simp [this]
    obtain ⟨n, hn1, hn2⟩ := hget
    have hsl := readSatLines_unreadable i n k hn1 hn2 l hl hbad.1 hbad.2
    have hr := readEpoch_render he z b1 (b2 ++ rest) h3
    have hnames : (e.sats.map fun s => s.1.name) = (sa.map fun s => s.1.name) ++ s.1.name :: sb.map fun s => s.1.name := by rw [hs]; simp
    have hsats := readSats_bad (reader_ok v hn) st' e.time sa s.1.name (sb.map fun s => s.1.name)
      (fun x hx => (he.2.2.2.2.2 x (by rw [hs]; simp [hx])).2) b2 rest h4 hsl
    have hblock : readBlock (reader v ts) st' z (b1 ++ (b2 ++ rest)) =
        (if st'.preceding = some e.time then [] else sa.map fun s => ((⟨e.time, s.1.name, ts.zip (s.2.map Field.says)⟩, st') : Rec2 × St2), .error .rinex) := by
      have hf := he.2.2.2.1
      unfold readBlock
      rw [hr]
      simp only
      rw [if_neg (by omega), if_neg (by omega), hnames, hsats]
      rfl
    have := C13_faulty_block _ _ _ _ _ _ hblock
    rw [List.cons_append, List.cons_append, List.append_assoc, this.1, this.2.1, g4]
    refine ⟨?_, rfl⟩
    congr 1
    split
    · rfl
    · simp [Epoch.records, hs, triple, Function.comp_def]

/-! ## RINEX 3 -/

/-- the same with the time as the reader gives it -/
def asRead (t : DateTime × Str × List (Str × (PyFloat × Int × Int))) : Option DateTime × Str × List (Str × (PyFloat × Int × Int)) := (some t.1, t.2.1, t.2.2)

theorem bodyRecords3_append (m : TypeMap) (a b : List Item3) : bodyRecords3 m (a ++ b) = bodyRecords3 m a ++ bodyRecords3 m b := by
  induction a with
  | nil => rfl
  | cons i a ih => cases i <;> simp [bodyRecords3, ih]

theorem recs3_triple (m : TypeMap) (e : Ep3) : (recs3 m e).map triple3 = (e.records m).map asRead := by
  simp [recs3, Ep3.records, triple3, asRead, Function.comp_def]

/-- complete items, then anything -/
theorem readLoop3_done (v : Nat) (m : TypeMap) (o : Obj3) (hsys : o.sys = asSys m) (ch : List (Nat × Nat))
    (hch : dataChunks3 o.sys = .ok ch) (items : List Item3) (hok : ∀ i ∈ items, i.Ok m)
    (hev : ∀ e, Item3.event e ∈ items → e.flag ≠ 4) (ls rest : List Str) (hw : Written ls (bodyLines3 items))
    (hne : ∀ l ∈ ls, l ≠ []) :
    ∃ l', (readRecords3 v ch o (ls ++ rest)).yields.map (fun y => triple3 y.1) =
        (bodyRecords3 m items).map asRead ++ (readLoop3 v ch rest l' o).yields.map (fun y => triple3 y.1) ∧
      (readRecords3 v ch o (ls ++ rest)).stop = (readLoop3 v ch rest l' o).stop := by
  obtain ⟨h1, h2, h3⟩ := C20_body v m o hsys ch hch items hok hev ls hw hne
  obtain ⟨l', h⟩ := readLoop3_append ls rest ⟨none, []⟩ o o h3
  refine ⟨l', ?_, ?_⟩
  · unfold readRecords3 at h1 ⊢
    rw [h, List.map_append, h1]
    rfl
  · unfold readRecords3
    rw [h]

/-- C102 (RINEX 3, whole lines): an epoch of which the line and `k` satellite lines have arrived delivers these satellites; nothing tells that satellites are missing. -/
theorem C102_epoch_lines3 (v : Nat) (m : TypeMap) (o : Obj3) (hsys : o.sys = asSys m) (ch : List (Nat × Nat))
    (hch : dataChunks3 o.sys = .ok ch) (items : List Item3) (hok : ∀ i ∈ items, i.Ok m)
    (hev : ∀ e, Item3.event e ∈ items → e.flag ≠ 4) (e : Ep3) (he : e.Ok m) (k : Nat) (hk : k ≤ e.sats.length)
    (ls : List Str) (hw : Written ls (bodyLines3 items ++ e.lines.take (k + 1))) (hne : ∀ l ∈ ls, l ≠ []) :
    (readRecords3 v ch o ls).yields.map (fun y => triple3 y.1) = (bodyRecords3 m items ++ (e.records m).take k).map asRead ∧
    (readRecords3 v ch o ls).stop = .ok o := by
  obtain ⟨a, b, rfl, h1, h2⟩ := written_split hw
  obtain ⟨l', g1, g2⟩ := readLoop3_done v m o hsys ch hch items hok hev a b h1 (fun l hl => hne l (by simp [hl]))
  cases b with
  | nil => simp [Ep3.lines, Written] at h2
  | cons x xs =>
    obtain ⟨flag', _, h⟩ := readLoop3_epoch_lines (v := v) hsys (by rw [← hsys]; exact hch) he k l' x xs [] h2 hk
    rw [List.append_nil] at h
    rw [g1, g2, h]
    refine ⟨?_, rfl⟩
    simp only [readLoop3, List.append_nil, List.map_append, List.map_map]
    congr 1
    exact (show ((recs3 m e).take k).map triple3 = _ by rw [List.map_take, recs3_triple, ← List.map_take])

/-- C102 (RINEX 3, a cut line): keep `m` lines of a file and the first `j` characters of the next one. The records of the `m` lines are delivered, those the whole file
delivers first, without complaint, and at most one more: the next record of the whole file, with its time and its types, right up to the value that was cut, and with the
part of its name that has arrived. -/
theorem C102_cut3 (v : Nat) (tm : TypeMap) (o : Obj3) (hsys : o.sys = asSys tm) (ch : List (Nat × Nat))
    (hch : dataChunks3 o.sys = .ok ch) (items : List Item3) (hok : ∀ i ∈ items, i.Ok tm)
    (hev : ∀ e, Item3.event e ∈ items → e.flag ≠ 4) (ls : List Str) (hw : Written ls (bodyLines3 items))
    (hne : ∀ l ∈ ls, l ≠ []) (m : Nat) (x : Str) (hx : ls[m]? = some x) (j : Nat) (hj : 0 < j) :
    let whole := bodyRecords3 tm items
    ∃ k last, (readRecords3 v ch o (ls.take m)).yields.map (fun y => triple3 y.1) = (whole.take k).map asRead ∧
      (readRecords3 v ch o (ls.take m)).stop = .ok o ∧
      (readRecords3 v ch o (ls.take m ++ [x.take j])).yields.map (fun y => triple3 y.1) = (whole.take k).map asRead ++ last ∧
      last.length ≤ 1 ∧
      ∀ r ∈ last, ∃ w, whole[k]? = some w ∧ r.1 = some w.1 ∧ r.2.1 = w.2.1.take j ∧ CutShort (.fin 0, 0, 0) w.2.2 r.2.2 := by
  intro whole
  have hmlt : m < ls.length := (List.getElem?_eq_some_iff.1 hx).1
  have hblt : m < (bodyLines3 items).length := by rw [← written_length hw]; exact hmlt
  obtain ⟨done, item, todo, n, hit, hmn, hn', htake, hget⟩ := take_blocks Item3.lines items m hblt
  have hwt := written_take hw m
  unfold bodyLines3 at hwt
  rw [htake] at hwt
  obtain ⟨a, b, hab, h1, h2⟩ := written_split hwt
  have hokd : ∀ i ∈ done, i.Ok tm := fun i hi => hok i (by rw [hit]; simp [hi])
  have hevd : ∀ e, Item3.event e ∈ done → e.flag ≠ 4 := fun e he => hev e (by rw [hit]; simp [he])
  have hoki := hok item (by rw [hit]; simp)
  obtain ⟨y, hy, hxy⟩ := written_get hw m x hx
  unfold bodyLines3 at hy
  rw [hget] at hy
  have hxne : x ≠ [] := hne x (List.mem_of_getElem? hx)
  have hlsne : ∀ l ∈ a ++ b, l ≠ [] := fun l hl => hne l (List.mem_of_mem_take (by rw [hab]; exact hl))
  have hch' : dataChunks3 (asSys tm) = .ok ch := by rw [← hsys]; exact hch
  obtain ⟨l1, g1, g2⟩ := readLoop3_done v tm o hsys ch hch done hokd hevd a b h1 (fun l hl => hlsne l (by simp [hl]))
  obtain ⟨l2, g3, _⟩ := readLoop3_done v tm o hsys ch hch done hokd hevd a (b ++ [x.take j]) h1 (fun l hl => hlsne l (by simp [hl]))
  rw [hab, List.append_assoc, g1, g2, g3]
  have hwhole : whole = bodyRecords3 tm done ++ bodyRecords3 tm (item :: todo) := by
    show bodyRecords3 tm items = _
    rw [hit, bodyRecords3_append]
  cases item with
  | obs e =>
    have hd : bodyRecords3 tm (.obs e :: todo) = e.records tm ++ bodyRecords3 tm todo := rfl
    cases n with
    | zero =>
      have hb : b = [] := List.length_eq_zero_iff.1 (by rw [written_length h2]; simp)
      subst hb
      have hmark : isEpochLine (x.take j) = .ok true := by
        rw [isEpochLine_take hj]
        simp only [Item3.lines, Ep3.lines, List.getElem?_cons_zero, Option.some.injEq] at hy
        rw [← hy] at hxy
        exact isEpochLine_mark hxy
      rw [List.nil_append, readLoop3_mark_silent hmark]
      refine ⟨(bodyRecords3 tm done).length, [], ?_, rfl, ?_, by simp, by simp⟩
      · rw [hwhole]; simp [readLoop3]
      · rw [hwhole]; simp
    | succ k =>
      have hk : k < e.sats.length := by simpa [Item3.lines, Ep3.lines] using hn'
      cases b with
      | nil => simp [Item3.lines, Ep3.lines, Written] at h2
      | cons z b =>
        obtain ⟨f1, _, q1⟩ := readLoop3_epoch_lines (v := v) hsys hch' hoki k l1 z b [] h2 (by omega)
        obtain ⟨f2, hf2, q2⟩ := readLoop3_epoch_lines (v := v) hsys hch' hoki k l2 z b [x.take j] h2 (by omega)
        rw [List.append_nil] at q1
        have hline : SameLine x (satLine e.sats[k].1 e.sats[k].2) := by
          simp only [Item3.lines, Ep3.lines, List.getElem?_cons_succ, List.getElem?_map, List.getElem?_eq_getElem hk, Option.map_some, Option.some.injEq] at hy
          rw [hy]; exact hxy
        obtain ⟨data, q3, hcut⟩ := readLoop3_cutSat (v := v) hsys hch' (some e.time) l2.special e.sats[k] (hoki.2.2.2 _ (List.getElem_mem hk)) f2 hf2
          (e.sats.length - k) (by omega) x hline j hj
        rw [q1, q2, q3]
        have hrec : ((recs3 tm e).take k).map triple3 = ((e.records tm).take k).map asRead := by
          rw [List.map_take, recs3_triple, ← List.map_take]
        have hlen : (e.records tm).length = e.sats.length := by simp [Ep3.records]
        refine ⟨(bodyRecords3 tm done).length + k, [(some e.time, e.sats[k].1.name3.take j, data)], ?_, rfl, ?_, by simp, ?_⟩
        · rw [hwhole, hd, List.take_length_add_append, List.take_append_of_le_length (by omega), List.map_append (f := asRead), ← hrec]
          simp [readLoop3, Function.comp_def]
        · rw [hwhole, hd, List.take_length_add_append, List.take_append_of_le_length (by omega), List.map_append (f := asRead), ← hrec]
          simp [Function.comp_def]; rfl
        · intro r hr
          simp only [List.mem_singleton] at hr
          subst hr
          refine ⟨(e.time, e.sats[k].1.name3, ((tm.of e.sats[k].1.sys).getD []).zip (e.sats[k].2.map Field.says3)), ?_, rfl, rfl, hcut⟩
          rw [hwhole, hd, List.getElem?_append_right (Nat.le_add_right _ _), Nat.add_sub_cancel_left, List.getElem?_append_left (by omega)]
          simp [Ep3.records, List.getElem?_eq_getElem hk]
  | event e =>
    have h4 := hev e (by rw [hit]; simp)
    obtain ⟨hd, hf2, hf10, hnb, hbody⟩ := hoki
    have hother : ∀ (c : Str) (i : Nat) (l : Str), l ≠ [] → e.body[i]? = some c → SameLine l c → isEpochLine l = .ok false := by
      intro c i l hl hc hs
      exact isEpochLine_other hs hl (hbody c (List.mem_of_getElem? hc))
    have hd' : bodyRecords3 tm (.event e :: todo) = bodyRecords3 tm todo := rfl
    cases n with
    | zero =>
      have hb : b = [] := List.length_eq_zero_iff.1 (by rw [written_length h2]; simp)
      subst hb
      have hmark : isEpochLine (x.take j) = .ok true := by
        rw [isEpochLine_take hj]
        simp only [Item3.lines, Ev3.lines, List.getElem?_cons_zero, Option.some.injEq] at hy
        rw [← hy] at hxy
        exact isEpochLine_mark hxy
      rw [List.nil_append, readLoop3_mark_silent hmark]
      refine ⟨(bodyRecords3 tm done).length, [], ?_, rfl, ?_, by simp, by simp⟩
      · rw [hwhole]; simp [readLoop3]
      · rw [hwhole]; simp
    | succ k =>
      cases b with
      | nil => simp [Item3.lines, Ev3.lines, Written] at h2
      | cons z b =>
        have h2' := h2
        simp only [Item3.lines, Ev3.lines, List.take_succ_cons] at h2'
        obtain ⟨w1, w2⟩ := h2'
        have hstep : ∀ l, step3 v ch z l o = .ok (none, ⟨some ⟨e.date.map (·.1), e.flag, e.body.length⟩, l.special⟩, o) := by
          intro l
          unfold step3
          rw [isEpochLine_mark w1, parseEpoch3_mark hd hf10 hnb w1]
        have hall : ∀ l ∈ b, isEpochLine l = .ok false := by
          intro l hl
          obtain ⟨i, hi⟩ := List.getElem?_of_mem hl
          obtain ⟨c, hc, hs⟩ := written_get w2 i l hi
          have hc' : e.body[i]? = some c := by
            rw [List.getElem?_take] at hc
            split at hc
            · exact hc
            · simp at hc
          exact hother c i l (hlsne l (by simp [hl])) hc' hs
        have hxe : isEpochLine (x.take j) = .ok false := by
          rw [isEpochLine_take hj]
          simp only [Item3.lines, Ev3.lines, List.getElem?_cons_succ] at hy
          exact hother y k x hxne hy hxy
        rw [readLoop3_none (hstep l1), List.cons_append, readLoop3_none (hstep l2),
          readLoop3_event_silent _ _ (by omega) (by omega) b hall,
          readLoop3_event_silent _ _ (by omega) (by omega) (b ++ [x.take j]) (by
            intro l hl
            rcases List.mem_append.1 hl with hl | hl
            · exact hall l hl
            · rw [List.mem_singleton.1 hl]; exact hxe)]
        refine ⟨(bodyRecords3 tm done).length, [], ?_, rfl, ?_, by simp, by simp⟩
        · rw [hwhole]; simp
        · rw [hwhole]; simp

/-! ## Concrete cuts -/

theorem exTwo_ok : ∀ i ∈ ([.obs (exEpoch 0), .obs (exEpoch 30)] : List Item), i.Ok exTypes.length := by
  intro i hi
  simp only [List.mem_cons, List.not_mem_nil, or_false] at hi
  rcases hi with rfl | rfl
  · exact exEpoch_ok (by decide)
  · exact exEpoch_ok (by decide)

/-- the hypotheses of `C102_cut` are met: the fifth line of a file of two epochs, cut after 13 characters -/
example := C102_cut 211 exTypes (by decide) (by decide) ⟨.empty, none⟩ [.obs (exEpoch 0), .obs (exEpoch 30)] exTwo_ok (by simp)
  (bodyLines [.obs (exEpoch 0), .obs (exEpoch 30)]) (written_refl _) 4 _ rfl 13

/-- a value cut in the middle is read as another number: 123.456 becomes 123.45, and the values behind it are missing; after five whole lines RinexError is raised -/
theorem C102_witness :
    (readRecords2 (reader 211 exTypes) ⟨.empty, none⟩ ((bodyLines [.obs (exEpoch 0), .obs (exEpoch 30)]).take 4 ++
        [((bodyLines [.obs (exEpoch 0), .obs (exEpoch 30)])[4]?.getD []).take 13])).yields.map (fun y => (y.1.epoch.second, y.1.sat, y.1.data.map (·.2.1))) =
      [(0, c% "G01", [some (.fin (123456 / 1000)), none, some (.fin (-123456 / 1000))]), (0, c% "R24", [some (.fin (99 / 1000)), none, some (.fin (-99 / 1000))]),
       (30, c% "G01", [some (.fin (12345 / 100)), none, none])] ∧
    (readRecords2 (reader 211 exTypes) ⟨.empty, none⟩ ((bodyLines [.obs (exEpoch 0), .obs (exEpoch 30)]).take 5)).stop.toOption = none := by decide +kernel

/-- the hypotheses of `C13_fault_in_epoch` are met: a letter in the third value of the second satellite -/
example := C13_fault_in_epoch 211 exTypes (by decide) ⟨.empty, none⟩ [.obs (exEpoch 0)] (fun i hi => exTwo_ok i (by simp at hi; simp [hi])) (by simp)
  (exEpoch 30) (exEpoch_ok (by decide)) [exSat 'G' 1 123456] [] (exSat 'R' 24 99) rfl _ [c% "         0.099 7                        -0.0x91\n"] (written_refl _)
  0 2 _ (by decide) (by decide) rfl ⟨⟨'x', by decide, by decide⟩, by decide +kernel⟩

/-- the hypotheses of `C102_cut3` are met -/
example (o : Obj3) (ho : o.sys = asSys exMap) (ch : List (Nat × Nat)) (hch : dataChunks3 o.sys = .ok ch) :=
  C102_cut3 303 exMap o ho ch hch exItems3 exItems3_ok (by simp [exItems3]) (bodyLines3 exItems3) (written_refl _)
    (by decide +kernel) 2 _ rfl 2 (by decide)

/-- A RINEX 3 line cut inside the satellite's name: `R12` becomes `R1`, which the program takes for satellite R01; `R` alone is not a satellite, and ValueError ends the run. -/
theorem C102_witness3 :
    (readRecords3 303 [(3, 19), (19, 35)] ⟨.empty, asSys exMap⟩ ((bodyLines3 exItems3).take 2 ++ [((bodyLines3 exItems3)[2]?.getD []).take 2])).yields.map
      (fun y => (y.1.sat, y.1.data)) =
        [(c% "G05", [(c% "C1C", (.fin (20000000123 / 1000), 0, 7)), (c% "L1C", (.fin 0, 0, 0))]), (c% "R1", [(c% "C1P", (.fin 0, 0, 0))])] ∧
    (decode ⟨some ⟨2017, 2, 28, 23, 59, 59, 0⟩, c% "R1", [], ⟨0, 0, 0⟩, fun _ => none⟩).toOption.map (fun p => (p.1, p.2.1)) = some ('R', 1) ∧
    decode ⟨some ⟨2017, 2, 28, 23, 59, 59, 0⟩, c% "R", [], ⟨0, 0, 0⟩, fun _ => none⟩ = .error .value :=
  ⟨by decide +kernel, by decide +kernel, rfl⟩

end Verif.Props
