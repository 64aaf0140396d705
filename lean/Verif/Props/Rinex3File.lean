import Verif.Props.Interval3
import Verif.Props.Rinex3Header
import Verif.Props.Rinex2File
/-!
# Whole RINEX 3 files (C20), events (C21)
-/
namespace Verif.Props
open Verif.Py Verif.Model Verif.Spec Verif.Proofs

theorem asSys_typeMapOf (v : Nat) (es : List HEntry) : asSys (typeMapOf v es) = typesOf v es := by
  induction es with
  | nil => rfl
  | cons e es ih =>
    cases e with
    | line h => exact ih
    | sys s n codes =>
      simp only [typeMapOf, typesOf, asSys, List.map_cons] at ih ⊢
      rw [ih]

theorem splitHeader3_spec (hdr body : List Str) (endl : Str) (hh : ∀ l ∈ hdr, headerLabel l ≠ lblEnd)
    (he : headerLabel endl = lblEnd) : splitHeader3 (hdr ++ endl :: body) = (hdr, body) := by
  induction hdr with
  | nil => simp [splitHeader3, he]
  | cons l ls ih =>
    simp only [List.cons_append, splitHeader3, hh l (by simp), if_false]
    rw [ih fun x hx => hh x (by simp [hx])]

/-- opening a file whose header is well-formed and whose spacing is `i` microseconds -/
theorem open3 (v : Nat) (hv : 300 ≤ v) (es : List HEntry) (hes : ∀ e ∈ es, e.Ok) (hc : Consistent [] es)
    (hsome : typeMapOf v es ≠ []) (hdr : List Str) (hp : PhysicalLines hdr (es.map (HEntry.lines v)).flatten)
    (hh : ∀ l ∈ hdr, labelOf l ≠ lblEnd) (endl : Str) (hend : labelOf endl = lblEnd) (ls : List Str) (n : Nat) (i : Int)
    (hi : 0 < i ∧ i < 99999000000) (hdet : ∀ fuel, n ≤ fuel → detInterval3 fuel ls = some (.ok i)) :
    ∃ ch w, dataChunks3 (asSys (typeMapOf v es)) = .ok ch ∧ Stored v i w ∧
      ∀ fuel, n ≤ fuel → openObs3 v fuel (hdr ++ endl :: ls) =
        some (.ok ⟨v, ⟨{ valuesOf v es .empty with interval := some w }, asSys (typeMapOf v es)⟩, ch, ls⟩) := by
  obtain ⟨ch, hch⟩ := dataChunks3_total (m := asSys (typeMapOf v es)) (by
    intro h; apply hsome; simpa [asSys] using h)
  have hparse : ∃ w, parseInterval v (padLeft 10 (fmtFixed3 ((i : Rat) / 1000000))) = .ok w := by
    have hsmall : (roundHalfEven ((i : Rat) / 1000000 * 1000)).natAbs < 100000000 := by
      have a1 : (0 : Rat) < (i : Rat) := by exact_mod_cast hi.1
      have a2 : (i : Rat) < 99999000000 := by exact_mod_cast hi.2
      have c1 : 0 ≤ roundHalfEven ((i : Rat) / 1000000 * 1000) := roundHalfEven_mono_int (by push_cast; linarith)
      have c2 : roundHalfEven ((i : Rat) / 1000000 * 1000) ≤ 99999000 := roundHalfEven_le_int (by push_cast; linarith)
      omega
    exact ⟨_, parseInterval_later (by omega) hsmall⟩
  obtain ⟨w, hw⟩ := hparse
  refine ⟨ch, w, hch, stored_of_parse (by omega) (by omega) hw, ?_⟩
  intro fuel hf
  unfold openObs3
  rw [splitHeader3_spec hdr ls endl hh hend, afterHeader_spec hdr ls endl hh hend]
  simp only
  rw [C17_types v es hes hdr hp ⟨.empty, []⟩ hc]
  simp only [hdet fuel hf, hw, List.nil_append, ← asSys_typeMapOf, hch]

/-- C20, whole files: header entries, end of header, epochs and events (no header events): opening the file and reading it
delivers exactly the records written, the values of the header, the types of every system, and the spacing of the first two different times. -/
theorem C20_file (v : Nat) (hv : 300 ≤ v) (es : List HEntry) (hes : ∀ e ∈ es, e.Ok) (hc : Consistent [] es)
    (hdr : List Str) (hp : PhysicalLines hdr (es.map (HEntry.lines v)).flatten)
    (hh : ∀ l ∈ hdr, labelOf l ≠ lblEnd) (endl : Str) (hend : labelOf endl = lblEnd)
    (items : List Item3) (hok : ∀ i ∈ items, i.Ok (typeMapOf v es)) (hsome : typeMapOf v es ≠ [])
    (hev : ∀ e, Item3.event e ∈ items → e.flag ≠ 4) (ls : List Str) (hw : Written ls (bodyLines3 items))
    (hne : ∀ l ∈ ls, l ≠ []) (a b : DateTime) (rest : List (Option DateTime))
    (hca : candidates (itemMarks items) = some a :: rest) (hcb : otherThan (some a) rest = some b)
    (hla : Legal a) (hlb : Legal b) (hab : 0 < instant b - instant a) (hspan : instant b - instant a < 99999000000) :
    ∃ n o, (∀ fuel, n ≤ fuel → openObs3 v fuel (hdr ++ endl :: ls) = some (.ok o)) ∧
      o.records.yields.map (fun y => triple3 y.1) =
        (bodyRecords3 (typeMapOf v es) items).map (fun t => (some t.1, t.2.1, t.2.2)) ∧
      (∀ y ∈ o.records.yields, y.2 = o.obj) ∧ o.records.stop = .ok o.obj ∧
      (∀ c, o.obj.sys.get? [c] = (typeMapOf v es).of c) ∧
      ∃ w, Stored v (instant b - instant a) w ∧ o.obj.hdr = { valuesOf v es .empty with interval := some w } := by
  have hm := marks_of_items _ items hok ls hw hne
  obtain ⟨n, hn⟩ := (C22_interval hm hca).1 ⟨a, by rw [hca]; simp⟩
  have hsub : b.sub a = instant b - instant a := by rw [DateTime.sub, instant_eq hla, instant_eq hlb]
  have hdet : ∀ fuel, n ≤ fuel → detInterval3 fuel ls = some (.ok (instant b - instant a)) := by
    intro fuel hf
    rw [hn fuel hf, hcb]
    simp only [spacingOf]
    rw [if_neg (by rw [hsub]; omega), hsub]
  obtain ⟨ch, w, hch, hst, hopen⟩ := open3 v hv es hes hc hsome hdr hp hh endl hend ls n _ ⟨hab, hspan⟩ hdet
  refine ⟨n, _, hopen, ?_⟩
  obtain ⟨r1, r2, r3⟩ := C20_body v (typeMapOf v es)
    ⟨{ valuesOf v es .empty with interval := some w }, asSys (typeMapOf v es)⟩ rfl ch hch items hok hev ls hw hne
  exact ⟨r1, r2, r3, asSys_get _, w, hst, rfl⟩

/-! ## C21: header events -/

/-- The position in force after the events seen so far: as soon as a header event (flag 4) ends, the first position line among
the lines of *all* events read so far counts. -/
def positionAfter (seen : List Str) (p : List PyFloat) : List PyFloat :=
  ((seen.find? fun l => labelOf l = lbl3).bind xyzOf).getD p

/-- the records of a body, each with the position delivered with it; `seen` are the lines of earlier events -/
def withPositions3 (m : TypeMap) : List Str → List PyFloat → List Item3 →
    List ((DateTime × Str × List (Str × (PyFloat × Int × Int))) × List PyFloat)
  | _, _, [] => []
  | seen, p, .obs e :: r => (e.records m).map (·, p) ++ withPositions3 m seen p r
  | seen, p, .event e :: r =>
    withPositions3 m (seen ++ e.body) (if e.flag = 4 ∧ e.body ≠ [] then positionAfter (seen ++ e.body) p else p) r

theorem parseXyz_xyzOf' {l : Str} {p : List PyFloat} (h : parseXyz l = .ok p) : xyzOf l = some p := by
  unfold parseXyz at h
  rw [show pyRange 0 42 14 = [0, 14, 28] by decide] at h
  simp only [List.map_cons, List.map_nil, mapFloat, pyFloat, Nat.zero_add] at h
  unfold xyzOf
  cases h0 : parseFloat (slice l 0 14) with
  | none => rw [h0] at h; simp [bind, Except.bind] at h
  | some a =>
    cases h1 : parseFloat (slice l 14 28) with
    | none => rw [h0, h1] at h; simp [bind, Except.bind] at h
    | some b =>
      cases h2 : parseFloat (slice l 28 42) with
      | none => rw [h0, h1, h2] at h; simp [bind, Except.bind] at h
      | some c =>
        rw [h0, h1, h2] at h
        simpa [bind, Except.bind, pure, Except.pure] using h

theorem parseFloat_same {a b : Str} (h : rstrip a = rstrip b) : parseFloat a = parseFloat b := by
  obtain ⟨t, ht, hw⟩ := rstrip_decomp a
  obtain ⟨u, hu, hx⟩ := rstrip_decomp b
  rw [ht, hu, parseFloat_append_space _ _ hw, parseFloat_append_space _ _ hx, h]

theorem xyzOf_same {l c : Str} (h : SameLine l c) : xyzOf l = xyzOf c := by
  unfold xyzOf
  rw [parseFloat_same (rstrip_slice_same h 0 14), parseFloat_same (rstrip_slice_same h 14 28),
    parseFloat_same (rstrip_slice_same h 28 42)]

theorem labelOf_same {l c : Str} (h : SameLine l c) : labelOf l = labelOf c := by
  rw [← labelOf_rstrip l, ← labelOf_rstrip c, show rstrip l = rstrip c from h]

theorem positionAfter_same {a b : List Str} (h : Written a b) (p : List PyFloat) : positionAfter a p = positionAfter b p := by
  unfold positionAfter
  congr 1
  induction a generalizing b with
  | nil => cases b with
    | nil => rfl
    | cons => simp [Written] at h
  | cons x a ih => cases b with
    | nil => simp [Written] at h
    | cons y b =>
      simp only [List.find?_cons, labelOf_same h.1]
      by_cases hl : labelOf y = lbl3
      · simp [hl, xyzOf_same h.1]
      · simp only [hl, decide_false]
        exact ih h.2

theorem parseHeader3_position {v : Nat} {special : List Str} {o o' : Obj3} (h : parseHeader3 v special o = .ok o') :
    o'.hdr.xyz = positionAfter special o.hdr.xyz := by
  unfold parseHeader3 at h
  cases hp : parseHeader v special o.hdr with
  | error e => rw [hp] at h; simp at h
  | ok x =>
    rw [hp] at h
    simp only at h
    cases ha : assignSysNObs v (special.filter fun l => headerLabel l = lblSysNObs).flatten o.sys with
    | error e => rw [ha] at h; simp at h
    | ok mm =>
      rw [ha] at h
      simp only [Except.ok.injEq] at h
      subst h
      have hx := parseHeader_xyz hp
      unfold positionAfter
      cases hf : special.find? (fun l => labelOf l = lbl3) with
      | none => simpa using hx.1 hf
      | some l =>
        have := hx.2 l hf
        simp [parseXyz_xyzOf' this]

theorem blockRun_positions (v : Nat) (m : TypeMap) (bs : List (Item3 × List Str)) (hb : Blocks m bs)
    (special seen : List Str) (hs : Written special seen) (o o' : Obj3)
    (hstop : (blockRun v m bs special o).stop = .ok o') :
    (blockRun v m bs special o).yields.map (fun y => (triple3 y.1, y.2.hdr.xyz)) =
      (withPositions3 m seen o.hdr.xyz (bs.map (·.1))).map (fun t => ((some t.1.1, t.1.2.1, t.1.2.2), t.2)) := by
  induction bs generalizing special seen o with
  | nil => simp [blockRun, withPositions3]
  | cons b bs ih =>
    obtain ⟨i, ls⟩ := b
    obtain ⟨hi, hw, hne, hb⟩ := hb
    cases i with
    | obs e =>
      simp only [blockRun] at hstop ⊢
      simp only [List.map_append, List.map_cons, withPositions3, ih hb special seen hs o hstop]
      congr 1
      simp [recs3, Ep3.records, triple3, Function.comp_def]
    | event e =>
      have hw' : Written (special ++ ls.drop 1) (seen ++ e.body) := by
        cases ls with
        | nil => simp [Item3.lines, Ev3.lines, Written] at hw
        | cons l ls =>
          simp only [List.drop_succ_cons, List.drop_zero]
          exact written_append hs hw.2
      simp only [blockRun] at hstop ⊢
      cases ha : afterEvent v e (special ++ ls.drop 1) o with
      | error er => rw [ha] at hstop; simp at hstop
      | ok o1 =>
        rw [ha] at hstop
        simp only at hstop ⊢
        rw [ih hb _ _ hw' o1 hstop]
        simp only [List.map_cons, withPositions3]
        congr 2
        unfold afterEvent at ha
        split at ha
        · rename_i h4
          rw [if_pos h4, parseHeader3_position ha, positionAfter_same hw']
        · rename_i h4
          rw [if_neg h4]
          cases ha; rfl

/-- C21: the position delivered with every record, for any sequence of epochs and events without type definitions: the lines
of all events are kept, and the first position line among them counts from the end of the first header event on. -/
theorem C21_positions (v : Nat) (m : TypeMap) (o o' : Obj3) (hsys : o.sys = asSys m) (ch : List (Nat × Nat))
    (hch : dataChunks3 o.sys = .ok ch) (items : List Item3) (hok : ∀ i ∈ items, i.Ok m)
    (hev : ∀ e, Item3.event e ∈ items → ∀ l ∈ e.body, labelOf l ≠ lblSys) (ls : List Str)
    (hw : Written ls (bodyLines3 items)) (hne : ∀ l ∈ ls, l ≠ []) (hstop : (readRecords3 v ch o ls).stop = .ok o') :
    (readRecords3 v ch o ls).yields.map (fun y => (triple3 y.1, y.2.hdr.xyz)) =
      (withPositions3 m [] o.hdr.xyz items).map (fun t => ((some t.1.1, t.1.2.1, t.1.2.2), t.2)) := by
  obtain ⟨bs, rfl, rfl, hb⟩ := blocks_of_written items hok ls hw hne
  rw [hsys] at hch
  unfold readRecords3 at hstop ⊢
  have hno : NoSys [] bs := by
    refine Or.inr ⟨by simp, ?_⟩
    intro e ls hm l hl
    have hb' : Written (ls.drop 1) e.body := by
      clear hstop hw hne hev
      induction bs with
      | nil => simp at hm
      | cons b bs ih =>
        obtain ⟨i, k⟩ := b
        rcases List.mem_cons.1 hm with h | h
        · cases h
          obtain ⟨_, hw, _⟩ := hb
          cases ls with
          | nil => simp [Item3.lines, Ev3.lines, Written] at hw
          | cons l ls => exact hw.2
        · exact ih (fun i hi => hok i (by simp at hi ⊢; exact Or.inr hi)) hb.2.2.2 h
    obtain ⟨y, hy, hs⟩ := written_mem hb' l hl
    show labelOf l ≠ lblSys
    rw [labelOf_same hs]
    exact hev e (List.mem_map.2 ⟨_, hm, rfl⟩) y hy
  rw [readLoop3_blocks hch bs hb none [] o hno hsys] at hstop ⊢
  exact blockRun_positions v m bs hb [] [] trivial o o' hstop

/-- C21: the first header event with a position works: all records behind it, up to the next event, carry its position. -/
theorem C21_first (m : TypeMap) (p q : List PyFloat) (pre post : List Ep3) (e : Ev3) (l : Str) (hf : e.flag = 4)
    (hl : e.body.find? (fun l => labelOf l = lbl3) = some l) (hq : xyzOf l = some q) :
    withPositions3 m [] p (pre.map .obs ++ .event e :: post.map .obs) =
      (pre.map fun x => (x.records m).map (·, p)).flatten ++ (post.map fun x => (x.records m).map (·, q)).flatten := by
  have hobs : ∀ (seen : List Str) (p : List PyFloat) (l : List Ep3),
      withPositions3 m seen p (l.map .obs) = (l.map fun x => (x.records m).map (·, p)).flatten := by
    intro seen p l
    induction l with
    | nil => rfl
    | cons x l ih => simp [withPositions3, ih]
  induction pre with
  | nil =>
    simp only [List.map_nil, List.nil_append, List.flatten_nil, withPositions3, hobs]
    have : e.body ≠ [] := by rintro h; rw [h] at hl; simp at hl
    simp [hf, this, positionAfter, hl, hq]
  | cons x pre ih =>
    simp only [List.map_cons, List.cons_append, withPositions3, List.flatten_cons, List.append_assoc]
    rw [ih]

/-- C21 fails from the second position change on: once a header event has announced a position, no later event changes it. -/
theorem C21_later_ignored (m : TypeMap) (seen : List Str) (q : List PyFloat) (l : Str)
    (hl : seen.find? (fun l => labelOf l = lbl3) = some l) (hq : xyzOf l = some q) (items : List Item3) :
    ∀ y ∈ withPositions3 m seen q items, y.2 = q := by
  induction items generalizing seen with
  | nil => simp [withPositions3]
  | cons i items ih =>
    cases i with
    | obs e =>
      intro y hy
      simp only [withPositions3, List.mem_append, List.mem_map] at hy
      rcases hy with ⟨_, _, rfl⟩ | hy
      · rfl
      · exact ih seen hl y hy
    | event e =>
      have hl' : (seen ++ e.body).find? (fun l => labelOf l = lbl3) = some l := by
        rw [List.find?_append, hl]; rfl
      simp only [withPositions3]
      have : positionAfter (seen ++ e.body) q = q := by simp [positionAfter, hl', hq]
      rw [this, ite_self]
      exact ih _ hl'

/-- C21: a header event that repeats the type definition of a known system ends the reading with an error that is not
RinexError. -/
theorem C21_redefinition (v : Nat) (m : TypeMap) (o : Obj3) (hsys : o.sys = asSys m) (ch : List (Nat × Nat))
    (hch : dataChunks3 o.sys = .ok ch) (pre : List Ep3) (hok : ∀ e ∈ pre, e.Ok m) (ls : List Str)
    (hw : Written ls (bodyLines3 (pre.map .obs))) (hne : ∀ l ∈ ls, l ≠ []) (date : Option (DateTime × Nat)) (hd : DateOk date)
    (clock : Option Int) (es : List HEntry) (hes : ∀ e ∈ es, e.Ok) (mark : Str) (bl : List Str) (hbl : bl ≠ [])
    (hmark : SameLine mark (markLine date 4 bl.length clock)) (hlen : bl.length < 1000)
    (hp : PhysicalLines bl (es.map (HEntry.lines v)).flatten) (hnot : ∀ l ∈ bl, l ≠ [] ∧ l.head? ≠ some '>')
    (hc : ¬ Consistent o.sys es) (rest : List Str) :
    (readRecords3 v ch o (ls ++ mark :: bl ++ rest)).yields.map (fun y => triple3 y.1) =
      (bodyRecords3 m (pre.map .obs)).map (fun t => (some t.1, t.2.1, t.2.2)) ∧
    ((readRecords3 v ch o (ls ++ mark :: bl ++ rest)).stop = .error .assertion ∨
      (readRecords3 v ch o (ls ++ mark :: bl ++ rest)).stop = .error .header) := by
  unfold readRecords3
  generalize (none : Option Epoch3) = ep0
  have hch' := hch
  rw [hsys] at hch'
  induction pre generalizing ls ep0 with
  | nil =>
    cases ls with
    | cons => simp [bodyLines3, Written] at hw
    | nil =>
      have hstep : step3 v ch mark ⟨ep0, []⟩ o = .ok (none, ⟨some ⟨date.map (·.1), 4, bl.length⟩, []⟩, o) := by
        unfold step3
        rw [isEpochLine_mark hmark, parseEpoch3_mark hd (by omega) hlen hmark]
        rfl
      simp only [List.nil_append, List.cons_append]
      rw [readLoop3_none hstep, readLoop3_eventLines _ _ (by omega) bl hbl
        (fun l hl => isEpochLine_not (hnot l hl).1 (hnot l hl).2)]
      simp only [List.nil_append, handleEvent3, if_true]
      rcases C17_rejected v es hes bl hp o hc with h | h <;> rw [h] <;> simp [bodyRecords3]
  | cons e pre ih =>
    simp only [bodyLines3, List.map_cons, List.flatten_cons] at hw
    obtain ⟨l1, l2, rfl, h1, h2⟩ := written_split hw
    obtain ⟨hd', hf, hn, hs⟩ := hok e (by simp)
    cases l1 with
    | nil => simp [Item3.lines, Ep3.lines, Written] at h1
    | cons l l1 =>
      have hstep : step3 v ch l ⟨ep0, []⟩ o =
          .ok (none, ⟨some ⟨some e.time, e.flag, e.sats.length⟩, []⟩, o) := by
        unfold step3
        rw [isEpochLine_mark h1.1, parseEpoch3_mark hd' (by omega) hn h1.1]
        rfl
      obtain ⟨flag', hsats⟩ := readLoop3_sats (v := v) hsys hch' (some e.time) [] e.sats hs (e.flag : Int) (by omega) l1
        (l2 ++ mark :: bl ++ rest) h1.2
      obtain ⟨i1, i2⟩ := ih (fun x hx => hok x (by simp [hx])) l2 h2 (fun x hx => hne x (by simp [hx])) (some ⟨some e.time, flag', 0⟩)
      simp only [List.cons_append, List.append_assoc] at hsats i1 i2 ⊢
      rw [readLoop3_none hstep, hsats]
      refine ⟨?_, i2⟩
      simp only [List.map_append, i1, List.map_cons, bodyRecords3]
      congr 1
      simp [Ep3.records, triple3, Function.comp_def]

/-! ### witnesses -/

def exEp3 (s : Nat) : Item3 := .obs ⟨⟨2017, 2, 28, 23, 59, s, 0⟩, 0, 0, none, [(⟨'G', 5, true⟩, [.val 20000000123 none (some 7), .blank])]⟩
def exPosEvent (x : Int) : Item3 := .event ⟨none, 4, none, [HLine.render 302 (.position x 0 0)]⟩
def exBody3 : List Item3 := [exEp3 0, exPosEvent 10000, exEp3 30, exPosEvent 20000, exEp3 59]
def exObj3 : Obj3 := ⟨.empty, asSys exMap⟩

/-- two position changes: the second one is ignored -/
theorem C21_witness : ∃ ch, dataChunks3 (asSys exMap) = .ok ch ∧
    (readRecords3 302 ch exObj3 (bodyLines3 exBody3)).yields.map (fun y => y.2.hdr.xyz.head?) =
      [some (.fin 0), some (.fin 1), some (.fin 1)] ∧
    (xyzOf (HLine.render 302 (.position 20000 0 0))).map List.head? = some (some (.fin 2)) :=
  ⟨_, rfl, by decide +kernel, by decide +kernel⟩

/-- the candidates of that body: all three times; spacing 30 s -/
example : candidates (itemMarks exBody3) =
      [some ⟨2017, 2, 28, 23, 59, 0, 0⟩, some ⟨2017, 2, 28, 23, 59, 30, 0⟩, some ⟨2017, 2, 28, 23, 59, 59, 0⟩, none] ∧
    otherThan (some ⟨2017, 2, 28, 23, 59, 0, 0⟩)
      [some ⟨2017, 2, 28, 23, 59, 30, 0⟩, some ⟨2017, 2, 28, 23, 59, 59, 0⟩, none] = some ⟨2017, 2, 28, 23, 59, 30, 0⟩ := by
  decide

/-- a whole file opens and delivers its records -/
def exFile3 : List Str := ((exEntries.map (HEntry.lines 302)).flatten.map (· ++ ['\n'])) ++
  [hline [] lblEnd] ++ bodyLines3 [.obs ⟨⟨2017, 2, 28, 23, 59, 0, 0⟩, 0, 0, none, [(⟨'C', 5, true⟩, [.val 1 none none, .blank])]⟩,
    .obs ⟨⟨2017, 2, 28, 23, 59, 30, 0⟩, 0, 0, none, []⟩]
def exOpen3 : Option Obs3 := (openObs3 302 5 exFile3).bind (·.toOption)
example : exOpen3.bind (·.obj.hdr.interval) = some (.fin 30) := by decide +kernel
example : exOpen3.map (fun o => o.records.yields.map fun y => y.1.data) =
    some [[(c% "C2I", (.fin (1 / 1000), 0, 0)), (c% "L7I", (.fin 0, 0, 0))]] := by decide +kernel

end Verif.Props
