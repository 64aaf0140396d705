import Verif.Proofs.Obs2File
import Verif.Proofs.Obs2Err
import Verif.Proofs.ObsTypes
import Verif.Props.Header
/-!
# Properties C04 - C16: RINEX 2 observation files
-/
namespace Verif.Props
open Verif.Py Verif.Model Verif.Spec Verif.Proofs

/-! ## C04: observation fields -/

/-- C04: a written field decodes to what it says, wherever it stands in the line. -/
theorem C04_field (f : Field) (hok : f.Ok) (pre post : Str) :
    getVal (pre ++ f.render ++ post) pre.length 16 = .ok f.says :=
  getVal_render hok (slice_exact rfl (by rw [Field.render_length hok]))

/-- C04: removing trailing blanks from a line changes nothing, whatever the line. -/
theorem C04_trailing_blanks (line : Str) (k i n : Nat) :
    getVal (line ++ List.replicate k ' ') i n = getVal line i n := by
  obtain ⟨j, hj⟩ := slice_append_blanks line k i (i + n)
  exact getVal_sub hj

/-- C04: a field beyond the end of the line, or of blanks only, is "no value". -/
theorem C04_missing (line : Str) (i n : Nat) (h : ∀ c ∈ slice line i (i + n), c = ' ') :
    getVal line i n = .ok (none, 0, 0) := by
  unfold getVal
  simp only
  rw [if_neg]
  intro hh
  exact hh.2 (all_eq_replicate.2 h)

/-- C04: anything else is decided by its first 14 columns: a number, or RinexError. -/
theorem C04_text (line : Str) (i : Nat) (h : ∃ c ∈ slice line i (i + 16), c ≠ ' ') :
    (∀ q, parseFloat ((slice line i (i + 16)).take 14) = some q → ∃ l s, l < 10 ∧ s < 10 ∧ getVal line i 16 = .ok (some q, l, s)) ∧
    (parseFloat ((slice line i (i + 16)).take 14) = none → getVal line i 16 = .error .rinex) := by
  obtain ⟨c, hc, hne⟩ := h
  have hcond : slice line i (i + 16) ≠ [] ∧
      slice line i (i + 16) ≠ List.replicate (slice line i (i + 16)).length ' ' := by
    refine ⟨List.ne_nil_of_mem hc, fun e => hne (all_eq_replicate.1 e c hc)⟩
  have hind : ∀ (v : Str) k, indicator v k < 10 := by
    intro v k
    unfold indicator
    split
    · split
      · rename_i h; have := digitVal_le h; omega
      · omega
    · omega
  unfold getVal
  simp only
  rw [if_pos hcond]
  constructor
  · intro q hq
    rw [hq]
    exact ⟨_, _, hind _ _, hind _ _, rfl⟩
  · intro hq
    rw [hq]

example : (Field.val (-123456789) (some 4) none).Ok ∧ Field.render (.val (-123456789) (some 4) none) = c% "   -123456.7894 " := by
  refine ⟨⟨by decide +kernel, by decide, by decide⟩, by decide +kernel⟩
example : getVal (c% "   -123456.7894   23629347.915 7") 0 16 = .ok (some (.fin (-123456789 / 1000)), 4, 0) ∧
    getVal (c% "   -123456.7894   23629347.915 7") 16 16 = .ok (some (.fin (23629347915 / 1000)), 0, 7) ∧
    getVal (c% "   -123456.7894   23629347.915 7") 32 16 = .ok (none, 0, 0) ∧
    getVal (c% "   -12345x.7894 ") 0 16 = .error .rinex := by decide +kernel

/-! ## C05: satellite identifiers -/

/-- C05: a written identifier is read as its canonical name. -/
theorem C05_prn (s : SatId) (hok : s.Ok) (pre post : Str) : getPrn (pre ++ s.render ++ post) pre.length = .ok s.name :=
  getPrn_render hok (slice_exact rfl (by rw [SatId.render_length hok]))

/-- C05: an empty identifier, or one without a number after the first character, raises RinexError. -/
theorem C05_bad (line : Str) (i : Nat)
    (h : slice line i (i + 3) = [] ∨ parseInt ((slice line i (i + 3)).drop 1) = none) :
    getPrn line i = .error .rinex := by
  unfold getPrn
  cases hs : slice line i (i + 3) with
  | nil => rfl
  | cons c num =>
    rcases h with h | h
    · rw [hs] at h; simp at h
    · rw [hs] at h
      simp only [List.drop_succ_cons, List.drop_zero] at h
      simp only [h]

example : (⟨' ', 5, false⟩ : SatId).Ok ∧ (⟨' ', 5, false⟩ : SatId).render = c% "  5" ∧
    (⟨' ', 5, false⟩ : SatId).name = c% "G05" ∧ (⟨'r', 17, false⟩ : SatId).name = c% "R17" := by
  refine ⟨⟨by decide, Or.inl rfl⟩, by decide, by decide, by decide⟩

/-! ## C06: layout of a record -/

/-- C06: `n` types are laid out on ⌈n/5⌉ lines, five per line except possibly the last, which is never empty. -/
theorem C06_layout (n : Nat) :
    linesPerRec n = List.replicate (n / 5) 5 ++ (if n % 5 = 0 then [] else [n % 5]) := by
  have key : ∀ k m : Nat, k = (m + 4) / 5 →
      linesPerRecGo k (m : Int) = List.replicate (m / 5) 5 ++ (if m % 5 = 0 then [] else [m % 5]) := by
    intro k
    induction k with
    | zero =>
      intro m hm
      have : m = 0 := by omega
      subst this; rfl
    | succ k ih =>
      intro m hm
      unfold linesPerRecGo
      simp only
      by_cases h5 : m < 5
      · have hk : k = 0 := by omega
        subst hk
        rw [if_pos (by omega)]
        have : m / 5 = 0 := by omega
        have h2 : m % 5 = m := by omega
        rw [this, h2, if_neg (by omega)]
        simp [linesPerRecGo]
      · rw [if_neg (by omega)]
        have e : ((m : Int) - 5) = ((m - 5 : Nat) : Int) := by omega
        rw [e, ih (m - 5) (by omega)]
        have h1 : m / 5 = (m - 5) / 5 + 1 := by omega
        have h2 : (m - 5) % 5 = m % 5 := by omega
        rw [h1, h2, List.replicate_succ, List.cons_append]
  exact key _ n rfl

/-- C06 in the words of the property -/
theorem C06_counts (n : Nat) : (linesPerRec n).length = (n + 4) / 5 ∧ (linesPerRec n).sum = n ∧
    (∀ k ∈ linesPerRec n, 1 ≤ k ∧ k ≤ 5) ∧ ∀ k ∈ (linesPerRec n).dropLast, k = 5 := by
  rw [C06_layout]
  by_cases h : n % 5 = 0
  · simp only [h, if_true, List.append_nil, List.length_replicate, List.sum_replicate, nsmul_eq_mul, Nat.cast_id, List.mem_replicate]
    refine ⟨by omega, by omega, by rintro k ⟨_, rfl⟩; omega, ?_⟩
    intro k hk
    exact (List.mem_replicate.1 (List.dropLast_subset _ hk)).2
  · simp only [h, if_false, List.length_append, List.length_replicate, List.sum_append, List.sum_replicate, nsmul_eq_mul, Nat.cast_id,
      List.mem_append, List.mem_replicate, List.mem_singleton, List.dropLast_concat]
    refine ⟨by simp; omega, by simp; omega, ?_, ?_⟩
    · rintro k (⟨_, rfl⟩ | rfl) <;> omega
    · rintro k ⟨_, rfl⟩; rfl

example : linesPerRec 12 = [5, 5, 2] ∧ linesPerRec 10 = [5, 5] ∧ linesPerRec 0 = [] := by decide

/-! ## C07: observation types -/

/-- C07: the types written in a header are read back, for any number of types and continuation lines and any white space (newline characters) at the ends of the lines. -/
theorem C07_types (pre post : List Str) (tls ts : List Str) (htl : TypeText tls ts)
    (hpre : ∀ x ∈ pre, contains (c% "# / TYPES OF OBSERV") x = false)
    (ht : ∀ t ∈ ts, t.length = 2) (hn : ts.length < 1000000) :
    obsTypes (pre ++ tls ++ post) = .ok ts := obsTypes_render pre post tls ts htl hpre ht hn

/-- C07: whatever the header, as many types are returned as the first types line announces (none without such a line). -/
theorem C07_count (header ts : List Str) (h : obsTypes header = .ok ts) :
    ((∀ l ∈ header, contains (c% "# / TYPES OF OBSERV") l = false) ∧ ts = []) ∨
    ∃ pre l post, header = pre ++ l :: post ∧ (∀ x ∈ pre, contains (c% "# / TYPES OF OBSERV") x = false) ∧
      contains (c% "# / TYPES OF OBSERV") l = true ∧ parseInt (l.take 6) = some (ts.length : Int) := by
  have aux : ∀ (hd : List Str) (i : Nat), (∀ j l, findTypesLine hd i = some (j, l) → ∃ pre post, hd = pre ++ l :: post ∧
      (∀ x ∈ pre, contains (c% "# / TYPES OF OBSERV") x = false) ∧ contains (c% "# / TYPES OF OBSERV") l = true) ∧
      (findTypesLine hd i = none → ∀ l ∈ hd, contains (c% "# / TYPES OF OBSERV") l = false) := by
    intro hd
    induction hd with
    | nil => intro i; simp [findTypesLine]
    | cons a hd ih =>
      intro i
      unfold findTypesLine
      split
      · rename_i hc
        refine ⟨?_, by simp⟩
        intro j l hj
        simp only [Option.some.injEq, Prod.mk.injEq] at hj
        obtain ⟨_, rfl⟩ := hj
        exact ⟨[], hd, rfl, by simp, hc⟩
      · rename_i hc
        have hc' : contains (c% "# / TYPES OF OBSERV") a = false := by simpa using hc
        refine ⟨?_, ?_⟩
        · intro j l hj
          obtain ⟨pre, post, e, h1, h2⟩ := (ih (i + 1)).1 j l hj
          refine ⟨a :: pre, post, by rw [e]; rfl, ?_, h2⟩
          intro x hx
          rcases List.mem_cons.1 hx with rfl | hx
          · exact hc'
          · exact h1 x hx
        · intro hn l hl
          rcases List.mem_cons.1 hl with rfl | hl
          · exact hc'
          · exact (ih (i + 1)).2 hn l hl
  rcases obsTypes_count h with ⟨h1, h2⟩ | ⟨i, l, h1, h2⟩
  · exact Or.inl ⟨(aux header 0).2 h1, h2⟩
  · obtain ⟨pre, post, e, a1, a2⟩ := (aux header 0).1 i l h1
    exact Or.inr ⟨pre, l, post, e, a1, a2, h2⟩

/-- eleven types: two lines -/
def someTypes : List Str := [c% "L1", c% "L2", c% "C1", c% "P1", c% "P2", c% "S1", c% "S2", c% "D1", c% "D2", c% "C2", c% "C5"]
example : (typeLines someTypes).length = 2 ∧ obsTypes (c% "x" :: typeLines someTypes ++ [c% "y"]) = .ok someTypes := by
  decide +kernel

/-! ## C08: epoch lines -/

/-- C08: the epoch line with its continuation lines is read back completely, and nothing more is consumed. -/
theorem C08_epoch (n : Nat) (e : Epoch) (hok : e.Ok n) (line : Str) (cont rest : List Str)
    (hw : Written (line :: cont) e.headLines) :
    readEpoch (rstrip line) (cont ++ rest) =
      .ok (⟨some e.time, (e.flag : Int), (e.sats.length : Int), e.sats.map fun s => s.1.name⟩, rest) :=
  readEpoch_render hok line cont rest hw

/-! ## C09 - C11: bodies -/

/-- a record as the specification writes it -/
def triple (r : Rec2) : DateTime × Str × List (Str × (Option PyFloat × Nat × Nat)) := (r.epoch, r.sat, r.data)

/-- the reader for a list of types -/
def reader (v : Nat) (ts : List Str) : Cfg2 := ⟨v, ts, linesPerRec ts.length⟩

/-- what a body says: every epoch whose time differs from that of the preceding epoch, in full; `prev` is the time of the
epoch before the body -/
def delivered (ts : List Str) : Option DateTime → List Item →
    List (DateTime × Str × List (Str × (Option PyFloat × Nat × Nat)))
  | _, [] => []
  | prev, .obs e :: r => (if prev = some e.time then [] else e.records ts) ++ delivered ts (some e.time) r
  | prev, .event _ :: r => delivered ts prev r

theorem triple_recsOf (ts : List Str) (e : Epoch) : (recsOf ts e).map triple = e.records ts := by
  simp [recsOf, Epoch.records, triple, List.map_map, Function.comp_def]

theorem reader_ok (v : Nat) {ts : List Str} (hn : ts.Nodup) : CfgOk (reader v ts) := ⟨rfl, hn⟩

theorem deliver_delivered (c : Cfg2) (st : St2) (items : List Item) (st' : St2)
    (h : (deliver c st items).2 = .ok st') :
    (deliver c st items).1.map (fun y => triple y.1) = delivered c.types st.preceding items := by
  induction items generalizing st with
  | nil => rfl
  | cons i is ih =>
    unfold deliver at h ⊢
    cases hd : deliverItem c st i with
    | mk ys r =>
      rw [hd] at h
      cases r with
      | error e => simp at h
      | ok st1 =>
        simp only at h ⊢
        rw [List.map_append, ih st1 h]
        cases i with
        | obs e =>
          simp only [deliverItem, Prod.mk.injEq, Except.ok.injEq] at hd
          obtain ⟨rfl, rfl⟩ := hd
          simp only [delivered]
          congr 1
          by_cases hp : st.preceding = some e.time
          · simp [hp]
          · simp only [hp, if_false, List.map_map]
            rw [← triple_recsOf]; rfl
        | event e =>
          simp only [delivered]
          unfold deliverItem at hd
          by_cases hf : e.flag = 3 ∨ e.flag = 4
          · simp only [hf, if_true] at hd
            cases hp : parseHeader c.version (e.body.map rstrip) st.hdr with
            | error x => rw [hp] at hd; simp at hd
            | ok h' =>
              rw [hp] at hd
              simp only [Prod.mk.injEq, Except.ok.injEq] at hd
              obtain ⟨rfl, rfl⟩ := hd
              rfl
          · simp only [hf, if_false, Prod.mk.injEq, Except.ok.injEq] at hd
            obtain ⟨rfl, rfl⟩ := hd
            rfl

/-- the reading of a body ends normally exactly when every header line in its events is readable; without header events
always -/
theorem deliver_no_header_events (c : Cfg2) (st : St2) (items : List Item)
    (h : ∀ e, Item.event e ∈ items → e.Quiet) : ∃ st', (deliver c st items).2 = .ok st' ∧ st'.hdr = st.hdr := by
  induction items generalizing st with
  | nil => exact ⟨st, rfl, rfl⟩
  | cons i is ih =>
    cases i with
    | obs e =>
      obtain ⟨s, h1, h2⟩ := ih { st with preceding := some e.time } (fun e he => h e (by simp [he]))
      exact ⟨s, by simpa [deliver, deliverItem] using h1, h2⟩
    | event e =>
      have hf := h e (by simp)
      obtain ⟨s, h1, h2⟩ := ih st (fun e he => h e (by simp [he]))
      refine ⟨s, ?_, h2⟩
      unfold deliver deliverItem
      by_cases hf34 : e.flag = 3 ∨ e.flag = 4
      · simp only [if_pos hf34, parseHeader_quiet _ _ _ (hf hf34)]
        exact h1
      · simp only [if_neg hf34]
        exact h1

/-- no two consecutive epochs have the same time -/
def NoRepeat : Option DateTime → List Epoch → Prop
  | _, [] => True
  | prev, e :: r => prev ≠ some e.time ∧ NoRepeat (some e.time) r

/-- C09: a body of epochs is read back exactly: one record per epoch and satellite, in file order, with every value under
its own type. -/
theorem C09_body (v : Nat) (ts : List Str) (hn : ts.Nodup) (st : St2) (es : List Epoch) (hok : ∀ e ∈ es, e.Ok ts.length)
    (hrep : NoRepeat st.preceding es) (ls : List Str) (hw : Written ls (bodyLines (es.map .obs))) :
    (readRecords2 (reader v ts) st ls).yields.map (fun y => triple y.1) = (es.map (Epoch.records ts)).flatten ∧
    ∃ st', (readRecords2 (reader v ts) st ls).stop = .ok st' := by
  have hb := readRecords2_body (reader_ok v hn) st (es.map .obs) (by
    intro i hi; obtain ⟨e, he, rfl⟩ := List.mem_map.1 hi; exact hok e he) ls [] hw
  rw [List.append_nil] at hb
  obtain ⟨st', h1, _⟩ := deliver_no_header_events (reader v ts) st (es.map .obs) (by
    intro e he; obtain ⟨_, _, h⟩ := List.mem_map.1 he; simp at h)
  have h2 := deliver_delivered _ _ _ _ h1
  have h3 : ∀ (es : List Epoch) prev, NoRepeat prev es →
      delivered ts prev (es.map .obs) = (es.map (Epoch.records ts)).flatten := by
    intro es
    induction es with
    | nil => intro prev _; rfl
    | cons e r ih =>
      intro prev hr
      simp only [List.map_cons, delivered, List.flatten_cons]
      rw [if_neg hr.1, ih _ hr.2]
  rw [show (reader v ts).types = ts from rfl, h3 es _ hrep] at h2
  cases hd : deliver (reader v ts) st (es.map .obs) with
  | mk Y r =>
    rw [hd] at h1 h2 hb
    simp only at h1
    subst h1
    rw [hb]
    refine ⟨?_, st', ?_⟩
    · simpa [readRecords2, readLoop] using h2
    · simp [readRecords2, readLoop]

/-- C10, C11: any mixture of epochs and events.  Epochs repeating the time of the preceding epoch are consumed silently, all
others are delivered in full; event blocks are skipped exactly (whatever their lines contain) and everything after them is
read as if they were absent.  Without header events (flags 3, 4) the reading always ends normally. -/
theorem C11_events (v : Nat) (ts : List Str) (hn : ts.Nodup) (st : St2) (items : List Item)
    (hok : ∀ i ∈ items, i.Ok ts.length) (hev : ∀ e, Item.event e ∈ items → e.Quiet)
    (ls : List Str) (hw : Written ls (bodyLines items)) :
    (readRecords2 (reader v ts) st ls).yields.map (fun y => triple y.1) = delivered ts st.preceding items ∧
    ∃ st', (readRecords2 (reader v ts) st ls).stop = .ok st' ∧ st'.hdr = st.hdr := by
  have hb := readRecords2_body (reader_ok v hn) st items hok ls [] hw
  rw [List.append_nil] at hb
  obtain ⟨st', h1, h1h⟩ := deliver_no_header_events (reader v ts) st items hev
  have h2 := deliver_delivered _ _ _ _ h1
  cases hd : deliver (reader v ts) st items with
  | mk Y r =>
    rw [hd] at h1 h2 hb
    simp only at h1
    subst h1
    rw [hb]
    refine ⟨?_, st', ?_, h1h⟩
    · simpa [readRecords2, readLoop, reader] using h2
    · simp [readRecords2, readLoop]

/-- C11 with header events: the records are the same whenever the reading ends normally. -/
theorem C11_header_events (v : Nat) (ts : List Str) (hn : ts.Nodup) (st : St2) (items : List Item)
    (hok : ∀ i ∈ items, i.Ok ts.length) (ls : List Str) (hw : Written ls (bodyLines items)) (st' : St2)
    (hstop : (readRecords2 (reader v ts) st ls).stop = .ok st') :
    (readRecords2 (reader v ts) st ls).yields.map (fun y => triple y.1) = delivered ts st.preceding items := by
  have hb := readRecords2_body (reader_ok v hn) st items hok ls [] hw
  rw [List.append_nil] at hb
  cases hd : deliver (reader v ts) st items with
  | mk Y r =>
    rw [hd] at hb
    cases r with
    | error e => rw [hb] at hstop; simp at hstop
    | ok s =>
      have h2 := deliver_delivered (reader v ts) st items s (by rw [hd])
      rw [hd] at h2
      rw [hb]
      simpa [readRecords2, readLoop, reader] using h2

/-- C10 in isolation: of two epochs in a row with the same time only the first is delivered; an epoch with another time
is. -/
theorem C10_repeated (v : Nat) (ts : List Str) (hn : ts.Nodup) (st : St2) (a b : Epoch) (ha : a.Ok ts.length)
    (hb : b.Ok ts.length) (hp : st.preceding ≠ some a.time) (ls : List Str) (hw : Written ls (bodyLines [.obs a, .obs b])) :
    (readRecords2 (reader v ts) st ls).yields.map (fun y => triple y.1) =
      if a.time = b.time then a.records ts else a.records ts ++ b.records ts := by
  have h := (C11_events v ts hn st [.obs a, .obs b] (by
    intro i hi
    simp only [List.mem_cons, List.not_mem_nil, or_false] at hi
    rcases hi with rfl | rfl
    · exact ha
    · exact hb) (by
    intro e he; simp at he) ls hw).1
  rw [h]
  simp only [delivered, hp, if_false, Option.some.injEq, List.append_nil]
  by_cases h : a.time = b.time <;> simp [h]

/-! ## A concrete body used for the examples below -/

def exSat (c : Char) (n : Nat) (x : Int) : SatId × List Field :=
  (⟨c, n, true⟩, [.val x none (some 7), .blank, .val (-x) (some 1) none])
def exEpoch (s : Nat) : Epoch := ⟨⟨2017, 1, 2, 3, 4, s, 500000⟩, 3, 0, [exSat 'G' 1 123456, exSat 'R' 24 99], [], (false, false)⟩
def exTypes : List Str := [c% "L1", c% "L2", c% "C1"]
def exXyz (x : Int) : Str := HLine.render 211 (.position x 20000 30000)
def exEvent (x : Int) : Event := ⟨List.replicate 26 ' ', 4, [], [hline (c% "moved") (c% "COMMENT"), exXyz x]⟩

theorem exEpoch_ok {s : Nat} (h : s < 60) : (exEpoch s).Ok 3 := by
  refine ⟨(legal_iff _).2 ?_, ?_, (by decide : 3 < 10), (by decide : 0 ≤ 1), (by decide : 2 < 1000), ?_⟩
  · exact ⟨(by decide : validDate 2017 1 2), (by decide : 3 ≤ 23), (by decide : 4 ≤ 59), by show s ≤ 59; omega,
      (by decide : 500000 ≤ 999999)⟩
  · exact ⟨(by decide : 1989 ≤ 2017), (by decide : 2017 ≤ 2088)⟩
  · intro x hx
    simp only [exEpoch, List.mem_cons, List.not_mem_nil, or_false] at hx
    rcases hx with rfl | rfl
    · refine ⟨⟨by decide, by decide⟩, rfl, ?_⟩
      intro f hf
      simp only [exSat, List.mem_cons, List.not_mem_nil, or_false] at hf
      rcases hf with rfl | rfl | rfl
      · exact ⟨by decide +kernel, by decide, by decide⟩
      · trivial
      · exact ⟨by decide +kernel, by decide, by decide⟩
    · refine ⟨⟨by decide, by decide⟩, rfl, ?_⟩
      intro f hf
      simp only [exSat, List.mem_cons, List.not_mem_nil, or_false] at hf
      rcases hf with rfl | rfl | rfl
      · exact ⟨by decide +kernel, by decide, by decide⟩
      · trivial
      · exact ⟨by decide +kernel, by decide, by decide⟩

theorem exEvent_ok (x : Int) : (exEvent x).Ok :=
  ⟨by simp [exEvent], (by decide : 2 ≤ 4), (by decide : 4 < 1000), (by decide : 2 < 1000)⟩

example : exTypes.Nodup := by decide
example : NoRepeat none [exEpoch 0, exEpoch 30] := ⟨by simp, by decide, trivial⟩
example : (bodyLines [.obs (exEpoch 0), .event (exEvent 10000)]).head? =
    some (c% " 17  1  2  3  4  0.5000003  0  2G01R24                              ") := by decide +kernel
example : ((readRecords2 (reader 211 exTypes) ⟨.empty, none⟩
    (bodyLines [.obs (exEpoch 0), .obs (exEpoch 0), .event (exEvent 10000), .obs (exEpoch 30)])).yields.map
      fun y => (y.1.epoch.second, y.1.sat, y.2.hdr.xyz)) =
    [(0, c% "G01", [.fin 0, .fin 0, .fin 0]), (0, c% "R24", [.fin 0, .fin 0, .fin 0]),
     (30, c% "G01", [.fin 1, .fin 2, .fin 3]), (30, c% "R24", [.fin 1, .fin 2, .fin 3])] := by decide +kernel

end Verif.Props
