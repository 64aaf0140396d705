import Verif.Proofs.NavFile
import Verif.Props.Header
import Verif.Props.Rinex3File
import Verif.Props.Select
/-!
# Navigation files: contents of the table (C26), nothing is mis-assembled (C27)
-/
namespace Verif.Props
open Verif.Py Verif.Spec Verif.Model Verif.Proofs

theorem written_message {v3 : Bool} {version : Nat} {ft : Option Char} {m : NavMsg} (hm : MsgFor v3 version ft m) {ls : List Str}
    (hw : m.WrittenAs v3 ls) : ∃ E os, ls = E :: os ∧ IsEpochLine (layout v3 version) E ∧
      epochOf (layout v3 version) ft E = .ok (m.system, (m.number : Int), m.epoch) ∧
      (∀ o ∈ os, ¬ IsEpochLine (layout v3 version) o) ∧ os.length = (rowSizes m.system).length ∧
      readOrbits (layout v3 version) os (rowSizes m.system) = .ok m.values := by
  obtain ⟨⟨z, hw⟩, hne⟩ := hw
  cases ls with
  | nil => simp [Written] at hw
  | cons E os =>
    obtain ⟨hE, hos⟩ := hw
    have hok : m.Ok := by
      unfold MsgFor at hm
      split at hm
      · exact hm.1
      · obtain ⟨_, _, _, _, h⟩ := hm; exact h.1
    obtain ⟨_, _, _, _, hrows, hf⟩ := hok
    have hos' : Written os (m.rows.map (ORow.render (indentOf v3))) := by cases v3 <;> exact hos
    have h4 : ∀ r ∈ m.rows, r.fields.length ≤ 4 := by
      intro r hr
      apply rowSizes_mem (s := m.system)
      rw [← hrows]
      exact List.mem_map.2 ⟨r, hr, rfl⟩
    refine ⟨E, os, rfl, ?_, ?_, written_not_epoch v3 version m.rows os (by simp at hne; exact hne.2) hos', ?_, ?_⟩
    · cases v3 with
      | true => exact (parseNavEpoch3_written m hm E hE).2
      | false => obtain ⟨f, s, rfl, hfs, h2⟩ := hm; exact (parseNavEpoch2_written version f s hfs m h2 E z hE).2
    · cases v3 with
      | true => exact (parseNavEpoch3_written m hm E hE).1
      | false =>
        obtain ⟨f, s, rfl, hfs, h2⟩ := hm
        have := (parseNavEpoch2_written version f s hfs m h2 E z hE).1
        rw [← h2.2.1] at this; exact this
    · have := written_rows_len hos'
      rw [this, ← hrows]; simp
    · rw [← hrows]; exact written_rows v3 version m.rows os hf h4 hos'

/-- the table after the messages of the day have been stored in order -/
def storeAll (day : DateTime) (ms : List NavMsg) (T : NavTable) : NavTable :=
  ms.foldl (fun T m => if OnDay m.epoch day then navStore T ⟨m.system, m.number, m.epoch, rowSizes m.system⟩ m.values else T) T

theorem navLoop_body {v3 : Bool} {version : Nat} {ft : Option Char} (day : DateTime) (ms : List NavMsg)
    (hm : ∀ m ∈ ms, MsgFor v3 version ft m) (ls : List Str) (hb : NavBody v3 ms ls) (l : NavLoc) (hl : l.orbits = []) (T : NavTable) :
    navLoop (layout v3 version) ft (some day.date) ls l T = .ok (storeAll day ms T) := by
  induction ms generalizing ls l T with
  | nil =>
    simp only [NavBody] at hb
    rw [hb]; rfl
  | cons m ms ih =>
    obtain ⟨a, b, rfl, hw, hb⟩ := hb
    obtain ⟨E, os, rfl, hE, hp, ho, hlen, hread⟩ := written_message (hm m (by simp)) hw
    have hne : os ≠ [] := by
      rintro rfl
      have : 3 ≤ (rowSizes m.system).length := by unfold rowSizes; split <;> decide
      simp at hlen; omega
    rw [List.cons_append, navLoop_message hE hp (msgVals_for (hm m (by simp))) os ho hlen hne l T b, hl, List.nil_append]
    unfold finish
    simp only [hread, storeAll, List.foldl_cons]
    have hiff : (some day.date ≠ some m.epoch.date) ↔ ¬ OnDay m.epoch day := by
      rw [← date_eq_iff, ne_eq, Option.some.injEq, not_iff_not]; exact eq_comm
    by_cases h : OnDay m.epoch day
    · rw [if_neg (by rw [hiff]; exact not_not.2 h), if_pos h]
      exact ih (fun x hx => hm x (by simp [hx])) b hb _ rfl _
    · rw [if_pos (hiff.2 h), if_neg h]
      exact ih (fun x hx => hm x (by simp [hx])) b hb _ rfl _

theorem msg_store (T : NavTable) (k : NavCur) (v : List PyFloat) (s : Char) (n : Int) (τ : Nat) (w : List PyFloat) :
    Msg (navStore T k v) s n τ w ↔
      if k.system = s ∧ k.num = n ∧ timeOfDay k.epoch = τ then w = v else Msg T s n τ w := by
  unfold navStore Msg
  rw [time_eq]
  simp only [Dict.get?_set]
  by_cases h1 : k.system = s
  · subst h1
    simp only [if_true, true_and]
    by_cases h2 : k.num = n
    · subst h2
      simp only [true_and]
      by_cases h3 : timeOfDay k.epoch = τ
      · subst h3
        simp only [if_true]
        constructor
        · rintro ⟨a, b, ha, hb, hc⟩
          cases ha
          rw [Dict.get?_set, if_pos rfl] at hb
          cases hb
          rw [Dict.get?_set, if_pos rfl] at hc
          exact (Option.some.inj hc).symm
        · rintro rfl
          exact ⟨_, _, rfl, by rw [Dict.get?_set, if_pos rfl], by rw [Dict.get?_set, if_pos rfl]⟩
      · simp only [h3, if_false]
        constructor
        · rintro ⟨a, b, ha, hb, hc⟩
          cases ha
          rw [Dict.get?_set, if_pos rfl] at hb
          cases hb
          rw [Dict.get?_set, if_neg h3] at hc
          cases hx : T.get? k.system with
          | none => rw [hx] at hc; simp [Dict.get?] at hc
          | some bs =>
            rw [hx] at hc
            cases hy : bs.get? k.num with
            | none => simp [hy, Dict.get?] at hc
            | some bt => simp only [Option.getD_some, hy] at hc; exact ⟨_, _, rfl, hy, hc⟩
        · rintro ⟨a, b, ha, hb, hc⟩
          refine ⟨_, _, rfl, by rw [Dict.get?_set, if_pos rfl], ?_⟩
          rw [Dict.get?_set, if_neg h3, ha]
          simp only [Option.getD_some, hb, hc]
    · simp only [h2, false_and, if_false]
      constructor
      · rintro ⟨a, b, ha, hb, hc⟩
        cases ha
        rw [Dict.get?_set, if_neg h2] at hb
        cases hx : T.get? k.system with
        | none => rw [hx] at hb; simp [Dict.get?] at hb
        | some bs => rw [hx] at hb; exact ⟨_, _, rfl, hb, hc⟩
      · rintro ⟨a, b, ha, hb, hc⟩
        refine ⟨_, b, rfl, ?_, hc⟩
        rw [Dict.get?_set, if_neg h2, ha]
        exact hb
  · simp only [h1, if_false, false_and]

theorem msg_storeAll (day : DateTime) (ms : List NavMsg) (T : NavTable) (s : Char) (n : Int) (τ : Nat) (w : List PyFloat) :
    Msg (storeAll day ms T) s n τ w ↔ LastOf day ms s n τ w ∨
      ((∀ m ∈ ms, ¬ (OnDay m.epoch day ∧ m.system = s ∧ (m.number : Int) = n ∧ timeOfDay m.epoch = τ)) ∧ Msg T s n τ w) := by
  induction ms generalizing T with
  | nil =>
    simp only [storeAll, List.foldl_nil, List.not_mem_nil, false_implies, implies_true, true_and]
    constructor
    · exact Or.inr
    · rintro (⟨b, m, a, h, _⟩ | h)
      · simp at h
      · exact h
  | cons m ms ih =>
    have hstep : storeAll day (m :: ms) T = storeAll day ms
        (if OnDay m.epoch day then navStore T ⟨m.system, m.number, m.epoch, rowSizes m.system⟩ m.values else T) := rfl
    rw [hstep, ih]
    have hlast : LastOf day (m :: ms) s n τ w ↔ LastOf day ms s n τ w ∨
        ((∀ m' ∈ ms, ¬ (OnDay m'.epoch day ∧ m'.system = s ∧ (m'.number : Int) = n ∧ timeOfDay m'.epoch = τ)) ∧
          OnDay m.epoch day ∧ m.system = s ∧ (m.number : Int) = n ∧ timeOfDay m.epoch = τ ∧ w = m.values) := by
      constructor
      · rintro ⟨b, x, a, he, h1, h2, h3, h4, h5, h6⟩
        cases b with
        | nil =>
          simp only [List.nil_append, List.cons.injEq] at he
          obtain ⟨rfl, rfl⟩ := he
          exact Or.inr ⟨h6, h1, h2, h3, h4, h5⟩
        | cons y b =>
          simp only [List.cons_append, List.cons.injEq] at he
          exact Or.inl ⟨b, x, a, he.2, h1, h2, h3, h4, h5, h6⟩
      · rintro (⟨b, x, a, he, h⟩ | ⟨h6, h1, h2, h3, h4, h5⟩)
        · exact ⟨m :: b, x, a, by simp [he], h⟩
        · exact ⟨[], m, ms, rfl, h1, h2, h3, h4, h5, h6⟩
    rw [hlast]
    by_cases h : OnDay m.epoch day
    · rw [if_pos h, msg_store]
      by_cases hk : m.system = s ∧ (m.number : Int) = n ∧ timeOfDay m.epoch = τ
      · rw [if_pos hk]
        constructor
        · rintro (a | ⟨a, b⟩)
          · exact Or.inl (Or.inl a)
          · exact Or.inl (Or.inr ⟨a, h, hk.1, hk.2.1, hk.2.2, b⟩)
        · rintro ((a | ⟨a, _, _, _, _, b⟩) | ⟨a, _⟩)
          · exact Or.inl a
          · exact Or.inr ⟨a, b⟩
          · exact absurd ⟨h, hk⟩ (a m (by simp))
      · rw [if_neg hk]
        constructor
        · rintro (a | ⟨a, b⟩)
          · exact Or.inl (Or.inl a)
          · refine Or.inr ⟨?_, b⟩
            intro x hx
            rcases List.mem_cons.1 hx with rfl | hx
            · rintro ⟨_, hh⟩; exact hk hh
            · exact a x hx
        · rintro ((a | ⟨a, _, b1, b2, b3, _⟩) | ⟨a, b⟩)
          · exact Or.inl a
          · exact absurd ⟨b1, b2, b3⟩ hk
          · exact Or.inr ⟨fun x hx => a x (by simp [hx]), b⟩
    · rw [if_neg h]
      constructor
      · rintro (a | ⟨a, b⟩)
        · exact Or.inl (Or.inl a)
        · refine Or.inr ⟨?_, b⟩
          intro x hx
          rcases List.mem_cons.1 hx with rfl | hx
          · rintro ⟨hh, _⟩; exact h hh
          · exact a x hx
      · rintro ((a | ⟨a, b, _⟩) | ⟨a, b⟩)
        · exact Or.inl a
        · exact absurd b h
        · exact Or.inr ⟨fun x hx => a x (by simp [hx]), b⟩

/-- every system and satellite of the table has a message -/
def NoEmpty (T : NavTable) : Prop :=
  (∀ s a, T.get? s = some a → ∃ n b, a.get? n = some b) ∧
  ∀ s a n b, T.get? s = some a → a.get? n = some b → ∃ τ v, b.get? τ = some v

theorem noEmpty_store (T : NavTable) (k : NavCur) (v : List PyFloat) (h : NoEmpty T) : NoEmpty (navStore T k v) := by
  unfold navStore
  constructor
  · intro s a ha
    rw [Dict.get?_set] at ha
    split at ha
    · cases ha
      exact ⟨k.num, _, by rw [Dict.get?_set, if_pos rfl]⟩
    · exact h.1 s a ha
  · intro s a n b ha hb
    rw [Dict.get?_set] at ha
    split at ha
    · cases ha
      rw [Dict.get?_set] at hb
      split at hb
      · cases hb
        exact ⟨k.epoch.time, v, by rw [Dict.get?_set, if_pos rfl]⟩
      · cases hx : T.get? k.system with
        | none => rw [hx] at hb; simp [Dict.get?] at hb
        | some bs => rw [hx] at hb; exact h.2 k.system bs n b hx hb
    · exact h.2 s a n b ha hb

theorem noEmpty_storeAll (day : DateTime) (ms : List NavMsg) (T : NavTable) (h : NoEmpty T) : NoEmpty (storeAll day ms T) := by
  induction ms generalizing T with
  | nil => exact h
  | cons m ms ih =>
    have hstep : storeAll day (m :: ms) T = storeAll day ms
        (if OnDay m.epoch day then navStore T ⟨m.system, m.number, m.epoch, rowSizes m.system⟩ m.values else T) := rfl
    rw [hstep]
    apply ih
    split
    · exact noEmpty_store _ _ _ h
    · exact h

theorem noEmpty_nil : NoEmpty [] := by
  constructor
  · intro s a ha; simp [Dict.get?] at ha
  · intro s a n b ha; simp [Dict.get?] at ha

/-! ## whole files -/

theorem parseHeaderGo_none (v : Nat) (ls : List Str) (h : HeaderVals) : parseHeaderGo v ls [] h = .ok h := by
  induction ls with
  | nil => rfl
  | cons l ls ih => simp only [parseHeaderGo, List.find?_nil]; exact ih

theorem parseNavHeader_eq (v : Nat) (ls : List Str) : parseNavHeader v ls =
    match firstLine lblVersion ls with
    | none => .ok none
    | some l => (parseVerType v l).map some := by
  unfold parseNavHeader
  induction ls with
  | nil => rfl
  | cons l ls ih =>
    simp only [parseHeaderGo, List.find?_cons, firstLine, HItem.label]
    by_cases h : headerLabel l = lblVersion
    · simp only [h, decide_true]
      cases hp : parseVerType v l with
      | error e => simp [HItem.assign, hp, bind, Except.bind, Except.map]
      | ok x =>
        simp only [HItem.assign, hp, ok_bind, pure, Except.pure, List.erase_cons_head, parseHeaderGo_none, Except.map]
    · have h' : ¬ lblVersion = headerLabel l := fun hh => h hh.symm
      simp only [h, h', decide_false, List.find?_nil]
      exact ih

theorem parseNavHeader_written (version : Nat) (hdr : List Str) (hs : List HLine) (hok : ∀ h ∈ hs, h.Ok)
    (ht : HeaderText version hdr hs) :
    parseNavHeader version hdr = .ok (hs.findSome? (HLine.saysVersion version)) := by
  have k1 := first_of_kind (v := version) lbl1 (HLine.saysVersion version) (parseVerType version)
    (by
      intro x hx w hw a ha
      cases x <;> simp only [HLine.saysVersion, Option.some.injEq, reduceCtorEq] at ha
      subst ha
      exact ⟨render_fits (h := .version _ _ _ _) hx w hw, parseVerType_render version _ _ _ _ hx w⟩)
    (by
      intro x hx w hw ha
      rw [render_fits hx w hw]
      cases x <;> simp only [HLine.saysVersion, reduceCtorEq] at ha <;>
        first | (simp only [HLine.lbl]; decide) | exact fun h => hx (by simp only [HLine.lbl] at h; simp [h])) hok ht
  rw [parseNavHeader_eq]
  cases hf : hs.findSome? (HLine.saysVersion version) with
  | none => rw [show lblVersion = lbl1 from rfl, k1.1 hf]
  | some a =>
    obtain ⟨l, h1, h2⟩ := k1.2 a hf
    rw [show lblVersion = lbl1 from rfl, h1]
    simp only [h2, Except.map]

theorem typeLetter_eq (v : Nat) (hs : List HLine) : (hs.findSome? (HLine.saysVersion v)).map (fun x => x.2.1) = typeLetter hs := by
  induction hs with
  | nil => rfl
  | cons h hs ih => cases h <;> simp only [List.findSome?_cons, HLine.saysVersion, typeLetter, Option.map_some, ih]

theorem fileTypes_system {version : Nat} {f s : Char} (h : systemOfType version (some f) = some s) : fileTypes version f = some s := by
  unfold systemOfType at h
  unfold fileTypes
  split at h
  · rename_i heq; cases heq; exact h
  · rename_i heq; cases heq; exact h
  · rename_i heq; cases heq
    simp only [show ¬ 'H' = 'N' by decide, show ¬ 'H' = 'G' by decide, if_false, if_true]
    exact h
  · cases h

theorem msgFor_readable {v3 : Bool} {version : Nat} {hs : List HLine} {m : NavMsg} (h : Readable v3 version hs m) :
    MsgFor v3 version (typeLetter hs) m := by
  unfold Readable at h
  unfold MsgFor
  cases v3 with
  | true => exact h
  | false =>
    obtain ⟨s, h1, h2⟩ := h
    cases hf : typeLetter hs with
    | none => rw [hf] at h1; simp [systemOfType] at h1
    | some f => rw [hf] at h1; exact ⟨f, s, rfl, fileTypes_system h1, h2⟩

/-- C26: for every header and every sequence of messages — any number, any order, any satellites and times — written as a
RINEX 2 or 3 navigation file, loading the file succeeds and the table holds, for each system, satellite and time of day,
exactly the values of the last message written for it on the day of the file name, and nothing else (no empty entries
either). -/
theorem C26_table (v3 : Bool) (version : Nat) (hs : List HLine) (hok : ∀ h ∈ hs, h.Ok) (hdr : List Str)
    (ht : HeaderText version hdr hs) (hh : ∀ l ∈ hdr, labelOf l ≠ lblEnd) (endl : Str) (hend : labelOf endl = lblEnd)
    (ms : List NavMsg) (hm : ∀ m ∈ ms, Readable v3 version hs m) (body : List Str) (hb : NavBody v3 ms body) (day : DateTime) :
    ∃ T, loadNav (layout v3 version) (some day.date) (hdr ++ endl :: body) = .ok T ∧
      (∀ s n τ v, Msg T s n τ v ↔ LastOf day ms s n τ v) ∧ NoEmpty T := by
  refine ⟨storeAll day ms [], ?_, ?_, noEmpty_storeAll day ms [] noEmpty_nil⟩
  · unfold loadNav
    rw [splitHeader3_spec hdr body endl hh hend]
    simp only
    rw [show (layout v3 version).version = version by cases v3 <;> rfl, parseNavHeader_written version hdr hs hok ht]
    simp only [ok_bind]
    rw [typeLetter_eq]
    exact navLoop_body day ms (fun m h => msgFor_readable (hm m h)) body hb .init rfl []
  · intro s n τ v
    rw [msg_storeAll]
    constructor
    · rintro (h | ⟨_, a, b, ha, _⟩)
      · exact h
      · simp [Dict.get?] at ha
    · exact Or.inl

/-- C26: messages of other days only: the table is empty. -/
theorem C26_other_days (v3 : Bool) (version : Nat) (hs : List HLine) (hok : ∀ h ∈ hs, h.Ok) (hdr : List Str)
    (ht : HeaderText version hdr hs) (hh : ∀ l ∈ hdr, labelOf l ≠ lblEnd) (endl : Str) (hend : labelOf endl = lblEnd)
    (ms : List NavMsg) (hm : ∀ m ∈ ms, Readable v3 version hs m) (body : List Str) (hb : NavBody v3 ms body) (day : DateTime)
    (hd : ∀ m ∈ ms, ¬ OnDay m.epoch day) :
    loadNav (layout v3 version) (some day.date) (hdr ++ endl :: body) = .ok [] := by
  unfold loadNav
  rw [splitHeader3_spec hdr body endl hh hend]
  simp only
  rw [show (layout v3 version).version = version by cases v3 <;> rfl, parseNavHeader_written version hdr hs hok ht]
  simp only [ok_bind]
  rw [typeLetter_eq, navLoop_body day ms (fun m h => msgFor_readable (hm m h)) body hb .init rfl []]
  congr 1
  clear hb hm
  induction ms with
  | nil => rfl
  | cons m ms ih =>
    show storeAll day ms (if OnDay m.epoch day then _ else _) = _
    rw [if_neg (hd m (by simp))]
    exact ih fun x hx => hd x (by simp [hx])

/-! ## arbitrary text -/

/-- the lines hold a message: an epoch line saying the satellite and time, followed by the orbit lines of its system, whose
fields are the values -/
def Holds (v3 : Bool) (version : Nat) (ft : Option Char) (lines : List Str) (s : Char) (n : Int) (t : DateTime)
    (v : List PyFloat) : Prop :=
  ∃ before E os after, lines = before ++ E :: (os ++ after) ∧
    (if v3 then parseNavEpoch3 E else parseNavEpoch2 version ft E) = .ok (s, n, t) ∧
    isSpaceStr (slice E 0 (if v3 then 1 else 3)) = false ∧
    os.length = (rowSizes s).length ∧ (∀ o ∈ os, isSpaceStr (slice o 0 (if v3 then 1 else 3)) = true) ∧
    ∃ vss, v = vss.flatten ∧
      List.Forall₂ (fun on vs => orbitLine (layout v3 version) on.1 on.2 = .ok vs) (os.zip (rowSizes s)) vss

theorem spaces_layout (v3 : Bool) (version : Nat) : (layout v3 version).spaces = if v3 then 1 else 3 := by cases v3 <;> rfl

theorem not_epoch_iff (v3 : Bool) (version : Nat) (l : Str) :
    ¬ IsEpochLine (layout v3 version) l ↔ isSpaceStr (slice l 0 (if v3 then 1 else 3)) = true := by
  unfold IsEpochLine; rw [Bool.not_eq_false, spaces_layout]

theorem epochOf_layout (v3 : Bool) (version : Nat) (ft : Option Char) (l : Str) :
    epochOf (layout v3 version) ft l = if v3 then parseNavEpoch3 l else parseNavEpoch2 version ft l := by cases v3 <;> rfl

theorem readOrbits_values {c : NavCfg} {os : List Str} {ns : List Nat} {v : List PyFloat} (h : readOrbits c os ns = .ok v) :
    ∃ vss, v = vss.flatten ∧ List.Forall₂ (fun on vs => orbitLine c on.1 on.2 = .ok vs) (os.zip ns) vss := by
  induction os generalizing ns v with
  | nil => simp only [readOrbits, Except.ok.injEq] at h; exact ⟨[], by simp [← h], by simp⟩
  | cons o os ih =>
    cases ns with
    | nil => simp [readOrbits] at h
    | cons n ns =>
      simp only [readOrbits, bind_eq_ok, pure_eq_ok] at h
      obtain ⟨a, ha, b, hb, rfl⟩ := h
      obtain ⟨vss, rfl, hv⟩ := ih hb
      exact ⟨a :: vss, by simp, .cons ha hv⟩

/-- a message of the table is held by the lines read so far and is of the right day -/
def Sound (v3 : Bool) (version : Nat) (ft : Option Char) (date : Option Date) (pre : List Str) (T : NavTable) : Prop :=
  ∀ s n τ v, Msg T s n τ v → ∃ t, Holds v3 version ft pre s n t v ∧ date = some t.date ∧ timeOfDay t = τ

/-- invariant of the loop after the lines `pre` -/
structure NavInv (v3 : Bool) (version : Nat) (ft : Option Char) (date : Option Date) (pre : List Str) (l : NavLoc) (T : NavTable) : Prop where
  closed : l.reader = false → l.left = 0 ∧ l.orbits = []
  opened : l.reader = true → ∃ k p E os junk, l.last = some k ∧ pre = p ++ E :: os ∧ IsEpochLine (layout v3 version) E ∧
    epochOf (layout v3 version) ft E = .ok (k.system, k.num, k.epoch) ∧ msgVals (layout v3 version) k.system = some k.vals ∧
    (∀ o ∈ os, ¬ IsEpochLine (layout v3 version) o) ∧ l.orbits = junk ++ os ∧ os.length + l.left = k.vals.length ∧ 1 ≤ l.left
  sound : Sound v3 version ft date pre T

theorem holds_more {v3 : Bool} {version : Nat} {ft : Option Char} {pre : List Str} {s : Char} {n : Int} {t : DateTime}
    {v : List PyFloat} (h : Holds v3 version ft pre s n t v) (a b : List Str) : Holds v3 version ft (a ++ pre ++ b) s n t v := by
  obtain ⟨p, E, os, q, rfl, h⟩ := h
  exact ⟨a ++ p, E, os, q ++ b, by simp, h⟩

theorem sound_more {v3 : Bool} {version : Nat} {ft : Option Char} {date : Option Date} {pre : List Str} {T : NavTable}
    (h : Sound v3 version ft date pre T) (b : List Str) : Sound v3 version ft date (pre ++ b) T := by
  intro s n τ v hm
  obtain ⟨t, h1, h2⟩ := h s n τ v hm
  exact ⟨t, by have := holds_more h1 [] b; simpa using this, h2⟩

theorem vals_length {c : NavCfg} {s : Char} {vals : List Nat} (h : msgVals c s = some vals) : 3 ≤ vals.length := by
  rw [msgVals_rowSizes h]; unfold rowSizes; split <;> decide

theorem navInv_step {v3 : Bool} {version : Nat} {ft : Option Char} {date : Option Date} {pre : List Str} {l l' : NavLoc} {T T' : NavTable}
    (line : Str) (h : NavInv v3 version ft date pre l T) (hs : navStep (layout v3 version) ft date line l T = .ok (l', T')) :
    NavInv v3 version ft date (pre ++ [line]) l' T' := by
  by_cases hE : IsEpochLine (layout v3 version) line
  · cases hp : epochOf (layout v3 version) ft line with
    | error e =>
      exfalso
      unfold navStep at hs
      unfold IsEpochLine at hE
      unfold epochOf at hp
      rw [hE] at hs
      simp only [Bool.not_false, if_true] at hs
      by_cases hc : (layout v3 version).v3 = true
      · rw [if_pos hc] at hp hs; simp [hp, bind, Except.bind] at hs
      · rw [if_neg hc] at hp hs; simp [hp, bind, Except.bind] at hs
    | ok x =>
      obtain ⟨s, n, t⟩ := x
      cases hv : msgVals (layout v3 version) s with
      | none =>
        exfalso
        unfold navStep at hs
        unfold IsEpochLine at hE
        unfold epochOf at hp
        rw [hE] at hs
        simp only [Bool.not_false, if_true] at hs
        by_cases hc : (layout v3 version).v3 = true
        · rw [if_pos hc] at hp hs; simp [hp, ok_bind, hv, throw, throwThe, MonadExceptOf.throw] at hs
        · rw [if_neg hc] at hp hs; simp [hp, ok_bind, hv, throw, throwThe, MonadExceptOf.throw] at hs
      | some vals =>
        rw [navStep_epoch hE hp hv] at hs
        cases hs
        exact {
          closed := by simp
          opened := fun _ => ⟨⟨s, n, t, vals⟩, pre, line, [], l.orbits, rfl, rfl, hE, hp, hv, by simp, by simp, by simp, by
            have := vals_length hv; simp only; omega⟩
          sound := sound_more h.sound _ }
  · cases hr : l.reader with
    | false =>
      exfalso
      obtain ⟨h1, h2⟩ := h.closed hr
      have : l = ⟨[], 0, l.last, false⟩ := by cases l; simp_all
      rw [this, navStep_stray hE] at hs
      cases hs
    | true =>
      obtain ⟨k, p, E, os, junk, hk, hpre, hEE, hep, hv, ho, horb, hlen, hleft⟩ := h.opened hr
      by_cases h2 : 2 ≤ l.left
      · rw [navStep_orbit_more hE T h2] at hs
        cases hs
        exact {
          closed := by simp [hr]
          opened := fun _ => ⟨k, p, E, os ++ [line], junk, hk, by simp [hpre], hEE, hep, hv, by
            intro o hoo
            rcases List.mem_append.1 hoo with hoo | hoo
            · exact ho o hoo
            · simp only [List.mem_singleton] at hoo; rw [hoo]; exact hE, by simp [horb], by simp; omega, by simp only; omega⟩
          sound := sound_more h.sound _ }
      · have hl1 : l = ⟨junk ++ os, 1, some k, true⟩ := by
          cases l; simp only at horb hk hr hleft h2 ⊢; subst horb hk hr; congr; omega
        rw [hl1, navStep_orbit_last hE] at hs
        cases hf : finish (layout v3 version) date k (junk ++ os ++ [line]) T with
        | error e => rw [hf] at hs; cases hs
        | ok T1 =>
          rw [hf] at hs
          cases hs
          refine { closed := by simp, opened := by simp, sound := ?_ }
          unfold finish at hf
          split at hf
          · cases hf; exact sound_more h.sound _
          · rename_i hdate
            rw [ne_eq, not_not] at hdate
            cases hread : readOrbits (layout v3 version) (junk ++ os ++ [line]) k.vals with
            | error e => rw [hread] at hf; cases hf
            | ok v =>
              rw [hread] at hf
              cases hf
              have hlen1 : l.left = 1 := by omega
              have hjunk : junk = [] := by
                by_contra hj
                have : 1 ≤ junk.length := List.length_pos_iff.2 hj
                rw [readOrbits_long _ _ _ (by simp; omega)] at hread
                cases hread
              subst hjunk
              intro s n τ w hm
              rw [msg_store] at hm
              split at hm
              · rename_i hkey
                obtain ⟨rfl, rfl, rfl⟩ := hkey
                subst hm
                refine ⟨k.epoch, ⟨p, E, os ++ [line], [], by simp [hpre], ?_, ?_, ?_, ?_, ?_⟩, hdate, rfl⟩
                · rw [← epochOf_layout]; exact hep
                · unfold IsEpochLine at hEE; rw [spaces_layout] at hEE; exact hEE
                · rw [← msgVals_rowSizes hv]; simp; omega
                · intro o hoo
                  rw [← not_epoch_iff v3 version]
                  rcases List.mem_append.1 hoo with hoo | hoo
                  · exact ho o hoo
                  · simp only [List.mem_singleton] at hoo; rw [hoo]; exact hE
                · rw [← msgVals_rowSizes hv]; exact readOrbits_values hread
              · exact sound_more h.sound _ s n τ w hm

theorem navInv_loop {v3 : Bool} {version : Nat} {ft : Option Char} {date : Option Date} (ls pre : List Str) {l : NavLoc} {T T' : NavTable}
    (h : NavInv v3 version ft date pre l T) (hr : navLoop (layout v3 version) ft date ls l T = .ok T') :
    Sound v3 version ft date (pre ++ ls) T' := by
  induction ls generalizing pre l T with
  | nil => simp only [navLoop, Except.ok.injEq] at hr; subst hr; simpa using h.sound
  | cons line ls ih =>
    rw [navLoop_cons, bind_eq_ok] at hr
    obtain ⟨⟨l1, T1⟩, h1, h2⟩ := hr
    have := ih (pre ++ [line]) (navInv_step line h h1) h2
    simpa using this

theorem navInv_init (v3 : Bool) (version : Nat) (ft : Option Char) (date : Option Date) : NavInv v3 version ft date [] .init [] where
  closed := fun _ => ⟨rfl, rfl⟩
  opened := by simp [NavLoc.init]
  sound := by rintro s n τ v ⟨a, b, h, _⟩; simp [Dict.get?] at h

theorem splitHeader3_suffix (file : List Str) : ∃ p, file = p ++ (splitHeader3 file).2 := by
  induction file with
  | nil => exact ⟨[], rfl⟩
  | cons l ls ih =>
    unfold splitHeader3
    split
    · exact ⟨[l], rfl⟩
    · obtain ⟨p, hp⟩ := ih
      exact ⟨l :: p, by simpa using hp⟩

theorem values_length {c : NavCfg} {os : List Str} {ns : List Nat} {vss : List (List PyFloat)} (v3 : Bool) (version : Nat)
    (hc : c = layout v3 version) (h4 : ∀ n ∈ ns, n ≤ 4) (hlen : os.length = ns.length)
    (h : List.Forall₂ (fun on vs => orbitLine c on.1 on.2 = .ok vs) (os.zip ns) vss) : vss.flatten.length = ns.sum := by
  subst hc
  induction os generalizing ns vss with
  | nil =>
    cases ns with
    | nil => simp at h; simp [h]
    | cons => simp at hlen
  | cons o os ih =>
    cases ns with
    | nil => simp at hlen
    | cons n ns =>
      simp only [List.zip_cons_cons] at h
      cases h with
      | cons h1 h2 =>
        have hn := ((C25_any v3 version o n (h4 n (by simp)) _).1 h1).1
        rw [List.flatten_cons, List.length_append, List.sum_cons, hn, ih (fun x hx => h4 x (by simp [hx])) (by simpa using hlen) h2]

/-- C27: whatever text the file contains, every message of the loaded table stands in the file as one epoch line saying its
system, satellite, date of the file name and time of day, directly followed by the full number of orbit lines of its system,
and its values are exactly those of these lines: 26 of them (12 for GLONASS and SBAS). -/
theorem C27_assembled (v3 : Bool) (version : Nat) (date : Option Date) (file : List Str) (T : NavTable)
    (h : loadNav (layout v3 version) date file = .ok T) (s : Char) (n : Int) (τ : Nat) (v : List PyFloat) (hm : Msg T s n τ v) :
    (∃ vt t, parseNavHeader version (splitHeader3 file).1 = .ok vt ∧ Holds v3 version (vt.map fun v => v.2.1) file s n t v ∧
      date = some t.date ∧ timeOfDay t = τ) ∧
    v.length = if s = 'R' ∨ s = 'S' then 12 else 26 := by
  unfold loadNav at h
  obtain ⟨p, hp⟩ := splitHeader3_suffix file
  generalize hsp : splitHeader3 file = hb at h hp
  obtain ⟨hdr, body⟩ := hb
  simp only [bind_eq_ok] at h
  obtain ⟨vt, hvt, h⟩ := h
  rw [show (layout v3 version).version = version by cases v3 <;> rfl] at hvt
  obtain ⟨t, ht, hd, hτ⟩ := navInv_loop body [] (navInv_init v3 version (vt.map fun v => v.2.1) date) h s n τ v hm
  have hlen : v.length = (rowSizes s).sum := by
    obtain ⟨_, E, os, _, _, _, _, hl, _, vss, rfl, hf⟩ := ht
    exact values_length v3 version rfl (fun n hn => rowSizes_mem hn) hl hf
  refine ⟨⟨vt, t, hvt, ?_, hd, hτ⟩, ?_⟩
  · have := holds_more ht p []
    rw [hp]; simpa using this
  · rw [hlen]; unfold rowSizes; split <;> rfl

/-- the state after some lines -/
def navRun (c : NavCfg) (ft : Option Char) (date : Option Date) : List Str → NavLoc → NavTable → Except PyErr (NavLoc × NavTable)
  | [], l, m => .ok (l, m)
  | line :: ls, l, m => navStep c ft date line l m >>= fun p => navRun c ft date ls p.1 p.2

theorem navLoop_append (c : NavCfg) (ft : Option Char) (date : Option Date) (a b : List Str) (l : NavLoc) (m : NavTable) :
    navLoop c ft date (a ++ b) l m = (navRun c ft date a l m >>= fun p => navLoop c ft date b p.1 p.2) := by
  induction a generalizing l m with
  | nil => rfl
  | cons x a ih =>
    rw [List.cons_append, navLoop_cons]
    simp only [navRun]
    cases navStep c ft date x l m with
    | error e => rfl
    | ok p => simp only [ok_bind]; exact ih p.1 p.2

theorem navRun_loop (c : NavCfg) (ft : Option Char) (date : Option Date) (a : List Str) (l : NavLoc) (m : NavTable) :
    navLoop c ft date a l m = (navRun c ft date a l m).map fun p => p.2 := by
  have := navLoop_append c ft date a [] l m
  rw [List.append_nil] at this
  rw [this]
  cases navRun c ft date a l m <;> rfl

/-- lines of an unfinished message -/
theorem navLoop_unfinished {c : NavCfg} {ft : Option Char} {date : Option Date} (os : List Str) (ho : ∀ o ∈ os, ¬ IsEpochLine c o)
    (acc : List Str) (left : Nat) (hl : os.length < left) (k : Option NavCur) (r : Bool) (m : NavTable) (rest : List Str) :
    navLoop c ft date (os ++ rest) ⟨acc, left, k, r⟩ m = navLoop c ft date rest ⟨acc ++ os, left - os.length, k, r⟩ m := by
  induction os generalizing acc left with
  | nil => simp
  | cons o os ih =>
    simp only [List.length_cons] at hl
    rw [List.cons_append, navLoop_cons, navStep_orbit_more (ho o (by simp)) m (by simp only; omega)]
    simp only [ok_bind]
    rw [ih (fun x hx => ho x (by simp [hx])) _ _ (by omega)]
    simp only [List.append_assoc, List.singleton_append, List.length_cons]
    congr 2; omega

/-- an epoch line of the version for system `s`, satellite `n` and time `t` -/
def EpochLine (v3 : Bool) (version : Nat) (ft : Option Char) (E : Str) (s : Char) (n : Int) (t : DateTime) : Prop :=
  isSpaceStr (slice E 0 (if v3 then 1 else 3)) = false ∧
  (if v3 then parseNavEpoch3 E else parseNavEpoch2 version ft E) = .ok (s, n, t) ∧ (msgVals (layout v3 version) s).isSome

/-- orbit lines: their first columns are white -/
def OrbitLines (v3 : Bool) (os : List Str) : Prop := ∀ o ∈ os, isSpaceStr (slice o 0 (if v3 then 1 else 3)) = true

theorem epochLine_parts {v3 : Bool} {version : Nat} {ft : Option Char} {E : Str} {s : Char} {n : Int} {t : DateTime}
    (h : EpochLine v3 version ft E s n t) : IsEpochLine (layout v3 version) E ∧ epochOf (layout v3 version) ft E = .ok (s, n, t) ∧
      msgVals (layout v3 version) s = some (rowSizes s) := by
  obtain ⟨h1, h2, h3⟩ := h
  refine ⟨by unfold IsEpochLine; rw [spaces_layout]; exact h1, by rw [epochOf_layout]; exact h2, ?_⟩
  obtain ⟨v, hv⟩ := Option.isSome_iff_exists.1 h3
  rw [hv, msgVals_rowSizes hv]

theorem orbitLines_parts {v3 : Bool} (version : Nat) {os : List Str} (h : OrbitLines v3 os) :
    ∀ o ∈ os, ¬ IsEpochLine (layout v3 version) o := fun o ho => (not_epoch_iff v3 version o).2 (h o ho)

theorem rowSizes_len (s : Char) : 3 ≤ (rowSizes s).length := by unfold rowSizes; split <;> decide

theorem load_body (v3 : Bool) (version : Nat) (date : Option Date) (hdr : List Str) (hh : ∀ l ∈ hdr, labelOf l ≠ lblEnd) (endl : Str)
    (hend : labelOf endl = lblEnd) (body : List Str) (vt) (hvt : parseNavHeader version hdr = .ok vt) :
    loadNav (layout v3 version) date (hdr ++ endl :: body) =
      navLoop (layout v3 version) (vt.map fun v => v.2.1) date body .init [] := by
  unfold loadNav
  rw [splitHeader3_spec hdr body endl hh hend]
  simp only
  rw [show (layout v3 version).version = version by cases v3 <;> rfl, hvt]
  rfl

/-- C27: a message cut short by the epoch line of the next one is never completed with that one's lines, nor that one with
its lines: if the next message is complete and of the day of the file name, loading fails, and with RinexError unless
the text before already fails with something else. -/
theorem C27_truncated (v3 : Bool) (version : Nat) (day : Date) (hdr : List Str) (hh : ∀ l ∈ hdr, labelOf l ≠ lblEnd) (endl : Str)
    (hend : labelOf endl = lblEnd) (vt) (hvt : parseNavHeader version hdr = .ok vt)
    (pre : List Str) (E1 : Str) (os1 : List Str) (E2 : Str) (os2 post : List Str) (s1 s2 : Char) (n1 n2 : Int) (t1 t2 : DateTime)
    (h1 : EpochLine v3 version (vt.map fun v => v.2.1) E1 s1 n1 t1) (ho1 : OrbitLines v3 os1) (hne : os1 ≠ [])
    (hcut : os1.length < (rowSizes s1).length)
    (h2 : EpochLine v3 version (vt.map fun v => v.2.1) E2 s2 n2 t2) (ho2 : OrbitLines v3 os2)
    (hfull : os2.length = (rowSizes s2).length) (hday : t2.date = day) :
    ∃ e, loadNav (layout v3 version) (some day) (hdr ++ endl :: (pre ++ E1 :: (os1 ++ E2 :: (os2 ++ post)))) = .error e ∧
      ((∃ T, loadNav (layout v3 version) (some day) (hdr ++ endl :: pre) = .ok T) → e = .rinex) := by
  rw [load_body v3 version _ hdr hh endl hend _ vt hvt, load_body v3 version _ hdr hh endl hend _ vt hvt]
  rw [navLoop_append, navRun_loop]
  cases hr : navRun (layout v3 version) (vt.map fun v => v.2.1) (some day) pre .init [] with
  | error e => exact ⟨e, rfl, by rintro ⟨T, hT⟩; cases hT⟩
  | ok p =>
    obtain ⟨l, T⟩ := p
    refine ⟨.rinex, ?_, fun _ => rfl⟩
    obtain ⟨a1, a2, a3⟩ := epochLine_parts h1
    obtain ⟨b1, b2, b3⟩ := epochLine_parts h2
    simp only [ok_bind]
    rw [navLoop_cons, navStep_epoch a1 a2 a3]
    simp only [ok_bind]
    rw [navLoop_unfinished os1 (orbitLines_parts version ho1) _ _ hcut]
    have hne2 : os2 ≠ [] := by
      rintro rfl; have := rowSizes_len s2; simp at hfull; omega
    rw [navLoop_message b1 b2 b3 os2 (orbitLines_parts version ho2) hfull hne2]
    unfold finish
    rw [if_neg (by simp [hday]), readOrbits_long]
    · rfl
    · have : 1 ≤ os1.length := List.length_pos_iff.2 hne
      simp only [List.length_append]; omega

theorem navLoop_clean (c : NavCfg) (ft : Option Char) (date : Option Date) (ls : List Str) (k k' : Option NavCur) (m : NavTable) :
    navLoop c ft date ls ⟨[], 0, k, false⟩ m = navLoop c ft date ls ⟨[], 0, k', false⟩ m := by
  cases ls with
  | nil => rfl
  | cons x ls =>
    rw [navLoop_cons, navLoop_cons]
    by_cases hx : IsEpochLine c x
    · have : navStep c ft date x ⟨[], 0, k, false⟩ m = navStep c ft date x ⟨[], 0, k', false⟩ m := by
        unfold navStep
        unfold IsEpochLine at hx
        rw [hx]
        rfl
      rw [this]
    · rw [navStep_stray hx, navStep_stray hx]

/-- the state after a sequence of written messages -/
theorem navLoop_body_then {v3 : Bool} {version : Nat} {ft : Option Char} (day : DateTime) (ms : List NavMsg)
    (hm : ∀ m ∈ ms, MsgFor v3 version ft m) (ls : List Str) (hb : NavBody v3 ms ls) (k : Option NavCur) (T : NavTable) (rest : List Str) :
    navLoop (layout v3 version) ft (some day.date) (ls ++ rest) ⟨[], 0, k, false⟩ T =
      navLoop (layout v3 version) ft (some day.date) rest ⟨[], 0, none, false⟩ (storeAll day ms T) := by
  induction ms generalizing ls k T with
  | nil =>
    simp only [NavBody] at hb
    rw [hb]; exact navLoop_clean _ _ _ _ _ _ _
  | cons m ms ih =>
    obtain ⟨a, b, rfl, hw, hb⟩ := hb
    obtain ⟨E, os, rfl, hE, hp, ho, hlen, hread⟩ := written_message (hm m (by simp)) hw
    have hne : os ≠ [] := by
      rintro rfl; have := rowSizes_len m.system; simp at hlen; omega
    rw [show E :: os ++ b ++ rest = E :: (os ++ (b ++ rest)) by simp,
      navLoop_message hE hp (msgVals_for (hm m (by simp))) os ho hlen hne _ T, List.nil_append]
    unfold finish
    simp only [hread, storeAll, List.foldl_cons]
    have hiff : (some day.date ≠ some m.epoch.date) ↔ ¬ OnDay m.epoch day := by
      rw [← date_eq_iff, ne_eq, Option.some.injEq, not_iff_not]; exact eq_comm
    by_cases h : OnDay m.epoch day
    · rw [if_neg (by rw [hiff]; exact not_not.2 h), if_pos h]
      exact ih (fun x hx => hm x (by simp [hx])) b hb _ _
    · rw [if_pos (hiff.2 h), if_neg h]
      exact ih (fun x hx => hm x (by simp [hx])) b hb _ _

/-- C27: after complete messages, a message cut short by the next one is dropped together with it when the next one is not of
the day of the file name: the file loads as if both were not there. -/
theorem C27_dropped (v3 : Bool) (version : Nat) (day : DateTime) (hdr : List Str) (hh : ∀ l ∈ hdr, labelOf l ≠ lblEnd) (endl : Str)
    (hend : labelOf endl = lblEnd) (vt) (hvt : parseNavHeader version hdr = .ok vt) (ms : List NavMsg)
    (hm : ∀ m ∈ ms, MsgFor v3 version (vt.map fun v => v.2.1) m)
    (pre : List Str) (hb : NavBody v3 ms pre) (E1 : Str) (os1 : List Str) (E2 : Str) (os2 post : List Str) (s1 s2 : Char)
    (n1 n2 : Int) (t1 t2 : DateTime)
    (h1 : EpochLine v3 version (vt.map fun v => v.2.1) E1 s1 n1 t1) (ho1 : OrbitLines v3 os1)
    (hcut : os1.length < (rowSizes s1).length)
    (h2 : EpochLine v3 version (vt.map fun v => v.2.1) E2 s2 n2 t2) (ho2 : OrbitLines v3 os2)
    (hfull : os2.length = (rowSizes s2).length) (hday : ¬ OnDay t2 day) :
    loadNav (layout v3 version) (some day.date) (hdr ++ endl :: (pre ++ E1 :: (os1 ++ E2 :: (os2 ++ post)))) =
      loadNav (layout v3 version) (some day.date) (hdr ++ endl :: (pre ++ post)) := by
  rw [load_body v3 version _ hdr hh endl hend _ vt hvt, load_body v3 version _ hdr hh endl hend _ vt hvt]
  unfold NavLoc.init
  rw [navLoop_body_then day ms hm pre hb, navLoop_body_then day ms hm pre hb]
  obtain ⟨a1, a2, a3⟩ := epochLine_parts h1
  obtain ⟨b1, b2, b3⟩ := epochLine_parts h2
  rw [navLoop_cons, navStep_epoch a1 a2 a3]
  simp only [ok_bind]
  rw [navLoop_unfinished os1 (orbitLines_parts version ho1) _ _ hcut]
  have hne2 : os2 ≠ [] := by
    rintro rfl; have := rowSizes_len s2; simp at hfull; omega
  rw [navLoop_message b1 b2 b3 os2 (orbitLines_parts version ho2) hfull hne2]
  unfold finish
  have : some day.date ≠ some t2.date := by
    rw [ne_eq, Option.some.injEq]; exact fun h => hday (date_eq_iff.1 h.symm)
  rw [if_pos this]
  exact navLoop_clean _ _ _ _ _ _ _

/-- C27: a line with white first columns outside a message — also a blank line after the last message — is an error. -/
theorem C27_stray (v3 : Bool) (version : Nat) (day : DateTime) (hdr : List Str) (hh : ∀ l ∈ hdr, labelOf l ≠ lblEnd) (endl : Str)
    (hend : labelOf endl = lblEnd) (vt) (hvt : parseNavHeader version hdr = .ok vt) (ms : List NavMsg)
    (hm : ∀ m ∈ ms, MsgFor v3 version (vt.map fun v => v.2.1) m)
    (pre : List Str) (hb : NavBody v3 ms pre) (o : Str) (ho : OrbitLines v3 [o]) (post : List Str) :
    loadNav (layout v3 version) (some day.date) (hdr ++ endl :: (pre ++ o :: post)) = .error .rinex := by
  rw [load_body v3 version _ hdr hh endl hend _ vt hvt]
  unfold NavLoc.init
  rw [navLoop_body_then day ms hm pre hb, navLoop_cons, navStep_stray (orbitLines_parts version ho o (by simp))]
  rfl

/-- C27: a message cut by the end of the file is ignored. -/
theorem C27_end (v3 : Bool) (version : Nat) (day : DateTime) (hdr : List Str) (hh : ∀ l ∈ hdr, labelOf l ≠ lblEnd) (endl : Str)
    (hend : labelOf endl = lblEnd) (vt) (hvt : parseNavHeader version hdr = .ok vt) (ms : List NavMsg)
    (hm : ∀ m ∈ ms, MsgFor v3 version (vt.map fun v => v.2.1) m)
    (pre : List Str) (hb : NavBody v3 ms pre) (E : Str) (os : List Str) (s : Char) (n : Int) (t : DateTime)
    (h1 : EpochLine v3 version (vt.map fun v => v.2.1) E s n t) (ho : OrbitLines v3 os) (hcut : os.length < (rowSizes s).length) :
    loadNav (layout v3 version) (some day.date) (hdr ++ endl :: (pre ++ E :: os)) =
      loadNav (layout v3 version) (some day.date) (hdr ++ endl :: pre) := by
  rw [load_body v3 version _ hdr hh endl hend _ vt hvt, load_body v3 version _ hdr hh endl hend _ vt hvt]
  unfold NavLoc.init
  conv => rhs; rw [← List.append_nil pre]
  rw [navLoop_body_then day ms hm pre hb, navLoop_body_then day ms hm pre hb]
  obtain ⟨a1, a2, a3⟩ := epochLine_parts h1
  rw [navLoop_cons, navStep_epoch a1 a2 a3]
  simp only [ok_bind]
  have := navLoop_unfinished (ft := vt.map fun v => v.2.1) (date := some day.date) os (orbitLines_parts version ho) [] _ hcut
    (some ⟨s, n, t, rowSizes s⟩) true (storeAll day ms []) []
  rw [List.append_nil] at this
  rw [this]
  rfl

/-! ## a case meeting the hypotheses -/

def exNum (w : Nat) : DNum := ⟨false, [0], [w], 'D', false, [0, 1]⟩
def exRow (w : Nat) : ORow := ⟨[some (exNum w), none, some (exNum 2), some (exNum 3)], []⟩
def exNav (num w : Nat) : NavMsg := ⟨'R', num, ⟨2015, 12, 19, 0, 15, 0, 0⟩, [exNum 1, exNum 1, exNum 1], [exRow w, exRow 4, exRow 5]⟩
def exLines (m : NavMsg) : List Str := m.epochLine3 :: m.rows.map (ORow.render 4)

theorem exNav_ok {num w : Nat} (hn : num < 100) (hw : w < 10) : (exNav num w).Ok3 := by
  have hd : ∀ w, w < 10 → (exNum w).Ok := by
    intro w hw
    refine ⟨by simp [exNum]; omega, by simp [exNum], by simp [exNum], by simp [exNum], by simp [exNum, DNum.text]⟩
  have hr : ∀ w, w < 10 → ∀ f ∈ (exRow w).fields, OField.Ok f := by
    intro w hw f hf
    simp only [exRow, List.mem_cons, List.not_mem_nil, or_false] at hf
    rcases hf with rfl | rfl | rfl | rfl
    · exact hd w hw
    · trivial
    · exact hd 2 (by omega)
    · exact hd 3 (by omega)
  refine ⟨⟨hn, ?_, rfl, ?_, rfl, ?_⟩, by simp [exNav], by simp [exNav], rfl⟩
  · simp only [exNav, Legal, LegalDate]; decide
  · intro d hdm
    simp only [exNav, List.mem_cons, List.not_mem_nil, or_false] at hdm
    rcases hdm with rfl | rfl | rfl <;> exact hd 1 (by omega)
  · intro r hrm
    simp only [exNav, List.mem_cons, List.not_mem_nil, or_false] at hrm
    rcases hrm with rfl | rfl | rfl
    · exact hr w hw
    · exact hr 4 (by omega)
    · exact hr 5 (by omega)

theorem written_self (cs : List Str) : Written cs cs := by
  induction cs with
  | nil => trivial
  | cons c cs ih => exact ⟨rfl, ih⟩

/-- three messages, two for the same satellite and time: the later one is the one in the table -/
theorem C26_example : ∃ T, loadNav (navCfg3 302) (some ⟨2015, 12, 19⟩)
    ([] ++ hline [] lblEnd :: (exLines (exNav 3 7) ++ (exLines (exNav 5 6) ++ (exLines (exNav 3 8) ++ [])))) = .ok T ∧
    Msg T 'R' 3 900000000 (exNav 3 8).values ∧ Msg T 'R' 5 900000000 (exNav 5 6).values ∧ (exNav 3 8).values ≠ (exNav 3 7).values := by
  have hw : ∀ num w, (exNav num w).WrittenAs true (exLines (exNav num w)) := by
    intro num w
    refine ⟨⟨false, written_self _⟩, ?_⟩
    simp [exLines, exNav, NavMsg.epochLine3, ORow.render]
  obtain ⟨T, h1, h2, _⟩ := C26_table true 302 [] (by simp) [] trivial (by simp) (hline [] lblEnd) (by decide +kernel)
    [exNav 3 7, exNav 5 6, exNav 3 8] (by
      intro m hm
      simp only [List.mem_cons, List.not_mem_nil, or_false] at hm
      rcases hm with rfl | rfl | rfl <;> exact exNav_ok (by omega) (by omega)) _
    ⟨_, _, rfl, hw 3 7, _, _, rfl, hw 5 6, _, _, rfl, hw 3 8, rfl⟩ ⟨2015, 12, 19, 0, 0, 0, 0⟩
  refine ⟨T, h1, (h2 _ _ _ _).2 ?_, (h2 _ _ _ _).2 ?_, ?_⟩
  · exact ⟨[exNav 3 7, exNav 5 6], exNav 3 8, [], rfl, ⟨rfl, rfl, rfl⟩, rfl, rfl, by decide, rfl, by simp⟩
  · refine ⟨[exNav 3 7], exNav 5 6, [exNav 3 8], rfl, ⟨rfl, rfl, rfl⟩, rfl, rfl, by decide, rfl, ?_⟩
    intro m' hm'
    simp only [List.mem_singleton] at hm'
    subst hm'
    rintro ⟨_, _, h, _⟩
    revert h; decide
  · intro h
    simp only [NavMsg.values, exNav, exRow, List.flatMap_cons, List.map_cons, List.cons_append, List.cons.injEq, PyFloat.fin.injEq] at h
    have := h.1
    simp [OField.value, DNum.value, exNum, numeral] at this

end Verif.Props
