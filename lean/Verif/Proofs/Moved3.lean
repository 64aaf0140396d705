import Verif.Spec.Moved3
import Verif.Proofs.Moved
import Verif.Props.Program
/-! # RINEX 3: positions announced inside the file -/
namespace Verif.Proofs
open Verif.Py Verif.Model Verif.Spec Verif.Props

theorem written_rstrip {a b : List Str} (h : Written a b) : a.map rstrip = b.map rstrip := by
  induction a generalizing b with
  | nil => cases b with
    | nil => rfl
    | cons => simp [Written] at h
  | cons x a ih => cases b with
    | nil => simp [Written] at h
    | cons y b =>
      simp only [List.map_cons]
      rw [ih h.2, show rstrip x = rstrip y from h.1]

theorem headerText_of_rstrip {v : Nat} {ls : List Str} {hs : List HLine} (h : HeaderText v (ls.map rstrip) hs) : HeaderText v ls hs := by
  induction ls generalizing hs with
  | nil => exact h
  | cons l ls ih =>
    cases hs with
    | nil => simp [HeaderText] at h
    | cons x hs =>
      obtain ⟨⟨w, h1, h2⟩, h3⟩ := h
      obtain ⟨t, ht, hw⟩ := rstrip_decomp l
      refine ⟨⟨w ++ t, by rw [← List.append_assoc, ← h1]; exact ht, ?_⟩, ih h3⟩
      intro c hc
      rcases List.mem_append.1 hc with hc | hc
      · exact h2 c hc
      · exact hw c hc

theorem headerText_append {v : Nat} {a b : List Str} {x y : List HLine} (h1 : HeaderText v a x) (h2 : HeaderText v b y) : HeaderText v (a ++ b) (x ++ y) := by
  induction a generalizing x with
  | nil => cases x with
    | nil => exact h2
    | cons => simp [HeaderText] at h1
  | cons l a ih => cases x with
    | nil => simp [HeaderText] at h1
    | cons h x => exact ⟨h1.1, ih h1.2⟩

/-- header lines without version, first observation and interval -/
structure Quiet3 (v : Nat) (ls : List Str) (hs : List HLine) : Prop where
  text : HeaderText v ls hs
  ok : ∀ h ∈ hs, h.Ok
  ver : hs.findSome? (HLine.saysVersion v) = none
  tofo : hs.findSome? HLine.saysFirstObs = none
  int : hs.findSome? (HLine.saysInterval v) = none
  sys : ∀ l ∈ ls, labelOf l ≠ lblSys

theorem Quiet3.append {v : Nat} {a b : List Str} {x y : List HLine} (h1 : Quiet3 v a x) (h2 : Quiet3 v b y) : Quiet3 v (a ++ b) (x ++ y) where
  text := headerText_append h1.text h2.text
  ok := by
    intro h hh
    rcases List.mem_append.1 hh with hh | hh
    · exact h1.ok h hh
    · exact h2.ok h hh
  ver := by rw [List.findSome?_append, h1.ver, h2.ver]; rfl
  tofo := by rw [List.findSome?_append, h1.tofo, h2.tofo]; rfl
  int := by rw [List.findSome?_append, h1.int, h2.int]; rfl
  sys := by
    intro l hl
    rcases List.mem_append.1 hl with hl | hl
    · exact h1.sys l hl
    · exact h2.sys l hl

/-- the physical lines of an event block -/
theorem holds_quiet {v : Nat} {e : Ev3} {hs : List HLine} (h : e.Holds v hs) {ls : List Str} (hw : Written ls e.body) :
    ∃ hs', Quiet3 v ls hs' ∧ hs'.findSome? HLine.pos = hs.findSome? HLine.pos := by
  obtain ⟨hs', i1, i2, i3, i4, i5, i6⟩ := headerText_rstrip h.1 h.2.1
  refine ⟨hs', ⟨headerText_of_rstrip ?_, i2, i4, i5, i6, ?_⟩, i3⟩
  · rw [written_rstrip hw]; exact i1
  · intro l hl
    obtain ⟨y, hy, hs⟩ := written_mem hw l hl
    rw [labelOf_same hs]
    exact h.2.2 y hy

theorem parseHeader3_quiet {v : Nat} {ls : List Str} {hs : List HLine} (h : Quiet3 v ls hs) (hd : HeaderVals) (p : Pos) (hp : hd.xyz = xyzList p) (sys : SysMap) :
    parseHeader3 v ls ⟨hd, sys⟩ = .ok ⟨{ hd with xyz := xyzList ((hs.findSome? HLine.pos).getD p) }, sys⟩ := by
  unfold parseHeader3
  have : ls.filter (fun l => headerLabel l = lblSysNObs) = [] := by
    rw [List.filter_eq_nil_iff]
    intro l hl hd
    exact h.sys l hl (of_decide_eq_true hd)
  rw [this]
  have ha : assignSysNObs v ([] : List Str).flatten sys = .ok sys := rfl
  simp only [ha]
  rw [C23_header v ls hs h.ok h.text hd, h.ver, h.tofo, h.int, hp, saysPosition_pos]
  rfl

/-- the records of the epochs with the states of the reader -/
def heardRecs (m : TypeMap) (hd : HeaderVals) (sys : SysMap) (l : List (Ep3 × Pos)) : List (Rec3 × Obj3) :=
  l.flatMap fun e => (recs3 m e.1).map (·, ⟨{ hd with xyz := xyzList e.2 }, sys⟩)

theorem blockRun_heard {v : Nat} {m : TypeMap} {hd : HeaderVals} {sys : SysMap} (bs : List (Item3 × List Str)) (hb : Blocks m bs) :
    ∀ {heard : Option Pos} {p : Pos} {l : List (Ep3 × Pos)} (_ : Heard v heard p (bs.map (·.1)) l) (special : List Str) (hs : List HLine),
      Quiet3 v special hs → hs.findSome? HLine.pos = heard →
      (blockRun v m bs special ⟨{ hd with xyz := xyzList p }, sys⟩).yields = heardRecs m hd sys l ∧
      ∃ q, (blockRun v m bs special ⟨{ hd with xyz := xyzList p }, sys⟩).stop = .ok q := by
  induction bs with
  | nil =>
    intro heard p l h special hs _ _
    cases h
    exact ⟨rfl, _, rfl⟩
  | cons b bs ih =>
    obtain ⟨i, ls⟩ := b
    obtain ⟨hi, hw, hne, hb⟩ := hb
    intro heard p l h special hs hq hm
    cases i with
    | obs e =>
      cases h with
      | epoch h =>
        obtain ⟨i1, q, i2⟩ := ih hb h special hs hq hm
        simp only [blockRun]
        exact ⟨by rw [i1]; rfl, q, i2⟩
    | event e =>
      cases h with
      | @event _ _ _ hs' _ _ hh h =>
        have hw' : Written (ls.drop 1) e.body := by
          cases ls with
          | nil => simp [Item3.lines, Ev3.lines, Written] at hw
          | cons l ls => exact hw.2
        obtain ⟨hs2, q2, p2⟩ := holds_quiet hh hw'
        have hqq := hq.append q2
        have hmm : (hs ++ hs2).findSome? HLine.pos = heard.or (hs'.findSome? HLine.pos) := by
          rw [List.findSome?_append, hm, p2]
        simp only [blockRun]
        have ha : afterEvent v e (special ++ ls.drop 1) ⟨{ hd with xyz := xyzList p }, sys⟩ =
            .ok ⟨{ hd with xyz := xyzList (if e.flag = 4 ∧ e.body ≠ [] then (heard.or (hs'.findSome? HLine.pos)).getD p else p) }, sys⟩ := by
          unfold afterEvent
          split
          · rw [parseHeader3_quiet hqq _ p rfl, hmm]
          · rfl
        rw [ha]
        exact ih hb h _ _ hqq hmm

theorem heard_noSys {v : Nat} {heard : Option Pos} {p : Pos} {items : List Item3} {l : List (Ep3 × Pos)} (h : Heard v heard p items l) :
    ∀ e, Item3.event e ∈ items → ∀ x ∈ e.body, labelOf x ≠ lblSys := by
  induction h with
  | done => simp
  | epoch _ ih =>
    intro e he
    rcases List.mem_cons.1 he with he | he
    · cases he
    · exact ih e he
  | event hh _ ih =>
    intro e he
    rcases List.mem_cons.1 he with he | he
    · cases he
      exact hh.2.2
    · exact ih e he

theorem read_heard {v : Nat} {m : TypeMap} {hd : HeaderVals} {ch : List (Nat × Nat)} (hch : dataChunks3 (asSys m) = .ok ch) {p : Pos} {items : List Item3}
    {l : List (Ep3 × Pos)} (h : Heard v none p items l) (hok : ∀ i ∈ items, i.Ok m) (ls : List Str) (hw : Written ls (bodyLines3 items)) (hne : ∀ l ∈ ls, l ≠ []) :
    (readRecords3 v ch ⟨{ hd with xyz := xyzList p }, asSys m⟩ ls).yields = heardRecs m hd (asSys m) l ∧
      ∃ q, (readRecords3 v ch ⟨{ hd with xyz := xyzList p }, asSys m⟩ ls).stop = .ok q := by
  have hev := heard_noSys h
  obtain ⟨bs, rfl, rfl, hb⟩ := blocks_of_written items hok ls hw hne
  unfold readRecords3
  have hno : NoSys [] bs := by
    refine Or.inr ⟨by simp, ?_⟩
    intro e ls hm l hl
    have hb' : Written (ls.drop 1) e.body := by
      clear hw hne hev h
      induction bs with
      | nil => simp at hm
      | cons b bs ih =>
        obtain ⟨i, k⟩ := b
        rcases List.mem_cons.1 hm with h | h
        · cases h
          obtain ⟨_, hw, _⟩ := hb
          cases ls with
          | nil => simp [Item3.lines, Ev3.lines, Written] at hw
          | cons l ls => exact hw.2
        · exact ih (fun i hi => hok i (by simp at hi ⊢; exact Or.inr hi)) hb.2.2.2 h
    obtain ⟨y, hy, hs⟩ := written_mem hb' l hl
    show labelOf l ≠ lblSys
    rw [labelOf_same hs]
    exact hev e (List.mem_map.2 ⟨_, hm, rfl⟩) y hy
  rw [readLoop3_blocks hch bs hb none [] _ hno rfl]
  exact blockRun_heard bs hb h [] [] ⟨trivial, by simp, rfl, rfl, rfl, by simp⟩ rfl

end Verif.Proofs
