import Verif.Proofs.Xyz
import Verif.Props.ObsNames
/-!
# Coordinate files (C39)
-/
namespace Verif.Props
open Verif.Py Verif.Spec Verif.Model Verif.Proofs

/-- C39: a coordinate file (point lines in any order with any spacing, comments and empty lines anywhere) is read back as the map
from each epoch to the position of the last line bearing it; epochs without a line are absent. -/
theorem C39_contents (ls : List XyzLine) (h : ∀ l ∈ ls, l.Ok) :
    ∃ D, loadXyz (ls.map XyzLine.render) [] = .ok D ∧ ∀ t, D.get? t = lastFor t ls := by
  refine ⟨_, loadXyz_written ls h [], fun t => ?_⟩
  rw [foldl_set_get]
  unfold lastFor
  cases List.find? _ _ <;> rfl

/-- a comment, a blank line and two lines for one epoch: the second one counts -/
example : ∃ D, loadXyz ([.comment [' '] (c% " x"), .blank [],
      .point ⟨2014, 1, 2, 3, 4, 5, 0⟩ [' '] ⟨1, 10⟩ [' ', '\t'] ⟨2, -325⟩ [' '] ⟨1, 0⟩ [' '] ['\n'],
      .point ⟨2014, 1, 2, 3, 4, 5, 0⟩ [' '] ⟨1, 20⟩ [' '] ⟨1, 30⟩ [' '] ⟨1, 40⟩ [' ', ' '] []].map XyzLine.render) [] = .ok D ∧
    D.get? ⟨2014, 1, 2, 3, 4, 5, 0⟩ = some [.fin 2, .fin 3, .fin 4] ∧ D.get? ⟨2014, 1, 2, 3, 4, 6, 0⟩ = none := by
  have := C39_contents [.comment [' '] (c% " x"), .blank [],
      .point ⟨2014, 1, 2, 3, 4, 5, 0⟩ [' '] ⟨1, 10⟩ [' ', '\t'] ⟨2, -325⟩ [' '] ⟨1, 0⟩ [' '] ['\n'],
      .point ⟨2014, 1, 2, 3, 4, 5, 0⟩ [' '] ⟨1, 20⟩ [' '] ⟨1, 30⟩ [' '] ⟨1, 40⟩ [' ', ' '] []] (by
    intro l hl
    simp only [List.mem_cons, List.not_mem_nil, or_false] at hl
    rcases hl with rfl | rfl | rfl | rfl
    · simp only [XyzLine.Ok, Blank]; decide
    · simp only [XyzLine.Ok, Blank]; decide
    · simp only [XyzLine.Ok, Blank, Legal, LegalDate]; decide
    · simp only [XyzLine.Ok, Blank, Legal, LegalDate]; decide)
  obtain ⟨D, h1, h2⟩ := this
  refine ⟨D, h1, ?_, ?_⟩
  · rw [h2]; decide +kernel
  · rw [h2]; decide +kernel

/-- C39: a point line with anything but the five fields is not skipped: leading white space aborts the reading. -/
theorem C39_leading_blank (ws : Str) (D : Dict DateTime (List PyFloat)) (more : List Str)
    (hw : Blank ws) (hne : ws ≠ []) (t : DateTime) (s0 s1 s2 s3 : Str) (x y z : Coord)
    (h0 : Blank s0 ∧ s0 ≠ []) (h1 : Blank s1 ∧ s1 ≠ []) (h2 : Blank s2 ∧ s2 ≠ []) (h3 : Blank s3 ∧ s3 ≠ []) :
    loadXyz ((ws ++ (XyzLine.point t s1 x s2 y s3 z s0 []).render) :: more) D = .error .value := by
  have hz : rstrip (ws ++ (XyzLine.point t s1 x s2 y s3 z s0 []).render) =
      ws ++ (dateText t ++ s0 ++ timeText t ++ s1 ++ x.text ++ s2 ++ y.text ++ s3 ++ z.text) := by
    have := rstrip_noSpace (a := ws ++ (dateText t ++ s0 ++ timeText t ++ s1 ++ x.text ++ s2 ++ y.text ++ s3)) (w := z.text) (tr := [])
      (coord_noSpace z) (coord_ne_nil z) (by intro c hc; cases hc)
    simpa [XyzLine.render] using this
  have hsp := splitSpaces_point t s1 x s2 y s3 s0 z.text h0 h1 h2 h3 (by
    have := head_noSpace (s := []) (coord_noSpace z) (coord_ne_nil z); simpa using this) (coord_ne_nil z)
  rw [splitSpaces_word_end (coord_noSpace z)] at hsp
  obtain ⟨c, r, hc, hd⟩ := date_head t
  have hl := splitSpaces_spaces (s := dateText t ++ s0 ++ timeText t ++ s1 ++ x.text ++ s2 ++ y.text ++ s3 ++ z.text) hw hne
    (by rw [hc]; intro a b e; simp only [List.cons_append, List.cons.injEq] at e; rw [← e.1]; exact isDigit_not_space hd)
    (by rw [hc]; simp)
  rw [hsp] at hl
  have hcom : reComment.accepts (ws ++ (dateText t ++ s0 ++ timeText t ++ s1 ++ x.text ++ s2 ++ y.text ++ s3 ++ z.text)) = false := by
    rw [Bool.eq_false_iff, ne_eq, reComment_accepts]
    rintro ⟨i, u, e, hi⟩
    rw [hc] at e
    simp only [List.cons_append] at e
    rcases List.append_eq_append_iff.1 e with ⟨a', e1, e2⟩ | ⟨a', e1, e2⟩
    · cases a' with
      | nil => simp only [List.nil_append, List.cons.injEq] at e2; exact isDigit_ne hd '#' (by decide) e2.1
      | cons b a' =>
        simp only [List.cons_append, List.cons.injEq] at e2
        have := hi c (by rw [e1, e2.1]; simp)
        rw [isDigit_not_space hd] at this; cases this
    · cases a' with
      | nil => simp only [List.nil_append, List.cons.injEq] at e2; exact isDigit_ne hd '#' (by decide) e2.1.symm
      | cons b a' =>
        simp only [List.cons_append, List.cons.injEq] at e2
        have := hw '#' (by rw [e1, ← e2.1]; simp)
        revert this; decide
  rw [loadXyz]
  unfold xyzLine
  simp only [hz, hcom, hl, Bool.false_eq_true, if_false]
  rw [if_neg]
  rw [hc]; simp

/-- C39: a comment after the coordinates aborts the reading too (only whole-line comments are comments). -/
theorem C39_inline_comment (more : List Str) (D : Dict DateTime (List PyFloat)) (t : DateTime) (s0 s1 s2 s3 s4 text : Str)
    (x y z : Coord) (h0 : Blank s0 ∧ s0 ≠ []) (h1 : Blank s1 ∧ s1 ≠ []) (h2 : Blank s2 ∧ s2 ≠ []) (h3 : Blank s3 ∧ s3 ≠ [])
    (h4 : Blank s4 ∧ s4 ≠ []) :
    loadXyz (((XyzLine.point t s1 x s2 y s3 z s0 s4).render ++ '#' :: text) :: more) D = .error .value := by
  have hz : rstrip ((XyzLine.point t s1 x s2 y s3 z s0 s4).render ++ '#' :: text) =
      dateText t ++ s0 ++ timeText t ++ s1 ++ x.text ++ s2 ++ y.text ++ s3 ++ (z.text ++ (s4 ++ '#' :: rstrip text)) := by
    have e : ∀ a : Str, rstrip (a ++ '#' :: text) = a ++ '#' :: rstrip text := by
      intro a
      by_cases ht : rstrip text = []
      · have hb := (rstrip_eq_nil_iff text).1 ht
        rw [ht, show a ++ '#' :: text = (a ++ ['#']) ++ text by simp, rstrip_append_space _ _ hb, rstrip_of_last _ _ (by decide)]
      · rw [show a ++ '#' :: text = (a ++ ['#']) ++ text by simp, rstrip_append_of_ne _ _ ht]; simp
    rw [e]; simp [XyzLine.render]
  have hsp := splitSpaces_point t s1 x s2 y s3 s0 (z.text ++ (s4 ++ '#' :: rstrip text)) h0 h1 h2 h3
    (head_noSpace (coord_noSpace z) (coord_ne_nil z)) (by simp [coord_ne_nil])
  rw [splitSpaces_word (coord_noSpace z) h4.1 h4.2 (by intro a b e; simp only [List.cons.injEq] at e; rw [← e.1]; decide) (by simp),
    splitSpaces_char _ (by decide)] at hsp
  obtain ⟨c, r, hc, hd⟩ := date_head t
  have hcom : reComment.accepts (dateText t ++ s0 ++ timeText t ++ s1 ++ x.text ++ s2 ++ y.text ++ s3 ++
      (z.text ++ (s4 ++ '#' :: rstrip text))) = false := by
    rw [hc]; simp only [List.cons_append]
    exact not_comment (isDigit_not_space hd) (isDigit_ne hd '#' (by decide))
  rw [loadXyz]
  unfold xyzLine
  simp only [hz, hcom, hsp, Bool.false_eq_true, if_false]
  rw [if_neg (by rw [hc]; simp)]
  cases splitSpaces (rstrip text) <;> rfl

example : loadXyz [c% "2014-01-02 03:04:05 1.0 2.0 3.0 # moved"] [] = .error .value := by
  have := C39_inline_comment [] [] ⟨2014, 1, 2, 3, 4, 5, 0⟩ [' '] [' '] [' '] [' '] [' '] (c% " moved") ⟨1, 10⟩ ⟨1, 20⟩ ⟨1, 30⟩
    (by unfold Blank; decide) (by unfold Blank; decide) (by unfold Blank; decide) (by unfold Blank; decide) (by unfold Blank; decide)
  rw [← this]; congr 2

/-! ## The name -/

theorem mark_length {hat : Bool} {e : Str} (h : Mark hat ('.' :: e)) : e.length = 3 := by
  rcases h with ⟨yy, t, e1, ⟨h2, -⟩, -⟩ | h
  · simp only [List.cons_append, List.cons.injEq, true_and] at e1; rw [e1]; simp [h2]
  · have := congrArg List.length h
    cases hat <;> simpa [lower] using this

theorem stem_unique {a b u v : Str} {h k : Bool} (ha : ObsStem a h) (hb : ObsStem b k) (e : a ++ u = b ++ v) : a = b := by
  obtain ⟨w, x, rfl, hw, -, hm⟩ := stem_shape ha
  obtain ⟨w', x', rfl, hw', -, hm'⟩ := stem_shape hb
  simp only [List.append_assoc, List.cons_append] at e
  obtain ⟨rfl, e2⟩ := words_dot hw hw' e
  obtain ⟨rfl, -⟩ := append_split (by rw [mark_length hm, mark_length hm']) e2
  rfl

theorem group1_stem {stem u : Str} {hat : Bool} (h : ObsStem stem hat) :
    ∃ k, reObsWoExt.match1 (stem ++ u) = some k ∧ k.group 1 = stem := by
  have key : ∀ P : Hit → Prop, reObsWoExt.Ex (stem ++ u) P ↔
      ∃ s' u' hat', stem ++ u = s' ++ u' ∧ ObsStem s' hat' ∧ P ⟨s', u', [(1, s')]⟩ := by
    intro P
    have := ex_stem (stem ++ u) (fun h => P { h with groups := (1, h.text) :: h.groups })
    rw [← this]
    simp only [reObsWoExt, Re.ex_grp, reAlt, Re.ex_alt]
  refine Re.match1_ex ?_ ?_
  · rw [Re.accepts_iff, key]; exact ⟨stem, u, hat, rfl, h, trivial⟩
  · intro k hk
    rw [Re.mem_run, key] at hk
    obtain ⟨s', u', hat', e, hs, rfl⟩ := hk
    have := stem_unique h hs e
    subst this
    rfl

/-- C39: the coordinate file looked up for an observation file is its name without the compression suffix, followed by `.xyz`, in
the same directory. -/
theorem C39_name (dir stem suffix : Str) (hat comp : Bool) (hs : ObsStem stem hat) (hx : ObsName (stem ++ suffix) hat comp)
    (hd : dir.getLast? ≠ some '/') :
    xyzName (stem ++ suffix) = some (stem ++ c% ".xyz") ∧
    xyzName (dir ++ '/' :: (stem ++ suffix)) = some (dir ++ '/' :: (stem ++ c% ".xyz")) := by
  have hn := (obsName_word hx).2
  obtain ⟨k, hk1, hk2⟩ := group1_stem (u := suffix) hs
  constructor
  · have hb : basename (stem ++ suffix) = stem ++ suffix := basename_of_last ⟨hn, Or.inl rfl⟩
    unfold xyzName
    simp only [hb, hk1, hk2, Option.map_some, Option.some.injEq]
    have : dirname (stem ++ suffix) = [] := by unfold dirname; rw [hb]; simp
    rw [this]; rfl
  · have hb : basename (dir ++ '/' :: (stem ++ suffix)) = stem ++ suffix := basename_of_last ⟨hn, Or.inr ⟨dir, rfl⟩⟩
    unfold xyzName
    simp only [hb, hk1, hk2, Option.map_some, Option.some.injEq]
    have ht : (dir ++ '/' :: (stem ++ suffix)).take ((dir ++ '/' :: (stem ++ suffix)).length - (stem ++ suffix).length) = dir ++ ['/'] := by
      rw [show dir ++ '/' :: (stem ++ suffix) = (dir ++ ['/']) ++ (stem ++ suffix) by simp]
      rw [List.length_append, Nat.add_sub_cancel]
      exact List.take_left
    have : joinPath (dirname (dir ++ '/' :: (stem ++ suffix))) stem = dir ++ '/' :: stem := by
      unfold dirname
      rw [hb]
      simp only [ht, List.reverse_append, List.reverse_cons, List.reverse_nil, List.nil_append, List.singleton_append]
      rcases List.eq_nil_or_concat dir with rfl | ⟨d, c, rfl⟩
      · rfl
      · have hc : c ≠ '/' := by simpa using hd
        simp only [List.concat_eq_append, List.reverse_append, List.reverse_cons, List.reverse_nil, List.nil_append, List.singleton_append]
        simp [hc, joinPath]
    rw [this]; simp

private theorem join_dir (dir name stem : Str) (hn : '/' ∉ name) (hd : dir.getLast? ≠ some '/') :
    joinPath (dirname (dir ++ '/' :: name)) stem = joinPath (dir ++ ['/']) stem := by
  have hb : basename (dir ++ '/' :: name) = name := basename_of_last ⟨hn, Or.inr ⟨dir, rfl⟩⟩
  have ht : (dir ++ '/' :: name).take ((dir ++ '/' :: name).length - name.length) = dir ++ ['/'] := by
    rw [show dir ++ '/' :: name = (dir ++ ['/']) ++ name by simp]
    rw [List.length_append, Nat.add_sub_cancel]
    exact List.take_left
  unfold dirname
  rw [hb]
  simp only [ht, List.reverse_append, List.reverse_cons, List.reverse_nil, List.nil_append, List.singleton_append]
  rcases List.eq_nil_or_concat dir with rfl | ⟨d, c, rfl⟩
  · rfl
  · have hc : c ≠ '/' := by simpa using hd
    simp only [List.concat_eq_append, List.reverse_append, List.reverse_cons, List.reverse_nil, List.nil_append, List.singleton_append]
    simp [hc, joinPath]

private theorem searchFrom_some {r : Re} {s : Str} {h : Hit} (hs : searchFrom r s = some h) : ∃ pre u, s = pre ++ u ∧ h ∈ r.run u := by
  induction s with
  | nil => exact ⟨[], [], rfl, Re.match1_some hs⟩
  | cons c s ih =>
    unfold searchFrom at hs
    split at hs
    · rename_i k hk
      cases hs
      exact ⟨[], c :: s, rfl, Re.match1_some hk⟩
    · obtain ⟨pre, u, e, hm⟩ := ih hs
      exact ⟨c :: pre, u, by rw [e]; rfl, hm⟩

/-- the stem has the long shape -/
private theorem modern_stem (s : Str) (P : Hit → Prop) (h : reModernObs.Ex s P) : ∃ t u hat, s = t ++ u ∧ ObsStem t hat ∧ P ⟨t, u, []⟩ :=
  (ex_stem s P).1 (.inr (.inr h))

private theorem stemOf_any (name : Str) :
    (∀ n, (match reObsWoExt.match1 name with
      | some h => some (h.group 1)
      | none => (searchFrom (.grp 1 reModernObs) (name.drop 1)).map (fun h : Hit => h.group 1)) = some n →
      ∃ pre post hat, name = pre ++ n ++ post ∧ ObsStem n hat) ∧
    ((match reObsWoExt.match1 name with
      | some h => some (h.group 1)
      | none => (searchFrom (.grp 1 reModernObs) (name.drop 1)).map (fun h : Hit => h.group 1)) = none →
      ∀ stem post hat, name = stem ++ post → ¬ ObsStem stem hat) := by
  constructor
  · intro n hn
    split at hn
    · rename_i h hh
      cases hn
      have hm := Re.match1_some hh
      rw [Re.mem_run] at hm
      simp only [reObsWoExt, Re.ex_grp, reAlt, Re.ex_alt] at hm
      obtain ⟨t, u, hat, e, hs, rfl⟩ := (ex_stem name _).1 hm
      exact ⟨[], u, hat, by simpa [Hit.group] using e, by simpa [Hit.group] using hs⟩
    · cases hf : searchFrom (.grp 1 reModernObs) (name.drop 1) with
      | none => rw [hf] at hn; cases hn
      | some h =>
        rw [hf] at hn
        cases hn
        obtain ⟨pre, u, e, hm⟩ := searchFrom_some hf
        rw [Re.mem_run, Re.ex_grp] at hm
        obtain ⟨t, v, hat, e2, hs, rfl⟩ := modern_stem u _ hm
        refine ⟨name.take 1 ++ pre, v, hat, ?_, by simpa [Hit.group] using hs⟩
        have := List.take_append_drop 1 name
        rw [e, e2] at this
        simpa [Hit.group] using this.symm
  · intro hn stem post hat e hs
    obtain ⟨k, hk, -⟩ := group1_stem (u := post) hs
    rw [e, hk] at hn
    cases hn

/-- C39, for any path: the coordinate file looked up is in the directory of the path, and is named `stem.xyz` where `stem`, a part of the last component, has one of the
shapes of the name of an observation file; when the last component begins with such a name a file is always looked up. -/
theorem C39_any (dir name : Str) (hn : '/' ∉ name) (hd : dir.getLast? ≠ some '/') :
    (∀ p, xyzName (dir ++ '/' :: name) = some p → ∃ pre stem post hat, name = pre ++ stem ++ post ∧ ObsStem stem hat ∧ p = dir ++ '/' :: (stem ++ c% ".xyz")) ∧
    (∀ p, xyzName name = some p → ∃ pre stem post hat, name = pre ++ stem ++ post ∧ ObsStem stem hat ∧ p = stem ++ c% ".xyz") ∧
    (xyzName (dir ++ '/' :: name) = none → ∀ stem post hat, name = stem ++ post → ¬ ObsStem stem hat) := by
  have hb : basename (dir ++ '/' :: name) = name := basename_of_last ⟨hn, Or.inr ⟨dir, rfl⟩⟩
  have hb2 : basename name = name := basename_of_last ⟨hn, Or.inl rfl⟩
  have hd2 : dirname name = [] := by unfold dirname; rw [hb2]; simp
  obtain ⟨s1, s2⟩ := stemOf_any name
  refine ⟨?_, ?_, ?_⟩
  · intro p hp
    unfold xyzName at hp
    simp only [hb, Option.map_eq_some_iff] at hp
    obtain ⟨n, h1, rfl⟩ := hp
    obtain ⟨pre, post, hat, e, hs⟩ := s1 n h1
    refine ⟨pre, n, post, hat, e, hs, ?_⟩
    rw [join_dir dir name n hn hd]
    unfold joinPath
    simp
  · intro p hp
    unfold xyzName at hp
    simp only [hb2, hd2, Option.map_eq_some_iff] at hp
    obtain ⟨n, h1, rfl⟩ := hp
    obtain ⟨pre, post, hat, e, hs⟩ := s1 n h1
    refine ⟨pre, n, post, hat, e, hs, ?_⟩
    unfold joinPath
    rw [if_pos rfl]
  · intro h
    unfold xyzName at h
    simp only [hb, Option.map_eq_none_iff] at h
    exact s2 h

/-- a long name behind a prefix, and a name that is not one of an observation file -/
theorem C39_any_example :
    xyzName (c% "d/old-ABCD00RUS_R_20150020000_01D_30S_MO.rnx.gz") = some (c% "d/ABCD00RUS_R_20150020000_01D_30S_MO.rnx.xyz") ∧
    xyzName (c% "d/x-abcd0020.15o") = none := by
  decide +kernel

example : xyzName (c% "/data/abcd0010.14o.gz") = some (c% "/data/abcd0010.14o.xyz") := by decide +kernel

end Verif.Props
