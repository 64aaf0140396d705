import Verif.Model.Config
import Verif.Spec.Config
import Verif.Proofs.Split
import Verif.Proofs.HeaderLines
/-!
# C48, C49: configuration files
-/
namespace Verif.Props
open Verif.Py Verif.Model Verif.Spec Verif.Proofs

private theorem takeWhile_all {p : Char → Bool} {a : Str} (h : ∀ c ∈ a, p c = true) (b : Str) :
    (a ++ b).takeWhile p = a ++ b.takeWhile p := by
  induction a with
  | nil => rfl
  | cons c a ih =>
    simp only [List.cons_append, List.takeWhile_cons, h c (by simp), if_true]
    rw [ih fun x hx => h x (by simp [hx])]

theorem dropComment_none {a : Str} (h : ∀ c ∈ a, c ≠ '#') : dropComment a = a := by
  have := takeWhile_all (p := (· != '#')) (a := a) (fun c hc => by simpa using h c hc) []
  simpa [dropComment] using this

theorem dropComment_some {a : Str} (h : ∀ c ∈ a, c ≠ '#') (r : Str) : dropComment (a ++ '#' :: r) = a := by
  have := takeWhile_all (p := (· != '#')) (a := a) (fun c hc => by simpa using h c hc) ('#' :: r)
  simpa [dropComment] using this

private theorem hash_solid : isSpace '#' = false := by decide
private theorem eq_solid : isSpace '=' = false := by decide

/-- `rstrip` does not touch what is in front of a visible character -/
theorem rstrip_keep_mid (a : Str) (c : Char) (b : Str) (hc : isSpace c = false) :
    rstrip (a ++ c :: b) = a ++ c :: rstrip b := by
  have h1 : rstrip (c :: b) = c :: rstrip b := by
    rw [rstrip]
    cases h : rstrip b with
    | nil => simp [hc]
    | cons => rfl
  rw [rstrip_append_of_ne _ _ (by rw [h1]; simp), h1]

theorem splitOn_length (sep : Char) (s : Str) : (splitOn sep s).length = s.count sep + 1 := by
  induction s with
  | nil => rfl
  | cons c s ih =>
    simp only [splitOn]
    by_cases h : c = sep
    · subst h; simp [ih]
    · simp only [h, if_false]
      rw [List.count_cons_of_ne (by simpa using h)]
      split
      · rename_i h2; rw [h2] at ih; simp at ih
      · rename_i h2; rw [h2] at ih; simpa using ih

private theorem cfgValue_strip {v c d : Str} (hv : CfgValue v) (hc : Blank c) (hd : Blank d) : strip (c ++ v ++ d) = v := by
  cases v with
  | nil =>
    have : strip (c ++ [] ++ d) = strip (c ++ d) := by simp
    rw [this, strip_append_space _ _ hd, ← List.append_nil c, strip_prepend_space _ _ hc]; rfl
  | cons x v =>
    refine strip_pad ⟨⟨x, v, rfl, hv.2.1 x rfl⟩, ?_⟩ hc hd
    rcases List.eq_nil_or_concat (x :: v) with h | ⟨r, y, h⟩
    · simp at h
    · refine ⟨r, y, by rw [h, List.concat_eq_append], hv.2.2 y ?_⟩
      rw [h]; simp

private theorem strip_rstrip (s : Str) : strip (rstrip s) = strip s := by
  unfold strip; rw [rstrip_idem]

private theorem removeSpaces_name {a n b : Str} (ha : Blank a) (hn : CfgName n) (hb : Blank b) : removeSpaces (a ++ n ++ b) = n := by
  have h1 : ∀ {s : Str}, Blank s → removeSpaces s = [] := by
    intro s hs; simp only [removeSpaces, List.filter_eq_nil_iff]; intro c hc; simp [hs c hc]
  have h2 : removeSpaces n = n := by
    simp only [removeSpaces, List.filter_eq_self]; intro c hc; simp [(hn c hc).1]
  simp only [removeSpaces, List.filter_append] at *
  rw [h1 ha, h1 hb, h2]; simp

private theorem blank_ne {s : Str} (h : Blank s) (x : Char) (hx : isSpace x = false) : ∀ c ∈ s, c ≠ x := by
  intro c hc e; subst e; rw [h c hc] at hx; cases hx

private theorem cfgLine_parts {L R v : Str} {n : Str} (hL : ∀ c ∈ L, c ≠ '=') (hR : ∀ c ∈ R, c ≠ '=')
    (hn : removeSpaces L = n) (hv : strip R = v) (line : Str) (h : dropComment (rstrip line) = L ++ '=' :: R) :
    cfgLine line = .ok (some (n, v)) := by
  unfold cfgLine
  simp only [h]
  rw [splitOn_append _ hL, splitOn_none hR]
  have : (L ++ '=' :: R).length ≠ 0 := by simp
  simp only [this, if_false, hn, hv]

/-- how the reader takes a well-formed line -/
theorem cfgLine_item (i : CfgItem) (e : Str) (hi : i.Ok) (he : Blank e) :
    cfgLine (i.text ++ e) = .ok (match i with
      | .assign _ n _ _ v _ _ => some (n, v)
      | _ => none) := by
  cases i with
  | blank ws =>
    have : rstrip (ws ++ e) = [] := by rw [rstrip_eq_nil_iff]; intro c hc; rcases List.mem_append.1 hc with h | h; exact hi c h; exact he c h
    simp [cfgLine, CfgItem.text, this, dropComment]
  | comment t =>
    have : rstrip (('#' :: t) ++ e) = '#' :: rstrip (t ++ e) := rstrip_keep_mid [] '#' (t ++ e) hash_solid
    simp only [cfgLine, CfgItem.text, this]
    simp [dropComment]
  | assign a n b c v d r =>
    obtain ⟨ha, hn, hb, hc, hv, hd⟩ := hi
    have hL : ∀ x ∈ a ++ n ++ b, x ≠ '=' := by
      intro x hx
      rcases List.mem_append.1 hx with h | h
      · rcases List.mem_append.1 h with h | h
        · exact blank_ne ha '=' eq_solid x h
        · exact (hn x h).2.1
      · exact blank_ne hb '=' eq_solid x h
    have hLh : ∀ x ∈ a ++ n ++ b, x ≠ '#' := by
      intro x hx
      rcases List.mem_append.1 hx with h | h
      · rcases List.mem_append.1 h with h | h
        · exact blank_ne ha '#' hash_solid x h
        · exact (hn x h).2.2
      · exact blank_ne hb '#' hash_solid x h
    have hR : ∀ x ∈ c ++ v ++ d, x ≠ '=' := by
      intro x hx
      rcases List.mem_append.1 hx with h | h
      · rcases List.mem_append.1 h with h | h
        · exact blank_ne hc '=' eq_solid x h
        · exact (hv.1 x h).1
      · exact blank_ne hd '=' eq_solid x h
    have hRh : ∀ x ∈ c ++ v ++ d, x ≠ '#' := by
      intro x hx
      rcases List.mem_append.1 hx with h | h
      · rcases List.mem_append.1 h with h | h
        · exact blank_ne hc '#' hash_solid x h
        · exact (hv.1 x h).2
      · exact blank_ne hd '#' hash_solid x h
    have hname := removeSpaces_name ha hn hb
    have hval := cfgValue_strip hv hc hd
    cases r with
    | none =>
      have hrs : rstrip ((a ++ n ++ b ++ '=' :: (c ++ v ++ d)) ++ e) = a ++ n ++ b ++ '=' :: rstrip (c ++ v ++ d) := by
        rw [rstrip_append_space _ _ he, rstrip_keep_mid _ _ _ eq_solid]
      have hsub : ∀ x ∈ rstrip (c ++ v ++ d), x ∈ c ++ v ++ d := by
        intro x hx
        obtain ⟨t, ht, _⟩ := rstrip_decomp (c ++ v ++ d)
        rw [ht]; exact List.mem_append_left _ hx
      refine cfgLine_parts hL (R := rstrip (c ++ v ++ d)) (fun x hx => hR x (hsub x hx)) hname (by rw [strip_rstrip, hval]) _ ?_
      simp only [CfgItem.text]
      rw [hrs]
      apply dropComment_none
      intro x hx
      rcases List.mem_append.1 hx with h | h
      · exact hLh x h
      · rcases List.mem_cons.1 h with rfl | h
        · decide
        · exact hRh x (hsub x h)
    | some r =>
      refine cfgLine_parts hL (R := c ++ v ++ d) hR hname hval _ ?_
      simp only [CfgItem.text]
      have : rstrip ((a ++ n ++ b ++ '=' :: (c ++ v ++ d) ++ '#' :: r) ++ e) = a ++ n ++ b ++ '=' :: (c ++ v ++ d) ++ '#' :: rstrip (r ++ e) := by
        rw [List.append_assoc, List.cons_append, rstrip_keep_mid _ _ _ hash_solid]
      rw [this]
      apply dropComment_some
      intro x hx
      rcases List.mem_append.1 hx with h | h
      · exact hLh x h
      · rcases List.mem_cons.1 h with rfl | h
        · decide
        · exact hRh x h

private theorem cfgLoop_items : ∀ (items : List CfgItem) (lines : List Str) (d : Dict Str CfgVal), CfgWritten items lines →
    ∃ d', cfgLoop lines d = .ok d' ∧ d'.keys = d.keys ∧
      (∀ n v, n ∈ d.keys → LastValue items n v → d'.get? n = some (.str v)) ∧
      (∀ n, (∀ v, ¬ LastValue items n v) → d'.get? n = d.get? n) := by
  intro items lines d hw
  induction hw generalizing d with
  | nil => exact ⟨d, rfl, rfl, fun n v _ ⟨pre, i, post, h, _⟩ => by simp at h, fun _ _ => rfl⟩
  | cons i e is ls hi he hw ih =>
    have hl := cfgLine_item i e hi he
    -- the rest of the file, started from `d1`
    have key : ∀ d1 : Dict Str CfgVal, d1.keys = d.keys →
        (∀ n v, n ∈ d.keys → i.Sets n v → d1.get? n = some (.str v)) →
        (∀ n, (∀ v, ¬ i.Sets n v) → d1.get? n = d.get? n) →
        ∃ d', cfgLoop ls d1 = .ok d' ∧ d'.keys = d.keys ∧
          (∀ n v, n ∈ d.keys → LastValue (i :: is) n v → d'.get? n = some (.str v)) ∧
          (∀ n, (∀ v, ¬ LastValue (i :: is) n v) → d'.get? n = d.get? n) := by
      intro d1 hk h1 h2
      obtain ⟨d', h3, h4, h5, h6⟩ := ih d1
      refine ⟨d', h3, h4.trans hk, ?_, ?_⟩
      · rintro n v hn ⟨pre, j, post, hs, hj, hp⟩
        cases pre with
        | nil =>
          simp only [List.nil_append, List.cons.injEq] at hs
          obtain ⟨rfl, rfl⟩ := hs
          rw [h6 n ?_]
          · exact h1 n v hn hj
          · rintro w ⟨p, k, q, e, hk2, _⟩
            exact hp k (by rw [e]; simp) w hk2
        | cons p pre =>
          simp only [List.cons_append, List.cons.injEq] at hs
          obtain ⟨rfl, rfl⟩ := hs
          exact h5 n v (by rw [hk]; exact hn) ⟨pre, j, post, rfl, hj, hp⟩
      · intro n hno
        have hrest : ∀ v, ¬ LastValue is n v := by
          rintro v ⟨pre, j, post, rfl, hj, hp⟩
          exact hno v ⟨i :: pre, j, post, rfl, hj, hp⟩
        rw [h6 n hrest]
        apply h2
        intro v hv
        apply hno v
        refine ⟨[], i, is, rfl, hv, ?_⟩
        intro j hj w hjw
        -- some item of the rest sets `n`: then there is a last one
        have : ∀ (l : List CfgItem), (∃ j ∈ l, ∃ w, j.Sets n w) → ∃ w, LastValue l n w := by
          intro l
          induction l with
          | nil => rintro ⟨j, hj, _⟩; simp at hj
          | cons k l ihl =>
            rintro ⟨j, hj, w, hw⟩
            by_cases hl : ∃ j ∈ l, ∃ w, j.Sets n w
            · obtain ⟨w, pre, m, post, rfl, a, b⟩ := ihl hl
              exact ⟨w, k :: pre, m, post, rfl, a, b⟩
            · rcases List.mem_cons.1 hj with rfl | hj
              · exact ⟨w, [], j, l, rfl, hw, fun m hm w' h' => hl ⟨m, hm, w', h'⟩⟩
              · exact absurd ⟨j, hj, w, hw⟩ hl
        obtain ⟨w', hw'⟩ := this is ⟨j, hj, w, hjw⟩
        exact hrest w' hw'
    simp only [cfgLoop, hl]
    cases i with
    | blank ws =>
      exact key d rfl (fun n v _ h => by obtain ⟨_, _, _, _, _, _, h⟩ := h; cases h) (fun _ _ => rfl)
    | comment t =>
      exact key d rfl (fun n v _ h => by obtain ⟨_, _, _, _, _, _, h⟩ := h; cases h) (fun _ _ => rfl)
    | assign a m b c v d0 r =>
      dsimp only
      by_cases hv : v.length ≠ 0
      · rw [if_pos hv]
        by_cases hm : d.has m = true
        · rw [if_pos hm]
          have hmk : m ∈ d.keys := (Dict.get?_isSome_iff d m).1 hm
          refine key _ ?_ ?_ ?_
          · exact (Dict.keys_set_of_mem d m _ hmk)
          · rintro n w hn ⟨hw, a', b', c', d', r', h⟩
            injection h with _ h1 _ _ h2 _ _
            subst h1 h2
            rw [Dict.get?_set, if_pos rfl]
          · intro n hn
            rw [Dict.get?_set, if_neg]
            rintro rfl
            exact hn v ⟨by rintro rfl; simp at hv, a, b, c, d0, r, rfl⟩
        · rw [if_neg hm]
          have hmk : m ∉ d.keys := fun h => hm ((Dict.get?_isSome_iff d m).2 h)
          refine key d rfl ?_ (fun _ _ => rfl)
          rintro n w hn ⟨hw, a', b', c', d', r', h⟩
          injection h with _ h1 _ _ h2 _ _
          subst h1
          exact absurd hn hmk
      · rw [if_neg hv]
        refine key d rfl ?_ (fun _ _ => rfl)
        rintro n w hn ⟨hw, a', b', c', d', r', h⟩
        injection h with _ h1 _ _ h2 _ _
        subst h2
        exact absurd (List.length_eq_zero_iff.1 (not_not.1 hv)) hw

/-- Every configuration file made of blank lines, comments and assignments is read as exactly its settings: a known name has the last non-empty value
given to it; names without one keep their default; unknown names do not appear. -/
theorem C48_settings (filename : Str) (items : List CfgItem) (lines : List Str) (h : CfgWritten items lines) :
    ∃ d, readSettings filename (some lines) = .ok d ∧
      (∀ n v, n ∈ DEFAULTS.keys → LastValue items n v → d.get? n = some (.str v)) ∧
      (∀ n, (∀ v, ¬ LastValue items n v) → n ≠ c% "cfg_file" → d.get? n = DEFAULTS.get? n) ∧
      ((∀ v, ¬ LastValue items (c% "cfg_file") v) → d.get? (c% "cfg_file") = some (.str filename)) ∧
      (∀ n, n ∉ DEFAULTS.keys → d.get? n = none) := by
  have hmem : c% "cfg_file" ∈ DEFAULTS.keys := by decide
  have hk : (DEFAULTS.set (c% "cfg_file") (.str filename)).keys = DEFAULTS.keys := Dict.keys_set_of_mem _ _ _ hmem
  obtain ⟨d, h1, h2, h3, h4⟩ := cfgLoop_items items lines (DEFAULTS.set (c% "cfg_file") (.str filename)) h
  refine ⟨d, h1, fun n v hn => h3 n v (by rw [hk]; exact hn), ?_, ?_, ?_⟩
  · intro n hn hne
    rw [h4 n hn, Dict.get?_set, if_neg (fun h => hne h.symm)]
  · intro hn
    rw [h4 _ hn, Dict.get?_set, if_pos rfl]
  · intro n hn
    cases hg : d.get? n with
    | none => rfl
    | some v =>
      exfalso; apply hn
      rw [← hk, ← h2]
      exact (Dict.get?_isSome_iff d n).1 (by rw [hg]; rfl)

/-! ### unreadable lines -/

private theorem cfgBad_iff (l : Str) : CfgBad l ↔
    (dropComment (rstrip l)) ≠ [] ∧ (dropComment (rstrip l)).count '=' ≠ 1 := by
  constructor
  · rintro ⟨p, q, e, rfl, he, hlast, hp, hq, hpn, hc⟩
    have hr : rstrip (p ++ q ++ e) = p ++ q := by
      rw [rstrip_append_space _ _ he]
      rcases List.eq_nil_or_concat (p ++ q) with h | ⟨r, y, h⟩
      · rw [h]; rfl
      · rw [List.concat_eq_append] at h
        rw [h]; exact rstrip_of_last r y (hlast y (by rw [h]; simp))
    have hd : dropComment (p ++ q) = p := by
      rcases hq with rfl | hq
      · rw [List.append_nil]; exact dropComment_none hp
      · cases q with
        | nil => simp at hq
        | cons c q => simp only [List.head?_cons, Option.some.injEq] at hq; subst hq; exact dropComment_some hp q
    rw [hr, hd]; exact ⟨hpn, hc⟩
  · rintro ⟨h1, h2⟩
    obtain ⟨e, he, hb⟩ := rstrip_decomp l
    refine ⟨dropComment (rstrip l), (rstrip l).dropWhile (· != '#'), e, ?_, hb, ?_, ?_, ?_, h1, h2⟩
    · rw [dropComment, List.takeWhile_append_dropWhile]; exact he
    · rw [dropComment, List.takeWhile_append_dropWhile]
      intro c hc
      by_contra hs
      have hs : isSpace c = true := by simpa using hs
      rcases List.eq_nil_or_concat (rstrip l) with h | ⟨r, y, h⟩
      · rw [h] at hc; simp at hc
      · rw [List.concat_eq_append] at h
        rw [h] at hc; simp at hc; subst hc
        have h5 : rstrip (r ++ [y]) = rstrip r := rstrip_append_space r [y] (by simpa using hs)
        have h6 := rstrip_idem l
        rw [h] at h6
        have h7 := rstrip_length_le r
        rw [← h5, h6] at h7
        simp at h7
    · intro c hc
      have h9 : ((rstrip l).takeWhile (· != '#')).all (· != '#') = true := List.all_takeWhile
      have := List.all_eq_true.1 h9 c hc
      simpa using this
    · by_cases h : (rstrip l).dropWhile (· != '#') = []
      · exact .inl h
      · right
        have := List.head_dropWhile_not (fun x => x != '#') h
        rw [List.head?_eq_some_head h]
        simpa using this

private theorem cfgLine_error (l : Str) : (CfgBad l → cfgLine l = .error .value) ∧ (¬ CfgBad l → ∃ r, cfgLine l = .ok r) := by
  rw [cfgBad_iff]
  unfold cfgLine
  dsimp only
  by_cases h0 : dropComment (rstrip l) = []
  · refine ⟨fun h => absurd h0 h.1, fun _ => ⟨none, by simp [h0]⟩⟩
  · have hlen : ¬ (dropComment (rstrip l)).length = 0 := by simpa using h0
    rw [if_neg hlen]
    have hs := splitOn_length '=' (dropComment (rstrip l))
    refine ⟨fun h => ?_, fun h => ?_⟩
    · split
      · rename_i h2; rw [h2] at hs; simp only [List.length_cons, List.length_nil] at hs; exact absurd (by omega) h.2
      · rfl
    · have h1 : (dropComment (rstrip l)).count '=' = 1 := by
        by_contra hne; exact h ⟨h0, hne⟩
      rw [h1] at hs
      match hsp : splitOn '=' (dropComment (rstrip l)), hs with
      | [a, b], _ => exact ⟨_, rfl⟩

/-- Any file at all: reading fails with ValueError iff it contains an unreadable line; otherwise it succeeds. -/
theorem C48_unreadable (filename : Str) (lines : List Str) :
    ((∃ l ∈ lines, CfgBad l) → readSettings filename (some lines) = .error .value) ∧
    ((∀ l ∈ lines, ¬ CfgBad l) → ∃ d, readSettings filename (some lines) = .ok d) := by
  simp only [readSettings]
  generalize DEFAULTS.set (c% "cfg_file") (.str filename) = d
  induction lines generalizing d with
  | nil => exact ⟨by simp, fun _ => ⟨d, rfl⟩⟩
  | cons l ls ih =>
    simp only [cfgLoop]
    by_cases hb : CfgBad l
    · rw [(cfgLine_error l).1 hb]
      exact ⟨fun _ => rfl, fun h => absurd hb (h l (by simp))⟩
    · obtain ⟨r, hr⟩ := (cfgLine_error l).2 hb
      rw [hr]
      have h1 : (∃ l' ∈ l :: ls, CfgBad l') → ∃ l' ∈ ls, CfgBad l' := by
        rintro ⟨l', h, hl'⟩
        rcases List.mem_cons.1 h with rfl | h
        · exact absurd hl' hb
        · exact ⟨l', h, hl'⟩
      have h2 : (∀ l' ∈ l :: ls, ¬ CfgBad l') → ∀ l' ∈ ls, ¬ CfgBad l' := fun h l' hl' => h l' (by simp [hl'])
      rcases r with _ | ⟨name, val⟩
      · exact ⟨fun h => (ih d).1 (h1 h), fun h => (ih d).2 (h2 h)⟩
      · dsimp only
        split
        · split
          · exact ⟨fun h => (ih _).1 (h1 h), fun h => (ih _).2 (h2 h)⟩
          · exact ⟨fun h => (ih _).1 (h1 h), fun h => (ih _).2 (h2 h)⟩
        · exact ⟨fun h => (ih _).1 (h1 h), fun h => (ih _).2 (h2 h)⟩

/-- The three usual shapes: a comment that does not start in column one, a line without `=`, a value containing `=`. -/
theorem C48_bad_shapes :
    (∀ ws t : Str, Blank ws → ws ≠ [] → CfgBad (ws ++ '#' :: t ++ ['\n'])) ∧
    (∀ w : Str, Solid w → (∀ c ∈ w, c ≠ '#' ∧ c ≠ '=') → CfgBad (w ++ ['\n'])) ∧
    (∀ n a b : Str, (∀ c ∈ n ++ a ++ b, c ≠ '#') → CfgBad (n ++ '=' :: a ++ '=' :: b ++ ['\n'])) := by
  refine ⟨?_, ?_, ?_⟩
  · intro ws t hws hne
    rw [cfgBad_iff]
    have : rstrip (ws ++ '#' :: t ++ ['\n']) = ws ++ '#' :: rstrip (t ++ ['\n']) := by
      rw [List.append_assoc, List.cons_append, rstrip_keep_mid _ _ _ hash_solid]
    rw [this, dropComment_some (blank_ne hws '#' hash_solid)]
    refine ⟨hne, ?_⟩
    have : ws.count '=' = 0 := List.count_eq_zero.2 fun h => blank_ne hws '=' eq_solid _ h rfl
    omega
  · intro w hw hc
    rw [cfgBad_iff, rstrip_append_space _ _ (by decide : ∀ c ∈ ['\n'], isSpace c = true), hw.rstrip,
      dropComment_none (fun c h => (hc c h).1)]
    refine ⟨hw.ne_nil, ?_⟩
    have : w.count '=' = 0 := List.count_eq_zero.2 fun h => (hc _ h).2 rfl
    omega
  · intro n a b hc
    rw [cfgBad_iff, rstrip_append_space _ _ (by decide : ∀ c ∈ ['\n'], isSpace c = true), rstrip_keep_mid _ _ _ eq_solid]
    have hsub : ∀ x ∈ rstrip b, x ∈ b := by
      intro x hx
      obtain ⟨t, ht, _⟩ := rstrip_decomp b
      rw [ht]; exact List.mem_append_left _ hx
    rw [dropComment_none]
    · refine ⟨by simp, ?_⟩
      simp only [List.count_append, List.count_cons_self]
      omega
    · intro x hx
      simp only [List.mem_append, List.mem_cons] at hx hc
      rcases hx with (h | rfl | h) | rfl | h
      · exact hc x (.inl (.inl h))
      · decide
      · exact hc x (.inl (.inr h))
      · decide
      · exact hc x (.inr (hsub x h))

/-! ### the values of the settings -/

private theorem getStr_denotes (ev : Str → Except PyErr Str) (hev : EvalsLiterals ev) (s t : Str) (h : Denotes s t) : getStr ev s = .ok t := by
  obtain ⟨ht, rfl | ⟨q, hq, rfl⟩⟩ := h
  · have : isQuoted s = false := by
      cases s with
      | nil => rfl
      | cons c s => have := ht c (by simp); simp [isQuoted, isQuote, this.1, this.2.1]
    simp [getStr, this]
  · have : isQuoted (q :: t ++ [q]) = true := by
      rcases hq with rfl | rfl <;> simp [isQuoted, isQuote]
    simp only [getStr, this, if_true]
    exact hev q t hq ht

theorem listed_split {text : Str} {pieces : List Str} (h : Listed text pieces) : splitOn ',' text = pieces := by
  obtain ⟨hne, hp, rfl⟩ := h
  induction pieces with
  | nil => exact absurd rfl hne
  | cons p ps ih =>
    cases ps with
    | nil => simp only [List.intercalate, List.intersperse, List.flatten_cons, List.flatten_nil, List.append_nil]
             exact splitOn_none (hp p (by simp))
    | cons p2 ps =>
      have e : List.intercalate [','] (p :: p2 :: ps) = p ++ ',' :: List.intercalate [','] (p2 :: ps) := by
        simp [List.intercalate, List.intersperse]
      rw [e, splitOn_append _ (hp p (by simp)), ih (by simp) (fun q hq => hp q (by simp [hq]))]

theorem listed_map {text : Str} {pieces : List Str} (f : Str → Str) (hf : ∀ a b, f (a ++ b) = f a ++ f b)
    (hcomma : f [','] = [',']) (hno : ∀ p ∈ pieces, ∀ c ∈ f p, c ≠ ',') (h : Listed text pieces) :
    Listed (f text) (pieces.map f) := by
  obtain ⟨hne, hp, rfl⟩ := h
  refine ⟨by simpa using hne, ?_, ?_⟩
  · intro q hq
    obtain ⟨p, hp', rfl⟩ := List.mem_map.1 hq
    exact hno p hp'
  · clear hno
    induction pieces with
    | nil => exact absurd rfl hne
    | cons p ps ih =>
      cases ps with
      | nil => simp [List.intercalate, List.intersperse]
      | cons p2 ps =>
        have e : ∀ (x y : Str) (l : List Str), List.intercalate [','] (x :: y :: l) = x ++ ([','] ++ List.intercalate [','] (y :: l)) := by
          intro x y l; simp [List.intercalate, List.intersperse]
        rw [e, hf, hf, hcomma, ih (by simp) (fun q hq => hp q (by simp [hq]))]
        simp only [List.map_cons]
        rw [e]

private theorem lower_append (a b : Str) : lower (a ++ b) = lower a ++ lower b := by simp [lower]
theorem removeSpaces_append (a b : Str) : removeSpaces (a ++ b) = removeSpaces a ++ removeSpaces b := by simp [removeSpaces]

private theorem lowerC_comma (c : Char) (h : lowerC c = ',') : c = ',' := by
  unfold lowerC at h
  split at h
  · rename_i hc
    have h2 : (Char.ofNat (c.toNat + 32)).toNat = 44 := by rw [h]; rfl
    have h3 : (Char.ofNat (c.toNat + 32)).toNat = c.toNat + 32 := by
      have hv : (c.toNat + 32).isValidChar := by left; omega
      unfold Char.ofNat
      rw [dif_pos hv]
      rfl
    omega
  · exact h

private theorem sampling_exact (q : Rat) (hq : 0 ≤ q) (n : Int) (hn : q * 1000000 = n) :
    sec2secMs (.fin q) = .ok (n / 1000000, n % 1000000) := by
  have hn0 : 0 ≤ n := by
    have : (0 : Rat) ≤ n := by rw [← hn]; positivity
    exact_mod_cast this
  have hq2 : q = (n : Rat) / 1000000 := by rw [← hn]; field_simp
  have hf : truncRat q = n / 1000000 := by
    have h1 : n / 1000000 * 1000000 ≤ n := by omega
    have h2 : n < (n / 1000000 + 1) * 1000000 := by omega
    have h1' : ((n / 1000000 : Int) : Rat) * 1000000 ≤ n := by exact_mod_cast h1
    have h2' : (n : Rat) < (((n / 1000000 : Int) : Rat) + 1) * 1000000 := by exact_mod_cast h2
    apply truncRat_eq
    · rw [hq2]; rw [le_div_iff₀ (by norm_num)]; exact h1'
    · rw [hq2]; rw [div_lt_iff₀ (by norm_num)]; exact h2'
    · omega
  have hus : (q - (truncRat q : Int)) * 1000000 = ((n % 1000000 : Int) : Rat) := by
    rw [hf, sub_mul, hn]
    have := Int.emod_add_mul_ediv n 1000000
    have h2 : ((n % 1000000 : Int) : Rat) + 1000000 * ((n / 1000000 : Int) : Rat) = n := by exact_mod_cast this
    linarith
  have hr : ∀ m : Int, 0 ≤ m → truncRat (roundDec 1 (m : Rat)) = m := by
    intro m hm
    have h1 : roundHalfEven ((m : Rat) * 10 ^ 1) = m * 10 := by
      have e : ((m : Rat) * 10 ^ 1) = ((m * 10 : Int) : Rat) := by push_cast; ring
      rw [e]
      exact roundHalfEven_int _
    unfold roundDec
    rw [h1]
    have e : (((m * 10 : Int) : Rat) / 10 ^ 1) = (m : Rat) := by push_cast; field_simp
    rw [e, truncRat_int]
  simp only [sec2secMs, secSplitWith, hus]
  rw [hr _ (Int.emod_nonneg _ (by norm_num)), hf]

/-- From the settings to the configuration.  The texts of the settings denote what the user means: the log level in any letter case; the columns as a
comma-separated list in any case with any white space, each naming a column; output directory and date format, plain or quoted; the interval as a decimal number
of seconds with at most six decimals. -/
theorem C48_values (ev : Str → Except PyErr Str) (hev : EvalsLiterals ev) (dtLen : Str → Nat) (filename : Str) (lines : List Str) (d : Dict Str CfgVal)
    (hd : readSettings filename (some lines) = .ok d)
    (lvl : Str) (hlvl : d.get? (c% "logLevel") = some (.str lvl))
    (hlvl2 : upper lvl ∈ [c% "DEBUG", c% "INFO", c% "WARNING", c% "ERROR", c% "CRITICAL"])
    (rf rft : Str) (hrf : d.get? (c% "recFields") = some (.str rf)) (hrf2 : Denotes rf rft) (pieces : List Str) (hrf3 : Listed rft pieces)
    (hcols : ∀ p ∈ pieces, removeSpaces (lower p) ∈ (formatDef 0).keys)
    (od odt : Str) (hod : d.get? (c% "outDir") = some (.str od)) (hod2 : Denotes od odt)
    (df dft : Str) (hdf : d.get? (c% "datetimeFormat") = some (.str df)) (hdf2 : Denotes df dft)
    (hmode : d.get? (c% "outFileMode") = some (.str (c% "text")))
    (ign : Str) (hign : d.get? (c% "navIgnoreAbsence") = some (.str ign))
    (si : Str) (hsi : d.get? (c% "samplingInterval") = some (.str si)) (q : Rat) (hq : 0 ≤ q) (n : Int) (hqn : q * 1000000 = n)
    (hsi2 : pyFloat si = .ok (.fin q)) :
    ∃ cfg, readCfg ev dtLen filename (some lines) = .ok cfg ∧
      cfg.logLevel = upper lvl ∧
      cfg.recFields = pieces.map (fun p => removeSpaces (lower p)) ∧
      cfg.outDir = odt ∧ cfg.datetimeFormat = dft ∧
      (cfg.navIgnoreAbsence = true ↔ lower (ign.take 4) = c% "true") ∧
      cfg.samplingInterval = (if q = 0 then none else some n) := by
  have tx : ∀ nm v, d.get? nm = some (.str v) → textOf d nm = v := by intro nm v h; simp [textOf, h]
  -- the columns
  have hl1 : Listed (lower rft) (pieces.map lower) := by
    refine listed_map lower lower_append (by decide) ?_ hrf3
    intro p hp c hc he
    obtain ⟨x, hx, rfl⟩ := List.mem_map.1 hc
    exact hrf3.2.1 p hp x hx (lowerC_comma x he)
  have hl2 : Listed (removeSpaces (lower rft)) ((pieces.map lower).map removeSpaces) := by
    refine listed_map removeSpaces removeSpaces_append (by decide) ?_ hl1
    intro p hp c hc
    exact hl1.2.1 p hp c (List.mem_filter.1 hc).1
  have hfields := listed_split hl2
  have hkeys : (formatDef (dtLen dft)).keys = (formatDef 0).keys := rfl
  have hall : c% "all" ∉ (pieces.map lower).map removeSpaces := by
    intro h
    simp only [List.map_map, List.mem_map, Function.comp] at h
    obtain ⟨p, hp, he⟩ := h
    have := hcols p hp
    rw [he] at this
    revert this; decide
  have hcomp : ∃ r f, composeRecFormat (formatDef (dtLen dft)) ((pieces.map lower).map removeSpaces) =
      .ok ((pieces.map lower).map removeSpaces, r, f) := by
    have hk : ∀ x ∈ (pieces.map lower).map removeSpaces, ∃ c, (formatDef (dtLen dft)).get? x = some c := by
      intro x hx
      rw [List.map_map] at hx
      obtain ⟨p, hp, rfl⟩ := List.mem_map.1 hx
      have := hcols p hp
      rw [← hkeys] at this
      exact Option.isSome_iff_exists.1 ((Dict.get?_isSome_iff _ _).2 this)
    have hrest : ∀ (is : List Str) (r f : Str), (∀ x ∈ is, ∃ c, (formatDef (dtLen dft)).get? x = some c) →
        ∃ r' f', composeRest (formatDef (dtLen dft)) is r f = .ok (r', f') := by
      intro is
      induction is with
      | nil => intro r f _; exact ⟨r, f, rfl⟩
      | cons i is ih =>
        intro r f h
        obtain ⟨c, hc⟩ := h i (by simp)
        simp only [composeRest, hc]
        exact ih _ _ (fun x hx => h x (by simp [hx]))
    unfold composeRecFormat
    simp only [hall, if_false]
    match hm : (pieces.map lower).map removeSpaces, hl2.1 with
    | first :: rest, _ =>
      rw [hm] at hk
      obtain ⟨c, hc⟩ := hk first (by simp)
      obtain ⟨r', f', hrf'⟩ := hrest rest c.fmt c.fortran (fun x hx => hk x (by simp [hx]))
      simp only [hc, hrf']
      exact ⟨_, _, rfl⟩
  obtain ⟨r, f, hcomp⟩ := hcomp
  have hod3 : getPath ev od = .ok odt := by
    have : replaceChar '\\' '/' od = od := by
      have hno : ∀ c ∈ od, c ≠ '\\' := by
        obtain ⟨ht, rfl | ⟨qq, hqq, rfl⟩⟩ := hod2
        · intro c hc; exact (ht c hc).2.2
        · intro c hc
          simp only [List.cons_append, List.mem_cons, List.mem_append, List.not_mem_nil, or_false] at hc
          rcases hc with rfl | h | rfl
          · rcases hqq with rfl | rfl <;> decide
          · exact (ht c h).2.2
          · rcases hqq with rfl | rfl <;> decide
      simp only [replaceChar]
      conv_rhs => rw [← List.map_id od]
      apply List.map_congr_left
      intro c hc
      simp [hno c hc]
    rw [getPath, this]; exact getStr_denotes ev hev _ _ hod2
  have hsamp : samplingOf (d.get? (c% "samplingInterval")) = .ok (if q = 0 then none else some n) := by
    simp only [hsi, samplingOf, hsi2, sampling_exact q hq n hqn, PyFloat.truthy]
    by_cases h0 : q = 0
    · simp [h0]
    · have : n / 1000000 * 1000000 + n % 1000000 = n := by have := Int.mul_ediv_add_emod n 1000000; omega
      simp [h0, this]
  have hmode2 : lower (c% "text") = c% "text" := by decide
  suffices H : ∀ x, readCfg ev dtLen filename (some lines) = x → ∃ cfg, x = .ok cfg ∧ cfg.logLevel = upper lvl ∧
      cfg.recFields = pieces.map (fun p => removeSpaces (lower p)) ∧
      cfg.outDir = odt ∧ cfg.datetimeFormat = dft ∧
      (cfg.navIgnoreAbsence = true ↔ lower (ign.take 4) = c% "true") ∧
      cfg.samplingInterval = (if q = 0 then none else some n) from H _ rfl
  intro x hx
  unfold readCfg at hx
  simp only [hd, tx _ _ hlvl, getLogLevel, hlvl2, if_true, tx _ _ hrf, getStr_denotes ev hev _ _ hrf2, tx _ _ hod, hod3, tx _ _ hdf,
      getStr_denotes ev hev _ _ hdf2, tx _ _ hmode, hmode2, ne_eq, not_true_eq_false, if_false, hfields, hcomp, hign, Option.getD_some, getBool, hsamp] at hx
  subst hx
  refine ⟨_, rfl, rfl, ?_, rfl, rfl, ?_, rfl⟩
  · simp [List.map_map, Function.comp_def]
  · simp

/-- concrete case: a file with a mixed-case column list, a quoted directory and an interval of half a minute -/
theorem C48_values_example :
    let lines := [c% "logLevel = info\n", c% "recFields = 'TSN, hour,  el'\n", c% "outDir = \"/tmp/out\" # here\n", c% "navIgnoreAbsence = TRUE\n",
      c% "samplingInterval = 30.5\n"]
    let ev : Str → Except PyErr Str := fun s => .ok (s.drop 2).dropLast
    EvalsLiterals ev ∧
    ∃ d lvl rf rft pieces od odt df dft ign si q n, readSettings (c% "a.cfg") (some lines) = .ok d ∧ d.get? (c% "logLevel") = some (.str lvl) ∧
      upper lvl ∈ [c% "DEBUG", c% "INFO", c% "WARNING", c% "ERROR", c% "CRITICAL"] ∧
      d.get? (c% "recFields") = some (.str rf) ∧ Denotes rf rft ∧ Listed rft pieces ∧ (∀ p ∈ pieces, removeSpaces (lower p) ∈ (formatDef 0).keys) ∧
      d.get? (c% "outDir") = some (.str od) ∧ Denotes od odt ∧ d.get? (c% "datetimeFormat") = some (.str df) ∧ Denotes df dft ∧
      d.get? (c% "outFileMode") = some (.str (c% "text")) ∧ d.get? (c% "navIgnoreAbsence") = some (.str ign) ∧
      d.get? (c% "samplingInterval") = some (.str si) ∧ 0 ≤ q ∧ q * 1000000 = ((n : Int) : Rat) ∧ pyFloat si = .ok (.fin q) ∧ q ≠ 0 ∧ rf ≠ rft := by
  intro lines ev
  refine ⟨?_, ?_⟩
  · intro q t _ _
    show Except.ok ((('r' :: q :: t ++ [q]).drop 2).dropLast) = .ok t
    simp
  · have hd : readSettings (c% "a.cfg") (some lines) = .ok
        [(c% "cfg_file", .str (c% "a.cfg")), (c% "obsDir", .str (c% "./obs")), (c% "navDir", .str (c% "./nav")), (c% "outDir", .str (c% "\"/tmp/out\"")),
         (c% "navPriorityGPS", .emptyList), (c% "navPriorityGLO", .emptyList), (c% "navPriorityGEO", .emptyList),
         (c% "samplingInterval", .str (c% "30.5")), (c% "navIgnoreAbsence", .str (c% "TRUE")), (c% "elNanValue", .num (-9999)),
         (c% "azNanValue", .num (-9999)), (c% "outFileMode", .str (c% "text")), (c% "recFields", .str (c% "'TSN, hour,  el'")),
         (c% "datetimeFormat", .str (c% "%Y-%j %H:%M:%S")), (c% "logLevel", .str (c% "info")), (c% "logFile", .str (c% "tecs.log"))] := by decide +kernel
    refine ⟨_, c% "info", c% "'TSN, hour,  el'", c% "TSN, hour,  el", [c% "TSN", c% " hour", c% "  el"], c% "\"/tmp/out\"", c% "/tmp/out",
      c% "%Y-%j %H:%M:%S", c% "%Y-%j %H:%M:%S", c% "TRUE", c% "30.5", 61/2, 30500000, hd, by decide, by decide, by decide, ⟨by decide, Or.inr ⟨'\'', by decide, by decide⟩⟩,
      ⟨by decide, by decide, by decide⟩, by decide, by decide, ⟨by decide, Or.inr ⟨'"', by decide, by decide⟩⟩, by decide,
      ⟨by decide, Or.inl rfl⟩, by decide, by decide, by decide, by norm_num, by norm_num, by decide +kernel, by norm_num, by decide⟩

/-! ## C49 -/

/-- A configuration (any file made of items) that gives no value to `navIgnoreAbsence` is never accepted, -/
theorem C49_rejected (ev : Str → Except PyErr Str) (dtLen : Str → Nat) (filename : Str) (items : List CfgItem) (lines : List Str)
    (h : CfgWritten items lines) (hno : ∀ v, ¬ LastValue items (c% "navIgnoreAbsence") v) (cfg : Cfg) :
    readCfg ev dtLen filename (some lines) ≠ .ok cfg := by
  obtain ⟨d, hd, _, h2, _, _⟩ := C48_settings filename items lines h
  have hb : d.get? (c% "navIgnoreAbsence") = some (.bool false) := h2 _ hno (by decide)
  intro hc
  unfold readCfg at hc
  simp only [hd] at hc
  repeat' split at hc
  all_goals try cases hc
  all_goals simp_all [getBool]

/-- and the exception is TypeError: if the file becomes acceptable by adding the line `navIgnoreAbsence = False`, then without that line the program
aborts with TypeError. -/
theorem C49_type_error (ev : Str → Except PyErr Str) (dtLen : Str → Nat) (filename : Str) (items : List CfgItem) (lines : List Str)
    (h : CfgWritten items lines) (hno : ∀ v, ¬ LastValue items (c% "navIgnoreAbsence") v)
    (cfg : Cfg) (hok : readCfg ev dtLen filename (some (lines ++ [c% "navIgnoreAbsence = False\n"])) = .ok cfg) :
    readCfg ev dtLen filename (some lines) = .error .type := by
  obtain ⟨d, hd, _, h2, _, _⟩ := C48_settings filename items lines h
  have hb : d.get? (c% "navIgnoreAbsence") = some (.bool false) := h2 _ hno (by decide)
  have happ : ∀ (ls : List Str) (d0 d1 : Dict Str CfgVal), cfgLoop ls d0 = .ok d1 →
      ∀ l, cfgLoop (ls ++ [l]) d0 = cfgLoop [l] d1 := by
    intro ls
    induction ls with
    | nil => intro d0 d1 h l; cases h; rfl
    | cons a ls ih =>
      intro d0 d1 h l
      simp only [List.cons_append]
      rw [cfgLoop.eq_def] at h
      rw [cfgLoop.eq_def]
      simp only at h ⊢
      cases ha : cfgLine a with
      | error e => simp [ha] at h
      | ok r =>
        simp only [ha] at h ⊢
        rcases r with _ | ⟨n, v⟩
        · exact ih _ _ h l
        · dsimp only at h ⊢
          split
          · rename_i hv
            rw [if_pos hv] at h
            split
            · rename_i hh; rw [if_pos hh] at h; exact ih _ _ h l
            · rename_i hh; rw [if_neg hh] at h; exact ih _ _ h l
          · rename_i hv
            rw [if_neg hv] at h
            exact ih _ _ h l
  have hd' : readSettings filename (some (lines ++ [c% "navIgnoreAbsence = False\n"])) =
      .ok (d.set (c% "navIgnoreAbsence") (.str (c% "False"))) := by
    simp only [readSettings] at hd ⊢
    rw [happ _ _ _ hd]
    have hl : cfgLine (c% "navIgnoreAbsence = False\n") = .ok (some (c% "navIgnoreAbsence", c% "False")) := by decide
    have hh : d.has (c% "navIgnoreAbsence") = true := by simp [Dict.has, hb]
    simp only [cfgLoop, hl, hh, if_true]
    rfl
  have hget : ∀ n, n ≠ c% "navIgnoreAbsence" → (d.set (c% "navIgnoreAbsence") (.str (c% "False"))).get? n = d.get? n := by
    intro n hn
    rw [Dict.get?_set, if_neg (fun e => hn e.symm)]
  have htx : ∀ n, n ≠ c% "navIgnoreAbsence" → textOf (d.set (c% "navIgnoreAbsence") (.str (c% "False"))) n = textOf d n := by
    intro n hn; simp only [textOf, hget n hn]
  unfold readCfg at hok ⊢
  simp only [hd, hd'] at hok ⊢
  rw [htx _ (by decide), htx _ (by decide), htx _ (by decide), htx _ (by decide), htx _ (by decide)] at hok
  cases h1 : getLogLevel (textOf d (c% "logLevel")) with
  | error e => simp [h1] at hok
  | ok lvl =>
  simp only [h1] at hok ⊢
  cases h3 : getStr ev (textOf d (c% "recFields")) with
  | error e => simp [h3] at hok
  | ok rf =>
  simp only [h3] at hok ⊢
  cases h4 : getPath ev (textOf d (c% "outDir")) with
  | error e => simp [h4] at hok
  | ok od =>
  simp only [h4] at hok ⊢
  cases h5 : getStr ev (textOf d (c% "datetimeFormat")) with
  | error e => simp [h5] at hok
  | ok df =>
  simp only [h5] at hok ⊢
  by_cases h6 : lower (textOf d (c% "outFileMode")) ≠ c% "text"
  · rw [if_pos h6] at hok; cases hok
  rw [if_neg h6] at hok ⊢
  cases h7 : composeRecFormat (formatDef (dtLen df)) (splitOn ',' (removeSpaces (lower rf))) with
  | error e => simp [h7] at hok
  | ok w =>
  obtain ⟨w1, w2, w3⟩ := w
  simp [hb, getBool]

local macro "tb" : tactic => `(tactic| first | (show ∀ c ∈ _, _; decide) | decide | (unfold CfgItem.Ok Blank; decide) | (unfold CfgName; decide))

/-- concrete case: a file setting only the directories (with a comment and a remark) is rejected with TypeError -/
theorem C49_example :
    (∃ items, CfgWritten items [c% "# my settings\n", c% "\n", c% "obsDir = obs\n", c% "outDir=tec # output\n"] ∧
      ∀ v, ¬ LastValue items (c% "navIgnoreAbsence") v) ∧
    readCfg (fun _ => .error .exc) (fun _ => 17) (c% "/a/tecs.cfg") (some [c% "# my settings\n", c% "\n", c% "obsDir = obs\n", c% "outDir=tec # output\n"]) =
      .error .type := by
  constructor
  · refine ⟨[.comment (c% " my settings"), .blank [], .assign [] (c% "obsDir") [' '] [' '] (c% "obs") [] none,
      .assign [] (c% "outDir") [] [] (c% "tec") [' '] (some (c% " output"))], ?_, ?_⟩
    · refine .cons _ ['\n'] _ _ trivial (by tb) (.cons _ ['\n'] _ _ (by tb) (by tb) (.cons _ ['\n'] _ _ ?_ (by tb)
        (.cons _ ['\n'] _ _ ?_ (by tb) .nil)))
      · exact ⟨by tb, by tb, by tb, by tb, ⟨by tb, by tb, by tb⟩, by tb⟩
      · exact ⟨by tb, by tb, by tb, by tb, ⟨by tb, by tb, by tb⟩, by tb⟩
    · rintro v ⟨pre, i, post, he, ⟨_, a, b, c, d, r, rfl⟩, _⟩
      have hm : CfgItem.assign a (c% "navIgnoreAbsence") b c v d r ∈
          [CfgItem.comment (c% " my settings"), .blank [], .assign [] (c% "obsDir") [' '] [' '] (c% "obs") [] none,
          .assign [] (c% "outDir") [] [] (c% "tec") [' '] (some (c% " output"))] := by rw [he]; simp
      simp at hm
  · decide +kernel

end Verif.Props
