import Verif.Proofs.Ends
import Verif.Props.ProgramExamples
/-!
# Property C103: every run ends, unless a RINEX 3 file has no dated epoch
-/
namespace Verif.Props
open Verif.Py Verif.Model Verif.Spec Verif.Proofs

/-! ### detection of the interval -/

theorem detLoop3_mono (n : Nat) : ∀ e0 e1 ls r, detLoop3 n e0 e1 ls = some r → ∀ m, n ≤ m → detLoop3 m e0 e1 ls = some r := by
  induction n with
  | zero =>
    intro e0 e1 ls r h m _
    simp only [detLoop3] at h
    split at h
    · cases h
    · rename_i hne
      cases m <;> simp only [detLoop3, hne, if_false] <;> exact h
  | succ n ih =>
    intro e0 e1 ls r h m hm
    obtain ⟨m, rfl⟩ : ∃ k, m = k + 1 := ⟨m - 1, by omega⟩
    simp only [detLoop3] at h ⊢
    split at h
    · rename_i he
      rw [if_pos he]
      cases hn : nextEpoch3 ls none with
      | error e => rw [hn] at h; exact h
      | ok p =>
        rw [hn] at h
        exact ih _ _ _ _ h m (by omega)
    · rename_i he
      rw [if_neg he]
      exact h

theorem detInterval3_ends {ls : List Str} (hne : ∀ l ∈ ls, l ≠ []) (h : ¬ ∃ ms, Marks ls ms ∧ ∀ t, some t ∉ candidates ms) :
    ∃ n, ∀ fuel, n ≤ fuel → ∃ r, detInterval3 fuel ls = some r := by
  have hd : ¬ ∀ fuel, detInterval3 fuel ls = none := fun hd => h ((C22_diverges_iff hne).1 hd)
  simp only [not_forall] at hd
  obtain ⟨n, hn⟩ := hd
  refine ⟨n, fun fuel hf => ?_⟩
  unfold detInterval3 at hn ⊢
  cases h1 : nextEpoch3 ls none with
  | error e => exact ⟨_, rfl⟩
  | ok p =>
    obtain ⟨e0, l1⟩ := p
    rw [h1] at hn
    simp only at hn ⊢
    cases h2 : nextEpoch3 l1 none with
    | error e => exact ⟨_, rfl⟩
    | ok p =>
      obtain ⟨e1, l2⟩ := p
      rw [h2] at hn
      simp only at hn ⊢
      cases h3 : detLoop3 n e0 e1 l2 with
      | none => rw [h3] at hn; exact absurd rfl hn
      | some r =>
        rw [detLoop3_mono n _ _ _ _ h3 fuel hf]
        split
        · rename_i he; cases he
        · exact ⟨_, rfl⟩
        · split <;> exact ⟨_, rfl⟩
        · exact ⟨_, rfl⟩

theorem candidates_regular (t : DateTime) (f : Int) (hf : f ≤ 1) (ms : List (Option DateTime × Int)) (h : (some t, f) ∈ ms) : some t ∈ candidates ms := by
  have key : ∀ last, some t ∈ candidates.go last ms := by
    induction ms with
    | nil => cases h
    | cons m ms ih =>
      obtain ⟨x, g⟩ := m
      intro last
      simp only [candidates.go]
      rcases List.mem_cons.1 h with h | h
      · cases h
        rw [if_neg (by omega)]
        simp
      · split
        · exact ih h x
        · simp [ih h none]
  exact key none

theorem marks_mem {ls : List Str} {ms : List (Option DateTime × Int)} (h : Marks ls ms) (l : Str) (hl : l ∈ ls) (ep : Epoch3) (hp : parseEpoch3 l = .ok ep) :
    (ep.epoch, ep.flag) ∈ ms := by
  induction h with
  | nil => cases hl
  | other hne hh _ ih =>
    rcases List.mem_cons.1 hl with rfl | hl
    · unfold parseEpoch3 at hp
      rw [isEpochLine_not hne hh] at hp
      cases hp
    · exact ih hl
  | mark hh he _ ih =>
    rcases List.mem_cons.1 hl with rfl | hl
    · rw [hp] at he; cases he; simp
    · simp [ih hl]

theorem splitHeader3_at (hdr : List Str) (endl : Str) (body : List Str) (hh : ∀ l ∈ hdr, labelOf l ≠ lblEnd) (hend : labelOf endl = lblEnd) :
    splitHeader3 (hdr ++ endl :: body) = (hdr, body) := by
  induction hdr with
  | nil => simp [splitHeader3, show headerLabel endl = lblEnd from hend]
  | cons l ls ih =>
    have h1 : headerLabel l ≠ lblEnd := hh l (by simp)
    simp only [List.cons_append, splitHeader3, h1, if_false]
    rw [ih fun x hx => hh x (by simp [hx])]

theorem openObs3_ends (v : Nat) {file : List Str} (hne : ∀ l ∈ file, l ≠ []) (h : HasEpoch file) :
    ∃ n, ∀ fuel, n ≤ fuel → ∃ r, openObs3 v fuel file = some r := by
  obtain ⟨hdr, endl, body, rfl, hh, hend, l, hl, t, sub, flag, num, clock, hd, hf, hn, hs⟩ := h
  have hp := parseEpoch3_mark hd (by omega) hn hs
  obtain ⟨n, hn⟩ := detInterval3_ends (ls := body) (fun x hx => hne x (by simp [hx])) (by
    rintro ⟨ms, hm, hno⟩
    exact hno t (candidates_regular t flag (by exact_mod_cast hf) ms (marks_mem hm l hl _ hp)))
  refine ⟨n, fun fuel hf => ?_⟩
  obtain ⟨r, hr⟩ := hn fuel hf
  unfold openObs3
  rw [splitHeader3_at hdr endl body hh hend]
  simp only
  split
  · exact ⟨_, rfl⟩
  · rw [hr]
    cases r with
    | error e => exact ⟨_, rfl⟩
    | ok dt =>
      simp only
      split
      · exact ⟨_, rfl⟩
      · split <;> exact ⟨_, rfl⟩

/-! ### files -/

theorem obsFile_ends (D : Disk) (path : Str) (h : ∀ how file, D.lines how path = .ok file → Tractable file) :
    ∃ n, ∀ fuel, n ≤ fuel → ∃ r, obsFile D fuel path = some r := by
  unfold obsFile
  cases hf : fetchObs D path with
  | error e => exact ⟨0, fun _ _ => ⟨_, rfl⟩⟩
  | ok file =>
    simp only
    cases hv : obsVersion (Model.firstLine file) with
    | error e => exact ⟨0, fun _ _ => ⟨_, rfl⟩⟩
    | ok v =>
      simp only
      have ht : Tractable file := by
        unfold fetchObs at hf
        split at hf
        · cases hf
        · cases hf
          rw [show obsVersion (Model.firstLine []) = .error .rinex by decide +kernel] at hv; cases hv
        · exact h _ _ hf
      split
      · cases ho : openObs2 v file with
        | error e => exact ⟨0, fun _ _ => ⟨_, rfl⟩⟩
        | ok o => exact ⟨0, fun _ _ => obsIn2_fin path ht.finite ho⟩
      · rename_i hge
        obtain ⟨q, hq, hr⟩ := (C24_obs _ v).1 hv
        obtain ⟨n, hn⟩ := openObs3_ends v ht.lines (ht.epoch q v hq hr (by omega))
        refine ⟨n, fun fuel hf => ?_⟩
        obtain ⟨r, hr⟩ := hn fuel hf
        rw [hr]
        cases r with
        | error e => exact ⟨_, rfl⟩
        | ok o => exact obsIn3_fin path ht.finite hr

theorem splitSpaces_infix : ∀ (s w : Str), w ∈ splitSpaces s → w <:+: s ∧ ∀ x ws, splitSpaces s = x :: ws → x <+: s := by
  intro s
  induction s with
  | nil => intro w hw; simp [splitSpaces] at hw; subst hw; exact ⟨List.infix_refl _, fun x ws h => by simp [splitSpaces] at h; obtain ⟨rfl, -⟩ := h; exact List.prefix_refl _⟩
  | cons c s ih =>
    have up : ∀ {w : Str}, w <:+: s → w <:+: c :: s := fun h => h.trans (List.suffix_cons c s).isInfix
    intro w hw
    simp only [splitSpaces] at hw ⊢
    cases hc : isSpace c with
    | true =>
      simp only [hc, if_true] at hw ⊢
      cases s with
      | nil =>
        simp only [List.mem_cons, List.not_mem_nil, or_false, or_self] at hw
        subst hw
        exact ⟨⟨[], [c], rfl⟩, fun x ws h => by cases h; exact List.nil_prefix⟩
      | cons d s =>
        simp only at hw ⊢
        cases hd : isSpace d with
        | true =>
          simp only [hd, if_true] at hw ⊢
          refine ⟨up (ih w hw).1, fun x ws h => ?_⟩
          have : x = [] := by
            have hx : ∀ (s : Str) d x ws, isSpace d = true → splitSpaces (d :: s) = x :: ws → x = [] := by
              intro s
              induction s with
              | nil => intro d x ws hd h; simp [splitSpaces, hd] at h; exact h.1
              | cons e s ih =>
                intro d x ws hd h
                rw [splitSpaces, if_pos hd] at h
                cases he : isSpace e with
                | true => rw [he] at h; simp only [if_true] at h; exact ih e x ws he h
                | false => rw [he] at h; simp at h; exact h.1
            exact hx s d x ws hd h
          rw [this]
          exact List.nil_prefix
        | false =>
          simp only [hd, Bool.false_eq_true, if_false] at hw ⊢
          refine ⟨?_, fun x ws h => by cases h; exact List.nil_prefix⟩
          rcases List.mem_cons.1 hw with rfl | hw
          · exact ⟨[], _, rfl⟩
          · exact up (ih w hw).1
    | false =>
      simp only [hc, Bool.false_eq_true, if_false] at hw ⊢
      cases hs : splitSpaces s with
      | nil =>
        rw [hs] at hw
        simp only [List.mem_singleton] at hw
        subst hw
        exact ⟨⟨[], s, rfl⟩, fun x ws h => by cases h; exact ⟨s, rfl⟩⟩
      | cons a ws =>
        rw [hs] at hw
        simp only at hw ⊢
        have hp := (ih a (by rw [hs]; simp)).2 a ws hs
        have hpre : (c :: a) <+: c :: s := by
          obtain ⟨t, ht⟩ := hp
          exact ⟨t, by simp [ht]⟩
        refine ⟨?_, fun x ws' h => by cases h; exact hpre⟩
        rcases List.mem_cons.1 hw with rfl | hw
        · exact hpre.isInfix
        · exact up (ih w (by rw [hs]; simp [hw])).1

theorem xyzLine_fin {l : Str} (h : Plain l) {t : DateTime} {p : List PyFloat} (hx : xyzLine l = .ok (some (t, p))) : ∃ q, Model.posOf p = some q := by
  unfold xyzLine at hx
  simp only at hx
  split at hx
  · cases hx
  split at hx
  · cases hx
  split at hx
  · rename_i cdate ctime x y z hs
    split at hx
    · cases hx
    split at hx
    · rename_i a b c ha hb hc
      cases hx
      have hin : ∀ w ∈ [cdate, ctime, x, y, z], Plain w := fun w hw => h.infix ((splitSpaces_infix _ w (by rw [hs]; exact hw)).1.trans (rstrip_infix l))
      obtain ⟨a, rfl⟩ := parseFloat_plain (hin x (by simp)) ha
      obtain ⟨b, rfl⟩ := parseFloat_plain (hin y (by simp)) hb
      obtain ⟨c, rfl⟩ := parseFloat_plain (hin z (by simp)) hc
      exact ⟨_, rfl⟩
    · cases hx
  · cases hx

theorem loadXyz_fin : ∀ (ls : List Str) (d d' : Dict DateTime (List PyFloat)), (∀ l ∈ ls, Plain l) → (∀ p ∈ d, ∃ q, Model.posOf p.2 = some q) → loadXyz ls d = .ok d' →
    ∀ p ∈ d', ∃ q, Model.posOf p.2 = some q := by
  intro ls
  induction ls with
  | nil => intro d d' _ hd h; cases h; exact hd
  | cons l ls ih =>
    intro d d' hp hd h
    have ih := fun d => ih d d' fun x hx => hp x (by simp [hx])
    simp only [loadXyz] at h
    split at h
    · cases h
    · exact ih d hd h
    · rename_i t p hx
      refine ih _ ?_ h
      intro x hx'
      rcases dict_set_mem d t p x hx' with hx' | rfl
      · exact hd x hx'
      · exact xyzLine_fin (hp l (by simp)) hx

theorem xyzData_ends (D : Disk) (b : Bool) (path : Str) (h : ∀ n ls, D.lines .text (n ++ c% ".xyz") = .ok ls → ∀ l ∈ ls, Plain l) : ∃ r, xyzData D b path = some r := by
  unfold xyzData
  split
  · exact ⟨_, rfl⟩
  split
  · exact ⟨_, rfl⟩
  · rename_i n hn
    split
    · exact ⟨_, rfl⟩
    split
    · exact ⟨_, rfl⟩
    · rename_i ls hl
      have hp : ∀ l ∈ ls, Plain l := by
        unfold xyzName at hn
        obtain ⟨m, -, rfl⟩ := Option.map_eq_some_iff.1 hn
        exact h _ _ hl
      split
      · exact ⟨_, rfl⟩
      · rename_i d hd
        obtain ⟨r, hr⟩ := allOf_some (f := fun p : DateTime × List PyFloat => (Model.posOf p.2).map fun q => (p.1, q)) (l := d) (by
          intro p hp'
          obtain ⟨q, hq⟩ := loadXyz_fin ls [] d hp (fun p hp => by cases hp) hd p hp'
          exact ⟨_, by rw [hq]; rfl⟩)
        exact ⟨_, by rw [hr]; rfl⟩

/-! ### runs -/

/-- C103: a run over observation files that contain finite numbers only, and a dated epoch each in the case of RINEX 3 files, and over coordinate files
with finite numbers only, always ends: normally or with an error.  (Any sufficiently large number of turns of the detection of the interval will do.) -/
theorem C103_ends (X : Ext) (D : Disk) (cfg : Cfg) (fs : FS) (paths : List Str) (hn : PlainNames D cfg.obsDir) (hf : InputFiles D cfg.obsDir paths)
    (ho : ∀ p ∈ paths, ∀ how file, D.lines how p = .ok file → Tractable file)
    (hx : ∀ n ls, D.lines .text (n ++ c% ".xyz") = .ok ls → ∀ l ∈ ls, Plain l) :
    ∃ n, ∀ fuel, n ≤ fuel → ∃ r, program X D cfg fuel fs = some r := by
  have key : ∀ b (l : List Str), (∀ p ∈ l, ∀ how file, D.lines how p = .ok file → Tractable file) →
      ∃ n, ∀ fuel, n ≤ fuel → ∀ p ∈ l, ∃ f, fileIn D fuel b p = some f := by
    intro b l
    induction l with
    | nil => intro _; exact ⟨0, fun _ _ p hp => by cases hp⟩
    | cons p l ih =>
      intro h
      obtain ⟨n, hn⟩ := ih fun q hq => h q (by simp [hq])
      obtain ⟨m, hm⟩ := obsFile_ends D p (h p (by simp))
      refine ⟨max n m, fun fuel hfu q hq => ?_⟩
      rcases List.mem_cons.1 hq with rfl | hq
      · obtain ⟨r, hr⟩ := hm fuel (le_trans (le_max_right ..) hfu)
        obtain ⟨x, hx⟩ := xyzData_ends D b q hx
        exact ⟨_, by rw [fileIn, hr, hx]; rfl⟩
      · exact hn fuel (le_trans (le_max_left ..) hfu) q hq
  obtain ⟨n, hk⟩ := key (someXyz D cfg) paths ho
  refine ⟨n, fun fuel hfu => ?_⟩
  unfold program
  rw [(C72_files D cfg paths hn).2 hf]
  cases paths with
  | nil => exact ⟨_, rfl⟩
  | cons p ps =>
    obtain ⟨r, hr⟩ := allOf_some (hk fuel hfu)
    simp only [hr]
    exact ⟨_, rfl⟩

/-- C103, the exception: a RINEX 3 file that can be read and has a proper header, but whose epoch lines (if there are any) have no date, is never opened;
a run that comes to such a file does not end. -/
theorem C103_hangs (X : Ext) (D : Disk) (cfg : Cfg) (fs : FS) (paths : List Str) (path : Str) (v : Nat) (f sys : Char) (d : Str × Str) (es : List HEntry)
    (hdr : List Str) (endl : Str) (body : List Str) (hn : PlainNames D cfg.obsDir) (hfiles : InputFiles D cfg.obsDir paths) (hi : path ∈ paths)
    (hr : ReadAs D path (hdr ++ endl :: body)) (hv : v ∈ [300, 301, 302, 303]) (hf0 : f ≠ '\n') (hs0 : sys ≠ '\n') (hd0 : WordsOk d) (hes : ∀ e ∈ es, e.Ok)
    (hp : PhysicalLines hdr ((HEntry.line (.version v f sys d) :: es).map (HEntry.lines v)).flatten)
    (hnum : ∀ s n codes, HEntry.sys s n codes ∈ es → n = codes.length) (hsys : ((typeMapOf v es).map (·.1)).Nodup)
    (hh : ∀ l ∈ hdr, labelOf l ≠ c% "END OF HEADER") (hend : labelOf endl = c% "END OF HEADER")
    (hb : ∀ l ∈ body, l ≠ [] ∧ (l.head? = some '>' → ∃ flag num clock, flag < 10 ∧ num < 1000 ∧ SameLine l (markLine none flag num clock))) :
    ∀ fuel, openObs3 v fuel (hdr ++ endl :: body) = none ∧ obsFile D fuel path = none ∧ program X D cfg fuel fs = none := by
  intro fuel
  have hv3 : 300 ≤ v ∧ v < 1000 := by
    simp only [List.mem_cons, List.not_mem_nil, or_false] at hv
    omega
  have hes' : ∀ e ∈ HEntry.line (.version v f sys d) :: es, e.Ok := by
    intro e he
    rcases List.mem_cons.1 he with rfl | he
    · exact ⟨⟨hv3.2, hd0⟩, by intro l h; cases h⟩
    · exact hes e he
  have hcons : Consistent [] (HEntry.line (.version v f sys d) :: es) := by
    refine ⟨?_, ?_, by simp [Dict.keys]⟩
    · intro s n codes hm
      simp only [List.mem_cons, reduceCtorEq, false_or] at hm
      exact hnum s n codes hm
    · rw [← sysOf_typeMap] at hsys
      simp only [sysOf]
      have h2 : (sysOf es).map (fun p => [p.1]) = ((sysOf es).map (·.1)).map fun c => [c] := by rw [List.map_map]; rfl
      rw [h2]
      exact hsys.map (fun x y h => by simpa using h)
  have hm : ∃ ms, Marks body ms ∧ ∀ m ∈ ms, m.1 = none := by
    clear hr
    induction body with
    | nil => exact ⟨[], .nil, by simp⟩
    | cons l body ih =>
      obtain ⟨ms, h1, h2⟩ := ih fun x hx => hb x (by simp [hx])
      obtain ⟨h3, h4⟩ := hb l (by simp)
      by_cases h5 : l.head? = some '>'
      · obtain ⟨flag, num, clock, h6, h7, h8⟩ := h4 h5
        refine ⟨_, .mark h5 (parseEpoch3_mark (date := none) trivial h6 h7 h8) h1, ?_⟩
        intro m hm
        rcases List.mem_cons.1 hm with rfl | hm
        · rfl
        · exact h2 m hm
      · exact ⟨ms, .other h3 h5 h1, h2⟩
  obtain ⟨ms, hm, hno⟩ := hm
  have hopen : openObs3 v fuel (hdr ++ endl :: body) = none := by
    unfold openObs3
    rw [splitHeader3_at hdr endl body hh hend]
    simp only [C17_types v _ hes' hdr hp ⟨.empty, []⟩ hcons, C22_no_epoch hm hno fuel]
  have hobs : obsFile D fuel path = none := by
    obtain ⟨w, r, hb', hws⟩ := physical_cons hp
    unfold obsFile
    rw [fetchObs_read hr]
    simp only
    have hver : obsVersion (Model.firstLine (hdr ++ endl :: body)) = .ok v := by
      rw [hb']
      simp only [List.cons_append, Model.firstLine, List.headD_cons]
      refine obsVersion_written v ?_ f sys hf0 hs0 d hd0 w hws
      simp only [List.mem_cons, List.not_mem_nil, or_false] at hv ⊢
      omega
    rw [hver]
    simp only [hopen]
    rw [if_neg (by omega)]
  refine ⟨hopen, hobs, ?_⟩
  unfold program
  rw [(C72_files D cfg paths hn).2 hfiles]
  cases paths with
  | nil => cases hi
  | cons p ps =>
    simp only [Option.map_eq_none_iff]
    cases ha : allOf (fileIn D fuel (someXyz D cfg)) (p :: ps) with
    | none => rfl
    | some r =>
      obtain ⟨i, hlt, hget⟩ := List.getElem_of_mem hi
      obtain ⟨-, h2⟩ := allOf_get ha
      obtain ⟨b, hb, -⟩ := h2 i path (List.getElem?_eq_some_iff.2 ⟨hlt, hget⟩)
      rw [fileIn, hobs] at hb
      cases hb

/-! ### examples -/

instance (l : Str) : Decidable (Plain l) := inferInstanceAs (Decidable (_ ∧ _))

theorem finiteText_at (file : List Str) (n : Nat) (h1 : ∀ l ∈ file.take n, contains (c% "END OF HEADER") l = false)
    (h2 : ∀ l ∈ file.take n, labelOf l = c% "APPROX POSITION XYZ" → Plain l) (h3 : ∀ l ∈ file.drop n, Plain l) : FiniteText file :=
  ⟨file.take n, file.drop n, (List.take_append_drop n file).symm, h1, h2, h3⟩

/-- the RINEX 2 example (header, events, a coordinate file) meets the hypotheses of C103 -/
theorem C103_hypotheses : PlainNames ProgEx.disk ProgEx.cfg.obsDir ∧ InputFiles ProgEx.disk ProgEx.cfg.obsDir [ProgEx.obsPath] ∧
    (∀ p ∈ [ProgEx.obsPath], ∀ how file, ProgEx.disk.lines how p = .ok file → Tractable file) ∧
    ∀ n ls, ProgEx.disk.lines .text (n ++ c% ".xyz") = .ok ls → ∀ l ∈ ls, Plain l := by
  have hn : PlainNames ProgEx.disk ProgEx.cfg.obsDir := by
    intro d hd l hl
    simp only [ProgEx.cfg, List.mem_singleton] at hd
    subst hd
    cases hl
    decide
  have hver : obsVersion (ProgEx.obsLines.headD []) = .ok 211 := by decide +kernel
  refine ⟨hn, (C72_files _ _ _ hn).1 (by decide +kernel), ?_, ?_⟩
  · intro p hp how file hfile
    rw [List.mem_singleton] at hp
    subst hp
    have : file = ProgEx.obsLines := by
      cases how <;> simp [ProgEx.disk, ProgEx.obsPath, ProgEx.navPath] at hfile
      exact hfile.symm
    subst this
    refine ⟨finiteText_at _ 4 (by decide +kernel) (by decide +kernel) (by decide +kernel), by decide +kernel, ?_⟩
    intro q v hq hr h3
    have := (C24_obs _ v).2 ⟨q, hq, hr⟩
    rw [hver] at this
    cases this
    omega
  · intro n ls hl
    simp only [ProgEx.disk] at hl
    split at hl
    · cases hl
      decide +kernel
    · split at hl
      · rename_i h
        have := congrArg List.getLast? h
        simp [ProgEx.navPath] at this
      · cases hl

/-- the RINEX 3 example is a text as in C103, with epochs -/
theorem C103_hypotheses3 : Tractable ProgEx.obsLines3 := by
  refine ⟨finiteText_at _ 5 (by decide +kernel) (by decide +kernel) (by decide +kernel), by decide +kernel, fun q v _ _ _ => ?_⟩
  refine ⟨_, _, _, rfl, by decide +kernel, by decide +kernel, markLine (some (⟨2017, 2, 28, 23, 59, 59, 999999⟩, 0)) 0 2 none, by decide +kernel,
    ⟨2017, 2, 28, 23, 59, 59, 999999⟩, 0, 0, 2, none, ⟨(legal_iff _).2 (by decide), by decide, by decide⟩, by decide, by decide, rfl⟩

/-- a RINEX 3 file that consists of its header only -/
def hangDisk : Disk :=
  ⟨ProgEx.disk3.listing, fun f p => match f with
     | .gunzipCrx => if p = ProgEx.obsPath3 then
         .ok (((HEntry.line (.version 302 'O' 'M' obsWords) :: ProgEx.entries3).map (HEntry.lines 302)).flatten.map (· ++ ['\n']) ++ [hline [] lblEnd ++ ['\n']]) else .error .os
     | _ => .error .os, fun _ => true⟩

/-- the program never ends on it -/
theorem C103_hangs_example (fuel : Nat) : program ProgEx.ext hangDisk ProgEx.cfg fuel [] = none := by
  have hn : PlainNames hangDisk ProgEx.cfg.obsDir := by
    intro d hd l hl
    simp only [ProgEx.cfg, List.mem_singleton] at hd
    subst hd
    cases hl
    decide
  obtain ⟨h1, h2, -⟩ := ProgEx.C73_hypotheses3
  obtain ⟨dir, name, hat, comp, a, b, c⟩ := h2.treated
  refine (C103_hangs ProgEx.ext hangDisk ProgEx.cfg [] [ProgEx.obsPath3] ProgEx.obsPath3 302 'O' 'M' obsWords ProgEx.entries3 _ (hline [] lblEnd ++ ['\n']) [] hn
    ((C72_files _ _ _ hn).1 (by decide +kernel)) (by simp) ⟨h2.line, dir, name, hat, comp, a, b, ?_⟩ (by decide) (by decide) (by decide) (by decide) h1.header
    (ProgEx.physical_nl _) h1.numbers h1.systems.1 (by decide +kernel) (by decide +kernel) (by simp) fuel).2.2
  revert c
  cases hat <;> cases comp <;> simp [fetchOf, ProgEx.disk3, hangDisk]
  intro h
  rw [if_neg (by decide)] at h
  cases h

end Verif.Props
