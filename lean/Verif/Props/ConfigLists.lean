import Verif.Spec.ConfigLists
import Verif.Props.Config
/-!
# C48: the lists of a configuration file
-/
namespace Verif.Props
open Verif.Py Verif.Model Verif.Spec Verif.Proofs

theorem trimmed_strip {p d : Str} (h : Trimmed p d) : strip p = d := by
  obtain ⟨a, b, rfl, ha, hb, h1, h2⟩ := h
  unfold strip
  cases d with
  | nil =>
    have hab : ∀ c ∈ a ++ [] ++ b, isSpace c = true := by
      intro c hc
      simp only [List.append_nil, List.mem_append] at hc
      exact hc.elim (ha c) (hb c)
    rw [(rstrip_eq_nil_iff _).2 hab]
    rfl
  | cons c r =>
    have hl : rstrip (c :: r) = c :: r := by
      obtain ⟨r', x, hr⟩ := List.eq_nil_or_concat (c :: r) |>.resolve_left (by simp)
      rw [hr] at h2 ⊢
      simp only [List.concat_eq_append] at h2 ⊢
      exact rstrip_of_last _ _ (h2 x (by simp))
    rw [rstrip_append_space _ _ hb, rstrip_append_of_ne _ _ (by rw [hl]; simp), hl]
    rw [lstrip_append_space _ _ ha, lstrip_of_head (h1 c rfl)]

theorem dirs_of {items : List CfgItem} {d : Dict Str CfgVal} {name dflt : Str} {dirs : List Str} (h : DirsOf items name dflt dirs)
    (h1 : ∀ v, LastValue items name v → d.get? name = some (.str v)) (h2 : (∀ v, ¬ LastValue items name v) → d.get? name = some (.str dflt))
    (hd : ',' ∉ dflt) (hs : strip dflt = dflt) : getDirList (textOf d name) = dirs := by
  rcases h with ⟨v, pieces, hv, hl, ht⟩ | ⟨hn, rfl⟩
  · have : textOf d name = v := by simp [textOf, h1 v hv]
    rw [this, getDirList, listed_split hl]
    clear hl
    induction ht with
    | nil => rfl
    | cons hp _ ih => simp [trimmed_strip hp, ih]
  · have : textOf d name = dflt := by simp [textOf, h2 hn]
    rw [this, getDirList, splitOn_none (sep := ',') (by intro c hc e; subst e; exact hd hc)]
    simp [hs]

theorem names_of {items : List CfgItem} {d : Dict Str CfgVal} {name : Str} {names : List Str} (h : NamesOf items name names)
    (h1 : ∀ v, LastValue items name v → d.get? name = some (.str v)) (h2 : (∀ v, ¬ LastValue items name v) → d.get? name = some .emptyList) :
    priorityOf d name = names := by
  rcases h with ⟨v, pieces, hv, hl, rfl⟩ | ⟨hn, rfl⟩
  · have hne : v.length ≠ 0 := by
      obtain ⟨_, i, _, _, ⟨h, _⟩, _⟩ := hv
      exact fun e => h (List.eq_nil_of_length_eq_zero e)
    simp only [priorityOf, h1 v hv, hne, if_false]
    refine listed_split (listed_map removeSpaces removeSpaces_append (by decide) ?_ hl)
    intro p hp c hc
    exact hl.2.1 p hp c (List.mem_filter.1 hc).1
  · simp [priorityOf, h2 hn]

/-- C48: the directories, the priorities of navigation files, the log file and the name of the configuration file, for every configuration file that is accepted. -/
theorem C48_lists (ev : Str → Except PyErr Str) (dtLen : Str → Nat) (filename : Str) (items : List CfgItem) (lines : List Str) (hw : CfgWritten items lines)
    (cfg : Cfg) (hc : readCfg ev dtLen filename (some lines) = .ok cfg) :
    (∀ dirs, DirsOf items (c% "obsDir") (c% "./obs") dirs → cfg.obsDir = dirs) ∧
    (∀ dirs, DirsOf items (c% "navDir") (c% "./nav") dirs → cfg.navDir = dirs) ∧
    (∀ names, NamesOf items (c% "navPriorityGPS") names → cfg.navPriority.get? 'G' = some names) ∧
    (∀ names, NamesOf items (c% "navPriorityGLO") names → cfg.navPriority.get? 'R' = some names) ∧
    (∀ names, NamesOf items (c% "navPriorityGEO") names → cfg.navPriority.get? 'S' = some names) ∧
    (∀ s, s = 'C' ∨ s = 'E' → cfg.navPriority.get? s = some []) ∧
    (∀ name, LastValue items (c% "logFile") name ∨ (∀ v, ¬ LastValue items (c% "logFile") v) ∧ name = c% "tecs.log" → '/' ∉ name → cfg.outDir ≠ [] → cfg.outDir.getLast? ≠ some '/' →
      cfg.logFile = cfg.outDir ++ '/' :: name) ∧
    ((∀ v, ¬ LastValue items (c% "cfg_file") v) → cfg.cfgFile = filename) ∧ (∀ v, LastValue items (c% "cfg_file") v → cfg.cfgFile = v) := by
  obtain ⟨d, h1, h2, h3, h4, -⟩ := C48_settings filename items lines hw
  unfold readCfg at hc
  rw [h1] at hc
  simp only at hc
  have key : cfg.cfgFile = textOf d (c% "cfg_file") ∧ cfg.obsDir = getDirList (textOf d (c% "obsDir")) ∧ cfg.navDir = getDirList (textOf d (c% "navDir")) ∧
      cfg.navPriority = [('G', priorityOf d (c% "navPriorityGPS")), ('R', priorityOf d (c% "navPriorityGLO")), ('S', priorityOf d (c% "navPriorityGEO")), ('C', []), ('E', [])] ∧
      cfg.logFile = osJoin cfg.outDir (textOf d (c% "logFile")) := by
    repeat' (split at hc; first | cases hc | skip)
    all_goals cases hc
    exact ⟨rfl, rfl, rfl, rfl, rfl⟩
  obtain ⟨k1, k2, k3, k4, k5⟩ := key
  have hdir : ∀ n dflt, n ∈ DEFAULTS.keys → n ≠ c% "cfg_file" → DEFAULTS.get? n = some (.str dflt) → ',' ∉ dflt → strip dflt = dflt →
      ∀ dirs, DirsOf items n dflt dirs → getDirList (textOf d n) = dirs := by
    intro n dflt hn hne hdf hco hs dirs h
    exact dirs_of h (fun v => h2 n v hn) (fun hno => by rw [h3 n hno hne, hdf]) hco hs
  have hnam : ∀ n, n ∈ DEFAULTS.keys → n ≠ c% "cfg_file" → DEFAULTS.get? n = some .emptyList → ∀ names, NamesOf items n names → priorityOf d n = names := by
    intro n hn hne hdf names h
    exact names_of h (fun v => h2 n v hn) (fun hno => by rw [h3 n hno hne, hdf])
  refine ⟨?_, ?_, ?_, ?_, ?_, ?_, ?_, ?_, ?_⟩
  · intro dirs h; rw [k2]; exact hdir _ _ (by decide) (by decide) (by decide) (by decide) (by decide) _ h
  · intro dirs h; rw [k3]; exact hdir _ _ (by decide) (by decide) (by decide) (by decide) (by decide) _ h
  · intro names h; rw [k4, ← hnam _ (by decide) (by decide) (by decide) _ h]; rfl
  · intro names h; rw [k4, ← hnam _ (by decide) (by decide) (by decide) _ h]; rfl
  · intro names h; rw [k4, ← hnam _ (by decide) (by decide) (by decide) _ h]; rfl
  · rintro s (rfl | rfl) <;> (rw [k4]; rfl)
  · intro name hname hs ho ho2
    have ht : textOf d (c% "logFile") = name := by
      rcases hname with h | ⟨h, rfl⟩
      · simp [textOf, h2 _ _ (by decide) h]
      · simp [textOf, h3 _ h (by decide), show DEFAULTS.get? (c% "logFile") = some (.str (c% "tecs.log")) by decide]
    rw [k5, ht, osJoin]
    have : name.head? ≠ some '/' := by
      intro e
      cases name with
      | nil => cases e
      | cons x r => cases e; exact hs (by simp)
    rw [if_neg this, joinPath, if_neg ho, if_neg ho2]
  · intro h; rw [k1]; simp [textOf, h4 h]
  · intro v h; rw [k1]; simp [textOf, h2 _ _ (by decide) h]

/-- two directories and a list of priorities with white space -/
theorem C48_lists_example : ∃ items lines cfg, CfgWritten items lines ∧ readCfg (fun s => .ok s) (fun _ => 10) (c% "a.cfg") (some lines) = .ok cfg ∧
    DirsOf items (c% "obsDir") (c% "./obs") [c% "a b", c% "c"] ∧ NamesOf items (c% "navPriorityGPS") [c% "brdc", c% "irkj"] ∧
    DirsOf items (c% "navDir") (c% "./nav") [c% "./nav"] := by
  have b0 : Blank [] := by unfold Blank; decide
  have b1 : Blank [' '] := by unfold Blank; decide
  have b2 : Blank ['\n'] := by unfold Blank; decide
  have lv : ∀ (pre post : List CfgItem) n v, v ≠ [] → (∀ j ∈ post, ∀ w, ¬ j.Sets n w) →
      LastValue (pre ++ CfgItem.assign [] n [' '] [' '] v [] none :: post) n v := fun pre post n v h1 h2 => ⟨pre, _, post, rfl, ⟨h1, _, _, _, _, _, rfl⟩, h2⟩
  refine ⟨[.assign [] (c% "obsDir") [' '] [' '] (c% "a b , c") [] none, .assign [] (c% "navPriorityGPS") [' '] [' '] (c% "brdc, irkj") [] none,
    .assign [] (c% "navIgnoreAbsence") [' '] [' '] (c% "True") [] none], [c% "obsDir = a b , c\n", c% "navPriorityGPS = brdc, irkj\n", c% "navIgnoreAbsence = True\n"],
    ((readCfg (fun s => .ok s) (fun _ => 10) (c% "a.cfg") (some [c% "obsDir = a b , c\n", c% "navPriorityGPS = brdc, irkj\n", c% "navIgnoreAbsence = True\n"])).toOption.get (by decide +kernel)),
    ?_, by decide +kernel, ?_, ?_, ?_⟩
  · have hi : ∀ n v, (∀ c ∈ n, isSpace c = false ∧ c ≠ '=' ∧ c ≠ '#') → CfgValue v → (CfgItem.assign [] n [' '] [' '] v [] none).Ok := fun n v h1 h2 => ⟨b0, h1, b1, b1, h2, b0⟩
    have hv : ∀ v : Str, (v.all fun c => c ≠ '=' ∧ c ≠ '#') = true → (v.head?.all fun c => isSpace c = false) = true → (v.getLast?.all fun c => isSpace c = false) = true → CfgValue v := by
      intro v h1 h2 h3
      refine ⟨fun c hc => by simpa using List.all_eq_true.1 h1 c hc, fun c hc => ?_, fun c hc => ?_⟩
      · rw [hc] at h2; simpa using h2
      · rw [hc] at h3; simpa using h3
    iterate 3
      refine .cons _ ['\n'] _ _ (hi _ _ (by decide) (hv _ (by decide) (by decide) (by decide))) b2 ?_
    exact .nil
  · refine .inl ⟨c% "a b , c", [c% "a b ", c% " c"], lv [] _ _ _ (by decide) ?_, ⟨by decide, by decide, by decide⟩, ?_⟩
    · intro j hj w hs
      obtain ⟨-, a, b, c, d, r, rfl⟩ := hs
      simp at hj
    · refine .cons ⟨[], [' '], by decide, b0, b1, ?_, ?_⟩ (.cons ⟨[' '], [], by decide, b1, b0, ?_, ?_⟩ .nil) <;> (intro c hc; simp at hc; subst hc; decide)
  · refine .inl ⟨c% "brdc, irkj", [c% "brdc", c% " irkj"], lv [_] _ _ _ (by decide) ?_, ⟨by decide, by decide, by decide⟩, by decide⟩
    intro j hj w hs
    obtain ⟨-, a, b, c, d, r, rfl⟩ := hs
    simp at hj
  · refine .inr ⟨?_, rfl⟩
    rintro v ⟨pre, i, post, h1, ⟨-, a, b, c, d, r, rfl⟩, -⟩
    have hm : CfgItem.assign a (c% "navDir") b c v d r ∈ pre ++ CfgItem.assign a (c% "navDir") b c v d r :: post := by simp
    rw [← h1] at hm
    simp at hm

end Verif.Props
