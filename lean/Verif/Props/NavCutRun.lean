import Verif.Props.NavCut
import Verif.Props.ProgramNav
import Verif.Props.ProgramExamples
/-!
# C111 for the program: satellite positions from a navigation file cut short
-/
namespace Verif.Props
open Verif.Py Verif.Spec Verif.Model Verif.Proofs

theorem version_lt {w v : Nat} (h : ((w : Rat) / 100, v) ∈ navReaders) : w < 1000 := by
  simp only [navReaders, List.mem_cons, List.not_mem_nil, or_false, Prod.mk.injEq] at h
  have hlt : (w : Rat) < 1000 := by
    have : (w : Rat) / 100 ≤ 304 / 100 := by
      rcases h with h | h | h | h | h | h | h | h | h <;> rw [h.1] <;> norm_num
    linarith
  exact_mod_cast hlt

/-- the values matter up to the relation `E` only -/
theorem chosen_map {L L' : Nat → List PyFloat → Prop} {E : List PyFloat → List PyFloat → Prop}
    (h : ∀ τ v, L τ v → ∃ v', L' τ v' ∧ E v v') (h' : ∀ τ v', L' τ v' → ∃ v, L τ v) {c : Char} {e : DateTime} {τ : Nat} {v : List PyFloat}
    (hc : Chosen L c e τ v) : ∃ v', Chosen L' c e τ v' ∧ E v v' := by
  have hno : (∀ w, ¬ L (timeOfDay e) w) → ∀ w, ¬ L' (timeOfDay e) w := fun hn w hw => by
    obtain ⟨u, hu⟩ := h' _ _ hw
    exact hn u hu
  cases hc with
  | exact hm hτ =>
    obtain ⟨v', h1, h2⟩ := h _ _ hm
    exact ⟨v', .exact h1 hτ, h2⟩
  | first hn hg hm hl =>
    obtain ⟨v', h1, h2⟩ := h _ _ hm
    refine ⟨v', .first (hno hn) hg h1 ?_, h2⟩
    intro τ' w hw
    obtain ⟨u, hu⟩ := h' _ _ hw
    exact hl _ _ hu
  | window limit hn hg hk hl hm hw he =>
    obtain ⟨v', h1, h2⟩ := h _ _ hm
    refine ⟨v', .window limit (hno hn) hg hk hl h1 hw ?_, h2⟩
    intro τ' w hw'
    obtain ⟨u, hu⟩ := h' _ _ hw'
    exact he _ _ hu

theorem lastOf_snoc (day : DateTime) (ms : List NavMsg) (m : NavMsg) (hd : OnDay m.epoch day) (s : Char) (n : Int) (τ : Nat) (v : List PyFloat) :
    LastOf day (ms ++ [m]) s n τ v ↔ if m.system = s ∧ (m.number : Int) = n ∧ timeOfDay m.epoch = τ then v = m.values else LastOf day ms s n τ v := by
  split
  · rename_i h
    constructor
    · rintro ⟨before, x, after, h1, h2, h3, h4, h5, h6, h7⟩
      rcases List.eq_nil_or_concat after with rfl | ⟨after', y, rfl⟩
      · have := (List.append_inj' h1 rfl).2
        simp only [List.cons.injEq, and_true] at this
        subst this
        exact h6
      · exfalso
        rw [List.concat_eq_append, ← List.cons_append, ← List.append_assoc] at h1
        have := (List.append_inj' h1 rfl).2
        simp only [List.cons.injEq, and_true] at this
        subst this
        exact h7 m (by simp) ⟨hd, h⟩
    · rintro rfl
      exact ⟨ms, m, [], rfl, hd, h.1, h.2.1, h.2.2, rfl, by simp⟩
  · rename_i h
    constructor
    · rintro ⟨before, x, after, h1, h2, h3, h4, h5, h6, h7⟩
      rcases List.eq_nil_or_concat after with rfl | ⟨after', y, rfl⟩
      · have := (List.append_inj' h1 rfl).2
        simp only [List.cons.injEq, and_true] at this
        subst this
        exact absurd ⟨h3, h4, h5⟩ h
      · rw [List.concat_eq_append, ← List.cons_append, ← List.append_assoc] at h1
        have := (List.append_inj' h1 rfl).1
        exact ⟨before, x, after', this, h2, h3, h4, h5, h6, fun z hz => h7 z (by rw [List.concat_eq_append]; simp [hz])⟩
    · rintro ⟨before, x, after, rfl, h2, h3, h4, h5, h6, h7⟩
      refine ⟨before, x, after ++ [m], by simp, h2, h3, h4, h5, h6, ?_⟩
      intro z hz
      simp only [List.mem_append, List.mem_cons, List.not_mem_nil, or_false] at hz
      rcases hz with hz | rfl
      · exact h7 z hz
      · exact fun hh => h hh.2

theorem readable_ok {v3 : Bool} {v : Nat} {hs : List HLine} {m : NavMsg} (h : Readable v3 v hs m) : m.Ok := by
  unfold Readable at h
  split at h
  · exact h.1
  · obtain ⟨_, _, h⟩ := h; exact h.1

theorem lineCount_snoc (ms : List NavMsg) (m : NavMsg) : lineCount (ms ++ [m]) = lineCount ms + (1 + m.rows.length) := by
  unfold lineCount; simp

/-- the table of a navigation file cut short -/
theorem navFileOf_short (D : Disk) (f : Str) (d : DateTime) (file : List Str) (w v : Nat) (ms : List NavMsg) (k j : Nat)
    (hd : NamedDay f d.date) (hr : NavReadAs D f file) (hf : NavShort file w v ms k j) :
    navFileOf D f = .error .rinex ∨ ∃ done T, ArrivedBefore ms k done ∧ navFileOf D f = .ok T ∧ NoEmpty T ∧
      ∀ s n τ, s ≠ 'R' → s ≠ 'S' → (∀ v, Msg T s n τ v → ∃ v', LastOf d done s n τ v' ∧ v.take 24 = v'.take 24 ∧ v.length = v'.length) ∧
        (∀ v', LastOf d done s n τ v' → ∃ v, Msg T s n τ v ∧ v'.take 24 = v.take 24 ∧ v'.length = v.length) := by
  have hw := version_lt hf.version
  obtain ⟨ft, sys, wd, hs, hdr, endl, body, x, hwd, rfl, hx, ht, hok, hno, hend, hm, hb⟩ := hf.text
  have hver : navVersion (Model.firstLine (hdr ++ endl :: (body.take k ++ [x.take j]))) = .ok v := by
    have hn : NavText (hdr ++ endl :: body) w v ms := ⟨hf.version, ft, sys, wd, hs, hdr, endl, body, hwd, rfl, ht, hok, hno, hend, hm, hb⟩
    have := navVersion_header hn
    obtain ⟨ws, r, rfl, -⟩ := headerText_cons ht
    exact this
  have hok' : ∀ h ∈ HLine.version w ft sys wd :: hs, h.Ok := by
    intro h hh
    simp only [List.mem_cons] at hh
    rcases hh with rfl | hh
    · exact ⟨hw, hwd⟩
    · exact hok h hh
  have hlast : ∃ name, LastComponent f name := by
    obtain ⟨name, _, _, h, _⟩ := hd
    exact ⟨name, h⟩
  have hfile : navFileOf D f = loadNav (layout (decide (300 ≤ v)) v) (some d.date) (hdr ++ endl :: (body.take k ++ [x.take j])) := by
    unfold navFileOf
    rw [fetchNav_read hr]
    simp only [hver, (namedDay_iff f d.date hlast).2 hd, layout_of]
  obtain ⟨done, m, rest, q, h1, h2, h3, h4⟩ := C111_cut (decide (300 ≤ v)) v _ hok' hdr ht hno endl hend ms hm body hb d k x hx j hf.some_left
  rw [hfile]
  rcases h4 with ⟨h4, -⟩ | ⟨⟨T, h4, h5, h6⟩, -⟩ | ⟨hq, hday, T, w', h4, h5, hcut, h6⟩
  · exact .inl h4
  · refine .inr ⟨done, T, ⟨m :: rest, h1, by omega, ?_⟩, h4, h5, ?_⟩
    · intro y hy
      simp only [List.head?_cons, Option.some.injEq] at hy
      subst hy
      rw [lineCount_snoc]; omega
    · intro s n τ _ _
      exact ⟨fun v hv => ⟨v, (h6 ..).1 hv, rfl, rfl⟩, fun v hv => ⟨v, (h6 ..).2 hv, rfl, rfl⟩⟩
  · refine .inr ⟨done ++ [m], T, ⟨rest, by simp [h1], ?_, ?_⟩, h4, h5, ?_⟩
    · rw [lineCount_snoc]; omega
    · intro y hy
      rw [lineCount_snoc, lineCount_snoc]; omega
    · intro s n τ hsR hsS
      simp only [h6, lastOf_snoc d done m hday]
      by_cases hc : m.system = s ∧ (m.number : Int) = n ∧ timeOfDay m.epoch = τ
      · simp only [if_pos hc]
        have hmo : m.Ok := readable_ok (hm m (by rw [h1]; simp))
        obtain ⟨g1, g2, -⟩ := C111_gps m hmo ⟨hc.1 ▸ hsR, hc.1 ▸ hsS⟩ _ j w' hcut
        exact ⟨by rintro _ rfl; exact ⟨_, rfl, g1, g2⟩, by rintro _ rfl; exact ⟨_, rfl, g1.symm, g2.symm⟩⟩
      · simp only [if_neg hc]
        exact ⟨fun v hv => ⟨v, hv, rfl, rfl⟩, fun v hv => ⟨v, hv, rfl, rfl⟩⟩

/-- C111, the program: with a navigation file cut short the positions of the GPS, BeiDou and Galileo satellites are those of a file that ends after a message -
or the file is refused. -/
theorem C111_satellite (X : Ext) (D : Disk) (cfg : Cfg) (c : Char) (e : DateTime) (f : Str) (file : List Str) (w v : Nat) (ms : List NavMsg) (k j : Nat)
    (hc : c = 'G' ∨ c = 'C' ∨ c = 'E') (he : Legal e) (hy : 1000 ≤ e.year) (hs : instant (weekStart c) ≤ instant e)
    (hf : NavChoice D cfg c e f) (hd : NamedDay f e.date) (hr : NavReadAs D f file) (hfile : NavShort file w v ms k j) (hX : UsesFirst24 (X.satPos c)) :
    (prmOf X D cfg).load e.date c = .error .rinex ∨ ∃ done, ArrivedBefore ms k done ∧
      ∀ n p, SatAt (prmOf X D cfg) c n e p ↔ ∃ τ eph dt, Chosen (LastOf e done c n) c e τ eph ∧ TimeArg c e τ dt ∧ X.satPos c eph dt = .ok p := by
  have hload : (prmOf X D cfg).load e.date c = loadFor D cfg e.date c := rfl
  have hR : c ≠ 'R' := by rintro rfl; revert hc; decide
  have hS : c ≠ 'S' := by rintro rfl; revert hc; decide
  have hP : Processed c := by unfold Processed; tauto
  rcases navFileOf_short D f e file w v ms k j hd hr hfile with h1 | ⟨done, T, ha, h1, h3, h2⟩
  · left
    rw [hload, loadFor_iff D cfg c e f he hy hf, h1]
  right
  refine ⟨done, ha, fun n p => ?_⟩
  rw [loadFor_iff D cfg c e f he hy hf, h1] at hload
  simp only at hload
  unfold SatAt EphemerisIs
  rw [hload]
  cases hT : T.get? c with
  | none =>
    simp only [reduceCtorEq, false_and, exists_false, false_iff]
    rintro ⟨τ, eph, dt, h, -, -⟩
    have : LastOf e done c n τ eph := by cases h <;> assumption
    obtain ⟨_, ⟨a, b, ha, -⟩, -⟩ := (h2 c n τ hR hS).2 _ this
    rw [hT] at ha; cases ha
  | some m =>
    simp only [Except.ok.injEq, Prod.mk.injEq]
    have hsel := fun dt eph => C75_message [(c, m)] c n e hP he (fun _ _ => hs) dt eph
    have hmsg : Msg [(c, m)] c n = Msg T c n := by
      funext τ v
      rw [eq_iff_iff, msg_single hT]
    rw [hmsg] at hsel
    constructor
    · rintro ⟨dt, eph, ⟨_, _, ⟨rfl, rfl⟩, h⟩, hp⟩
      obtain ⟨τ, hch, ht⟩ := (hsel dt eph).1 h
      obtain ⟨eph', hch', h24, hlen⟩ := chosen_map (E := fun a b => a.take 24 = b.take 24 ∧ a.length = b.length) (fun τ v => (h2 c n τ hR hS).1 v)
        (fun τ v hv => let ⟨u, hu, _⟩ := (h2 c n τ hR hS).2 v hv; ⟨u, hu⟩) hch
      exact ⟨τ, eph', dt, hch', ht, by rw [← hX eph eph' dt h24 hlen]; exact hp⟩
    · rintro ⟨τ, eph', dt, hch', ht, hp⟩
      obtain ⟨eph, hch, h24, hlen⟩ := chosen_map (E := fun a b => a.take 24 = b.take 24 ∧ a.length = b.length) (fun τ v => (h2 c n τ hR hS).2 v)
        (fun τ v hv => let ⟨u, hu, _⟩ := (h2 c n τ hR hS).1 v hv; ⟨u, hu⟩) hch'
      refine ⟨dt, eph, ⟨f, m, ⟨rfl, rfl⟩, (hsel dt eph).2 ⟨τ, hch, ht⟩⟩, ?_⟩
      show X.satPos c eph dt = .ok p
      rw [← hX eph' eph dt h24 hlen]; exact hp

namespace ProgEx

def navBody : List Str := exLines (navG 1 7) ++ (exLines (navR 24 3) ++ [])

/-- the navigation file of the example, cut in the middle of the last line of the GPS message -/
def navCut : List Str := [HLine.render 302 (.version 302 'N' 'M' navWords)] ++ hline [] lblEnd :: (navBody.take 7 ++ [(navBody[7]'(by decide +kernel)).take 23])

def diskCut : Disk :=
  ⟨disk.listing, fun f p => if p = navPath then (match f with | .text => .ok navCut | _ => .error .os) else disk.lines f p, disk.present⟩

def extCut : Ext := { ext with satPos := fun _ eph dt => match eph with | .fin a :: _ => .ok ⟨a, eph.length, dt⟩ | _ => .error .zeroDiv }

/-- the hypotheses of `C111_satellite` are met: a position computation of the kind, a file cut in the last line of a message; the run finds the satellite -/
theorem C111_satellite_example : UsesFirst24 (extCut.satPos 'G') ∧ NavShort navCut 302 302 [navG 1 7, navR 24 3] 7 23 ∧ NavReadAs diskCut navPath navCut ∧
    NavChoice diskCut cfg 'G' ⟨2017, 1, 2, 3, 4, 0, 0⟩ navPath ∧ NamedDay navPath ⟨2017, 1, 2⟩ ∧ navCut ≠ navLines ∧
    (prmOf extCut diskCut cfg).load ⟨2017, 1, 2⟩ 'G' ≠ .error .rinex ∧ ∃ p, SatAt (prmOf extCut diskCut cfg) 'G' 1 ⟨2017, 1, 2, 3, 4, 0, 0⟩ p := by
  obtain ⟨ht, hr, hch⟩ := C75_hypotheses
  refine ⟨?_, ⟨ht.version, by decide, 'N', 'M', navWords, [], [HLine.render 302 (.version 302 'N' 'M' navWords)], hline [] lblEnd, navBody, _, by decide, rfl,
    List.getElem?_eq_getElem (by decide +kernel), ⟨⟨[], by simp, by simp⟩, trivial⟩, by simp, by decide +kernel, by decide +kernel, ?_, ?_⟩, ?_, ?_, ?_, by decide +kernel, ?_, ?_⟩
  · intro a b dt h24 hl
    have h1 : a[0]? = b[0]? := by
      have := congrArg (fun l => l[0]?) h24
      simpa [List.getElem?_take] using this
    show (match a with | .fin x :: _ => _ | _ => _) = (match b with | .fin x :: _ => _ | _ => _)
    cases a <;> cases b <;> simp_all
    rename_i x _
    cases x <;> rfl
  · intro m hm
    obtain ⟨_, _, _, _, _, _, _, _, _, _, _, _, _, h, _⟩ := ht.text
    exact h m hm
  · exact ⟨_, _, rfl, ⟨⟨false, written_refl _⟩, by decide +kernel⟩, _, _, rfl, ⟨⟨false, written_refl _⟩, by decide +kernel⟩, rfl⟩
  · refine ⟨by decide, fun hp => ?_, fun _ => by simp [diskCut]⟩
    have := (packed_iff navPath (by decide)).2 hp
    revert this
    decide +kernel
  · refine ⟨by decide, [], [[c% "BRDC00IGS_R_20170020000_01D_MN.rnx"]], rfl, .cons rfl .nil, ?_⟩
    exact (C35_choice _ ⟨2017, 1, 2, 3, 4, 0, 0⟩ 'G' [] legal0 (by decide) (by decide) navPath).1.1 (by decide +kernel)
  · exact (namedDay_iff navPath _ ⟨c% "BRDC00IGS_R_20170020000_01D_MN.rnx", by decide, .inr ⟨c% "n", by decide⟩⟩).1 (by decide +kernel)
  · have : ((prmOf extCut diskCut cfg).load ⟨2017, 1, 2⟩ 'G').toOption.isSome = true := by decide +kernel
    intro h
    rw [h] at this
    cases this
  · simp only [satAt_iff]
    exact Option.isSome_iff_exists.1 (by decide +kernel)

end ProgEx

end Verif.Props
