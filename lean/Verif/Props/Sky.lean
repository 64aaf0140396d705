import Mathlib.Tactic.Linarith
import Mathlib.Tactic.FieldSimp
import Mathlib.Tactic.Positivity
import Mathlib.Tactic.GCongr
import Verif.Spec.Sky
import Verif.Props.Readback
import Verif.Props.DoubleTec
/-!
# Property C101: the TEC columns against the electron content
-/
namespace Verif.Props
open Verif.Py Verif.Model Verif.Spec Verif.Proofs

theorem code_sky (p q f g : Rat) (hf : f ≠ 0) (hg : g ≠ 0) (hfg : f ^ 2 - g ^ 2 ≠ 0) (rho tec : ℝ) (h1 : ThreeDecimals p (pseudorange rho tec (f : ℝ)))
    (h2 : ThreeDecimals q (pseudorange rho tec (g : ℝ))) : |((codeTec p q f g : Rat) : ℝ) - tec| ≤ tecuPerMetre f g / 1000 := by
  have hf' : (f : ℝ) ≠ 0 := by exact_mod_cast hf
  have hg' : (g : ℝ) ≠ 0 := by exact_mod_cast hg
  have hfg' : (f : ℝ) ^ 2 - (g : ℝ) ^ 2 ≠ 0 := by exact_mod_cast hfg
  have key : ((codeTec p q f g : Rat) : ℝ) - tec = (f : ℝ) ^ 2 * (g : ℝ) ^ 2 / ((f : ℝ) ^ 2 - (g : ℝ) ^ 2) *
      (((q : ℝ) - pseudorange rho tec (g : ℝ)) - ((p : ℝ) - pseudorange rho tec (f : ℝ))) / (40308 / 1000) / 10 ^ 16 := by
    simp only [codeTec, pseudorange, ionoDelay]
    push_cast
    field_simp
    ring
  rw [key, abs_div, abs_div, abs_mul, abs_of_pos (show (0 : ℝ) < 40308 / 1000 by norm_num), abs_of_pos (show (0 : ℝ) < 10 ^ 16 by norm_num)]
  have hd : |((q : ℝ) - pseudorange rho tec (g : ℝ)) - ((p : ℝ) - pseudorange rho tec (f : ℝ))| ≤ 1 / 1000 := by
    refine (abs_sub _ _).trans ?_
    unfold ThreeDecimals at h1 h2
    linarith
  calc _ ≤ |(f : ℝ) ^ 2 * (g : ℝ) ^ 2 / ((f : ℝ) ^ 2 - (g : ℝ) ^ 2)| * (1 / 1000) / (40308 / 1000) / 10 ^ 16 := by gcongr
    _ = tecuPerMetre f g / 1000 := by unfold tecuPerMetre; ring

theorem phase_sky (p q f g : Rat) (hf : 0 < f) (hg : 0 < g) (hfg : f ^ 2 - g ^ 2 ≠ 0) (rho tec m n : ℝ) (h1 : ThreeDecimals p (carrierPhase rho tec (f : ℝ) m))
    (h2 : ThreeDecimals q (carrierPhase rho tec (g : ℝ) n)) :
    |((phaseTec p q f g : Rat) : ℝ) - (tec + ambiguityTec f g m n)| ≤ tecuPerMetre f g * (wavelength (f : ℝ) + wavelength (g : ℝ)) / 2000 := by
  have hf' : (0 : ℝ) < f := by exact_mod_cast hf
  have hg' : (0 : ℝ) < g := by exact_mod_cast hg
  have hfg' : (f : ℝ) ^ 2 - (g : ℝ) ^ 2 ≠ 0 := by exact_mod_cast hfg
  have key : ((phaseTec p q f g : Rat) : ℝ) - (tec + ambiguityTec f g m n) = (f : ℝ) ^ 2 * (g : ℝ) ^ 2 / ((f : ℝ) ^ 2 - (g : ℝ) ^ 2) *
      (wavelength (f : ℝ) * ((p : ℝ) - carrierPhase rho tec (f : ℝ) m) - wavelength (g : ℝ) * ((q : ℝ) - carrierPhase rho tec (g : ℝ) n)) / (40308 / 1000) / 10 ^ 16 := by
    simp only [phaseTec, carrierPhase, ionoDelay, ambiguityTec, wavelength]
    push_cast
    field_simp
    ring
  have hw1 : 0 < wavelength (f : ℝ) := by unfold wavelength; positivity
  have hw2 : 0 < wavelength (g : ℝ) := by unfold wavelength; positivity
  rw [key, abs_div, abs_div, abs_mul, abs_of_pos (show (0 : ℝ) < 40308 / 1000 by norm_num), abs_of_pos (show (0 : ℝ) < 10 ^ 16 by norm_num)]
  have hd : |wavelength (f : ℝ) * ((p : ℝ) - carrierPhase rho tec (f : ℝ) m) - wavelength (g : ℝ) * ((q : ℝ) - carrierPhase rho tec (g : ℝ) n)| ≤
      (wavelength (f : ℝ) + wavelength (g : ℝ)) / 2000 := by
    refine (abs_sub _ _).trans ?_
    rw [abs_mul, abs_mul, abs_of_pos hw1, abs_of_pos hw2]
    unfold ThreeDecimals at h1 h2
    have e1 := mul_le_mul_of_nonneg_left h1 hw1.le
    have e2 := mul_le_mul_of_nonneg_left h2 hw2.le
    linarith
  calc _ ≤ |(f : ℝ) ^ 2 * (g : ℝ) ^ 2 / ((f : ℝ) ^ 2 - (g : ℝ) ^ 2)| * ((wavelength (f : ℝ) + wavelength (g : ℝ)) / 2000) / (40308 / 1000) / 10 ^ 16 := by gcongr
    _ = tecuPerMetre f g * (wavelength (f : ℝ) + wavelength (g : ℝ)) / 2000 := by unfold tecuPerMetre; ring

theorem single_sky (p q f : Rat) (hf : 0 < f) (rho tec n : ℝ) (h1 : ThreeDecimals p (carrierPhase rho tec (f : ℝ) n))
    (h2 : ThreeDecimals q (pseudorange rho tec (f : ℝ))) :
    |((singleTec p q f : Rat) : ℝ) - (tec + ambiguityTec1 f n)| ≤ tecuPerMetre1 f * (1 + wavelength (f : ℝ)) / 2000 := by
  have hf' : (0 : ℝ) < f := by exact_mod_cast hf
  have key : ((singleTec p q f : Rat) : ℝ) - (tec + ambiguityTec1 f n) = tecuPerMetre1 f *
      (((q : ℝ) - pseudorange rho tec (f : ℝ)) - wavelength (f : ℝ) * ((p : ℝ) - carrierPhase rho tec (f : ℝ) n)) := by
    simp only [singleTec, carrierPhase, pseudorange, ionoDelay, ambiguityTec1, tecuPerMetre1, wavelength]
    push_cast
    field_simp
    ring
  have hw1 : 0 < wavelength (f : ℝ) := by unfold wavelength; positivity
  have hk : 0 < tecuPerMetre1 (f : ℝ) := by unfold tecuPerMetre1; positivity
  rw [key, abs_mul, abs_of_pos hk]
  have hd : |((q : ℝ) - pseudorange rho tec (f : ℝ)) - wavelength (f : ℝ) * ((p : ℝ) - carrierPhase rho tec (f : ℝ) n)| ≤ (1 + wavelength (f : ℝ)) / 2000 := by
    refine (abs_sub _ _).trans ?_
    rw [abs_mul, abs_of_pos hw1]
    unfold ThreeDecimals at h1 h2
    have e1 := mul_le_mul_of_nonneg_left h1 hw1.le
    linarith
  calc _ ≤ tecuPerMetre1 (f : ℝ) * ((1 + wavelength (f : ℝ)) / 2000) := by gcongr
    _ = _ := by ring

/-- the TEC columns: two different bands (or one for phase and code), three decimals -/
theorem tec_columns {x a y b : Char} {kind : ColKind} (h : (['t', 'e', 'c', '.', x, a, y, b], kind) ∈ columns) :
    (∃ s w, kind = .fix s w 3) ∧ (x ≠ 'l' → a ≠ b) ∧ (x = 'l' → y = 'l' → a ≠ b) ∧ (x = 'l' → y ≠ 'l' → y = 'c' ∧ a = b) := by
  simp only [columns, List.mem_cons, Prod.mk.injEq, List.cons.injEq, reduceCtorEq, and_false, false_and, or_false, false_or, and_true, List.not_mem_nil,
    Char.reduceEq, true_and] at h
  rcases h with h | h | h | h | h | h | h | h | h | h | h | h | h | h | h | h | h <;>
    (obtain ⟨⟨rfl, rfl, rfl, rfl⟩, rfl⟩ := h; refine ⟨⟨_, _, rfl⟩, ?_⟩; decide)

theorem carrier_facts {c a : Char} {k f : Rat} (hk : |k| ≤ 100) (h : carrier c a k = some f) : 0 < f := by
  obtain ⟨k1, k2⟩ := abs_le.1 hk
  unfold carrier at h
  split at h <;> (try contradiction) <;> (injection h with h; subst h) <;> linarith

theorem carriers_differ {c a b : Char} {k f g : Rat} (hk : |k| ≤ 100) (hab : a ≠ b) (hf : carrier c a k = some f) (hg : carrier c b k = some g) : f ^ 2 - g ^ 2 ≠ 0 := by
  obtain ⟨-, K, hK, -⟩ := carriers_separated c a b hab k hk f g hf hg
  intro h
  unfold tecFactor at hK
  rw [if_pos h] at hK
  cases hK

theorem word_near {line : Str} {j : Nat} {kind : ColKind} {s w : _} (hk : kind = .fix s w 3) {t : Rat} {word : Str} (hw : (splitWs line)[j]? = some word)
    (hb : GivesBack kind (.flt (.fin t)) [word]) {x d : ℝ} (hx : |(t : ℝ) - x| ≤ d) : WordNear line j x (d + 1 / 2000) := by
  subst hk
  obtain ⟨q, q', w', hn, e1, e2, e3, -⟩ := hb
  cases e1
  have hq : q = t := by
    rcases hn with hn | ⟨i, hn, -⟩
    · cases hn; rfl
    · cases hn
  subst hq
  refine ⟨word, q', hw, e2, ?_⟩
  have e3' : |(q' : ℝ) - (q : ℝ)| ≤ 1 / 2 / 10 ^ 3 := by
    have : ((|q' - q| : Rat) : ℝ) ≤ ((1 / 2 / 10 ^ 3 : Rat) : ℝ) := by exact_mod_cast e3
    push_cast at this
    exact this
  have : (q' : ℝ) - x = ((q' : ℝ) - q) + ((q : ℝ) - x) := by ring
  rw [this]
  refine (abs_add_le _ _).trans ?_
  norm_num at e3'
  linarith

/-- C101, the line of a record: the frequency number of the satellite exists, and if it is not absurd, the TEC columns are the electron content. -/
theorem C101_line (P : Prm) (xyz : Dict DateTime Pos) (it : ObsItem) (c : Char) (n : Int) (interval : Rat) (e : DateTime) (vals : List (Option FVal))
    (line : Str) (hg : Gives P xyz it c n e vals) (h : RecordLine P interval e vals line) (hd : DateIsWord P e) (htext : P.cfg.outFileModeText = true) :
    ∃ k, FrequencyNumber P c n e k ∧ (|k| ≤ 100 → TecBack P it c k line) := by
  obtain ⟨k, hfn, htec⟩ := hg.tec
  refine ⟨k, hfn, fun hk => ?_⟩
  -- the word of a column and the value behind it
  have key : ∀ (x a y b : Char) (kind : ColKind) (j : Nat), (['t', 'e', 'c', '.', x, a, y, b], kind) ∈ columns → P.cfg.recFields[j]? = some ['t', 'e', 'c', '.', x, a, y, b] →
      (['t', 'e', 'c', '.', x, a, y, b] = c% "tec.l8c8" → c% "tec.l1c1" ∈ P.cfg.recFields ∨ c% "tec.l2c2" ∈ P.cfg.recFields) →
      ∀ f g, carrier c a k = some f → carrier c b k = some g →
      ∀ p i l q i' l', FamilyIs it.data [upperObs x, a] (some (some p, i, l)) → FamilyIs it.data [upperObs y, b] (some (some q, i', l')) → p ≠ 0 → q ≠ 0 →
      ∃ word kind', (['t', 'e', 'c', '.', x, a, y, b], kind') ∈ columns ∧ (splitWs line)[j]? = some word ∧
        GivesBack kind' (.flt (.fin (if x = 'l' then if y = 'l' then phaseTec p q f g else singleTec p q f else codeTec p q f g))) [word] := by
    intro x a y b kind j hcol hj h8 f g hf hg' p i l q i' l' hp hq hp0 hq0
    obtain ⟨v, w, r, hv, hw, ht, hc⟩ := htec htext x a y b kind hcol (List.mem_of_getElem? hj) h8
    have e1 := family_unique _ _ _ _ hv hp
    have e2 := family_unique _ _ _ _ hw hq
    subst e1
    subst e2
    simp only [Option.bind_some] at ht
    have hf0 := (carrier_facts hk hf).ne'
    have hg0 := (carrier_facts hk hg').ne'
    rcases ht with ⟨p', q', a', b', rfl', rfl'', e3, e4, -, -, -, -, hr⟩ | ⟨hno, -⟩
    · rw [hf] at e3
      rw [hg'] at e4
      cases rfl'
      cases rfl''
      cases e3
      cases e4
      subst hr
      obtain ⟨kind', word, k1, k2, k3⟩ := word_at P interval e vals line h hd j _ _ hj hc
      exact ⟨word, kind', k1, k2, k3⟩
    · exact absurd ⟨p, q, f, g, rfl, rfl, hf, hg', hp0, hq0, hf0, hg0⟩ hno
  refine ⟨?_, ?_, ?_⟩
  · intro x a y b kind j hcol hj hx f g hf hg' p i l q i' l' hp hq hp0 hq0 rho tec s1 s2
    obtain ⟨word, kind', k1, k2, k3⟩ := key x a y b kind j hcol hj (by
      intro h8
      simp only [List.cons.injEq, and_true, true_and] at h8
      exact absurd h8.1 hx) f g hf hg' p i l q i' l' hp hq hp0 hq0
    obtain ⟨⟨s, w, hk'⟩, hab, -, -⟩ := tec_columns k1
    rw [if_neg hx] at k3
    exact word_near hk' k2 k3 (code_sky p q f g (carrier_facts hk hf).ne' (carrier_facts hk hg').ne' (carriers_differ hk (hab hx) hf hg') rho tec s1 s2)
  · intro a b kind j hcol hj f g hf hg' p i l q i' l' hp hq hp0 hq0 rho tec m n' s1 s2
    obtain ⟨word, kind', k1, k2, k3⟩ := key 'l' a 'l' b kind j hcol hj (by
      intro h8
      simp at h8) f g hf hg' p i l q i' l' hp hq hp0 hq0
    obtain ⟨⟨s, w, hk'⟩, -, hab, -⟩ := tec_columns k1
    rw [if_pos rfl, if_pos rfl] at k3
    exact word_near hk' k2 k3 (phase_sky p q f g (carrier_facts hk hf) (carrier_facts hk hg') (carriers_differ hk (hab rfl rfl) hf hg') rho tec m n' s1 s2)
  · intro a kind j hcol hj h8 f hf p i l q i' l' hp hq hp0 hq0 rho tec n' s1 s2
    obtain ⟨word, kind', k1, k2, k3⟩ := key 'l' a 'c' a kind j hcol hj (by
      intro h
      simp only [List.cons.injEq, and_true, true_and] at h
      exact h8 h.1) f f hf hf p i l q i' l' hp hq hp0 hq0
    obtain ⟨⟨s, w, hk'⟩, -, -, -⟩ := tec_columns k1
    rw [if_pos rfl, if_neg (by decide)] at k3
    exact word_near hk' k2 k3 (single_sky p q f (carrier_facts hk hf) rho tec n' s1 s2)

/-- C101, the output file: every line of an output file (as described by C77) is that of an item of the observation file, and its TEC columns are the electron
content. -/
theorem C101_file (P : Prm) (o : ObsIn) (xyz : Dict DateTime Pos) (kept : List ObsItem) (ws : List Rec) (hr : RecordsOf P o xyz [] kept ws)
    (site sat : Str) (e : DateTime) (v : List (Option FVal)) (more : List Rec) (satDef : Str) (nav : Option Str) (pos lbh : Pos) (lines : List Str) (text : Str)
    (hw : ws.filter (fun w => w.1 == sat) = (sat, e, v) :: more) (hout : OutputIs P o site sat e v more satDef nav pos lbh lines text)
    (hd : ∀ t, DateIsWord P t) (htext : P.cfg.outFileModeText = true) :
    List.Forall₂ (fun w line => ∃ it ∈ kept, ∃ c n k, it.sat = sat ∧ Considered o it c n w.2.1 ∧ FrequencyNumber P c n w.2.1 k ∧ (|k| ≤ 100 → TecBack P it c k line))
      ((sat, e, v) :: more) lines := by
  have hmem : ∀ w ∈ (sat, e, v) :: more, ∃ it ∈ kept, ∃ c n, it.sat = sat ∧ Considered o it c n w.2.1 ∧ Gives P xyz it c n w.2.1 w.2.2 := by
    intro w hw'
    rw [← hw, List.mem_filter] at hw'
    obtain ⟨it, h1, c, n, h2, h3, h4⟩ := records_gives P o xyz [] kept ws hr w hw'.1
    exact ⟨it, h1, c, n, h2.trans (by simpa using hw'.2), h3, h4⟩
  have hrec := hout.records
  clear hout hw
  generalize (sat, e, v) :: more = l at hmem hrec
  induction hrec with
  | nil => exact .nil
  | @cons w line l lines h _ ih =>
    refine .cons ?_ (ih fun w hw => hmem w (by simp [hw]))
    obtain ⟨it, h1, c, n, h2, h3, h4⟩ := hmem w (by simp)
    obtain ⟨k, h5, h6⟩ := C101_line P xyz it c n o.interval w.2.1 w.2.2 line h4 h (hd _) htext
    exact ⟨it, h1, c, n, k, h2, h3, h5, h6⟩

/-- C101, along an arc: two lines of a satellite, the phases of both with the same ambiguities.  The difference of the phase TEC in the two lines is the change
of the electron content. -/
theorem C101_arc (P : Prm) (it it' : ObsItem) (c : Char) (k : Rat) (line line' : Str) (h : TecBack P it c k line) (h' : TecBack P it' c k line')
    (a b : Char) (kind : ColKind) (j : Nat) (hcol : (['t', 'e', 'c', '.', 'l', a, 'l', b], kind) ∈ columns) (hj : P.cfg.recFields[j]? = some ['t', 'e', 'c', '.', 'l', a, 'l', b])
    (f g : Rat) (hf : carrier c a k = some f) (hg : carrier c b k = some g) (p q p' q' : Rat) (i1 i2 i3 i4 l1 l2 l3 l4 : Int)
    (hp : FamilyIs it.data ['L', a] (some (some p, i1, l1))) (hq : FamilyIs it.data ['L', b] (some (some q, i2, l2)))
    (hp' : FamilyIs it'.data ['L', a] (some (some p', i3, l3))) (hq' : FamilyIs it'.data ['L', b] (some (some q', i4, l4)))
    (h0 : p ≠ 0 ∧ q ≠ 0 ∧ p' ≠ 0 ∧ q' ≠ 0) (rho tec rho' tec' m n : ℝ)
    (s1 : ThreeDecimals p (carrierPhase rho tec (f : ℝ) m)) (s2 : ThreeDecimals q (carrierPhase rho tec (g : ℝ) n))
    (s3 : ThreeDecimals p' (carrierPhase rho' tec' (f : ℝ) m)) (s4 : ThreeDecimals q' (carrierPhase rho' tec' (g : ℝ) n)) :
    ∃ w v w' v', (splitWs line)[j]? = some w ∧ pyFloat w = .ok (.fin v) ∧ (splitWs line')[j]? = some w' ∧ pyFloat w' = .ok (.fin v') ∧
      |((v' : ℝ) - v) - (tec' - tec)| ≤ tecuPerMetre f g * (wavelength (f : ℝ) + wavelength (g : ℝ)) / 1000 + 1 / 1000 := by
  obtain ⟨w, v, a1, a2, a3⟩ := h.phases a b kind j hcol hj f g hf hg p i1 l1 q i2 l2 hp hq h0.1 h0.2.1 rho tec m n s1 s2
  obtain ⟨w', v', b1, b2, b3⟩ := h'.phases a b kind j hcol hj f g hf hg p' i3 l3 q' i4 l4 hp' hq' h0.2.2.1 h0.2.2.2 rho' tec' m n s3 s4
  refine ⟨w, v, w', v', a1, a2, b1, b2, ?_⟩
  have : ((v' : ℝ) - v) - (tec' - tec) = ((v' : ℝ) - (tec' + ambiguityTec f g m n)) - ((v : ℝ) - (tec + ambiguityTec f g m n)) := by ring
  rw [this]
  refine (abs_sub _ _).trans ?_
  linarith

/-! ## In numbers -/

theorem tecu_le {f g : ℝ} (M : ℝ) (h : f ^ 2 * g ^ 2 ≤ M * (40308 / 1000) * 10 ^ 16 * (f ^ 2 - g ^ 2)) (hfg : 0 < f ^ 2 - g ^ 2) : tecuPerMetre f g ≤ M := by
  unfold tecuPerMetre
  rw [abs_of_nonneg (by positivity), div_le_iff₀ (by positivity), div_le_iff₀ (by positivity), div_le_iff₀ hfg]
  linarith

/-- C101, a metre in TECU: for GPS and SBAS, Galileo, BeiDou, and GLONASS with its frequency numbers -/
theorem C101_tecu : tecuPerMetre 1575420000 1227600000 ≤ 9.53 ∧ tecuPerMetre 1575420000 1176450000 ≤ 7.77 ∧ tecuPerMetre 1227600000 1176450000 ≤ 42.1 ∧
    tecuPerMetre 1561098000 1207140000 ≤ 9 ∧ tecuPerMetre 1561098000 1268520000 ≤ 11.8 ∧ tecuPerMetre 1268520000 1207140000 ≤ 38.4 ∧
    ∀ k : ℝ, -7 ≤ k → k ≤ 13 → tecuPerMetre (1602000000 + k * 562500) (1246000000 + k * 437500) ≤ 10 := by
  refine ⟨tecu_le _ (by norm_num) (by norm_num), tecu_le _ (by norm_num) (by norm_num), tecu_le _ (by norm_num) (by norm_num), tecu_le _ (by norm_num) (by norm_num),
    tecu_le _ (by norm_num) (by norm_num), tecu_le _ (by norm_num) (by norm_num), ?_⟩
  intro k h1 h2
  refine tecu_le _ ?_ (by nlinarith)
  have e1 : 1602000000 + k * 562500 = 562500 * (2848 + k) := by ring
  have e2 : 1246000000 + k * 437500 = 437500 * (2848 + k) := by ring
  rw [e1, e2]
  have hs : (2848 + k) ^ 2 ≤ 2861 ^ 2 := pow_le_pow_left₀ (by linarith) (by linarith) 2
  have h0 : (0 : ℝ) ≤ (2848 + k) ^ 2 := by positivity
  have : (562500 * (2848 + k)) ^ 2 * (437500 * (2848 + k)) ^ 2 = 562500 ^ 2 * 437500 ^ 2 * ((2848 + k) ^ 2 * (2848 + k) ^ 2) := by ring
  rw [this]
  have h3 := mul_le_mul_of_nonneg_right hs h0
  have : (562500 * (2848 + k)) ^ 2 - (437500 * (2848 + k)) ^ 2 = (562500 ^ 2 - 437500 ^ 2) * (2848 + k) ^ 2 := by ring
  rw [this]
  nlinarith

/-! ## In double precision -/

theorem tecText_near {sg : Bool} {w : Nat} {D T : Rat} {s : Str} (hs : ColText (.fix sg w 3) (.flt (.fin D)) s) (hD : |D - T| < 1 / 10000) {x d : ℝ}
    (hx : |(T : ℝ) - x| ≤ d) : WordNear s 0 x (d + 6 / 10000) := by
  have hb := colText_words hs rfl
  have hb' := hb
  obtain ⟨_, _, word, _, e1, _⟩ := hb'
  have hw : (splitWs s)[0]? = some word := by rw [e1]; rfl
  rw [e1] at hb
  have hDr : |(D : ℝ) - (T : ℝ)| ≤ 1 / 10000 := by
    have : ((|D - T| : Rat) : ℝ) ≤ ((1 / 10000 : Rat) : ℝ) := by exact_mod_cast hD.le
    push_cast at this
    exact this
  have hDx : |(D : ℝ) - x| ≤ d + 1 / 10000 := by
    have : (D : ℝ) - x = ((D : ℝ) - T) + ((T : ℝ) - x) := by ring
    rw [this]
    refine (abs_add_le _ _).trans ?_
    linarith
  have := word_near rfl hw hb hDx
  rw [show d + 6 / 10000 = d + 1 / 10000 + 1 / 2000 by ring]
  exact this

/-- C101, in double precision, two codes: the text of the value computed in double precision, printed with three decimals -/
theorem C101_double_codes {sq : Rat → Rat} (h : SquareOk sq) (system b1 b2 : Char) (hb : b1 ≠ b2) (k : Rat) (hk : |k| ≤ 100) (f g : Rat)
    (h1 : carrier system b1 k = some f) (h2 : carrier system b2 k = some g) (p q : Rat) (hp : |p| ≤ 50000000) (hq : |q| ≤ 50000000) (hd : |q - p| ≤ 1000000)
    (hp0 : p ≠ 0) (hq0 : q ≠ 0) (rho tec : ℝ) (s1 : ThreeDecimals p (pseudorange rho tec (f : ℝ))) (s2 : ThreeDecimals q (pseudorange rho tec (g : ℝ)))
    (sg : Bool) (w : Nat) (s : Str) (hs : ColText (.fix sg w 3) (.flt (.fin (viaPDouble sq p q f g))) s) :
    WordNear s 0 tec (tecuPerMetre f g / 1000 + 6 / 10000) := by
  have hf0 := (carrier_facts hk h1).ne'
  have hg0 := (carrier_facts hk h2).ne'
  have hfg := carriers_differ hk hb h1 h2
  have hT : viaP (some p) (some q) (some f) (some g) = .ok (some (codeTec p q f g)) := by
    unfold viaP tecFactor codeTec
    simp only [hf0, hg0, hp0, hq0, hfg, if_false]
    congr 2
    ring
  exact tecText_near hs (C83_code_tecu h system b1 b2 hb k hk f g h1 h2 p q _ hp hq hd hT) (code_sky p q f g hf0 hg0 hfg rho tec s1 s2)

/-- C101, in double precision, two phases -/
theorem C101_double_phases {sq : Rat → Rat} (h : SquareOk sq) (system b1 b2 : Char) (hb : b1 ≠ b2) (k : Rat) (hk : |k| ≤ 100) (f g : Rat)
    (h1 : carrier system b1 k = some f) (h2 : carrier system b2 k = some g) (p q : Rat) (hp : |wavelength f * p| ≤ 50000000) (hq : |wavelength g * q| ≤ 50000000)
    (hd : |wavelength f * p - wavelength g * q| ≤ 1000000)
    (hp0 : p ≠ 0) (hq0 : q ≠ 0) (rho tec m n : ℝ) (s1 : ThreeDecimals p (carrierPhase rho tec (f : ℝ) m)) (s2 : ThreeDecimals q (carrierPhase rho tec (g : ℝ) n))
    (sg : Bool) (w : Nat) (s : Str) (hs : ColText (.fix sg w 3) (.flt (.fin (viaLDouble sq p q f g))) s) :
    WordNear s 0 (tec + ambiguityTec f g m n) (tecuPerMetre f g * (wavelength (f : ℝ) + wavelength (g : ℝ)) / 2000 + 6 / 10000) := by
  have hf0 := (carrier_facts hk h1).ne'
  have hg0 := (carrier_facts hk h2).ne'
  have hfg := carriers_differ hk hb h1 h2
  have hT : viaL (some p) (some q) (some f) (some g) 0 = .ok (some (phaseTec p q f g)) := by
    unfold viaL tecFactor phaseTec lightSpeed
    simp only [hf0, hg0, hp0, hq0, hfg, if_false]
    congr 2
    ring
  exact tecText_near hs (C83_phase_tecu h system b1 b2 hb k hk f g h1 h2 p q _ hp hq hd hT)
    (phase_sky p q f g (carrier_facts hk h1) (carrier_facts hk h2) hfg rho tec m n s1 s2)

/-- C101, in double precision, a phase and a code -/
theorem C101_double_single {sq : Rat → Rat} (h : SquareOk sq) (system b : Char) (k : Rat) (hk : |k| ≤ 100) (f : Rat)
    (h1 : carrier system b k = some f) (p q : Rat) (hp : |wavelength f * p| ≤ 50000000) (hq : |q| ≤ 50000000)
    (hp0 : p ≠ 0) (hq0 : q ≠ 0) (rho tec n : ℝ) (s1 : ThreeDecimals p (carrierPhase rho tec (f : ℝ) n)) (s2 : ThreeDecimals q (pseudorange rho tec (f : ℝ)))
    (sg : Bool) (w : Nat) (s : Str) (hs : ColText (.fix sg w 3) (.flt (.fin (viaLCDouble sq p q f))) s) :
    WordNear s 0 (tec + ambiguityTec1 f n) (tecuPerMetre1 f * (1 + wavelength (f : ℝ)) / 2000 + 6 / 10000) := by
  have hf0 := (carrier_facts hk h1).ne'
  have hT : viaLC (some p) (some q) (some f) = some (singleTec p q f) := by
    unfold viaLC singleTec lightSpeed
    simp only [hf0, hp0, hq0, if_false]
    congr 1
    ring
  exact tecText_near hs (C83_single_tecu h system b k hk f h1 p q _ hp hq hT) (single_sky p q f (carrier_facts hk h1) rho tec n s1 s2)

/-! ## Example -/

/-- the hypotheses: GPS, 20000 km, 50 TECU; the pseudoranges written with three decimals; a line with the TEC of C83_example's satellite -/
theorem C101_example : ThreeDecimals (20000008120 / 1000) (pseudorange 20000000 50 (1575420000 : ℝ)) ∧ ThreeDecimals (20000013374 / 1000) (pseudorange 20000000 50 (1227600000 : ℝ)) ∧
    ThreeDecimals (105100673699 / 1000) (carrierPhase 20000000 50 (1575420000 : ℝ) 7) ∧
    ColText (.fix true 10 3) (.flt (.fin (codeTec (20000008120 / 1000) (20000013374 / 1000) 1575420000 1227600000))) (c% "    50.006") ∧
    pyFloat (c% "50.006") = .ok (.fin (50006 / 1000)) := by
  refine ⟨?_, ?_, ?_, ?_, by decide +kernel⟩
  · unfold ThreeDecimals pseudorange ionoDelay; rw [abs_le]; norm_num
  · unfold ThreeDecimals pseudorange ionoDelay; rw [abs_le]; norm_num
  · unfold ThreeDecimals carrierPhase wavelength ionoDelay; rw [abs_le]; norm_num
  · refine ⟨_, 50006, .inl rfl, ?_, ?_⟩
    · unfold RoundsTo codeTec
      norm_num
    · rw [if_neg (by unfold codeTec; norm_num)]
      decide +kernel

end Verif.Props
