import Verif.Props.Readback
/-!
# C86: the order of the lines of an output file
-/
namespace Verif.Props
open Verif.Py Verif.Model Verif.Spec Verif.Proofs

/-- the items of a satellite come in increasing times: every satellite at most once per epoch, and the epochs in order -/
def InTurn (items : List ObsItem) : Prop :=
  items.Pairwise fun a b => a.sat = b.sat → ∀ e f, a.epoch = some e → b.epoch = some f → instant e < instant f

theorem kept_sublist {cfg : Cfg} {o : ObsIn} {kept : List ObsItem} (h : Kept cfg o kept) : kept.Sublist o.items := by
  cases h with
  | all => exact List.Sublist.refl _
  | some us flags _ _ _ hd =>
    rw [← hd.items]
    exact (List.filter_sublist).map _

theorem records_turn (P : Prm) (o : ObsIn) (xyz : Dict DateTime Pos) (seen : List Char) (items : List ObsItem) (ws : List Rec)
    (h : RecordsOf P o xyz seen items ws) (ht : InTurn items) :
    ws.Pairwise fun w w' => w.1 = w'.1 → w.2.1.date = w'.2.1.date ∧ instant w.2.1 < instant w'.2.1 := by
  induction h with
  | nil => exact .nil
  | other seen it its ws _ _ ih => exact ih (List.pairwise_cons.1 ht).2
  | lost seen it its ws c n e _ _ _ _ ih => exact ih (List.pairwise_cons.1 ht).2
  | none seen it its ws c n e _ _ _ _ ih => exact ih (List.pairwise_cons.1 ht).2
  | record seen it its ws c n e vals hc _ hg hr ih =>
    obtain ⟨h1, h2⟩ := List.pairwise_cons.1 ht
    refine List.pairwise_cons.2 ⟨?_, ih h2⟩
    intro w hw hsat
    obtain ⟨it', hi, c', n', h3, h4, -⟩ := records_gives P o xyz _ its ws hr w hw
    refine ⟨?_, h1 it' hi (hsat.trans h3.symm) e w.2.1 hc.2.1 h4.2.1⟩
    have := hc.2.2.2.symm.trans h4.2.2.2
    exact Option.some.inj this

/-- C86: the records of a satellite come in strictly increasing times, all on the same day; so there are never two records for a satellite and a time. -/
theorem C86_records (P : Prm) (o : ObsIn) (xyz : Dict DateTime Pos) (kept : List ObsItem) (ws : List Rec) (hk : Kept P.cfg o kept)
    (hr : RecordsOf P o xyz [] kept ws) (ht : InTurn o.items) (sat : Str) :
    (ws.filter (fun w => w.1 == sat)).Pairwise fun w w' => w.2.1.date = w'.2.1.date ∧ instant w.2.1 < instant w'.2.1 := by
  have h1 := records_turn P o xyz [] kept ws hr (ht.sublist (kept_sublist hk))
  rw [List.pairwise_filter]
  refine h1.imp ?_
  intro a b h ha hb
  exact h ((beq_iff_eq.1 ha).trans (beq_iff_eq.1 hb).symm)

theorem instant_secOfDay {e f : DateTime} (hd : e.date = f.date) : ((instant f - instant e : Int) : Rat) = (secOfDay f - secOfDay e) * 1000000 := by
  have h1 : e.year = f.year := congrArg Date.year hd
  have h2 : e.month = f.month := congrArg Date.month hd
  have h3 : e.day = f.day := congrArg Date.day hd
  unfold instant instantOf secOfDay
  rw [h1, h2, h3]
  push_cast
  ring

/-- C86: the lines of an output file (as described by C77): of two lines the later one has the greater `hour`, its time slot number `tsn` is not smaller, and
is greater if the times are at least one sampling interval apart. -/
theorem C86_lines (P : Prm) (o : ObsIn) (xyz : Dict DateTime Pos) (kept : List ObsItem) (ws : List Rec) (hk : Kept P.cfg o kept)
    (hr : RecordsOf P o xyz [] kept ws) (ht : InTurn o.items) (hint : 0 < o.interval)
    (site sat : Str) (e : DateTime) (v : List (Option FVal)) (more : List Rec) (satDef : Str) (nav : Option Str) (pos lbh : Pos) (lines : List Str) (text : Str)
    (hw : ws.filter (fun w => w.1 == sat) = (sat, e, v) :: more) (hout : OutputIs P o site sat e v more satDef nav pos lbh lines text)
    (hd : ∀ t, DateIsWord P t) (k k' : Nat) (w w' : Rec) (line line' : Str) (hkk : k < k') (h1 : ((sat, e, v) :: more)[k]? = some w)
    (h2 : ((sat, e, v) :: more)[k']? = some w') (h3 : lines[k]? = some line) (h4 : lines[k']? = some line') :
    (∀ j : Nat, P.cfg.recFields[j]? = some (c% "hour") → ∃ a b q q', (splitWs line)[j]? = some a ∧ (splitWs line')[j]? = some b ∧
      pyFloat a = .ok (.fin q) ∧ pyFloat b = .ok (.fin q') ∧ q < q') ∧
    (∀ j : Nat, P.cfg.recFields[j]? = some (c% "tsn") → ∃ a b n n', (splitWs line)[j]? = some a ∧ (splitWs line')[j]? = some b ∧
      pyInt a = .ok n ∧ pyInt b = .ok n' ∧ n ≤ n' ∧ (o.interval ≤ secOfDay w'.2.1 - secOfDay w.2.1 → n < n')) := by
  have hp := C86_records P o xyz kept ws hk hr ht sat
  rw [hw] at hp
  obtain ⟨l1, g1⟩ := List.getElem?_eq_some_iff.1 h1
  obtain ⟨l2, g2⟩ := List.getElem?_eq_some_iff.1 h2
  have hpp := List.pairwise_iff_getElem.1 hp k k' l1 l2 hkk
  rw [g1, g2] at hpp
  obtain ⟨hdate, hlt⟩ := hpp
  have hsec := instant_secOfDay hdate
  have hlt' : (0 : Rat) < ((instant w'.2.1 - instant w.2.1 : Int) : Rat) := by exact_mod_cast (by omega : (0 : Int) < instant w'.2.1 - instant w.2.1)
  obtain ⟨b1, e1, r1⟩ := forall₂_at hout.records h1
  obtain ⟨b2, e2, r2⟩ := forall₂_at hout.records h2
  rw [h3] at e1; rw [h4] at e2
  cases e1; cases e2
  constructor
  · intro j hj
    obtain ⟨a, q, a1, a2, a3⟩ := C85_hour P _ _ _ _ r1 (hd _) j hj
    obtain ⟨b, q', a4, a5, a6⟩ := C85_hour P _ _ _ _ r2 (hd _) j hj
    refine ⟨a, b, q, q', a1, a4, a2, a5, ?_⟩
    have hm : ∀ t : DateTime, (microOfDay t : Rat) = secOfDay t * 1000000 := by
      intro t; unfold microOfDay secOfDay; push_cast; ring
    have hm1 : (microOfDay w.2.1 : Rat) < microOfDay w'.2.1 := by rw [hm, hm]; linarith
    have hm2 : (microOfDay w.2.1 : Rat) + 1 ≤ microOfDay w'.2.1 := by exact_mod_cast (by exact_mod_cast hm1 : microOfDay w.2.1 < microOfDay w'.2.1)
    rw [abs_lt] at a3 a6
    linarith [a3.1, a3.2, a6.1, a6.2]
  · intro j hj
    obtain ⟨n, full, s1, f1, a1⟩ := C85_readback P _ _ _ _ r1 (hd _)
    obtain ⟨n', full', s2, f2, a2⟩ := C85_readback P _ _ _ _ r2 (hd _)
    have c0 : columns[0]? = some (c% "tsn", .int 11) := rfl
    have get : ∀ {full : List FVal} {n : Int} {a : Str}, full[0]? = some (.int n) → ColumnWords full (c% "tsn") [a] → pyInt a = .ok n := by
      rintro full n a hf ⟨i, kind, x, c1, c2, c3⟩
      obtain ⟨rfl, rfl⟩ := column_index c1 c0
      rw [hf] at c2
      cases c2
      obtain ⟨_, _, d1, d2, d3⟩ := c3
      cases d1; cases d2
      exact d3
    obtain ⟨a, a3, a4⟩ := forall₂_at a1 hj
    obtain ⟨b, a5, a6⟩ := forall₂_at a2 hj
    refine ⟨a, b, n, n', a3, a5, get f1.2.1 a4, get f2.2.1 a6, ?_, ?_⟩
    · have : secOfDay w.2.1 / o.interval ≤ secOfDay w'.2.1 / o.interval := by gcongr; linarith
      have h5 : (n : Rat) < n' + 1 := by linarith [s1.1, s2.2]
      have h6 : n < n' + 1 := by exact_mod_cast h5
      omega
    · intro hge
      have : secOfDay w.2.1 / o.interval + 1 ≤ secOfDay w'.2.1 / o.interval := by
        rw [le_div_iff₀ hint, add_mul, div_mul_cancel₀ _ hint.ne']; linarith
      have h5 : (n : Rat) < n' := by linarith [s1.1, s2.2]
      exact_mod_cast h5

/-- C86, RINEX 2: the condition on the items holds for every well-formed file that lists no satellite twice in an epoch. -/
theorem C86_rinex2 (path : Str) (file : List Str) (v : Nat) (sys : Char) (hs : List HLine) (ts : List Str) (es : List Epoch) (o : ObsIn)
    (hfile : File2 file v sys hs ts es) (ho : Opened2 path v sys hs ts es o) (hsat : ∀ e ∈ es, (e.sats.map fun s => s.1.name).Nodup) : InTurn o.items := by
  unfold InTurn
  rw [ho.items, List.pairwise_flatMap]
  constructor
  · intro e he
    unfold Epoch.items
    rw [List.pairwise_map]
    have := hsat e he
    rw [List.Nodup, List.pairwise_map] at this
    exact this.imp fun h1 h2 => absurd h2 h1
  · refine hfile.increasing.imp ?_
    intro a b hab x hx y hy _ e f he hf
    unfold Epoch.items at hx hy
    obtain ⟨s, -, rfl⟩ := List.mem_map.1 hx
    obtain ⟨s', -, rfl⟩ := List.mem_map.1 hy
    simp only [Option.some.injEq] at he hf
    subst he; subst hf
    exact hab

/-- C86, RINEX 3: the same; here the order of the epochs is not part of the assumptions on the file. -/
theorem C86_rinex3 (path : Str) (v : Nat) (sys : Char) (es : List HEntry) (items : List Item3) (a b : DateTime) (o : ObsIn)
    (ho : Opened3 path v sys es items a b o) (hsat : ∀ e, Item3.obs e ∈ items → (e.sats.map fun s => s.1.name3).Nodup)
    (hinc : items.Pairwise fun x y => ∀ e f, x = .obs e → y = .obs f → instant e.time < instant f.time) : InTurn o.items := by
  unfold InTurn
  rw [ho.items, List.pairwise_flatMap]
  constructor
  · intro x hx
    cases x with
    | event => exact .nil
    | obs e =>
      show List.Pairwise _ (Ep3.items _ _ e)
      unfold Ep3.items
      rw [List.pairwise_map]
      have := hsat e hx
      rw [List.Nodup, List.pairwise_map] at this
      exact this.imp fun h1 h2 => absurd h2 h1
  · refine hinc.imp ?_
    intro x y hab p hp q hq _ e f he hf
    cases x with
    | event => cases hp
    | obs x =>
      cases y with
      | event => cases hq
      | obs y =>
        have hp : p ∈ Ep3.items (typeMapOf v es) (sitePos (linesOf es)) x := hp
        have hq : q ∈ Ep3.items (typeMapOf v es) (sitePos (linesOf es)) y := hq
        unfold Ep3.items at hp hq
        obtain ⟨s, -, rfl⟩ := List.mem_map.1 hp
        obtain ⟨s', -, rfl⟩ := List.mem_map.1 hq
        simp only [Option.some.injEq] at he hf
        subst he; subst hf
        exact hab x y rfl rfl

namespace ProgEx

/-- the file of the example run meets the conditions; its records are two per satellite, 30 s apart -/
theorem C86_example : ∃ o, obsFile disk 5 obsPath = some (.ok o) ∧ Opened2 obsPath 211 'M' head exTypes [epoch 0, epoch 30] o ∧ InTurn o.items ∧ o.items.length = 4 := by
  obtain ⟨o, h1, h2⟩ := C73_open2 disk 5 obsPath obsLines 211 'M' head exTypes [epoch 0, epoch 30] readAs C73_hypotheses
  refine ⟨o, h1, h2, C86_rinex2 _ _ _ _ _ _ _ o C73_hypotheses h2 ?_, ?_⟩
  · intro e he
    simp only [List.mem_cons, List.not_mem_nil, or_false] at he
    rcases he with rfl | rfl <;> decide
  · rw [h2.items]; decide

end ProgEx

end Verif.Props
