import Verif.Props.Rinex3
import Verif.Spec.Interval3
/-!
# Property C22: the sampling interval of RINEX 3 files
-/
namespace Verif.Props
open Verif.Py Verif.Model Verif.Spec Verif.Proofs

/-- the epoch and event lines of a body, all of them readable: date and flag -/
inductive Marks : List Str → List (Option DateTime × Int) → Prop
  | nil : Marks [] []
  | other {l ls ms} : l ≠ [] → l.head? ≠ some '>' → Marks ls ms → Marks (l :: ls) ms
  | mark {l ls ms e} : l.head? = some '>' → parseEpoch3 l = .ok e → Marks ls ms → Marks (l :: ls) ((e.epoch, e.flag) :: ms)

theorem isEpochLine_head {l : Str} (h : l.head? = some '>') : isEpochLine l = .ok true := by
  cases l with
  | nil => simp at h
  | cons a r => simp only [List.head?_cons, Option.some.injEq] at h; subst h; rfl

theorem isEpochLine_not {l : Str} (hne : l ≠ []) (h : l.head? ≠ some '>') : isEpochLine l = .ok false := by
  cases l with
  | nil => exact absurd rfl hne
  | cons a r =>
    simp only [List.head?_cons, ne_eq, Option.some.injEq] at h
    simp [isEpochLine, h]

theorem Marks.unique {ls : List Str} {a b : List (Option DateTime × Int)} (ha : Marks ls a) (hb : Marks ls b) : a = b := by
  induction ha generalizing b with
  | nil => cases hb; rfl
  | other hne hh _ ih =>
    cases hb with
    | other _ _ h => exact ih h
    | mark h' _ _ => exact absurd h' hh
  | mark hh hp _ ih =>
    cases hb with
    | other _ h' _ => exact absurd hh h'
    | mark h' hp' h =>
      rw [hp] at hp'
      cases hp'
      rw [ih h]

/-- `_next_epoch` delivers the first candidate -/
theorem nextEpoch3_marks {ls : List Str} {ms : List (Option DateTime × Int)} (h : Marks ls ms) (cur : Option DateTime) :
    ∃ ls' ms' t, nextEpoch3 ls cur = .ok (t, ls') ∧ Marks ls' ms' ∧
      ((candidates.go cur ms = [t] ∧ ls' = [] ∧ ms' = []) ∨
       (candidates.go cur ms = t :: candidates.go none ms' ∧ ls'.length < ls.length ∧ ms'.length < ms.length)) := by
  induction h generalizing cur with
  | nil => exact ⟨[], [], cur, rfl, .nil, Or.inl ⟨rfl, rfl, rfl⟩⟩
  | other hne hh _ ih =>
    obtain ⟨ls', ms', t, h1, h2, h3⟩ := ih cur
    refine ⟨ls', ms', t, ?_, h2, ?_⟩
    · rw [nextEpoch3, isEpochLine_not hne hh]; exact h1
    · rcases h3 with h3 | ⟨a, b, c⟩
      · exact Or.inl h3
      · exact Or.inr ⟨a, by rw [List.length_cons]; omega, c⟩
  | @mark l ls ms e hh hp hm ih =>
    rw [nextEpoch3, isEpochLine_head hh]
    simp only [hp]
    by_cases hf : e.flag > 1
    · obtain ⟨ls', ms', t, h1, h2, h3⟩ := ih e.epoch
      refine ⟨ls', ms', t, by rw [if_pos hf]; exact h1, h2, ?_⟩
      simp only [candidates.go, if_pos hf, List.length_cons]
      rcases h3 with h3 | ⟨a, b, c⟩
      · exact Or.inl h3
      · exact Or.inr ⟨a, by omega, by omega⟩
    · refine ⟨ls, ms, e.epoch, by rw [if_neg hf], hm, Or.inr ?_⟩
      simp only [candidates.go, if_neg hf, List.length_cons]
      exact ⟨trivial, by omega, by omega⟩

/-- the search for a different epoch ends as soon as there is one, and otherwise never does if there is no time at all -/
theorem detLoop3_marks (e0 : Option DateTime) {ls : List Str} {ms : List (Option DateTime × Int)} (h : Marks ls ms)
    (e1 : Option DateTime) :
    ((∃ x ∈ e1 :: (candidates.go none ms ++ [none]), x ≠ e0) →
      ∃ n, ∀ fuel, n ≤ fuel → detLoop3 fuel e0 e1 ls = some (.ok (e0, otherThan e0 (e1 :: candidates.go none ms)))) ∧
    ((∀ x ∈ e1 :: (candidates.go none ms ++ [none]), x = e0) → ∀ fuel, detLoop3 fuel e0 e1 ls = none) := by
  have hnil : ∀ e0 e1, (e0 = none → e1 = none → ∀ fuel, detLoop3 fuel e0 e1 [] = none) := by
    rintro _ _ rfl rfl fuel
    induction fuel with
    | zero => rfl
    | succ n ih => simpa [detLoop3, nextEpoch3] using ih
  induction hn : ls.length using Nat.strongRecOn generalizing ls ms e1 with
  | _ n ih =>
    subst hn
    by_cases h01 : e0 = e1
    · subst h01
      obtain ⟨ls', ms', t, h1, h2, h3⟩ := nextEpoch3_marks h none
      have step : ∀ fuel, detLoop3 (fuel + 1) e0 e0 ls = detLoop3 fuel e0 t ls' := by
        intro fuel; rw [detLoop3, if_pos rfl, h1]
      rcases h3 with ⟨h3, rfl, rfl⟩ | ⟨h3, h4, _⟩
      · -- end of file
        rw [h3]
        by_cases ht : t = e0
        · subst ht
          by_cases ht0 : t = none
          · subst ht0
            refine ⟨by simp, ?_⟩
            intro _ fuel
            cases fuel with
            | zero => rfl
            | succ f => rw [step]; exact hnil _ _ rfl rfl f
          · refine ⟨?_, ?_⟩
            · intro _
              refine ⟨2, ?_⟩
              intro fuel hf
              obtain ⟨f, rfl⟩ : ∃ f, fuel = f + 1 + 1 := ⟨fuel - 2, by omega⟩
              rw [step, detLoop3, if_pos rfl]
              simp only [nextEpoch3]
              have : detLoop3 f t none [] = some (.ok (t, none)) := by
                cases f <;> simp [detLoop3, ht0]
              rw [this]
              simp [otherThan]
            · intro hall
              exact absurd (hall none (by simp)).symm ht0
        · refine ⟨?_, fun hall => absurd (hall t (by simp)) ht⟩
          intro _
          refine ⟨1, ?_⟩
          intro fuel hf
          obtain ⟨f, rfl⟩ : ∃ f, fuel = f + 1 := ⟨fuel - 1, by omega⟩
          rw [step]
          have : detLoop3 f e0 t [] = some (.ok (e0, t)) := by
            cases f <;> simp [detLoop3, Ne.symm ht]
          rw [this]
          simp [otherThan, ht]
      · obtain ⟨i1, i2⟩ := ih _ h4 h2 t rfl
        rw [h3]
        refine ⟨?_, ?_⟩
        · rintro ⟨x, hx, hne⟩
          have : ∃ x ∈ t :: (candidates.go none ms' ++ [none]), x ≠ e0 := by
            refine ⟨x, ?_, hne⟩
            rcases List.mem_cons.1 hx with rfl | hx
            · exact absurd rfl hne
            · simpa using hx
          obtain ⟨n, hn⟩ := i1 this
          refine ⟨n + 1, ?_⟩
          intro fuel hf
          obtain ⟨f, rfl⟩ : ∃ f, fuel = f + 1 := ⟨fuel - 1, by omega⟩
          rw [step, hn f (by omega)]
          simp [otherThan, List.find?_cons]
        · intro hall fuel
          cases fuel with
          | zero => simp [detLoop3]
          | succ f =>
            rw [step]
            exact i2 (fun x hx => hall x (by
              rw [List.cons_append]; exact List.mem_cons_of_mem _ hx)) f
    · have : ∀ fuel, detLoop3 fuel e0 e1 ls = some (.ok (e0, e1)) := by
        intro fuel; cases fuel <;> simp [detLoop3, h01]
      refine ⟨fun _ => ⟨0, fun fuel _ => ?_⟩, fun hall => absurd (hall e1 (by simp)).symm h01⟩
      rw [this]
      simp [otherThan, Ne.symm h01]

/-- the outcome for two times: the positive spacing, or an error -/
def spacingOf : Option DateTime → Option DateTime → Except PyErr Int
  | some a, some b => if b.sub a ≤ 0 then .error .rinex else .ok (b.sub a)
  | _, _ => .error .rinex

/-- C22: in a body all of whose epoch lines are readable, detection looks at the candidates `first :: rest`. If one of them is
a time, it ends with the spacing between the first candidate and the first later different one, when both are times and the
spacing is positive, and with RinexError otherwise. If none of them is a time it never ends. -/
theorem C22_interval {ls : List Str} {ms : List (Option DateTime × Int)} (h : Marks ls ms)
    {first : Option DateTime} {rest : List (Option DateTime)} (hc : candidates ms = first :: rest) :
    ((∃ t, some t ∈ candidates ms) →
      ∃ n, ∀ fuel, n ≤ fuel → detInterval3 fuel ls = some (spacingOf first (otherThan first rest))) ∧
    ((∀ t, some t ∉ candidates ms) → ∀ fuel, detInterval3 fuel ls = none) := by
  obtain ⟨l1, m1, t0, a1, a2, a3⟩ := nextEpoch3_marks h none
  obtain ⟨l2, m2, t1, b1, b2, b3⟩ := nextEpoch3_marks a2 none
  have hdet : ∀ fuel, detInterval3 fuel ls = match detLoop3 fuel t0 t1 l2 with
      | none => none
      | some (.error e) => some (.error e)
      | some (.ok (some a, some b)) => if b.sub a ≤ 0 then some (.error .rinex) else some (.ok (b.sub a))
      | some (.ok _) => some (.error .rinex) := by
    intro fuel; unfold detInterval3; rw [a1]; simp only [b1]; rfl
  have hsome : ∀ (x y : Option DateTime), (match (some (.ok (x, y)) : Option (Except PyErr (Option DateTime × Option DateTime))) with
      | none => none
      | some (.error e) => some (.error e)
      | some (.ok (some a, some b)) => if b.sub a ≤ 0 then some (.error .rinex) else some (.ok (b.sub a))
      | some (.ok _) => some (.error .rinex)) = some (spacingOf x y) := by
    intro x y
    cases x <;> cases y <;> simp only [spacingOf]
    split <;> rfl
  obtain ⟨k1, k2⟩ := detLoop3_marks t0 b2 t1
  have hc' : candidates.go none ms = first :: rest := hc
  -- candidates in terms of the calls
  have hfirst : t0 = first := by
    rcases a3 with ⟨h, _⟩ | ⟨h, _⟩ <;> rw [h] at hc' <;> simp only [List.cons.injEq] at hc' <;> exact hc'.1
  -- what the search sees is the rest, up to missing times at the end
  have hsee : (otherThan t0 (t1 :: candidates.go none m2) = otherThan t0 rest) ∧
      ((∃ x ∈ t1 :: (candidates.go none m2 ++ [none]), x ≠ t0) ↔ ∃ x ∈ rest ++ [none], x ≠ t0) := by
    rcases a3 with ⟨h, rfl, rfl⟩ | ⟨h, _⟩
    · rw [hc'] at h
      simp only [List.cons.injEq] at h
      obtain ⟨_, rfl⟩ := h
      have : t1 = none ∧ l2 = [] := by
        simp only [nextEpoch3, Except.ok.injEq, Prod.mk.injEq] at b1
        exact ⟨b1.1.symm, b1.2.symm⟩
      obtain ⟨rfl, rfl⟩ := this
      have hm2 : m2 = [] := b2.unique .nil
      subst hm2
      simp only [candidates.go]
      refine ⟨?_, by simp⟩
      by_cases ht : t0 = none
      · subst ht; simp [otherThan]
      · simp [otherThan, Ne.symm ht]
    · rw [hc'] at h
      simp only [List.cons.injEq] at h
      obtain ⟨_, rfl⟩ := h
      rcases b3 with ⟨h', rfl, rfl⟩ | ⟨h', _⟩
      · rw [h']
        simp only [candidates.go]
        refine ⟨?_, by simp⟩
        by_cases h1 : t1 = t0
        · subst h1
          by_cases ht : t1 = none
          · subst ht; simp [otherThan]
          · simp [otherThan, Ne.symm ht]
        · simp [otherThan, h1]
      · rw [h']
        exact ⟨rfl, by simp⟩
  subst hfirst
  rw [hsee.1, hsee.2] at k1
  refine ⟨?_, ?_⟩
  · rintro ⟨t, ht⟩
    have : ∃ x ∈ rest ++ [none], x ≠ t0 := by
      by_cases h0 : t0 = none
      · subst h0
        rw [hc] at ht
        rcases List.mem_cons.1 ht with h | h
        · simp at h
        · exact ⟨some t, by simp [h], by simp⟩
      · exact ⟨none, by simp, Ne.symm h0⟩
    obtain ⟨n, hn⟩ := k1 this
    refine ⟨n, fun fuel hf => ?_⟩
    rw [hdet, hn fuel hf, hsome]
  · intro hno fuel
    have hall : ∀ x ∈ candidates ms, x = none := by
      intro x hx
      cases x with
      | none => rfl
      | some t => exact absurd hx (hno t)
    have h0 : t0 = none := hall t0 (by rw [hc]; simp)
    have : ∀ x ∈ t1 :: (candidates.go none m2 ++ [none]), x = t0 := by
      by_contra hcon
      push Not at hcon
      obtain ⟨x, hx, hne⟩ := hsee.2.1 hcon
      rcases List.mem_append.1 hx with hx | hx
      · exact hne (by rw [h0]; exact hall x (by rw [hc]; simp [hx]))
      · exact hne (by rw [h0]; simpa using hx)
    rw [hdet, k2 this fuel]

/-! ### files with unreadable epoch lines -/

theorem nextEpoch3_nomarks {ls : List Str} (hne : ∀ l ∈ ls, l ≠ []) (hm : ¬ ∃ ms, Marks ls ms) (cur : Option DateTime) :
    (∃ e, nextEpoch3 ls cur = .error e) ∨
    ∃ t ls', nextEpoch3 ls cur = .ok (t, ls') ∧ ls'.length < ls.length ∧ (∀ l ∈ ls', l ≠ []) ∧ ¬ ∃ ms, Marks ls' ms := by
  induction ls generalizing cur with
  | nil => exact absurd ⟨[], .nil⟩ hm
  | cons l ls ih =>
    have hne' : ∀ l ∈ ls, l ≠ [] := fun x hx => hne x (by simp [hx])
    rw [nextEpoch3]
    by_cases hh : l.head? = some '>'
    · rw [isEpochLine_head hh]
      simp only
      cases hp : parseEpoch3 l with
      | error e => exact Or.inl ⟨e, rfl⟩
      | ok ep =>
        have hm' : ¬ ∃ ms, Marks ls ms := fun ⟨ms, h⟩ => hm ⟨_, .mark hh hp h⟩
        simp only
        split
        · rcases ih hne' hm' ep.epoch with h | ⟨t, ls', h1, h2, h3⟩
          · exact Or.inl h
          · exact Or.inr ⟨t, ls', h1, by rw [List.length_cons]; omega, h3⟩
        · exact Or.inr ⟨_, ls, rfl, by simp, hne', hm'⟩
    · have hm' : ¬ ∃ ms, Marks ls ms := fun ⟨ms, h⟩ => hm ⟨_, .other (hne l (by simp)) hh h⟩
      rw [isEpochLine_not (hne l (by simp)) hh]
      rcases ih hne' hm' cur with h | ⟨t, ls', h1, h2, h3⟩
      · exact Or.inl h
      · exact Or.inr ⟨t, ls', h1, by rw [List.length_cons]; omega, h3⟩

theorem detLoop3_nomarks (e0 : Option DateTime) {ls : List Str} (hne : ∀ l ∈ ls, l ≠ []) (hm : ¬ ∃ ms, Marks ls ms)
    (e1 : Option DateTime) : ∃ n r, detLoop3 n e0 e1 ls = some r := by
  induction hn : ls.length using Nat.strongRecOn generalizing ls e1 with
  | _ n ih =>
    subst hn
    by_cases h : e0 = e1
    · subst h
      rcases nextEpoch3_nomarks hne hm none with ⟨e, he⟩ | ⟨t, ls', h1, h2, h3, h4⟩
      · exact ⟨1, _, by rw [detLoop3, if_pos rfl, he]⟩
      · obtain ⟨n, r, hr⟩ := ih _ h2 h3 h4 t rfl
        exact ⟨n + 1, r, by rw [detLoop3, if_pos rfl, h1]; exact hr⟩
    · exact ⟨0, .ok (e0, e1), by simp [detLoop3, h]⟩

/-- C22: detection runs forever exactly when every epoch line is readable as a line and no candidate is a time. -/
theorem C22_diverges_iff {ls : List Str} (hne : ∀ l ∈ ls, l ≠ []) :
    (∀ fuel, detInterval3 fuel ls = none) ↔ ∃ ms, Marks ls ms ∧ ∀ t, some t ∉ candidates ms := by
  constructor
  · intro h
    by_cases hm : ∃ ms, Marks ls ms
    · obtain ⟨ms, hm⟩ := hm
      refine ⟨ms, hm, ?_⟩
      intro t ht
      cases hc : candidates ms with
      | nil => rw [hc] at ht; simp at ht
      | cons a r =>
        obtain ⟨n, hn⟩ := (C22_interval hm hc).1 ⟨t, ht⟩
        have := hn n (Nat.le_refl _)
        rw [h n] at this; simp at this
    · exfalso
      rcases nextEpoch3_nomarks hne hm none with ⟨e, he⟩ | ⟨t, l1, h1, _, h3, h4⟩
      · have := h 0; unfold detInterval3 at this; rw [he] at this; simp at this
      · rcases nextEpoch3_nomarks h3 h4 none with ⟨e, he⟩ | ⟨t', l2, k1, _, k3, k4⟩
        · have := h 0; unfold detInterval3 at this; rw [h1] at this; simp only [he] at this; simp at this
        · obtain ⟨n, r, hr⟩ := detLoop3_nomarks t k3 k4 t'
          have := h n
          unfold detInterval3 at this
          rw [h1] at this
          simp only [k1, hr] at this
          split at this
          · rename_i heq; simp at heq
          · simp at this
          · split at this <;> simp at this
          · simp at this
  · rintro ⟨ms, hm, hno⟩
    cases hc : candidates ms with
    | nil =>
      intro fuel
      have : ∀ c (l : List (Option DateTime × Int)), candidates.go c l ≠ [] := by
        intro c l
        induction l generalizing c with
        | nil => simp [candidates.go]
        | cons p l ih =>
          obtain ⟨t, f⟩ := p
          simp only [candidates.go]
          split
          · exact ih _
          · simp
      exact absurd hc (this _ _)
    | cons a r => exact (C22_interval hm hc).2 hno

/-- C22, the common case: a body without a readable regular epoch and without events makes opening run forever; in particular
a file that consists of its header only. -/
theorem C22_no_epoch {ls : List Str} {ms : List (Option DateTime × Int)} (hm : Marks ls ms)
    (hno : ∀ m ∈ ms, m.1 = none) : ∀ fuel, detInterval3 fuel ls = none := by
  have : ∀ t, some t ∉ candidates ms := by
    intro t
    have key : ∀ (l : List (Option DateTime × Int)), (∀ m ∈ l, m.1 = none) → some t ∉ candidates.go none l := by
      intro l hl
      induction l with
      | nil => simp [candidates.go]
      | cons p l ih =>
        obtain ⟨x, f⟩ := p
        have hx : x = none := hl (x, f) (by simp)
        subst hx
        have ih := ih fun m hm => hl m (by simp [hm])
        simp only [candidates.go]
        split
        · exact ih
        · simp [ih]
    exact key ms hno
  exact (C22_diverges_iff (by
    intro l hl
    clear this hno
    induction hm with
    | nil => simp at hl
    | other hne _ _ ih =>
      rcases List.mem_cons.1 hl with rfl | hl
      · exact hne
      · exact ih hl
    | mark hh _ _ ih =>
      rcases List.mem_cons.1 hl with rfl | hl
      · rintro rfl; simp at hh
      · exact ih hl)).2 ⟨ms, hm, this⟩

/-- opening a file that ends with its header never returns -/
theorem C22_header_only (v : Nat) (hdr : List Str) (endl : Str) (o : Obj3) (hh : ∀ l ∈ hdr, labelOf l ≠ lblEnd)
    (hend : labelOf endl = lblEnd) (hp : parseHeader3 v hdr ⟨.empty, []⟩ = .ok o) :
    ∀ fuel, openObs3 v fuel (hdr ++ [endl]) = none := by
  intro fuel
  have hs : splitHeader3 (hdr ++ [endl]) = (hdr, []) := by
    clear hp
    induction hdr with
    | nil => simp [splitHeader3, show headerLabel endl = lblEnd from hend]
    | cons l ls ih =>
      have h1 : headerLabel l ≠ lblEnd := hh l (by simp)
      simp only [List.cons_append, splitHeader3, h1, if_false]
      rw [ih fun x hx => hh x (by simp [hx])]
  unfold openObs3
  rw [hs]
  simp only [hp]
  rw [C22_no_epoch .nil (by simp)]

/-! ### written files -/

theorem marks_append {a b : List Str} {x y : List (Option DateTime × Int)} (ha : Marks a x) (hb : Marks b y) :
    Marks (a ++ b) (x ++ y) := by
  induction ha with
  | nil => exact hb
  | other h1 h2 _ ih => exact .other h1 h2 ih
  | mark h1 h2 _ ih => exact .mark h1 h2 ih

theorem marks_others {ls : List Str} (h : ∀ l ∈ ls, isEpochLine l = .ok false) : Marks ls [] := by
  induction ls with
  | nil => exact .nil
  | cons l ls ih =>
    have hl := h l (by simp)
    refine .other ?_ ?_ (ih fun x hx => h x (by simp [hx]))
    · rintro rfl; simp [isEpochLine] at hl
    · intro hh; rw [isEpochLine_head hh] at hl; simp at hl

theorem head_of_isEpochLine {l : Str} (h : isEpochLine l = .ok true) : l.head? = some '>' := by
  cases l with
  | nil => simp [isEpochLine] at h
  | cons a r => simpa [isEpochLine] using h

theorem written_mem {a b : List Str} (h : Written a b) : ∀ x ∈ a, ∃ y ∈ b, SameLine x y := by
  induction a generalizing b with
  | nil => simp
  | cons p a iha =>
    intro x hx
    cases b with
    | nil => simp [Written] at h
    | cons q b =>
      rcases List.mem_cons.1 hx with rfl | hx
      · exact ⟨q, by simp, h.1⟩
      · obtain ⟨y, hy, hs⟩ := iha h.2 x hx
        exact ⟨y, by simp [hy], hs⟩

theorem marks_of_items (m : TypeMap) (items : List Item3) (hok : ∀ i ∈ items, i.Ok m) (ls : List Str)
    (hw : Written ls (bodyLines3 items)) (hne : ∀ l ∈ ls, l ≠ []) : Marks ls (itemMarks items) := by
  induction items generalizing ls with
  | nil =>
    cases ls with
    | nil => exact .nil
    | cons => simp [bodyLines3, Written] at hw
  | cons i items ih =>
    simp only [bodyLines3, List.map_cons, List.flatten_cons] at hw
    obtain ⟨l1, l2, rfl, h1, h2⟩ := written_split hw
    have hrest := ih (fun x hx => hok x (by simp [hx])) l2 h2 fun l hl => hne l (by simp [hl])
    have hi := hok i (by simp)
    suffices h : Marks l1 [itemMark i] from marks_append h hrest
    cases i with
    | obs e =>
      obtain ⟨hd, hf, hn, hs⟩ := hi
      cases l1 with
      | nil => simp [Item3.lines, Ep3.lines, Written] at h1
      | cons l l1 =>
        refine Marks.mark (e := ⟨some e.time, e.flag, e.sats.length⟩) (head_of_isEpochLine (isEpochLine_mark h1.1))
          (parseEpoch3_mark hd (by omega) hn h1.1) (marks_others ?_)
        intro x hx
        obtain ⟨y, hy, hsame⟩ := written_mem h1.2 x hx
        obtain ⟨s, hs', rfl⟩ := List.mem_map.1 hy
        exact isEpochLine_sat (hs s hs').1 hsame
    | event e =>
      obtain ⟨hd, hf2, hf10, hn, hbody⟩ := hi
      cases l1 with
      | nil => simp [Item3.lines, Ev3.lines, Written] at h1
      | cons l l1 =>
        refine Marks.mark (e := ⟨e.date.map (·.1), e.flag, e.body.length⟩) (head_of_isEpochLine (isEpochLine_mark h1.1))
          (parseEpoch3_mark hd hf10 hn h1.1) (marks_others ?_)
        intro x hx
        obtain ⟨y, hy, hsame⟩ := written_mem h1.2 x hx
        exact isEpochLine_other hsame (hne x (by simp [hx])) (hbody y hy)

end Verif.Props
