import Verif.Model.Header
import Verif.Proofs.Except
import Verif.Proofs.Obs2Err
/-! # Header parsing: the first line with a label decides its value -/
namespace Verif.Proofs
open Verif.Py Verif.Model

/-- the first line carrying the label -/
def firstLine (lbl : Str) (lines : List Str) : Option Str := lines.find? fun l => headerLabel l = lbl

theorem HItem.label_inj {a b : HItem} (h : a.label = b.label) : a = b := by
  revert h; cases a <;> cases b <;> decide

theorem find_item {items : List HItem} {lbl : Str} {i : HItem}
    (h : items.find? (fun i => decide (i.label = lbl)) = some i) : i ∈ items ∧ i.label = lbl := by
  exact ⟨List.mem_of_find?_eq_some h, by simpa using List.find?_some h⟩

theorem find_item_none {items : List HItem} {lbl : Str}
    (h : items.find? (fun i => decide (i.label = lbl)) = none) : ∀ i ∈ items, i.label ≠ lbl := by
  intro i hi
  simpa using List.find?_eq_none.1 h i hi

theorem assign_verType {v : Nat} {i : HItem} {l : Str} {h h' : HeaderVals} (e : i.assign v l h = .ok h') :
    (i = .verType → ∃ x, parseVerType v l = .ok x ∧ h'.verType = some x) ∧ (i ≠ .verType → h'.verType = h.verType) := by
  cases i <;> simp only [HItem.assign, bind_eq_ok, pure_eq_ok] at e <;> obtain ⟨x, hx, rfl⟩ := e <;> simp
  exact hx

theorem assign_tofo {v : Nat} {i : HItem} {l : Str} {h h' : HeaderVals} (e : i.assign v l h = .ok h') :
    (i = .tofo → ∃ x, parseTofo v l = .ok x ∧ h'.tofo = some x) ∧ (i ≠ .tofo → h'.tofo = h.tofo) := by
  cases i <;> simp only [HItem.assign, bind_eq_ok, pure_eq_ok] at e <;> obtain ⟨x, hx, rfl⟩ := e <;> simp
  exact hx

theorem assign_xyz {v : Nat} {i : HItem} {l : Str} {h h' : HeaderVals} (e : i.assign v l h = .ok h') :
    (i = .xyz → ∃ x, parseXyz l = .ok x ∧ h'.xyz = x) ∧ (i ≠ .xyz → h'.xyz = h.xyz) := by
  cases i <;> simp only [HItem.assign, bind_eq_ok, pure_eq_ok] at e <;> obtain ⟨x, hx, rfl⟩ := e <;> simp
  exact hx

theorem assign_interval {v : Nat} {i : HItem} {l : Str} {h h' : HeaderVals} (e : i.assign v l h = .ok h') :
    (i = .interval → ∃ x, parseInterval v l = .ok x ∧ h'.interval = some x) ∧
    (i ≠ .interval → h'.interval = h.interval) := by
  cases i <;> simp only [HItem.assign, bind_eq_ok, pure_eq_ok] at e <;> obtain ⟨x, hx, rfl⟩ := e <;> simp
  exact hx

/-- generic form: a field `get` that only the item `k` writes, with the parser `p` -/
theorem parseHeaderGo_field {α : Type} {v : Nat} (k : HItem) (get : HeaderVals → α) (p : Str → Except PyErr α)
    (ha : ∀ {i : HItem} {l : Str} {h h' : HeaderVals}, i.assign v l h = .ok h' →
      (i = k → ∃ x, p l = .ok x ∧ get h' = x) ∧ (i ≠ k → get h' = get h))
    (lines : List Str) (items : List HItem) (hn : items.Nodup) (h h' : HeaderVals)
    (e : parseHeaderGo v lines items h = .ok h') :
    (k ∉ items → get h' = get h) ∧
    (k ∈ items → firstLine k.label lines = none → get h' = get h) ∧
    (k ∈ items → ∀ l, firstLine k.label lines = some l → ∃ x, p l = .ok x ∧ get h' = x) := by
  induction lines generalizing items h with
  | nil =>
    simp only [parseHeaderGo, Except.ok.injEq] at e
    subst e
    exact ⟨fun _ => rfl, fun _ _ => rfl, by simp [firstLine]⟩
  | cons line rest ih =>
    simp only [parseHeaderGo] at e
    cases hf : items.find? (fun i => decide (i.label = headerLabel line)) with
    | none =>
      rw [hf] at e
      obtain ⟨i1, i2, i3⟩ := ih items hn h e
      refine ⟨i1, ?_, ?_⟩
      · intro hk hfl
        have hne : headerLabel line ≠ k.label := fun he => find_item_none hf k hk he.symm
        exact i2 hk (by simpa [firstLine, List.find?_cons, hne] using hfl)
      · intro hk l hfl
        have hne : headerLabel line ≠ k.label := fun he => find_item_none hf k hk he.symm
        exact i3 hk l (by simpa [firstLine, List.find?_cons, hne] using hfl)
    | some i =>
      rw [hf] at e
      obtain ⟨hi, hl⟩ := find_item hf
      simp only [bind_eq_ok] at e
      obtain ⟨h1, he1, e⟩ := e
      obtain ⟨a1, a2⟩ := ha he1
      obtain ⟨i1, i2, i3⟩ := ih (items.erase i) (hn.erase i) h1 e
      by_cases hik : i = k
      · subst hik
        have hnot : i ∉ items.erase i := hn.not_mem_erase
        obtain ⟨x, hx, hgx⟩ := a1 rfl
        have hres := i1 hnot
        refine ⟨fun h => absurd hi h, ?_, ?_⟩
        · intro _ hfl
          simp [firstLine, List.find?_cons, hl.symm] at hfl
        · intro _ l hfl
          have : l = line := by
            simpa [firstLine, List.find?_cons, hl.symm] using hfl.symm
          subst this
          exact ⟨x, hx, hres.trans hgx⟩
      · have hne : headerLabel line ≠ k.label := by
          intro he; rw [← hl] at he; exact hik (HItem.label_inj he)
        have hmem : k ∈ items.erase i ↔ k ∈ items := List.mem_erase_of_ne (Ne.symm hik)
        rw [hmem] at i1 i2 i3
        have hg := a2 hik
        refine ⟨fun hk => (i1 hk).trans hg, ?_, ?_⟩
        · intro hk hfl
          exact (i2 hk (by simpa [firstLine, List.find?_cons, hne] using hfl)).trans hg
        · intro hk l hfl
          exact i3 hk l (by simpa [firstLine, List.find?_cons, hne] using hfl)

/-- success and failure: an error is the error of the first line of some label -/
theorem parseHeaderGo_error {v : Nat} (lines : List Str) (items : List HItem) (h : HeaderVals) {er : PyErr}
    (hn : items.Nodup) (e : parseHeaderGo v lines items h = .error er) :
    ∃ i ∈ items, ∃ l, firstLine i.label lines = some l ∧ ∃ g, i.assign v l g = .error er := by
  induction lines generalizing items h with
  | nil => simp [parseHeaderGo] at e
  | cons line rest ih =>
    simp only [parseHeaderGo] at e
    cases hf : items.find? (fun i => decide (i.label = headerLabel line)) with
    | none =>
      rw [hf] at e
      obtain ⟨i, hi, l, hl, g, hg⟩ := ih items h hn e
      have hne : headerLabel line ≠ i.label := fun he => find_item_none hf i hi he.symm
      exact ⟨i, hi, l, by simpa [firstLine, List.find?_cons, hne] using hl, g, hg⟩
    | some j =>
      rw [hf] at e
      obtain ⟨hj, hjl⟩ := find_item hf
      simp only [bind_eq_error] at e
      rcases e with e | ⟨h1, _, e⟩
      · exact ⟨j, hj, line, by simp [firstLine, hjl.symm], h, e⟩
      · obtain ⟨i, hi, l, hl, g, hg⟩ := ih (items.erase j) h1 (hn.erase j) e
        have hij : i ≠ j := fun he => by subst he; exact hn.not_mem_erase hi
        have hne : headerLabel line ≠ i.label := by
          intro he; rw [← hjl] at he; exact hij (HItem.label_inj he).symm
        exact ⟨i, List.mem_of_mem_erase hi, l, by simpa [firstLine, List.find?_cons, hne] using hl, g, hg⟩

theorem items_nodup : [HItem.verType, .tofo, .xyz, .interval].Nodup := by decide

theorem parseHeader_xyz {v : Nat} {lines : List Str} {h h' : HeaderVals} (e : parseHeader v lines h = .ok h') :
    (firstLine lblXyz lines = none → h'.xyz = h.xyz) ∧
    (∀ l, firstLine lblXyz lines = some l → parseXyz l = .ok h'.xyz) := by
  have := parseHeaderGo_field .xyz (·.xyz) parseXyz (fun h => assign_xyz h) lines _ items_nodup h h' e
  refine ⟨this.2.1 (by simp), ?_⟩
  intro l hl
  obtain ⟨x, h1, h2⟩ := this.2.2 (by simp) l hl
  rw [h1, h2]

theorem parseHeader_opt {α : Type} {v : Nat} (k : HItem) (get : HeaderVals → Option α) (p : Str → Except PyErr α)
    (ha : ∀ {i : HItem} {l : Str} {h h' : HeaderVals}, i.assign v l h = .ok h' →
      (i = k → ∃ x, p l = .ok x ∧ get h' = some x) ∧ (i ≠ k → get h' = get h))
    {lines : List Str} {h h' : HeaderVals} (e : parseHeader v lines h = .ok h') :
    (firstLine k.label lines = none → get h' = get h) ∧
    (∀ l, firstLine k.label lines = some l → ∃ x, p l = .ok x ∧ get h' = some x) := by
  have := parseHeaderGo_field k get (fun l => (p l).map some) (fun {i l h h'} h => by
    obtain ⟨a, b⟩ := ha h
    refine ⟨fun hi => ?_, b⟩
    obtain ⟨x, h1, h2⟩ := a hi
    exact ⟨some x, by rw [h1]; rfl, h2⟩) lines _ items_nodup h h' e
  have hk : k ∈ [HItem.verType, .tofo, .xyz, .interval] := by cases k <;> simp
  refine ⟨this.2.1 hk, ?_⟩
  intro l hl
  obtain ⟨x, h1, h2⟩ := this.2.2 hk l hl
  cases hp : p l with
  | error e => rw [hp] at h1; simp [Except.map] at h1
  | ok y =>
    rw [hp] at h1
    simp only [Except.map, Except.ok.injEq] at h1
    exact ⟨y, rfl, by rw [h2, ← h1]⟩

end Verif.Proofs
