import Verif.Spec.Bytes
/-! # Text files -/
namespace Verif.Proofs
open Verif.Py Verif.Model Verif.Spec

theorem toNat_ofNat128 {n : Nat} (h : n < 128) : (Char.ofNat n).toNat = n := by
  have : n.isValidChar := .inl (by omega)
  simp [Char.ofNat, this, Char.toNat, Char.ofNatAux]

theorem chars_iff (b : Bytes) (s : Str) : Chars b s ↔ s = decodeAscii b := by
  constructor
  · intro h
    induction h with
    | nil => rfl
    | ascii b c bs s h1 h2 _ ih =>
      unfold decodeAscii at ih ⊢
      rw [List.filter_cons_of_pos (by simpa using h1), List.map_cons, ← ih]
      congr 1
      apply Char.toNat_inj.1 
      rw [h2, toNat_ofNat128 (by exact h1)]
    | other b bs s h1 _ ih =>
      unfold decodeAscii at ih ⊢
      rw [List.filter_cons_of_neg (by simpa using h1)]
      exact ih
  · rintro rfl
    induction b with
    | nil => exact .nil
    | cons b bs ih =>
      unfold decodeAscii at ih ⊢
      by_cases h : b < 128
      · rw [List.filter_cons_of_pos (by simpa using h), List.map_cons]
        exact .ascii b _ bs _ h (toNat_ofNat128 h) ih
      · rw [List.filter_cons_of_neg (by simpa using h)]
        exact .other b bs _ (by simpa using h) ih

theorem decodeAscii_append (a b : Bytes) : decodeAscii (a ++ b) = decodeAscii a ++ decodeAscii b := by simp [decodeAscii]

theorem linesOfSeq_flatten {α : Type} [DecidableEq α] (nl : α) (l : List α) : (linesOfSeq nl l).flatten = l := by
  induction l with
  | nil => rfl
  | cons c cs ih =>
    unfold linesOfSeq
    split
    · simp [ih]
    · split
      · rename_i h; rw [h] at ih; simp at ih ⊢; exact ih
      · rename_i h; rw [h] at ih; simp at ih ⊢; exact ih

theorem writeAsciiLines_eq (ls : List Bytes) (dst : Str) : writeAsciiLines ls dst = dst ++ decodeAscii ls.flatten := by
  induction ls generalizing dst with
  | nil => simp [writeAsciiLines, decodeAscii]
  | cons l ls ih => simp [writeAsciiLines, ih, decodeAscii_append]

/-- the temporary file has the lines of the text -/
theorem tmpLines_eq (b : Bytes) : tmpLines b = textLines (decodeAscii b) := by
  unfold tmpLines
  rw [writeAsciiLines_eq, linesOfSeq_flatten, List.nil_append]

theorem newlinesGo_line (s : Str) (hn : '\n' ∉ s) (hr : '\r' ∉ s) (cr : Bool) (hc : s ≠ [] ∨ cr = false) (more : Str) :
    newlinesGo cr (s ++ more) = s ++ newlinesGo false more := by
  induction s generalizing cr with
  | nil =>
    rcases hc with h | rfl
    · exact absurd rfl h
    · rfl
  | cons c cs ih =>
    simp only [List.mem_cons, not_or] at hn hr
    simp only [List.cons_append, newlinesGo]
    rw [if_neg (Ne.symm hr.1), if_neg (fun h => hn.1 h.1.symm)]
    rw [ih hn.2 hr.2 false (.inr rfl)]

theorem linesOfSeq_line (s : Str) (hn : '\n' ∉ s) (more : Str) : linesOfSeq '\n' (s ++ '\n' :: more) = (s ++ ['\n']) :: linesOfSeq '\n' more := by
  induction s with
  | nil => simp [linesOfSeq]
  | cons c cs ih =>
    simp only [List.mem_cons, not_or] at hn
    simp only [List.cons_append, linesOfSeq]
    rw [if_neg (Ne.symm hn.1), ih hn.2]

theorem linesOfSeq_last (s : Str) (hn : '\n' ∉ s) : linesOfSeq '\n' s = if s = [] then [] else [s] := by
  induction s with
  | nil => rfl
  | cons c cs ih =>
    simp only [List.mem_cons, not_or] at hn
    unfold linesOfSeq
    rw [if_neg (Ne.symm hn.1), ih hn.2]
    by_cases h : cs = []
    · simp [h]
    · simp [h]

theorem decode_not_mem {b : Bytes} {n : Nat} (hn : n < 128) (h : UInt8.ofNat n ∉ b) : Char.ofNat n ∉ decodeAscii b := by
  intro hm
  unfold decodeAscii at hm
  obtain ⟨x, hx, he⟩ := List.mem_map.1 hm
  have h2 := congrArg Char.toNat he
  have hx2 := List.mem_filter.1 hx
  have hlt : x < 128 := by simpa using hx2.2
  rw [toNat_ofNat128 hn, toNat_ofNat128 (n := x.toNat) hlt] at h2
  apply h
  rw [← h2]
  simpa using hx2.1

theorem decode_no_nl {b : Bytes} (h : (10 : UInt8) ∉ b) : '\n' ∉ decodeAscii b := decode_not_mem (n := 10) (by decide) h
theorem decode_no_cr {b : Bytes} (h : (13 : UInt8) ∉ b) : '\r' ∉ decodeAscii b := decode_not_mem (n := 13) (by decide) h

def linesGo (cr : Bool) (s : Str) : List Str := linesOfSeq '\n' (newlinesGo cr s)

theorem decode_eol_lf : decodeAscii [10] = ['\n'] := by decide
theorem decode_eol_cr : decodeAscii [13] = ['\r'] := by decide
theorem decode_eol_crlf : decodeAscii [13, 10] = ['\r', '\n'] := by decide

theorem lines_read (ls : List TLine) (last : Bytes) (r : List Str) (h : LinesRead ls last r) (hok : LinesOk ls last) (cr : Bool)
    (hcr : cr = true → ∀ m, ls.head? = some m → m.eol = .lf → ¬ Chars m.content []) :
    linesGo cr (decodeAscii (fileBytes ls last)) = r := by
  induction h generalizing cr with
  | nothing last hl =>
    have := (chars_iff _ _).1 hl
    simp [fileBytes, ← this, linesGo, newlinesGo, linesOfSeq]
  | last last s hl hs =>
    rw [chars_iff] at hl
    have h1 := decode_no_nl hok.1
    have h2 := decode_no_cr hok.2
    rw [← hl] at h1 h2
    simp only [fileBytes, List.flatMap_nil, List.nil_append, ← hl, linesGo]
    have := newlinesGo_line s h1 h2 cr (.inl hs) []
    rw [List.append_nil] at this
    rw [this]
    simp only [newlinesGo, List.append_nil]
    rw [linesOfSeq_last s h1, if_neg hs]
  | cons l s ls last r hl hr ih =>
    rw [chars_iff] at hl
    have hc : (10 : UInt8) ∉ l.content ∧ (13 : UInt8) ∉ l.content := by
      cases ls <;> exact ⟨hok.1, hok.2.1⟩
    have hrest : LinesOk ls last := by
      cases ls with
      | nil => exact hok.2.2
      | cons m ls => exact hok.2.2.2
    have hnext : l.eol = .cr → ∀ m, ls.head? = some m → m.eol = .lf → ¬ Chars m.content [] := by
      intro he m hm
      cases ls with
      | nil => cases hm
      | cons m' ls => cases hm; exact hok.2.2.1 he
    have h1 := decode_no_nl hc.1
    have h2 := decode_no_cr hc.2
    rw [← hl] at h1 h2
    have hb : decodeAscii (fileBytes (l :: ls) last) = s ++ (decodeAscii l.eol.bytes ++ decodeAscii (fileBytes ls last)) := by
      simp only [fileBytes, List.flatMap_cons, List.append_assoc, decodeAscii_append, hl]
    rw [hb]
    unfold linesGo
    by_cases hs : s = [] ∧ cr = true
    · obtain ⟨rfl, rfl⟩ := hs
      cases he : l.eol with
      | lf => exact absurd ((chars_iff _ _).2 hl) (hcr rfl l rfl he)
      | crlf =>
        simp only [Eol.bytes, decode_eol_crlf, List.nil_append, List.cons_append, newlinesGo, if_true]
        rw [if_neg (by decide), if_pos (by decide)]
        have := ih hrest false (by simp)
        unfold linesGo at this
        simp [linesOfSeq, this]
      | cr =>
        simp only [Eol.bytes, decode_eol_cr, List.nil_append, List.cons_append, newlinesGo, if_true]
        have := ih hrest true fun _ => hnext he
        unfold linesGo at this
        simp [linesOfSeq, this]
    · rw [newlinesGo_line s h1 h2 cr (by cases cr <;> simp_all)]
      cases he : l.eol with
      | lf =>
        simp only [Eol.bytes, decode_eol_lf, List.nil_append, List.cons_append, newlinesGo]
        rw [if_neg (by decide), if_neg (by simp), linesOfSeq_line s h1]
        have := ih hrest false (by simp)
        unfold linesGo at this
        rw [this]
      | crlf =>
        simp only [Eol.bytes, decode_eol_crlf, List.nil_append, List.cons_append, newlinesGo, if_true]
        rw [if_neg (by decide), if_pos (by decide), linesOfSeq_line s h1]
        have := ih hrest false (by simp)
        unfold linesGo at this
        rw [this]
      | cr =>
        simp only [Eol.bytes, decode_eol_cr, List.nil_append, List.cons_append, newlinesGo, if_true]
        rw [linesOfSeq_line s h1]
        have := ih hrest true fun _ => hnext he
        unfold linesGo at this
        rw [this]

end Verif.Proofs
