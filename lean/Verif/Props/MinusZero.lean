import Verif.Model.MinusZero
import Verif.Props.Decimal
import Verif.Props.Date
/- C86: minus zero in a field. -/
namespace USiem.Props
open Spec Ieee SignedField

theorem decStr_ne_minus (n : Nat) : decStr n ≠ chars% "-0" := fun h =>
  dot_not_mem_decStr n '-' (by decide) (by rw [h]; decide)

theorem intStr_ne_minus (n : Int) : intStr n ≠ chars% "-0" := by
  intro h
  unfold intStr at h
  split at h
  · rename_i hn
    have h0 : decStr 0 = chars% "0" := by decide
    have := List.cons.inj h
    have hz := decStr_inj (this.2.trans h0.symm)
    omega
  · exact decStr_ne_minus _ h

theorem display_ne_minus (x : F64) (hx : IsF64 x) : display x ≠ chars% "-0" := by
  cases x with
  | fin q =>
    obtain ⟨r, _, ht, _⟩ := C69_reads_back q hx
    intro h
    exact (ht.2 _ h).2 rfl
  | nan => decide
  | negInf => decide
  | posInf => decide

/-- What prints as minus zero does. -/
theorem prints_minus (u : Ambient) (lo hi : Int) (hu : u.f64Str = display) (hd : PrintsDates u lo hi) (f : SiemField)
    (hf : ∀ x, f = .f64 x → IsF64 x) (ht : Textual f = false) : f.toStr u ≠ chars% "-0" := by
  intro h
  cases f with
  | text | ip | domain | user | assetId => cases ht
  | null => cases h
  | path => cases h
  | u64 v => exact decStr_ne_minus _ h
  | i64 v => exact intStr_ne_minus _ h
  | f64 x =>
    simp only [SiemField.toStr, hu] at h
    exact display_ne_minus x (hf x rfl) h
  | array l =>
    have := (List.cons.inj h).1
    exact absurd this (by decide)
  | date d =>
    obtain ⟨h1, h2⟩ := C68_text u lo hi hd d
    have hT : 'T' ∈ (SiemField.date d).toStr u := by
      by_cases hy : InYears lo hi d.toInt
      · obtain ⟨x, hx⟩ := h1 hy; exact (date_has_T hx).1
      · exact (date_has_T (h2 hy)).1
    rw [h] at hT
    exact absurd hT (by decide)

/-- C86. A field that holds minus zero equals itself, every text when it is on the left, the text "-0" when it is on the right, and no other
field: no other number, be it 0, and nothing of any other kind. -/
theorem C86_equal (u : Ambient) (lo hi : Int) (hu : u.f64Str = display) (hd : PrintsDates u lo hi) (f : SiemField)
    (hf : ∀ x, f = .f64 x → IsF64 x) :
    SignedField.eq u .minusZero .minusZero = true ∧
    (SignedField.eq u .minusZero (.plain f) = true ↔ ∃ t, f = .text t) ∧
    (SignedField.eq u (.plain f) .minusZero = true ↔ f = .text "-0".toList) := by
  refine ⟨by simp [SignedField.eq], ?_, ?_⟩
  · cases ht : Textual f with
    | true => cases f <;> first | (cases ht; done) | simp [SignedField.eq, SiemField.toStr]
    | false =>
      have hne := prints_minus u lo hi hu hd f hf ht
      cases f <;> first | (cases ht; done) | (simp only [SignedField.eq, SignedField.toStr, beq_iff_eq]; exact ⟨fun h => absurd h.symm hne, fun ⟨t, h⟩ => by cases h⟩)
  · cases ht : Textual f with
    | true =>
      cases f <;> first | (cases ht; done) | skip
      all_goals simp [SignedField.eq, SignedField.toStr]
    | false =>
      have hne := prints_minus u lo hi hu hd f hf ht
      cases f <;> first | (cases ht; done) | (simp only [SignedField.eq, SignedField.toStr, beq_iff_eq]; exact ⟨fun h => absurd h hne, fun h => by cases h⟩)

/-- C86, the disagreement: fields that hold 0 and minus 0 are the same number and convert alike to integers and hash alike, but are not
equal, in either order; nor does minus zero equal the integer fields 0. -/
theorem C86_not_zero (u : Ambient) (hu : u.f64Str = display) :
    (∀ f ∈ [SiemField.f64 (.fin 0), .u64 0, .i64 0],
      SignedField.eq u .minusZero (.plain f) = false ∧ SignedField.eq u (.plain f) .minusZero = false ∧
      SignedField.toU64 .minusZero = SignedField.toU64 (.plain f) ∧ SignedField.toI64 .minusZero = SignedField.toI64 (.plain f) ∧
      SignedField.hashFeed .minusZero = SignedField.hashFeed (.plain f)) ∧
    SiemField.eq u (.f64 (.fin 0)) (.u64 0) = true ∧ SiemField.eq u (.u64 0) (.f64 (.fin 0)) = true := by
  have hz : u.f64Str (.fin 0) = chars% "0" := by rw [hu]; rfl
  have h0 : decStr 0 = chars% "0" := by decide
  refine ⟨?_, ?_, ?_⟩
  · intro f hf
    simp only [List.mem_cons, List.not_mem_nil, or_false] at hf
    rcases hf with rfl | rfl | rfl
    · simp only [SignedField.eq, SignedField.toStr, SiemField.toStr, hz]
      decide
    · refine ⟨?_, ?_, rfl, rfl, rfl⟩ <;> simp only [SignedField.eq, SignedField.toStr, SiemField.toStr] <;> decide
    · refine ⟨?_, ?_, rfl, rfl, rfl⟩ <;> simp only [SignedField.eq, SignedField.toStr, SiemField.toStr] <;> decide
  · simp only [SiemField.eq, SiemField.toStr, hz]; decide
  · simp only [SiemField.eq, SiemField.toStr, hz]; decide

/-- C86. As a list of texts, minus zero is the text "-0", which is read as a number with the value 0. -/
theorem C86_text (u : Ambient) : SignedField.toArray u .minusZero = .ok ["-0".toList] ∧ SignedField.toStr u .minusZero = "-0".toList ∧
    NumberText (SignedField.toStr u .minusZero) 0 :=
  ⟨rfl, rfl, .inr ⟨chars% "0", 0, rfl, .inl ⟨0, ⟨by decide, by decide, by decide⟩, rfl⟩, rfl⟩⟩

/-! The hypotheses of C86_equal: a program that prints floats as Rust does and dates as chrono does. -/
def printing : Ambient := ⟨display, fun d => Chrono.dateStr (-262143) 262142 d.toInt, F64.fin, id⟩

example : printing.f64Str = display ∧ PrintsDates printing (-262143) 262142 := ⟨rfl, fun _ => rfl⟩
example : (∀ x, SiemField.u64 7 = .f64 x → IsF64 x) := fun x h => by cases h
example : SignedField.eq printing .minusZero (.plain (.text (chars% "x"))) = true ∧
    SignedField.eq printing (.plain (.text (chars% "x"))) .minusZero = false := by decide +kernel

end USiem.Props
