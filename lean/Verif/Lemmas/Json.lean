import Verif.Rust.Json
import Verif.Lemmas.OMap
/- What is written is read back: the combinators of Rust/Json.lean. -/
namespace USiem
namespace Json

theorem deU_serU {n : Nat} (w : BitVec n) : deU n (serU w) = some w := by
  show (if w.toNat < 2 ^ n then some (BitVec.ofNat n w.toNat) else none) = some w
  rw [if_pos w.isLt]; simp

theorem deI_serI (w : BitVec 64) : deI 64 (serI w) = some w := by
  have h1 := w.toInt_lt; have h2 := w.le_toInt
  have h3 := BitVec.ofInt_toInt (x := w)
  unfold serI
  cases hi : w.toInt with
  | ofNat k =>
    rw [hi] at h1 h3
    simp only [deI]
    rw [if_pos (by simp only [Int.ofNat_eq_natCast] at h1; omega), ← h3]; rfl
  | negSucc k =>
    rw [hi] at h2 h3
    simp only [deI]
    rw [if_pos (by omega), h3]

theorem deStr_str (s : Str) : deStr (.str s) = some s := id rfl
theorem deBool_bool (b : Bool) : deBool (.bool b) = some b := id rfl

theorem deOpt_ser {α : Type} {f : α → Json} {g : Json → Option α} {o : Option α} (h : ∀ a ∈ o, g (f a) = some a)
    (hn : ∀ a, f a ≠ .null) : deOpt g (serOpt f o) = some o := by
  cases o with
  | none => rfl
  | some a =>
    have := hn a
    have h := h a rfl
    simp only [serOpt]
    unfold deOpt
    split
    · contradiction
    · rw [h]; rfl

theorem deAll_map {α : Type} {f : α → Json} {g : Json → Option α} (l : List α) (h : ∀ a ∈ l, g (f a) = some a) :
    deAll g (l.map f) = some l := by
  induction l with
  | nil => rfl
  | cons a t ih =>
    simp only [List.map, deAll, h a (by simp), ih fun b hb => h b (by simp [hb])]
    rfl

theorem deList_ser {α : Type} {f : α → Json} {g : Json → Option α} {l : List α} (h : ∀ a ∈ l, g (f a) = some a) :
    deList g (serList f l) = some l := deAll_map l h

theorem deEntries_map {α : Type} {f : α → Json} {g : Json → Option α} (l : List (Str × α))
    (h : ∀ e ∈ l, g (f e.2) = some e.2) : deEntries g (l.map fun e => (e.1, f e.2)) = some l := by
  induction l with
  | nil => rfl
  | cons a t ih =>
    simp only [List.map, deEntries, h a (by simp), ih fun b hb => h b (by simp [hb])]
    rfl

theorem ofList_of_sorted {α : Type} {m : OMap Str α} (h : OMap.Sorted m) : OMap.ofList m = m := by
  refine OMap.ext_get (OMap.sorted_ofList m) h fun k => ?_
  rw [OMap.get?_ofList]
  rcases Option.eq_none_or_eq_some (OMap.get? m k) with hg | ⟨v, hg⟩
  · rw [hg, Option.map_eq_none_iff, List.find?_eq_none]
    intro e he hk
    have hk : e.1 = k := by simpa using hk
    rw [OMap.get?_eq_none_iff] at hg
    exact hg (hk ▸ List.mem_map_of_mem (List.mem_reverse.1 he))
  · rw [hg]
    have hm := OMap.mem_of_get? hg
    rcases Option.eq_none_or_eq_some (List.find? (fun e : Str × α => decide (e.1 = k)) (List.reverse m)) with hf | ⟨e, hf⟩
    · rw [List.find?_eq_none] at hf
      exact absurd (decide_eq_true rfl) (hf (k, v) (List.mem_reverse.2 hm))
    · rw [hf]
      have h1 : e.1 = k := by simpa using List.find?_some hf
      have h2 := OMap.get?_of_mem h (List.mem_reverse.1 (List.mem_of_find?_eq_some hf))
      rw [h1, hg] at h2
      simpa using h2.symm

theorem deMap_ser {α : Type} {f : α → Json} {g : Json → Option α} {m : OMap Str α} (hs : OMap.Sorted m)
    (h : ∀ e ∈ m, g (f e.2) = some e.2) : deMap g (serMap f m) = some m := by
  simp only [deMap, serMap]
  rw [deEntries_map m h]
  simp only [Option.map_some, ofList_of_sorted hs]

theorem valuesOf_of_not_mem {k : Str} {kvs : List (Str × Json)} (h : k ∉ kvs.map (·.1)) : valuesOf k kvs = [] := by
  simp only [valuesOf, List.map_eq_nil_iff, List.filter_eq_nil_iff, beq_iff_eq]
  intro e he hk
  exact h (by rw [← hk]; exact List.mem_map_of_mem he)

theorem valuesOf_of_mem {kvs : List (Str × Json)} (hn : (kvs.map (·.1)).Nodup) {e : Str × Json} (he : e ∈ kvs) :
    valuesOf e.1 kvs = [e.2] := by
  induction kvs with
  | nil => cases he
  | cons a t ih =>
    simp only [List.map_cons, List.nodup_cons] at hn
    rcases List.mem_cons.1 he with rfl | he
    · have := valuesOf_of_not_mem hn.1
      simp only [valuesOf] at this ⊢
      simp [this]
    · have hne : a.1 ≠ e.1 := fun h => hn.1 (h ▸ List.mem_map_of_mem he)
      have := ih hn.2 he
      simp only [valuesOf] at this ⊢
      rw [List.filter_cons_of_neg (by simpa using hne), this]

/-- A struct written with its fields in order is read field by field. -/
theorem fields_ser (kvs : List (Str × Json)) (names : List Str) (hn : names = kvs.map (·.1)) (hd : names.Nodup) :
    fields names (.obj kvs) = some (kvs.map fun e => some e.2) := by
  subst hn
  simp only [fields]
  rw [if_pos]
  · simp only [List.map_map, Option.some.injEq, List.map_inj_left]
    intro e he
    simp [valuesOf_of_mem hd he]
  · simp only [List.all_map, List.all_eq_true, Function.comp, decide_eq_true_eq]
    intro e he
    simp [valuesOf_of_mem hd he]

theorem deOpt_rt {α : Type} {f : α → Json} {g : Json → Option α} (h : ∀ a, g (f a) = some a) (hn : ∀ a, f a ≠ .null)
    (o : Option α) : deOpt g (serOpt f o) = some o := deOpt_ser (fun a _ => h a) hn
theorem deList_rt {α : Type} {f : α → Json} {g : Json → Option α} (h : ∀ a, g (f a) = some a) (l : List α) :
    deList g (serList f l) = some l := deList_ser (fun a _ => h a)
theorem deMap_rt {α : Type} {f : α → Json} {g : Json → Option α} (h : ∀ a, g (f a) = some a) {m : OMap Str α}
    (hs : OMap.Sorted m) : deMap g (serMap f m) = some m := deMap_ser hs (fun e _ => h e.2)
theorem deOpt_str (o : Option Str) : deOpt deStr (serOpt .str o) = some o := deOpt_rt deStr_str (fun _ h => by cases h) o
theorem deList_str (l : List Str) : deList deStr (serList .str l) = some l := deList_rt deStr_str l
theorem deMap_str {m : OMap Str Str} (hs : OMap.Sorted m) : deMap deStr (serMap .str m) = some m := deMap_rt deStr_str hs

theorem enum_tagged {α : Type} {table : List (Str × (Option Json → Option α))} {k : Str} {p : Json}
    {d : Option Json → Option α} (h : (table.find? (fun e => e.1 == k)).map (·.2) = some d) :
    enum table (tagged k p) = d (some p) := by
  obtain ⟨e, he, rfl⟩ := Option.map_eq_some_iff.1 h
  simp only [enum, variant, tagged, he]
theorem newV_some {α β : Type} (f : Json → Option α) (c : α → β) (j : Json) : newV f c (some j) = (f j).map c := id rfl
theorem tupV_some {α β γ : Type} (f : Json → Option α) (g : Json → Option β) (c : α → β → γ) (a b : Json) :
    tupV f g c (some (.arr [a, b])) = (f a).bind fun x => (g b).map (c x) := by
  simp only [tupV]; cases f a <;> cases g b <;> rfl
theorem req_some {α : Type} (f : Json → Option α) (j : Json) : req f (some j) = f j := id rfl
theorem reqOpt_some {α : Type} (f : Json → Option α) (j : Json) : reqOpt f (some j) = deOpt f j := id rfl

end Json
end USiem
