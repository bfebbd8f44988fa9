import Verif.Lemmas.Rearranged
/- `OrderBlind` found by instances. -/
namespace USiem
open Spec Json

class Blind {α : Type} (ok : List Str → Prop) (f : Json → Option α) : Prop where
  h : OrderBlind ok f
class VBlind {α : Type} (ok : List Str → Prop) (f : Option Json → Option α) : Prop where
  h : VariantBlind ok f
class TBlind {α : Type} (ok : List Str → Prop) (t : List (Str × (Option Json → Option α))) : Prop where
  h : ∀ e ∈ t, VariantBlind ok e.2

section
variable {ok : List Str → Prop} {α β γ : Type}

instance : Blind ok deStr := ⟨blind_str⟩
instance : Blind ok deBool := ⟨blind_bool⟩
instance (n : Nat) : Blind ok (deU n) := ⟨blind_U n⟩
instance (n : Nat) : Blind ok (deI n) := ⟨blind_I n⟩
instance (rnd : Rat → F64) : Blind ok (deF rnd) := ⟨blind_F rnd⟩
instance (f : Json → Option α) [Blind ok f] : Blind ok (deList f) := ⟨blind_list Blind.h⟩
instance (f : Json → Option α) [Blind ok f] : Blind ok (deMap f) := ⟨blind_map Blind.h⟩
instance (f : Json → Option α) [Blind ok f] : Blind ok (deOpt f) := ⟨blind_opt Blind.h⟩
instance (f : Json → Option α) (g : Json → Option β) [Blind ok f] [Blind ok g] : Blind ok (dePair f g) := ⟨blind_pair Blind.h Blind.h⟩
instance (t : List (Str × (Option Json → Option α))) [TBlind ok t] : Blind ok (enum t) := ⟨blind_enum TBlind.h⟩
instance : TBlind ok ([] : List (Str × (Option Json → Option α))) := ⟨table_nil⟩
instance (k : Str) (f : Option Json → Option α) (t : List (Str × (Option Json → Option α))) [VBlind ok f] [TBlind ok t] : TBlind ok ((k, f) :: t) :=
  ⟨table_cons VBlind.h TBlind.h⟩
instance (a : α) : VBlind ok (unitV a) := ⟨variant_unit a⟩
instance (a : α) : VBlind ok (emptyV a) := ⟨variant_empty a⟩
instance (f : Json → Option α) (c : α → β) [Blind ok f] : VBlind ok (newV f c) := ⟨variant_new Blind.h c⟩
instance (f : Json → Option α) (g : Json → Option β) (c : α → β → γ) [Blind ok f] [Blind ok g] : VBlind ok (tupV f g c) := ⟨variant_tup Blind.h Blind.h c⟩
instance : VBlind ok (fun _ => none : Option Json → Option α) := ⟨variant_none⟩

theorem struct_blind {names : List Str} {F : List (Option Json) → Option α} {f : Json → Option α} (hf : ∀ j, f j = (fields names j >>= F))
    (hF : ∀ l l', All2 (OptRel (Rearranged ok)) l l' → F l = F l') : Blind ok f := by
  refine ⟨fun j j' r => ?_⟩
  have h := fields_rearranged names r
  rw [hf, hf]
  revert h
  generalize fields names j = u; generalize fields names j' = v
  intro h
  cases h with
  | none => rfl
  | some h => exact hF _ _ h
end

/-- The reader of a structure with `n` members. -/
macro "structure_blind" n:num : tactic => `(tactic| (
  refine struct_blind (fun _ => rfl) ?_
  intro l l' h
  iterate $n (rcases h with _ | ⟨_, h⟩; · rfl)
  rcases h with _ | ⟨_, h⟩
  rotate_left
  · rfl
  dsimp only
  repeat (refine bind_same (by first | exact req_blind Blind.h (by assumption) | exact reqOpt_blind Blind.h (by assumption)) fun _ => ?_)
  rfl))

end USiem
