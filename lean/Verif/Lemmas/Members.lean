import Verif.Spec.Members
import Verif.Props.Variants
import Verif.Lemmas.Structure
/- Reading and writing structures member by member (C75). -/
namespace USiem.Spec
open USiem USiem.Json USiem.Props

theorem read_members {α : Type} {ms : List (FieldOf α)} {F : List (Option Json) → Option α} {f : Json → Option α} (hn : (ms.map (·.1)).Nodup)
    (hf : ∀ j, f j = (fields (ms.map (·.1)) j >>= F))
    (hF : ∀ v (values : List Json), values.length = ms.length → (F (values.map some) = some v ↔ AllPairs (fun e m => m.2 e v) values ms)) :
    ReadByMember ms f := by
  intro kvs v h
  rw [hf, fields_ser _ _ h.symm hn]
  have hp : ∀ (l : List (Str × Json)) (ms : List (FieldOf α)),
      AllPairs (fun e m => m.2 e v) (l.map (·.2)) ms ↔ AllPairs (fun e m => m.2 e.2 v) l ms := by
    intro l
    induction l with
    | nil => intro ms; constructor <;> (intro h; cases h; exact .nil)
    | cons a l ih =>
      intro ms
      constructor
      · intro h; cases h with | cons h1 h2 => exact .cons h1 ((ih _).1 h2)
      · intro h; cases h with | cons h1 h2 => exact .cons h1 ((ih _).2 h2)
  have := hF v (kvs.map (·.2)) (by rw [List.length_map, ← List.length_map (f := (·.1)), h, List.length_map])
  rw [hp] at this
  rw [← this, List.map_map]
  rfl

theorem all_succ {α : Type} {n : Nat} {P : List α → Prop} (h : ∀ a t, t.length = n → P (a :: t)) : ∀ t, t.length = n + 1 → P t := by
  intro t ht
  cases t with
  | nil => cases ht
  | cons a t => exact h a t (Nat.succ.inj ht)
theorem all_zero {α : Type} {P : List α → Prop} (h : P []) : ∀ t, t.length = 0 → P t := by
  intro t ht
  rw [List.length_eq_zero_iff.1 ht]; exact h

theorem step_req {α β : Type} {f : Json → Option β} {R : Json → β → Prop} {a : Json} {k : β → Option α} {v : α} {name : Str} {get : α → β} {values : List Json}
    {ms : List (FieldOf α)} (h : ∀ j x, f j = some x ↔ R j x)
    (hg : ∀ x, k x = some v → get v = x) (hr : k (get v) = some v ↔ AllPairs (fun e m => m.2 e v) values ms) :
    (req f (some a) >>= k) = some v ↔ AllPairs (fun e m => m.2 e v) (a :: values) (member name R get :: ms) := by
  constructor
  · intro e
    obtain ⟨x, hx, e⟩ := Option.bind_eq_some_iff.1 e
    have := hg x e
    subst this
    exact .cons ((h _ _).1 hx) (hr.1 e)
  · intro e
    cases e with
    | cons h1 h2 =>
      exact Option.bind_eq_some_iff.2 ⟨_, (h _ _).2 h1, hr.2 h2⟩

theorem null_reads {α : Type} {f : Json → Option α} {R : Json → α → Prop} (h : ∀ j x, f j = some x ↔ R j x) (j : Json) (o : Option α) :
    deOpt f j = some o ↔ nullOr R j o := by
  unfold nullOr
  constructor
  · intro e
    unfold deOpt at e
    split at e
    · exact .inl ⟨rfl, (Option.some.inj e).symm⟩
    · rename_i hj
      obtain ⟨x, hx, rfl⟩ := Option.map_eq_some_iff.1 e
      exact .inr ⟨hj, x, (h _ _).1 hx, rfl⟩
  · rintro (⟨rfl, rfl⟩ | ⟨hj, x, hx, rfl⟩)
    · rfl
    · cases j with
      | null => exact absurd rfl hj
      | _ => simp only [deOpt, (h _ _).2 hx, Option.map_some]

theorem step_opt {α β : Type} {f : Json → Option β} {R : Json → Option β → Prop} {a : Json} {k : Option β → Option α} {v : α} {name : Str} {get : α → Option β}
    {values : List Json} {ms : List (FieldOf α)} (h : ∀ j x, deOpt f j = some x ↔ R j x)
    (hg : ∀ x, k x = some v → get v = x) (hr : k (get v) = some v ↔ AllPairs (fun e m => m.2 e v) values ms) :
    (reqOpt f (some a) >>= k) = some v ↔ AllPairs (fun e m => m.2 e v) (a :: values) (member name R get :: ms) := step_req (f := deOpt f) h hg hr

theorem truth_reads (j : Json) (b : Bool) : deBool j = some b ↔ aTruth j b := by
  unfold aTruth
  constructor
  · intro h; cases j <;> simp [deBool] at h; rw [h]
  · rintro rfl; rfl
theorem pair_reads {α β : Type} {f : Json → Option α} {g : Json → Option β} {R : Json → α → Prop} {S : Json → β → Prop}
    (h : ∀ j x, f j = some x ↔ R j x) (k : ∀ j x, g j = some x ↔ S j x) (j : Json) (p : α × β) : dePair f g j = some p ↔ pairOf R S j p := by
  unfold pairOf
  constructor
  · intro e
    unfold dePair at e
    split at e
    · obtain ⟨x, hx, e⟩ := Option.bind_eq_some_iff.1 e
      obtain ⟨y, hy, e⟩ := Option.bind_eq_some_iff.1 e
      cases e
      exact ⟨_, _, rfl, (h _ _).1 hx, (k _ _).1 hy⟩
    · cases e
  · rintro ⟨a, b, rfl, hx, hy⟩
    simp [dePair, (h _ _).2 hx, (k _ _).2 hy]

/-- Proves that a reader reads a form. -/
macro "reads_form" : tactic => `(tactic| repeat' first
  | exact pair_reads (list_reads reads_iff) (list_reads reads_iff) | exact text_reads | exact unsigned_reads | exact signed_reads | exact truth_reads | exact texts_read | exact reads_iff
  | refine null_reads ?_ | refine pair_reads ?_ ?_ | refine object_reads ?_ | refine list_reads ?_
  | exact role_wire.1 | exact level_wire.1 | exact severity_wire.1 | exact dataset_wire.1 | exact function_wire.1 | exact state_wire.1
  | exact content_wire.1 | exact task_reads | exact result_wire.1 | exact C74_address | exact firewallOutcome_wire.1 | exact webProxyOutcome_wire.1
  | exact webServerOutcome_wire.1 | exact intrusionOutcome_wire.1 | exact intrusionCategory_wire.1 | exact loginOutcome_wire.1
  | exact dnsEvent_wire.1 | exact dnsRecord_wire.1 | exact dhcpRecord_wire.1 | exact httpMethod_wire.1 | exact webProtocol_wire.1
  | exact category_wire.1)

theorem back_step {α β : Type} {o : Option β} {k : β → Option α} {v : α} {P : Prop} (h : ∀ y, k y = some v → P) : (o >>= k) = some v → P := by
  intro e
  obtain ⟨y, _, e⟩ := Option.bind_eq_some_iff.1 e
  exact h y e
theorem back_end {α β : Type} {w v : α} {get : α → β} {x : β} (h : get w = x) : (pure w : Option α) = some v → get v = x := by
  intro e
  rw [← Option.some.inj e]; exact h

/-- The value put into a structure is the one the field gives back. -/
macro "field_back" : tactic => `(tactic| (
  intro x
  repeat' first
    | with_reducible refine back_end ?_
    | with_reducible refine back_step fun _ => ?_
  rfl))

macro "read_by_member" t:ident : tactic => `(tactic| (
  refine read_members (by simp only [$t:ident, member, List.map]; decide +kernel) (fun _ => rfl) ?_
  intro v
  unfold $t
  repeat refine all_succ fun _ => ?_
  refine all_zero ?_
  dsimp only [List.map]
  repeat' first
    | with_reducible refine step_req ?_ ?_ ?_
    | with_reducible refine step_opt ?_ ?_ ?_
  all_goals first
    | exact ⟨fun _ => .nil, fun _ => rfl⟩
    | (field_back; done)
    | (reads_form; done)))

theorem leavingOut_nil (kvs : List (Str × Json)) : leavingOut [] kvs = kvs := by
  unfold leavingOut
  rw [List.filter_eq_self]
  intro e _
  split <;> rfl

theorem written_plain {α : Type} {ms : List (FieldOf α)} {write : α → Json}
    (h : ∀ v, ∃ kvs, write v = .obj kvs ∧ AllPairs (fun e m => e.1 = m.1 ∧ m.2 e.2 v) kvs ms) : WrittenByMember [] ms write := by
  intro v
  obtain ⟨kvs, h1, h2⟩ := h v
  exact ⟨kvs, h2, by rw [leavingOut_nil]; exact h1⟩

theorem list_written {α : Type} {f : α → Json} {R : Json → α → Prop} (h : ∀ x, R (f x) x) (l : List α) : listOf R (serList f l) l := by
  refine ⟨l.map f, rfl, ?_⟩
  induction l with
  | nil => exact .nil
  | cons a l ih => exact .cons (h a) ih
theorem entries_written {α : Type} {f : α → Json} {R : Json → α → Prop} (h : ∀ x, R (f x) x) (m : OMap Str α) : entriesOf R (serMap f m) m := by
  refine ⟨m.map fun e => (e.1, f e.2), rfl, ?_⟩
  induction m with
  | nil => exact .nil
  | cons a l ih => exact .cons ⟨rfl, h a.2⟩ ih
theorem null_written {α : Type} {f : α → Json} {R : Json → α → Prop} (h : ∀ x, R (f x) x) (hn : ∀ x, f x ≠ .null) (o : Option α) :
    nullOr R (serOpt f o) o := by
  cases o with
  | none => exact .inl ⟨rfl, rfl⟩
  | some x => exact .inr ⟨hn x, x, h x, rfl⟩
theorem pair_written {α β : Type} {f : α → Json} {g : β → Json} {R : Json → α → Prop} {S : Json → β → Prop} (h : ∀ x, R (f x) x) (k : ∀ x, S (g x) x)
    (p : α × β) : pairOf R S (.arr [f p.1, g p.2]) p := ⟨_, _, rfl, h _, k _⟩

/-- Proves that what is written has a form. -/
macro "writes_form" : tactic => `(tactic| repeat' first
  | exact (role_wire.2 _).1 | exact (level_wire.2 _).1 | exact (severity_wire.2 _).1 | exact (dataset_wire.2 _).1 | exact (function_wire.2 _).1
  | exact (state_wire.2 _).1 | exact (content_wire.2 _).1 | exact (result_wire.2 _).1
  | exact pair_written (list_written fun _ => rfl) (list_written fun _ => rfl) _ | exact null_written (fun _ => rfl) (fun _ h => by cases h) _
  | with_reducible refine null_written ?_ ?_ _ | with_reducible refine list_written ?_ _
  | with_reducible refine entries_written ?_ _ | rfl | (intro x h; cases h; done) | (intro x h; cases x <;> cases h; done) | intro x)

macro "written_by_member" t:ident : tactic => `(tactic| (
  refine written_plain fun v => ⟨_, rfl, ?_⟩
  unfold $t
  repeat' first
    | with_reducible exact AllPairs.nil
    | refine AllPairs.cons ⟨rfl, ?_⟩ ?_
  all_goals dsimp only [member]))

end USiem.Spec
