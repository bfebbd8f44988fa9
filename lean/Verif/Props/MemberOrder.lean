import Verif.Lemmas.OrderBlind
/- C72: the order of the members of a JSON document does not matter to any reader; for rules, with one exception. -/
namespace USiem.Props
open Spec Json

/-- C72. Commands, their headers and queries. -/
theorem C72_commands : OrderBlind anyNames SiemCommandCall.de ∧ OrderBlind anyNames SiemCommandHeader.de ∧ OrderBlind anyNames QueryInfo.de :=
  ⟨Blind.h, Blind.h, Blind.h⟩

/-- C72. Responses. -/
theorem C72_responses (u : Ambient) : OrderBlind anyNames (SiemCommandResponse.de u) := Blind.h

/-- C72. Messages: commands, responses, logs, notifications, alerts, tasks and their results. -/
theorem C72_messages {P : DatasetFamily → Type} (u : Ambient) : OrderBlind anyNames (SiemMessage.de u : Json → Option (SiemMessage P)) := Blind.h

/-- C72. Definitions of commands and datasets. -/
theorem C72_definitions : OrderBlind anyNames CommandDefinition.de ∧ OrderBlind anyNames DatasetDefinition.de ∧ OrderBlind anyNames UseCaseDefinition.de ∧
    OrderBlind anyNames RuleDefinition.de ∧ OrderBlind anyNames ParserDefinition.de ∧ OrderBlind anyNames ListedTask.de :=
  ⟨Blind.h, Blind.h, Blind.h, Blind.h, Blind.h, Blind.h⟩

/-- C72. Task definitions, whose reader is written by hand: it takes the members one after the other, but each sets a value of its own. -/
theorem C72_task_definitions {B : Type} (builder : B) : OrderBlind anyNames (TaskDefinition.de builder) := Blind.h

/-- C72. Errors. -/
theorem C72_errors (u : Ambient) : OrderBlind anyNames (SiemError.de u) := Blind.h

/-- C72. Events: the tag may come anywhere among the members. -/
theorem C72_events (u : Ambient) (rnd32 : Rat → F64) : OrderBlind anyNames (SiemEvent.de u rnd32) := Blind.h

/-- C72. The payloads of events read on their own. -/
theorem C72_payloads (rnd32 : Rat → F64) :
    OrderBlind anyNames (FirewallEvent.deWith SiemIp.de NetworkProtocol.de) ∧ OrderBlind anyNames (IntrusionEvent.deWith SiemIp.de NetworkProtocol.de) ∧
    OrderBlind anyNames (WebProxyEvent.deWith SiemIp.de) ∧ OrderBlind anyNames (WebServerEvent.deWith SiemIp.de rnd32) ∧
    OrderBlind anyNames (DnsEvent.deWith SiemIp.de) ∧ OrderBlind anyNames (DhcpEvent.deWith SiemIp.de (deU 128)) ∧ OrderBlind anyNames AuthEvent.deWith :=
  ⟨Blind.h, Blind.h, Blind.h, Blind.h, Blind.h, Blind.h, Blind.h⟩

/-- C72. Sigma rules. -/
theorem C72_sigma (u : Ambient) : OrderBlind anyNames (SigmaDocument.de u) := Blind.h

/-- C72. Dictionaries of alerts and geographic records. -/
theorem C72_records (narrow : Rat → BitVec 32) : OrderBlind anyNames AlertDictionary.de ∧ OrderBlind anyNames (GeoIpInfo.de narrow) := ⟨Blind.h, Blind.h⟩

/-- C72. Rules, as long as no rearranged object names two operators. -/
theorem C72_rules (u : Ambient) (valid : Str → Bool) : OrderBlind oneOperator (SiemRule.de u valid) := Blind.h

/-- C72. A condition with two operators is read without complaint, and the first one counts: here the order does matter. -/
theorem C72_two_operators (u : Ambient) (valid : Str → Bool) (field a b : Str) :
    RuleCondition.de u valid (.obj [(chars% "field", .str field), (chars% "starts_with", .str a), (chars% "ends_with", .str b)]) = some ⟨field, .startsWith a⟩ ∧
    RuleCondition.de u valid (.obj [(chars% "field", .str field), (chars% "ends_with", .str b), (chars% "starts_with", .str a)]) = some ⟨field, .endsWith b⟩ := by
  constructor
  · have : RuleOperator.deEntry u valid (chars% "starts_with") (.str a) = some (.startsWith a) := by rw [deEntry_split]; rfl
    simp only [RuleCondition.de]
    rw [show valuesOf (chars% "field") _ = [Json.str field] from rfl]
    dsimp only
    rw [show deStr (.str field) = some field from rfl]
    rw [show List.find? (fun e : Str × Json => RuleOperator.names.contains e.1) _ = some (chars% "starts_with", Json.str a) from rfl]
    simp only [Option.bind_eq_bind, Option.bind_some, this]; rfl
  · have : RuleOperator.deEntry u valid (chars% "ends_with") (.str b) = some (.endsWith b) := by rw [deEntry_split]; rfl
    simp only [RuleCondition.de]
    rw [show valuesOf (chars% "field") _ = [Json.str field] from rfl]
    dsimp only
    rw [show deStr (.str field) = some field from rfl]
    rw [show List.find? (fun e : Str × Json => RuleOperator.names.contains e.1) _ = some (chars% "ends_with", Json.str b) from rfl]
    simp only [Option.bind_eq_bind, Option.bind_some, this]; rfl

/-- Two texts of the same header, with the members in another order. -/
example : Rearranged anyNames (.obj [(chars% "user", .str (chars% "a")), (chars% "comm_id", .int 1), (chars% "comp_id", .int 2)])
    (.obj [(chars% "comp_id", .int 2), (chars% "user", .str (chars% "a")), (chars% "comm_id", .int 1)]) ∧
    SiemCommandHeader.de (.obj [(chars% "comp_id", .int 2), (chars% "user", .str (chars% "a")), (chars% "comm_id", .int 1)]) = some ⟨chars% "a", 2, 1⟩ := by
  refine ⟨.order ?_ (by decide +kernel) trivial, rfl⟩
  exact (List.Perm.cons _ (.swap _ _ _)).trans (.swap _ _ _)

/-- A condition of a rule in two orders. -/
example : Rearranged oneOperator (.arr [.obj [(chars% "field", .str (chars% "f")), (chars% "exists", .bool true)]])
    (.arr [.obj [(chars% "exists", .bool true), (chars% "field", .str (chars% "f"))]]) :=
  .element [] [] (.order (.swap _ _ _) (by decide +kernel) (by unfold oneOperator; decide +kernel))

end USiem.Props
