import Verif.Spec.BaseSchema
import Verif.Props.Schema
import Verif.Props.Events
/- C63: the default schema against the events and the logs. -/
namespace USiem
open Spec Props

theorem event_log (dbg : Str → Str) (e : SiemEvent) : ∃ log, e.toLog dbg = .ret log ∧ Contains log (eventFields dbg e) := by
  obtain ⟨log, h1, h2⟩ := C48_event dbg e
  refine ⟨log, h1, ?_⟩
  cases e <;> exact h2

/-- What a declaration asks of values. -/
inductive Shape where
  | ip | text | numeric | decimal | date | array
  | options (names : List Str)
  deriving DecidableEq

def shape : FieldType → Shape
  | .ip _ => .ip
  | .array _ => .array
  | .text _ => .text
  | .numeric _ => .numeric
  | .decimal _ => .decimal
  | .date _ => .date
  | .textOptions o _ => .options (o.map (·.1))

def shapes : List (Str × Shape) := (OMap.ofList defaultFields).map fun e => (e.1, shape e.2)

def ShapeFits : Shape → SiemField → Prop
  | .ip, .ip _ => True
  | .text, .text _ => True
  | .text, .user _ => True
  | .text, .domain _ => True
  | .text, .assetId _ => True
  | .text, .path _ => True
  | .numeric, .u64 _ => True
  | .numeric, .i64 _ => True
  | .decimal, .f64 _ => True
  | .date, .date _ => True
  | .array, .array _ => True
  | .options l, .text t => t ∈ l
  | _, _ => False

theorem fits_iff (t : FieldType) (v : SiemField) : Fits t v ↔ ShapeFits (shape t) v := by
  cases t <;> cases v <;> simp [Fits, ShapeFits, shape]

/-- The names an event can use. -/
def eventNames : List Str :=
  [chars% "source.ip", chars% "destination.ip", chars% "source.port", chars% "destination.port", chars% "event.outcome",
   chars% "observer.ingress.interface", chars% "observer.egress.interface", chars% "source.bytes", chars% "destination.bytes",
   chars% "network.transport", chars% "network.protocol", chars% "http.response.status_code", chars% "http.request.method",
   chars% "url.full", chars% "url.domain", chars% "user.name", chars% "http.response.mime_type", chars% "rule.category",
   chars% "rule.name", chars% "url.path", chars% "url.query", chars% "url.extension", chars% "network.duration",
   chars% "user_agent.original", chars% "dns.op_code", chars% "dns.answer.name", chars% "dns.answer.data", chars% "dns.answer.type",
   chars% "dns.question.name", chars% "dns.question.type", chars% "host.hostname", chars% "server.hostname", chars% "client.hostname",
   chars% "client.ip", chars% "client.mac", chars% "dhcp.type", chars% "requested_ip", chars% "user.domain", chars% "source.address",
   chars% "source.user.name", chars% "source.user.domain", chars% "rule.id",
   chars% "message", chars% "origin", chars% "event.created", chars% "event.received"]

theorem event_names (dbg : Str → Str) (e : SiemEvent) (n : Str) (v : SiemField) (h : (n, v) ∈ eventFields dbg e ++ Spec.baseFields) :
    n ∈ eventNames := by
  have key : ∀ l : List (Str × SiemField), (l.map (·.1)).all (eventNames.contains ·) = true → (n, v) ∈ l → n ∈ eventNames := by
    intro l hl hm
    have := List.all_eq_true.1 hl n (List.mem_map.2 ⟨_, hm, rfl⟩)
    simpa using this
  refine key _ ?_ h
  cases e with
  | firewall v => rfl
  | intrusion v => rfl
  | webProxy v =>
    simp only [eventFields, webProxyFields]
    cases v.ruleCategory <;> cases v.ruleName <;> rfl
  | webServer v =>
    simp only [eventFields, webServerFields]
    cases v.destinationIp <;> rfl
  | dns v =>
    simp only [eventFields, dnsFields]
    cases v.opCode <;> cases v.data <;> rfl
  | dhcp v =>
    simp only [eventFields, dhcpFields]
    cases v.recordType <;> rfl
  | auth v =>
    simp only [eventFields, authFields]
    cases v.loginType with
    | remote a b c => simp only [addressField]; cases SiemIp.fromIpStr c with
      | ret r => cases r <;> rfl
      | _ => rfl
    | validation a c => simp only [addressField]; cases SiemIp.fromIpStr c with
      | ret r => cases r <;> rfl
      | _ => rfl
    | _ => rfl
  | _ => rfl

theorem known_names : ∀ n ∈ eventNames, ((getDefaultSchema.getField n).isSome = true ↔ n ∉ unknownToDefault) := by
  decide +kernel

/-- C63. Applying the default schema to the log of any event keeps every field except the data of a DNS answer, the address that a DHCP
client requests, and both timestamps. -/
theorem C63_event_fields_kept (dbg : Str → Str) (e : SiemEvent) :
    ∃ log, e.toLog dbg = .ret log ∧
      ∀ n, (getDefaultSchema.apply log).field n = if n ∈ unknownToDefault then none else log.field n := by
  obtain ⟨log, h1, h2⟩ := event_log dbg e
  refine ⟨log, h1, fun n => ?_⟩
  rw [(C44_apply _ log n).1]
  cases hf : log.field n with
  | none => split <;> split <;> rfl
  | some v =>
    have hk := known_names n (event_names dbg e n v (h2.nothingElse n v hf))
    by_cases hu : n ∈ unknownToDefault
    · rw [if_pos hu, if_neg (fun h => hk.1 h hu)]
    · rw [if_neg hu, if_pos (hk.2 hu)]

/-! ### Values and declarations -/

def shapeOf (n : Str) : Option Shape := (getDefaultSchema.getField n).map shape

theorem ips : ∀ n ∈ [chars% "source.ip", chars% "destination.ip", chars% "client.ip"], shapeOf n = some .ip := by decide +kernel

theorem texts : ∀ n ∈ [chars% "observer.ingress.interface", chars% "observer.egress.interface", chars% "url.full", chars% "url.domain",
    chars% "user.name", chars% "http.response.mime_type", chars% "rule.name", chars% "url.path", chars% "url.query", chars% "url.extension",
    chars% "user_agent.original", chars% "dns.op_code", chars% "dns.answer.name", chars% "dns.answer.type", chars% "dns.question.name",
    chars% "dns.question.type", chars% "host.hostname", chars% "server.hostname", chars% "client.hostname", chars% "client.mac",
    chars% "dhcp.type", chars% "user.domain", chars% "source.address", chars% "source.user.name", chars% "source.user.domain",
    chars% "rule.id", chars% "message", chars% "origin"], shapeOf n = some .text := by decide +kernel

theorem numbers : ∀ n ∈ [chars% "source.port", chars% "destination.port", chars% "source.bytes", chars% "destination.bytes",
    chars% "http.response.status_code"], shapeOf n = some .numeric := by decide +kernel

theorem unknowns : ∀ n ∈ unknownToDefault, shapeOf n = none := by decide +kernel
theorem duration_shape : shapeOf (chars% "network.duration") = some .decimal := by decide +kernel

def namesOf (n : Str) : List Str :=
  match shapeOf n with
  | some (.options l) => l
  | _ => []

theorem option_fields : ∀ n ∈ [chars% "event.outcome", chars% "network.transport", chars% "network.protocol", chars% "http.request.method",
    chars% "rule.category"], shapeOf n = some (.options (namesOf n)) ∧ ∀ x ∈ namesOf n, '(' ∉ x := by decide +kernel

theorem outcome_options : (∀ x : FirewallOutcome, x.toStr ∈ namesOf (chars% "event.outcome")) ∧
    (∀ x : WebProxyOutcome, x.toStr ∈ namesOf (chars% "event.outcome")) ∧
    (∀ x : WebServerOutcome, x.toStr ∈ namesOf (chars% "event.outcome")) ∧
    (∀ x : LoginOutcome, x.toStr ∈ namesOf (chars% "event.outcome")) ∧
    (∀ x : IntrusionOutcome, x.toStr ∈ namesOf (chars% "event.outcome")) := by
  have all : ∀ t ∈ FirewallOutcome.all.map (·.toStr) ++ WebProxyOutcome.all.map (·.toStr) ++ WebServerOutcome.all.map (·.toStr) ++
      LoginOutcome.all.map (·.toStr) ++ IntrusionOutcome.all.map (·.toStr), t ∈ namesOf (chars% "event.outcome") := by decide +kernel
  refine ⟨?_, ?_, ?_, ?_, ?_⟩ <;> intro x <;> refine all _ ?_ <;> cases x <;> decide

theorem payload_not_option {n p d : Str} (hn : n ∈ [chars% "event.outcome", chars% "network.transport", chars% "network.protocol",
    chars% "http.request.method", chars% "rule.category"]) (hp : '(' ∈ p) : p ++ d ++ [')'] ∉ namesOf n :=
  fun h => (option_fields n hn).2 _ h (by simp [hp])

theorem net_cases (dbg : Str → Str) (p : NetworkProtocol) : (p ∈ NetworkProtocol.all ∧ p.toStr dbg = p.toStr id) ∨ ∃ s, p = .OTHER s := by
  cases p
  case OTHER s => exact .inr ⟨s, rfl⟩
  all_goals exact .inl ⟨by decide, rfl⟩

theorem transport_options (dbg : Str → Str) (p : NetworkProtocol) :
    p.toStr dbg ∈ namesOf (chars% "network.transport") ↔ ¬ ∃ s, p = .OTHER s := by
  have all : ∀ p ∈ NetworkProtocol.all, p.toStr id ∈ namesOf (chars% "network.transport") := by decide +kernel
  rcases net_cases dbg p with ⟨h1, h2⟩ | ⟨s, rfl⟩
  · refine iff_of_true (h2 ▸ all p h1) ?_
    rintro ⟨s, rfl⟩
    exact absurd h1 (by simp [NetworkProtocol.all])
  · exact iff_of_false (payload_not_option (by decide +kernel) (by decide)) (fun h => h ⟨s, rfl⟩)

theorem protocol_not_web (dbg : Str → Str) (p : NetworkProtocol) : p.toStr dbg ∉ namesOf (chars% "network.protocol") := by
  have all : ∀ p ∈ NetworkProtocol.all, p.toStr id ∉ namesOf (chars% "network.protocol") := by decide +kernel
  rcases net_cases dbg p with ⟨h1, h2⟩ | ⟨s, rfl⟩
  · exact h2 ▸ all p h1
  · exact payload_not_option (by decide +kernel) (by decide)

theorem web_options (dbg : Str → Str) (p : WebProtocol) :
    p.toStr dbg ∈ namesOf (chars% "network.protocol") ↔ ¬ ∃ s, p = .UNKNOWN s := by
  have all : ∀ p ∈ WebProtocol.all, p.toStr id ∈ namesOf (chars% "network.protocol") := by decide +kernel
  have hc : (p ∈ WebProtocol.all ∧ p.toStr dbg = p.toStr id) ∨ ∃ s, p = .UNKNOWN s := by
    cases p
    case UNKNOWN s => exact .inr ⟨s, rfl⟩
    all_goals exact .inl ⟨by decide, rfl⟩
  rcases hc with ⟨h1, h2⟩ | ⟨s, rfl⟩
  · refine iff_of_true (h2 ▸ all p h1) ?_
    rintro ⟨s, rfl⟩
    exact absurd h1 (by simp [WebProtocol.all])
  · exact iff_of_false (payload_not_option (by decide +kernel) (by decide)) (fun h => h ⟨s, rfl⟩)

theorem method_options (dbg : Str → Str) (p : HttpMethod) :
    p.toStr dbg ∈ namesOf (chars% "http.request.method") ↔ ¬ (p = .UNDEFINED ∨ ∃ s, p = .UNKNOWN s) := by
  have all : ∀ p ∈ HttpMethod.all, p.toStr id ∈ namesOf (chars% "http.request.method") ↔ p ≠ .UNDEFINED := by decide +kernel
  have hc : (p ∈ HttpMethod.all ∧ p.toStr dbg = p.toStr id) ∨ ∃ s, p = .UNKNOWN s := by
    cases p
    case UNKNOWN s => exact .inr ⟨s, rfl⟩
    all_goals exact .inl ⟨by decide, rfl⟩
  rcases hc with ⟨h1, h2⟩ | ⟨s, rfl⟩
  · rw [h2, all p h1, not_or]
    refine ⟨fun h => ⟨h, ?_⟩, fun h => h.1⟩
    rintro ⟨s, rfl⟩
    exact absurd h1 (by simp [HttpMethod.all])
  · exact iff_of_false (payload_not_option (by decide +kernel) (by decide)) (fun h => h (.inr ⟨s, rfl⟩))

theorem category_options (dbg : Str → Str) (p : WebProxyRuleCategory) :
    p.toStr dbg ∈ namesOf (chars% "rule.category") ↔ ¬ ∃ s, p = .Others s := by
  have all : ∀ p ∈ WebProxyRuleCategory.all, p.toStr id ∈ namesOf (chars% "rule.category") := by decide +kernel
  have hc : (p ∈ WebProxyRuleCategory.all ∧ p.toStr dbg = p.toStr id) ∨ ∃ s, p = .Others s := by
    cases p
    case Others s => exact .inr ⟨s, rfl⟩
    all_goals exact .inl ⟨by decide, rfl⟩
  rcases hc with ⟨h1, h2⟩ | ⟨s, rfl⟩
  · refine iff_of_true (h2 ▸ all p h1) ?_
    rintro ⟨s, rfl⟩
    exact absurd h1 (by simp [WebProxyRuleCategory.all])
  · exact iff_of_false (payload_not_option (by decide +kernel) (by decide)) (fun h => h ⟨s, rfl⟩)

theorem intrusion_not_web (p : IntrusionCategory) : p.toStr ∉ namesOf (chars% "rule.category") := by
  have all : ∀ t ∈ IntrusionCategory.all.map (·.toStr), t ∉ namesOf (chars% "rule.category") := by decide +kernel
  refine all _ ?_
  cases p <;> decide

/-! ### Every field of every event -/

theorem fits_of_shape {n : Str} {t : FieldType} {s : Shape} (h : getDefaultSchema.getField n = some t) (hs : shapeOf n = some s) (v : SiemField) :
    Fits t v ↔ ShapeFits s v := by
  rw [fits_iff]
  simp only [shapeOf, h, Option.map_some, Option.some.injEq] at hs
  rw [hs]

/-- The entry is as the theorem below says. -/
def AsDeclared (e : SiemEvent) (x : Str × SiemField) : Prop :=
  ∀ t, getDefaultSchema.getField x.1 = some t → (Fits t x.2 ↔ ¬ Unfit e x.1)

section
variable {e : SiemEvent} {n : Str}
theorem asIp (a : SiemIp) (hu : ¬ Unfit e n) (h : n ∈ [chars% "source.ip", chars% "destination.ip", chars% "client.ip"]) :
    AsDeclared e (n, .ip a) := fun _ ht => iff_of_true ((fits_of_shape ht (ips n h) _).2 trivial) hu
theorem asNum {w : Nat} (a : BitVec w) (hu : ¬ Unfit e n) (h : n ∈ [chars% "source.port", chars% "destination.port", chars% "source.bytes",
    chars% "destination.bytes", chars% "http.response.status_code"]) :
    AsDeclared e (n, num a) := fun _ ht => iff_of_true ((fits_of_shape ht (numbers n h) _).2 trivial) hu
theorem asText {v : SiemField} (hv : (∃ s, v = .text s) ∨ (∃ s, v = .user s) ∨ ∃ s, v = .domain s) (hu : ¬ Unfit e n)
    (h : shapeOf n = some .text) : AsDeclared e (n, v) := by
  intro _ ht
  refine iff_of_true ((fits_of_shape ht h _).2 ?_) hu
  rcases hv with ⟨s, rfl⟩ | ⟨s, rfl⟩ | ⟨s, rfl⟩ <;> exact trivial
theorem asUnknown {v : SiemField} (h : n ∈ unknownToDefault) : AsDeclared e (n, v) := by
  intro t ht
  have := unknowns n h
  simp only [shapeOf] at this
  have ht : getDefaultSchema.getField n = some t := ht
  rw [ht] at this
  cases this
theorem asOption {s : Str} {p : Prop} (hs : s ∈ namesOf n ↔ ¬ p) (hu : Unfit e n ↔ p) (h : n ∈ [chars% "event.outcome", chars% "network.transport",
    chars% "network.protocol", chars% "http.request.method", chars% "rule.category"]) : AsDeclared e (n, .text s) := by
  intro _ ht
  rw [fits_of_shape ht (option_fields n h).1]
  show s ∈ namesOf n ↔ _
  rw [hs, hu]
theorem asOutcome {s : Str} (hs : s ∈ namesOf (chars% "event.outcome")) (hu : ¬ Unfit e (chars% "event.outcome")) :
    AsDeclared e (chars% "event.outcome", .text s) := asOption (p := False) (iff_of_true hs id) (iff_of_false hu id) (by decide +kernel)
theorem asBase (hu : ¬ Unfit e (chars% "message")) (hu' : ¬ Unfit e (chars% "origin")) : ∀ x ∈ Spec.baseFields, AsDeclared e x := by
  intro x hx
  simp only [Spec.baseFields, List.mem_cons, List.not_mem_nil, or_false] at hx
  rcases hx with rfl | rfl | rfl | rfl
  · exact asText (.inl ⟨_, rfl⟩) hu (texts _ (by decide +kernel))
  · exact asText (.inl ⟨_, rfl⟩) hu' (texts _ (by decide +kernel))
  · exact asUnknown (by decide +kernel)
  · exact asUnknown (by decide +kernel)
end

/-- Closes entries that are of the declared kind whatever the event. -/
local macro "plain" : tactic => `(tactic| first
  | exact asIp _ (by simp [Unfit]) (by decide +kernel)
  | exact asNum _ (by simp [Unfit]) (by decide +kernel)
  | exact asText (.inl ⟨_, rfl⟩) (by simp [Unfit]) (texts _ (by decide +kernel))
  | exact asText (.inr (.inl ⟨_, rfl⟩)) (by simp [Unfit]) (texts _ (by decide +kernel))
  | exact asText (.inr (.inr ⟨_, rfl⟩)) (by simp [Unfit]) (texts _ (by decide +kernel))
  | exact asUnknown (by decide +kernel)
  | skip)

theorem asAddress {e : SiemEvent} (a : Str) (hu : ¬ Unfit e (chars% "source.ip")) : ∀ x ∈ addressField a, AsDeclared e x := by
  intro x hx
  unfold addressField at hx
  split at hx
  · simp only [List.mem_singleton] at hx
    subst hx
    exact asIp _ hu (by decide +kernel)
  · cases hx

theorem optional_all {α : Type} {e : SiemEvent} {n : Str} {v : Option α} {f : α → SiemField} (h : ∀ a, v = some a → AsDeclared e (n, f a)) :
    ∀ x ∈ optional n v f, AsDeclared e x := by
  intro x hx
  cases v with
  | none => cases hx
  | some a =>
    have hx : x = (n, f a) := List.mem_singleton.1 hx
    subst hx
    exact h a rfl

theorem declared_all (dbg : Str → Str) (e : SiemEvent) : ∀ x ∈ eventFields dbg e, AsDeclared e x := by
  cases e with
  | firewall v =>
    simp only [eventFields, firewallFields, List.forall_mem_cons]
    refine ⟨?_, ?_, ?_, ?_, ?_, ?_, ?_, ?_, ?_, ?_, ?_⟩ <;> plain
    · exact asOutcome (outcome_options.1 _) (by simp [Unfit])
    · exact asOption (transport_options dbg v.networkProtocol) (by simp [Unfit]) (by decide +kernel)
    · simp
  | intrusion v =>
    simp only [eventFields, intrusionFields, List.forall_mem_cons]
    refine ⟨?_, ?_, ?_, ?_, ?_, ?_, ?_, ?_, ?_, ?_⟩ <;> plain
    · exact asOutcome (outcome_options.2.2.2.2 _) (by simp [Unfit])
    · exact asOption (p := True) (iff_of_false (protocol_not_web dbg _) (fun h => h trivial)) (by simp [Unfit]) (by decide +kernel)
    · exact asOption (p := True) (iff_of_false (intrusion_not_web _) (fun h => h trivial)) (by simp [Unfit]) (by decide +kernel)
    · intro t ht
      rw [fits_of_shape ht (texts (chars% "rule.id") (by decide +kernel))]
      exact iff_of_false id (fun h => h (by simp [Unfit]))
    · simp
  | webProxy v =>
    simp only [eventFields, webProxyFields, List.forall_mem_append, List.forall_mem_cons]
    refine ⟨⟨⟨?_, ?_, ?_, ?_, ?_, ?_, ?_, ?_, ?_, ?_, ?_, ?_, ?_, ?_⟩, optional_all fun a ha => ?_⟩, optional_all fun a _ => ?_⟩ <;> plain
    · exact asOutcome (outcome_options.2.1 _) (by simp [Unfit])
    · exact asOption (web_options dbg v.protocol) (by simp [Unfit]) (by decide +kernel)
    · exact asOption (method_options dbg v.httpMethod) (by simp [Unfit]) (by decide +kernel)
    · simp
    · exact asOption (category_options dbg a) (by simp [Unfit, ha]) (by decide +kernel)
  | webServer v =>
    simp only [eventFields, webServerFields, List.forall_mem_append, List.forall_mem_cons]
    refine ⟨?_, optional_all fun a _ => ?_, ?_, ?_, ?_, ?_, ?_, ?_, ?_, ?_, ?_, ?_, ?_, ?_, ?_, ?_, ?_, ?_, ?_⟩ <;> plain
    · exact asOutcome (outcome_options.2.2.1 _) (by simp [Unfit])
    · exact asOption (web_options dbg v.protocol) (by simp [Unfit]) (by decide +kernel)
    · exact asOption (method_options dbg v.httpMethod) (by simp [Unfit]) (by decide +kernel)
    · intro t ht
      rw [fits_of_shape ht duration_shape]
      exact iff_of_true trivial (by simp [Unfit])
    · simp
  | dns v =>
    simp only [eventFields, dnsFields]
    cases v.opCode with
    | ANSWER =>
      simp only [List.forall_mem_append, List.forall_mem_cons]
      refine ⟨⟨?_, ?_, ?_⟩, ⟨⟨?_, ?_, ?_⟩, optional_all fun a _ => ?_⟩, ?_, ?_⟩ <;> plain <;> simp
    | QUERY =>
      simp only [List.forall_mem_append, List.forall_mem_cons]
      refine ⟨⟨?_, ?_, ?_⟩, ?_, ?_, ?_, ?_⟩ <;> plain <;> simp
  | dhcp v =>
    simp only [eventFields, dhcpFields, List.forall_mem_append, List.forall_mem_cons]
    refine ⟨⟨?_, ?_, ?_, ?_, ?_, ?_, ?_⟩, ?_⟩ <;> plain
    · simp
    · split
      · simp only [List.forall_mem_cons]
        exact ⟨asUnknown (by decide +kernel), by simp⟩
      · simp
  | auth v =>
    simp only [eventFields, authFields, List.forall_mem_append, List.forall_mem_cons]
    refine ⟨⟨?_, ?_, ?_⟩, ?_⟩ <;> plain
    · exact asOutcome (outcome_options.2.2.2.1 _) (by simp [Unfit])
    · simp
    · cases v.loginType with
      | «local» u d =>
        simp only [List.forall_mem_cons]
        refine ⟨?_, ?_, ?_⟩ <;> plain; simp
      | remote u d a =>
        simp only [List.forall_mem_append, List.forall_mem_cons]
        refine ⟨⟨⟨?_, ?_, ?_⟩, asAddress a (by simp [Unfit])⟩, ?_, ?_⟩ <;> plain <;> simp
      | upgrade a b c =>
        simp only [List.forall_mem_cons]
        refine ⟨?_, ?_, ?_, ?_⟩ <;> plain; simp
      | validation u a =>
        simp only [List.forall_mem_append, List.forall_mem_cons]
        refine ⟨?_, asAddress a (by simp [Unfit]), ?_, ?_⟩ <;> plain; simp
      | delegation a b c d =>
        simp only [List.forall_mem_cons]
        refine ⟨?_, ?_, ?_, ?_, ?_⟩ <;> plain; simp
  | _ => intro x hx; cases hx

/-- C63. A field of the log of an event that the default schema declares has a value of the declared kind, except exactly those of
`Unfit`: protocols, methods and categories outside the lists; the protocol, the category and the identifier of intrusions always. -/
theorem C63_event_values_fit (dbg : Str → Str) (e : SiemEvent) :
    ∃ log, e.toLog dbg = .ret log ∧ ∀ n v t, log.field n = some v → getDefaultSchema.getField n = some t → (Fits t v ↔ ¬ Unfit e n) := by
  obtain ⟨log, h1, h2⟩ := event_log dbg e
  refine ⟨log, h1, fun n v t hf ht => ?_⟩
  rcases List.mem_append.1 (h2.nothingElse n v hf) with hm | hm
  · exact declared_all dbg e _ hm t ht
  · refine asBase ?_ ?_ _ hm t ht <;> cases e <;> simp [Unfit]

/-! ### Which fields the events fill -/

theorem eventNames_filled : ∀ n ∈ (OMap.ofList defaultFields).map (·.1), n ∈ eventNames ↔ n ∉ neverFilled := by decide +kernel

def exFirewall : FirewallEvent :=
  { sourceIp := .v4 1, destinationIp := .v4 2, sourcePort := 3, destinationPort := 4, networkProtocol := .TCP, outcome := .ALLOW,
    inBytes := 5, outBytes := 6, inInterface := [], outInterface := [] }
def exIntrusion : IntrusionEvent :=
  { sourceIp := .v4 1, destinationIp := .v4 2, sourcePort := 3, destinationPort := 4, networkProtocol := .TCP, outcome := .BLOCKED,
    ruleName := [], ruleCategory := .XSS, ruleId := 7 }
def exWebProxy : WebProxyEvent :=
  { sourceIp := .v4 1, destinationIp := .v4 2, destinationPort := 4, inBytes := 5, outBytes := 6, httpCode := 200, httpMethod := .GET,
    url := [], domain := [], protocol := .HTTP, userName := [], mimeType := [], outcome := .ALLOW, ruleName := some [],
    ruleCategory := some .Alcohol }
def exWebServer : WebServerEvent :=
  { sourceIp := .v4 1, destinationIp := some (.v4 2), destinationPort := 4, inBytes := 5, outBytes := 6, httpCode := 200, duration := .nan,
    httpMethod := .GET, userAgent := [], urlFull := [], urlDomain := [], urlPath := [], urlQuery := [], urlExtension := [],
    protocol := .HTTP, userName := [], mimeType := [], outcome := .ALLOW }
def exDns (t : DnsEventType) : DnsEvent :=
  { sourceIp := .v4 1, destinationIp := .v4 2, opCode := t, recordType := .A, recordName := [], data := some [] }
def exDhcp : DhcpEvent := { sourceIp := .v4 1, sourceMac := 0, recordType := .Request, sourceHostname := [], hostname := [] }
def exRemote : AuthEvent := { loginType := .remote [] [] [], outcome := .FAIL, hostname := [] }
def exDelegation : AuthEvent := { loginType := .delegation [] [] [] [], outcome := .FAIL, hostname := [] }
def exEvents : List SiemEvent :=
  [.firewall exFirewall, .intrusion exIntrusion, .webProxy exWebProxy, .webServer exWebServer, .dns (exDns .ANSWER), .dns (exDns .QUERY),
   .dhcp exDhcp, .auth exRemote, .auth exDelegation]

theorem some_event : ∀ n ∈ eventNames, ∃ e ∈ exEvents, n ∈ (eventFields id e ++ Spec.baseFields).map (·.1) := by decide +kernel

/-- C63. The fields of the default schema that the events fill are all of them but ten: the texts and tags that a log gets by itself, the
timestamps, which logs keep under other names, and the address that a DHCP client requests, which the event stores under another name. -/
theorem C63_fields_filled (dbg : Str → Str) (n : Str) (h : n ∈ getDefaultSchema.fieldNames) :
    (∃ e log, SiemEvent.toLog dbg e = .ret log ∧ log.hasField n = true) ↔ n ∉ neverFilled := by
  have hn := eventNames_filled n h
  have hasf : ∀ log : SiemLog, log.hasField n = true ↔ ∃ v, log.field n = some v := by
    intro log
    simp only [SiemLog.hasField, SiemLog.field, OMap.contains, Option.isSome_iff_exists, Option.map_eq_some_iff]
    constructor
    · rintro ⟨a, ha⟩; exact ⟨_, a, ha, rfl⟩
    · rintro ⟨_, a, ha, _⟩; exact ⟨a, ha⟩
  rw [← hn]
  constructor
  · rintro ⟨e, log, h1, h2⟩
    obtain ⟨log', h1', hc⟩ := event_log dbg e
    rw [h1] at h1'
    cases h1'
    obtain ⟨v, hv⟩ := (hasf log).1 h2
    exact event_names dbg e n v (hc.nothingElse n v hv)
  · intro hm
    obtain ⟨e, he, hmem⟩ := some_event n hm
    have names : ∀ e ∈ exEvents, ((eventFields dbg e).map (·.1)) = ((eventFields id e).map (·.1)) := by
      intro e he
      simp only [exEvents, List.mem_cons, List.not_mem_nil, or_false] at he
      rcases he with rfl | rfl | rfl | rfl | rfl | rfl | rfl | rfl | rfl <;> rfl
    rw [List.map_append, ← names e he, ← List.map_append] at hmem
    obtain ⟨⟨n', v⟩, hx, rfl⟩ := List.mem_map.1 hmem
    obtain ⟨log, h1, hc⟩ := event_log dbg e
    exact ⟨e, log, h1, (hasf log).2 ⟨v, hc.stored _ v hx⟩⟩

/-! ### Logs in general, and the other schema -/

theorem default_sorted : OMap.Sorted (OMap.ofList defaultFields) := OMap.sorted_ofList _

/-- C63. On any log, the default schema keeps the tags and what the accessors of texts read; it erases both timestamps. -/
theorem C63_accessors (log : SiemLog) :
    (getDefaultSchema.apply log).message = log.message ∧ (getDefaultSchema.apply log).origin = log.origin ∧
    (getDefaultSchema.apply log).tenant = log.tenant ∧ (getDefaultSchema.apply log).product = log.product ∧
    (getDefaultSchema.apply log).service = log.service ∧ (getDefaultSchema.apply log).category = log.category ∧
    (getDefaultSchema.apply log).vendor = log.vendor ∧ (getDefaultSchema.apply log).tags = log.tags ∧
    (getDefaultSchema.apply log).eventCreated = 0 ∧ (getDefaultSchema.apply log).eventReceived = 0 := by
  have hk : ∀ n ∈ [chars% "message", chars% "origin", chars% "tenant", chars% "product", chars% "service", chars% "category", chars% "vendor"],
      (getDefaultSchema.getField n).isSome = true := by decide +kernel
  have keep : ∀ n ∈ [chars% "message", chars% "origin", chars% "tenant", chars% "product", chars% "service", chars% "category", chars% "vendor"],
      (getDefaultSchema.apply log).textOrEmpty n = log.textOrEmpty n := by
    intro n hn
    simp only [SiemLog.textOrEmpty, (C44_apply getDefaultSchema log n).1, hk n hn, if_true]
  have h1 : (getDefaultSchema.apply log).field (chars% "event.created") = none := by
    rw [(C44_apply _ log _).1, if_neg]; decide +kernel
  have h2 : (getDefaultSchema.apply log).field (chars% "event.received") = none := by
    rw [(C44_apply _ log _).1, if_neg]; decide +kernel
  refine ⟨keep _ (by decide), keep _ (by decide), keep _ (by decide), keep _ (by decide), keep _ (by decide), keep _ (by decide),
    keep _ (by decide), rfl, ?_, ?_⟩
  · unfold SiemLog.eventCreated; rw [h1]
  · unfold SiemLog.eventReceived; rw [h2]

/-- C63. The list of tags that a log stores as a field is kept, but it is declared as a text. -/
theorem C63_tags_unfit (u : Ambient) (log : SiemLog) (tag : Str) :
    ∃ l t, (getDefaultSchema.apply (log.addTag u tag)).field (chars% "tags") = some (.array l) ∧
      getDefaultSchema.getField (chars% "tags") = some t ∧ ¬ Fits t (.array l) := by
  have hs : shapeOf (chars% "tags") = some .text := by decide +kernel
  obtain ⟨t, ht⟩ : ∃ t, getDefaultSchema.getField (chars% "tags") = some t := by
    cases ht : getDefaultSchema.getField (chars% "tags") with
    | none => simp only [shapeOf, ht] at hs; cases hs
    | some t => exact ⟨t, rfl⟩
  have hf : ∃ l, (log.addTag u tag).field (chars% "tags") = some (.array l) := by
    simp only [SiemLog.field, SiemLog.addTag, OMap.get?_insert, if_true]
    exact ⟨_, rfl⟩
  obtain ⟨l, hl⟩ := hf
  refine ⟨l, t, ?_, ht, fun h => (fits_of_shape ht hs _).1 h⟩
  rw [(C44_apply _ _ _).1, ht]
  exact hl

/-- C63. The base schema of parsers and the default schema declare the same, where both declare a field, except the origin of the log: an
address in one, a text in the other; the default schema has all the fields of the base schema. -/
theorem C63_base_and_default (n : Str) (t : FieldType) (h : FieldSchema.new.getField n = some t) :
    ∃ t', getDefaultSchema.getField n = some t' ∧ (t = t' ↔ n ≠ chars% "origin") := by
  have key : ∀ e ∈ OMap.ofList FieldSchema.baseFields, (getDefaultSchema.getField e.1).isSome = true ∧
      (getDefaultSchema.getField e.1 = some e.2 ↔ e.1 ≠ chars% "origin") := by decide +kernel
  have := key (n, t) (OMap.mem_of_get? h)
  obtain ⟨t', ht'⟩ := Option.isSome_iff_exists.1 this.1
  refine ⟨t', ht', ?_⟩
  rw [← this.2]
  show t = t' ↔ getDefaultSchema.getField n = some t
  rw [show getDefaultSchema.getField n = some t' from ht']
  exact ⟨fun h => by rw [h], fun h => (Option.some.inj h).symm⟩

/-- C63. Neither schema allows unknown fields nor says anything about personal data, and merging one into the other does not change that. -/
theorem C63_flags : getDefaultSchema.allowUnknownFields = false ∧ getDefaultSchema.gdpr = none ∧
    FieldSchema.new.allowUnknownFields = false ∧ FieldSchema.new.gdpr = none ∧
    (FieldSchema.new.addSchema getDefaultSchema).allowUnknownFields = false ∧ (FieldSchema.new.addSchema getDefaultSchema).gdpr = none :=
  ⟨rfl, rfl, rfl, rfl, rfl, rfl⟩

/-- C63. Merging the default schema into the base schema gives the default schema, field by field. -/
theorem C63_base_with_default (n : Str) : (FieldSchema.new.addSchema getDefaultSchema).getField n = getDefaultSchema.getField n := by
  have hwf : getDefaultSchema.WF := by
    refine ⟨default_sorted, fun n o d h => ?_⟩
    have key : ∀ e ∈ OMap.ofList defaultFields, (match e.2 with | .textOptions o _ => decide (o.Pairwise fun a b => compare a.1 b.1 = .lt) | _ => true) = true := by
      decide +kernel
    have := key _ (OMap.mem_of_get? h)
    simpa [OMap.Sorted] using this
  have hm := (C44_merge FieldSchema.new getDefaultSchema hwf).1 n
  cases ht : getDefaultSchema.getField n with
  | none =>
    rw [ht] at hm
    have hm : (FieldSchema.new.addSchema getDefaultSchema).getField n = FieldSchema.new.getField n := by
      cases hb : FieldSchema.new.getField n <;> rw [hb] at hm <;> simpa [MergedField] using hm
    rw [hm]
    cases hb : FieldSchema.new.getField n with
    | none => rfl
    | some t =>
      obtain ⟨t', h1, _⟩ := C63_base_and_default n t hb
      rw [ht] at h1; cases h1
  | some t =>
    rw [ht] at hm
    cases hb : FieldSchema.new.getField n with
    | none => rw [hb] at hm; simpa [MergedField] using hm
    | some b =>
      have hno : ∀ o d, b ≠ .textOptions o d := by
        have key : ∀ e ∈ OMap.ofList FieldSchema.baseFields, (match e.2 with | .textOptions _ _ => false | _ => true) = true := by decide +kernel
        intro o d hbe
        have := key _ (OMap.mem_of_get? hb)
        rw [hbe] at this; cases this
      rw [hb] at hm
      cases b
      case textOptions o d => exact absurd rfl (hno o d)
      all_goals simpa [MergedField] using hm

/-- A concrete event with a value outside the lists: it is kept, and it is not of the declared kind. -/
example : Unfit (.webProxy { exWebProxy with httpMethod := .UNKNOWN (chars% "DELETE") }) (chars% "http.request.method") :=
  .inr (.inl ⟨rfl, .inr ⟨_, rfl⟩⟩)
example : ¬ Unfit (.webProxy exWebProxy) (chars% "http.request.method") := by simp [Unfit, exWebProxy]
example : Fits (.textOptions [(chars% "GET", [])] []) (.text (chars% "GET")) := ⟨[], by simp⟩
example : chars% "source.ip" ∈ getDefaultSchema.fieldNames ∧ chars% "source.ip" ∉ neverFilled ∧ chars% "dhcp.requested_ip" ∈ getDefaultSchema.fieldNames := by
  decide +kernel

end USiem
