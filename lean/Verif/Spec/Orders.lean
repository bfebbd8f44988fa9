import Verif.Model.Orders
/- What the orders of C84 mean. -/
namespace USiem.Spec

/-- Text `a` comes before text `b` in the order of code points: at the first difference it has the smaller code point, or it ends there. -/
def TextBefore (a b : Str) : Prop :=
  (∃ c t, b = a ++ c :: t) ∨ ∃ common x y s t, a = common ++ x :: s ∧ b = common ++ y :: t ∧ x.toNat < y.toNat

/-- `x` stands before `y` in a list. -/
def ListedBefore (names : List Str) (x y : Str) : Prop := ∃ p q r, names = p ++ x :: q ++ y :: r

/-- A comparison that is a total order: it says equal only of equal things, it says the opposite of swapped things, and it is transitive. -/
structure TotalOrder {T : Type} (cmp : T → T → Ordering) : Prop where
  equal : ∀ a b, cmp a b = .eq ↔ a = b
  swapped : ∀ a b, cmp a b = .lt ↔ cmp b a = .gt
  transitive : ∀ a b c, cmp a b = .lt → cmp b c = .lt → cmp a c = .lt

/-- The written form of a variant: its name and, for a variant with a text inside, the text. -/
def Written (j : Json) (name : Str) (inside : Option Str) : Prop :=
  match inside with
  | none => j = .str name
  | some s => j = .obj [(name, .str s)]

/-- The order of the names, and between two of the same name that of the texts inside. -/
def ByName {T : Type} (ser : T → Json) (names : List Str) (cmp : T → T → Ordering) : Prop :=
  ∀ a b x y s t, Written (ser a) x s → Written (ser b) y t →
    (cmp a b = .lt ↔ ListedBefore names x y ∨ x = y ∧ ∃ s' t', s = some s' ∧ t = some t' ∧ TextBefore s' t')

/-- The variants of `SiemFunctionType` as the source lists them. -/
def functionTypeNames : List Str :=
  [chars% "STOP_COMPONENT", chars% "START_COMPONENT", chars% "LOG_QUERY", chars% "ISOLATE_IP", chars% "ISOLATE_ENDPOINT",
   chars% "FILTER_IP", chars% "FILTER_DOMAIN", chars% "FILTER_EMAIL_SENDER", chars% "LIST_USE_CASES", chars% "GET_USE_CASE",
   chars% "LIST_RULES", chars% "GET_RULE", chars% "LIST_TASKS", chars% "LIST_DATASETS", chars% "DOWNLOAD_QUERY",
   chars% "LOGIN_USER", chars% "LIST_PARSERS", chars% "START_TASK", chars% "GET_TASK_RESULT", chars% "OTHER"]

/-- The variants of `SiemTaskType` as the source lists them. -/
def taskTypeNames : List Str :=
  [chars% "EXECUTE_ENDPOINT_SCRIPT", chars% "REMEDIATE_EMAILS", chars% "REPORT_ABUSE", chars% "UPDATE_GEOIP",
   chars% "UPDATE_CLOUD_PROVIDER", chars% "OTHER"]

/-- The notification levels, from the one that says least. -/
def levelNames : List Str :=
  [chars% "Off", chars% "Error", chars% "Warn", chars% "Info", chars% "Debug", chars% "Trace"]

/-- The variants of `SiemDatasetType` as the source lists them. -/
def datasetTypeNames : List Str :=
  [chars% "GeoIp", chars% "IpMac", chars% "IpDNS", chars% "MacHost", chars% "HostUser", chars% "BlockIp", chars% "BlockDomain",
   chars% "BlockEmailSender", chars% "BlockCountry", chars% "UserTag", chars% "AssetTag", chars% "IpCloudService",
   chars% "IpCloudProvider", chars% "UserHeadquarters", chars% "IpHeadquarters", chars% "HeadquartersWorkingHours",
   chars% "HostVulnerable", chars% "CorrelationRules", chars% "CustomMapIpNet", chars% "CustomMapText", chars% "CustomMapTextList",
   chars% "CustomIpList", chars% "CustomIpMap", chars% "CustomTextList", chars% "MantainceCalendar", chars% "Configuration",
   chars% "Secrets", chars% "I18n"]

end USiem.Spec
