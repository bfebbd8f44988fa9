import Verif.Model.Wire
import Verif.Model.RuleWire
import Verif.Model.EventWire
import Verif.Model.ErrorWire
import Verif.Spec.SigmaWire
/- How an enumeration is read from a JSON document, and the names of the variants of the enumerations (C74). -/
namespace USiem.Spec
open USiem

/-- The document names a variant: alone, as a text, or with a payload, as an object with one member. -/
def Names (j : Json) (name : Str) : Option Json → Prop
  | none => j = .str name
  | some p => j = .obj [(name, p)]

/-- What the payload of a variant (if there is one) stands for. -/
abbrev Variant (α : Type) := Option Json → α → Prop

/-- A variant without payload: nothing or null. -/
def bare {α : Type} (a : α) : Variant α := fun p v => (p = none ∨ p = some .null) ∧ v = a
/-- A variant with one payload. -/
def holding {α β : Type} (R : Json → β → Prop) (c : β → α) : Variant α := fun p v => ∃ j x, p = some j ∧ R j x ∧ v = c x
/-- A variant with two payloads: an array of two. -/
def holdingTwo {α β γ : Type} (R : Json → β → Prop) (S : Json → γ → Prop) (c : β → γ → α) : Variant α :=
  fun p v => ∃ j k x y, p = some (.arr [j, k]) ∧ R j x ∧ S k y ∧ v = c x y
/-- A variant with an empty list of payloads: an empty array. -/
def holdingNothing {α : Type} (a : α) : Variant α := fun p v => p = some (.arr []) ∧ v = a
/-- A variant that cannot be read. -/
def unreadable {α : Type} : Variant α := fun _ _ => False

/-- A document read as a value of an enumeration with these variants. -/
def VariantOf {α : Type} (variants : List (Str × Variant α)) (j : Json) (v : α) : Prop :=
  ∃ name R p, (name, R) ∈ variants ∧ Names j name p ∧ R p v

/-- An enumeration whose variants are these: what is read, and what is written (a variant without payload as its name alone). -/
def OnTheWire {α : Type} (variants : List (Str × Variant α)) (read : Json → Option α) (write : α → Json) : Prop :=
  (∀ j v, read j = some v ↔ VariantOf variants j v) ∧ ∀ v, VariantOf variants (write v) v ∧ ∀ name, write v ≠ .obj [(name, .null)]

/-- Payloads: a text, whole numbers of a width, an object of texts. -/
def aText (j : Json) (s : Str) : Prop := j = .str s
def anUnsigned (w : Nat) (j : Json) (n : BitVec w) : Prop := j = .int n.toNat
def aSigned (j : Json) (n : BitVec 64) : Prop := j = .int n.toInt
def someTexts (j : Json) (m : OMap Str Str) : Prop := ∃ kvs, j = .obj kvs ∧ ObjectAs aText kvs m

/-- Objects with values of a kind, and lists. -/
def objectOf {α : Type} (R : Json → α → Prop) (j : Json) (m : OMap Str α) : Prop := ∃ kvs, j = .obj kvs ∧ ObjectAs R kvs m
def listOf {α : Type} (R : Json → α → Prop) (j : Json) (l : List α) : Prop := ∃ items, j = .arr items ∧ AllPairs R items l
/-- Five numbers of 32 bits. -/
def fiveNumbers {α : Type} (c : BitVec 32 → BitVec 32 → BitVec 32 → BitVec 32 → BitVec 32 → α) : Variant α :=
  fun p v => ∃ a b d e f : BitVec 32, p = some (.arr [.int a.toNat, .int b.toNat, .int d.toNat, .int e.toNat, .int f.toNat]) ∧ v = c a b d e f
/-- A structure, read by its own reader (C73, C75). -/
def reads {α : Type} (f : Json → Option α) (j : Json) (x : α) : Prop := f j = some x

def roleVariants : List (Str × Variant UserRole) :=
  [(chars% "Compliance", bare .compliance), (chars% "Analyst", bare .analyst), (chars% "Engineer", bare .engineer), (chars% "Administrator", bare .administrator)]

def levelVariants : List (Str × Variant NotificationLevel) :=
  [(chars% "Off", bare .off), (chars% "Error", bare .error), (chars% "Warn", bare .warn), (chars% "Info", bare .info), (chars% "Debug", bare .debug),
   (chars% "Trace", bare .trace)]

def severityVariants : List (Str × Variant AlertSeverity) :=
  [(chars% "INFORMATIONAL", bare .informational), (chars% "LOW", bare .low), (chars% "MEDIUM", bare .medium), (chars% "HIGH", bare .high),
   (chars% "CRITICAL", bare .critical)]

def addressVariants : List (Str × Variant SiemIp) := [(chars% "V4", holding (anUnsigned 32) .v4), (chars% "V6", holding (anUnsigned 128) .v6)]

def taskVariants : List (Str × Variant SiemTaskData) :=
  [(chars% "EXECUTE_ENDPOINT_SCRIPT", holdingTwo aText someTexts .EXECUTE_ENDPOINT_SCRIPT), (chars% "REMEDIATE_EMAILS", holding someTexts .REMEDIATE_EMAILS),
   (chars% "REPORT_ABUSE", holding someTexts .REPORT_ABUSE), (chars% "UPDATE_GEOIP", bare .UPDATE_GEOIP),
   (chars% "UPDATE_CLOUD_PROVIDER", bare .UPDATE_CLOUD_PROVIDER), (chars% "OTHER", holdingTwo aText someTexts .OTHER)]

def taskTypeVariants : List (Str × Variant SiemTaskType) :=
  [(chars% "EXECUTE_ENDPOINT_SCRIPT", bare .EXECUTE_ENDPOINT_SCRIPT), (chars% "REMEDIATE_EMAILS", bare .REMEDIATE_EMAILS),
   (chars% "REPORT_ABUSE", bare .REPORT_ABUSE), (chars% "UPDATE_GEOIP", bare .UPDATE_GEOIP), (chars% "UPDATE_CLOUD_PROVIDER", bare .UPDATE_CLOUD_PROVIDER),
   (chars% "OTHER", holding aText .OTHER)]

def resultVariants : List (Str × Variant (Except Str Str)) := [(chars% "Ok", holding aText .ok), (chars% "Err", holding aText .error)]

def functionVariants : List (Str × Variant SiemFunctionType) :=
  [(chars% "STOP_COMPONENT", bare .STOP_COMPONENT), (chars% "START_COMPONENT", bare .START_COMPONENT), (chars% "LOG_QUERY", bare .LOG_QUERY),
   (chars% "ISOLATE_IP", bare .ISOLATE_IP), (chars% "ISOLATE_ENDPOINT", bare .ISOLATE_ENDPOINT), (chars% "FILTER_IP", bare .FILTER_IP),
   (chars% "FILTER_DOMAIN", bare .FILTER_DOMAIN), (chars% "FILTER_EMAIL_SENDER", bare .FILTER_EMAIL_SENDER), (chars% "LIST_USE_CASES", bare .LIST_USE_CASES),
   (chars% "GET_USE_CASE", bare .GET_USE_CASE), (chars% "LIST_RULES", bare .LIST_RULES), (chars% "GET_RULE", bare .GET_RULE),
   (chars% "LIST_TASKS", bare .LIST_TASKS), (chars% "LIST_DATASETS", bare .LIST_DATASETS), (chars% "DOWNLOAD_QUERY", bare .DOWNLOAD_QUERY),
   (chars% "LOGIN_USER", bare .LOGIN_USER), (chars% "LIST_PARSERS", bare .LIST_PARSERS), (chars% "START_TASK", bare .START_TASK),
   (chars% "GET_TASK_RESULT", bare .GET_TASK_RESULT), (chars% "OTHER", holding aText .OTHER)]

def datasetVariants : List (Str × Variant SiemDatasetType) :=
  [(chars% "GeoIp", bare .geoIp), (chars% "IpMac", bare .ipMac), (chars% "IpDNS", bare .ipDNS), (chars% "MacHost", bare .macHost),
   (chars% "HostUser", bare .hostUser), (chars% "BlockIp", bare .blockIp), (chars% "BlockDomain", bare .blockDomain),
   (chars% "BlockEmailSender", bare .blockEmailSender), (chars% "BlockCountry", bare .blockCountry), (chars% "UserTag", bare .userTag),
   (chars% "AssetTag", bare .assetTag), (chars% "IpCloudService", bare .ipCloudService), (chars% "IpCloudProvider", bare .ipCloudProvider),
   (chars% "UserHeadquarters", bare .userHeadquarters), (chars% "IpHeadquarters", bare .ipHeadquarters),
   (chars% "HeadquartersWorkingHours", bare .headquartersWorkingHours), (chars% "HostVulnerable", bare .hostVulnerable),
   (chars% "CorrelationRules", bare .correlationRules), (chars% "CustomMapIpNet", holding aText .customMapIpNet),
   (chars% "CustomMapText", holding aText .customMapText), (chars% "CustomMapTextList", holding aText .customMapTextList),
   (chars% "CustomIpList", holding aText .customIpList), (chars% "CustomIpMap", holding aText .customIpMap),
   (chars% "CustomTextList", holding aText .customTextList), (chars% "MantainceCalendar", bare .mantainceCalendar),
   (chars% "Configuration", bare .configuration), (chars% "Secrets", holding aText .secrets), (chars% "I18n", bare .i18n)]

def commandErrorVariants : List (Str × Variant CommandError) :=
  [(chars% "BadParameters", holding aText .badParameters), (chars% "SyntaxError", holding aText .syntaxError), (chars% "NotFound", holding aText .notFound)]

/-- An answer to a command: an object with the one member `ok`, or with the one member `err`. -/
def anAnswer {α : Type} (R : Json → α → Prop) (j : Json) (x : CommandResult α) : Prop :=
  (∃ p a, j = .obj [(chars% "ok", p)] ∧ R p a ∧ x = .ok a) ∨ ∃ p e, j = .obj [(chars% "err", p)] ∧ VariantOf commandErrorVariants p e ∧ x = .err e

def stateVariants : List (Str × Variant RuleStateValue) := [(chars% "Text", holding aText .text), (chars% "Field", holding aText .field)]

def contentVariants : List (Str × Variant AlertContent) :=
  [(chars% "Text", holding aText .text), (chars% "Field", holding aText .field), (chars% "MatchedRules", holding aText .matchedRules)]

def storageErrorVariants : List (Str × Variant StorageError) :=
  [(chars% "NotExists", bare .notExists), (chars% "ConnectionError", bare .connectionError), (chars% "AlredyExists", bare .alredyExists)]

def messagingErrorVariants : List (Str × Variant MessagingError) :=
  [(chars% "Disconnected", bare .disconnected), (chars% "TimeoutReached", bare .timeoutReached), (chars% "Full", bare .full)]

def componentErrorVariants : List (Str × Variant ComponentError) := [(chars% "StopRequested", bare .stopRequested)]

def executionErrorVariants : List (Str × Variant CommandExecutionError) :=
  [(chars% "Communication", holding aText .communication), (chars% "Other", holding aText .other)]

def firewallOutcomeVariants : List (Str × Variant FirewallOutcome) :=
  [(chars% "BLOCK", bare .BLOCK), (chars% "ALLOW", bare .ALLOW), (chars% "END", bare .END), (chars% "STATS", bare .STATS),
   (chars% "OPEN", bare .OPEN), (chars% "UNKNOWN", bare .UNKNOWN)]

def webProxyOutcomeVariants : List (Str × Variant WebProxyOutcome) :=
  [(chars% "BLOCK", bare .BLOCK), (chars% "ALLOW", bare .ALLOW), (chars% "UNKNOWN", bare .UNKNOWN)]

def webServerOutcomeVariants : List (Str × Variant WebServerOutcome) :=
  [(chars% "BLOCK", bare .BLOCK), (chars% "ALLOW", bare .ALLOW), (chars% "UNKNOWN", bare .UNKNOWN)]

def intrusionOutcomeVariants : List (Str × Variant IntrusionOutcome) :=
  [(chars% "DETECTED", bare .DETECTED), (chars% "BLOCKED", bare .BLOCKED), (chars% "MONITOR", bare .MONITOR), (chars% "IMPACTED", bare .IMPACTED)]

def intrusionCategoryVariants : List (Str × Variant IntrusionCategory) :=
  [(chars% "XSS", bare .XSS), (chars% "SQL_INJECTION", bare .SQL_INJECTION), (chars% "PATH_TRANSVERSAL", bare .PATH_TRANSVERSAL),
   (chars% "WEB_ATTACK", bare .WEB_ATTACK), (chars% "DOS", bare .DOS), (chars% "SURVEILLANCE", bare .SURVEILLANCE), (chars% "TROJAN", bare .TROJAN),
   (chars% "VIRUS", bare .VIRUS), (chars% "SPYWARE", bare .SPYWARE), (chars% "RAT_TOOL", bare .RAT_TOOL), (chars% "RANSOMWARE", bare .RANSOMWARE),
   (chars% "HACKTOOL", bare .HACKTOOL), (chars% "PROXY_AVOIDANCE", bare .PROXY_AVOIDANCE), (chars% "REMOTE_EXPLOIT", bare .REMOTE_EXPLOIT),
   (chars% "LOCAL_EXPLOIT", bare .LOCAL_EXPLOIT), (chars% "BOTNET", bare .BOTNET), (chars% "SPAM", bare .SPAM), (chars% "PHISHING", bare .PHISHING),
   (chars% "CEO_FRAUD", bare .CEO_FRAUD), (chars% "SCAM", bare .SCAM), (chars% "DATA_THEFT", bare .DATA_THEFT),
   (chars% "BRUTE_FORCE", bare .BRUTE_FORCE), (chars% "MISCONFIGURATION", bare .MISCONFIGURATION), (chars% "AD_ATTACK", bare .AD_ATTACK),
   (chars% "UNKNOWN", bare .UNKNOWN), (chars% "INFORMATION_LEAKAGE", bare .INFORMATION_LEAKAGE), (chars% "ANOMALY", bare .ANOMALY),
   (chars% "SESSION_FIXATION", bare .SESSION_FIXATION), (chars% "PROTOCOL_ATTACK", bare .PROTOCOL_ATTACK), (chars% "REPUTATION", bare .REPUTATION)]

def loginOutcomeVariants : List (Str × Variant LoginOutcome) :=
  [(chars% "SUCCESS", bare .SUCCESS), (chars% "FAIL", bare .FAIL), (chars% "LOCKOUT", bare .LOCKOUT), (chars% "ESTABLISH", bare .ESTABLISH)]

def dnsEventVariants : List (Str × Variant DnsEventType) :=
  [(chars% "ANSWER", bare .ANSWER), (chars% "QUERY", bare .QUERY)]

def dnsRecordVariants : List (Str × Variant DnsRecordType) :=
  [(chars% "A", bare .A), (chars% "AAAA", bare .AAAA), (chars% "CNAME", bare .CNAME), (chars% "MX", bare .MX), (chars% "NS", bare .NS),
   (chars% "PTR", bare .PTR), (chars% "CERT", bare .CERT), (chars% "SRV", bare .SRV), (chars% "TXT", bare .TXT), (chars% "SOA", bare .SOA)]

def dhcpRecordVariants : List (Str × Variant DhcpRecordType) :=
  [(chars% "Request", bare .Request), (chars% "Assign", bare .Assign), (chars% "Release", bare .Release)]

def httpMethodVariants : List (Str × Variant HttpMethod) :=
  [(chars% "UNKNOWN", holding aText .UNKNOWN), (chars% "GET", bare .GET), (chars% "POST", bare .POST), (chars% "PUT", bare .PUT),
   (chars% "PATCH", bare .PATCH), (chars% "OPTIONS", bare .OPTIONS), (chars% "CONNECT", bare .CONNECT), (chars% "HEAD", bare .HEAD),
   (chars% "UNDEFINED", bare .UNDEFINED)]

def webProtocolVariants : List (Str × Variant WebProtocol) :=
  [(chars% "UNKNOWN", holding aText .UNKNOWN), (chars% "HTTP", bare .HTTP), (chars% "HTTPS", bare .HTTPS), (chars% "FTP", bare .FTP),
   (chars% "WS", bare .WS), (chars% "WSS", bare .WSS)]

def categoryVariants : List (Str × Variant WebProxyRuleCategory) :=
  [(chars% "Others", holding aText .Others), (chars% "Abortion", bare .Abortion), (chars% "MatureContent", bare .MatureContent), (chars% "Alcohol", bare .Alcohol),
   (chars% "AlternativeSpirituality", bare .AlternativeSpirituality), (chars% "ArtCulture", bare .ArtCulture), (chars% "Auctions", bare .Auctions),
   (chars% "AudioVideoClips", bare .AudioVideoClips), (chars% "Trading", bare .Trading), (chars% "Economy", bare .Economy),
   (chars% "Charitable", bare .Charitable), (chars% "OnlineChat", bare .OnlineChat), (chars% "ChildPornography", bare .ChildPornography),
   (chars% "CloudInfrastructure", bare .CloudInfrastructure), (chars% "CompromisedSites", bare .CompromisedSites),
   (chars% "InformationSecurity", bare .InformationSecurity), (chars% "ContentDeliveryNetworks", bare .ContentDeliveryNetworks),
   (chars% "ControlledSubstances", bare .ControlledSubstances), (chars% "Cryptocurrency", bare .Cryptocurrency),
   (chars% "DynamicDNSHost", bare .DynamicDNSHost), (chars% "ECardInvitations", bare .ECardInvitations), (chars% "Education", bare .Education),
   (chars% "Email", bare .Email), (chars% "EmailMarketing", bare .EmailMarketing), (chars% "Entertainment", bare .Entertainment),
   (chars% "FileStorage", bare .FileStorage), (chars% "Finance", bare .Finance), (chars% "ForKids", bare .ForKids),
   (chars% "Gambling", bare .Gambling), (chars% "Games", bare .Games), (chars% "Gore", bare .Gore), (chars% "Government", bare .Government),
   (chars% "Hacking", bare .Hacking), (chars% "Health", bare .Health), (chars% "HumorJokes", bare .HumorJokes),
   (chars% "Informational", bare .Informational), (chars% "InternetConnectedDevices", bare .InternetConnectedDevices),
   (chars% "InternetTelephony", bare .InternetTelephony), (chars% "IntimateApparel", bare .IntimateApparel), (chars% "JobSearch", bare .JobSearch),
   (chars% "MaliciousOutboundDataBotnets", bare .MaliciousOutboundDataBotnets), (chars% "MaliciousSources", bare .MaliciousSources),
   (chars% "Marijuana", bare .Marijuana), (chars% "MediaSharing", bare .MediaSharing), (chars% "Military", bare .Military),
   (chars% "PotentiallyAdult", bare .PotentiallyAdult), (chars% "News", bare .News), (chars% "Forums", bare .Forums),
   (chars% "Nudity", bare .Nudity), (chars% "BusinessApplications", bare .BusinessApplications), (chars% "OnlineMeetings", bare .OnlineMeetings),
   (chars% "P2P", bare .P2P), (chars% "PersonalSites", bare .PersonalSites), (chars% "PersonalsDating", bare .PersonalsDating),
   (chars% "Phishing", bare .Phishing), (chars% "CopyrightConcerns", bare .CopyrightConcerns), (chars% "Placeholders", bare .Placeholders),
   (chars% "PoliticalAdvocacy", bare .PoliticalAdvocacy), (chars% "Pornography", bare .Pornography),
   (chars% "PotentiallyUnwantedSoftware", bare .PotentiallyUnwantedSoftware), (chars% "ProxyAvoidance", bare .ProxyAvoidance),
   (chars% "RadioAudioStreams", bare .RadioAudioStreams), (chars% "RealEstate", bare .RealEstate), (chars% "Reference", bare .Reference),
   (chars% "Religion", bare .Religion), (chars% "RemoteAccess", bare .RemoteAccess), (chars% "Restaurants", bare .Restaurants),
   (chars% "QuestionableLegality", bare .QuestionableLegality), (chars% "SearchEngines", bare .SearchEngines),
   (chars% "SexEducation", bare .SexEducation), (chars% "SexualExpression", bare .SexualExpression), (chars% "Shopping", bare .Shopping),
   (chars% "SocialNetworking", bare .SocialNetworking), (chars% "DailyLiving", bare .DailyLiving),
   (chars% "SoftwareDownloads", bare .SoftwareDownloads), (chars% "Spam", bare .Spam), (chars% "Sports", bare .Sports),
   (chars% "Suspicious", bare .Suspicious), (chars% "Technology", bare .Technology), (chars% "Tobacco", bare .Tobacco),
   (chars% "Translation", bare .Translation), (chars% "Travel", bare .Travel), (chars% "VideoStreams", bare .VideoStreams),
   (chars% "Uncategorized", bare .Uncategorized), (chars% "URLShorteners", bare .URLShorteners), (chars% "Vehicles", bare .Vehicles),
   (chars% "Violence", bare .Violence), (chars% "Weapons", bare .Weapons), (chars% "WebAds", bare .WebAds), (chars% "WebHosting", bare .WebHosting),
   (chars% "WebInfrastructure", bare .WebInfrastructure)]

def loginVariants : List (Str × Variant LoginUser) :=
  [(chars% "Password", holding (reads LoginUserPass.de) .password), (chars% "ApiKey", holding aText .apiKey)]

def fireModeVariants : List (Str × Variant TaskFireMode) :=
  [(chars% "Inmediate", bare .inmediate), (chars% "Cron", fiveNumbers .cron), (chars% "Repetitive", holding (anUnsigned 64) .repetitive),
   (chars% "Future", holding aSigned .future)]

def commandVariants : List (Str × Variant SiemCommandCall) :=
  [(chars% "START_COMPONENT", holding aText .START_COMPONENT), (chars% "STOP_COMPONENT", holding aText .STOP_COMPONENT),
   (chars% "LOG_QUERY", holding (reads QueryInfo.de) .LOG_QUERY), (chars% "ISOLATE_IP", holding (reads IsolateIp.de) .ISOLATE_IP),
   (chars% "ISOLATE_ENDPOINT", holding (reads IsolateEndpoint.de) .ISOLATE_ENDPOINT), (chars% "FILTER_IP", holding (reads FilterIp.de) .FILTER_IP),
   (chars% "FILTER_DOMAIN", holding (reads FilterDomain.de) .FILTER_DOMAIN),
   (chars% "FILTER_EMAIL_SENDER", holding (reads FilterEmail.de) .FILTER_EMAIL_SENDER),
   (chars% "LIST_USE_CASES", holding (reads Pagination.de) .LIST_USE_CASES), (chars% "GET_USE_CASE", holding aText .GET_USE_CASE),
   (chars% "LIST_RULES", holding (reads Pagination.de) .LIST_RULES), (chars% "GET_RULE", holding aText .GET_RULE),
   (chars% "LIST_DATASETS", holding (reads Pagination.de) .LIST_DATASETS), (chars% "LIST_TASKS", holding (reads Pagination.de) .LIST_TASKS),
   (chars% "DOWNLOAD_QUERY", holdingNothing .DOWNLOAD_QUERY), (chars% "LIST_PARSERS", holding (reads Pagination.de) .LIST_PARSERS),
   (chars% "LOGIN_USER", holding (VariantOf loginVariants) .LOGIN_USER), (chars% "START_TASK", holding (reads SiemTask.de) .START_TASK),
   (chars% "GET_TASK_RESULT", holding (anUnsigned 64) .GET_TASK_RESULT), (chars% "OTHER", holdingTwo aText someTexts .OTHER)]

def responseVariants (u : Ambient) : List (Str × Variant SiemCommandResponse) :=
  [(chars% "START_COMPONENT", holding (anAnswer aText) .START_COMPONENT),
   (chars% "STOP_COMPONENT", holding (anAnswer aText) .STOP_COMPONENT),
   (chars% "LOG_QUERY", holdingTwo (reads QueryInfo.de) (anAnswer (listOf (objectOf (reads (SiemField.de u))))) .LOG_QUERY),
   (chars% "ISOLATE_IP", holding (anAnswer aText) .ISOLATE_IP),
   (chars% "ISOLATE_ENDPOINT", holding (anAnswer aText) .ISOLATE_ENDPOINT),
   (chars% "FILTER_IP", holding (anAnswer aText) .FILTER_IP),
   (chars% "FILTER_DOMAIN", holding (anAnswer aText) .FILTER_DOMAIN),
   (chars% "FILTER_EMAIL_SENDER", holding (anAnswer aText) .FILTER_EMAIL_SENDER),
   (chars% "LIST_USE_CASES", holding (anAnswer (listOf (reads UseCaseDefinition.de))) .LIST_USE_CASES),
   (chars% "GET_USE_CASE", holding (anAnswer (reads UseCaseDefinition.de)) .GET_USE_CASE),
   (chars% "LIST_RULES", holding (anAnswer (listOf (reads RuleDefinition.de))) .LIST_RULES),
   (chars% "GET_RULE", holding (anAnswer (reads RuleDefinition.de)) .GET_RULE),
   (chars% "LIST_DATASETS", holding (anAnswer (listOf (reads DatasetDefinition.de))) .LIST_DATASETS),
   (chars% "LIST_TASKS", holding (anAnswer (listOf (reads ListedTask.de))) .LIST_TASKS),
   (chars% "LIST_PARSERS", holding (anAnswer (listOf (reads ParserDefinition.de))) .LIST_PARSERS),
   (chars% "LOGIN_USER", holding (anAnswer (reads LoggedOnUser.de)) .LOGIN_USER),
   (chars% "START_TASK", holding (anAnswer (anUnsigned 64)) .START_TASK),
   (chars% "GET_TASK_RESULT", holding (anAnswer (reads SiemTaskResult.de)) .GET_TASK_RESULT),
   (chars% "OTHER", holdingTwo aText (anAnswer someTexts) .OTHER)]

def messageVariants {P : DatasetFamily → Type} (u : Ambient) : List (Str × Variant (SiemMessage P)) :=
  [(chars% "Command", holdingTwo (reads SiemCommandHeader.de) (VariantOf commandVariants) .command),
   (chars% "Response", holdingTwo (reads SiemCommandHeader.de) (VariantOf (responseVariants u)) .response),
   (chars% "Log", holding (reads (SiemLog.de u)) .log), (chars% "Notification", holding (reads Notification.de) .notification),
   (chars% "Alert", holding (reads (SiemAlert.de u)) .alert), (chars% "Task", holdingTwo (reads SiemCommandHeader.de) (reads SiemTask.de) .task),
   (chars% "TaskResult", holdingTwo (reads SiemCommandHeader.de) (reads SiemTaskResult.de) .taskResult)]

def parsingErrorVariants (u : Ambient) : List (Str × Variant LogParsingError) :=
  [(chars% "NoValidParser", holding (reads (SiemLog.de u)) .noValidParser),
   (chars% "ParserError", holdingTwo (reads (SiemLog.de u)) aText .parserError),
   (chars% "NotImplemented", holding (reads (SiemLog.de u)) .notImplemented),
   (chars% "FormatError", holdingTwo (reads (SiemLog.de u)) aText .formatError), (chars% "Discard", bare .discard)]

def errorVariants (u : Ambient) : List (Str × Variant SiemError) :=
  [(chars% "Io", holding aText .io), (chars% "Serialization", holding aText .serialization),
   (chars% "Parsing", holding (VariantOf (parsingErrorVariants u)) .parsing), (chars% "Indexing", holding aText .indexing),
   (chars% "Storage", holding (VariantOf storageErrorVariants) .storage), (chars% "Task", holding aText .task),
   (chars% "Command", holding (VariantOf executionErrorVariants) .command), (chars% "Configuration", holding aText .configuration),
   (chars% "Messaging", holding (VariantOf messagingErrorVariants) .messaging), (chars% "Other", holding aText .other),
   (chars% "Component", holding (VariantOf componentErrorVariants) .component)]

/-- The name under which a command is sent. -/
def commandName : SiemCommandCall → Str
  | .START_COMPONENT _ => chars% "START_COMPONENT" | .STOP_COMPONENT _ => chars% "STOP_COMPONENT" | .LOG_QUERY _ => chars% "LOG_QUERY"
  | .ISOLATE_IP _ => chars% "ISOLATE_IP" | .ISOLATE_ENDPOINT _ => chars% "ISOLATE_ENDPOINT" | .FILTER_IP _ => chars% "FILTER_IP"
  | .FILTER_DOMAIN _ => chars% "FILTER_DOMAIN" | .FILTER_EMAIL_SENDER _ => chars% "FILTER_EMAIL_SENDER" | .LIST_USE_CASES _ => chars% "LIST_USE_CASES"
  | .GET_USE_CASE _ => chars% "GET_USE_CASE" | .LIST_RULES _ => chars% "LIST_RULES" | .GET_RULE _ => chars% "GET_RULE"
  | .LIST_DATASETS _ => chars% "LIST_DATASETS" | .LIST_TASKS _ => chars% "LIST_TASKS" | .DOWNLOAD_QUERY => chars% "DOWNLOAD_QUERY"
  | .LIST_PARSERS _ => chars% "LIST_PARSERS" | .LOGIN_USER _ => chars% "LOGIN_USER" | .START_TASK _ => chars% "START_TASK"
  | .GET_TASK_RESULT _ => chars% "GET_TASK_RESULT" | .OTHER _ _ => chars% "OTHER"

/-- The name under which a response is sent. -/
def responseName : SiemCommandResponse → Str
  | .START_COMPONENT _ => chars% "START_COMPONENT" | .STOP_COMPONENT _ => chars% "STOP_COMPONENT" | .LOG_QUERY _ _ => chars% "LOG_QUERY"
  | .ISOLATE_IP _ => chars% "ISOLATE_IP" | .ISOLATE_ENDPOINT _ => chars% "ISOLATE_ENDPOINT" | .FILTER_IP _ => chars% "FILTER_IP"
  | .FILTER_DOMAIN _ => chars% "FILTER_DOMAIN" | .FILTER_EMAIL_SENDER _ => chars% "FILTER_EMAIL_SENDER" | .LIST_USE_CASES _ => chars% "LIST_USE_CASES"
  | .GET_USE_CASE _ => chars% "GET_USE_CASE" | .LIST_RULES _ => chars% "LIST_RULES" | .GET_RULE _ => chars% "GET_RULE"
  | .LIST_DATASETS _ => chars% "LIST_DATASETS" | .LIST_TASKS _ => chars% "LIST_TASKS" | .LIST_PARSERS _ => chars% "LIST_PARSERS"
  | .LOGIN_USER _ => chars% "LOGIN_USER" | .START_TASK _ => chars% "START_TASK" | .GET_TASK_RESULT _ => chars% "GET_TASK_RESULT"
  | .OTHER _ _ => chars% "OTHER"

/-- The name under which a message is sent; datasets are not sent as JSON. -/
def messageName {P : DatasetFamily → Type} : SiemMessage P → Option Str
  | .command _ _ => some (chars% "Command") | .response _ _ => some (chars% "Response") | .log _ => some (chars% "Log")
  | .notification _ => some (chars% "Notification") | .dataset _ => none | .alert _ => some (chars% "Alert") | .task _ _ => some (chars% "Task")
  | .taskResult _ _ => some (chars% "TaskResult")

end USiem.Spec
