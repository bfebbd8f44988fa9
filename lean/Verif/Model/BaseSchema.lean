import Verif.Model.Schema
/- Generated by tools/gen_base_schema.py from /repo/src/events/base_schema.rs and field_dictionary.rs: the default schema. -/
namespace USiem

/-- The options `web_protocol`, src/events/base_schema.rs lines 89-96, in the order of the insertions. -/
def webProtocolOptions : List (Str × Str) :=
  [(chars% "HTTP", chars% "HyperText Transfer Protocol. HTTP is the underlying protocol used by the World Wide Web. "),
   (chars% "HTTPS", chars% "Secured HTTP protocol"),
   (chars% "FTP", chars% "The File Transfer Protocol is a standard communication protocol used for the transfer of computer files from a server to a client on a computer network."),
   (chars% "WS", chars% "WebSocket is a computer communications protocol, providing full-duplex communication channels over a single TCP connection."),
   (chars% "WSS", chars% "Secured WebSocket protocol")]

/-- The options `web_cat`, src/events/base_schema.rs lines 98-190, in the order of the insertions. -/
def webCategoryOptions : List (Str × Str) :=
  [(chars% "Abortion", chars% "Abortion"),
   (chars% "MatureContent", chars% "MatureContent"),
   (chars% "Alcohol", chars% "Alcohol"),
   (chars% "AlternativeSpirituality", chars% "AlternativeSpirituality"),
   (chars% "ArtCulture", chars% "ArtCulture"),
   (chars% "Auctions", chars% "Auctions"),
   (chars% "AudioVideoClips", chars% "AudioVideoClips"),
   (chars% "Trading", chars% "Trading"),
   (chars% "Economy", chars% "Economy"),
   (chars% "Charitable", chars% "Charitable"),
   (chars% "OnlineChat", chars% "OnlineChat"),
   (chars% "ChildPornography", chars% "ChildPornography"),
   (chars% "CloudInfrastructure", chars% "CloudInfrastructure"),
   (chars% "CompromisedSites", chars% "CompromisedSites"),
   (chars% "InformationSecurity", chars% "InformationSecurity"),
   (chars% "ContentDeliveryNetworks", chars% "ContentDeliveryNetworks"),
   (chars% "ControlledSubstances", chars% "ControlledSubstances"),
   (chars% "Cryptocurrency", chars% "Cryptocurrency"),
   (chars% "DynamicDNSHost", chars% "DynamicDNSHost"),
   (chars% "ECardInvitations", chars% "ECardInvitations"),
   (chars% "Education", chars% "Education"),
   (chars% "Email", chars% "Email"),
   (chars% "EmailMarketing", chars% "EmailMarketing"),
   (chars% "Entertainment", chars% "Entertainment"),
   (chars% "FileStorage", chars% "FileStorage"),
   (chars% "Finance", chars% "Finance"),
   (chars% "ForKids", chars% "ForKids"),
   (chars% "Gambling", chars% "Gambling"),
   (chars% "Games", chars% "Games"),
   (chars% "Gore", chars% "Gore"),
   (chars% "Government", chars% "Government"),
   (chars% "Hacking", chars% "Hacking"),
   (chars% "Health", chars% "Health"),
   (chars% "HumorJokes", chars% "HumorJokes"),
   (chars% "Informational", chars% "Informational"),
   (chars% "InternetConnectedDevices", chars% "InternetConnectedDevices"),
   (chars% "InternetTelephony", chars% "InternetTelephony"),
   (chars% "IntimateApparel", chars% "IntimateApparel"),
   (chars% "JobSearch", chars% "JobSearch"),
   (chars% "MaliciousOutboundDataBotnets", chars% "MaliciousOutboundDataBotnets"),
   (chars% "MaliciousSources", chars% "MaliciousSources"),
   (chars% "Marijuana", chars% "Marijuana"),
   (chars% "MediaSharing", chars% "MediaSharing"),
   (chars% "Military", chars% "Military"),
   (chars% "PotentiallyAdult", chars% "PotentiallyAdult"),
   (chars% "News", chars% "News"),
   (chars% "Forums", chars% "Forums"),
   (chars% "Nudity", chars% "Nudity"),
   (chars% "BusinessApplications", chars% "BusinessApplications"),
   (chars% "OnlineMeetings", chars% "OnlineMeetings"),
   (chars% "P2P", chars% "P2P"),
   (chars% "PersonalSites", chars% "PersonalSites"),
   (chars% "PersonalsDating", chars% "PersonalsDating"),
   (chars% "Phishing", chars% "Phishing"),
   (chars% "CopyrightConcerns", chars% "CopyrightConcerns"),
   (chars% "Placeholders", chars% "Placeholders"),
   (chars% "PoliticalAdvocacy", chars% "PoliticalAdvocacy"),
   (chars% "Pornography", chars% "Pornography"),
   (chars% "PotentiallyUnwantedSoftware", chars% "PotentiallyUnwantedSoftware"),
   (chars% "ProxyAvoidance", chars% "ProxyAvoidance"),
   (chars% "RadioAudioStreams", chars% "RadioAudioStreams"),
   (chars% "RealEstate", chars% "RealEstate"),
   (chars% "Reference", chars% "Reference"),
   (chars% "Religion", chars% "Religion"),
   (chars% "RemoteAccess", chars% "RemoteAccess"),
   (chars% "Restaurants", chars% "Restaurants"),
   (chars% "QuestionableLegality", chars% "QuestionableLegality"),
   (chars% "SearchEngines", chars% "SearchEngines"),
   (chars% "SexEducation", chars% "SexEducation"),
   (chars% "SexualExpression", chars% "SexualExpression"),
   (chars% "Shopping", chars% "Shopping"),
   (chars% "SocialNetworking", chars% "SocialNetworking"),
   (chars% "DailyLiving", chars% "DailyLiving"),
   (chars% "SoftwareDownloads", chars% "SoftwareDownloads"),
   (chars% "Spam", chars% "Spam"),
   (chars% "Sports", chars% "Sports"),
   (chars% "Suspicious", chars% "Suspicious"),
   (chars% "Technology", chars% "Technology"),
   (chars% "Tobacco", chars% "Tobacco"),
   (chars% "Translation", chars% "Translation"),
   (chars% "Travel", chars% "Travel"),
   (chars% "VideoStreams", chars% "VideoStreams"),
   (chars% "Uncategorized", chars% "Uncategorized"),
   (chars% "URLShorteners", chars% "URLShorteners"),
   (chars% "Vehicles", chars% "Vehicles"),
   (chars% "Violence", chars% "Violence"),
   (chars% "Weapons", chars% "Weapons"),
   (chars% "WebAds", chars% "WebAds"),
   (chars% "WebHosting", chars% "WebHosting"),
   (chars% "WebInfrastructure", chars% "WebInfrastructure")]

/-- The options `net_protocol`, src/events/base_schema.rs lines 196-338, in the order of the insertions. -/
def netProtocolOptions : List (Str × Str) :=
  [(chars% "HOPOPT", chars% "HOPOPT"),
   (chars% "ICMP", chars% "ICMP"),
   (chars% "IGMP", chars% "IGMP"),
   (chars% "GGP", chars% "GGP"),
   (chars% "IPV4", chars% "IPV4"),
   (chars% "ST", chars% "ST"),
   (chars% "TCP", chars% "TCP"),
   (chars% "CBT", chars% "CBT"),
   (chars% "EGP", chars% "EGP"),
   (chars% "IGP", chars% "IGP"),
   (chars% "BBN_RCC_MON", chars% "BBN_RCC_MON"),
   (chars% "NVP_II", chars% "NVP_II"),
   (chars% "PUP", chars% "PUP"),
   (chars% "ARGUS", chars% "ARGUS"),
   (chars% "EMCON", chars% "EMCON"),
   (chars% "XNET", chars% "XNET"),
   (chars% "CHAOS", chars% "CHAOS"),
   (chars% "UDP", chars% "UDP"),
   (chars% "MUX", chars% "MUX"),
   (chars% "DCN_MEAS", chars% "DCN_MEAS"),
   (chars% "HMP", chars% "HMP"),
   (chars% "PRM", chars% "PRM"),
   (chars% "XNS_IDP", chars% "XNS_IDP"),
   (chars% "TRUNK_1", chars% "TRUNK_1"),
   (chars% "TRUNK_2", chars% "TRUNK_2"),
   (chars% "LEAF_1", chars% "LEAF_1"),
   (chars% "LEAF_2", chars% "LEAF_2"),
   (chars% "RDP", chars% "RDP"),
   (chars% "IRTP", chars% "IRTP"),
   (chars% "ISO_TP4", chars% "ISO_TP4"),
   (chars% "NETBLT", chars% "NETBLT"),
   (chars% "MFE_NSP", chars% "MFE_NSP"),
   (chars% "MERIT_INP", chars% "MERIT_INP"),
   (chars% "DCCP", chars% "DCCP"),
   (chars% "ThirdPC", chars% "ThirdPC"),
   (chars% "IDPR", chars% "IDPR"),
   (chars% "XTP", chars% "XTP"),
   (chars% "DDP", chars% "DDP"),
   (chars% "IDPR_CMTP", chars% "IDPR_CMTP"),
   (chars% "TPpp", chars% "TPpp"),
   (chars% "IL", chars% "IL"),
   (chars% "IPV6", chars% "IPV6"),
   (chars% "SDRP", chars% "SDRP"),
   (chars% "IPV6_ROUTE", chars% "IPV6_ROUTE"),
   (chars% "IPV6_FRAG", chars% "IPV6_FRAG"),
   (chars% "IDRP", chars% "IDRP"),
   (chars% "RSVP", chars% "RSVP"),
   (chars% "GRE", chars% "GRE"),
   (chars% "DSR", chars% "DSR"),
   (chars% "BNA", chars% "BNA"),
   (chars% "ESP", chars% "ESP"),
   (chars% "AH", chars% "AH"),
   (chars% "I_NLSP", chars% "I_NLSP"),
   (chars% "SWIPE", chars% "SWIPE"),
   (chars% "NARP", chars% "NARP"),
   (chars% "MOBILE", chars% "MOBILE"),
   (chars% "TLSP", chars% "TLSP"),
   (chars% "SKIP", chars% "SKIP"),
   (chars% "IPV6_ICMP", chars% "IPV6_ICMP"),
   (chars% "IPV6_NONXT", chars% "IPV6_NONXT"),
   (chars% "IPV6_OPTS", chars% "IPV6_OPTS"),
   (chars% "CFTP", chars% "CFTP"),
   (chars% "SAT_EXPAK", chars% "SAT_EXPAK"),
   (chars% "KRYPTOLAN", chars% "KRYPTOLAN"),
   (chars% "RVD", chars% "RVD"),
   (chars% "IPPC", chars% "IPPC"),
   (chars% "SAT_MON", chars% "SAT_MON"),
   (chars% "VISA", chars% "VISA"),
   (chars% "IPCV", chars% "IPCV"),
   (chars% "CPNX", chars% "CPNX"),
   (chars% "CPHB", chars% "CPHB"),
   (chars% "WSN", chars% "WSN"),
   (chars% "PVP", chars% "PVP"),
   (chars% "BR_SAT_MON", chars% "BR_SAT_MON"),
   (chars% "SUN_ND", chars% "SUN_ND"),
   (chars% "WB_MON", chars% "WB_MON"),
   (chars% "WB_EXPAK", chars% "WB_EXPAK"),
   (chars% "ISO_IP", chars% "ISO_IP"),
   (chars% "VMTP", chars% "VMTP"),
   (chars% "SECURE_VMTP", chars% "SECURE_VMTP"),
   (chars% "VINES", chars% "VINES"),
   (chars% "TTP", chars% "TTP"),
   (chars% "IPTM", chars% "IPTM"),
   (chars% "NSFNET_IGP", chars% "NSFNET_IGP"),
   (chars% "DGP", chars% "DGP"),
   (chars% "TCF", chars% "TCF"),
   (chars% "EIGRP", chars% "EIGRP"),
   (chars% "OSPFIGP", chars% "OSPFIGP"),
   (chars% "SPRITE_RPC", chars% "SPRITE_RPC"),
   (chars% "LARP", chars% "LARP"),
   (chars% "MTP", chars% "MTP"),
   (chars% "AX_25", chars% "AX_25"),
   (chars% "IPIP", chars% "IPIP"),
   (chars% "MICP", chars% "MICP"),
   (chars% "SCC_SP", chars% "SCC_SP"),
   (chars% "ETHERIP", chars% "ETHERIP"),
   (chars% "ENCAP", chars% "ENCAP"),
   (chars% "GMTP", chars% "GMTP"),
   (chars% "IFMP", chars% "IFMP"),
   (chars% "PNNI", chars% "PNNI"),
   (chars% "PIM", chars% "PIM"),
   (chars% "ARIS", chars% "ARIS"),
   (chars% "SCPS", chars% "SCPS"),
   (chars% "QNX", chars% "QNX"),
   (chars% "A_N", chars% "A_N"),
   (chars% "IPCOMP", chars% "IPCOMP"),
   (chars% "SNP", chars% "SNP"),
   (chars% "COMPAQ_PEER", chars% "COMPAQ_PEER"),
   (chars% "IPX_IN_IP", chars% "IPX_IN_IP"),
   (chars% "VRRP", chars% "VRRP"),
   (chars% "PGM", chars% "PGM"),
   (chars% "L2TP", chars% "L2TP"),
   (chars% "DDX", chars% "DDX"),
   (chars% "IATP", chars% "IATP"),
   (chars% "STP", chars% "STP"),
   (chars% "SRP", chars% "SRP"),
   (chars% "UTI", chars% "UTI"),
   (chars% "SMP", chars% "SMP"),
   (chars% "SM", chars% "SM"),
   (chars% "PTP", chars% "PTP"),
   (chars% "ISIS", chars% "ISIS"),
   (chars% "FIRE", chars% "FIRE"),
   (chars% "CRTP", chars% "CRTP"),
   (chars% "CRUDP", chars% "CRUDP"),
   (chars% "SSCOPMCE", chars% "SSCOPMCE"),
   (chars% "IPLT", chars% "IPLT"),
   (chars% "SPS", chars% "SPS"),
   (chars% "PIPE", chars% "PIPE"),
   (chars% "SCTP", chars% "SCTP"),
   (chars% "FC", chars% "FC"),
   (chars% "RSVP_E2E_IGNORE", chars% "RSVP_E2E_IGNORE"),
   (chars% "MOBILITY", chars% "MOBILITY"),
   (chars% "UDPLITE", chars% "UDPLITE"),
   (chars% "MPLS_IN_IP", chars% "MPLS_IN_IP"),
   (chars% "MANET", chars% "MANET"),
   (chars% "HIP", chars% "HIP"),
   (chars% "SHIM6", chars% "SHIM6"),
   (chars% "WESP", chars% "WESP"),
   (chars% "ROHC", chars% "ROHC"),
   (chars% "ETHERNET", chars% "ETHERNET"),
   (chars% "USE", chars% "USE"),
   (chars% "RESERVED", chars% "RESERVED"),
   (chars% "UNKNOWN", chars% "UNKNOWN")]

/-- The options `http_request_method`, src/events/base_schema.rs lines 356-365, in the order of the insertions. -/
def httpMethodOptions : List (Str × Str) :=
  [(chars% "GET", chars% "The GET method requests that the target resource transfers a representation of its state."),
   (chars% "HEAD", chars% "The HEAD method requests that the target resource transfers a representation of its state, like for a GET request, but without the representation data enclosed in the response body."),
   (chars% "POST", chars% "The POST method requests that the target resource processes the representation enclosed in the request according to the semantics of the target resource."),
   (chars% "PUT", chars% "The PUT method requests that the target resource creates or updates its state with the state defined by the representation enclosed in the request."),
   (chars% "PATCH", chars% "The PATCH method requests that the target resource modifies its state according to the partial update defined in the representation enclosed in the request."),
   (chars% "OPTIONS", chars% "The OPTIONS method requests that the target resource transfers the HTTP methods that it supports."),
   (chars% "CONNECT", chars% "The CONNECT method request that the intermediary establishes a TCP/IP tunnel to the origin server identified by the request target.")]

/-- The options `event_outcome`, src/events/base_schema.rs lines 395-425, in the order of the insertions. -/
def eventOutcomeOptions : List (Str × Str) :=
  [(chars% "SUCCESS", chars% "Login success"),
   (chars% "FAIL", chars% "Login failed"),
   (chars% "LOCKOUT", chars% "Account locked out"),
   (chars% "ESTABLISH", chars% "Pre authentication phase: trying to connect"),
   (chars% "BLOCK", chars% "Connection was blocked"),
   (chars% "ALLOW", chars% "Connection was allowed"),
   (chars% "END", chars% "Connection ended, the event contains information about bytes sended/received"),
   (chars% "STATS", chars% "The connection is still ongoing, but we log statistics about it"),
   (chars% "OPEN", chars% "Oppened connection. Later can be dropped due to policy settings. Ej: Sonicwall or Firepower have this behavior."),
   (chars% "UNKNOWN", chars% "Unknow connection state."),
   (chars% "DETECTED", chars% "The attack has not been prevented and may affect systems"),
   (chars% "BLOCKED", chars% "The attack was prevented"),
   (chars% "MONITOR", chars% "The attack was not prevented but it does not affect assets"),
   (chars% "IMPACTED", chars% "The attack has not been prevented and has affected assets")]

/-- The fields inserted by `get_default_schema`, src/events/base_schema.rs lines 7-430, in order. -/
def defaultFields : List (Str × FieldType) :=
  [(chars% "origin", .text (chars% "IP or Hostname of the server that sent the log")),
   (chars% "tenant", .text (chars% "Customer name for SOC environments. Ex: Contoso")),
   (chars% "product", .text (chars% "Name of the product for wich the log belongs. Ex: ASA")),
   (chars% "service", .text (chars% "Subset of the product logs. Like a OS that can have multiple programs running inside generating multiple logs.")),
   (chars% "category", .text (chars% "Category of the device: Firewall, web, antivirus")),
   (chars% "vendor", .text (chars% "Company that created the product. Ex: Cisco")),
   (chars% "event.type", .text (chars% "uSIEM log type: SiemEvent")),
   (chars% "tags", .text (chars% "Tags to better describe the event")),
   (chars% "message", .text (chars% "Original log message including syslog header")),
   (chars% "event_received", .date (chars% "Timestamp at witch the log arrived  ")),
   (chars% "event_created", .date (chars% "Timestamp at witch the log was generated")),
   (chars% "host.hostname", .text (chars% "Hostname of the host")),
   (chars% "server.hostname", .text (chars% "Hostname of the server")),
   (chars% "client.hostname", .text (chars% "Hostname of the client")),
   (chars% "client.ip", .ip (chars% "Ip of the client")),
   (chars% "client.mac", .text (chars% "MAC address of the client")),
   (chars% "dhcp.type", .text (chars% "DHCP record type")),
   (chars% "dhcp.requested_ip", .ip (chars% "DHCP requested IP")),
   (chars% "user.name", .text (chars% "User name")),
   (chars% "user.domain", .text (chars% "Domain of the user")),
   (chars% "source.user.name", .text (chars% "Username of the initiator of an action")),
   (chars% "source.user.domain", .text (chars% "Domain of the initiator of an action")),
   (chars% "source.ip", .ip (chars% "IP of the initiator of a connection")),
   (chars% "destination.ip", .ip (chars% "IP of the target of a conector")),
   (chars% "source.port", .numeric (chars% "Port of the source")),
   (chars% "destination.port", .numeric (chars% "Port of the destination")),
   (chars% "source.bytes", .numeric (chars% "Bytes sent from the source to the destination.")),
   (chars% "destination.bytes", .numeric (chars% "Bytes sent from the destination to the source")),
   (chars% "observer.ingress.interface", .text (chars% "Name of the interface receiving the connection")),
   (chars% "observer.egress.interface", .text (chars% "Name of the egress interface")),
   (chars% "rule.category", .textOptions (OMap.ofList webCategoryOptions) (chars% "Category of the rule")),
   (chars% "network.transport", .textOptions (OMap.ofList netProtocolOptions) (chars% "Network transport protocol: TCP, UDP...")),
   (chars% "network.protocol", .textOptions (OMap.ofList webProtocolOptions) (chars% "Network protocol: http, ftp, snmp...")),
   (chars% "source.address", .text (chars% "An IP, a domain or a unix socket.")),
   (chars% "http.response.status_code", .numeric (chars% "HTTP Status code: 404, 200...")),
   (chars% "http.request.method", .textOptions (OMap.ofList httpMethodOptions) (chars% "HTTP Request method: get, post...")),
   (chars% "url.full", .text (chars% "Full url")),
   (chars% "url.domain", .text (chars% "Domain of the url")),
   (chars% "http.response.mime_type", .text (chars% "HTTP response mime type")),
   (chars% "rule.name", .text (chars% "Name of the rule")),
   (chars% "dns.op_code", .text (chars% "Operation code in DNS")),
   (chars% "dns.answer.name", .text (chars% "DNS answer name")),
   (chars% "dns.answer.type", .text (chars% "DNS answer type")),
   (chars% "dns.question.name", .text (chars% "DNS question name")),
   (chars% "dns.question.type", .text (chars% "DNS question type")),
   (chars% "rule.id", .text (chars% "Identifier of the rule")),
   (chars% "url.path", .text (chars% "URL path: /api/v1")),
   (chars% "url.query", .text (chars% "URL query: ?a=b&c=d")),
   (chars% "url.extension", .text (chars% "URL extension: exe, html")),
   (chars% "network.duration", .decimal (chars% "Duration of the communication")),
   (chars% "user_agent.original", .text (chars% "Full user agent")),
   (chars% "event.outcome", .textOptions (OMap.ofList eventOutcomeOptions) (chars% "Outcome of the event"))]

/-- `get_default_schema`, src/events/base_schema.rs lines 5-436. -/
def getDefaultSchema : FieldSchema := ⟨OMap.ofList defaultFields, false, none⟩

end USiem
