import Verif.Model.Conf
import Verif.Model.Client

/-!
# The client's commands: options, name resolution, control connection, which families are knocked

Models `/repo/letmein/src/main.rs`, `/repo/letmein/src/resolver.rs`, `/repo/letmein/src/client.rs:31-74` and
`/repo/letmein/src/command/knock.rs`. What happens on the network is a list of actions; the answers of name servers and the
outcomes of connection attempts are parameters. Every query and every connection attempt is made at most once by a command,
so functions of the action are as general as answers that depend on the time.
The parser of address literals (`str::parse::<IpAddr>` of the standard library) is a parameter too.
-/

namespace Letmein

/-- `/repo/letmein/src/resolver.rs:20-29` `ResMode`. -/
inductive ResMode where
  | Ipv6 | Ipv4
  deriving DecidableEq, Repr

/-- `/repo/letmein/src/resolver.rs:31-45` `ResSrv`. -/
structure ResSrv where
  system : Bool
  quad9 : Bool
  google : Bool
  cloudflare : Bool
  deriving DecidableEq, Repr

/-- `/repo/letmein/src/resolver.rs:47-58` `ResCrypt`. -/
structure ResCrypt where
  tls : Bool
  https : Bool
  unencrypted : Bool
  deriving DecidableEq, Repr

/-- `/repo/letmein/src/resolver.rs:60-71` `ResConf`. -/
structure ResConf where
  mode : ResMode
  srv : ResSrv
  crypt : ResCrypt
  deriving DecidableEq, Repr

/-! ## Command line options -/

/-- `/repo/letmein/src/main.rs:44-52` the loop of `parse_dns`. -/
def parseDnsItems : List Str → ResSrv → R ResSrv
  | [], srv => .ok srv
  | item :: rest, srv =>
    let w := toLowercase (trim item)
    if w = "system".toList then parseDnsItems rest { srv with system := true }
    else if w = "quad9".toList then parseDnsItems rest { srv with quad9 := true }
    else if w = "google".toList then parseDnsItems rest { srv with google := true }
    else if w = "cloudflare".toList then parseDnsItems rest { srv with cloudflare := true }
    else .err

/-- `/repo/letmein/src/main.rs:37-54` `parse_dns`. -/
def parseDns (s : Str) : R ResSrv :=
  parseDnsItems (splitOn ',' s) { system := false, quad9 := false, google := false, cloudflare := false }

/-- `/repo/letmein/src/main.rs:63-70` the loop of `parse_dns_crypt`. -/
def parseDnsCryptItems : List Str → ResCrypt → R ResCrypt
  | [], crypt => .ok crypt
  | item :: rest, crypt =>
    let w := toLowercase (trim item)
    if w = "tls".toList then parseDnsCryptItems rest { crypt with tls := true }
    else if w = "https".toList then parseDnsCryptItems rest { crypt with https := true }
    else if w = "unencrypted".toList then parseDnsCryptItems rest { crypt with unencrypted := true }
    else .err

/-- `/repo/letmein/src/main.rs:57-72` `parse_dns_crypt`. -/
def parseDnsCrypt (s : Str) : R ResCrypt :=
  parseDnsCryptItems (splitOn ',' s) { tls := false, https := false, unencrypted := false }

/-! ## Name resolution -/

/-- `std::net::IpAddr::is_ipv4`. -/
def IpAddr.isIpv4 : IpAddr → Bool
  | .v4 _ => true
  | .v6 _ => false
/-- `std::net::IpAddr::is_ipv6`. -/
def IpAddr.isIpv6 : IpAddr → Bool
  | .v4 _ => false
  | .v6 _ => true

/-- `str::parse::<IpAddr>`, a parameter. -/
abbrev ParseIp := Str → Option IpAddr

/-- `/repo/letmein/src/resolver.rs:74-76` `is_ipv4_addr`. -/
def isIpv4Addr (parseIp : ParseIp) (host : Str) : Bool := ((parseIp host).map IpAddr.isIpv4).getD false

/-- `/repo/letmein/src/resolver.rs:79-81` `is_ipv6_addr`. -/
def isIpv6Addr (parseIp : ParseIp) (host : Str) : Bool := ((parseIp host).map IpAddr.isIpv6).getD false

/-- The name servers of `/repo/letmein/src/resolver.rs:139-185`. -/
inductive DnsService where
  | system | quad9 | google | cloudflare
  deriving DecidableEq, Repr

/-- How a name server is asked: as the operating system is configured, `*_tls()`, `*_https()` or without encryption. -/
inductive DnsTransport where
  | system | tls | https | plain
  deriving DecidableEq, Repr

/-- `/repo/letmein/src/resolver.rs:84-89` `get_record_type`: the record types asked for. -/
inductive RecordType where
  | AAAA | A
  deriving DecidableEq, Repr

/-- One lookup. -/
structure DnsQuery where
  service : DnsService
  transport : DnsTransport
  host : Str
  record : RecordType
  deriving DecidableEq

/-- `/repo/letmein/src/resolver.rs:84-89` `get_record_type`. -/
def getRecordType : ResMode → RecordType
  | .Ipv6 => .AAAA
  | .Ipv4 => .A

/-- Records of an answer (`RData` of the resolver library). -/
inductive RData where
  | A (a : Arr 4)
  | AAAA (a : Arr 16)
  | other
  deriving DecidableEq

/-- The answers to lookups; `none`: the lookup, or the creation of the resolver, fails. -/
abbrev Dns := DnsQuery → Option (List RData)

/-- `/repo/letmein/src/resolver.rs:92-104` `get_first_result`. -/
def getFirstResult (mode : ResMode) : List RData → R IpAddr
  | [] => .err
  | r :: rest =>
    match mode, r with
    | .Ipv6, .AAAA a => .ok (.v6 a)
    | .Ipv4, .A a => .ok (.v4 a)
    | _, _ => getFirstResult mode rest

/-- `/repo/letmein/src/resolver.rs:127-137` `lookup_and_return` under its condition, followed by the remaining code.
The queries made are collected. -/
def lookupAndReturn (dns : Dns) (mode : ResMode) (enabled : Bool) (q : DnsQuery) (rest : List DnsQuery × R IpAddr) :
    List DnsQuery × R IpAddr :=
  if enabled then
    match dns q with
    | some l => ([q], getFirstResult mode l)
    | none => (q :: rest.1, rest.2)
  else rest

/-- `/repo/letmein/src/resolver.rs:106-193` `resolve`: the queries made and the result. -/
def resolve (parseIp : ParseIp) (dns : Dns) (host : Str) (cfg : ResConf) : List DnsQuery × R IpAddr :=
  match parseIp host with
  | some addr =>
    ([], if cfg.mode = .Ipv4 ∧ !addr.isIpv4 then .err
      else if cfg.mode = .Ipv6 ∧ !addr.isIpv6 then .err
      else .ok addr)
  | none =>
    let q := fun service transport => ({ service, transport, host, record := getRecordType cfg.mode } : DnsQuery)
    let look := fun enabled service transport rest => lookupAndReturn dns cfg.mode enabled (q service transport) rest
    look cfg.srv.system .system .system <|
    look (cfg.crypt.tls && cfg.srv.quad9) .quad9 .tls <|
    look (cfg.crypt.tls && cfg.srv.google) .google .tls <|
    look (cfg.crypt.tls && cfg.srv.cloudflare) .cloudflare .tls <|
    look (cfg.crypt.https && cfg.srv.quad9) .quad9 .https <|
    look (cfg.crypt.https && cfg.srv.google) .google .https <|
    look (cfg.crypt.https && cfg.srv.cloudflare) .cloudflare .https <|
    look (cfg.crypt.unencrypted && cfg.srv.quad9) .quad9 .plain <|
    look (cfg.crypt.unencrypted && cfg.srv.google) .google .plain <|
    look (cfg.crypt.unencrypted && cfg.srv.cloudflare) .cloudflare .plain <|
    ([], .err)

/-! ## Control connection -/

/-- What the client does on the network before the first message. -/
inductive NetAct where
  | dns (q : DnsQuery)
  | tcp (addr : IpAddr) (port : UInt16)
  | udp (addr : IpAddr) (port : UInt16)
  deriving DecidableEq

/-- Does opening the socket succeed? -/
abbrev Opens := NetAct → Bool

/-- `/repo/letmein/src/client.rs:31-74` `Client::new`: resolve the name, connect by the one protocol. -/
def clientNew (parseIp : ParseIp) (dns : Dns) (opens : Opens) (host : Str) (cp : ControlPort) (cfg : ResConf) :
    List NetAct × R NetAct :=
  match resolve parseIp dns host cfg with
  | (qs, .ok addr) =>
    if cp.tcp then
      match rassert (!cp.udp) with
      | .ok _ =>
        let a := NetAct.tcp addr cp.port
        (qs.map .dns ++ [a], if opens a then .ok a else .err)
      | _ => (qs.map .dns, .panic)
    else
      match rassert cp.udp with
      | .ok _ =>
        let a := NetAct.udp addr cp.port
        (qs.map .dns ++ [a], if opens a then .ok a else .err)
      | _ => (qs.map .dns, .panic)
  | (qs, .err) => (qs.map .dns, .err)
  | (qs, .panic) => (qs.map .dns, .panic)

/-! ## The knock command -/

/-- `/repo/letmein/src/command/knock.rs:19-26` `AddrMode`. -/
inductive AddrMode where
  | TryBoth | Both | Ipv6 | Ipv4
  deriving DecidableEq, Repr

/-- `/repo/letmein/src/command/knock.rs:28-37` `From<(bool, bool)>`. -/
def AddrMode.ofFlags (ipv4 ipv6 : Bool) : AddrMode :=
  match ipv4, ipv6 with
  | false, false => .TryBoth
  | true, true => .Both
  | false, true => .Ipv6
  | true, false => .Ipv4

/-- `/repo/letmein/src/command/knock.rs:130-136` `KnockServer`. -/
structure KnockServer where
  addr : Str
  addrMode : AddrMode
  port : Option UInt16
  portTcp : Bool
  portUdp : Bool

/-- `/repo/letmein/src/command/knock.rs:139-156` `to_control_port`. -/
def KnockServer.toControlPort (s : KnockServer) (conf : Config) : ControlPort :=
  let cp := conf.port
  let cp := match s.port with
    | some p => { cp with port := p }
    | none => cp
  let cp := if s.portUdp then { cp with tcp := false, udp := true } else cp
  let cp := if s.portTcp then { cp with tcp := true, udp := false } else cp
  if cp.tcp && cp.udp then { cp with udp := false } else cp

/-- `/repo/letmein/src/command/knock.rs:195-240` the part of `run_knock` that decides which families are knocked; `knock` is
`seq.knock_sequence(mode)`. -/
def knockFamilies (parseIp : ParseIp) (addr : Str) (mode : AddrMode) (knock : ResMode → List NetAct × R Unit) :
    List NetAct × R Unit :=
  match mode with
  | .TryBoth =>
    if isIpv4Addr parseIp addr then knock .Ipv4
    else if isIpv6Addr parseIp addr then knock .Ipv6
    else
      match knock .Ipv6 with
      | (a6, .panic) => (a6, .panic)
      | (a6, res6) =>
        match knock .Ipv4 with
        | (a4, .panic) => (a6 ++ a4, .panic)
        | (a4, res4) => (a6 ++ a4, if res6 = .err ∧ res4 = .err then .err else .ok ())
  | .Both =>
    match knock .Ipv6 with
    | (a6, .ok _) => (a6 ++ (knock .Ipv4).1, (knock .Ipv4).2)
    | r => r
  | .Ipv6 => knock .Ipv6
  | .Ipv4 => knock .Ipv4

/-- `/repo/letmein/src/command/knock.rs:77-127` `knock_sequence`, seen from outside: `Client::new`, then the exchange of messages
(`knockSequence` in `Verif.Model.Client`), whose outcome is `exchange`. -/
def knockOnce (parseIp : ParseIp) (dns : Dns) (opens : Opens) (exchange : NetAct → R Unit) (host : Str) (cp : ControlPort)
    (srv : ResSrv) (crypt : ResCrypt) (mode : ResMode) : List NetAct × R Unit :=
  match clientNew parseIp dns opens host cp { mode, srv, crypt } with
  | (acts, .ok a) => (acts, exchange a)
  | (acts, .err) => (acts, .err)
  | (acts, .panic) => (acts, .panic)

/-- `/repo/letmein/src/command/knock.rs:160-241` `run_knock`. `exchange` is the outcome of the exchange of messages over the
connection, given the user, resource and key it is done with. -/
def runKnock (parseIp : ParseIp) (dns : Dns) (opens : Opens) (exchange : UserId → ResourceId → Key → NetAct → R Unit)
    (conf : Config) (server : KnockServer) (knockPort : UInt16) (user : Option UserId) (srv : ResSrv) (crypt : ResCrypt) :
    List NetAct × R Unit :=
  let user := user.getD conf.defaultUser
  match conf.key user with
  | none => ([], .err)
  | some key =>
    match conf.resourceIdByPort knockPort (some user) with
    | none => ([], .err)
    | some resource =>
      knockFamilies parseIp server.addr server.addrMode
        (knockOnce parseIp dns opens (exchange user resource key) server.addr (server.toControlPort conf) srv crypt)

end Letmein
