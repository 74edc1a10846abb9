import Verif.Model.Knock
import Verif.Spec.Conf

/-!
# Specification of name resolution and of the knock command
-/

namespace Letmein.Spec

/-- The address belongs to the family. -/
inductive InFamily : ResMode → IpAddr → Prop
  | v4 (a : Arr 4) : InFamily .Ipv4 (.v4 a)
  | v6 (a : Arr 16) : InFamily .Ipv6 (.v6 a)

/-- The record gives an address of the family. -/
inductive RecordAddr : ResMode → RData → IpAddr → Prop
  | a (a : Arr 4) : RecordAddr .Ipv4 (.A a) (.v4 a)
  | aaaa (a : Arr 16) : RecordAddr .Ipv6 (.AAAA a) (.v6 a)

/-- The first address of the family in an answer. -/
def FirstAddr (m : ResMode) (l : List RData) (a : IpAddr) : Prop :=
  ∃ x r y, l = x ++ r :: y ∧ RecordAddr m r a ∧ ∀ r' ∈ x, ¬ ∃ a', RecordAddr m r' a'

/-- The user allows this service. -/
def ServiceEnabled (srv : ResSrv) : DnsService → Prop
  | .system => srv.system = true
  | .quad9 => srv.quad9 = true
  | .google => srv.google = true
  | .cloudflare => srv.cloudflare = true

/-- The user allows this kind of transport. The system's resolver is used as it is, the others only by a chosen transport. -/
def TransportEnabled (crypt : ResCrypt) : DnsService → DnsTransport → Prop
  | .system, .system => True
  | .system, _ => False
  | _, .system => False
  | _, .tls => crypt.tls = true
  | _, .https => crypt.https = true
  | _, .plain => crypt.unencrypted = true

/-- The record type for a family. -/
inductive RecordFor : ResMode → RecordType → Prop
  | a : RecordFor .Ipv4 .A
  | aaaa : RecordFor .Ipv6 .AAAA

/-- The lookup is one the user allows, for the host and family wanted. -/
def MayAsk (cfg : ResConf) (host : Str) (q : DnsQuery) : Prop :=
  ServiceEnabled cfg.srv q.service ∧ TransportEnabled cfg.crypt q.service q.transport ∧ q.host = host ∧ RecordFor cfg.mode q.record

/-- The documented order: the system first, unencrypted last. -/
def transportRank : DnsTransport → Nat
  | .system => 0
  | .tls => 1
  | .https => 2
  | .plain => 3

/-- The order among services with the same transport. -/
def serviceRank : DnsService → Nat
  | .system => 0
  | .quad9 => 1
  | .google => 2
  | .cloudflare => 3

/-- The order of lookups. -/
def Before (q q' : DnsQuery) : Prop :=
  transportRank q.transport < transportRank q'.transport ∨
    (q.transport = q'.transport ∧ serviceRank q.service < serviceRank q'.service)

/-- A word among the comma separated ones. -/
def ListsWord (s : Str) (w : String) : Prop := ∃ ps, Pieces ',' s ps ∧ ∃ p ∈ ps, WordText p w

/-- A comma separated list of some of the words. -/
def WordList (s : Str) (ws : List String) : Prop := ∃ ps, Pieces ',' s ps ∧ ∀ p ∈ ps, ∃ w ∈ ws, WordText p w

/-- The option `--dns`. -/
def DnsText (s : Str) (srv : ResSrv) : Prop :=
  WordList s ["system", "quad9", "google", "cloudflare"] ∧
    (srv.system = true ↔ ListsWord s "system") ∧ (srv.quad9 = true ↔ ListsWord s "quad9") ∧
    (srv.google = true ↔ ListsWord s "google") ∧ (srv.cloudflare = true ↔ ListsWord s "cloudflare")

/-- The option `--dns-crypt`. -/
def DnsCryptText (s : Str) (crypt : ResCrypt) : Prop :=
  WordList s ["tls", "https", "unencrypted"] ∧
    (crypt.tls = true ↔ ListsWord s "tls") ∧ (crypt.https = true ↔ ListsWord s "https") ∧
    (crypt.unencrypted = true ↔ ListsWord s "unencrypted")

/-- The client contacts the server by TCP: enforced, or configured and UDP not enforced. -/
def ByTcp (server : KnockServer) (conf : Config) : Prop :=
  server.portTcp = true ∨ (server.portUdp = false ∧ conf.port.tcp = true)

/-- The port number of the server: given on the command line or configured. -/
def ServerPort (server : KnockServer) (conf : Config) (p : UInt16) : Prop :=
  server.port = some p ∨ (server.port = none ∧ conf.port.port = p)

/-- The action is the connection to the address, by the right protocol. -/
def Connection (server : KnockServer) (conf : Config) (addr : IpAddr) (act : NetAct) : Prop :=
  ∃ p, ServerPort server conf p ∧ ((ByTcp server conf ∧ act = .tcp addr p) ∨ (¬ ByTcp server conf ∧ act = .udp addr p))

/-- The family `m` has been knocked with success: a connection to one of its addresses was opened, and the exchange succeeded. -/
def KnockedOk (server : KnockServer) (conf : Config) (opens : Opens) (exchange : NetAct → R Unit) (acts : List NetAct) (m : ResMode) : Prop :=
  ∃ act ∈ acts, ∃ addr, InFamily m addr ∧ Connection server conf addr act ∧ opens act = true ∧ exchange act = .ok ()

/-- Action of the family: a query for its records or a connection to one of its addresses. -/
def OfFamily (server : KnockServer) (conf : Config) (m : ResMode) : NetAct → Prop
  | .dns q => RecordFor m q.record ∧ q.host = server.addr
  | act => ∃ addr, InFamily m addr ∧ Connection server conf addr act

end Letmein.Spec
